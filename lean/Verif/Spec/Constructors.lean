import Verif.Model.Constructors
import Verif.Spec.Color
import Verif.Spec.History
import Verif.Spec.Finish
import Verif.Spec.Typed.Annotations
import Verif.Spec.Typed.Destination
import Verif.Spec.Typed.Files
import Verif.Spec.Typed.Fonts
import Verif.Spec.Typed.Forms
import Verif.Spec.Typed.Functions
import Verif.Spec.Typed.Object
import Verif.Spec.Typed.Pattern
import Verif.Spec.Typed.Resources
import Verif.Spec.Typed.Structure
import Verif.Spec.Typed.XObject

/-!
# What the objects written by the typed constructors of a chunk are
-/

namespace PdfW.Spec
open PdfW

/-- A direct object (not a stream) with this property. -/
def IsDirect (P : Val → Prop) : IVal → Prop
  | .val v => P v
  | .stream _ _ => False

/-- A stream with this data, the length of the data, and after it these dictionary entries. -/
def IsStream (ms : List (Bytes × (Val → Prop))) (data : Bytes) : IVal → Prop
  | .val _ => False
  | .stream d data' => data' = data ∧ ∃ d', d = (b!"Length", .int data.length) :: d' ∧ EntriesAre ms d'

/-- The kind of object a typed constructor promises (the object the specification documents for it), with what the
calls on the writer stand for. -/
def _root_.PdfW.TypedObject.IsA (rd : Reading) : TypedObject → IVal → Prop
  | .pages calls => IsDirect (IsPages calls)
  | .page calls => IsDirect (IsPage rd calls)
  | .outlineItem calls => IsDirect (IsOutlineItem calls)
  | .destination calls => IsDirect (IsDestination calls)
  | .fileSpec calls => IsDirect (IsFileSpec calls)
  | .structElement calls => IsDirect (IsStructElement calls)
  | .namespaceDict calls => IsDirect (IsNamespace rd calls)
  | .extGraphics calls => IsDirect (IsExtGraphicsState rd calls)
  | .type1Font calls => IsDirect (IsType1Font calls)
  | .type3Font calls => IsDirect (IsType3Font calls)
  | .type0Font calls => IsDirect (IsType0Font calls)
  | .cidFont calls => IsDirect (IsCidFont calls)
  | .fontDescriptor calls => IsDirect (IsFontDescriptor calls)
  | .functionShading calls => IsDirect (IsFunctionShading calls)
  | .shadingPattern calls => IsDirect (IsShadingPattern rd calls)
  | .nameTree calls => IsDirect (IsNameTree rd calls)
  | .numberTree calls => IsDirect (IsNumberTree calls)
  | .annotation calls => IsDirect (IsAnnotation rd calls)
  | .formField calls => IsDirect (IsField rd calls)
  | .signatureFieldLock calls => IsDirect (IsSignatureFieldLock calls)
  | .signatureSeedValue calls => IsDirect (IsSignatureSeedValue rd calls)
  | .outline calls => IsDirect (IsOutline calls)
  | .destinations named => IsDirect (DictIs (named.map fun e => (e.1, IsDestination e.2)))
  | .colorSpace call => IsDirect (ColorSpaceMeans call)
  | .exponentialFunction calls => IsDirect (IsExponential calls)
  | .stitchingFunction calls => IsDirect (IsStitching calls)
  | .embeddedFile calls data => IsStream (EmbeddedFileEntries calls) data
  | .metadata calls data => IsStream (MetadataEntries calls) data
  | .imageXObject calls data => IsStream (ImageXObjectEntries calls) data
  | .formXObject calls data => IsStream (FormXObjectEntries calls) data
  | .cmap calls data => IsStream (CmapStreamEntries calls) data
  | .streamShading calls data => IsStream (StreamShadingEntries calls) data
  | .tilingPattern calls data => IsStream (TilingPatternEntries calls) data
  | .iccProfile calls data => IsStream (IccProfileEntries calls) data
  | .sampledFunction calls data => IsStream (SampledFunctionEntries calls) data
  | .postScriptFunction calls data => IsStream (PostScriptFunctionEntries calls) data
  | .stream calls data => IsStream (StreamEntries calls) data

/-- None of the calls is one whose output departs from the standard (see C45). -/
def _root_.PdfW.TypedObject.conforming : TypedObject → Bool
  | .page calls => calls.all PageCall.conforming
  | .namespaceDict calls => calls.all NamespaceCall.conforming
  | .extGraphics calls => calls.all ExtGraphicsStateCall.conforming
  | .shadingPattern calls => calls.all ShadingPatternCall.conforming
  | .nameTree calls => calls.all NameTreeCall.conforming
  | .annotation calls => calls.all AnnotationCall.conforming
  | .formField calls => calls.all FieldCall.conforming
  | .signatureSeedValue calls => calls.all SignatureSeedValueCall.conforming
  | _ => true

/-- The content of the object, as far as it must be known to say which values PDF can represent. -/
def _root_.PdfW.TypedObject.body : TypedObject → Option Body
  | .pages calls => some (.val (Pages.prog calls))
  | .page calls => some (.val (Page.prog calls))
  | .outlineItem calls => some (.val (OutlineItem.prog calls))
  | .destination calls => some (.val (Destination.prog calls))
  | .fileSpec calls => some (.val (FileSpec.prog calls))
  | .structElement calls => some (.val (StructElement.prog calls))
  | .namespaceDict calls => some (.val (Namespace.prog calls))
  | .extGraphics calls => some (.val (ExtGraphicsState.prog calls))
  | .type1Font calls => some (.val (Type1Font.prog calls))
  | .type3Font calls => some (.val (Type3Font.prog calls))
  | .type0Font calls => some (.val (Type0Font.prog calls))
  | .cidFont calls => some (.val (CidFont.prog calls))
  | .fontDescriptor calls => some (.val (FontDescriptor.prog calls))
  | .functionShading calls => some (.val (FunctionShading.prog calls))
  | .shadingPattern calls => some (.val (ShadingPattern.prog calls))
  | .nameTree calls => some (.val (NameTree.prog calls))
  | .numberTree calls => some (.val (NumberTree.prog calls))
  | .annotation calls => some (.val (Annotation.prog calls))
  | .formField calls => some (.val (Field.prog calls))
  | .signatureFieldLock calls => some (.val (SignatureFieldLock.prog calls))
  | .signatureSeedValue calls => some (.val (SignatureSeedValue.prog calls))
  | .outline calls => some (.val (Outline.prog calls))
  | .destinations named => some (.val (.dict (named.map fun e => (e.1, Destination.prog e.2))))
  | .colorSpace call => call.prog.map .val
  | .exponentialFunction calls => some (.val (PdfW.exponentialFunction calls))
  | .stitchingFunction calls => some (.val (PdfW.stitchingFunction calls))
  | .embeddedFile calls data => some (.stream (EmbeddedFile.entries calls) data)
  | .metadata calls data => some (.stream (Metadata.entries calls) data)
  | .imageXObject calls data => some (.stream (ImageXObject.entries calls) data)
  | .formXObject calls data => some (.stream (FormXObject.entries calls) data)
  | .cmap calls data => some (.stream (CmapStream.entries calls) data)
  | .streamShading calls data => some (.stream (StreamShading.entries calls) data)
  | .tilingPattern calls data => some (.stream (TilingPattern.entries calls) data)
  | .iccProfile calls data => some (.stream (IccProfile.entries calls) data)
  | .sampledFunction calls data => some (.stream (SampledFunction.entries calls) data)
  | .postScriptFunction calls data => some (.stream (PostScriptFunction.entries calls) data)
  | .stream calls data => some (.stream (Stream.entries calls) data)

/-- PDF can represent every value in the object, in this mode. -/
def _root_.PdfW.TypedObject.Representable (id : Ref) (o : TypedObject) (pretty : Bool) : Prop := ∀ b, o.body = some b → ItemOk ⟨id, b, pretty⟩

/-- The last of the calls that this function selects something from. -/
def lastOf {β : Type u} {γ : Type v} (g : γ → Option β) (calls : List γ) : Option β := calls.reverse.findSome? g

/-- The trailer: the size, the catalog, the document information and the identifier that were set last. -/
def docTrailer (calls : List DocCall) (size : Nat) : List (Bytes × Val) :=
  [(b!"Size", .int size)] ++
    (lastOf (fun c => match c with | DocCall.catalog id _ => some id | _ => none) calls).toList.map (fun r => (b!"Root", Val.ref r.get.toNat 0)) ++
    (lastOf (fun c => match c with | DocCall.documentInfo id _ => some id | _ => none) calls).toList.map (fun r => (b!"Info", Val.ref r.get.toNat 0)) ++
    (lastOf (fun c => match c with | DocCall.setFileId id => some id | _ => none) calls).toList.map (fun i => (b!"ID", Val.arr [.str i.1, .str i.2]))

/-- The id of the object a call writes; `none` for a call that sets something. -/
def docCallId : DocCall → Option Ref
  | .object id _ => some id
  | .catalog id _ => some id
  | .documentInfo id _ => some id
  | _ => none

/-- The call is one of the typed methods. -/
def docCallTyped : DocCall → Bool
  | .chunk _ => false
  | _ => true

/-- A document with these calls (lib.rs:222-253). -/
def Builds (pretty : Bool) (calls : List DocCall) (p : Pdf) : Prop := runDoc (Pdf.withSettings pretty) calls = some p

end PdfW.Spec
