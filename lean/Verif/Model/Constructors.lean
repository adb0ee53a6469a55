import Verif.Model.History
import Verif.Model.Color
import Verif.Model.Typed.Annotations
import Verif.Model.Typed.Destination
import Verif.Model.Typed.Files
import Verif.Model.Typed.Fonts
import Verif.Model.Typed.Forms
import Verif.Model.Typed.Functions
import Verif.Model.Typed.Object
import Verif.Model.Typed.Pattern
import Verif.Model.Typed.Resources
import Verif.Model.Typed.Structure
import Verif.Model.Typed.XObject

/-!
# The typed constructors of `Chunk` (chunk.rs:247-493) and documents written with them
-/

namespace PdfW

/-- A typed constructor of `Chunk` other than its id argument, with the calls made on the writer it returns. -/
inductive TypedObject where
  /-- `pages` (chunk.rs:255-257) -/
  | pages (calls : List PagesCall)
  /-- `page` (chunk.rs:260-262) -/
  | page (calls : List PageCall)
  /-- `outline_item` (chunk.rs:270-272) -/
  | outlineItem (calls : List OutlineItemCall)
  /-- `destination` (chunk.rs:275-277) -/
  | destination (calls : List DestinationCall)
  /-- `file_spec` (chunk.rs:285-287) -/
  | fileSpec (calls : List FileSpecCall)
  /-- `struct_element` (chunk.rs:295-297) -/
  | structElement (calls : List StructElementCall)
  /-- `namespace` (chunk.rs:300-302) -/
  | namespaceDict (calls : List NamespaceCall)
  /-- `ext_graphics` (chunk.rs:338-340) -/
  | extGraphics (calls : List ExtGraphicsStateCall)
  /-- `type1_font` (chunk.rs:346-348) -/
  | type1Font (calls : List Type1FontCall)
  /-- `type3_font` (chunk.rs:351-353) -/
  | type3Font (calls : List Type3FontCall)
  /-- `type0_font` (chunk.rs:356-358) -/
  | type0Font (calls : List Type0FontCall)
  /-- `cid_font` (chunk.rs:361-363) -/
  | cidFont (calls : List CidFontCall)
  /-- `font_descriptor` (chunk.rs:366-368) -/
  | fontDescriptor (calls : List FontDescriptorCall)
  /-- `function_shading` (chunk.rs:387-389) -/
  | functionShading (calls : List FunctionShadingCall)
  /-- `shading_pattern` (chunk.rs:412-414) -/
  | shadingPattern (calls : List ShadingPatternCall)
  /-- `name_tree` (chunk.rs:463-465) -/
  | nameTree (calls : List NameTreeCall)
  /-- `number_tree` (chunk.rs:468-470) -/
  | numberTree (calls : List NumberTreeCall)
  /-- `annotation` (chunk.rs:476-478) -/
  | annotation (calls : List AnnotationCall)
  /-- `form_field` (chunk.rs:481-483) -/
  | formField (calls : List FieldCall)
  /-- `signature_field_lock` (chunk.rs:486-488) -/
  | signatureFieldLock (calls : List SignatureFieldLockCall)
  /-- `signature_seed_value` (chunk.rs:491-493) -/
  | signatureSeedValue (calls : List SignatureSeedValueCall)
  /-- `outline` (chunk.rs:265-267) -/
  | outline (calls : List OutlineCall)
  /-- `destinations` (chunk.rs:280-282): a typed dictionary; each destination is finished before the next insertion -/
  | destinations (named : List (Bytes × List DestinationCall))
  /-- `color_space` (chunk.rs:382-384) -/
  | colorSpace (call : ColorSpaceCall)
  /-- `exponential_function` (chunk.rs:439-441) -/
  | exponentialFunction (calls : List ExponentialCall)
  /-- `stitching_function` (chunk.rs:444-446) -/
  | stitchingFunction (calls : List StitchingCall)
  /-- `embedded_file` (chunk.rs:290-292) -/
  | embeddedFile (calls : List EmbeddedFileCall) (data : Bytes)
  /-- `metadata` (chunk.rs:305-307) -/
  | metadata (calls : List MetadataCall) (data : Bytes)
  /-- `image_xobject` (chunk.rs:316-322) -/
  | imageXObject (calls : List ImageXObjectCall) (data : Bytes)
  /-- `form_xobject` (chunk.rs:333-335) -/
  | formXObject (calls : List FormXObjectCall) (data : Bytes)
  /-- `cmap` (chunk.rs:374-376) -/
  | cmap (calls : List CmapStreamCall) (data : Bytes)
  /-- `stream_shading` (chunk.rs:392-398) -/
  | streamShading (calls : List StreamShadingCall) (data : Bytes)
  /-- `tiling_pattern` (chunk.rs:403-409) -/
  | tilingPattern (calls : List TilingPatternCall) (data : Bytes)
  /-- `icc_profile` (chunk.rs:422-424) -/
  | iccProfile (calls : List IccProfileCall) (data : Bytes)
  /-- `sampled_function` (chunk.rs:430-436) -/
  | sampledFunction (calls : List SampledFunctionCall) (data : Bytes)
  /-- `post_script_function` (chunk.rs:451-457) -/
  | postScriptFunction (calls : List PostScriptFunctionCall) (data : Bytes)
  /-- `stream` (chunk.rs:247-249) -/
  | stream (calls : List StreamCall) (data : Bytes)

/-- The effect of a typed constructor with this id, and of the calls on its writer, on the chunk (chunk.rs:247-493);
`none` is a panic. -/
def TypedObject.run (id : Ref) (ch : Chunk) : TypedObject → Option Chunk
  | .pages calls => some (ch.writeIndirect id (Pages.prog calls))
  | .page calls => some (ch.writeIndirect id (Page.prog calls))
  | .outlineItem calls => some (ch.writeIndirect id (OutlineItem.prog calls))
  | .destination calls => some (ch.writeIndirect id (Destination.prog calls))
  | .fileSpec calls => some (ch.writeIndirect id (FileSpec.prog calls))
  | .structElement calls => some (ch.writeIndirect id (StructElement.prog calls))
  | .namespaceDict calls => some (ch.writeIndirect id (Namespace.prog calls))
  | .extGraphics calls => some (ch.writeIndirect id (ExtGraphicsState.prog calls))
  | .type1Font calls => some (ch.writeIndirect id (Type1Font.prog calls))
  | .type3Font calls => some (ch.writeIndirect id (Type3Font.prog calls))
  | .type0Font calls => some (ch.writeIndirect id (Type0Font.prog calls))
  | .cidFont calls => some (ch.writeIndirect id (CidFont.prog calls))
  | .fontDescriptor calls => some (ch.writeIndirect id (FontDescriptor.prog calls))
  | .functionShading calls => some (ch.writeIndirect id (FunctionShading.prog calls))
  | .shadingPattern calls => some (ch.writeIndirect id (ShadingPattern.prog calls))
  | .nameTree calls => some (ch.writeIndirect id (NameTree.prog calls))
  | .numberTree calls => some (ch.writeIndirect id (NumberTree.prog calls))
  | .annotation calls => some (ch.writeIndirect id (Annotation.prog calls))
  | .formField calls => some (ch.writeIndirect id (Field.prog calls))
  | .signatureFieldLock calls => some (ch.writeIndirect id (SignatureFieldLock.prog calls))
  | .signatureSeedValue calls => some (ch.writeIndirect id (SignatureSeedValue.prog calls))
  | .outline calls => (Outline.run calls).map (ch.writeIndirect id)
  | .destinations named => some (ch.writeIndirect id (.dict (named.map fun e => (e.1, Destination.prog e.2))))
  | .colorSpace call => call.prog.map (ch.writeIndirect id)
  | .exponentialFunction calls => some (ch.writeIndirect id (PdfW.exponentialFunction calls))
  | .stitchingFunction calls => some (ch.writeIndirect id (PdfW.stitchingFunction calls))
  | .embeddedFile calls data => EmbeddedFile.write calls ch id data
  | .metadata calls data => Metadata.write calls ch id data
  | .imageXObject calls data => ImageXObject.write calls ch id data
  | .formXObject calls data => FormXObject.write calls ch id data
  | .cmap calls data => CmapStream.write calls ch id data
  | .streamShading calls data => StreamShading.write calls ch id data
  | .tilingPattern calls data => TilingPattern.write calls ch id data
  | .iccProfile calls data => IccProfile.write calls ch id data
  | .sampledFunction calls data => SampledFunction.write calls ch id data
  | .postScriptFunction calls data => PostScriptFunction.write calls ch id data
  | .stream calls data => Stream.write calls ch id data

/-- A call on a document through its typed methods. -/
inductive DocCall : Type 1 where
  /-- a typed constructor of `Chunk`, through `DerefMut` (lib.rs:500-504) -/
  | object (id : Ref) (o : TypedObject)
  /-- any other method of `Chunk`: `indirect` with arbitrary content, `extend`, `merge_limits`, `renumber_into` -/
  | chunk (c : ChunkCall)
  /-- `Pdf::set_version` (lib.rs:261-272) -/
  | setVersion (major minor : UInt8)
  /-- `Pdf::set_binary_marker` (lib.rs:281-284) -/
  | setBinaryMarker (m : UInt8 × UInt8 × UInt8 × UInt8)
  /-- `Pdf::set_file_id` (lib.rs:290-292) -/
  | setFileId (id : Bytes × Bytes)
  /-- `Pdf::catalog` (lib.rs:295-298) -/
  | catalog (id : Ref) (calls : List CatalogCall)
  /-- `Pdf::document_info` (lib.rs:301-307) -/
  | documentInfo (id : Ref) (calls : List DocumentInfoCall)

/-- The effect of a call on a document; `none` is a panic (chunk.rs:247-493, lib.rs:261-307). -/
def DocCall.run (p : Pdf) : DocCall → Option Pdf
  | .object id o => (o.run id p.chunk).map fun ch => { p with chunk := ch }
  | .chunk c => (c.run p.chunk).map fun ch => { p with chunk := ch }
  | .setVersion a b => some (p.setVersion a b)
  | .setBinaryMarker m => some (p.setBinaryMarker m)
  | .setFileId id => some (p.setFileId id)
  | .catalog id calls => if calls.any CatalogCall.panics then none else some (p.catalog id (calls.flatMap CatalogCall.entries))
  | .documentInfo id calls => some (p.documentInfo id (calls.flatMap DocumentInfoCall.entries))

/-- The document built by a sequence of calls, from an empty one (lib.rs:222-253). -/
def runDoc : Pdf → List DocCall → Option Pdf
  | p, [] => some p
  | p, c :: cs => match c.run p with | some p => runDoc p cs | none => none

end PdfW
