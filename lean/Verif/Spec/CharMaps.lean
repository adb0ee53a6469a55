import Verif.Spec.Fonts
import Verif.Spec.Colors
import Verif.Spec.Associated

/-!
# Embedded CMaps of composite fonts, and labels of simple fonts (ISO 32000-1, 9.7.5, Tables 111, 112 and 120)

A reader that is given only the bytes of a file and the number of a font: for a composite font it follows the encoding to the CMap that is embedded, and from
there to the one on which that CMap is based, until there is none or a predefined one; for a simple font it reads the name by which content streams may refer
to it, and for a Type 3 font the bounding box. It knows nothing about the writer.
-/

namespace PdfW.Spec
open PdfW

/-! ## What there is -/

/-- An embedded CMap (Table 120): the number of its stream, its name, its character collection, its writing mode, and the CMap file. -/
structure CharMap where
  number : Nat
  name : Bytes
  registry : Bytes
  ordering : Bytes
  supplement : Int
  vertical : Bool
  data : Bytes
deriving DecidableEq

/-- The CMaps of a font: the embedded ones, each based on the next one, and a predefined one that is the last. -/
structure CharMaps where
  embedded : List CharMap
  predefined : Option Bytes
deriving DecidableEq

/-- What simple fonts have besides encoding and glyphs: the name (Tables 111 and 112), the bounding box (Table 112). -/
structure FontLabel where
  name : Option Bytes
  bbox : Option (List Val)

/-! ## The reader -/

/-- The writing mode. -/
def readVertical : Val → Option Bool
  | .int 0 => some false
  | .int 1 => some true
  | _ => none

def readCharMap (unf : Val → Bytes → Option Bytes) (f : FileEnd) (file : Bytes) (n : Nat) (d : List (Bytes × Val)) : Option CharMap :=
  (requiredEntry b!"Type" d nameOf).bind fun t => if t = b!"CMap" then
    (requiredEntry b!"CMapName" d nameOf).bind fun name => (requiredEntry b!"CIDSystemInfo" d (followDict f file)).bind fun s =>
      (requiredEntry b!"Registry" s strOf).bind fun registry => (requiredEntry b!"Ordering" s strOf).bind fun ordering =>
      (requiredEntry b!"Supplement" s intOf).bind fun supplement => (optionalEntry b!"WMode" d readVertical).bind fun vertical =>
      (decodedStream unf f file n).map fun data => ⟨n, name, registry, ordering, supplement, vertical.getD false, data⟩
  else none

/-- The CMaps, starting with this value; there are at most `depth` embedded ones. -/
def readCharMaps (unf : Val → Bytes → Option Bytes) (f : FileEnd) (file : Bytes) : Nat → Val → Option CharMaps
  | _, .name n => some ⟨[], some n⟩
  | depth + 1, .ref n 0 => (anyDict f file n).bind fun d => (readCharMap unf f file n d).bind fun c => (optionalEntry b!"UseCMap" d some).bind fun next =>
      match next with
      | none => some ⟨[c], none⟩
      | some v => (readCharMaps unf f file depth v).map fun r => ⟨c :: r.embedded, r.predefined⟩
  | _, _ => none

/-- The CMaps of the composite font with this number. -/
def fileCharMaps (unf : Val → Bytes → Option Bytes) (file : Bytes) (n depth : Nat) : Option CharMaps :=
  (readFile unf file).bind fun f => (anyDict f file n).bind fun d => (requiredEntry b!"Subtype" d nameOf).bind fun t =>
    if t = b!"Type0" then (requiredEntry b!"Encoding" d some).bind (readCharMaps unf f file depth) else none

/-- Name and bounding box of the simple font with this number. -/
def fileFontLabel (unf : Val → Bytes → Option Bytes) (file : Bytes) (n : Nat) : Option FontLabel :=
  (readFile unf file).bind fun f => (anyDict f file n).bind fun d => (optionalEntry b!"Name" d nameOf).bind fun name =>
    (optionalEntry b!"FontBBox" d itemsOf).map fun bbox => ⟨name, bbox⟩

/-! ## What was asked for -/

/-- A CMap stream as given to the API. -/
structure GivenCharMap where
  id : Ref
  calls : List CmapStreamCall
  name : Bytes
  info : SystemInfo
  mode : Option WMode
  stored : Bytes
  data : Bytes

/-- It was written. -/
structure GivenCharMap.Written (unf : Val → Bytes → Option Bytes) (items : List Item) (g : GivenCharMap) : Prop where
  object : HasObject items g.id (.stream (CmapStream.entries g.calls) g.stored)
  noType : NoCall CmapStreamMeans b!"Type" g.calls
  name : OnlyCall CmapStreamMeans b!"CMapName" g.calls (.name g.name)
  info : OnlyCall CmapStreamMeans b!"CIDSystemInfo" g.calls (.systemInfo g.info)
  mode : MaybeCall CmapStreamMeans b!"WMode" g.calls g.mode .writingMode
  holds : StreamHolds CmapStreamMeans .stream unf g.calls g.stored g.data

/-- It is based on the first of these, or else on the predefined one, if any. -/
def UsesSet (calls : List CmapStreamCall) : List GivenCharMap → Option Bytes → Prop
  | [], none => NoCall CmapStreamMeans b!"UseCMap" calls
  | [], some n => OnlyCall CmapStreamMeans b!"UseCMap" calls (.useCmapPredefined n)
  | g :: _, _ => OnlyCall CmapStreamMeans b!"UseCMap" calls (.useCmapStream g.id)

/-- Each is based on the next one, and the last one on the predefined one, if any. -/
def CharMapsWritten (unf : Val → Bytes → Option Bytes) (items : List Item) : List GivenCharMap → Option Bytes → Prop
  | [], _ => True
  | g :: gs, base => g.Written unf items ∧ UsesSet g.calls gs base ∧ CharMapsWritten unf items gs base

/-- The encoding of the font is the first of these, or else the predefined one. -/
def CharMapsSet (calls : List Type0FontCall) : List GivenCharMap → Option Bytes → Prop
  | [], none => False
  | [], some n => OnlyCall Type0FontMeans b!"Encoding" calls (.encodingPredefined n)
  | g :: _, _ => OnlyCall Type0FontMeans b!"Encoding" calls (.encodingCmap g.id)

/-- What a reader is to find; the default is horizontal writing. -/
def GivenCharMap.expected (g : GivenCharMap) : CharMap :=
  ⟨g.id.get.toNat, g.name, g.info.registry, g.info.ordering, g.info.supplement, g.mode == some .vertical, g.data⟩

end PdfW.Spec
