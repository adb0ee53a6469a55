import Verif.Model.Content
import Verif.Model.Cmap
import Verif.Model.Roles
import Verif.Model.Function
import Verif.Model.Color
import Verif.Model.Chunk

/-!
# Values used by the typed writers

The typed writers (`/repo/src/{structure,annotations,…}.rs`) hold a `Dict`, an `Array` or a `Stream`; every public method
inserts entries (items) into it. A method is modelled by the entries it inserts, as trees of calls (`Prog`): running the tree
(`Prog.run`, `Chunk.writeIndirect`, `Chunk.writeStream`) is what the bytes are. `TypedArray`/`TypedDict` (object.rs:862-925,
1040-1105) are lists of their items.
-/

namespace PdfW

/-- `Obj::primitive` of an `i32` (object.rs:51-62). -/
def pInt (n : Int) : Prog := .prim (.int n)
/-- … of an `f32` (object.rs:64-73). -/
def pReal (x : F32) : Prog := .prim (.real x)
/-- … of a `bool` (object.rs:38-49). -/
def pBool (x : Bool) : Prog := .prim (.bool x)
/-- … of a `Name` (object.rs:334-354). -/
def pName (n : Bytes) : Prog := .prim (.name n)
/-- … of a `Str` (object.rs:97-149). -/
def pStr (s : Bytes) : Prog := .prim (.str s)
/-- … of a `TextStr` (object.rs:165-185). -/
def pText (t : List Char) : Prog := .prim (.textStr t)
/-- … of a `Ref` (object.rs:444-453). -/
def pRef (r : Ref) : Prog := .prim (.ref r)
/-- … of a `Date` (object.rs:604-632). -/
def pDate (d : Date) : Prog := .prim (.date d)
/-- … of a `Rect` (object.rs:483-502). -/
def pRect (r : Rect) : Prog := .prim (.rect r)

/-- `impl TextStrLike` (object.rs:151-187, 243-290): plain text or text with language tags. -/
inductive TextLike where
  | plain (t : List Char)
  | tagged (segs : List (LangId × List Char))

/-- Writing it. -/
def TextLike.prog : TextLike → Prog
  | .plain t => pText t
  | .tagged segs => .prim (.textStrLang segs)

/-- `Name(format!("{major}.{minor}").as_bytes())` (structure.rs:98-101, 246-249). -/
def versionName (major minor : UInt8) : Bytes := natBytes major.toNat ++ [ch!"."] ++ natBytes minor.toNat
/-- Writing it as a name. -/
def pVersion (major minor : UInt8) : Prog := pName (versionName major minor)

/-- `u32 as i32`. -/
def asI32 (n : Nat) : Int := if n % 4294967296 < 2147483648 then n % 4294967296 else (n % 4294967296 : Nat) - 4294967296

/-- `flags.bits() as i32`, where the flags are the union of some of the constants; their bits are `bs`. (Every value of a
`bitflags` type with only known bits is such a union; unknown bits cannot be set through the constants.) -/
def pFlags (bs : List Nat) : Prog := pInt (asI32 (bs.foldl (· ||| ·) 0))

/-- `choice_value`/`choice_default_value` (forms.rs:397-403, 420-426): text, or the null object. -/
def optText : Option (List Char) → Prog
  | some t => pText t
  | none => .prim .null

/-- `TransitionAngle` (transitions.rs:119-128). -/
inductive TransitionAngle where
  | leftToRight | bottomToTop | rightToLeft | topToBottom | topLeftToBottomRight | none

/-- `TransitionAngle::write_to_obj` (transitions.rs:131-140). -/
def TransitionAngle.prog : TransitionAngle → Prog
  | .leftToRight => pInt 0
  | .bottomToTop => pInt 90
  | .rightToLeft => pInt 180
  | .topToBottom => pInt 270
  | .topLeftToBottomRight => pInt 315
  | .none => pName b!"None"

/-- `LineHeight` (attributes.rs:639-648). -/
inductive LineHeight where
  | normal | auto | custom (height : F32)

/-- `LineHeight::write` (attributes.rs:651-657). -/
def LineHeight.prog : LineHeight → Prog
  | .normal => pName b!"Normal"
  | .auto => pName b!"Auto"
  | .custom h => pReal h

/-- `GlyphOrientationVertical` (attributes.rs:710-716). -/
inductive GlyphOrientationVertical where
  | auto | angle (n : Int)

/-- `GlyphOrientationVertical::write` (attributes.rs:719-724). -/
def GlyphOrientationVertical.prog : GlyphOrientationVertical → Prog
  | .auto => pName b!"Auto"
  | .angle n => pInt n

/-- `CertificateKeyUsage` (forms.rs:1112-1131). -/
structure KeyUsage where
  digitalSignature : Option Bool
  nonRepudiation : Option Bool
  keyEncipherment : Option Bool
  dataEncipherment : Option Bool
  keyAgreement : Option Bool
  keyCertSign : Option Bool
  crlSign : Option Bool
  encipherOnly : Option Bool
  decipherOnly : Option Bool

/-- `CertificateKeyUsage::to_byte` (forms.rs:1148-1154). -/
def KeyUsage.toByte : Option Bool → UInt8
  | some true => ch!"1"
  | some false => ch!"0"
  | none => ch!"X"

/-- `CertificateKeyUsage::into_ascii` (forms.rs:1134-1146). -/
def KeyUsage.intoAscii (u : KeyUsage) : Bytes :=
  [KeyUsage.toByte u.digitalSignature, KeyUsage.toByte u.nonRepudiation, KeyUsage.toByte u.keyEncipherment,
   KeyUsage.toByte u.dataEncipherment, KeyUsage.toByte u.keyAgreement, KeyUsage.toByte u.keyCertSign,
   KeyUsage.toByte u.crlSign, KeyUsage.toByte u.encipherOnly, KeyUsage.toByte u.decipherOnly]

/-- `Sides` (attributes.rs:195-208). -/
structure Sides (α : Type) where
  before : α
  after : α
  start : α
  end_ : α

/-- `Sides::uniform` (attributes.rs:224-234). -/
def Sides.uniform {α : Type} (x : α) : Sides α := ⟨x, x, x, x⟩

/-- `Sides::is_uniform` (attributes.rs:237-242); `eq` is the `PartialEq` of the type. -/
def Sides.isUniform {α : Type} (eq : α → α → Bool) (s : Sides α) : Bool :=
  eq s.before s.after && eq s.before s.start && eq s.before s.end_

/-- `Sides::into_array` (attributes.rs:245-247). -/
def Sides.intoArray {α : Type} (s : Sides α) : List α := [s.before, s.after, s.start, s.end_]

/-- `Sides::write_map_primitive` and `Sides::write_iter` (attributes.rs:250-288). -/
def Sides.write {α : Type} (eq : α → α → Bool) (f : α → Prog) (s : Sides α) : Prog :=
  if s.isUniform eq then f s.before else .array (s.intoArray.map f)

/-- A color `[f32; 3]` of an attribute. -/
structure Rgb where
  r : F32
  g : F32
  b : F32

/-- `PartialEq` of `[f32; 3]`. -/
def Rgb.eq (x y : Rgb) : Bool := x.r.eq y.r && x.g.eq y.g && x.b.eq y.b

/-- `array().typed().items(color)`. -/
def Rgb.prog (x : Rgb) : Prog := .array [pReal x.r, pReal x.g, pReal x.b]

/-- `AttributeOwner` (attributes.rs:1155-1195). -/
inductive AttributeOwner where
  | layout | list | printField | table | artifact | xml | html3_2 | html4 | html5 | oeb | rtf1_05 | css1 | css2 | css3 | rdfa1_1
  | aria1_1 | feNote | nso | user

/-- `AttributeOwner::to_name` (attributes.rs:1203-1227). -/
def AttributeOwner.toName (iso2020 : Bool) : AttributeOwner → Bytes
  | .layout => b!"Layout"
  | .list => b!"List"
  | .printField => b!"PrintField"
  | .table => b!"Table"
  | .artifact => b!"Artifact"
  | .xml => b!"XML-1.00"
  | .html3_2 => b!"HTML-3.20"
  | .html4 => b!"HTML-4.01"
  | .html5 => b!"HTML-5.00"
  | .oeb => b!"OEB-1.00"
  | .rtf1_05 => b!"RTF-1.05"
  | .css1 => if iso2020 then b!"CSS-1" else b!"CSS-1.00"
  | .css2 => if iso2020 then b!"CSS-2" else b!"CSS-2.00"
  | .css3 => b!"CSS-3"
  | .rdfa1_1 => b!"RDFa-1.10"
  | .aria1_1 => b!"ARIA-1.1"
  | .feNote => b!"FENote"
  | .nso => b!"NSO"
  | .user => b!"UserProperties"

/-- `role.to_name(&mut [0; 6])` (structure.rs:451, 1608) of a PDF 2.0 role as the entry `S`; the list is empty exactly if `to_name`
panics, which C35 shows does not happen. -/
def role20 (role : StructRole2) : List (Bytes × Prog) :=
  match role.toName with
  | some n => [(b!"S", pName n)]
  | none => []

/-- `SystemInfo::write` (font.rs:1047-1052). -/
def SystemInfo.prog (info : SystemInfo) : Prog :=
  .dict [(b!"Registry", pStr info.registry), (b!"Ordering", pStr info.ordering), (b!"Supplement", pInt info.supplement)]

end PdfW
