import Verif.Model.Typed.Base
import Verif.Spec.Color
import Verif.Spec.Roles
import Verif.Spec.Content
import Verif.Model.Chunk
import Verif.Spec.Reader

/-!
# What the values written by typed methods must be

Read-back predicates for the argument types of the typed API, in terms of the values a PDF reader obtains.
-/

namespace PdfW.Spec
open PdfW

/-- The integer `n`. -/
def IsInt (n : Int) (v : Val) : Prop := v = .int n
/-- A boolean. -/
def IsBool (x : Bool) (v : Val) : Prop := v = .bool x
/-- A name. -/
def IsName (n : Bytes) (v : Val) : Prop := v = .name n
/-- A byte string. -/
def IsStr (s : Bytes) (v : Val) : Prop := v = .str s
/-- A text string with this text (7.9.2.2). -/
def IsText (t : List Char) (v : Val) : Prop := ∃ s, v = .str s ∧ decodeText s = some t
/-- A text string with this text, or with these language-tagged segments. -/
def IsTextLike : TextLike → Val → Prop
  | .plain t, v => IsText t v
  | .tagged segs, v => ∃ s, v = .str s ∧ decodeLangText s = some (segs.map expectedSeg)
/-- A reference to the object. -/
def IsRef (r : Ref) (v : Val) : Prop := v = .ref r.get.toNat 0
/-- A date string (7.9.4). -/
def IsDate (d : Date) (v : Val) : Prop := ∃ s, v = .str s ∧ readDate s = some (expectedDate d)
/-- A rectangle (7.9.5). -/
def IsRect (r : Rect) (v : Val) : Prop := ArrayIs [NumIs r.x1, NumIs r.y1, NumIs r.x2, NumIs r.y2] v

/-- `major.minor`, both in decimal digits. -/
def readVersion (n : Bytes) : Option (Nat × Nat) :=
  let major := n.takeWhile isDigit
  match n.dropWhile isDigit with
  | dot :: minor =>
    if dot = ch!"." ∧ major ≠ [] ∧ minor ≠ [] ∧ minor.all isDigit then some (digitsVal major, digitsVal minor) else none
  | [] => none
/-- A name that is a version number. -/
def IsVersion (major minor : UInt8) (v : Val) : Prop := ∃ n, v = .name n ∧ readVersion n = some (major.toNat, minor.toNat)

/-- An integer of which exactly the bits at these positions are set (the lowest bit has position 1). -/
def FlagsAre (positions : List Nat) (v : Val) : Prop :=
  ∃ n : Nat, v = .int n ∧ ∀ i, n.testBit i = true ↔ i + 1 ∈ positions

/-- The zoom of an `XYZ` destination (Table 151): "A zoom value of 0 has the same meaning as a null value", which leaves it
unchanged. -/
def IsZoom : Option F32 → Val → Prop
  | some z, v => NumIs z v
  | none, v => v = .null ∨ NumIs F32.zero v

/-- A transition's direction (Table 162, Di): degrees counterclockwise from left to right, or `None`. -/
def IsAngle : TransitionAngle → Val → Prop
  | .leftToRight, v => v = .int 0
  | .bottomToTop, v => v = .int 90
  | .rightToLeft, v => v = .int 180
  | .topToBottom, v => v = .int 270
  | .topLeftToBottomRight, v => v = .int 315
  | .none, v => v = .name b!"None"

/-- A CIDSystemInfo dictionary (Table 116). -/
def IsSystemInfo (info : SystemInfo) : Val → Prop :=
  DictIs [(b!"Registry", IsStr info.registry), (b!"Ordering", IsStr info.ordering), (b!"Supplement", IsInt info.supplement)]

/-- The Panose entry (Table 124): a 12-byte string of family class, subclass and the ten PANOSE bytes. -/
def IsPanose (familyClass subclass : UInt8) (panose : Fin 10 → UInt8) (v : Val) : Prop :=
  ∃ s, v = .str s ∧ s.length = 12 ∧ s[0]? = some familyClass ∧ s[1]? = some subclass ∧ ∀ i : Fin 10, s[i.val + 2]? = some (panose i)

/-- Text, or null if there is none. -/
def IsOptText : Option (List Char) → Val → Prop
  | some t, v => IsText t v
  | none, v => v = .null

/-- A character of a key usage string (Table 235): 0 must not be set, 1 must be set, X does not matter. -/
def isoKeyUsageBit : UInt8 → Option (Option Bool)
  | 48 => some (some false)
  | 49 => some (some true)
  | 88 => some none
  | _ => none
/-- The bits of a key usage string in the order of RFC 3280. -/
def IsKeyUsage (u : KeyUsage) (v : Val) : Prop :=
  ∃ s, v = .str s ∧ s.map isoKeyUsageBit =
    [u.digitalSignature, u.nonRepudiation, u.keyEncipherment, u.dataEncipherment, u.keyAgreement, u.keyCertSign, u.crlSign,
     u.encipherOnly, u.decipherOnly].map some

/-- One value for all four edges, or an array of four in the order before, after, start, end (Table 343). -/
def SidesAre {α : Type} (P : α → Val → Prop) (s : Sides α) (v : Val) : Prop :=
  (P s.before v ∧ P s.after v ∧ P s.start v ∧ P s.end_ v) ∨ ArrayIs [P s.before, P s.after, P s.start, P s.end_] v

/-- A number of the same value (a zero may have either sign). -/
def IsNumber (x : F32) (v : Val) : Prop := ∃ y : F32, y.sval = x.sval ∧ NumIs y v

/-- An RGB color. -/
def IsRgb (x : Rgb) : Val → Prop := ArrayIs [IsNumber x.r, IsNumber x.g, IsNumber x.b]

/-- LineHeight (Table 345). -/
def IsLineHeight : LineHeight → Val → Prop
  | .normal, v => v = .name b!"Normal"
  | .auto, v => v = .name b!"Auto"
  | .custom h, v => NumIs h v

/-- GlyphOrientationVertical (Table 345). -/
def IsGlyphOrientation : GlyphOrientationVertical → Val → Prop
  | .auto, v => v = .name b!"Auto"
  | .angle n, v => v = .int n

/-- Attribute owners (ISO 32000-1, Table 341; ISO 32000-2, Table 376). ISO 32000-2:2020 writes the CSS owners with a short
version number. -/
def isoOwner (iso2020 : Bool) : AttributeOwner → Bytes
  | .layout => b!"Layout"
  | .list => b!"List"
  | .printField => b!"PrintField"
  | .table => b!"Table"
  | .artifact => b!"Artifact"
  | .xml => b!"XML-1.00"
  | .html3_2 => b!"HTML-3.20"
  | .html4 => b!"HTML-4.01"
  | .html5 => b!"HTML-5.00"
  | .oeb => b!"OEB-1.00"
  | .rtf1_05 => b!"RTF-1.05"
  | .css1 => if iso2020 then b!"CSS-1" else b!"CSS-1.00"
  | .css2 => if iso2020 then b!"CSS-2" else b!"CSS-2.00"
  | .css3 => b!"CSS-3"
  | .rdfa1_1 => b!"RDFa-1.10"
  | .aria1_1 => b!"ARIA-1.1"
  | .feNote => b!"FENote"
  | .nso => b!"NSO"
  | .user => b!"UserProperties"
def IsOwner (o : AttributeOwner) (iso2020 : Bool) (v : Val) : Prop := v = .name (isoOwner iso2020 o)

/-- The standard structure types of PDF 1.7 (Tables 333 to 340). -/
def isoRole17 : StructRole → Bytes
  | .document => b!"Document" | .part => b!"Part" | .art => b!"Art" | .sect => b!"Sect" | .div => b!"Div"
  | .blockQuote => b!"BlockQuote" | .caption => b!"Caption" | .toc => b!"TOC" | .toci => b!"TOCI" | .index => b!"Index"
  | .nonStruct => b!"NonStruct" | .priv => b!"Private" | .p => b!"P" | .structuredHeading => b!"H"
  | .h1 => b!"H1" | .h2 => b!"H2" | .h3 => b!"H3" | .h4 => b!"H4" | .h5 => b!"H5" | .h6 => b!"H6"
  | .l => b!"L" | .li => b!"LI" | .lbl => b!"Lbl" | .lBody => b!"LBody"
  | .table => b!"Table" | .tr => b!"TR" | .th => b!"TH" | .td => b!"TD" | .tHead => b!"THead" | .tBody => b!"TBody" | .tFoot => b!"TFoot"
  | .span => b!"Span" | .quote => b!"Quote" | .note => b!"Note" | .reference => b!"Reference" | .bibEntry => b!"BibEntry"
  | .code => b!"Code" | .link => b!"Link" | .annot => b!"Annot" | .ruby => b!"Ruby" | .warichu => b!"Warichu"
  | .rb => b!"RB" | .rt => b!"RT" | .rp => b!"RP" | .wt => b!"WT" | .wp => b!"WP"
  | .figure => b!"Figure" | .formula => b!"Formula" | .form => b!"Form"
def IsRole17 (r : StructRole) (v : Val) : Prop := v = .name (isoRole17 r)

/-- The standard structure types of PDF 2.0 (ISO 32000-2, 14.8.4); headings are `Hn`. -/
def isoRole20 : StructRole2 → Bytes → Prop
  | .document, n => n = b!"Document" | .documentFragment, n => n = b!"DocumentFragment" | .part, n => n = b!"Part"
  | .sect, n => n = b!"Sect" | .div, n => n = b!"Div" | .aside, n => n = b!"Aside" | .nonStruct, n => n = b!"NonStruct"
  | .p, n => n = b!"P" | .heading level _ _, n => headingLevel n = some level | .structuredHeading, n => n = b!"H"
  | .title, n => n = b!"Title" | .feNote, n => n = b!"FENote" | .sub, n => n = b!"Sub" | .lbl, n => n = b!"Lbl"
  | .span, n => n = b!"Span" | .em, n => n = b!"Em" | .strong, n => n = b!"Strong" | .link, n => n = b!"Link"
  | .annot, n => n = b!"Annot" | .form, n => n = b!"Form" | .ruby, n => n = b!"Ruby" | .rb, n => n = b!"RB" | .rt, n => n = b!"RT"
  | .rp, n => n = b!"RP" | .warichu, n => n = b!"Warichu" | .wt, n => n = b!"WT" | .wp, n => n = b!"WP" | .l, n => n = b!"L"
  | .li, n => n = b!"LI" | .lBody, n => n = b!"LBody" | .table, n => n = b!"Table" | .tr, n => n = b!"TR" | .th, n => n = b!"TH"
  | .td, n => n = b!"TD" | .tHead, n => n = b!"THead" | .tBody, n => n = b!"TBody" | .tFoot, n => n = b!"TFoot"
  | .caption, n => n = b!"Caption" | .figure, n => n = b!"Figure" | .formula, n => n = b!"Formula" | .artifact, n => n = b!"Artifact"
def IsRole20 (r : StructRole2) (v : Val) : Prop := ∃ n, v = .name n ∧ isoRole20 r n

/-- Which reading of the calls: the standard's, or, for the few calls that deviate from it, what the code does (see
`Props/Typed/Defects.lean`). -/
inductive Reading where
  | standard | code

/-- The meaning by the standard, or the one of the code. -/
def Reading.pick {α : Type} : Reading → α → α → α
  | .standard, s, _ => s
  | .code, _, c => c

/-! ## Written objects -/

/-- Written as an indirect object of a chunk, the bytes appended are that object and read back as a value with property `P`;
its offset is recorded. -/
def ReadsBackIndirect (p : Prog) (P : Val → Prop) : Prop :=
  ∀ (c : Chunk) (r : Ref), (c.pretty = false → NoClash p) →
    ∃ out, (c.writeIndirect r p).asBytes = c.asBytes ++ out ∧ (c.writeIndirect r p).offsets = c.offsets ++ [(r, c.len)] ∧
      ∀ rest, ∃ v rem, readIndirect (out ++ rest) = some (r.get, 0, .val v, rem) ∧ P v

/-- Written directly or as an indirect object. -/
def WrittenAs (p : Prog) (P : Val → Prop) : Prop := ReadsBack p P ∧ ReadsBackIndirect p P

/-- Written as a stream by `write`: for data no longer than an `i32` it succeeds, and the bytes appended are the stream object
with the data unchanged, its length, and a dictionary with entries of the given keys and meanings. `es` are the entries inserted. -/
def StreamWrittenAs (write : Chunk → Ref → Bytes → Option Chunk) (es : List (Bytes × Prog)) (ms : List (Bytes × (Val → Prop))) : Prop :=
  ∀ (c : Chunk) (r : Ref) (data : Bytes), (c.pretty = false → NoClashEntries es) → data.length ≤ 2147483647 →
    ∃ c' out, write c r data = some c' ∧ c'.asBytes = c.asBytes ++ out ∧ c'.offsets = c.offsets ++ [(r, c.len)] ∧
      ∀ rest, ∃ d rem, readIndirect (out ++ rest) = some (r.get, 0, .stream ((b!"Length", .int data.length) :: d) data, rem) ∧
        EntriesAre ms d

end PdfW.Spec
