import Verif.Model.Object
import Verif.Spec.Float
import Verif.Spec.Text

/-!
# Which PDF value a tree of writer calls stands for

Relates the *arguments* given to the API (the tree `Prog`) to values read from the file. Nothing here depends
on how the tree is written.
-/

namespace PdfW.Spec
open PdfW

/-- A byte of an ASCII code as a character. -/
def asciiChar (b : UInt8) : Char := Char.ofNat b.toNat

/-- The segment a reader should report for a language-tagged text. -/
def expectedSeg (s : LangId × List Char) : LangSeg :=
  { lang := (asciiChar s.1.lang.1, asciiChar s.1.lang.2)
    country := s.1.region.map (fun r => (asciiChar r.1, asciiChar r.2))
    text := s.2 }

/-- The fields of a date that can be represented: everything after the first missing field is lost. The offset
is in minutes; the minutes carry the sign of the hours. -/
def expectedDate (d : Date) : DateVal :=
  let month := d.month
  let day := month.bind fun _ => d.day
  let hour := day.bind fun _ => d.hour
  let minute := hour.bind fun _ => d.minute
  let second := minute.bind fun _ => d.second
  let offset := second.bind fun _ => d.utcOffsetHour
  { year := d.year, month := month, day := day, hour := hour, minute := minute, second := second,
    offset := offset.map fun h => if h < 0 then h * 60 - d.utcOffsetMinute else h * 60 + d.utcOffsetMinute }

/-- The value `v` read from the file stands for the primitive `p` given to the API. -/
def PrimDenotes : Prim → Val → Prop
  | .null, v => v = .null
  | .bool b, v => v = .bool b
  | .int n, v => v = .int n
  | .real x, v => NumIs x v
  | .str s, v => v = .str s
  | .textStr t, v => ∃ s, v = .str s ∧ decodeText s = some t
  | .textStrLang segs, v => ∃ s, v = .str s ∧ decodeLangText s = some (segs.map expectedSeg)
  | .name n, v => v = .name n
  | .ref r, v => v = .ref r.get.toNat 0
  | .rect r, v => ∃ a b c d, v = .arr [a, b, c, d] ∧ NumIs r.x1 a ∧ NumIs r.y1 b ∧ NumIs r.x2 c ∧ NumIs r.y2 d
  | .date d, v => ∃ s, v = .str s ∧ readDate s = some (expectedDate d)

mutual
/-- The value `v` stands for the tree of calls: same structure, same order, same keys. -/
def Denotes : Prog → Val → Prop
  | .prim p, v => PrimDenotes p v
  | .array items, v => ∃ vs, v = .arr vs ∧ DenotesItems items vs
  | .dict entries, v => ∃ es, v = .dict es ∧ DenotesEntries entries es
  | .unused, _ => False
termination_by structural p => p
/-- Item by item. -/
def DenotesItems : List Prog → List Val → Prop
  | [], vs => vs = []
  | x :: xs, vs => ∃ w ws, vs = w :: ws ∧ Denotes x w ∧ DenotesItems xs ws
termination_by structural p => p
/-- Entry by entry. -/
def DenotesEntries : List (Bytes × Prog) → List (Bytes × Val) → Prop
  | [], es => es = []
  | (k, x) :: xs, es => ∃ w ws, es = (k, w) :: ws ∧ Denotes x w ∧ DenotesEntries xs ws
termination_by structural p => p
end

/-! ## Arguments the API can receive and PDF can represent -/

/-- Date fields in the ISO ranges (guaranteed by `Date::new` and the setters). -/
def DateInRange (d : Date) : Prop :=
  d.year ≤ 9999 ∧ (∀ m ∈ d.month, 1 ≤ m ∧ m ≤ 12) ∧ (∀ m ∈ d.day, 1 ≤ m ∧ m ≤ 31) ∧ (∀ m ∈ d.hour, m ≤ 23) ∧
  (∀ m ∈ d.minute, m ≤ 59) ∧ (∀ m ∈ d.second, m ≤ 59) ∧ (∀ h ∈ d.utcOffsetHour, -23 ≤ h ∧ h ≤ 23) ∧
  d.utcOffsetMinute ≤ 59

/-- A language segment: two-letter codes as `LanguageIdentifier` guarantees, and no escape character
in the text. -/
def SegOk (s : LangId × List Char) : Prop :=
  (∀ c ∈ s.2, c ≠ escChar) ∧ s.1.lang.1 ≠ 0x1B ∧ s.1.lang.2 ≠ 0x1B ∧ ∀ r ∈ s.1.region, r.1 ≠ 0x1B ∧ r.2 ≠ 0x1B

/-- Representable primitives: finite numbers, dates made by the API, language-tagged text without the
escape character. -/
def PrimOk : Prim → Prop
  | .real x => x.isFinite = true
  | .rect r => r.x1.isFinite = true ∧ r.y1.isFinite = true ∧ r.x2.isFinite = true ∧ r.y2.isFinite = true
  | .date d => DateInRange d
  | .textStrLang segs => ∀ s ∈ segs, SegOk s
  | _ => True

mutual
/-- All primitives in a tree are representable, and nothing is missing. -/
def Ok : Prog → Prop
  | .prim p => PrimOk p
  | .array items => OkItems items
  | .dict entries => OkEntries entries
  | .unused => False
termination_by structural p => p
def OkItems : List Prog → Prop
  | [] => True
  | x :: xs => Ok x ∧ OkItems xs
termination_by structural p => p
def OkEntries : List (Bytes × Prog) → Prop
  | [] => True
  | (_, x) :: xs => Ok x ∧ OkEntries xs
termination_by structural p => p
end

/-- Is this object a token that does not start with a delimiter (a number, a boolean, `null`, a reference)? -/
def isBareToken : Prog → Bool
  | .prim .null | .prim (.bool _) | .prim (.int _) | .prim (.real _) | .prim (.ref _) => true
  | _ => false

def isEmptyName : Prog → Bool
  | .prim (.name n) => n.isEmpty
  | _ => false

mutual
/-- No empty name is directly followed by a bare token (7.3.5 allows the empty name `/`; whatever follows it
without white space becomes part of it). -/
def NoClash : Prog → Prop
  | .prim _ => True
  | .array items => NoClashItems items
  | .dict entries => NoClashEntries entries
  | .unused => True
termination_by structural p => p
def NoClashItems : List Prog → Prop
  | [] => True
  | x :: xs => NoClash x ∧ (isEmptyName x = true → ∀ y ∈ xs.head?, isBareToken y = false) ∧ NoClashItems xs
termination_by structural p => p
def NoClashEntries : List (Bytes × Prog) → Prop
  | [] => True
  | (k, x) :: xs => (k = [] → isBareToken x = false) ∧ NoClash x ∧ NoClashEntries xs
termination_by structural p => p
end

end PdfW.Spec
