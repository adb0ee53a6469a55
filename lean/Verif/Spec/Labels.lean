import Verif.Spec.Attach

/-!
# Page labels (ISO 32000-1, 12.4.2)

A reader that is given only the bytes of a file and obtains the label of every page as text. It knows nothing about the writer.
-/

namespace PdfW.Spec
open PdfW

/-! ## The reader -/

/-- Decimal digits. -/
def decimalText (n : Nat) : List Char := Nat.toDigits 10 n

/-- Symbols of roman numerals. -/
def romanSymbols : List (Nat × List Char) :=
  [(1000, ['m']), (900, ['c', 'm']), (500, ['d']), (400, ['c', 'd']), (100, ['c']), (90, ['x', 'c']), (50, ['l']), (40, ['x', 'l']), (10, ['x']),
   (9, ['i', 'x']), (5, ['v']), (4, ['i', 'v']), (1, ['i'])]
/-- Lower-case roman numerals: as many of every symbol as fit. -/
def romanText : List (Nat × List Char) → Nat → List Char
  | [], _ => []
  | (v, s) :: r, n => (List.replicate (n / v) s).flatten ++ romanText r (n % v)

/-- Lower-case letters: a to z for the first 26 pages, aa to zz for the next 26, and so on. -/
def letterText (n : Nat) : List Char :=
  if n = 0 then [] else List.replicate ((n - 1) / 26 + 1) (Char.ofNat ('a'.toNat + (n - 1) % 26))

/-- The numeric portion of a label (Table 159, S); without a style there is none. -/
def numberText (style : Option Bytes) (n : Nat) : Option (List Char) :=
  match style with
  | none => some []
  | some s =>
    if s = b!"D" then some (decimalText n)
    else if s = b!"r" then some (romanText romanSymbols n)
    else if s = b!"R" then some ((romanText romanSymbols n).map Char.toUpper)
    else if s = b!"a" then some (letterText n)
    else if s = b!"A" then some ((letterText n).map Char.toUpper)
    else none

/-- A labelling range: the index of its first page, style, prefix, and the number of the first page. -/
structure LabelRange where
  first : Int
  style : Option Bytes
  pre : Option (List Char)
  start : Option Int
deriving DecidableEq

/-- A page label dictionary (Table 159). -/
def readRange (f : FileEnd) (file : Bytes) (e : Int × Val) : Option LabelRange :=
  (followDict f file e.2).bind fun d => (optionalEntry b!"S" d nameOf).bind fun style => (optionalEntry b!"P" d readText).bind fun pre =>
    (optionalEntry b!"St" d intOf).map fun start => ⟨e.1, style, pre, start⟩

/-- The label of a page in a range; the first page has number 1 unless another one is given. -/
def LabelRange.label (r : LabelRange) (index : Nat) : Option (List Char) :=
  (numberText r.style (r.start.getD 1 + (index - r.first)).toNat).map fun t => r.pre.getD [] ++ t

/-- The label of a page: that of the last range that does not start after it. -/
def labelOf (ranges : List LabelRange) (index : Nat) : Option (List Char) :=
  ((ranges.filter fun r => decide (r.first ≤ (index : Int))).getLast?).bind fun r => r.label index

/-- The labels of all pages of a file. -/
def fileLabels (unf : Val → Bytes → Option Bytes) (file : Bytes) (depth treeDepth : Nat) : Option (List (List Char)) :=
  (readFile unf file).bind fun f => (readCatalog f file).bind fun d =>
    match lookup b!"Pages" d with
    | some (.ref p 0) => (readPageNumbers f file depth p).bind fun ns => (lookup b!"PageLabels" d).bind fun tree => (followDict f file tree).bind fun td =>
        (listTree b!"Nums" intOf f file treeDepth td).bind fun ps => (readEach (readRange f file) ps).bind fun ranges =>
          readEach (labelOf ranges) (List.range ns.length)
    | _ => none

/-! ## The labels that were asked for -/

/-- A range as given to the API: a `PageLabel` object. -/
structure GivenRange where
  first : Int
  id : Ref
  calls : List PageLabelCall
  style : Option NumberingStyle
  pre : Option (List Char)
  start : Option Int

/-- It was written. -/
structure GivenRange.Written (items : List Item) (g : GivenRange) : Prop where
  object : HasObject items g.id (.val (PageLabel.prog g.calls))
  style : MaybeCall PageLabelMeans b!"S" g.calls g.style .style
  pre : MaybeCall PageLabelMeans b!"P" g.calls g.pre (fun t => .prefix (.plain t))
  start : MaybeCall PageLabelMeans b!"St" g.calls g.start .offset

/-- The number of a page in the style that was asked for. -/
def styled : NumberingStyle → Nat → List Char
  | .arabic, n => decimalText n
  | .lowerRoman, n => romanText romanSymbols n
  | .upperRoman, n => (romanText romanSymbols n).map Char.toUpper
  | .lowerAlpha, n => letterText n
  | .upperAlpha, n => (letterText n).map Char.toUpper

/-- The label of the page with this index: prefix and number. -/
def GivenRange.label (g : GivenRange) (index : Nat) : List Char :=
  g.pre.getD [] ++ (match g.style with
    | none => []
    | some s => styled s (g.start.getD 1 + (index - g.first)).toNat)

/-- The page belongs to a range that does not start after it while all later ones do, and this is its label. -/
def HasLabel (gs : List GivenRange) (index : Nat) (label : List Char) : Prop :=
  ∃ before g after, gs = before ++ g :: after ∧ g.first ≤ (index : Int) ∧ (∀ a ∈ after, (index : Int) < a.first) ∧ label = g.label index

end PdfW.Spec
