import Verif.Spec.Typed.Fonts
import Verif.Spec.Typed.Object

/-!
# Readers for the tables of fonts and trees

How a PDF processor interprets a `W` array, a `Differences` array and the entries of name and number trees.
-/

namespace PdfW.Spec
open PdfW

/-- A number object. -/
def isNumber : Val → Bool
  | .int _ => true
  | .real _ _ => true
  | _ => false

/-- Widths for the CIDs from `c` on. -/
def consecutiveFrom {α : Type} (c : Int) : List α → List (Int × α)
  | [] => []
  | w :: ws => (c, w) :: consecutiveFrom (c + 1) ws

/-- The same for `n` CIDs from `c` on. -/
def sameFrom {α : Type} (c : Int) (w : α) : Nat → List (Int × α)
  | 0 => []
  | n + 1 => (c, w) :: sameFrom (c + 1) w n

/-- The `W` array (9.7.4.3): `c [w1 w2 … wn]` gives `n` consecutive CIDs starting at `c` their widths; `first last w` gives
every CID from `first` to `last` the width `w`. The result is the list of assignments. -/
def readW : List Val → Option (List (Int × Val))
  | [] => some []
  | .int c :: .arr ws :: rest => if ws.all isNumber then (readW rest).map (consecutiveFrom c ws ++ ·) else none
  | .int first :: .int last :: w :: rest =>
    if isNumber w then (readW rest).map (sameFrom first w (last - first + 1).toNat ++ ·) else none
  | _ => none

/-- The widths the calls give, from the arguments. -/
def widthsGiven : WidthsCall → List (Int × F32)
  | .consecutive start ws => consecutiveFrom start.toNat ws
  | .same first last w => sameFrom first.toNat w (last.toNat + 1 - first.toNat)
  | .raw _ => []

/-- Calls of the typed methods. -/
def _root_.PdfW.WidthsCall.typed : WidthsCall → Prop
  | .raw _ => False
  | _ => True

/-- Lists of the same length, related element by element. -/
inductive Pairwise {α β : Type} (R : α → β → Prop) : List α → List β → Prop
  | nil : Pairwise R [] []
  | cons {a b as bs} : R a b → Pairwise R as bs → Pairwise R (a :: as) (b :: bs)

/-- The array gives exactly these CIDs exactly these widths, in this order. -/
def GivesWidths (ws : List (Int × F32)) (v : Val) : Prop :=
  ∃ items as, v = .arr items ∧ readW items = some as ∧ Pairwise (fun a w => a.1 = w.1 ∧ NumIs w.2 a.2) as ws

/-- The `Differences` array (9.6.6.1): a code, then names for it and the codes after it, until the next code. -/
def readDifferences : Option Int → List Val → Option (List (Int × Bytes))
  | _, [] => some []
  | _, .int c :: rest => readDifferences (some c) rest
  | some c, .name n :: rest => (readDifferences (some (c + 1)) rest).map ((c, n) :: ·)
  | _, _ => none

/-- The glyph names the calls give. -/
def differencesGiven : DifferencesCall → List (Int × Bytes)
  | .consecutive start names => consecutiveFrom start.toNat names
  | .raw _ => []

/-- Calls of the typed methods. -/
def _root_.PdfW.DifferencesCall.typed : DifferencesCall → Prop
  | .raw _ => False
  | _ => True

/-- The array gives exactly these codes exactly these names. -/
def GivesNames (ns : List (Int × Bytes)) (v : Val) : Prop := ∃ items, v = .arr items ∧ readDifferences none items = some ns

/-- Keys and values of `Names` (7.9.6). -/
def readNames : List Val → Option (List (Bytes × Val))
  | [] => some []
  | .str k :: v :: rest => (readNames rest).map ((k, v) :: ·)
  | _ => none

/-- Keys and values of `Nums` (7.9.7). -/
def readNums : List Val → Option (List (Int × Val))
  | [] => some []
  | .int k :: v :: rest => (readNums rest).map ((k, v) :: ·)
  | _ => none

/-- The value of the first entry with this key. -/
def getKey (k : Bytes) : List (Bytes × Val) → Option Val
  | [] => none
  | e :: es => if e.1 = k then some e.2 else getKey k es

/-- A name tree node whose entries are exactly these pairs, in this order. -/
def HasNames (entries : List (Bytes × Prim)) (v : Val) : Prop :=
  ∃ es items ps, v = .dict es ∧ getKey b!"Names" es = some (.arr items) ∧ readNames items = some ps ∧
    Pairwise (fun p e => p.1 = e.1 ∧ PrimDenotes e.2 p.2) ps entries

/-- A number tree node whose entries are exactly these pairs, in this order. -/
def HasNums (entries : List (Int × Prim)) (v : Val) : Prop :=
  ∃ es items ps, v = .dict es ∧ getKey b!"Nums" es = some (.arr items) ∧ readNums items = some ps ∧
    Pairwise (fun p e => p.1 = e.1 ∧ PrimDenotes e.2 p.2) ps entries

/-- Exactly one call writes the names, namely these. -/
def onlyNames : List NameTreeCall → List (Bytes × Prim) → Prop
  | [], _ => False
  | .names es :: rest, entries => es = entries ∧ ∀ es', NameTreeCall.names es' ∉ rest
  | _ :: rest, entries => onlyNames rest entries

/-- Exactly one call writes the numbers, namely these. -/
def onlyNums : List NumberTreeCall → List (Int × Prim) → Prop
  | [], _ => False
  | .nums es :: rest, entries => es = entries ∧ ∀ es', NumberTreeCall.nums es' ∉ rest
  | _ :: rest, entries => onlyNums rest entries

/-- An integer that has the bit of a flag (the standard's positions count from 1) set exactly if the flag is in the list. -/
def HasFlags {α : Type} (iso : α → Nat) (flags : List α) (v : Val) : Prop :=
  ∃ n : Nat, v = .int n ∧ (∀ f, n.testBit (iso f - 1) = true ↔ f ∈ flags) ∧ ∀ i, n.testBit i = true → ∃ f ∈ flags, iso f = i + 1

/-- Twice the signed area of a triangle: positive if `a`, `b`, `c` turn counterclockwise. -/
def turn (a b c : Int × Int) : Int := (b.1 - a.1) * (c.2 - b.2) - (b.2 - a.2) * (c.1 - b.1)

end PdfW.Spec
