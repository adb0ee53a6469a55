import Verif.Spec.Merge
import Verif.Spec.Interpret

/-!
# Documents under other object numbers

What changes in the results of readers if the numbers of objects are replaced: only the numbers themselves.
-/

namespace PdfW.Spec
open PdfW

mutual
/-- The object numbers to which a value refers. -/
def mentions : Val → List Nat
  | .ref n _ => [n]
  | .arr vs => mentionsAll vs
  | .dict es => mentionsEntries es
  | _ => []
termination_by structural v => v
def mentionsAll : List Val → List Nat
  | [] => []
  | v :: vs => mentions v ++ mentionsAll vs
termination_by structural vs => vs
def mentionsEntries : List (Bytes × Val) → List Nat
  | [] => []
  | (_, v) :: es => mentions v ++ mentionsEntries es
termination_by structural es => es
end

/-- A marked-content sequence of a form, with the new number of the form. -/
def renameMark (g : Nat → Nat) (x : Mark) : Mark := { x with stream := x.stream.map g }

/-- A character shown: its text stays, its marked-content sequence has the new number. -/
def renameShown (g : Nat → Nat) (x : Shown) : Shown := (x.1.map (renameMark g), x.2)

/-- A page: its operations stay, its dictionary refers to the new numbers. -/
def renamePage (g : Nat → Nat) (x : ReadPage) : ReadPage := ⟨renameVal g x.dict, x.ops⟩

/-- What painting the XObject with this number shows, with a font selected and within a marked-content sequence. -/
def shownBy (unf : Val → Bytes → Option Bytes) (f : FileEnd) (file : Bytes) (forms n : Nat) (cur : Option FontText) (mark : Option Mark) : Option (List Shown) :=
  (sceneOf unf f file forms none (some (.dict [(b!"XObject", .dict [(b!"X", .ref n 0)])]))).xobject b!"X" cur mark

/-- The decoder does not look at object numbers. -/
def NumbersIgnored (unf : Val → Bytes → Option Bytes) : Prop := ∀ (g : Nat → Nat) (v : Val) (data : Bytes), unf (renameVal g v) data = unf v data

end PdfW.Spec
