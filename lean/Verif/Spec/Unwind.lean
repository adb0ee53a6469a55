import Verif.Spec.Calls
import Verif.Spec.Denotes

/-!
# What an interrupted history of calls amounts to

A panic in the caller's code, or leaving a scope early, drops all open writers. Nothing here depends on how objects are
written: the tree is determined by the calls made before the interruption.
-/

namespace PdfW.Spec
open PdfW

/-- The tree `p` is the one written by the completed calls `cs`, with everything still open (`depth` writers) closed at once;
if an `Obj` had been handed out but not used (`pending`), there is nothing in its place. -/
def CutOff (cs : List Call) (pending : Bool) (depth : Nat) (p : Prog) : Prop :=
  progCalls p = cs ++ ((if pending then [.abandon] else []) ++ List.replicate depth .finish)

/-- The same for the entries inserted into a dictionary that is itself open besides the `depth` writers. -/
def CutOffEntries (cs : List Call) (pending : Bool) (depth : Nat) (es : List (Bytes × Prog)) : Prop :=
  entriesCalls es = cs ++ ((if pending then [.abandon] else []) ++ List.replicate depth .finish)

/-- Every completed call wrote something representable, and no `Obj` was dropped unused. -/
def CallsOk (cs : List Call) : Prop := .abandon ∉ cs ∧ ∀ p, .primitive p ∈ cs → PrimOk p

mutual
/-- The tree without the array items that were pushed but never written (their `Obj` was dropped unused). -/
def tidy : Prog → Prog
  | .prim p => .prim p
  | .array items => .array (tidyItems items)
  | .dict entries => .dict (tidyEntries entries)
  | .unused => .unused
termination_by structural p => p
def tidyItems : List Prog → List Prog
  | [] => []
  | .unused :: xs => tidyItems xs
  | x :: xs => tidy x :: tidyItems xs
termination_by structural p => p
def tidyEntries : List (Bytes × Prog) → List (Bytes × Prog)
  | [] => []
  | (k, x) :: xs => (k, tidy x) :: tidyEntries xs
termination_by structural p => p
end

end PdfW.Spec
