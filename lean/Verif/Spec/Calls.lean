import Verif.Model.Stack

/-!
# Call sequences of trees

Which sequence of API calls a tree stands for, and how many `push`/`insert` calls each open writer received.
-/

namespace PdfW.Spec
open PdfW

mutual
/-- The calls that write a tree, depth first: start, contents in order, finish. -/
def progCalls : Prog → List Call
  | .prim p => [.primitive p]
  | .array items => .array :: (itemsCalls items ++ [.finish])
  | .dict entries => .dict :: (entriesCalls entries ++ [.finish])
  | .unused => [.abandon]
termination_by structural p => p
def itemsCalls : List Prog → List Call
  | [] => []
  | x :: xs => .push :: (progCalls x ++ itemsCalls xs)
termination_by structural p => p
def entriesCalls : List (Bytes × Prog) → List Call
  | [] => []
  | (k, v) :: es => .insert k :: (progCalls v ++ entriesCalls es)
termination_by structural p => p
end

/-- The number of `push`/`insert` calls made on each writer that is still open, innermost first. -/
def openCounts : List Call → List Nat → List Nat
  | [], ns => ns
  | .primitive _ :: cs, ns => openCounts cs ns
  | .abandon :: cs, ns => openCounts cs ns
  | .array :: cs, ns => openCounts cs (0 :: ns)
  | .dict :: cs, ns => openCounts cs (0 :: ns)
  | .push :: cs, n :: ns => openCounts cs ((n + 1) :: ns)
  | .insert _ :: cs, n :: ns => openCounts cs ((n + 1) :: ns)
  | .finish :: cs, _ :: ns => openCounts cs ns
  | _ :: cs, [] => openCounts cs []

end PdfW.Spec
