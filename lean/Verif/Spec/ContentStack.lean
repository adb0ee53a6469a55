import Verif.Model.ContentStack
import Verif.Spec.Calls
import Verif.Spec.Unwind
import Verif.Spec.Content

/-!
# Which calls a list of operations stands for
-/

namespace PdfW.Spec
open PdfW

/-- One operand: `obj`, and the calls that write its tree. -/
def operandCalls (p : Prog) : List CCall := .operand :: (progCalls p).map .write

/-- The calls that make one operation. -/
def opCalls : ContentCall → List CCall
  | .op name operands => .start name :: (operands.flatMap operandCalls ++ [.done])
  | k => [.method k]

/-- Operation by operation. -/
def opsCalls (ks : List ContentCall) : List CCall := ks.flatMap opCalls

/-- The operations `ks` are those made by the completed calls `cs`, the last one (if an operation was open) ended early: an unused
`Obj` (`pending`) is left without content, `depth` writers and the operation are closed. -/
def CutOffOps (cs : List CCall) (pending : Bool) (depth : Nat) (opened : Bool) (ks : List ContentCall) : Prop :=
  opsCalls ks = cs ++ ((if pending then [.write .abandon] else []) ++ (List.replicate depth (.write .finish) ++ (if opened then [.done] else [])))

/-- Every completed call got representable arguments, operator names are operators, and no `Obj` was dropped unused. -/
def CCallsOk (cs : List CCall) : Prop :=
  (∀ k, .method k ∈ cs → CallOk k) ∧ (∀ n, .start n ∈ cs → OperatorOk n) ∧ .write .abandon ∉ cs ∧ ∀ p, .write (.primitive p) ∈ cs → PrimOk p

end PdfW.Spec
