import Verif.Model.Counts
import Verif.Spec.Calls

/-! # Numbers of items, from the calls only -/

namespace PdfW.Spec
open PdfW

/-- No writer has received more than `n` items at any moment of this sequence of calls. -/
def AtMost (n : Nat) (cs : List Call) : Prop := ∀ k, ∀ c ∈ openCounts (cs.take k) [], c ≤ n

/-- The `i32` that is congruent to `n` modulo 2^32. -/
def wrapI32 (n : Nat) : Int := if n % 4294967296 < 2147483648 then (n % 4294967296 : Nat) else (n % 4294967296 : Nat) - 4294967296

/-- The `f32` with the value −2147483648 (bits `0xCF000000`). -/
def minReal : F32 := ⟨true, 1325400064⟩

/-- The number `i32::MIN` is an integer of this primitive, a real, or a coordinate of a rectangle. -/
def HoldsMin : Prim → Prop
  | .int v => v = -2147483648
  | .real x => x = minReal
  | .rect r => r.x1 = minReal ∨ r.y1 = minReal ∨ r.x2 = minReal ∨ r.y2 = minReal
  | _ => False

/-- No writer receives more than `i32::MAX` items, and `i32::MIN` is not written. -/
def Fits (cs : List Call) : Prop := AtMost 2147483647 cs ∧ ∀ p, Call.primitive p ∈ cs → ¬ HoldsMin p

end PdfW.Spec
