import Verif.Ieee
import Verif.Spec.Reader

/-!
# Which `f32` a decimal number denotes

IEEE-754 round-to-nearest, ties-to-even: the decimal `N / D` rounds to the magnitude pattern `m` when no other
pattern (up to and including the first unrepresentable value `2^128`) is closer, and a tie is won by the even
pattern.
-/

namespace PdfW.Spec
open PdfW

/-- `2^149 · D` times the distance between `N / D` and the value of the pattern `m`. -/
def dist (N D m : Nat) : Nat := ((N * 2 ^ 149 : Nat) - (F32.scaled m * D : Nat) : Int).natAbs

/-- `N / D` rounds to the finite magnitude pattern `m`. -/
def RoundsTo (N D m : Nat) : Prop :=
  m < F32.infMag ∧ ∀ m', m' ≤ F32.infMag →
    dist N D m ≤ dist N D m' ∧ (m' ≠ m → dist N D m = dist N D m' → m % 2 = 0)

/-- A PDF number (integer or real) that, read as an `f32`, is `x` (the sign of zero is ignored). -/
def NumIs (x : F32) : Val → Prop
  | .int n => RoundsTo n.natAbs 1 x.mag.val ∧ (n ≠ 0 → x.neg = decide (n < 0))
  | .real m s => RoundsTo m.natAbs (10 ^ s) x.mag.val ∧ (m ≠ 0 → x.neg = decide (m < 0))
  | _ => False

end PdfW.Spec
