import Verif.Base

/-!
# IEEE-754 single precision bit patterns

Shared by the model (Rust's `f32`) and the specification (what a written number must round to).
-/

namespace PdfW

/-- An `f32` bit pattern: the sign bit and the lower 31 bits (exponent and mantissa). -/
structure F32 where
  neg : Bool
  mag : Fin 2147483648
deriving DecidableEq

namespace F32

/-- The 31-bit magnitude pattern of infinity, `0x7F800000`; larger patterns are NaNs. -/
def infMag : Nat := 2139095040

/-- The value of a magnitude pattern, scaled by `2^149` so that it is a natural number
(`2^149 · v`; for `infMag` this is `2^277`, i.e. the first value that does not fit). -/
def scaled (m : Nat) : Nat :=
  if m < 8388608 then m else (8388608 + m % 8388608) * 2 ^ (m / 8388608 - 1)

def isNaN (x : F32) : Bool := infMag < x.mag.val
def isFinite (x : F32) : Bool := x.mag.val < infMag

/-- The signed scaled value. -/
def sval (x : F32) : Int := if x.neg then -(scaled x.mag.val : Int) else scaled x.mag.val

end F32
end PdfW
