import Verif.Ieee

/-!
# IEEE-754 single precision values and decimal formatting

Models the parts of Rust's `f32` that `/repo/src/buf.rs` uses (`as i32`, `as f32`, `==`, `abs`, `<`, `>`,
`max`) and the two external formatters it calls: the `ryu` crate (`ryu::Buffer::format`) and `core::fmt`'s
`Display for f32`. The source of both is outside `/repo`; they are modelled by contract (DESIGN.md, trusted base):
the digits are those of the coarsest power of ten at which the nearest decimal rounds back to the value,
laid out as the two formatters document.
-/

namespace PdfW

namespace F32

/-- Positive zero, `0.0`. -/
def zero : F32 := ⟨false, 0⟩

/-- `f32::abs`. -/
def abs (x : F32) : F32 := ⟨false, x.mag⟩

/-- `==` on `f32`. -/
def eq (x y : F32) : Bool := !x.isNaN && !y.isNaN && x.sval == y.sval

/-- `<` on `f32`. -/
def lt (x y : F32) : Bool := !x.isNaN && !y.isNaN && x.sval < y.sval

/-- `f32::max`: a NaN argument is ignored. -/
def max (x y : F32) : F32 :=
  if x.isNaN then y else if y.isNaN then x else if x.lt y then y else x

/-- `value as i32`: truncation towards zero, saturating, NaN to 0. -/
def toI32 (x : F32) : Int :=
  if x.isNaN then 0
  else
    let t : Nat := scaled x.mag.val / 2 ^ 149
    if x.neg then Max.max (-(t : Int)) (-2147483648) else Min.min (t : Int) 2147483647

/-- Rounded quotient by a power of two, ties to even: `n / 2^e`. -/
def roundShift (n e : Nat) : Nat :=
  let q := n / 2 ^ e
  let r := n % 2 ^ e
  if 2 * r < 2 ^ e then q
  else if 2 ^ e < 2 * r then q + 1
  else q + q % 2

/-- Magnitude pattern of the `f32` nearest to the natural number `n` (ties to even), for `n < 2^128`. -/
def magOfNat (n : Nat) : Nat :=
  if n = 0 then 0
  else
    let e := n.log2
    if e ≤ 23 then (e + 126) * 8388608 + n * 2 ^ (23 - e)
    else (e + 126) * 8388608 + roundShift n (e - 23)

/-- `i as f32` for an `i32` (round to nearest, ties to even). -/
def ofI32 (i : Int) : F32 := ⟨i < 0, Fin.ofNat _ (magOfNat i.natAbs)⟩

/-- The constant `1e-6_f32` (bits `0x358637BD`). -/
def c1em6 : F32 := ⟨false, ⟨897988541, by decide⟩⟩
/-- The constant `1e12_f32` (bits `0x5368D4A5`). -/
def c1e12 : F32 := ⟨false, ⟨1399379109, by decide⟩⟩

end F32

/-! ## Decimal spelling of natural numbers and integers (`itoa`, `core::fmt`) -/

/-- Decimal digits with explicit recursion depth. -/
def natDigitsAux : Nat → Nat → Bytes
  | 0, _ => []
  | fuel + 1, n =>
    if n < 10 then [UInt8.ofNat (48 + n)]
    else natDigitsAux fuel (n / 10) ++ [UInt8.ofNat (48 + n % 10)]

/-- The decimal spelling of a natural number (`itoa`, `{}` of unsigned integers). -/
def natBytes (n : Nat) : Bytes := natDigitsAux (n + 1) n

/-- The decimal spelling of an integer (`itoa::Buffer::format` for `i32`). -/
def intBytes (i : Int) : Bytes :=
  if i < 0 then ch!"-" :: natBytes i.natAbs else natBytes i.natAbs

/-! ## Shortest digits -/

namespace F32

/-- Does the decimal `N / D` round (to nearest, ties to even) to the finite magnitude pattern `m`?
Only the two neighbouring patterns are inspected. -/
def roundsTo (N D m : Nat) : Bool :=
  let Q := 2 * (N * 2 ^ 149)
  let up := (scaled m + scaled (m + 1)) * D
  let lo := (scaled (m - 1) + scaled m) * D
  (Q < up || (Q == up && m % 2 == 0)) && (m == 0 || lo < Q || (lo == Q && m % 2 == 0))

/-- The integer nearest to `a / b`, the even one of two equally near. -/
def roundDiv (a b : Nat) : Nat :=
  if 2 * (a % b) < b ∨ (2 * (a % b) = b ∧ a / b % 2 = 0) then a / b else a / b + 1

/-- The other of the two integers next to `a / b`. -/
def otherDiv (a b : Nat) : Nat :=
  if 2 * (a % b) < b ∨ (2 * (a % b) = b ∧ a / b % 2 = 0) then a / b + 1 else a / b

/-- Numerator of the magnitude `m` in units of `10^(38 - i)`. -/
def unitNum (m i : Nat) : Nat := if i ≤ 38 then scaled m else scaled m * 10 ^ (i - 38)
/-- Denominator of the magnitude `m` in units of `10^(38 - i)`. -/
def unitDen (i : Nat) : Nat := if i ≤ 38 then 2 ^ 149 * 10 ^ (38 - i) else 2 ^ 149

/-- The numerator of `d · 10^(38 - i)`. -/
def decNum (d i : Nat) : Nat := if i ≤ 38 then d * 10 ^ (38 - i) else d
/-- The denominator of `d · 10^(38 - i)`. -/
def decDen (i : Nat) : Nat := if i ≤ 38 then 1 else 10 ^ (i - 38)

/-- Search for the coarsest unit in which a decimal next to the magnitude rounds back to it, preferring the nearer one (at a power
of two the rounding interval is wider above, so that the farther one may be the only one); the last unit, `10^-149`, is exact. -/
def shortestFrom (m : Nat) : Nat → Nat → Nat × Nat
  | 0, i => (roundDiv (unitNum m i) (unitDen i), i)
  | fuel + 1, i =>
    let d := roundDiv (unitNum m i) (unitDen i)
    let e := otherDiv (unitNum m i) (unitDen i)
    if roundsTo (decNum d i) (decDen i) m then (d, i)
    else if roundsTo (decNum e i) (decDen i) m then (e, i)
    else shortestFrom m fuel (i + 1)

/-- Shortest round-tripping digits `d` and unit index `i` (value `d · 10^(38 - i)`) of a finite
magnitude pattern: the contract of `ryu`'s and `core`'s shortest float printing. -/
def shortest (m : Nat) : Nat × Nat := shortestFrom m 187 0

/-- Layout of `ryu::Buffer::format` for `f32` (`ryu` `pretty::format32`): digits `d`, exponent `k`.
`kk` is the position of the decimal point. -/
def ryuLayout (d : Nat) (k : Int) : Bytes :=
  let ds := natBytes d
  let len : Int := ds.length
  let kk := len + k
  if 0 ≤ k ∧ kk ≤ 13 then ds ++ List.replicate k.toNat ch!"0" ++ b!".0"
  else if 0 < kk ∧ kk ≤ 13 then ds.take kk.toNat ++ b!"." ++ ds.drop kk.toNat
  else if -6 < kk ∧ kk ≤ 0 then b!"0." ++ List.replicate (-kk).toNat ch!"0" ++ ds
  else if len = 1 then ds ++ b!"e" ++ intBytes (kk - 1)
  else ds.take 1 ++ b!"." ++ ds.drop 1 ++ b!"e" ++ intBytes (kk - 1)

/-- Layout of `core::fmt`'s `Display for f32` (never an exponent, no trailing `.0`). -/
def displayLayout (d : Nat) (k : Int) : Bytes :=
  let ds := natBytes d
  let len : Int := ds.length
  let kk := len + k
  if kk ≤ 0 then b!"0." ++ List.replicate (-kk).toNat ch!"0" ++ ds
  else if kk < len then ds.take kk.toNat ++ b!"." ++ ds.drop kk.toNat
  else ds ++ List.replicate (kk - len).toNat ch!"0"

/-- `ryu::Buffer::format(value)` for an `f32` (`ryu` writes `NaN`, `inf` and `-inf` for non-finite values). -/
def ryuFormat (x : F32) : Bytes :=
  if x.isNaN then b!"NaN"
  else
    (if x.neg then b!"-" else []) ++
    (if x.mag.val = infMag then b!"inf"
     else if x.mag.val = 0 then b!"0.0"
     else
       let s := shortest x.mag.val
       ryuLayout s.1 (38 - (s.2 : Int)))

/-- `format!("{value}")` for an `f32`. -/
def displayFormat (x : F32) : Bytes :=
  if x.isNaN then b!"NaN"
  else
    (if x.neg then b!"-" else []) ++
    (if x.mag.val = infMag then b!"inf"
     else if x.mag.val = 0 then b!"0"
     else
       let s := shortest x.mag.val
       displayLayout s.1 (38 - (s.2 : Int)))

end F32
end PdfW
