import Verif.Model.F32

/-!
# `Buf` and `Limits` (`/repo/src/buf.rs`)
-/

namespace PdfW

/-- `Limits` (buf.rs:149-156). -/
structure Limits where
  int : Int
  real : F32
  nameLen : Nat
  strLen : Nat
  arrayLen : Nat
  dictEntries : Nat
deriving DecidableEq

namespace Limits

/-- `Limits::new` / `Default` (buf.rs:148, 159-162). -/
def new : Limits := ⟨0, F32.zero, 0, 0, 0, 0⟩

/-- `i32::abs` in release mode: wraps for `i32::MIN` (a debug build panics there). -/
def absI32 (v : Int) : Int := if v = -2147483648 then -2147483648 else (v.natAbs : Int)

/-- buf.rs:194-196 -/
def registerInt (l : Limits) (v : Int) : Limits := { l with int := Max.max l.int (absI32 v) }
/-- buf.rs:198-200 -/
def registerReal (l : Limits) (v : F32) : Limits := { l with real := l.real.max v.abs }
/-- buf.rs:202-204 -/
def registerNameLen (l : Limits) (n : Nat) : Limits := { l with nameLen := Max.max l.nameLen n }
/-- buf.rs:206-208 -/
def registerStrLen (l : Limits) (n : Nat) : Limits := { l with strLen := Max.max l.strLen n }
/-- buf.rs:210-212 -/
def registerArrayLen (l : Limits) (n : Nat) : Limits := { l with arrayLen := Max.max l.arrayLen n }
/-- buf.rs:214-216 -/
def registerDictEntries (l : Limits) (n : Nat) : Limits :=
  { l with dictEntries := Max.max l.dictEntries n }

/-- `Limits::merge` (buf.rs:220-227). -/
def merge (l other : Limits) : Limits :=
  (((((l.registerInt other.int).registerReal other.real).registerNameLen other.nameLen).registerStrLen
    other.strLen).registerArrayLen other.arrayLen).registerDictEntries other.dictEntries

end Limits

/-- `Buf` (buf.rs:7-10). -/
structure Buf where
  inner : Bytes
  limits : Limits
deriving DecidableEq

namespace Buf

/-- `Buf::new` / `with_capacity` (buf.rs:13-22); capacity is not observable. -/
def new : Buf := ⟨[], Limits.new⟩

/-- `Deref`-ed `len` (buf.rs:127-133). -/
def len (b : Buf) : Nat := b.inner.length

/-- `push` (buf.rs:86-88). -/
def push (b : Buf) (x : UInt8) : Buf := { b with inner := b.inner ++ [x] }

/-- `extend` (buf.rs:135-145). -/
def extend (b : Buf) (xs : Bytes) : Buf := { b with inner := b.inner ++ xs }

/-- `push_int` (buf.rs:45-48). -/
def pushInt (b : Buf) (v : Int) : Buf :=
  let b := { b with limits := b.limits.registerInt v }
  b.extend (intBytes v)

/-- `push_decimal` (buf.rs:63-77). -/
def pushDecimal (b : Buf) (v : F32) : Buf :=
  let b := { b with limits := b.limits.registerReal v }
  if v.eq F32.zero || (F32.c1em6.lt v.abs && v.abs.lt F32.c1e12) then
    b.extend v.ryuFormat
  else
    b.extend v.displayFormat

/-- `push_float` (buf.rs:51-59). -/
def pushFloat (b : Buf) (v : F32) : Buf :=
  if (F32.ofI32 v.toI32).eq v then b.pushInt v.toI32 else b.pushDecimal v

/-- `extend_buf` (buf.rs:80-83). -/
def extendBuf (b other : Buf) : Buf :=
  let b := { b with limits := b.limits.merge other.limits }
  b.extend other.inner

/-- The nested `hex` helper of `push_hex` (buf.rs:92-98). -/
def hexDigit (v : UInt8) : UInt8 := if v < 10 then 48 + v else 65 + (v - 10)

/-- `push_hex` (buf.rs:91-102). -/
def pushHex (b : Buf) (v : UInt8) : Buf := (b.push (hexDigit (v >>> 4))).push (hexDigit (v &&& 0xF))

/-- `push_hex_u16` (buf.rs:105-108). -/
def pushHexU16 (b : Buf) (v : UInt16) : Buf := (b.pushHex (v >>> 8).toUInt8).pushHex v.toUInt8

/-- `push_octal` (buf.rs:111-119). -/
def pushOctal (b : Buf) (v : UInt8) : Buf :=
  ((b.push ((48 : UInt8) + (v >>> 6))).push ((48 : UInt8) + ((v >>> 3) &&& 7))).push ((48 : UInt8) + (v &&& 7))

/-- `self.buf.last()` -/
def last? (b : Buf) : Option UInt8 := b.inner.getLast?

end Buf
end PdfW
