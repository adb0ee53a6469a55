import Verif.Spec.Lex
import Verif.Ieee

/-!
# How strings and names are spelled (ISO 32000-1, 7.3.4 and 7.3.5)

ISO 32000-1, 7.3.5: a regular character that is a printable one (EXCLAMATION MARK to TILDE), other than the number sign, should be
written as itself in a name. 7.3.4.2: balanced pairs of parentheses within a literal string require no special treatment; Table 3
lists the escape sequences. 7.3.4.3: a hexadecimal string.
-/

namespace PdfW.Spec

/-- The parentheses in a byte string balance: every opening one is followed by its closing one. -/
inductive Balanced : Bytes → Prop where
  | nil : Balanced []
  | byte (b : UInt8) (s : Bytes) : b ≠ ch!"(" → b ≠ ch!")" → Balanced s → Balanced (b :: s)
  | pair (s t : Bytes) : Balanced s → Balanced t → Balanced (ch!"(" :: (s ++ ch!")" :: t))

/-- A hexadecimal digit, in upper case. -/
def upperHex (n : Nat) : UInt8 := (b!"0123456789ABCDEF").getD n 0

/-- A byte as two hexadecimal digits. -/
def hexPair (b : UInt8) : Bytes := [upperHex (b.toNat / 16), upperHex (b.toNat % 16)]

/-- A byte as three octal digits. -/
def octalTriple (b : UInt8) : Bytes :=
  [UInt8.ofNat (48 + b.toNat / 64), UInt8.ofNat (48 + b.toNat / 8 % 8), UInt8.ofNat (48 + b.toNat % 8)]

/-- How a byte is spelled in a literal string: the escapes of Table 3 for the backslash and the controls that have one, three
octal digits for the other controls, and the byte itself otherwise; parentheses are escaped if asked. -/
def escaped (parens : Bool) (b : UInt8) : Bytes :=
  if b = ch!"\\" then b!"\\\\"
  else if b = ch!"(" then (if parens then b!"\\(" else b!"(")
  else if b = ch!")" then (if parens then b!"\\)" else b!")")
  else if b = 0x0A then b!"\\n"
  else if b = 0x0D then b!"\\r"
  else if b = 0x09 then b!"\\t"
  else if b = 0x08 then b!"\\b"
  else if b = 0x0C then b!"\\f"
  else if b < 0x20 ∨ b = 0x7F then ch!"\\" :: octalTriple b
  else [b]

/-- A Unicode scalar value in UTF-16BE (RFC 2781). -/
def bigEndian (c : Char) : Bytes :=
  let unit (u : Nat) : Bytes := [UInt8.ofNat (u / 256), UInt8.ofNat (u % 256)]
  if c.toNat < 0x10000 then unit c.toNat
  else unit (0xD800 + (c.toNat - 0x10000) / 0x400) ++ unit (0xDC00 + (c.toNat - 0x10000) % 0x400)

/-- How many digits a number has after its point. -/
def decimals : Tok → Nat
  | .real _ s => s
  | _ => 0

/-- The `f32` is the integer `i`: its magnitude, in units of `2^-149`, is that of `i`, and its sign is that of `i`. -/
def IsInteger (x : F32) (i : Int) : Prop :=
  x.isNaN = false ∧ F32.scaled x.mag.val = i.natAbs * 2 ^ 149 ∧ (i ≠ 0 → x.neg = decide (i < 0))

end PdfW.Spec
