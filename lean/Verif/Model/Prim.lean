import Verif.Model.Buf

/-!
# Primitive objects (`/repo/src/object.rs:1-632`)
-/

namespace PdfW

/-! ## `Str` -/

/-- The loop of `Str::is_balanced` (object.rs:84-94), with the running depth. -/
def isBalancedFrom : Nat → Bytes → Bool
  | depth, [] => depth == 0
  | depth, b :: bs =>
    if b = ch!"(" then isBalancedFrom (depth + 1) bs
    else if b = ch!")" then (if depth > 0 then isBalancedFrom (depth - 1) bs else false)
    else isBalancedFrom depth bs

/-- `Str::is_balanced` (object.rs:82-95). -/
def isBalanced (s : Bytes) : Bool := isBalancedFrom 0 s

/-- One iteration of the literal-string loop (object.rs:113-134). `all` is `self.0`; the second component
of the state is the lazily computed `balanced: Option<bool>`. -/
def strStep (all : Bytes) (st : Buf × Option Bool) (byte : UInt8) : Buf × Option Bool :=
  let (buf, balanced) := st
  if byte = ch!"(" ∨ byte = ch!")" then
    let bal := balanced.getD (byte != ch!")" && isBalanced all)
    let buf := if !bal then buf.push ch!"\\" else buf
    (buf.push byte, some bal)
  else if byte = ch!"\\" then (buf.extend b!"\\\\", balanced)
  else if 0x20 ≤ byte ∧ byte ≤ 0x7E then (buf.push byte, balanced)
  else if byte = 0x0A then (buf.extend b!"\\n", balanced)
  else if byte = 0x0D then (buf.extend b!"\\r", balanced)
  else if byte = 0x09 then (buf.extend b!"\\t", balanced)
  else if byte = 0x08 then (buf.extend b!"\\b", balanced)
  else if byte = 0x0C then (buf.extend b!"\\f", balanced)
  else ((buf.push ch!"\\").pushOctal byte, balanced)

/-- `Str::write` (object.rs:101-147). -/
def writeStr (s : Bytes) (buf : Buf) : Buf :=
  let buf := { buf with limits := buf.limits.registerStrLen s.length }
  if s.all (fun b => b < 128) then
    let buf := buf.push ch!"("
    let buf := (s.foldl (strStep s) (buf, none)).1
    buf.push ch!")"
  else
    let buf := buf.push ch!"<"
    let buf := s.foldl Buf.pushHex buf
    buf.push ch!">"

/-! ## `TextStr`

A Rust `&str` is modelled by its list of Unicode scalar values; `str::len`/`as_bytes`/`bytes` use the
UTF-8 encoding and `encode_utf16` the UTF-16 encoding of that list. -/

/-- UTF-8 encoding of one scalar value (`core::str`). -/
def utf8Char (c : Char) : Bytes :=
  let n := c.toNat
  if n < 0x80 then [UInt8.ofNat n]
  else if n < 0x800 then [UInt8.ofNat (0xC0 + n / 64), UInt8.ofNat (0x80 + n % 64)]
  else if n < 0x10000 then
    [UInt8.ofNat (0xE0 + n / 4096), UInt8.ofNat (0x80 + n / 64 % 64), UInt8.ofNat (0x80 + n % 64)]
  else
    [UInt8.ofNat (0xF0 + n / 262144), UInt8.ofNat (0x80 + n / 4096 % 64),
     UInt8.ofNat (0x80 + n / 64 % 64), UInt8.ofNat (0x80 + n % 64)]

/-- `str::as_bytes`. -/
def utf8 (t : List Char) : Bytes := t.flatMap utf8Char

/-- UTF-16 encoding of one scalar value (`char::encode_utf16`). -/
def utf16Char (c : Char) : List UInt16 :=
  let n := c.toNat
  if n < 0x10000 then [UInt16.ofNat n]
  else [UInt16.ofNat (0xD800 + (n - 0x10000) / 1024), UInt16.ofNat (0xDC00 + (n - 0x10000) % 1024)]

/-- `str::encode_utf16`. -/
def utf16 (t : List Char) : List UInt16 := t.flatMap utf16Char

/-- `write_utf16be_text_str_header` (object.rs:292-296). -/
def writeUtf16Header (buf : Buf) : Buf := ((buf.push ch!"<").pushHex 254).pushHex 255

/-- `write_utf16be_text_str_footer` (object.rs:298-300). -/
def writeUtf16Footer (buf : Buf) : Buf := buf.push ch!">"

/-- `TextStr::write` (object.rs:169-183). -/
def writeTextStr (t : List Char) (buf : Buf) : Buf :=
  let buf := { buf with limits := buf.limits.registerStrLen (utf8 t).length }
  if (utf8 t).all (fun b => 32 ≤ b && b ≤ 126) then writeStr (utf8 t) buf
  else
    let buf := writeUtf16Header buf
    let buf := (utf16 t).foldl Buf.pushHexU16 buf
    writeUtf16Footer buf

/-! ## `LanguageIdentifier`, `TextStrWithLang` -/

/-- `LanguageIdentifier` (object.rs:190-196): two-byte language and optional two-byte region. -/
structure LangId where
  lang : UInt8 × UInt8
  region : Option (UInt8 × UInt8)
deriving DecidableEq

/-- `char::is_ascii_alphanumeric`. -/
def isAsciiAlnum (c : Char) : Bool :=
  (48 ≤ c.toNat && c.toNat ≤ 57) || (65 ≤ c.toNat && c.toNat ≤ 90) || (97 ≤ c.toNat && c.toNat ≤ 122)

/-- `LanguageIdentifier::str_to_code` (object.rs:235-241). -/
def strToCode (s : List Char) : Option (UInt8 × UInt8) :=
  if s.all isAsciiAlnum then
    match utf8 s with
    | [a, b] => some (a, b)
    | _ => none
  else none

/-- `LanguageIdentifier::from_lang` (object.rs:210-213). -/
def LangId.fromLang (l : List Char) : Option LangId := do
  let lang ← strToCode l
  return ⟨lang, none⟩

/-- `LanguageIdentifier::from_lang_region` (object.rs:219-223). -/
def LangId.fromLangRegion (l r : List Char) : Option LangId := do
  let lang ← strToCode l
  let region ← strToCode r
  return ⟨lang, some region⟩

/-- `LanguageIdentifier::len` (object.rs:227-233). -/
def LangId.len (l : LangId) : Nat := if l.region.isSome then 4 else 2

/-- `write_utf16be_lang_code` (object.rs:302-317). -/
def writeLangCode (l : LangId) (buf : Buf) : Buf :=
  let buf := buf.pushHexU16 0x001B
  let buf := buf.pushHexU16 l.lang.1.toUInt16
  let buf := buf.pushHexU16 l.lang.2.toUInt16
  let buf := match l.region with
    | some r => (buf.pushHexU16 r.1.toUInt16).pushHexU16 r.2.toUInt16
    | none => buf
  buf.pushHexU16 0x001B

/-- `TextStrWithLang::write` (object.rs:258-288). -/
def writeTextStrLang (segs : List (LangId × List Char)) (buf : Buf) : Buf :=
  let len := segs.foldl (fun acc s => acc + ((utf8 s.2).length + s.1.len + 2)) 0
  let buf := { buf with limits := buf.limits.registerStrLen len }
  let buf := writeUtf16Header buf
  let buf := segs.foldl (fun b s => (utf16 s.2).foldl Buf.pushHexU16 (writeLangCode s.1 b)) buf
  writeUtf16Footer buf

/-! ## `Name` -/

/-- `is_regular_character` (object.rs:360-380). -/
def isRegularCharacter (b : UInt8) : Bool :=
  !(b == 0x00 || b == 0x09 || b == 0x0A || b == 0x0C || b == 0x0D || b == 0x20 ||
    b == ch!"(" || b == ch!")" || b == ch!"<" || b == ch!">" || b == ch!"[" || b == ch!"]" ||
    b == ch!"{" || b == ch!"}" || b == ch!"/" || b == ch!"%")

/-- `is_delimiter_character` (object.rs:383-385); note that `{` and `}` are missing. -/
def isDelimiterCharacter (b : UInt8) : Bool :=
  b == ch!"(" || b == ch!")" || b == ch!"<" || b == ch!">" || b == ch!"[" || b == ch!"]" ||
  b == ch!"/" || b == ch!"%"

/-- One iteration of the loop of `Name::write` (object.rs:343-352). -/
def nameStep (buf : Buf) (byte : UInt8) : Buf :=
  if byte != ch!"#" && (0x21 ≤ byte && byte ≤ 0x7E) && isRegularCharacter byte then buf.push byte
  else (buf.push ch!"#").pushHex byte

/-- `Name::write` (object.rs:338-353). -/
def writeName (n : Bytes) (buf : Buf) : Buf :=
  let buf := { buf with limits := buf.limits.registerNameLen n.length }
  n.foldl nameStep (buf.push ch!"/")

/-! ## `Ref` -/

/-- `Ref` (object.rs:402-404): a positive `i32`. -/
structure Ref where
  id : Int
  pos : 0 < id
  le : id ≤ 2147483647
deriving DecidableEq

/-- `Ref::new` (object.rs:414-421) on an `i32`; `none` is the panic. -/
def Ref.new (id : Int) : Option Ref :=
  if h : 0 < id ∧ id ≤ 2147483647 then some ⟨id, h.1, h.2⟩ else none

/-- `Ref::get` (object.rs:424-427). -/
def Ref.get (r : Ref) : Int := r.id

/-- Wrapping `i32` addition of one (release mode). -/
def wrapSucc (i : Int) : Int := if i = 2147483647 then -2147483648 else i + 1

/-- `Ref::next` (object.rs:431-433); `none` is the panic (arithmetic overflow in debug mode,
`Ref::new` of a negative number in release mode). -/
def Ref.next (r : Ref) : Option Ref := Ref.new (wrapSucc r.get)

/-- `Ref::bump` (object.rs:438-442): returns the old ref and the new allocator state. -/
def Ref.bump (r : Ref) : Option (Ref × Ref) := do
  let n ← r.next
  return (r, n)

/-- `Ref::write` (object.rs:448-452). -/
def writeRef (r : Ref) (buf : Buf) : Buf := (buf.pushInt r.get).extend b!" 0 R"

/-! ## `Rect` -/

/-- `Rect` (object.rs:457-468). -/
structure Rect where
  x1 : F32
  y1 : F32
  x2 : F32
  y2 : F32
deriving DecidableEq

/-- `Rect::to_quad_points` (object.rs:479-481). -/
def Rect.toQuadPoints (r : Rect) : List F32 := [r.x1, r.y1, r.x2, r.y1, r.x2, r.y2, r.x1, r.y2]

/-- `Rect::write` (object.rs:487-500). -/
def writeRect (r : Rect) (buf : Buf) : Buf :=
  let buf := buf.push ch!"["
  let buf := buf.pushFloat r.x1
  let buf := buf.push ch!" "
  let buf := buf.pushFloat r.y1
  let buf := buf.push ch!" "
  let buf := buf.pushFloat r.x2
  let buf := buf.push ch!" "
  let buf := buf.pushFloat r.y2
  let buf := buf.push ch!"]"
  { buf with limits := buf.limits.registerArrayLen 4 }

/-! ## `Date` -/

/-- `Date` (object.rs:513-533). The integer fields are kept as numbers; the setters receive values
of the Rust argument types (`u16`, `u8`, `i8`). -/
structure Date where
  year : Nat
  month : Option Nat
  day : Option Nat
  hour : Option Nat
  minute : Option Nat
  second : Option Nat
  utcOffsetHour : Option Int
  utcOffsetMinute : Nat
deriving DecidableEq

namespace Date

/-- `Date::new` (object.rs:539-550). -/
def new (year : UInt16) : Date :=
  ⟨Min.min year.toNat 9999, none, none, none, none, none, none, 0⟩

/-- `u8::clamp`. -/
def clamp (v lo hi : Nat) : Nat := if v < lo then lo else if v > hi then hi else v

/-- object.rs:554-557 -/
def setMonth (d : Date) (m : UInt8) : Date := { d with month := some (clamp m.toNat 1 12) }
/-- object.rs:561-564 -/
def setDay (d : Date) (m : UInt8) : Date := { d with day := some (clamp m.toNat 1 31) }
/-- object.rs:568-571 -/
def setHour (d : Date) (m : UInt8) : Date := { d with hour := some (Min.min m.toNat 23) }
/-- object.rs:575-578 -/
def setMinute (d : Date) (m : UInt8) : Date := { d with minute := some (Min.min m.toNat 59) }
/-- object.rs:582-585 -/
def setSecond (d : Date) (m : UInt8) : Date := { d with second := some (Min.min m.toNat 59) }
/-- object.rs:591-594 -/
def setUtcOffsetHour (d : Date) (h : Int8) : Date :=
  { d with utcOffsetHour := some (Max.max (-23) (Min.min h.toInt 23)) }
/-- object.rs:599-602 -/
def setUtcOffsetMinute (d : Date) (m : UInt8) : Date :=
  { d with utcOffsetMinute := Min.min m.toNat 59 }

/-- `{:0w}` of an unsigned integer: zero-padded to at least `w` characters. -/
def padNat (w n : Nat) : Bytes :=
  let ds := natBytes n
  List.replicate (w - ds.length) ch!"0" ++ ds

/-- `{:+03}` of a signed integer: sign, then zero-padded to a total of at least three characters. -/
def padSigned (i : Int) : Bytes := (if i < 0 then ch!"-" else ch!"+") :: padNat 2 i.natAbs

/-- The closure body after the year (object.rs:613-627): every `?` stops the writing. -/
def writeFields (d : Date) (buf : Buf) : Buf :=
  let buf := buf.extend (padNat 4 d.year)
  match d.month with
  | none => buf
  | some month =>
  let buf := buf.extend (padNat 2 month)
  match d.day with
  | none => buf
  | some day =>
  let buf := buf.extend (padNat 2 day)
  match d.hour with
  | none => buf
  | some hour =>
  let buf := buf.extend (padNat 2 hour)
  match d.minute with
  | none => buf
  | some minute =>
  let buf := buf.extend (padNat 2 minute)
  match d.second with
  | none => buf
  | some second =>
  let buf := buf.extend (padNat 2 second)
  match d.utcOffsetHour with
  | none => buf
  | some off =>
    if off = 0 ∧ d.utcOffsetMinute = 0 then buf.push ch!"Z"
    else ((buf.extend (padSigned off)).extend b!"'").extend (padNat 2 d.utcOffsetMinute)

end Date

/-- `Date::write` (object.rs:608-631). Nothing is registered with the limits. -/
def writeDate (d : Date) (buf : Buf) : Buf :=
  ((d.writeFields (buf.extend b!"(D:"))).push ch!")"

/-! ## All primitives -/

/-- The implementors of `Primitive` (object.rs:23-632). -/
inductive Prim where
  | null
  | bool (v : Bool)
  | int (v : Int)
  | real (v : F32)
  | str (s : Bytes)
  | textStr (t : List Char)
  | textStrLang (segs : List (LangId × List Char))
  | name (n : Bytes)
  | ref (r : Ref)
  | rect (r : Rect)
  | date (d : Date)
deriving DecidableEq

namespace Prim

/-- `Sealed::STARTS_WITH_DELIMITER` of each implementor. -/
def startsWithDelimiter : Prim → Bool
  | null => false        -- object.rs:392
  | bool _ => false      -- object.rs:40
  | int _ => false       -- object.rs:55
  | real _ => false      -- object.rs:66
  | str _ => true        -- object.rs:99
  | textStr _ => true    -- object.rs:167
  | textStrLang _ => true -- object.rs:256
  | name _ => true       -- object.rs:336
  | ref _ => false       -- object.rs:445
  | rect _ => true       -- object.rs:485
  | date _ => true       -- object.rs:604

/-- `Sealed::write` of each implementor. -/
def write : Prim → Buf → Buf
  | null, buf => buf.extend b!"null"                                        -- object.rs:395-397
  | bool v, buf => if v then buf.extend b!"true" else buf.extend b!"false"   -- object.rs:43-49
  | int v, buf => buf.pushInt v                                             -- object.rs:58-60
  | real v, buf => buf.pushFloat v                                          -- object.rs:69-71
  | str s, buf => writeStr s buf
  | textStr t, buf => writeTextStr t buf
  | textStrLang segs, buf => writeTextStrLang segs buf
  | name n, buf => writeName n buf
  | ref r, buf => writeRef r buf
  | rect r, buf => writeRect r buf
  | date d, buf => writeDate d buf

end Prim
end PdfW
