import Verif.Spec.Lex

/-!
# Text strings, language escapes and dates (ISO 32000-1, 7.9.2.2 and 7.9.4)
-/

namespace PdfW.Spec

/-- The Unicode scalar value with this number, if there is one. -/
def scalar (n : Nat) : Option Char :=
  if h : n.isValidChar then some (Char.ofNatAux n h) else none

/-- Big-endian 16-bit units. -/
def units : Bytes → Option (List Nat)
  | [] => some []
  | [_] => none
  | h :: l :: r => (units r).map (fun us => (h.toNat * 256 + l.toNat) :: us)

/-- High (leading) surrogate units. -/
def isHigh (u : Nat) : Bool := 0xD800 ≤ u && u < 0xDC00
/-- Low (trailing) surrogate units. -/
def isLow (u : Nat) : Bool := 0xDC00 ≤ u && u < 0xE000
/-- The code point of a surrogate pair. -/
def pairCode (u v : Nat) : Nat := 0x10000 + (u - 0xD800) * 0x400 + (v - 0xDC00)

/-- Prepend a scalar value, if both parts are defined. -/
def consChar (c : Option Char) (t : Option (List Char)) : Option (List Char) :=
  c.bind fun c => t.map (c :: ·)

/-- UTF-16 decoding; unpaired surrogates are errors. -/
def decodeUtf16 : List Nat → Option (List Char)
  | [] => some []
  | [u] => if isHigh u then none else consChar (scalar u) (some [])
  | u :: v :: r =>
    if isHigh u then
      if isLow v then consChar (scalar (pairCode u v)) (decodeUtf16 r) else none
    else consChar (scalar u) (decodeUtf16 (v :: r))

/-- PDFDocEncoding, restricted to the range 32–126 where it coincides with ASCII (Annex D.2). -/
def decodePdfDoc (bs : Bytes) : Option (List Char) :=
  if bs.all (fun b => 32 ≤ b && b ≤ 126) then some (bs.map (fun b => Char.ofNat b.toNat)) else none

/-- Text string decoding: UTF-16BE after the byte order mark `FE FF`, PDFDocEncoding otherwise. -/
def decodeText (bs : Bytes) : Option (List Char) :=
  match bs with
  | 0xFE :: 0xFF :: r => (units r).bind decodeUtf16
  | _ => decodePdfDoc bs

/-- The escape character U+001B that encloses language codes (7.9.2.2). -/
def escChar : Char := Char.ofNat 0x1B

/-- A text run with its language escape: two-character language, optional two-character country. -/
structure LangSeg where
  lang : Char × Char
  country : Option (Char × Char)
  text : List Char
deriving DecidableEq

/-- Split a decoded Unicode text string that starts with a language escape into its segments. The
`Nat` bounds the number of segments. -/
def langSegments : Nat → List Char → Option (List LangSeg)
  | _, [] => some []
  | 0, _ => none
  | fuel + 1, c :: r =>
    if c = escChar then
      let code := r.takeWhile (· ≠ escChar)
      match r.dropWhile (· ≠ escChar) with
      | [] => none
      | _ :: body =>
        let text := body.takeWhile (· ≠ escChar)
        match langSegments fuel (body.dropWhile (· ≠ escChar)) with
        | none => none
        | some segs =>
          match code with
          | [a, b] => some (⟨(a, b), none, text⟩ :: segs)
          | [a, b, d, e] => some (⟨(a, b), some (d, e), text⟩ :: segs)
          | _ => none
    else none

/-- Decode a text string made of language-tagged segments. -/
def decodeLangText (bs : Bytes) : Option (List LangSeg) :=
  match bs with
  | 0xFE :: 0xFF :: _ => (decodeText bs).bind (fun t => langSegments t.length t)
  | _ => none

/-! ## Dates -/

/-- A date value: fields present from the left; the offset is in minutes east of UT. -/
structure DateVal where
  year : Nat
  month : Option Nat
  day : Option Nat
  hour : Option Nat
  minute : Option Nat
  second : Option Nat
  offset : Option Int
deriving DecidableEq

/-- Exactly two digits with a value in `lo..hi`. -/
def twoDigits (lo hi : Nat) : Bytes → Option (Nat × Bytes)
  | a :: b :: r =>
    if isDigit a ∧ isDigit b ∧ lo ≤ digitsVal [a, b] ∧ digitsVal [a, b] ≤ hi then
      some (digitsVal [a, b], r)
    else none
  | _ => none

/-- The relationship of local time to UT: `Z`, `+HH'mm` or `-HH'mm`. -/
def readOffset : Bytes → Option Int
  | [] => none
  | o :: r =>
    if o = ch!"Z" then (if r = [] then some 0 else none)
    else
      match twoDigits 0 23 r with
      | some (h, q :: r2) =>
        if q = ch!"'" then
          match twoDigits 0 59 r2 with
          | some (m, []) =>
            if o = ch!"+" then some ((h * 60 + m : Nat) : Int)
            else if o = ch!"-" then some (-((h * 60 + m : Nat) : Int))
            else none
          | _ => none
        else none
      | _ => none

/-- `D:YYYY[MM[DD[HH[mm[SS[O…]]]]]]` (7.9.4); every field must be in its range. -/
def readDate (bs : Bytes) : Option DateVal :=
  match bs with
  | d :: c :: y1 :: y2 :: y3 :: y4 :: r =>
    if d = ch!"D" ∧ c = ch!":" ∧ [y1, y2, y3, y4].all isDigit then
      let y := digitsVal [y1, y2, y3, y4]
      if r = [] then some ⟨y, none, none, none, none, none, none⟩ else
      match twoDigits 1 12 r with
      | none => none
      | some (mo, r) =>
      if r = [] then some ⟨y, some mo, none, none, none, none, none⟩ else
      match twoDigits 1 31 r with
      | none => none
      | some (da, r) =>
      if r = [] then some ⟨y, some mo, some da, none, none, none, none⟩ else
      match twoDigits 0 23 r with
      | none => none
      | some (ho, r) =>
      if r = [] then some ⟨y, some mo, some da, some ho, none, none, none⟩ else
      match twoDigits 0 59 r with
      | none => none
      | some (mi, r) =>
      if r = [] then some ⟨y, some mo, some da, some ho, some mi, none, none⟩ else
      match twoDigits 0 59 r with
      | none => none
      | some (se, r) =>
      if r = [] then some ⟨y, some mo, some da, some ho, some mi, some se, none⟩ else
      match readOffset r with
      | none => none
      | some o => some ⟨y, some mo, some da, some ho, some mi, some se, some o⟩
    else none
  | _ => none

end PdfW.Spec
