import Verif.Base

/-!
# PDF lexical conventions (ISO 32000-1, 7.2 and 7.3)

A reader written from the standard, independent of the writer model.
-/

namespace PdfW.Spec

/-- Table 1: white-space characters. -/
def isWhite (b : UInt8) : Bool :=
  b == 0x00 || b == 0x09 || b == 0x0A || b == 0x0C || b == 0x0D || b == 0x20

/-- Table 2: delimiter characters. -/
def isDelim (b : UInt8) : Bool :=
  b == ch!"(" || b == ch!")" || b == ch!"<" || b == ch!">" || b == ch!"[" || b == ch!"]" ||
  b == ch!"{" || b == ch!"}" || b == ch!"/" || b == ch!"%"

/-- All other characters are regular. -/
def isRegular (b : UInt8) : Bool := !isWhite b && !isDelim b

def isDigit (b : UInt8) : Bool := 48 ≤ b && b ≤ 57
def isOctal (b : UInt8) : Bool := 48 ≤ b && b ≤ 55

/-- Value of a hexadecimal digit. -/
def hexVal (b : UInt8) : Option UInt8 :=
  if 48 ≤ b ∧ b ≤ 57 then some (b - 48)
  else if 65 ≤ b ∧ b ≤ 70 then some (b - 55)
  else if 97 ≤ b ∧ b ≤ 102 then some (b - 87)
  else none

/-- Skip white space and comments (7.2.3, 7.2.4). The flag says whether we are inside a comment. -/
def skipSpace : Bool → Bytes → Bytes
  | _, [] => []
  | true, b :: bs => if b = 0x0A ∨ b = 0x0D then skipSpace false bs else skipSpace true bs
  | false, b :: bs =>
    if isWhite b then skipSpace false bs
    else if b = ch!"%" then skipSpace true bs
    else b :: bs

/-- Prepend a byte to the string read so far. -/
def consFst (b : UInt8) : Option (Bytes × Bytes) → Option (Bytes × Bytes)
  | some (s, r) => some (b :: s, r)
  | none => none

/-- Literal strings (7.3.4.2), after the opening parenthesis; `depth` counts nested unescaped
parentheses. Returns the string and the input after the closing parenthesis. -/
def readLit : Nat → Bytes → Option (Bytes × Bytes)
  | _, [] => none
  | depth, b :: bs =>
    if b = ch!")" then
      match depth with
      | 0 => some ([], bs)
      | d + 1 => consFst b (readLit d bs)
    else if b = ch!"(" then consFst b (readLit (depth + 1) bs)
    else if b = ch!"\\" then
      match bs with
      | [] => none
      | e :: r =>
        if e = ch!"n" then consFst 0x0A (readLit depth r)
        else if e = ch!"r" then consFst 0x0D (readLit depth r)
        else if e = ch!"t" then consFst 0x09 (readLit depth r)
        else if e = ch!"b" then consFst 0x08 (readLit depth r)
        else if e = ch!"f" then consFst 0x0C (readLit depth r)
        else if isOctal e then
          match r with
          | [] => none
          | e2 :: r2 =>
            if isOctal e2 then
              match r2 with
              | [] => none
              | e3 :: r3 =>
                if isOctal e3 then
                  consFst ((e - 48) * 64 + (e2 - 48) * 8 + (e3 - 48)) (readLit depth r3)
                else consFst ((e - 48) * 8 + (e2 - 48)) (readLit depth (e3 :: r3))
            else consFst (e - 48) (readLit depth (e2 :: r2))
        else if e = 0x0A then readLit depth r
        else if e = 0x0D then
          match r with
          | [] => none
          | l :: r2 => if l = 0x0A then readLit depth r2 else readLit depth (l :: r2)
        else consFst e (readLit depth r)
    else if b = 0x0D then
      match bs with
      | [] => none
      | l :: r => if l = 0x0A then consFst 0x0A (readLit depth r) else consFst 0x0A (readLit depth (l :: r))
    else consFst b (readLit depth bs)

/-- Hexadecimal digits of a hexadecimal string (7.3.4.3) up to the closing `>`. -/
def readHexDigits : Bytes → Option (Bytes × Bytes)
  | [] => none
  | b :: bs =>
    if b = ch!">" then some ([], bs)
    else if isWhite b then readHexDigits bs
    else match hexVal b with
      | some v => consFst v (readHexDigits bs)
      | none => none

/-- Pair up hexadecimal digits; a missing last digit is 0. -/
def pairHex : Bytes → Bytes
  | [] => []
  | [h] => [h * 16]
  | h :: l :: r => (h * 16 + l) :: pairHex r

/-- Hexadecimal strings, after the opening `<`. -/
def readHex (bs : Bytes) : Option (Bytes × Bytes) :=
  match readHexDigits bs with
  | some (ds, r) => some (pairHex ds, r)
  | none => none

/-- Names (7.3.5), after the slash: `#xx` stands for the byte with that hexadecimal code. -/
def decodeName : Bytes → Option Bytes
  | [] => some []
  | b :: bs =>
    if b = ch!"#" then
      match bs with
      | h :: l :: r =>
        match hexVal h, hexVal l, decodeName r with
        | some hv, some lv, some n => some ((hv * 16 + lv) :: n)
        | _, _, _ => none
      | _ => none
    else match decodeName bs with
      | some n => some (b :: n)
      | none => none

/-- Value of a sequence of decimal digits. -/
def digitsVal (ds : Bytes) : Nat := ds.foldl (fun a d => a * 10 + (d.toNat - 48)) 0

/-- Tokens. A real is `m / 10^s`. -/
inductive Tok where
  | int (n : Int)
  | real (m : Int) (s : Nat)
  | str (s : Bytes)
  | name (n : Bytes)
  | arrOpen | arrClose
  | dictOpen | dictClose
  | braceOpen | braceClose
  | kw (k : Bytes)
deriving DecidableEq

def applySign (neg : Bool) (n : Nat) : Int := if neg then -(n : Int) else n

/-- Numeric objects (7.3.3): optional sign, decimal digits, optional point. No exponents. -/
def readUnsigned (neg : Bool) (body : Bytes) : Option Tok :=
  let ip := body.takeWhile isDigit
  match body.dropWhile isDigit with
  | [] => if ip.isEmpty then none else some (.int (applySign neg (digitsVal ip)))
  | p :: fp =>
    if p = ch!"." ∧ fp.all isDigit ∧ ¬ (ip.isEmpty ∧ fp.isEmpty) then
      some (.real (applySign neg (digitsVal (ip ++ fp))) fp.length)
    else none

def readNumber (run : Bytes) : Option Tok :=
  match run with
  | [] => none
  | b :: r =>
    if b = ch!"-" then readUnsigned true r
    else if b = ch!"+" then readUnsigned false r
    else readUnsigned false (b :: r)

/-- A maximal run of regular characters is a number or else a keyword. -/
def readRun (run : Bytes) : Tok :=
  match readNumber run with
  | some t => t
  | none => .kw run

/-- The next token at the start of the input (leading white space already skipped). -/
def tokenAt : Bytes → Option (Tok × Bytes)
  | [] => none
  | b :: r =>
    if b = ch!"(" then
      match readLit 0 r with
      | some (s, r') => some (.str s, r')
      | none => none
    else if b = ch!"<" then
      match r with
      | [] => none
      | c :: r' =>
        if c = ch!"<" then some (.dictOpen, r')
        else match readHex (c :: r') with
          | some (s, r'') => some (.str s, r'')
          | none => none
    else if b = ch!">" then
      match r with
      | [] => none
      | c :: r' => if c = ch!">" then some (.dictClose, r') else none
    else if b = ch!"[" then some (.arrOpen, r)
    else if b = ch!"]" then some (.arrClose, r)
    else if b = ch!"{" then some (.braceOpen, r)
    else if b = ch!"}" then some (.braceClose, r)
    else if b = ch!"/" then
      match decodeName (r.takeWhile isRegular) with
      | some n => some (.name n, r.dropWhile isRegular)
      | none => none
    else if b = ch!")" then none
    else some (readRun ((b :: r).takeWhile isRegular), (b :: r).dropWhile isRegular)

/-- The next token: skip white space and comments, then read. -/
def nextToken (bs : Bytes) : Option (Tok × Bytes) := tokenAt (skipSpace false bs)

end PdfW.Spec
