import Verif.Spec.Lex

/-!
# PDF objects (ISO 32000-1, 7.3) and files (7.5): a reader
-/

namespace PdfW.Spec

/-- PDF values as read from a file. A real is `m / 10^s`. -/
inductive Val where
  | null
  | bool (b : Bool)
  | int (n : Int)
  | real (m : Int) (s : Nat)
  | str (s : Bytes)
  | name (n : Bytes)
  | arr (vs : List Val)
  | dict (es : List (Bytes × Val))
  | ref (id gen : Nat)

/-- Kinds of open constructs while reading. -/
inductive Kind where
  | top | arr | dict
deriving DecidableEq

/-- Open constructs, innermost first, each with the values read so far in reverse order. -/
abbrev State := List (Kind × List Val)

/-- Add a value to the innermost construct. -/
def State.push (v : Val) : State → Option State
  | (k, vs) :: fs => some ((k, v :: vs) :: fs)
  | [] => none

/-- Dictionary contents: alternating names and values (7.3.7). -/
def pairUp : List Val → Option (List (Bytes × Val))
  | [] => some []
  | .name k :: v :: r =>
    match pairUp r with
    | some es => some ((k, v) :: es)
    | none => none
  | _ => none

/-- The keywords that form objects or end an indirect reference. -/
def kwTrue : Bytes := b!"true"
def kwFalse : Bytes := b!"false"
def kwNull : Bytes := b!"null"
def kwR : Bytes := b!"R"

/-- Effect of one token on the open constructs. `id gen R` is an indirect reference (7.3.10). -/
def step : Tok → State → Option State
  | .int n, st => st.push (.int n)
  | .real m s, st => st.push (.real m s)
  | .str s, st => st.push (.str s)
  | .name n, st => st.push (.name n)
  | .arrOpen, st => some ((.arr, []) :: st)
  | .arrClose, st =>
    match st with
    | (.arr, vs) :: fs => State.push (.arr vs.reverse) fs
    | _ => none
  | .dictOpen, st => some ((.dict, []) :: st)
  | .dictClose, st =>
    match st with
    | (.dict, vs) :: fs =>
      match pairUp vs.reverse with
      | some es => State.push (.dict es) fs
      | none => none
    | _ => none
  | .kw k, st =>
    if k = kwTrue then st.push (.bool true)
    else if k = kwFalse then st.push (.bool false)
    else if k = kwNull then st.push .null
    else if k = kwR then
      match st with
      | (kind, .int g :: .int i :: vs) :: fs =>
        if 0 < i ∧ 0 ≤ g then some ((kind, .ref i.toNat g.toNat :: vs) :: fs) else none
      | _ => none
    else none
  | .braceOpen, _ => none
  | .braceClose, _ => none

/-- Is this a keyword that is not part of an object? -/
def isOperator : Tok → Option Bytes
  | .kw k => if k = kwTrue ∨ k = kwFalse ∨ k = kwNull ∨ k = kwR then none else some k
  | _ => none

/-- Read objects up to the next operator keyword (such as `endobj`, `stream`, `startxref` or a content
stream operator) outside of all arrays and dictionaries. -/
def readItems : Nat → State → Bytes → Option (List Val × Bytes × Bytes)
  | 0, _, _ => none
  | fuel + 1, st, bs =>
    match nextToken bs with
    | none => none
    | some (tok, rest) =>
      match isOperator tok with
      | some k =>
        match st with
        | [(.top, vs)] => some (vs.reverse, k, rest)
        | _ => none
      | none =>
        match step tok st with
        | some st' => readItems fuel st' rest
        | none => none

/-- Read objects up to the end of the input. -/
def readToEnd : Nat → State → Bytes → Option (List Val)
  | 0, _, _ => none
  | fuel + 1, st, bs =>
    match skipSpace false bs with
    | [] =>
      match st with
      | [(.top, vs)] => some vs.reverse
      | _ => none
    | _ :: _ =>
      match nextToken bs with
      | none => none
      | some (tok, rest) =>
        match step tok st with
        | some st' => readToEnd fuel st' rest
        | none => none

/-- All objects in a byte string. -/
def readAll (bs : Bytes) : Option (List Val) := readToEnd (bs.length + 1) [(.top, [])] bs

/-- The single object in a byte string. -/
def readOne (bs : Bytes) : Option Val :=
  match readAll bs with
  | some [v] => some v
  | _ => none

/-- Look up a key that occurs exactly once. -/
def lookup (k : Bytes) (es : List (Bytes × Val)) : Option Val :=
  match es.filter (fun e => e.1 == k) with
  | [e] => some e.2
  | _ => none

/-- Indirect objects: a plain value or a stream. -/
inductive IVal where
  | val (v : Val)
  | stream (d : List (Bytes × Val)) (data : Bytes)

/-- The end-of-line after the `stream` keyword: LF or CR LF (7.3.8.1). -/
def afterStream : Bytes → Option Bytes
  | 0x0A :: r => some r
  | 0x0D :: 0x0A :: r => some r
  | _ => none

/-- Require the next token to be the given keyword. -/
def expectKw (k : Bytes) (bs : Bytes) : Option Bytes :=
  match nextToken bs with
  | some (.kw k', r) => if k' = k then some r else none
  | _ => none

/-- An indirect object (7.3.10) at the start of the input: id, generation, contents, remaining input.
Stream data is delimited by `/Length` alone. -/
def readIndirect (bs : Bytes) : Option (Int × Int × IVal × Bytes) :=
  match nextToken bs with
  | some (.int id, r1) =>
    match nextToken r1 with
    | some (.int gen, r2) =>
      match expectKw b!"obj" r2 with
      | some r3 =>
        match readItems (r3.length + 1) [(.top, [])] r3 with
        | some ([v], k, r4) =>
          if k = b!"endobj" then some (id, gen, .val v, r4)
          else if k = b!"stream" then
            match v with
            | .dict es =>
              match lookup b!"Length" es, afterStream r4 with
              | some (.int n), some r5 =>
                if 0 ≤ n ∧ n.toNat ≤ r5.length then
                  match expectKw b!"endstream" (r5.drop n.toNat) with
                  | some r6 =>
                    match expectKw b!"endobj" r6 with
                    | some r7 => some (id, gen, .stream es (r5.take n.toNat), r7)
                    | none => none
                  | none => none
                else none
              | _, _ => none
            | _ => none
          else none
        | _ => none
      | none => none
    | _ => none
  | _ => none

end PdfW.Spec
