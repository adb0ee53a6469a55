import Verif.Model.Chunk

/-!
# Renumbering (`/repo/src/renumber.rs`, `/repo/src/chunk.rs:170-187`)

The closure `FnMut(Ref) -> Ref` is modelled by a function with an explicit state: `σ → Ref → Ref × σ`.
-/

namespace PdfW

/-- A stateful closure. -/
abbrev Mapping (σ : Type) := σ → Ref → Ref × σ

/-- `is_whitespace` (renumber.rs:163-165). -/
def isWhitespace (b : UInt8) : Bool := b == 0x00 || b == 0x09 || b == 0x0A || b == 0x0C || b == 0x0D || b == 0x20

/-- `u8::is_ascii_digit`. -/
def isAsciiDigit (b : UInt8) : Bool := 48 ≤ b && b ≤ 57

/-- `eat_suffix` (renumber.rs:152-160): the remaining slice and the eaten suffix. -/
def eatSuffix (s : Bytes) (predicate : UInt8 → Bool) : Bytes × Bytes :=
  let tail := (s.reverse.takeWhile predicate).reverse
  (s.take (s.length - tail.length), tail)

/-- `str::parse::<i32>` of a string of ASCII digits. -/
def parseI32 (s : Bytes) : Option Int :=
  if s.isEmpty then none
  else
    let v : Nat := s.foldl (fun a d => a * 10 + (d.toNat - 48)) 0
    if v ≤ 2147483647 then some v else none

/-- `eat_number_rev` (renumber.rs:144-149): the number and the remaining slice. -/
def eatNumberRev (s : Bytes) : Option (Int × Bytes) :=
  let (head, tail) := eatSuffix s isAsciiDigit
  match parseI32 tail with
  | some n => some (n, head)
  | none => none

/-- `require_whitespace_rev` (renumber.rs:139-141). -/
def requireWhitespaceRev (s : Bytes) : Option Bytes :=
  let (head, tail) := eatSuffix s isWhitespace
  if tail.isEmpty then none else some head

/-- `validate_ref` (renumber.rs:124-130). -/
def validateRef (pre : Bytes) : Option (Nat × Ref × Int) :=
  match requireWhitespaceRev pre with
  | none => none
  | some pre =>
  match eatNumberRev pre with
  | none => none
  | some (gen, pre) =>
  match requireWhitespaceRev pre with
  | none => none
  | some pre =>
  match eatNumberRev pre with
  | none => none
  | some (id, pre) =>
    match Ref.new id with
    | some r => some (pre.length, r, gen)
    | none => none

/-- `validate_stream` (renumber.rs:133-136). -/
def validateStream (pre : Bytes) : Bool := b!">>".isSuffixOf (eatSuffix pre isWhitespace).1

/-- Where the scanner of `patch_object` is. -/
inductive PatchMode where
  | normal
  /-- inside the comment loop (renumber.rs:82-90) -/
  | comment
  /-- inside the string loop (renumber.rs:93-105) at this depth -/
  | string (depth : Nat)
  /-- inside the string loop after a backslash: the next byte is skipped -/
  | escaped (depth : Nat)
deriving DecidableEq

/-- `patch_object` (renumber.rs:53-121). `pre` is `slice[..seen]`, the last list is `slice[seen..]`; `written` is
the index of the first byte that was not copied yet. The inner loops are modes of the same scan. -/
def patchScan {σ : Type} (m : Mapping σ) : PatchMode → Nat → Bytes → Bytes → Buf → σ → Buf × σ
  | _, written, pre, [], buf, s => (buf.extend (pre.drop written), s)
  | .normal, written, pre, b :: r, buf, s =>
    if b = ch!"R" then
      match validateRef pre with
      | some (head, id, gen) =>
        let (new, s) := m s id
        let buf := buf.extend ((pre.take head).drop written)
        let buf := buf.pushInt new.get
        let buf := buf.push ch!" "
        let buf := buf.pushInt gen
        let buf := buf.push ch!" "
        let buf := buf.push ch!"R"
        patchScan m .normal (pre.length + 1) (pre ++ [b]) r buf s
      | none => patchScan m .normal written (pre ++ [b]) r buf s
    else if b = ch!"%" then patchScan m .comment written (pre ++ [b]) r buf s
    else if b = ch!"(" then patchScan m (.string 1) written (pre ++ [b]) r buf s
    else if b = ch!"s" ∧ b!"stream".isPrefixOf (b :: r) ∧ validateStream pre then
      (buf.extend ((pre ++ b :: r).drop written), s)
    else patchScan m .normal written (pre ++ [b]) r buf s
  | .comment, written, pre, b :: r, buf, s =>
    if b = ch!"\n" ∨ b = 0x0D then patchScan m .normal written (pre ++ [b]) r buf s
    else patchScan m .comment written (pre ++ [b]) r buf s
  | .string depth, written, pre, b :: r, buf, s =>
    if b = ch!"(" then patchScan m (.string (depth + 1)) written (pre ++ [b]) r buf s
    else if b = ch!")" then
      if depth = 1 then patchScan m .normal written (pre ++ [b]) r buf s
      else patchScan m (.string (depth - 1)) written (pre ++ [b]) r buf s
    else if b = ch!"\\" then patchScan m (.escaped depth) written (pre ++ [b]) r buf s
    else patchScan m (.string depth) written (pre ++ [b]) r buf s
  | .escaped depth, written, pre, b :: r, buf, s => patchScan m (.string depth) written (pre ++ [b]) r buf s

/-- `patch_object` (renumber.rs:53-121). -/
def patchObject {σ : Type} (m : Mapping σ) (slice : Bytes) (buf : Buf) (s : σ) : Buf × σ :=
  patchScan m .normal 0 [] slice buf s

/-- `memchr::memmem::find` by contract: index of the first occurrence. -/
def findSub (needle : Bytes) : Bytes → Option Nat
  | [] => if needle.isEmpty then some 0 else none
  | b :: r => if needle.isPrefixOf (b :: r) then some 0 else (findSub needle r).map (· + 1)

/-- `memchr::memmem::rfind` by contract: index of the last occurrence (of a non-empty needle). -/
def rfindSub (needle : Bytes) : Bytes → Option Nat
  | [] => none
  | b :: r =>
    match rfindSub needle r with
    | some i => some (i + 1)
    | none => if needle.isPrefixOf (b :: r) then some 0 else none

/-- `extract_object` (renumber.rs:30-49). -/
def extractObject (slice : Bytes) : Option (Int × Bytes) :=
  match findSub b!"obj" slice with
  | none => none
  | some offset =>
    let pre := (eatSuffix (slice.take offset) isWhitespace).1
    match eatNumberRev pre with
    | none => none
    | some (gen, _) =>
      let head := offset + 3 + ((slice.drop (offset + 3)).takeWhile isWhitespace).length
      match rfindSub b!"endobj" slice with
      | none => none
      | some tail =>
        let tail := (eatSuffix (slice.take tail) isWhitespace).1.length
        if head ≤ tail then some (gen, (slice.take tail).drop head) else none

/-- Where the slice of an object ends: at the next object or at the end of the buffer (renumber.rs:12-13). -/
def stopOffset (len : Nat) : List (Ref × Nat) → Nat
  | (_, o) :: _ => o
  | [] => len

/-- The loop of `renumber` (renumber.rs:9-26); `source` is the source's buffer. -/
def renumberLoop {σ : Type} (m : Mapping σ) (source : Bytes) : List (Ref × Nat) → Chunk → σ → Chunk × σ
  | [], target, s => (target, s)
  | (id, offset) :: rest, target, s =>
    let (new, s) := m s id
    let stop := stopOffset source.length rest
    let slice := (source.take stop).drop offset
    match extractObject slice with
    | none => renumberLoop m source rest target s
    | some (gen, slice) =>
      let target := { target with offsets := target.offsets ++ [(new, target.buf.len)] }
      let buf := target.buf.pushInt new.get
      let buf := buf.push ch!" "
      let buf := buf.pushInt gen
      let buf := buf.extend b!" obj\n"
      let (buf, s) := patchObject m slice buf s
      let buf := buf.extend b!"\nendobj\n"
      let buf := if target.pretty then buf.extend b!"\n" else buf
      renumberLoop m source rest { target with buf := buf } s

/-- `Chunk::renumber_into` (chunk.rs:181-187, renumber.rs:6-27). -/
def Chunk.renumberInto {σ : Type} (source target : Chunk) (m : Mapping σ) (s : σ) : Chunk × σ :=
  renumberLoop m source.buf.inner source.offsets (target.mergeLimits source.limits) s

/-- `Chunk::renumber` (chunk.rs:170-177): into a new chunk with default settings. -/
def Chunk.renumber {σ : Type} (source : Chunk) (m : Mapping σ) (s : σ) : Chunk × σ :=
  source.renumberInto (Chunk.withSettings true) m s

end PdfW
