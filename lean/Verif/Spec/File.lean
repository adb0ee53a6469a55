import Verif.Spec.Reader

/-!
# PDF files (ISO 32000-1, 7.5): a reader that starts at the end of the file

Written from the standard; knows nothing about the writer.
-/

namespace PdfW.Spec

/-- An entry of the cross-reference section (7.5.4, 7.5.8.3). -/
inductive XEntry where
  /-- the number of the next free object and a generation -/
  | free (next gen : Nat)
  /-- byte offset and generation of an object in use -/
  | used (off gen : Nat)
  /-- an object in an object stream (cross-reference streams only) -/
  | packed (strm idx : Nat)
deriving DecidableEq

/-- Remove a prefix. -/
def stripPrefix : Bytes → Bytes → Option Bytes
  | [], bs => some bs
  | _ :: _, [] => none
  | p :: ps, b :: bs => if p = b then stripPrefix ps bs else none

def isEol (b : UInt8) : Bool := b == 0x0A || b == 0x0D

/-- 7.5.5: the file ends with the keyword `startxref`, a byte offset and `%%EOF`, each on its own line. Read
backwards from the end of the file. -/
def readStartxref (file : Bytes) : Option Nat :=
  match stripPrefix (b!"%%EOF").reverse (file.reverse.dropWhile isWhite) with
  | none => none
  | some r1 =>
    let r2 := r1.dropWhile isEol
    let digits := r2.takeWhile isDigit
    let r3 := r2.dropWhile isDigit
    if r2.length < r1.length ∧ digits ≠ [] ∧ (r3.dropWhile isEol).length < r3.length then
      match stripPrefix (b!"startxref").reverse (r3.dropWhile isEol) with
      | some _ => some (digitsVal digits.reverse)
      | none => none
    else none

/-! ## Cross-reference tables (7.5.4) -/

/-- The kinds of entries. -/
def entryOf (kind : UInt8) (off gen : Nat) : Option XEntry :=
  if kind = ch!"n" then some (.used off gen) else if kind = ch!"f" then some (.free off gen) else none

/-- One entry: exactly 20 bytes `nnnnnnnnnn ggggg n` followed by a two-character end-of-line. -/
def readEntry (bs : Bytes) : Option (XEntry × Bytes) :=
  let e := bs.take 20
  let off := e.take 10
  let gen := (e.drop 11).take 5
  let eol := e.drop 18
  if e.length = 20 ∧ off.all isDigit ∧ e[10]? = some ch!" " ∧ gen.all isDigit ∧ e[16]? = some ch!" " ∧
      (eol = b!" \x0D" ∨ eol = b!" \n" ∨ eol = b!"\x0D\n") then
    match e[17]? with
    | some kind =>
      match entryOf kind (digitsVal off) (digitsVal gen) with
      | some x => some (x, bs.drop 20)
      | none => none
    | none => none
  else none

/-- `n` entries. -/
def readEntries : Nat → Bytes → Option (List XEntry × Bytes)
  | 0, bs => some ([], bs)
  | n + 1, bs =>
    match readEntry bs with
    | some (e, r) =>
      match readEntries n r with
      | some (es, r') => some (e :: es, r')
      | none => none
    | none => none

/-- Number a list of entries, starting with `first`. -/
def numbered (first : Nat) : List XEntry → List (Nat × XEntry)
  | [] => []
  | e :: es => (first, e) :: numbered (first + 1) es

/-- Subsections `first count` with their entries, up to the keyword `trailer`. -/
def readSections : Nat → Bytes → Option (List (Nat × XEntry) × Bytes)
  | 0, _ => none
  | fuel + 1, bs =>
    match nextToken bs with
    | some (.kw k, r) => if k = b!"trailer" then some ([], r) else none
    | some (.int first, r) =>
      match nextToken r with
      | some (.int count, r) =>
        if 0 ≤ first ∧ 0 ≤ count then
          match readEntries count.toNat (r.dropWhile isWhite) with
          | some (es, r) =>
            match readSections fuel r with
            | some (t, r) => some (numbered first.toNat es ++ t, r)
            | none => none
          | none => none
        else none
      | _ => none
    | _ => none

/-! ## Cross-reference streams (7.5.8) -/

/-- Big-endian numbers. -/
def beVal (bs : Bytes) : Nat := bs.foldl (fun a b => a * 256 + b.toNat) 0

/-- Table 18: entry types 0, 1, 2. -/
def streamEntry (type f2 f3 : Nat) : Option XEntry :=
  match type with
  | 0 => some (.free f2 f3)
  | 1 => some (.used f2 f3)
  | 2 => some (.packed f2 f3)
  | _ => none

/-- `count` entries with field widths `w1 w2 w3`; a first field of width 0 means type 1. -/
def readStreamEntries (w1 w2 w3 : Nat) : Nat → Bytes → Option (List XEntry)
  | 0, _ => some []
  | n + 1, bs =>
    let type := if w1 = 0 then 1 else beVal (bs.take w1)
    if bs.length < w1 + w2 + w3 then none
    else match streamEntry type (beVal ((bs.drop w1).take w2)) (beVal ((bs.drop (w1 + w2)).take w3)) with
      | some e =>
        match readStreamEntries w1 w2 w3 n (bs.drop (w1 + w2 + w3)) with
        | some es => some (e :: es)
        | none => none
      | none => none

/-- The dictionary of a cross-reference stream and its decoded data. Only the default `/Index` is understood. -/
def readStreamTable (d : List (Bytes × Val)) (data : Bytes) : Option (List (Nat × XEntry)) :=
  match lookup b!"Type" d, lookup b!"Size" d, lookup b!"W" d with
  | some (.name t), some (.int size), some (.arr [.int w1, .int w2, .int w3]) =>
    if t = b!"XRef" ∧ 0 ≤ size ∧ 0 ≤ w1 ∧ 0 ≤ w2 ∧ 0 ≤ w3 ∧ (d.all fun e => e.1 != b!"Index") then
      match readStreamEntries w1.toNat w2.toNat w3.toNat size.toNat data with
      | some es => some (numbered 0 es)
      | none => none
    else none
  | _, _, _ => none

/-! ## Files -/

/-- What is read from the end of a file: the position given by `startxref`, the cross-reference entries and the
trailer dictionary (or the dictionary of the cross-reference stream). -/
structure FileEnd where
  pos : Nat
  table : List (Nat × XEntry)
  trailer : List (Bytes × Val)

/-- Stream data after undoing the filters named by `/Filter`; the decoder is a parameter. -/
def unfiltered (unfilter : Val → Bytes → Option Bytes) (d : List (Bytes × Val)) (data : Bytes) : Option Bytes :=
  if d.all fun e => e.1 != b!"Filter" then some data
  else match lookup b!"Filter" d with
    | some f => unfilter f data
    | none => none

/-- Read the cross-reference section: either the keyword `xref`, a table, `trailer` and a dictionary followed by
`startxref`, or a stream object. -/
def readXref (unfilter : Val → Bytes → Option Bytes) (pos : Nat) (bs : Bytes) : Option FileEnd :=
  match expectKw b!"xref" bs with
  | some r =>
    match readSections (r.length + 1) r with
    | some (t, r) =>
      match readItems (r.length + 1) [(.top, [])] r with
      | some ([.dict d], k, _) => if k = b!"startxref" then some ⟨pos, t, d⟩ else none
      | _ => none
    | none => none
  | none =>
    match readIndirect bs with
    | some (_, _, .stream d data, _) =>
      match unfiltered unfilter d data with
      | some raw =>
        match readStreamTable d raw with
        | some t => some ⟨pos, t, d⟩
        | none => none
      | none => none
    | _ => none

/-- Read a file from its end. -/
def readFile (unfilter : Val → Bytes → Option Bytes) (file : Bytes) : Option FileEnd :=
  match readStartxref file with
  | some pos => readXref unfilter pos (file.drop pos)
  | none => none

/-- The entry for object number `i`; there must be exactly one. -/
def FileEnd.entry (f : FileEnd) (i : Nat) : Option XEntry :=
  match f.table.filter (fun e => e.1 == i) with
  | [e] => some e.2
  | _ => none

/-- The object with number `i`: go to the offset in the table and read an indirect object with that very number
and generation. (Objects in object streams are not looked up.) -/
def FileEnd.object (f : FileEnd) (file : Bytes) (i : Nat) : Option IVal :=
  match f.entry i with
  | some (.used off gen) =>
    match readIndirect (file.drop off) with
    | some (id, g, v, _) => if id = i ∧ g = gen then some v else none
    | none => none
  | _ => none

/-! ## What a cross-reference section must say -/

/-- The least unused object number above `i` and below `size`, 0 if there is none; `objs` are the numbers and
offsets of the objects in use. -/
def nextUnused (objs : List (Nat × Nat)) (size i : Nat) : Nat :=
  match (List.range size).find? (fun j => i < j && !(objs.any fun o => o.1 == j)) with
  | some j => j
  | none => 0

/-- The entry for object number `i` (7.5.4): the offset of the object with that number; otherwise a free entry with
a link to the next free entry, of generation 65535 for object number 0. -/
def wantedEntry (objs : List (Nat × Nat)) (size i : Nat) : XEntry :=
  match objs.find? (fun o => o.1 == i) with
  | some o => .used o.2 0
  | none => .free (nextUnused objs size i) (if i = 0 then 65535 else 0)

/-- Follow the links of free entries until a link to 0: the numbers visited. -/
def follow (es : List XEntry) : Nat → Nat → Option (List Nat)
  | 0, _ => none
  | fuel + 1, i =>
    match es[i]? with
    | some (.free next _) =>
      if next = 0 then some [i]
      else match follow es fuel next with
        | some js => some (i :: js)
        | none => none
    | _ => none

end PdfW.Spec
