import Verif.Model.Chunk

/-!
# `Pdf` and the cross-reference writers (`/repo/src/lib.rs:214-604`)

Object ids are `i32` in Rust. The additions `1 + id` and `id + 1` in `write_offsets` overflow for the id `i32::MAX`;
they are modelled as wrapping (release mode; a debug build panics).
-/

namespace PdfW

/-- `TrailerData` (lib.rs:506-511). -/
structure TrailerData where
  catalogId : Option Ref
  infoId : Option Ref
  fileId : Option (Bytes × Bytes)
deriving DecidableEq

/-- `Pdf` (lib.rs:222-225). -/
structure Pdf where
  chunk : Chunk
  trailer : TrailerData
deriving DecidableEq

/-- The header (lib.rs:251). -/
def pdfHeader : Bytes := b!"%PDF-1.7\n%\x80\x80\x80\x80\n\n"

namespace Pdf

/-- `Pdf::with_settings` and the other constructors (lib.rs:231-253). -/
def withSettings (pretty : Bool) : Pdf :=
  let chunk := Chunk.withSettings pretty
  ⟨{ chunk with buf := chunk.buf.extend pdfHeader }, ⟨none, none, none⟩⟩

/-- `Pdf::set_binary_marker` (lib.rs:261-263): `inner[10..14].copy_from_slice(marker)`. -/
def setBinaryMarker (p : Pdf) (m : UInt8 × UInt8 × UInt8 × UInt8) : Pdf :=
  let inner := (((p.chunk.buf.inner.set 10 m.1).set 11 m.2.1).set 12 m.2.2.1).set 13 m.2.2.2
  { p with chunk := { p.chunk with buf := { p.chunk.buf with inner := inner } } }

/-- `Pdf::set_version` (lib.rs:271-278). -/
def setVersion (p : Pdf) (major minor : UInt8) : Pdf :=
  let inner := p.chunk.buf.inner
  let inner := if major < 10 then inner.set 5 (ch!"0" + major) else inner
  let inner := if minor < 10 then inner.set 7 (ch!"0" + minor) else inner
  { p with chunk := { p.chunk with buf := { p.chunk.buf with inner := inner } } }

/-- `Pdf::set_file_id` (lib.rs:286-288). -/
def setFileId (p : Pdf) (id : Bytes × Bytes) : Pdf := { p with trailer := { p.trailer with fileId := some id } }

/-- `Pdf::catalog` (lib.rs:294-297) and `Catalog::start` (structure.rs:15-19), followed by inserting the given
pairs and dropping the writer. -/
def catalog (p : Pdf) (id : Ref) (entries : List (Bytes × Prog)) : Pdf :=
  { trailer := { p.trailer with catalogId := some id }
    chunk := p.chunk.writeIndirect id (.dict ((b!"Type", .prim (.name b!"Catalog")) :: entries)) }

/-- `Pdf::document_info` (lib.rs:304-307) and `DocumentInfo::start` (structure.rs:1743). -/
def documentInfo (p : Pdf) (id : Ref) (entries : List (Bytes × Prog)) : Pdf :=
  { trailer := { p.trailer with infoId := some id }
    chunk := p.chunk.writeIndirect id (.dict entries) }

end Pdf

/-! ## `write_offsets` -/

/-- The order on `(Ref, usize)` used by `offsets.sort()`: lexicographic. -/
def offsetLe (a b : Ref × Nat) : Bool := a.1.get < b.1.get || (a.1.get == b.1.get && a.2 ≤ b.2)

/-- `slice::sort` by contract: the sorted permutation (here by insertion). -/
def insertOffset (a : Ref × Nat) : List (Ref × Nat) → List (Ref × Nat)
  | [] => [a]
  | b :: r => if offsetLe a b then a :: b :: r else b :: insertOffset a r

/-- `offsets.sort()` (lib.rs:444). -/
def sortOffsets : List (Ref × Nat) → List (Ref × Nat)
  | [] => []
  | a :: r => insertOffset a (sortOffsets r)

/-- The trait `XRefWriter` (lib.rs:533-537): a writer with state `σ`. -/
structure XRefWriter (σ : Type) where
  prologue : Int → σ → σ
  writeFreeEntry : Nat → Nat → σ → σ
  writeOccupiedEntry : Nat → Nat → σ → σ

/-- Find the next free id (lib.rs:462-470). -/
def findNextFree (next : Int) : List (Ref × Nat) → Int
  | [] => next
  | (used, _) :: r => if next < used.get then next else findNextFree (wrapSucc used.get) r

/-- `as usize` of an `i32`: negative numbers are sign-extended. -/
def asUsize (i : Int) : Nat := if i < 0 then (i + 18446744073709551616).toNat else i.toNat

/-- The loop `for free_id in start..object_id` (lib.rs:458-476) with its number of remaining iterations;
`rest` is `&offsets[i..]`. -/
def fillFree {σ : Type} (w : XRefWriter σ) (xrefLen objectId : Int) (rest : List (Ref × Nat)) :
    Nat → Int → σ → σ
  | 0, _, s => s
  | n + 1, freeId, s =>
    let next := freeId + 1
    let next := if next = objectId then findNextFree next rest else next
    let gen := if freeId = 0 then 65535 else 0
    fillFree w xrefLen objectId rest n (freeId + 1) (w.writeFreeEntry (asUsize (next.tmod xrefLen)) gen s)

/-- The main loop (lib.rs:452-481); `none` is the panic. -/
def offsetsLoop {σ : Type} (w : XRefWriter σ) (xrefLen : Int) : List (Ref × Nat) → Int → σ → Option σ
  | [], _, s => some s
  | (objectId, offset) :: r, written, s =>
    if written > objectId.get then none
    else
      let n := (objectId.get - written).toNat
      let s := fillFree w xrefLen objectId.get ((objectId, offset) :: r) n written s
      offsetsLoop w xrefLen r (wrapSucc (written + n)) (w.writeOccupiedEntry offset 0 s)

/-- `offsets.last().map_or(0, |p| p.0.get())` (lib.rs:446). -/
def lastId (offsets : List (Ref × Nat)) : Int := match offsets.getLast? with | some p => p.1.get | none => 0

/-- `write_offsets` (lib.rs:443-484). -/
def writeOffsets {σ : Type} (offsets : List (Ref × Nat)) (w : XRefWriter σ) (s : σ) : Option (Int × σ) :=
  let offsets := sortOffsets offsets
  let xrefLen := wrapSucc (lastId offsets)
  let s := w.prologue xrefLen s
  let s := if offsets.isEmpty then w.writeFreeEntry 0 65535 s else s
  match offsetsLoop w xrefLen offsets 0 s with
  | none => none
  | some s => some (xrefLen, s)

/-- `TrailerData::write_into_dict` (lib.rs:513-531) as a list of pairs. -/
def TrailerData.entries (t : TrailerData) (xrefLen : Int) : List (Bytes × Prog) :=
  (b!"Size", .prim (.int xrefLen)) ::
    ((match t.catalogId with | some id => [(b!"Root", .prim (.ref id))] | none => []) ++
     (match t.infoId with | some id => [(b!"Info", .prim (.ref id))] | none => []) ++
     (match t.fileId with
      | some id => [(b!"ID", .array [.prim (.str id.1), .prim (.str id.2)])]
      | none => []))

/-- `finish_trailer` (lib.rs:432-441). -/
def finishTrailer (buf : Buf) (xrefOffset : Nat) (pad : Bytes) : Bytes :=
  let buf := buf.extend pad
  let buf := buf.extend b!"startxref\n"
  let buf := buf.extend (natBytes xrefOffset)
  let buf := buf.extend b!"\n%%EOF"
  buf.inner

/-- `PlainXRefWriter` (lib.rs:576-600); `{offset:010} {gen_number:05}` pads with zeros. -/
def plainXRefWriter : XRefWriter Buf where
  prologue n buf := ((buf.extend b!"xref\n0 ").pushInt n).push ch!"\n"
  writeFreeEntry off gen buf :=
    buf.extend (Date.padNat 10 off ++ b!" " ++ Date.padNat 5 gen ++ b!" f\x0D\n")
  writeOccupiedEntry off gen buf :=
    buf.extend (Date.padNat 10 off ++ b!" " ++ Date.padNat 5 gen ++ b!" n\x0D\n")

/-- `Pdf::finish` (lib.rs:313-328); `none` is the panic. -/
def Pdf.finish (p : Pdf) : Option Bytes :=
  let xrefOffset := p.chunk.buf.len
  match writeOffsets p.chunk.offsets plainXRefWriter p.chunk.buf with
  | none => none
  | some (xrefLen, buf) =>
    let buf := buf.extend b!"trailer\n"
    let buf := (Prog.dict (p.trailer.entries xrefLen)).run (Obj.direct 0 p.chunk.pretty false) buf
    some (finishTrailer buf xrefOffset b!"\n")

/-! ## Cross-reference streams -/

/-- `u64::to_be_bytes` restricted to the last `w` bytes (lib.rs:552-560); `u16::to_be_bytes` is `beBytes 2`. -/
def beBytes : Nat → Nat → Bytes
  | 0, _ => []
  | w + 1, n => beBytes w (n / 256) ++ [UInt8.ofNat (n % 256)]

/-- `XRefStreamWriter::write` (lib.rs:551-563). -/
def xrefStreamWrite (fieldWidth : Nat) (entryType : UInt8) (offset gen : Nat) (buf : Bytes) : Bytes :=
  let offsetBytes := beBytes 8 offset
  (buf ++ [entryType]) ++ offsetBytes.drop (offsetBytes.length - fieldWidth) ++ beBytes 2 gen

/-- `XRefStreamWriter` as an `XRefWriter` (lib.rs:565-574). -/
def xrefStreamWriter (fieldWidth : Nat) : XRefWriter Bytes where
  prologue _ s := s
  writeFreeEntry off gen s := xrefStreamWrite fieldWidth 0 off gen s
  writeOccupiedEntry off gen s := xrefStreamWrite fieldWidth 1 off gen s

/-- The number of significant bits, `usize::BITS - leading_zeros`. -/
def bitLength (n : Nat) : Nat := if n = 0 then 0 else n.log2 + 1

/-- `determine_field_width` (lib.rs:602-604). -/
def determineFieldWidth (offset : Nat) : Nat := (bitLength offset + 7) / 8

/-- `XRefFilter` (lib.rs:424-430). -/
inductive XRefFilter where
  | single (f : Filter)
  | multiple (fs : List Filter)

/-- The `/Filter` entry of the cross-reference stream (lib.rs:395-408). -/
def XRefFilter.entries : XRefFilter → List (Bytes × Prog)
  | .single f => [(b!"Filter", .prim (.name f.toName))]
  | .multiple fs => [(b!"Filter", .array (fs.map fun f => .prim (.name f.toName)))]

/-- `if let Some(filter) = filter` (lib.rs:395). -/
def xrefFilterEntries : Option XRefFilter → List (Bytes × Prog)
  | some f => f.entries
  | none => []

/-- `Pdf::finish_with_xref_stream_inner` (lib.rs:373-421); `none` is a panic. -/
def Pdf.finishXRefStreamInner (p : Pdf) (xrefId : Ref) (filter : Bytes → Bytes × Option XRefFilter) : Option Bytes :=
  let buf := p.chunk.buf
  let xrefOffset := buf.len
  let offsets := p.chunk.offsets ++ [(xrefId, xrefOffset)]
  let fieldWidth := determineFieldWidth xrefOffset
  match writeOffsets offsets (xrefStreamWriter fieldWidth) [] with
  | none => none
  | some (xrefLen, raw) =>
    let (xrefData, f) := filter raw
    let (buf, obj) := Obj.startIndirect xrefId p.chunk.pretty buf
    let entries := (b!"Type", .prim (.name b!"XRef")) ::
      (xrefFilterEntries f ++
       p.trailer.entries xrefLen ++
       [(b!"W", .array [.prim (.int 1), .prim (.int fieldWidth), .prim (.int 2)])])
    match runStream obj entries xrefData buf with
    | none => none
    | some buf => some (finishTrailer buf xrefOffset [])

/-- `Pdf::finish_with_xref_stream` (lib.rs:348-350). -/
def Pdf.finishWithXRefStream (p : Pdf) (xrefId : Ref) : Option Bytes :=
  p.finishXRefStreamInner xrefId (fun raw => (raw, none))

/-- `Pdf::finish_with_xref_stream_and_filter` (lib.rs:362-371). -/
def Pdf.finishWithXRefStreamAndFilter (p : Pdf) (xrefId : Ref) (filter : Bytes → Bytes × XRefFilter) : Option Bytes :=
  p.finishXRefStreamInner xrefId (fun raw => ((filter raw).1, some (filter raw).2))

end PdfW
