import Verif.Model.Pdf
import Verif.Model.Renumber

/-!
# Histories of calls on chunks and documents

Every `Chunk` (chunk.rs) and every `Pdf` (lib.rs:222-307) that safe code can build through the methods of these types
is the result of such a history. Not covered: overwriting a `Chunk` or a `Pdf`'s inner chunk as a whole
(`mem::swap`, `*pdf = chunk`), and writers that are leaked (`mem::forget`).
-/

namespace PdfW

mutual
/-- How a chunk came about. -/
inductive ChunkHist : Type 1 where
  /-- `Chunk::with_settings` (chunk.rs:44-68) -/
  | new (pretty : Bool)
  /-- the chunk inside a document, through `Deref` (lib.rs:492-498) or `clone` -/
  | ofPdf (p : PdfHist)
  /-- a method call -/
  | call (h : ChunkHist) (c : ChunkCall)
/-- Methods of `Chunk` that change it. -/
inductive ChunkCall : Type 1 where
  /-- `Chunk::indirect` and all typed constructors, with the calls made on the returned writer -/
  | indirect (id : Ref) (p : Prog)
  /-- `Chunk::stream`, with the entries inserted into its dictionary -/
  | stream (id : Ref) (entries : List (Bytes × Prog)) (data : Bytes)
  /-- `Chunk::extend` -/
  | extend (other : ChunkHist)
  /-- `Chunk::merge_limits` -/
  | mergeLimits (l : Limits)
  /-- `source.renumber_into(self, closure)`, where the closure has state `s : σ` when the call starts -/
  | renumberFrom (source : ChunkHist) (σ : Type) (m : Mapping σ) (s : σ)
/-- How a document came about. -/
inductive PdfHist : Type 1 where
  /-- `Pdf::with_settings` -/
  | new (pretty : Bool)
  /-- a method of `Chunk` through `DerefMut` (lib.rs:500-504) -/
  | call (h : PdfHist) (c : ChunkCall)
  | setVersion (h : PdfHist) (major minor : UInt8)
  | setBinaryMarker (h : PdfHist) (m : UInt8 × UInt8 × UInt8 × UInt8)
  | setFileId (h : PdfHist) (id : Bytes × Bytes)
  | catalog (h : PdfHist) (id : Ref) (entries : List (Bytes × Prog))
  | documentInfo (h : PdfHist) (id : Ref) (entries : List (Bytes × Prog))
end

mutual
/-- The chunk a history builds; `none` is a panic. -/
def ChunkHist.run : ChunkHist → Option Chunk
  | .new pretty => some (Chunk.withSettings pretty)
  | .ofPdf p => match p.run with | some p => some p.chunk | none => none
  | .call h c => match h.run with | some ch => c.run ch | none => none
termination_by structural h => h
/-- The effect of a call on a chunk; `none` is a panic. -/
def ChunkCall.run : ChunkCall → Chunk → Option Chunk
  | .indirect id p, ch => some (ch.writeIndirect id p)
  | .stream id entries data, ch => ch.writeStream id entries data
  | .extend o, ch => match o.run with | some o => some (ch.extend o) | none => none
  | .mergeLimits l, ch => some (ch.mergeLimits l)
  | .renumberFrom source _ m s, ch => match source.run with | some src => some (src.renumberInto ch m s).1 | none => none
termination_by structural c => c
/-- The document a history builds; `none` is a panic. -/
def PdfHist.run : PdfHist → Option Pdf
  | .new pretty => some (Pdf.withSettings pretty)
  | .call h c =>
    match h.run with
    | some p => match c.run p.chunk with | some ch => some { p with chunk := ch } | none => none
    | none => none
  | .setVersion h a b => match h.run with | some p => some (p.setVersion a b) | none => none
  | .setBinaryMarker h m => match h.run with | some p => some (p.setBinaryMarker m) | none => none
  | .setFileId h id => match h.run with | some p => some (p.setFileId id) | none => none
  | .catalog h id es => match h.run with | some p => some (p.catalog id es) | none => none
  | .documentInfo h id es => match h.run with | some p => some (p.documentInfo id es) | none => none
termination_by structural h => h
end

end PdfW
