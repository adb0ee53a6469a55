import Verif.Proof.Layout

/-!
# Evaluating concrete documents

The model appends to the buffer byte by byte, as the code does; evaluating that in the kernel takes time quadratic in the size of the file.
This is an equal function that appends object by object, used only to evaluate concrete documents.
-/

namespace PdfW
open Spec

/-- `Chunk.writeIndirect`, object by object. -/
def fastIndirect (c : Chunk) (id : Ref) (p : Prog) : Chunk :=
  { buf := ⟨c.buf.inner ++ itemBytes ⟨id, .val p, c.pretty⟩ c.pretty, bodyLimits (.val p) (c.buf.limits.registerInt id.id)⟩
    offsets := c.offsets ++ [(id, c.buf.len)]
    pretty := c.pretty }

/-- `Chunk.writeStream`, object by object. -/
def fastStream (c : Chunk) (id : Ref) (es : List (Bytes × Prog)) (data : Bytes) : Option Chunk :=
  if data.length ≤ 2147483647 then some
      { buf := ⟨c.buf.inner ++ itemBytes ⟨id, .stream es data, c.pretty⟩ c.pretty,
          bodyLimits (.stream es data) (c.buf.limits.registerInt id.id)⟩
        offsets := c.offsets ++ [(id, c.buf.len)]
        pretty := c.pretty } else none

/-- `ChunkCall.run`, object by object. -/
def fastCall : ChunkCall → Chunk → Option Chunk
  | .indirect id p, ch => some (fastIndirect ch id p)
  | .stream id entries data, ch => fastStream ch id entries data
  | c, ch => c.run ch

/-- `PdfHist.run`, object by object. -/
def fastRun : PdfHist → Option Pdf
  | .new pretty => some (Pdf.withSettings pretty)
  | .call h c => match fastRun h with
    | some p => match fastCall c p.chunk with | some ch => some { p with chunk := ch } | none => none
    | none => none
  | .setVersion h a b => match fastRun h with | some p => some (p.setVersion a b) | none => none
  | .setBinaryMarker h m => match fastRun h with | some p => some (p.setBinaryMarker m) | none => none
  | .setFileId h id => match fastRun h with | some p => some (p.setFileId id) | none => none
  | .catalog h id es => match fastRun h with
    | some p => some { trailer := { p.trailer with catalogId := some id }
                       chunk := fastIndirect p.chunk id (.dict ((b!"Type", .prim (.name b!"Catalog")) :: es)) }
    | none => none
  | .documentInfo h id es => match fastRun h with
    | some p => some { trailer := { p.trailer with infoId := some id }, chunk := fastIndirect p.chunk id (.dict es) }
    | none => none
termination_by structural h => h

theorem fastCall_eq (c : ChunkCall) (ch : Chunk) : fastCall c ch = c.run ch := by
  cases c with
  | indirect id p => simp only [fastCall, ChunkCall.run, writeIndirect_eq]; rfl
  | stream id es data => simp only [fastCall, ChunkCall.run, writeStream_eq]; rfl
  | _ => rfl

theorem fastRun_eq (h : PdfHist) : fastRun h = h.run := by
  match h with
  | .new _ => rfl
  | .call h c => rw [fastRun, PdfHist.run, fastRun_eq h]; cases h.run <;> simp only [fastCall_eq]; rfl
  | .setVersion h a b => rw [fastRun, PdfHist.run, fastRun_eq h]; rfl
  | .setBinaryMarker h m => rw [fastRun, PdfHist.run, fastRun_eq h]; rfl
  | .setFileId h id => rw [fastRun, PdfHist.run, fastRun_eq h]; rfl
  | .catalog h id es => rw [fastRun, PdfHist.run, fastRun_eq h]; cases h.run <;> simp only [Pdf.catalog, writeIndirect_eq]; rfl
  | .documentInfo h id es => rw [fastRun, PdfHist.run, fastRun_eq h]; cases h.run <;> simp only [Pdf.documentInfo, writeIndirect_eq]; rfl
termination_by structural h

end PdfW
