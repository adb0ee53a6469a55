import Verif.Proof.Ascii
import Verif.Props.Files

/-!
# C33: which files are ASCII

`set_binary_marker` is documented as the way "to ensure that your PDF consists of only ASCII characters".
-/

set_option linter.unusedSimpArgs false
set_option linter.unusedVariables false

namespace PdfW.Props
open PdfW.Spec

/-- C33: what is in the document before `finish` is ASCII exactly if the marker and everything else that the user gave
as raw bytes is: whatever strings, names, texts and keys it contains. -/
theorem C33_document (h : PdfHist) (p : Pdf) (hr : h.run = some p) :
    Ascii p.chunk.asBytes ↔ ∀ part ∈ verbatim h, Ascii part := ascii_doc hr

/-- C33: the same for chunks. -/
theorem C33_chunk (h : ChunkHist) (c : Chunk) (hr : h.run = some c) :
    Ascii c.asBytes ↔ ∀ part ∈ chunkParts h, Ascii part := chunk_asc h c hr

/-- C33: the file that `finish` returns is ASCII exactly if the marker and everything else that the user gave as raw
bytes is. -/
theorem C33_finish (h : PdfHist) (p : Pdf) (bytes : Bytes) (hr : h.run = some p) (hf : p.finish = some bytes)
    (hids : ∀ r ∈ docIds h, r.get < 2147483647) :
    Ascii bytes ↔ ∀ part ∈ verbatim h, Ascii part := by
  obtain ⟨-, rfl⟩ := finish_bytes hr hf hids
  have e := ascii_doc hr
  simp only [ascii_append] at *
  exact ⟨fun x => e.mp x.1.1, fun x => ⟨⟨e.mpr x, ascii_plainEnd p⟩, by
    have := ascii_startxref p.chunk.buf.len; simpa only [ascii_append] using this⟩⟩

theorem xrefRaw_not_ascii (p : Pdf) (xid : Ref) : ¬ Ascii (xrefRaw p xid) := by
  intro hA
  have hmem : (255 : UInt8) ∈ xrefRaw p xid := by
    simp only [xrefRaw, xrefEntries, List.mem_flatMap]
    refine ⟨_, List.mem_map.mpr ⟨0, ?_, rfl⟩, ?_⟩
    · simp only [List.mem_range, xrefSize]; omega
    · rw [wanted_free _ _ 0 (natOffs_ne _ 0 (by
        intro r _ h0
        have := r.pos
        simp [Ref.get] at h0
        omega))]
      simp only [strmEntry, List.mem_append]
      right; decide
  exact absurd (hA 255 hmem) (by decide)

theorem xrefItem_ascii (p : Pdf) (xid : Ref) (r : Bytes × Option XRefFilter) (nl : Bool) :
    Ascii (itemBytes (xrefItem p xid r) nl) ↔ Ascii r.1 := ascii_itemStream _ _ _ _ _

theorem finishStream_ascii {h : PdfHist} {p : Pdf} (xid : Ref) (filter : Bytes → Bytes × Option XRefFilter) {bytes : Bytes}
    (hr : h.run = some p) (hf : p.finishXRefStreamInner xid filter = some bytes)
    (hids : ∀ r ∈ docIds h ++ [xid], r.get < 2147483647) (hlen : p.chunk.asBytes.length < 2 ^ 64) :
    Ascii bytes ↔ (∀ part ∈ verbatim h, Ascii part) ∧ Ascii (filter (xrefRaw p xid)).1 := by
  have g := docFacts h p hr
  have hnd : ((p.chunk.offsets ++ [(xid, p.chunk.buf.len)]).map (·.1)).Nodup := by
    apply Classical.byContradiction
    intro hn
    rw [finishStream_none p xid filter (max_of_ids' g hids) hn] at hf
    simp at hf
  rw [finishStream_eq p xid filter hlen (max_of_ids' g hids) hnd] at hf
  split at hf
  · rw [Option.some.injEq] at hf
    subst hf
    have e := ascii_doc hr
    have e2 := ascii_startxref p.chunk.buf.len
    rw [ascii_append, ascii_append, xrefItem_ascii]
    exact ⟨fun x => ⟨e.mp x.1.1, x.1.2⟩, fun x => ⟨⟨e.mpr x.1, x.2⟩, e2⟩⟩
  · simp at hf

/-- C33: a file with an unfiltered cross-reference stream is never ASCII, whatever the marker: the entry of object 0
ends in the generation number 65535, stored as two bytes 0xFF. -/
theorem C33_xref_stream_never_ascii (h : PdfHist) (p : Pdf) (xid : Ref) (bytes : Bytes) (hr : h.run = some p)
    (hf : p.finishWithXRefStream xid = some bytes) (hids : ∀ r ∈ docIds h ++ [xid], r.get < 2147483647)
    (hlen : p.chunk.asBytes.length < 2 ^ 64) : ¬ Ascii bytes := by
  intro hA
  have := (finishStream_ascii xid _ hr hf hids hlen).mp hA
  exact xrefRaw_not_ascii p xid this.2

/-- C33: there is one input, the table (see C21 for what it holds), on which the filter is called; it is not ASCII, and
whatever the filter, the file is ASCII exactly if the raw parts and the output of the filter on this input are. So an
ASCII filter such as ASCII hex makes the file ASCII. -/
theorem C33_xref_stream_filtered (h : PdfHist) (p : Pdf) (xid : Ref) (hr : h.run = some p)
    (hids : ∀ r ∈ docIds h ++ [xid], r.get < 2147483647) (hlen : p.chunk.asBytes.length < 2 ^ 64) :
    ∃ raw, ¬ Ascii raw ∧ ∀ (filter : Bytes → Bytes × XRefFilter) (bytes : Bytes),
      p.finishWithXRefStreamAndFilter xid filter = some bytes →
      (Ascii bytes ↔ (∀ part ∈ verbatim h, Ascii part) ∧ Ascii (filter raw).1) :=
  ⟨xrefRaw p xid, xrefRaw_not_ascii p xid, fun filter bytes hf =>
    finishStream_ascii xid (fun raw => ((filter raw).1, some (filter raw).2)) hr hf hids hlen⟩

/-! ## Concrete documents -/

/-- Non-ASCII names, strings and texts, ASCII marker, ASCII stream, and a merged document with a non-ASCII marker that
is renumbered (so that its header is not copied). -/
def asciiDoc : PdfHist :=
  .call (.call (.catalog (.setBinaryMarker (.new false) (65, 66, 67, 68)) (rf 1)
    [(b!"\xC3\x28", .prim (.str b!"\xFF(")), (b!"T", .prim (.textStr ['é', '中']))])
    (.stream (rf 2) [] b!"BT ET"))
    (.renumberFrom (.ofPdf (.call (.new true) (.stream (rf 9) [] b!"q Q"))) Unit (fun s r => (r, s)) ())

example : verbatim asciiDoc = [b!"ABCD", b!"BT ET", b!"q Q"] := by
  simp [asciiDoc, verbatim, marker, markerBytes, pdfParts, callParts, chunkItems, pdfItems, callItems, pdfPretty, streamData]

example : (asciiDoc.run.bind fun p => p.finish).any (fun bytes => decide (Ascii bytes)) = true := by decide +kernel

/-- The default marker is not ASCII, and neither is an embedded header. -/
example : ((PdfHist.new false).run.bind fun p => p.finish).any (fun bytes => decide (Ascii bytes)) = false := by decide +kernel
example : verbatim (.call (.setBinaryMarker (.new false) (65, 66, 67, 68)) (.extend (.ofPdf (.new true)))) =
    [b!"ABCD", [0x80, 0x80, 0x80, 0x80]] := by
  simp [verbatim, marker, markerBytes, pdfParts, callParts, chunkParts]

end PdfW.Props
