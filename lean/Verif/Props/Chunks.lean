import Verif.Proof.History

/-!
# Properties C13–C16: streams, chunks and headers
-/

set_option linter.unusedSimpArgs false
set_option linter.unusedVariables false

namespace PdfW.Props
open PdfW PdfW.Spec

/-! ## C13 -/

/-- C13: a stream written into any chunk reads back, whatever follows it: a stream dictionary that starts with
`/Length` = number of data bytes and goes on with exactly the entries inserted, and exactly the data bytes. The
caller must not insert a second `/Length`. -/
theorem C13_stream_reads_back (c c' : Chunk) (id : Ref) (es : List (Bytes × Prog)) (data : Bytes)
    (h : c.writeStream id es data = some c') (hok : OkEntries es) (hc : c.pretty = true ∨ NoClashEntries es)
    (hl : ∀ e ∈ es, e.1 ≠ b!"Length") :
    ∃ out, c'.asBytes = c.asBytes ++ out ∧ c'.offsets = c.offsets ++ [(id, c.len)] ∧
      ∀ rest, ∃ d r, readIndirect (out ++ rest) = some (id.get, 0, .stream ((b!"Length", .int data.length) :: d) data, r) ∧
        DenotesEntries es d := by
  rw [writeStream_eq] at h
  split at h
  · simp only [Option.some.injEq] at h
    subst h
    refine ⟨_, rfl, rfl, ?_⟩
    intro rest
    obtain ⟨r, hr⟩ := readIndirect_item ⟨id, .stream es data, c.pretty⟩ c.pretty rest ⟨hok, hc, hl⟩
    exact ⟨_, _, hr, entriesVal_denotes es hok⟩
  · simp at h

/-- C13: `Chunk::stream` panics exactly when the data is longer than `i32::MAX`. -/
theorem C13_stream_panics_iff (c : Chunk) (id : Ref) (es : List (Bytes × Prog)) (data : Bytes) :
    c.writeStream id es data = none ↔ data.length > 2147483647 := by
  rw [writeStream_eq]; split <;> simp <;> omega

/-- A stream whose data contains the words that end streams and objects. -/
def sampleStream : List Item :=
  [⟨⟨7, by decide, by decide⟩, .stream [(b!"Type", .prim (.name b!"XObject")), (b!"P", .prim (.ref ⟨3, by decide, by decide⟩))]
    b!"\nendstream\nendobj\n1 0 R (", true⟩]

example : ((writeItems sampleStream (Chunk.withSettings false)).map fun c => c.asBytes) =
    some b!"7 0 obj\n<</Length 25/Type/XObject/P 3 0 R>>\nstream\n\nendstream\nendobj\n1 0 R (\nendstream\nendobj\n" := by
  decide +kernel

/-! ## C14 -/

/-- C14: in every chunk built by any history of API calls (including `extend`, `renumber` and chunks inside
documents), the recorded ids are those of the objects written, in writing order, and each recorded offset is the
position where that object's `id 0 obj` header starts and where a reader finds exactly that object. -/
theorem C14_offsets_point_at_objects (h : ChunkHist) (c : Chunk) (hr : h.run = some c) :
    c.refs = (chunkItems h).map (·.id) ∧
    ∀ (n : Nat) (it : Item), (chunkItems h)[n]? = some it → ItemOk it →
      ∃ off, c.offsets[n]? = some (it.id, off) ∧ ReadsAt c.asBytes off it := by
  obtain ⟨ps, hl, hi, -⟩ := chunk_inv h c hr
  constructor
  · rw [Chunk.refs, hl.offsets, offs_refs, hi]
  · intro n it hit hok
    obtain ⟨off, h1, h2⟩ := readsAt_offs [] [] ps n it (by rw [hi]; exact hit) hok
    refine ⟨off, by rw [hl.offsets]; simpa using h1, ?_⟩
    simpa [Chunk.asBytes, hl.bytes] using h2

theorem header_at (pre : Bytes) (ps : List Piece) (n : Nat) (id : Ref) (off : Nat) (h : (offs pre.length ps)[n]? = some (id, off)) :
    (intBytes id.get ++ b!" 0 obj\n") <+: (pre ++ piecesBytes ps).drop off := by
  induction ps generalizing pre n with
  | nil => simp [offs] at h
  | cons p ps ih =>
    cases p with
    | header a b m =>
      have := ih (pre ++ headerBytes a b m) n (by simpa [offs, Piece.bytes] using h)
      simpa [piecesBytes, Piece.bytes] using this
    | item it nl =>
      cases n with
      | zero =>
        simp only [offs, List.getElem?_cons_zero, Option.some.injEq, Prod.mk.injEq] at h
        obtain ⟨rfl, rfl⟩ := h
        rw [List.drop_left]
        exact ⟨bodyBytes it.pretty it.body ++ ((if started it.body then endBytes nl else []) ++ piecesBytes ps), by
          simp [piecesBytes, Piece.bytes, itemBytes, headBytes, Ref.get]⟩
      | succ n =>
        have := ih (pre ++ itemBytes it nl) n (by simpa [offs, Piece.bytes] using h)
        simpa [piecesBytes, Piece.bytes] using this

/-- C14: the header starts exactly at the recorded offset, for all objects (representable or not). -/
theorem C14_header_at_offset (h : ChunkHist) (c : Chunk) (hr : h.run = some c) (id : Ref) (off : Nat) (hm : (id, off) ∈ c.offsets) :
    (intBytes id.get ++ b!" 0 obj\n") <+: c.asBytes.drop off := by
  obtain ⟨ps, hl, hi, -⟩ := chunk_inv h c hr
  obtain ⟨n, hn⟩ := List.getElem?_of_mem hm
  rw [hl.offsets] at hn
  have := header_at [] ps n id off (by simpa using hn)
  simpa [Chunk.asBytes, hl.bytes] using this

/-- References for examples. -/
abbrev rf (n : Nat) (h : 0 < n ∧ n ≤ 2147483647 := by decide) : Ref := ⟨n, by omega, by omega⟩

/-- A mapping for examples: shift by 100 and count the calls. -/
def shift : Mapping Nat := fun n r => (if h : r.id + 100 ≤ 2147483647 then ⟨r.id + 100, by have := r.pos; omega, h⟩ else r, n + 1)

/-- A history that mixes everything: a compact chunk, extended by the chunk of a document, renumbered into a
pretty chunk. -/
def sampleHist : ChunkHist :=
  let inner : PdfHist := .setVersion (.catalog (.new true) (rf 1) [(b!"Pages", .prim (.ref (rf 2)))]) 2 0
  let a : ChunkHist := .call (.new false) (.indirect (rf 5) (.array [.prim (.int 1), .prim (.ref (rf 1)), .prim (.str b!"1 0 R")]))
  let b : ChunkHist := .call (.call a (.extend (.ofPdf inner))) (.stream (rf 3) [] b!"endobj 1 0 R")
  .call (.call (.new true) (.renumberFrom b Nat shift 0)) (.mergeLimits Limits.new)

example : ∀ it ∈ chunkItems sampleHist, ItemOk it := by
  simp [sampleHist, chunkItems, callItems, pdfItems, mapObjs, started, mapItem, mapBody, mapProg, mapItems, mapEntries, mapPrim, ItemOk, Ok,
    OkItems, OkEntries, PrimOk, chunkPretty, pdfPretty, NoClash, NoClashItems, isEmptyName, NoClashEntries]

example : (sampleHist.run.map fun c => (c.asBytes, c.offsets.map (·.2))) =
    some (b!"105 0 obj\n[1 101 0 R(1 0 R)]\nendobj\n\n101 0 obj\n<<\n  /Type /Catalog\n  /Pages 102 0 R\n>>\nendobj\n\n103 0 obj\n<</Length 12>>\nstream\nendobj 1 0 R\nendstream\nendobj\n\n",
      [0, 37, 95]) := by decide +kernel

/-! ## C15 -/

/-- C15: `a.extend(&b)` for arbitrary chunks. -/
theorem C15_extend (a b : Chunk) :
    (a.extend b).asBytes = a.asBytes ++ b.asBytes ∧
    (a.extend b).refs = a.refs ++ b.refs ∧
    (a.extend b).offsets = a.offsets ++ b.offsets.map (fun p => (p.1, a.len + p.2)) ∧
    (a.extend b).limits = a.limits.merge b.limits ∧
    (a.extend b).pretty = a.pretty := by
  refine ⟨rfl, ?_, rfl, rfl, rfl⟩
  simp [Chunk.extend, Chunk.refs]

/-- C15: after `extend`, the objects of both chunks are found at the new offsets. -/
theorem C15_extend_keeps_objects (h o : ChunkHist) (c d : Chunk) (hc : h.run = some c) (hd : o.run = some d) :
    (ChunkHist.call h (.extend o)).run = some (c.extend d) ∧
    (∀ (n : Nat) (it : Item), (chunkItems h)[n]? = some it → ItemOk it →
      ∃ off, (c.extend d).offsets[n]? = some (it.id, off) ∧ c.offsets[n]? = some (it.id, off) ∧ ReadsAt (c.extend d).asBytes off it) ∧
    (∀ (n : Nat) (it : Item), (chunkItems o)[n]? = some it → ItemOk it →
      ∃ off, (c.extend d).offsets[c.offsets.length + n]? = some (it.id, c.len + off) ∧ d.offsets[n]? = some (it.id, off) ∧
        ReadsAt (c.extend d).asBytes (c.len + off) it) := by
  have hrun : (ChunkHist.call h (.extend o)).run = some (c.extend d) := by simp [ChunkHist.run, ChunkCall.run, hc, hd]
  have hall := C14_offsets_point_at_objects _ _ hrun
  have hcr := (C14_offsets_point_at_objects _ _ hc).1
  have hitems : chunkItems (.call h (.extend o)) = chunkItems h ++ chunkItems o := by simp [chunkItems, callItems]
  have hlen : c.offsets.length = (chunkItems h).length := by
    have := congrArg List.length hcr; simpa [Chunk.refs] using this
  refine ⟨hrun, ?_, ?_⟩
  · intro n it hit hok
    have hn : n < (chunkItems h).length := by rcases List.getElem?_eq_some_iff.mp hit with ⟨hn, -⟩; exact hn
    obtain ⟨off, h1, h2⟩ := hall.2 n it (by rw [hitems, List.getElem?_append_left hn]; exact hit) hok
    refine ⟨off, h1, ?_, h2⟩
    have e : (c.extend d).offsets[n]? = c.offsets[n]? := by
      rw [(C15_extend c d).2.2.1, List.getElem?_append_left (by omega)]
    rw [← e]; exact h1
  · intro n it hit hok
    obtain ⟨off, h1, h2⟩ := hall.2 (c.offsets.length + n) it
      (by rw [hitems, hlen, List.getElem?_append_right (by omega)]; simpa using hit) hok
    have e : (c.extend d).offsets[c.offsets.length + n]? = (d.offsets[n]?).map (fun p => (p.1, c.len + p.2)) := by
      rw [(C15_extend c d).2.2.1, List.getElem?_append_right (by omega)]; simp
    rw [h1] at e
    cases hd' : d.offsets[n]? with
    | none => rw [hd'] at e; simp at e
    | some q =>
      rw [hd'] at e
      simp only [Option.map_some, Option.some.injEq, Prod.mk.injEq] at e
      refine ⟨q.2, ?_, ?_, ?_⟩
      · rw [h1, e.2]
      · rw [e.1]
      · rw [← e.2]; exact h2

/-- C15: bytes, ids and offsets of repeated extension do not depend on the grouping. -/
theorem C15_extend_assoc (a b c : Chunk) :
    ((a.extend b).extend c).asBytes = (a.extend (b.extend c)).asBytes ∧
    ((a.extend b).extend c).offsets = (a.extend (b.extend c)).offsets := by
  constructor
  · simp [Chunk.extend, Chunk.asBytes, Buf.extendBuf]
  · simp [Chunk.extend, Buf.extendBuf, Chunk.len, Buf.len, Nat.add_assoc]

/-- C15: the empty chunk is neutral on both sides for bytes and offsets. -/
theorem C15_extend_empty (a : Chunk) (pretty : Bool) :
    (a.extend (Chunk.withSettings pretty)).asBytes = a.asBytes ∧ (a.extend (Chunk.withSettings pretty)).offsets = a.offsets ∧
    ((Chunk.withSettings pretty).extend a).asBytes = a.asBytes ∧ ((Chunk.withSettings pretty).extend a).offsets = a.offsets := by
  simp [Chunk.extend, Chunk.asBytes, Buf.extendBuf, Chunk.withSettings, Buf.new, Chunk.len, Buf.len]

/-! ## C16 -/

/-- C16: at every moment of a document's life, its bytes start with the header for the version and marker set last. -/
theorem C16_header (h : PdfHist) (p : Pdf) (hr : h.run = some p) :
    (∃ rest, p.chunk.asBytes = header (version h) (marker h) ++ rest) ∧ (version h).1 < 10 ∧ (version h).2 < 10 := by
  obtain ⟨ps, h1, -, -, -, h5, h6⟩ := pdf_inv h p hr
  refine ⟨⟨piecesBytes ps, ?_⟩, h5, h6⟩
  rw [Chunk.asBytes, h1.bytes, piecesBytes, headPiece_bytes]

/-- C16: `set_version` and `set_binary_marker` change nothing but their header bytes: not the rest of the bytes, not the
offsets, not the limits, not the trailer. -/
theorem C16_setters_touch_only_header (h : PdfHist) (p : Pdf) (hr : h.run = some p) (a b : UInt8) (m : UInt8 × UInt8 × UInt8 × UInt8) :
    (∃ v' m' v'' m'' rest, p.chunk.asBytes = header (version h) (marker h) ++ rest ∧
      (p.setVersion a b).chunk.asBytes = header v' m' ++ rest ∧
      v' = (if a < 10 then a else (version h).1, if b < 10 then b else (version h).2) ∧ m' = marker h ∧
      (p.setBinaryMarker m).chunk.asBytes = header v'' m'' ++ rest ∧ v'' = version h ∧ m'' = m) ∧
    (p.setVersion a b).chunk.offsets = p.chunk.offsets ∧ (p.setBinaryMarker m).chunk.offsets = p.chunk.offsets ∧
    (p.setVersion a b).chunk.limits = p.chunk.limits ∧ (p.setBinaryMarker m).chunk.limits = p.chunk.limits ∧
    (p.setVersion a b).trailer = p.trailer ∧ (p.setBinaryMarker m).trailer = p.trailer := by
  obtain ⟨⟨rest, hb⟩, -⟩ := C16_header h p hr
  refine ⟨⟨_, _, _, _, rest, hb, ?_, rfl, rfl, ?_, rfl, rfl⟩, rfl, rfl, rfl, rfl, rfl, rfl⟩
  · simp only [Chunk.asBytes] at hb
    simp only [Pdf.setVersion, Chunk.asBytes, hb]
    by_cases ha : a < 10 <;> by_cases hb' : b < 10 <;> simp [ha, hb', header]
  · simp only [Chunk.asBytes] at hb
    simp only [Pdf.setBinaryMarker, Chunk.asBytes, hb]
    simp [header]

/-- C16: the objects of a document are found at their offsets, whatever setters were called in between. -/
theorem C16_objects_survive (h : PdfHist) (p : Pdf) (hr : h.run = some p) :
    p.chunk.refs = (pdfItems h).map (·.id) ∧
    ∀ (n : Nat) (it : Item), (pdfItems h)[n]? = some it → ItemOk it →
      ∃ off, p.chunk.offsets[n]? = some (it.id, off) ∧ ReadsAt p.chunk.asBytes off it := by
  have hc : (ChunkHist.ofPdf h).run = some p.chunk := by simp [ChunkHist.run, hr]
  have := C14_offsets_point_at_objects _ _ hc
  simpa [chunkItems] using this

example : ((PdfHist.setVersion (.setBinaryMarker (.catalog (.new false) (rf 1) []) (65, 66, 67, 68)) 2 99).run.map fun p => p.chunk.asBytes) =
    some b!"%PDF-2.7\n%ABCD\n\n1 0 obj\n<</Type/Catalog>>\nendobj\n" := by decide +kernel

end PdfW.Props
