import Verif.Proof.Recover
import Verif.Proof.ItemOk
import Verif.Props.Order

/-!
# C90: objects can be recovered from a truncated file, and from a file without a usable end

A file may be cut anywhere (a crash while it is written to disk, an interrupted transfer). A reader that reads one object after
another from the start finds exactly the first objects that were written, with exactly their contents; it never finds anything else.
-/

set_option linter.unusedSimpArgs false
set_option linter.unusedVariables false

namespace PdfW.Props
open PdfW Spec

theorem foundAre (its : List Item) (h : ∀ it ∈ its, ItemOk it) : FoundAre its (its.map foundOf) := by
  induction its with
  | nil => exact .nil
  | cons it its ih => exact .cons (bodyVal_denotes it (h it (by simp))) (ih (fun x hx => h x (by simp [hx])))

theorem noObject_nil : NoObject [] := fun n => by simp [readIndirect, nextToken_nil]

theorem noObject_word (c : UInt8) (t : Bytes) (hc : c = ch!"x" ∨ c = ch!"s") : NoObject (c :: t) := by
  intro n
  cases n with
  | zero => simp [readIndirect, nextToken_nil]
  | succ n =>
    have : nextToken ((c :: t).take (n + 1)) = some (.kw (c :: (t.take n).takeWhile isRegular), (t.take n).dropWhile isRegular) := by
      rw [List.take_succ_cons]
      rcases hc with rfl | rfl <;>
      simp [nextToken, skipSpace, isWhite, tokenAt, readRun, readNumber, readUnsigned, List.takeWhile_cons, List.dropWhile_cons, isDigit, isRegular, isDelim]
    unfold readIndirect
    rw [this]

theorem mem_piecesItems {it : Item} {nl : Bool} {l : List Piece} (hx : Piece.item it nl ∈ l) : it ∈ piecesItems l := by
  induction l with
  | nil => simp at hx
  | cons y l ih =>
    rcases List.mem_cons.mp hx with rfl | hx'
    · simp [piecesItems]
    · cases y with
      | header a b m => exact ih hx'
      | item it' nl' => simp only [piecesItems, List.mem_cons]; exact Or.inr (ih hx')

/-- Any beginning of a sequence of pieces. -/
theorem recover_pieces (A : List Piece) (hA : ∀ p ∈ A, p.good) (tail : Bytes) (ht : NoObject tail) (n : Nat) :
    ∃ k, k ≤ (piecesItems A).length ∧ recover ((piecesBytes A ++ tail).take n) = ((piecesItems A).take k).map foundOf ∧
      ∀ B C, A = B ++ C → (piecesBytes B).length ≤ n → (piecesItems B).length ≤ k := by
  obtain ⟨k, hk⟩ := recoverFrom_cut A hA tail ht [] Blank.nil n (((piecesBytes A ++ tail).take n).length + 1)
  rw [List.nil_append] at hk
  refine ⟨min k (piecesItems A).length, Nat.min_le_right _ _, ?_, ?_⟩
  · rw [recover, hk]
    congr 1
    rw [List.take_eq_take_iff]; omega
  · rintro B C rfl hB
    have hgB : ∀ p ∈ B, p.good := fun p hp => hA p (by simp [hp])
    have e : (piecesBytes (B ++ C) ++ tail).take n = piecesBytes B ++ (piecesBytes C ++ tail).take (n - (piecesBytes B).length) := by
      rw [piecesBytes_append, List.append_assoc, List.take_append, List.take_of_length_le hB]
    have hle := piecesItems_le B
    obtain ⟨ws', -, h2⟩ := recoverFrom_pieces B hgB [] ((piecesBytes C ++ tail).take (n - (piecesBytes B).length)) Blank.nil
      (((piecesBytes (B ++ C) ++ tail).take n).length + 1 - (piecesItems B).length)
    have hlen : (piecesItems B).length ≤ ((piecesBytes (B ++ C) ++ tail).take n).length + 1 := by
      rw [e, List.length_append]; omega
    rw [List.nil_append, Nat.sub_add_cancel hlen, ← e, hk] at h2
    have := congrArg List.length h2
    simp only [List.length_map, List.length_append, List.length_take] at this
    omega

/-- The pieces of a document that was in an earlier state. -/
theorem document_pieces (h h' : PdfHist) (k : Continues h' h) (p : Pdf) (hr : h.run = some p) (hm : PdfMarkers h) (hok : ∀ it ∈ pdfItems h, ItemOk it) :
    ∃ p' B C, h'.run = some p' ∧ p'.chunk.asBytes.length = (piecesBytes B).length ∧ piecesItems B = pdfItems h' ∧
      p.chunk.asBytes = piecesBytes (B ++ C) ∧ piecesItems (B ++ C) = pdfItems h ∧ ∀ x ∈ B ++ C, x.good := by
  obtain ⟨hm', p', ps', qs, g1, g2, g3, g4, g5, g6⟩ := continues_marked k hm p hr
  obtain ⟨-, -, -, -, -, v1, v2⟩ := pdf_inv h p hr
  refine ⟨p', headPiece (version h) (marker h) :: ps', qs, g1, ?_, by rw [headPiece, piecesItems, g4], g3.bytes, ?_, ?_⟩
  · have := g2.bytes
    rw [Chunk.asBytes, this]
    simp [piecesBytes, headPiece, Piece.bytes, headerBytes]
  · rw [g5, g4, ← piecesItems_append]; rfl
  · have hitems : piecesItems (ps' ++ qs) = pdfItems h := by rw [g5, g4, piecesItems_append]
    intro x hx
    rcases List.mem_cons.mp hx with rfl | hx
    · exact ⟨digit_add _ v1, digit_add _ v2, marker_line h hm⟩
    · have hmk := g6 x hx
      have hxok := g3.ok x (by simp only [List.mem_cons]; exact Or.inr hx)
      cases x with
      | header a b m => exact ⟨hxok.1, hxok.2, hmk⟩
      | item it nl =>
        refine hok it ?_
        rw [← hitems]
        exact mem_piecesItems hx

/-- What was found: the first `k` objects of the document, and all objects that had been written when the document was not longer than `n` bytes. -/
structure FirstObjects (h : PdfHist) (n k : Nat) (found : List FoundObject) : Prop where
  bound : k ≤ (pdfItems h).length
  are : FoundAre ((pdfItems h).take k) found
  complete : ∀ h' p', Continues h' h → h'.run = some p' → p'.chunk.asBytes.length ≤ n → (pdfItems h').length ≤ k

section
variable (h : PdfHist) (p : Pdf) (hr : h.run = some p) (hok : ∀ it ∈ pdfItems h, ItemOk it) (hm : PdfMarkers h) (n : Nat)
include hr hok hm

theorem recover_document (tail : Bytes) (more : List Piece) (hmore : ∀ x ∈ more, x.good) (ht : NoObject tail) :
    ∃ k found extra, recover ((p.chunk.asBytes ++ piecesBytes more ++ tail).take n) = found ++ extra ∧ (found = ((pdfItems h).take k).map foundOf ∧ FirstObjects h n k found) ∧
      (extra = [] ∨ k = (pdfItems h).length ∧ ∃ j, extra = ((piecesItems more).take j).map foundOf) := by
  obtain ⟨p0, B0, C0, -, -, -, b1, b2, b3⟩ := document_pieces h h (.refl h) p hr hm hok
  generalize hA : B0 ++ C0 = A at b1 b2 b3
  have hgood : ∀ x ∈ A ++ more, x.good := by
    intro x hx
    rcases List.mem_append.mp hx with hx | hx
    · exact b3 x hx
    · exact hmore x hx
  obtain ⟨k, k1, k2, k3⟩ := recover_pieces (A ++ more) hgood tail ht n
  rw [piecesBytes_append] at k2
  rw [piecesItems_append, b2] at k1 k2
  rw [b1, k2, List.take_append, List.map_append]
  have hfa : FoundAre ((pdfItems h).take k) (((pdfItems h).take k).map foundOf) := foundAre _ (fun it hit => hok it (List.mem_of_mem_take hit))
  have hcomp : ∀ h' p', Continues h' h → h'.run = some p' → p'.chunk.asBytes.length ≤ n → (pdfItems h').length ≤ min k (pdfItems h).length := by
    intro h' p' hc hr' hn
    obtain ⟨q, B, C, c0, c1, c2, c3, c4, c5⟩ := document_pieces h h' hc p hr hm hok
    rw [hr', Option.some.injEq] at c0
    subst c0
    have hle : (pdfItems h').length ≤ (pdfItems h).length := by rw [← c4, ← c2, piecesItems_append]; simp
    have hgood' : ∀ x ∈ (B ++ C) ++ more, x.good := by
      intro x hx
      rcases List.mem_append.mp hx with hx | hx
      · exact c5 x hx
      · exact hmore x hx
    obtain ⟨k', m1, m2, m3⟩ := recover_pieces (B ++ C ++ more) hgood' tail ht n
    have := m3 B (C ++ more) (by simp) (by omega)
    rw [piecesBytes_append, ← c3, b1, k2, piecesItems_append, c4] at m2
    have hl := congrArg List.length m2
    rw [piecesItems_append, c4] at m1
    simp only [List.length_map, List.length_take] at hl
    rw [c2] at this
    omega
  refine ⟨min k (pdfItems h).length, _, _, rfl, ⟨?_, Nat.min_le_right _ _, ?_, hcomp⟩, ?_⟩
  · congr 1
    rw [List.take_eq_take_iff]; omega
  · rw [← List.take_eq_take_iff.mpr (show min k (pdfItems h).length = min (min k (pdfItems h).length) (pdfItems h).length by omega)]
    exact hfa
  · by_cases hk : k ≤ (pdfItems h).length
    · left; rw [Nat.sub_eq_zero_of_le hk]; simp
    · right; exact ⟨by omega, _, rfl⟩

/-- C90: the bytes of a document that is not finished yet, or any beginning of them. -/
theorem C90_unfinished : ∃ k, FirstObjects h n k (recover (p.chunk.asBytes.take n)) := by
  obtain ⟨k, found, extra, h1, h2, h3⟩ := recover_document h p hr hok hm n [] [] (by simp) noObject_nil
  have he : extra = [] := by
    rcases h3 with h3 | ⟨-, j, h3⟩
    · exact h3
    · simpa [piecesItems] using h3
  subst he
  simp only [piecesBytes, List.append_nil] at h1
  exact ⟨k, by rw [h1]; exact h2.2⟩

section
variable (w : Finishing) (bytes : Bytes) (hf : w.run p = some bytes) (hids : ∀ r ∈ docIds h ++ w.ids, r.get < 2147483647) (hlen : w.Fits p bytes)
include hf hids hlen

theorem truncated_exact : ∃ k found extra, recover (bytes.take n) = found ++ extra ∧ (found = ((pdfItems h).take k).map foundOf ∧ FirstObjects h n k found) ∧
    (extra = [] ∨ k = (pdfItems h).length ∧
      ∃ xid d data, w.ids = [xid] ∧ extra = [(xid.get, 0, .stream d data)] ∧ lookup b!"Type" d = some (.name b!"XRef")) := by
  have stream : ∀ (unf : Val → Bytes → Option Bytes) (xid : Ref) (filter : Bytes → Bytes × Option XRefFilter) (hi : p.finishXRefStreamInner xid filter = some bytes)
      (hids : ∀ r ∈ docIds h ++ [xid], r.get < 2147483647) (hlen : p.chunk.buf.len < 2 ^ 64)
      (hunf : match (filter (xrefRaw p xid)).2 with
        | none => (filter (xrefRaw p xid)).1 = xrefRaw p xid
        | some f => unf (filterVal f) (filter (xrefRaw p xid)).1 = some (xrefRaw p xid)),
      ∃ k found extra, recover (bytes.take n) = found ++ extra ∧ (found = ((pdfItems h).take k).map foundOf ∧ FirstObjects h n k found) ∧
        (extra = [] ∨ k = (pdfItems h).length ∧
          ∃ d data, extra = [(xid.get, 0, .stream d data)] ∧ lookup b!"Type" d = some (.name b!"XRef")) := by
    intro unf xid filter hi hids hlen hunf
    obtain ⟨-, -, hb⟩ := stream_file unf xid filter hr hi hids hlen hunf
    obtain ⟨o1, o2, o3, o4⟩ := xrefStream_ok p.trailer (filter (xrefRaw p xid)).2 (xrefSize (p.chunk.offsets ++ [(xid, p.chunk.buf.len)]))
      (determineFieldWidth p.chunk.buf.len)
    obtain ⟨k, found, extra, h1, h2, h3⟩ := recover_document h p hr hok hm n (b!"startxref\n" ++ (natBytes p.chunk.buf.len ++ b!"\n%%EOF"))
      [.item (xrefItem p xid (filter (xrefRaw p xid))) p.chunk.pretty] (by simp only [List.mem_singleton]; rintro x rfl; exact ⟨o1, Or.inr o2, o3⟩)
      (noObject_word _ _ (Or.inr rfl))
    refine ⟨k, found, extra, ?_, h2, ?_⟩
    · rw [← h1, hb]; simp [piecesBytes, Piece.bytes, Chunk.asBytes]
    · rcases h3 with h3 | ⟨h3, j, h4⟩
      · exact Or.inl h3
      · cases j with
        | zero => left; rw [h4]; simp
        | succ j =>
          right
          refine ⟨h3, _, _, by rw [h4]; simp [piecesItems, foundOf, xrefItem, bodyVal]; exact ⟨rfl, rfl⟩, ?_⟩
          obtain ⟨l1, -⟩ := xrefDict_lookups p.trailer (filter (xrefRaw p xid)).2
            (xrefSize (p.chunk.offsets ++ [(xid, p.chunk.buf.len)])) (determineFieldWidth p.chunk.buf.len) (filter (xrefRaw p xid)).1.length
          rw [o4]
          exact l1
  cases w with
  | table =>
    simp only [Finishing.ids, List.append_nil] at hids
    obtain ⟨-, hb⟩ := finish_bytes hr hf hids
    obtain ⟨k, found, extra, h1, h2, h3⟩ := recover_document h p hr hok hm n (plainEnd p ++ (b!"startxref\n" ++ (natBytes p.chunk.buf.len ++ b!"\n%%EOF")))
      [] (by simp) (noObject_word _ _ (Or.inl rfl))
    refine ⟨k, found, extra, ?_, h2, ?_⟩
    · rw [← h1, hb]; simp [piecesBytes, Chunk.asBytes]
    · rcases h3 with h3 | ⟨-, j, h3⟩
      · exact Or.inl h3
      · left; simpa [piecesItems] using h3
  | stream xid =>
    obtain ⟨k, found, extra, h1, h2, h3⟩ := stream (fun _ _ => none) xid (fun raw => (raw, none)) hf hids hlen rfl
    exact ⟨k, found, extra, h1, h2, h3.imp_right fun ⟨a, d, data, b⟩ => ⟨a, xid, d, data, rfl, b⟩⟩
  | filtered xid filter =>
    obtain ⟨k, found, extra, h1, h2, h3⟩ := stream (fun _ _ => some (xrefRaw p xid)) xid (fun raw => ((filter raw).1, some (filter raw).2)) hf hids hlen rfl
    exact ⟨k, found, extra, h1, h2, h3.imp_right fun ⟨a, d, data, b⟩ => ⟨a, xid, d, data, rfl, b⟩⟩

/-- C90: a finished file, or any beginning of it. After all objects of the document only the cross-reference stream may follow. -/
theorem C90_truncated : ∃ k found extra, recover (bytes.take n) = found ++ extra ∧ FirstObjects h n k found ∧
    (extra = [] ∨ k = (pdfItems h).length ∧
      ∃ xid d data, w.ids = [xid] ∧ extra = [(xid.get, 0, .stream d data)] ∧ lookup b!"Type" d = some (.name b!"XRef")) := by
  obtain ⟨k, found, extra, h1, h2, h3⟩ := truncated_exact h p hr hok hm n w bytes hf hids hlen
  exact ⟨k, found, extra, h1, h2.2, h3⟩

/-- C90: an object found in any beginning of a file is the one that the cross-reference section of the whole file leads to. -/
theorem C90_same_as_table (unf : Val → Bytes → Option Bytes) (hu : w.Undone unf) : ∃ f, readFile unf bytes = some f ∧
    ∀ x ∈ recover (bytes.take n), (∀ r ∈ w.ids, x.1 ≠ r.get) → x.2.1 = 0 ∧ f.object bytes x.1.toNat = some x.2.2 := by
  obtain ⟨f, f1, -, f3, -⟩ := finishing_exact unf h p w bytes hr hf hids hlen hu
  obtain ⟨k, found, extra, h1, h2, h3⟩ := truncated_exact h p hr hok hm n w bytes hf hids hlen
  refine ⟨f, f1, ?_⟩
  intro x hx hxid
  rw [h1] at hx
  rcases List.mem_append.mp hx with hx | hx
  · rw [h2.1] at hx
    obtain ⟨it, hit, rfl⟩ := List.mem_map.mp hx
    have hit := List.mem_of_mem_take hit
    exact ⟨rfl, f3 it hit (hok it hit)⟩
  · rcases h3 with rfl | ⟨-, xid, d, data, e1, rfl, -⟩
    · simp at hx
    · simp only [List.mem_singleton] at hx
      subst hx
      exact absurd rfl (hxid xid (by simp [e1]))

omit n in
/-- C90: from a whole file all objects are recovered without its end. -/
theorem C90_whole_file : ∃ found extra, recover bytes = found ++ extra ∧ FoundAre (pdfItems h) found ∧
    ∀ x ∈ extra, ∃ xid ∈ w.ids, x.1 = xid.get := by
  obtain ⟨k, found, extra, h1, h2, h3⟩ := C90_truncated h p hr hok hm (bytes.length + p.chunk.asBytes.length) w bytes hf hids hlen
  rw [List.take_of_length_le (by omega)] at h1
  have hk := h2.complete h p (.refl h) hr (by omega)
  have := h2.are
  rw [List.take_of_length_le hk] at this
  refine ⟨found, extra, h1, this, ?_⟩
  intro x hx
  rcases h3 with rfl | ⟨-, xid, d, data, e1, rfl, -⟩
  · simp at hx
  · simp only [List.mem_singleton] at hx
    subst hx
    exact ⟨xid, by simp [e1], rfl⟩

end
end

/-! ## A case that meets the hypotheses -/

/-- A document with a stream whose data looks like an object, into which a second document was copied, header and all. -/
def recoverDoc : PdfHist :=
  .catalog (.call (.call (.setBinaryMarker (.new true) (0xE2, 0xE3, 0xCF, 0xD3))
    (.stream (rf 3) [(b!"Parent", .prim (.ref (rf 2)))] b!"\nendstream\nendobj\n9 0 obj\n7\nendobj\n"))
    (.extend (.ofPdf (.call (.new false) (.indirect (rf 2) (.dict [(b!"Kids", .array []), (b!"S", .prim (.str b!"5 0 obj\\)endobj"))])))))) (rf 1)
    [(b!"Pages", .prim (.ref (rf 2)))]

theorem recoverDoc_ok : (∀ it ∈ pdfItems recoverDoc, ItemOk it) ∧ PdfMarkers recoverDoc ∧ ∀ r ∈ docIds recoverDoc ++ [rf 4], r.get < 2147483647 := by
  refine ⟨?_, ?_, by decide +kernel⟩
  · intro it hit
    have : (pdfItems recoverDoc).all itemOkB = true := by decide +kernel
    exact itemOkB_sound it (List.all_eq_true.mp this it hit)
  · simp [recoverDoc, PdfMarkers, CallMarkers, ChunkMarkers, LineMarker]

/-- The document before the catalog was written. -/
example : ∃ h', Continues h' recoverDoc ∧ (pdfItems h').length = 2 := ⟨_, .catalog _ _ (.refl _), by decide +kernel⟩

/-- The numbers found in the whole file (with the cross-reference stream), in its first three hundred, two hundred and one hundred bytes
(the last of which end after `9 0 obj` in the stream data). -/
example : ((recoverDoc.run.bind fun p => p.finishWithXRefStream (rf 4)).map fun file =>
      ((recover file).map (·.1), (recover (file.take 300)).map (·.1), (recover (file.take 200)).map (·.1), (recover (file.take 100)).map (·.1))) =
    some ([3, 2, 1, 4], [3, 2, 1], [3, 2], []) := by
  decide +kernel

/-- A marker with a line feed: `%PDF-1.7`, `%`, `1 0`. -/
def brokenMarker : PdfHist := .call (.setBinaryMarker (.new true) (0x0A, ch!"1", 0x20, ch!"0")) (.indirect (rf 1) (.prim (.int 5)))

/-- C90: the condition on the marker is needed: here the marker spills into the first object. (The cross-reference table still leads to it.) -/
theorem C90_marker_needed : (brokenMarker.run.bind fun p => p.finish.bind fun file =>
    (readFile (fun _ _ => none) file).map fun f => ((recover file).length, (f.object file 1).isSome)) = some (0, true) := by
  decide +kernel

end PdfW.Props
