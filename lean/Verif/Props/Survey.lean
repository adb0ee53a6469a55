import Verif.Proof.Survey
import Verif.Proof.ItemOk
import Verif.Props.Content

set_option linter.unusedSimpArgs false
set_option linter.unusedVariables false

/-!
# C89: a conformance checker finds nothing in the file beyond the reported limits

`Limits` is meant for checks such as those of PDF/A: before finishing, the caller compares `Chunk::limits` with what a standard allows.
A checker later goes through the finished file. Nothing that it comes across, at any depth of any object, exceeds the limits that were
reported (except for dates and non-ASCII text, whose lengths are counted otherwise); and without renumbering the limits are attained.
-/

namespace PdfW.Props
open PdfW Spec

theorem finishing_nodup {h : PdfHist} {p : Pdf} {w : Finishing} {bytes : Bytes} (hr : h.run = some p) (hf : w.run p = some bytes)
    (hids : ∀ r ∈ docIds h ++ w.ids, r.get < 2147483647) (hlen : w.Fits p bytes) : (docIds h ++ w.ids).Nodup := by
  cases w with
  | table =>
    simp only [Finishing.ids, List.append_nil] at hids ⊢
    have := (C19_finish h p hr hids).not
    have hf : p.finish = some bytes := hf
    rw [hf] at this
    simpa using this
  | stream xid =>
    have hf : p.finishWithXRefStream xid = some bytes := hf
    rw [Pdf.finishWithXRefStream] at hf
    exact Decidable.not_not.mp fun hn => absurd (hf.symm.trans ((stream_finish_none hr xid _ hids hlen).mpr (Or.inl hn))) (by simp)
  | filtered xid filter =>
    have hf : p.finishWithXRefStreamAndFilter xid filter = some bytes := hf
    rw [Pdf.finishWithXRefStreamAndFilter] at hf
    exact Decidable.not_not.mp fun hn => absurd (hf.symm.trans ((stream_finish_none hr xid _ hids hlen).mpr (Or.inl hn))) (by simp)

section
variable (unf : Val → Bytes → Option Bytes) (h : PdfHist) (p : Pdf) (w : Finishing) (bytes : Bytes) (hr : h.run = some p)
    (hf : w.run p = some bytes) (hids : ∀ r ∈ docIds h ++ w.ids, r.get < 2147483647) (hlen : w.Fits p bytes) (hu : w.Undone unf)
    (hok : ∀ it ∈ pdfItems h, ItemOk it) (hi : ∀ i, Fact.int i ∈ pdfFacts h → -2147483648 ≤ i ∧ i ≤ 2147483647)
include hr hf hids hlen hu hok

theorem survey_objects : ∃ f, readFile unf bytes = some f ∧
    (∀ it ∈ pdfItems h, it.id.get.toNat ∉ w.ids.map (fun r => r.get.toNat) ∧ f.object bytes it.id.get.toNat = some (bodyVal it.body)) ∧
    ∀ n o, n ∉ w.ids.map (fun r => r.get.toNat) → f.object bytes n = some o → ∃ it ∈ pdfItems h, it.id.get.toNat = n ∧ o = bodyVal it.body := by
  obtain ⟨f, q1, -, q3, q4⟩ := finishing_exact unf h p w bytes hr hf hids hlen hu
  have hnd := finishing_nodup hr hf hids hlen
  refine ⟨f, q1, fun it hit => ⟨?_, q3 it hit (hok it hit)⟩, ?_⟩
  · intro hm
    obtain ⟨r, hr1, hr2⟩ := List.mem_map.mp hm
    have e : r = it.id := by
      obtain ⟨i, a, b⟩ := r
      have e' : (⟨i, a, b⟩ : Ref).get = i := rfl
      have e'' : it.id.get = it.id.id := rfl
      have := it.id.pos
      rw [e', e''] at hr2
      rcases hid : it.id with ⟨j, c, d⟩
      rw [hid] at hr2
      simp only at hr2
      congr 1; omega
    exact (List.nodup_append.mp hnd).2.2 _ (mem_docIds hit) _ hr1 e.symm
  · intro n o hn ho
    by_cases he : ∃ it ∈ pdfItems h, it.id.get.toNat = n
    · obtain ⟨it, hit, rfl⟩ := he
      rw [q3 it hit (hok it hit), Option.some.injEq] at ho
      exact ⟨it, hit, rfl, ho.symm⟩
    · rw [q4 n] at ho
      · cases ho
      · intro r hr e
        rcases List.mem_append.mp hr with hr | hr
        · obtain ⟨it, hit, rfl⟩ := List.mem_map.mp hr
          exact he ⟨it, hit, by omega⟩
        · exact hn (List.mem_map.mpr ⟨r, hr, by omega⟩)

include hi

/-- C89: whatever the history of the document (extending, renumbering, merging limits), nothing in the file exceeds the limits
reported before finishing. The object that is left out is the cross-reference stream. -/
theorem C89_not_exceeded : ∃ f, readFile unf bytes = some f ∧
    ∀ x, Encountered f bytes (w.ids.map fun r => r.get.toNat) x → NotExceeded p.chunk.limits x := by
  obtain ⟨f, q1, -, q3⟩ := survey_objects unf h p w bytes hr hf hids hlen hu hok
  refine ⟨f, q1, fun x hx => ?_⟩
  obtain ⟨a, b⟩ := encountered_accounted hok hi q3 hx
  exact notExceeded_of (C27_limits_pdf h p hr) a b

/-- C89: without renumbering and without limits merged by hand, the reported limits are the largest that a checker comes across. -/
theorem C89_attained (hd : DirectPdf h) : ∃ f, readFile unf bytes = some f ∧
    Attained p.chunk.limits (Encountered f bytes (w.ids.map fun r => r.get.toNat)) := by
  obtain ⟨f, q1, q2, q3⟩ := survey_objects unf h p w bytes hr hf hids hlen hu hok
  exact ⟨f, q1, attained_of (C27_limits_pdf h p hr) (fun x hx => encountered_accounted hok hi q3 hx)
    (fun g hg hs => encountered_of hok hi hd q2 hg fun k e => absurd e (hs k))⟩

/-- C89: if moreover all strings are given as bytes, the reported length of strings is that of the longest string in the file. -/
theorem C89_strings_attained (hd : DirectPdf h) (hb : ∀ it ∈ pdfItems h, ByteStringsBody it.body) : ∃ f, readFile unf bytes = some f ∧
    IsMax (fun k => Encountered f bytes (w.ids.map fun r => r.get.toNat) (.str k)) p.chunk.limits.strLen := by
  obtain ⟨f, q1, q2, q3⟩ := survey_objects unf h p w bytes hr hf hids hlen hu hok
  refine ⟨f, q1, isMax_iff (C27_limits_pdf h p hr).str fun k => ?_⟩
  constructor
  · intro hk
    obtain ⟨x, hx, rfl | ⟨a, b, e, -⟩⟩ := encountered_of hok hi hd q2 hk fun _ _ => hb
    · exact hx
    · cases e
  · rintro ⟨n, o, hn, ho, e | ⟨v, hv, hc⟩⟩
    · cases e
    · obtain ⟨it, hit, rfl, rfl⟩ := q3 n o hn ho
      have hv' : ∃ s, v = .str s ∧ s.length = k := by
        cases v <;> simp only [CountsAs, reduceCtorEq, and_false, false_or, or_false, exists_false] at hc
        case str s => exact ⟨s, rfl, by cases hc; rfl⟩
        all_goals first | exact hc.elim | (obtain ⟨y, -, e⟩ := hc; cases e) | cases hc
      obtain ⟨s, rfl, rfl⟩ := hv'
      exact items_countedPdf h it hit _ (by simp [itemFacts, body_bytes it.body (okBody_of (hok it hit)) (hb it hit) s hv])

end

/-! ## Content streams -/

section
variable (cs : List ContentCall) (pretty : Bool) (c : Content) (hr : runCalls cs (Content.withSettings pretty) = some c) (hok : ∀ k ∈ cs, CallOk k)
    (hc : pretty = true ∨ ∀ k ∈ cs, CallNoClash k)
    (hi : ∀ k ∈ cs, ∀ i, Fact.int i ∈ itemsFacts (operandsOf k) → -2147483648 ≤ i ∧ i ≤ 2147483647)
include hr hok hc hi

theorem content_survey : readContent c.finish.inner = some (callOps cs) ∧
    (∀ x, EncounteredIn (callOps cs) x → Accounted (cs.flatMap fun k => itemsFacts (operandsOf k)) x ∧ ∀ y, x = .real y → y.isNaN = false) ∧
    ∀ g ∈ cs.flatMap (fun k => itemsFacts (operandsOf k)), (∀ k, g ≠ .str k) → ∃ x, EncounteredIn (callOps cs) x ∧ SameFact g x := by
  refine ⟨?_, ?_, ?_⟩
  · obtain ⟨-, h2, E, e1, -, e3, e4⟩ := runCalls_reads cs _ c hr (Or.inl rfl) hok hc
    have e1 : c.buf.inner = E := e1
    rw [content_finish_eq c h2, readContent, e1]
    exact e4 _ (by omega)
  · rintro x ⟨op, hop, v, hv, hx⟩
    obtain ⟨k, hk, rfl⟩ := List.mem_map.mp hop
    refine ⟨(inside_accountedItems _ (hok k hk).1 (hi k hk) v hv x hx).mono fun g hg => List.mem_flatMap.mpr ⟨k, hk, hg⟩, ?_⟩
    rintro y rfl
    exact counts_notNaN hx
  · intro g hg hs
    obtain ⟨k, hk, hg⟩ := List.mem_flatMap.mp hg
    obtain ⟨v, hv, x, h1, h2⟩ := fact_shownItems _ (hok k hk).1 (hi k hk) g hg fun j e => absurd e (hs j)
    exact ⟨x, ⟨_, List.mem_map.mpr ⟨k, hk, rfl⟩, v, hv, h1⟩, h2⟩

/-- C89: no operand in a content stream exceeds the limits of the buffer that `Content::finish` returns, and these limits are attained. -/
theorem C89_content : ∃ ops, readContent c.finish.inner = some ops ∧ (∀ x, EncounteredIn ops x → NotExceeded c.finish.limits x) ∧
    Attained c.finish.limits (EncounteredIn ops) := by
  obtain ⟨h1, h2, h3⟩ := content_survey cs pretty c hr hok hc hi
  have he := C27_limits_content cs pretty c hr
  refine ⟨_, h1, fun x hx => ?_, attained_of he h2 h3⟩
  obtain ⟨a, b⟩ := h2 x hx
  exact notExceeded_of he a b

end

/-! ## A case that meets the hypotheses -/

/-- Nested objects with a half, three billion, a negative integer, a name and a string; a stream. -/
def surveyDoc : PdfHist :=
  .catalog (.call (.call (.new false)
    (.indirect (rf 2) (.dict [(b!"Kids", .array [.prim (.real ⟨false, 0x3F000000⟩), .prim (.real ⟨true, 0x4F32D05E⟩), .array [.prim (.int (-70000))]]),
      (b!"Marked", .prim (.name b!"Sidewalk")), (b!"S", .prim (.str [1, 2, 3]))])))
    (.extend (.call (.new true) (.stream (rf 3) [(b!"Parent", .prim (.ref (rf 2)))] [65, 66, 67, 68])))) (rf 1) [(b!"Pages", .prim (.ref (rf 2)))]

theorem surveyDoc_ok : (∀ it ∈ pdfItems surveyDoc, ItemOk it) ∧ DirectPdf surveyDoc ∧ (∀ it ∈ pdfItems surveyDoc, ByteStringsBody it.body) ∧
    (∀ i, Fact.int i ∈ pdfFacts surveyDoc → -2147483648 ≤ i ∧ i ≤ 2147483647) ∧ ∀ r ∈ docIds surveyDoc, r.get < 2147483647 := by
  refine ⟨?_, by simp [surveyDoc, DirectPdf, DirectCall, DirectChunk], ?_, ?_, by decide +kernel⟩
  · intro it hit
    have : (pdfItems surveyDoc).all itemOkB = true := by decide +kernel
    exact itemOkB_sound it (List.all_eq_true.mp this it hit)
  · simp [surveyDoc, pdfItems, callItems, chunkItems, ByteStringsBody, ByteStrings, ByteStringsItems, ByteStringsEntries]
  · have : (pdfFacts surveyDoc).all (fun f => match f with | .int i => decide (-2147483648 ≤ i ∧ i ≤ 2147483647) | _ => true) = true := by decide +kernel
    intro i hi
    simpa using List.all_eq_true.mp this _ hi

/-- The reported limits: the negative integer, three billion as a real, the longest name, the string, three items, three entries. -/
example : (surveyDoc.run.map fun p => (p.chunk.limits.int, p.chunk.limits.real.mag.val, p.chunk.limits.nameLen, p.chunk.limits.strLen,
      p.chunk.limits.arrayLen, p.chunk.limits.dictEntries)) = some (70000, 0x4F32D05E, 8, 3, 3, 3) ∧
    ((surveyDoc.run.bind fun p => p.finish).map fun file => decide (file.length < 10 ^ 10)) = some true := by
  decide +kernel

/-- One character, a line feed. -/
def surveyText : PdfHist := .call (.new true) (.indirect (rf 1) (.prim (.textStr ['\n'])))

/-- C89: the factor two for text strings is needed: here one byte is reported, and four are in the string that a reader finds. -/
theorem C89_text_counted_in_utf8 : (surveyText.run.bind fun p => p.finish.bind fun file =>
    if file.length < 10 ^ 10 then (readFile (fun _ _ => none) file).bind fun f => (f.object file 1).map fun o =>
      (p.chunk.limits.strLen, (insideObject o).map fun v => match v with | .str s => some s.length | _ => none) else none) = some (1, [some 4]) := by
  decide +kernel


/-- A content stream with a name of three bytes, a string of two, an array of three and the number a half. -/
def surveyCalls : List ContentCall :=
  [.beginText, .setFont b!"F10" ⟨false, 0x41400000⟩, .op b!"TJ" [.array [.prim (.str [65, 66]), .prim (.int (-120)), .prim (.real ⟨false, 0x3F000000⟩)]], .endText]

example : (runCalls surveyCalls (Content.withSettings true)).isSome = true ∧ (∀ k ∈ surveyCalls, CallOk k) ∧
    (∀ k ∈ surveyCalls, ∀ i, Fact.int i ∈ itemsFacts (operandsOf k) → -2147483648 ≤ i ∧ i ≤ 2147483647) ∧
    ((runCalls surveyCalls (Content.withSettings true)).map fun c => (c.finish.limits.int, c.finish.limits.real.mag.val, c.finish.limits.nameLen,
      c.finish.limits.strLen, c.finish.limits.arrayLen)) = some (120, 0x3F000000, 3, 2, 3) := by
  refine ⟨by decide +kernel, ?_, ?_, by decide +kernel⟩
  · simp [surveyCalls, CallOk, operandsOf, OkItems, num, nam, Ok, PrimOk, OperatorOk]; decide +kernel
  · have : surveyCalls.all (fun k => (itemsFacts (operandsOf k)).all fun f => match f with
        | .int i => decide (-2147483648 ≤ i ∧ i ≤ 2147483647) | _ => true) = true := by decide +kernel
    intro k hk i hi
    simpa using List.all_eq_true.mp (List.all_eq_true.mp this k hk) _ hi

end PdfW.Props
