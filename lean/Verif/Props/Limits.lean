import Verif.Proof.Limits

/-!
# Properties C27 and C28: limits
-/

set_option linter.unusedSimpArgs false
set_option linter.unusedVariables false

namespace PdfW.Props
open PdfW PdfW.Spec

/-! ## C27 -/

/-- C27 (chunks). After any history, the six numbers reported by `Chunk::limits` are the exact maxima over
everything written, as listed by `Spec.chunkFacts`. -/
theorem C27_limits_chunk (h : ChunkHist) (c : Chunk) (hr : h.run = some c) : Exact c.limits (chunkFacts h) :=
  chunk_exact h c hr

/-- C27 (documents). The same for a document. -/
theorem C27_limits_pdf (h : PdfHist) (p : Pdf) (hr : h.run = some p) : Exact p.chunk.limits (pdfFacts h) :=
  pdf_exact h p hr

/-- C27, for one object written into an empty buffer: every name in it, however deep, is at most as long as reported. -/
theorem C27_limits_object (p : Prog) : Exact (progLimits p Limits.new) (progFacts p) := by
  rw [progFacts_eq]; exact exact_regs exact_new _

/-- C27, exceptions: a date is written as a string of at least 6 bytes, but no length is registered; the length registered
for a text string is its length in UTF-8, whatever is written; `i32::MIN` leaves the limits as they are; NaN too. -/
theorem C27_exceptions (l : Limits) (h : 0 ≤ l.int) (hn : l.real.isNaN = false) :
    (∀ d, primLimits (.date d) l = l) ∧
    (∀ t, (primLimits (.textStr t) l).strLen = Max.max l.strLen (String.ofList t).utf8ByteSize) ∧
    primLimits (.int (-2147483648)) l = l ∧
    (∀ x : F32, x.isNaN = true → primLimits (.real x) l = l) := by
  refine ⟨fun d => rfl, fun t => by rw [← utf8_length]; rfl, registerInt_min l h, ?_⟩
  intro x hx
  have hi : x.isIntegral = false := by simp [F32.isIntegral, F32.eq, hx]
  simp only [primLimits, F32.realLimits, hi, Bool.false_eq_true, if_false]
  exact registerReal_nan l x hn hx

/-! ## C28 -/

/-- Limits that a user can obtain. -/
def Reachable (l : Limits) : Prop := ∃ (h : ChunkHist) (c : Chunk), h.run = some c ∧ c.limits = l

/-- The facts determine the limits, whatever their order and number of occurrences. -/
theorem exact_determined {l l' : Limits} {fs gs : List Fact} (h : Exact l fs) (h' : Exact l' gs) (e : ∀ f, f ∈ fs ↔ f ∈ gs) : l = l' := by
  have h' : Exact l' fs := h'.congr e
  have uniq : ∀ {s : Nat → Prop} {n n' : Nat}, IsMax s n → IsMax s n' → n = n' := by
    rintro s n n' ⟨a, b⟩ ⟨a', b'⟩
    rcases b with rfl | b <;> rcases b' with rfl | b'
    · rfl
    · have := a _ b'; omega
    · have := a' _ b; omega
    · have := a _ b'; have := a' _ b; omega
  have e1 := uniq h.name h'.name
  have e2 := uniq h.str h'.str
  have e3 := uniq h.arr h'.arr
  have e4 := uniq h.dict h'.dict
  have e5 : l.int = l'.int := by
    have := uniq h.int.2 h'.int.2
    have := h.int.1; have := h'.int.1
    omega
  have e6 : l.real = l'.real := by
    have a := uniq h.real.2 h'.real.2
    have b : l.real.neg = l'.real.neg := by rw [h.real.1, h'.real.1]
    generalize l.real = x at *
    generalize l'.real = y at *
    cases x; cases y
    simp only at a b
    rw [b, Fin.ext a]
  cases l; cases l'
  simp_all

theorem Reachable.exact {l : Limits} (h : Reachable l) : ∃ fs, Exact l fs := by
  obtain ⟨h, c, hr, rfl⟩ := h
  exact ⟨_, chunk_exact h c hr⟩

theorem Reachable.of_exact_merge {a b : Limits} (ha : Reachable a) (hb : Reachable b) : Reachable (a.merge b) := by
  obtain ⟨h, c, hr, rfl⟩ := ha
  refine ⟨.call h (.mergeLimits b), c.mergeLimits b, ?_, rfl⟩
  simp [ChunkHist.run, hr, ChunkCall.run]

/-- `a` is nowhere larger than `b`. -/
def LimitsLe (a b : Limits) : Prop :=
  a.int ≤ b.int ∧ a.real.mag.val ≤ b.real.mag.val ∧ a.nameLen ≤ b.nameLen ∧ a.strLen ≤ b.strLen ∧ a.arrayLen ≤ b.arrayLen ∧
    a.dictEntries ≤ b.dictEntries

/-- C28. On limits a user can obtain, `merge` is commutative, associative and idempotent, the empty limits are neutral,
and the result is again such. -/
theorem C28_merge_laws (a b c : Limits) (ha : Reachable a) (hb : Reachable b) (hc : Reachable c) :
    a.merge b = b.merge a ∧ (a.merge b).merge c = a.merge (b.merge c) ∧ a.merge a = a ∧
    Limits.new.merge a = a ∧ a.merge Limits.new = a ∧ Reachable (a.merge b) := by
  obtain ⟨fa, ea⟩ := ha.exact
  obtain ⟨fb, eb⟩ := hb.exact
  obtain ⟨fc, ec⟩ := hc.exact
  refine ⟨?_, ?_, ?_, ?_, ?_, ha.of_exact_merge hb⟩
  · exact exact_determined (exact_merge ea eb) (exact_merge eb ea) (by simp [or_comm])
  · exact exact_determined (exact_merge (exact_merge ea eb) ec) (exact_merge ea (exact_merge eb ec)) (by simp)
  · exact exact_determined (exact_merge ea ea) ea (by simp)
  · exact exact_determined (exact_merge exact_new ea) ea (by simp)
  · exact exact_determined (exact_merge ea exact_new) ea (by simp)

/-- C28. `merge` is the least upper bound: above both, and below everything that is above both. -/
theorem C28_merge_least (a b : Limits) (ha : Reachable a) (hb : Reachable b) :
    LimitsLe a (a.merge b) ∧ LimitsLe b (a.merge b) ∧
    ∀ c, LimitsLe a c → LimitsLe b c → LimitsLe (a.merge b) c := by
  obtain ⟨fa, ea⟩ := ha.exact
  obtain ⟨fb, eb⟩ := hb.exact
  have na := exact_notNaN ea
  have nb : b.real.abs.isNaN = false := exact_notNaN eb
  have hm := (F32.max_spec a.real b.real.abs na ea.real.1 nb rfl).2.2
  have hb0 := eb.int.1
  have habs : Limits.absI32 b.int = b.int := by unfold Limits.absI32; rw [if_neg (by omega)]; omega
  have hmag : (a.merge b).real.mag.val = Max.max a.real.mag.val b.real.mag.val := hm
  have hint : (a.merge b).int = Max.max a.int b.int := by
    show Max.max a.int (Limits.absI32 b.int) = _
    rw [habs]
  have h1 : (a.merge b).nameLen = Max.max a.nameLen b.nameLen := rfl
  have h2 : (a.merge b).strLen = Max.max a.strLen b.strLen := rfl
  have h3 : (a.merge b).arrayLen = Max.max a.arrayLen b.arrayLen := rfl
  have h4 : (a.merge b).dictEntries = Max.max a.dictEntries b.dictEntries := rfl
  unfold LimitsLe
  rw [hmag, hint, h1, h2, h3, h4]
  refine ⟨⟨?_, ?_, ?_, ?_, ?_, ?_⟩, ⟨?_, ?_, ?_, ?_, ?_, ?_⟩, ?_⟩
  all_goals omega

/-- C28. Two histories that write the same things, in any order, split over chunks in any way, end with the same limits. -/
theorem C28_order_independent (h h' : ChunkHist) (c c' : Chunk) (hr : h.run = some c) (hr' : h'.run = some c')
    (same : ∀ f, f ∈ chunkFacts h ↔ f ∈ chunkFacts h') : c.limits = c'.limits :=
  exact_determined (chunk_exact h c hr) (chunk_exact h' c' hr') same

/-- C28. The limits only grow. -/
theorem C28_monotone (h : ChunkHist) (k : ChunkCall) (c c' : Chunk) (hr : h.run = some c) (hr' : (ChunkHist.call h k).run = some c') :
    LimitsLe c.limits c'.limits := by
  have e := chunk_exact h c hr
  have e' := chunk_exact _ c' hr'
  have hm : ∀ f, f ∈ chunkFacts h → f ∈ chunkFacts (.call h k) := by intro f hf; simp [chunkFacts, hf]
  have mono : ∀ {s t : Nat → Prop} {m n : Nat}, IsMax s m → IsMax t n → (∀ k, s k → t k) → m ≤ n := by
    rintro s t m n ⟨-, a⟩ ⟨b, -⟩ st
    rcases a with rfl | a
    · omega
    · exact b _ (st _ a)
  refine ⟨?_, ?_, ?_, ?_, ?_, ?_⟩
  · have := mono e.int.2 e'.int.2 (fun k ⟨i, hi, r⟩ => ⟨i, hm _ hi, r⟩)
    have := e.int.1; have := e'.int.1
    omega
  · exact mono e.real.2 e'.real.2 (fun k ⟨i, hi, r⟩ => ⟨i, hm _ hi, r⟩)
  · exact mono e.name e'.name (fun k => hm _)
  · exact mono e.str e'.str (fun k => hm _)
  · exact mono e.arr e'.arr (fun k => hm _)
  · exact mono e.dict e'.dict (fun k => hm _)

/-! ## Cases -/

/-- Two chunks, one extended with the other. -/
def limitsSample : ChunkHist :=
  .call (.call (.new true) (.indirect ⟨7, by decide, by decide⟩ (.array [.prim (.int (-300)), .prim (.real ⟨true, 1067450368⟩), .prim (.name b!"Abc")])))
    (.extend (.call (.new false) (.indirect ⟨9, by decide, by decide⟩ (.dict [(b!"Key", .prim (.str b!"hello"))]))))

example : (limitsSample.run).map Chunk.limits = some ⟨300, ⟨false, 1067450368⟩, 3, 5, 3, 1⟩ := by decide +kernel

example : chunkFacts limitsSample =
    [.int 7, .int (-300), .real ⟨true, 1067450368⟩, .name 3, .arr 3, .int 9, .name 3, .str 5, .dict 1] := by decide +kernel

/-- The same in the other order, in one chunk. -/
def limitsSample' : ChunkHist :=
  .call (.call (.new true) (.indirect ⟨9, by decide, by decide⟩ (.dict [(b!"Key", .prim (.str b!"hello"))])))
    (.indirect ⟨7, by decide, by decide⟩ (.array [.prim (.int (-300)), .prim (.real ⟨true, 1067450368⟩), .prim (.name b!"Abc")]))

example (c c' : Chunk) (h : limitsSample.run = some c) (h' : limitsSample'.run = some c') : c.limits = c'.limits := by
  have e : chunkFacts limitsSample =
    [.int 7, .int (-300), .real ⟨true, 1067450368⟩, .name 3, .arr 3, .int 9, .name 3, .str 5, .dict 1] := by decide +kernel
  have e' : chunkFacts limitsSample' =
    [.int 9, .name 3, .str 5, .dict 1, .int 7, .int (-300), .real ⟨true, 1067450368⟩, .name 3, .arr 3] := by decide +kernel
  refine C28_order_independent _ _ _ _ h h' ?_
  intro f
  rw [e, e']
  simp only [List.mem_cons, List.not_mem_nil, or_false]
  grind

example : Reachable ⟨300, ⟨false, 1067450368⟩, 3, 5, 3, 1⟩ := by
  obtain ⟨c, hc⟩ : ∃ c, limitsSample.run = some c := ⟨_, rfl⟩
  refine ⟨limitsSample, c, hc, ?_⟩
  have : (limitsSample.run).map Chunk.limits = some ⟨300, ⟨false, 1067450368⟩, 3, 5, 3, 1⟩ := by decide +kernel
  rw [hc] at this
  simpa using this

/-- A date is a string of 18 bytes here that is not counted, so the string limit can be below what was written. -/
example : primLimits (.date ⟨2024, some 1, none, none, none, none, none, 0⟩) Limits.new = Limits.new := rfl

end PdfW.Props
