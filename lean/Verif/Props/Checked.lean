import Verif.Props.Files
import Verif.Model.Counts

set_option linter.unusedSimpArgs false
set_option linter.unusedVariables false

/-!
# C53: ids at the end of the range, with and without overflow checks
-/

namespace PdfW.Props
open PdfW Spec

/-! ## Lemmas -/

theorem succIn_ok (checked : Bool) (i : Int) (h : checked = true → i ≠ 2147483647) : succIn checked i = some (wrapSucc i) := by
  unfold succIn incrI32 wrapSucc
  by_cases hi : i = 2147483647
  · cases checked
    · simp [hi]
    · exact absurd hi (h rfl)
  · simp [hi]

theorem findNextFreeIn_ok (checked : Bool) (l : List (Ref × Nat)) (h : checked = true → ∀ q ∈ l, q.1.get < 2147483647) (next : Int) :
    findNextFreeIn checked next l = some (findNextFree next l) := by
  induction l generalizing next with
  | nil => rfl
  | cons q r ih =>
    obtain ⟨u, o⟩ := q
    simp only [findNextFreeIn, findNextFree]
    by_cases hlt : next < u.get
    · simp [hlt]
    · rw [if_neg hlt, if_neg hlt, succIn_ok checked u.get (fun hc => by have := h hc _ (List.mem_cons_self); simp only at this; omega)]
      exact ih (fun hc q hq => h hc q (List.mem_cons_of_mem _ hq)) _

theorem fillFreeIn_ok (checked : Bool) {σ : Type} (w : XRefWriter σ) (xrefLen objectId : Int) (rest : List (Ref × Nat))
    (h : checked = true → ∀ q ∈ rest, q.1.get < 2147483647) (hid : objectId ≤ 2147483647) (n : Nat) (free : Int) (s : σ)
    (hn : free + n = objectId) :
    fillFreeIn checked w xrefLen objectId rest n free free s = some (objectId, fillFree w xrefLen objectId rest n free s) := by
  induction n generalizing free s with
  | zero => simp at hn; subst hn; rfl
  | succ n ih =>
    have hf : free ≠ 2147483647 := by omega
    have hs : succIn checked free = some (free + 1) := by
      rw [succIn_ok checked free (fun _ => hf)]; unfold wrapSucc; rw [if_neg hf]
    simp only [fillFreeIn, fillFree, hs, Option.bind_eq_bind, Option.bind_some]
    by_cases he : free + 1 = objectId
    · rw [if_pos he, if_pos he, findNextFreeIn_ok checked rest h]
      exact ih _ _ (by omega)
    · rw [if_neg he, if_neg he]
      exact ih _ _ (by omega)

theorem offsetsLoopIn_ok (checked : Bool) {σ : Type} (w : XRefWriter σ) (xrefLen : Int) (l : List (Ref × Nat))
    (h : checked = true → ∀ q ∈ l, q.1.get < 2147483647) (written : Int) (s : σ) :
    offsetsLoopIn checked w xrefLen l written s = offsetsLoop w xrefLen l written s := by
  induction l generalizing written s with
  | nil => rfl
  | cons q r ih =>
    obtain ⟨u, o⟩ := q
    simp only [offsetsLoopIn, offsetsLoop]
    have hu : u.get ≤ 2147483647 := u.le
    by_cases hlt : written > u.get
    · simp [hlt]
    · rw [if_neg hlt, if_neg hlt]
      have hn : written + ((u.get - written).toNat : Int) = u.get := by omega
      rw [fillFreeIn_ok checked w xrefLen u.get _ h hu _ written s hn]
      simp only [Option.bind_eq_bind, Option.bind_some]
      rw [succIn_ok checked u.get (fun hc => by have := h hc _ (List.mem_cons_self); simp only at this; omega), hn]
      exact ih (fun hc q hq => h hc q (List.mem_cons_of_mem _ hq)) _ _

theorem lastId_mem (l : List (Ref × Nat)) : l = [] ∨ ∃ q ∈ l, lastId l = q.1.get := by
  unfold lastId
  cases h : l.getLast? with
  | none => exact Or.inl (List.getLast?_eq_none_iff.mp h)
  | some q => exact Or.inr ⟨q, List.mem_of_getLast? h, rfl⟩

theorem lastId_ge (l : List (Ref × Nat)) (hs : l.Pairwise (fun x y => x.1.get ≤ y.1.get)) (q : Ref × Nat) (hq : q ∈ l) :
    q.1.get ≤ lastId l := by
  obtain ⟨xs, y, rfl⟩ : ∃ xs y, l = xs ++ [y] := by
    rcases List.eq_nil_or_concat l with rfl | ⟨xs, y, rfl⟩
    · simp at hq
    · exact ⟨xs, y, by simp⟩
  unfold lastId
  rw [List.getLast?_concat]
  rcases List.mem_append.mp hq with h | h
  · exact (List.pairwise_append.mp hs).2.2 q h y (by simp)
  · simp at h; subst h; exact Int.le_refl _

theorem writeOffsetsIn_ok (checked : Bool) {σ : Type} (l : List (Ref × Nat)) (w : XRefWriter σ) (s : σ)
    (h : checked = true → ∀ q ∈ l, q.1.get < 2147483647) : writeOffsetsIn checked l w s = writeOffsets l w s := by
  have hp := sortOffsets_perm l
  have h' : checked = true → ∀ q ∈ sortOffsets l, q.1.get < 2147483647 := fun hc q hq => h hc q (hp.mem_iff.mp hq)
  simp only [writeOffsetsIn, writeOffsets]
  rw [succIn_ok checked (lastId (sortOffsets l))]
  · simp only [Option.bind_eq_bind, Option.bind_some, offsetsLoopIn_ok checked w _ _ h']
    cases offsetsLoop w (wrapSucc (lastId (sortOffsets l))) (sortOffsets l) 0 _ <;> rfl
  · intro hc
    rcases lastId_mem (sortOffsets l) with e | ⟨q, hq, e⟩
    · rw [e]; simp [lastId]
    · have := h' hc q hq; omega

theorem writeOffsetsIn_max {σ : Type} (l : List (Ref × Nat)) (w : XRefWriter σ) (s : σ)
    (h : ∃ q ∈ l, q.1.get = 2147483647) : writeOffsetsIn true l w s = none := by
  obtain ⟨q, hq, e⟩ := h
  have h1 := lastId_ge _ (sortOffsets_sorted l) q ((sortOffsets_perm l).mem_iff.mpr hq)
  have h2 : lastId (sortOffsets l) ≤ 2147483647 := by
    rcases lastId_mem (sortOffsets l) with e | ⟨q, hq, e⟩
    · rw [e]; simp [lastId]
    · rw [e]; exact q.1.le
  have h3 : lastId (sortOffsets l) = 2147483647 := by omega
  simp [writeOffsetsIn, h3, succIn, incrI32]

theorem docId_max {h : PdfHist} {p : Pdf} (g : DocFacts h p) : (∃ r ∈ docIds h, r.get = 2147483647) ↔ ∃ q ∈ p.chunk.offsets, q.1.get = 2147483647 := by
  rw [← g.ids]
  simp [Chunk.refs]

theorem docId_lt {h : PdfHist} (hn : ¬ ∃ r ∈ docIds h, r.get = 2147483647) : ∀ r ∈ docIds h, r.get < 2147483647 := by
  intro r hr
  have h1 := r.le
  have h2 : r.get ≠ 2147483647 := fun e => hn ⟨r, hr, e⟩
  simp [Ref.get] at h2 ⊢
  omega

/-! ## The statements -/

/-- C53: `Ref::next` (and so `Ref::bump`) panics exactly at the last id, in both kinds of build, and otherwise adds one. -/
theorem C53_next (checked : Bool) (r : Ref) :
    (r.get = 2147483647 → r.nextIn checked = none) ∧
    (r.get ≠ 2147483647 → ∃ r', r.nextIn checked = some r' ∧ r'.get = r.get + 1) := by
  have h1 := r.pos
  have h2 := r.le
  constructor
  · intro h
    cases checked <;> simp [Ref.nextIn, succIn, incrI32, h, Ref.new]
  · intro h
    have h3 : r.get + 1 ≤ 2147483647 := by simp [Ref.get] at h ⊢; omega
    have h4 : 0 < r.get + 1 := by simp [Ref.get]; omega
    refine ⟨⟨r.get + 1, h4, h3⟩, ?_, rfl⟩
    simp [Ref.nextIn, succIn, incrI32, h, Ref.new, h3, h4]

/-- C53: the model used for all other properties is the code without overflow checks, for every document. -/
theorem C53_unchecked (p : Pdf) : p.finishIn false = p.finish ∧
    ∀ xid filter, p.finishXRefStreamInnerIn false xid filter = p.finishXRefStreamInner xid filter := by
  constructor
  · simp only [Pdf.finishIn, Pdf.finish, writeOffsetsIn_ok false _ _ _ (by simp)]
    rfl
  · intro xid filter
    simp only [Pdf.finishXRefStreamInnerIn, Pdf.finishXRefStreamInner, writeOffsetsIn_ok false _ _ _ (by simp)]
    rfl

/-- C53, with overflow checks: for every document, `finish` panics exactly if an id is used twice or is `i32::MAX`; otherwise it
returns the same bytes as without checks. -/
theorem C53_finish_checked (h : PdfHist) (p : Pdf) (hr : h.run = some p) :
    (p.finishIn true = none ↔ ¬ (docIds h).Nodup ∨ ∃ r ∈ docIds h, r.get = 2147483647) ∧
    ((∀ r ∈ docIds h, r.get ≠ 2147483647) → p.finishIn true = p.finish) := by
  have g := docFacts h p hr
  have key : (¬ ∃ r ∈ docIds h, r.get = 2147483647) → p.finishIn true = p.finish := by
    intro hn
    simp only [Pdf.finishIn, Pdf.finish, writeOffsetsIn_ok true _ _ _ (fun _ => max_of_ids g (docId_lt hn))]
    rfl
  refine ⟨?_, fun hn => key (fun ⟨r, hr, e⟩ => hn r hr e)⟩
  by_cases hm : ∃ r ∈ docIds h, r.get = 2147483647
  · have : p.finishIn true = none := by
      simp only [Pdf.finishIn, writeOffsetsIn_max _ _ _ ((docId_max g).mp hm)]
    simp [this, hm]
  · rw [key hm, C19_finish h p hr (docId_lt hm)]
    simp [hm]

/-- C53, with overflow checks, cross-reference streams (of any filter): an id `i32::MAX`, used for an object or for the stream itself,
panics; otherwise the result is that of a build without checks (C19). -/
theorem C53_stream_checked (h : PdfHist) (p : Pdf) (xid : Ref) (filter : Bytes → Bytes × Option XRefFilter) (hr : h.run = some p) :
    ((∃ r ∈ docIds h ++ [xid], r.get = 2147483647) → p.finishXRefStreamInnerIn true xid filter = none) ∧
    ((∀ r ∈ docIds h ++ [xid], r.get ≠ 2147483647) →
      p.finishXRefStreamInnerIn true xid filter = p.finishXRefStreamInner xid filter) := by
  have g := docFacts h p hr
  constructor
  · rintro ⟨r, hr', e⟩
    have : ∃ q ∈ p.chunk.offsets ++ [(xid, p.chunk.buf.len)], q.1.get = 2147483647 := by
      rcases List.mem_append.mp hr' with h1 | h1
      · obtain ⟨q, hq, e'⟩ := (docId_max g).mp ⟨r, h1, e⟩
        exact ⟨q, List.mem_append_left _ hq, e'⟩
      · simp at h1; subst h1; exact ⟨_, List.mem_append_right _ (List.mem_singleton.mpr rfl), e⟩
    simp only [Pdf.finishXRefStreamInnerIn, writeOffsetsIn_max _ _ _ this]
  · intro hn
    have hlt : ∀ r ∈ docIds h ++ [xid], r.get < 2147483647 := by
      intro r hr'
      have h1 := r.le
      have h2 := hn r hr'
      simp [Ref.get] at h2 ⊢
      omega
    simp only [Pdf.finishXRefStreamInnerIn, Pdf.finishXRefStreamInner, writeOffsetsIn_ok true _ _ _ (fun _ => max_of_ids' g hlt)]
    rfl

/-! ### The last id without overflow checks -/

theorem fillFree_prefix (x o : Int) (rest : List (Ref × Nat)) (n : Nat) (f : Int) (s : Buf) :
    ∃ t, (fillFree plainXRefWriter x o rest n f s).inner = s.inner ++ t := by
  induction n generalizing f s with
  | zero => exact ⟨[], by simp [fillFree]⟩
  | succ n ih =>
    simp only [fillFree]
    obtain ⟨t, e⟩ := ih (f + 1) _
    rw [e]
    simp only [plainXRefWriter, Buf.extend, List.append_assoc]
    exact ⟨_, rfl⟩

theorem offsetsLoop_distinct (x : Int) (l : List (Ref × Nat)) (hs : l.Pairwise (fun a b => a.1.get < b.1.get)) (written : Int)
    (hw : ∀ q ∈ l, written ≤ q.1.get) (s : Buf) : ∃ s' t, offsetsLoop plainXRefWriter x l written s = some s' ∧ s'.inner = s.inner ++ t := by
  induction l generalizing written s with
  | nil => exact ⟨s, [], rfl, by simp⟩
  | cons q r ih =>
    obtain ⟨u, o⟩ := q
    have h1 := hw _ (List.mem_cons_self)
    rw [List.pairwise_cons] at hs
    simp only at h1 hs
    simp only [offsetsLoop]
    rw [if_neg (by omega)]
    obtain ⟨t, et⟩ := fillFree_prefix x u.get ((u, o) :: r) (u.get - written).toNat written s
    have hn : written + ((u.get - written).toNat : Int) = u.get := by omega
    rw [hn]
    obtain ⟨s', t', e1, e2⟩ := ih hs.2 (wrapSucc u.get) (by
      intro q hq
      have := hs.1 q hq
      have := u.pos
      simp only [wrapSucc]
      split
      · have := q.1.pos
        simp only [Ref.get] at *; omega
      · omega) (plainXRefWriter.writeOccupiedEntry o 0 (fillFree plainXRefWriter x u.get ((u, o) :: r) (u.get - written).toNat written s))
    have e3 : ∃ t, s'.inner = s.inner ++ t := by
      rw [e2]
      simp only [plainXRefWriter, Buf.extend] at et ⊢
      rw [et]
      simp only [List.append_assoc]
      exact ⟨_, rfl⟩
    obtain ⟨t2, e3⟩ := e3
    exact ⟨s', t2, e1, e3⟩

/-- C53, without overflow checks: a document with distinct ids one of which is `i32::MAX` is finished without a panic, but its
cross-reference table announces −2147483648 entries. -/
theorem C53_unchecked_defect (h : PdfHist) (p : Pdf) (hr : h.run = some p) (hd : (docIds h).Nodup)
    (hm : ∃ r ∈ docIds h, r.get = 2147483647) :
    ∃ file rest, p.finish = some file ∧ file = p.chunk.asBytes ++ b!"xref\n0 -2147483648\n" ++ rest := by
  have g := docFacts h p hr
  obtain ⟨q, hq, e⟩ := (docId_max g).mp hm
  have h1 := lastId_ge _ (sortOffsets_sorted p.chunk.offsets) q ((sortOffsets_perm _).mem_iff.mpr hq)
  have h2 : lastId (sortOffsets p.chunk.offsets) ≤ 2147483647 := by
    rcases lastId_mem (sortOffsets p.chunk.offsets) with e | ⟨q, hq, e⟩
    · rw [e]; simp [lastId]
    · rw [e]; exact q.1.le
  have h3 : lastId (sortOffsets p.chunk.offsets) = 2147483647 := by omega
  have hne : (sortOffsets p.chunk.offsets).isEmpty = false := by
    cases hc : sortOffsets p.chunk.offsets with
    | nil => rw [hc] at h3; simp [lastId] at h3
    | cons a r => rfl
  have hstrict : (sortOffsets p.chunk.offsets).Pairwise (fun a b => a.1.get < b.1.get) := by
    have hnd : ((sortOffsets p.chunk.offsets).map (·.1)).Nodup := by
      have hp := (sortOffsets_perm p.chunk.offsets).map (·.1)
      rw [hp.nodup_iff]
      have := g.ids
      rw [this]; exact hd
    have h5 := sortOffsets_sorted p.chunk.offsets
    rw [List.Nodup, List.pairwise_map] at hnd
    refine (h5.and hnd).imp ?_
    rintro a b ⟨x1, x2⟩
    have : a.1.get ≠ b.1.get := by
      intro e; apply x2
      cases ha : a.1; cases hb : b.1
      simp [Ref.get, ha, hb] at e
      simp [e]
    omega
  obtain ⟨s', t, e1, e2⟩ := offsetsLoop_distinct (-2147483648) _ hstrict 0 (fun q _ => by have := q.1.pos; simp only [Ref.get]; omega)
    (plainXRefWriter.prologue (-2147483648) p.chunk.buf)
  have hf : ∃ file, p.finish = some file ∧ ∃ rest, file = s'.inner ++ rest := by
    simp only [Pdf.finish, writeOffsets, h3, show wrapSucc 2147483647 = -2147483648 from rfl, hne, Bool.false_eq_true, if_false, e1]
    refine ⟨_, rfl, ?_⟩
    simp only [finishTrailer, run_eq, Buf.extend, List.append_assoc]
    exact ⟨_, rfl⟩
  obtain ⟨file, hf1, rest, hf2⟩ := hf
  refine ⟨file, t ++ rest, hf1, ?_⟩
  rw [hf2, e2]
  simp only [plainXRefWriter, pushInt_eq, Buf.push, Buf.extend, Chunk.asBytes, List.append_assoc]
  rw [show intBytes (-2147483648) = b!"-2147483648" from by decide +kernel]
  simp

/-! Cases that meet the hypotheses. -/

/-- A document with an object of the last id. -/
def lastIdDoc : PdfHist := .catalog (.new false) ⟨2147483647, by decide, by decide⟩ []

example : (∃ p, lastIdDoc.run = some p) ∧ (docIds lastIdDoc).Nodup ∧ ∃ r ∈ docIds lastIdDoc, r.get = 2147483647 := by
  refine ⟨⟨_, rfl⟩, ?_, ⟨⟨2147483647, by decide, by decide⟩, ?_, rfl⟩⟩ <;> simp [lastIdDoc, docIds, pdfItems]

example : (∃ p, sampleDoc.run = some p ∧ ∃ file, p.finishIn true = some file) ∧ ∀ r ∈ docIds sampleDoc, r.get ≠ 2147483647 := by
  have h : ∀ r ∈ docIds sampleDoc, r.get ≠ 2147483647 := by
    simp [docIds, sampleDoc, pdfItems, callItems, rf, Ref.get]
  have hr : ∃ p, sampleDoc.run = some p := ⟨_, rfl⟩
  obtain ⟨p, hr⟩ := hr
  refine ⟨⟨p, hr, ?_⟩, h⟩
  rw [(C53_finish_checked sampleDoc p hr).2 h]
  have hn : p.finish ≠ none := by
    rw [Ne, C19_finish sampleDoc p hr (by simp [docIds, sampleDoc, pdfItems, callItems, rf, Ref.get])]
    simp [docIds, sampleDoc, pdfItems, callItems, rf]
  exact Option.ne_none_iff_exists'.mp hn

end PdfW.Props
