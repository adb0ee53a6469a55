import Verif.Props.Order
import Verif.Props.Renumber
import Verif.Proof.Merge

set_option linter.unusedSimpArgs false
set_option linter.unusedVariables false

/-!
# C51: chunks can be merged with the allocating closure of the documentation

Each chunk of a list, however it was built, is renumbered into a document with `|old| *map.entry(old).or_insert_with(|| alloc.bump())`,
with one allocator for all and one map per chunk. No two objects collide, and the finished file contains every object of every
chunk, as it is in a file made of this chunk alone, with references that point to the objects of the same chunk.
-/

namespace PdfW.Props
open PdfW Spec

/-! ## The numbers -/

theorem nextFree_cons (a : Nat) (h : ChunkHist) (hs : List ChunkHist) :
    nextFree a (h :: hs) = nextFree (a + (firstSeen (occurring h)).length) hs := by
  simp [nextFree]; omega

theorem nextFree_le (a : Nat) (hs : List ChunkHist) : a ≤ nextFree a hs := by unfold nextFree; omega

theorem nextFree_take (a : Nat) (hs : List ChunkHist) (k : Nat) (h : ChunkHist) (hk : hs[k]? = some h) :
    nextFree a (hs.take (k + 1)) = nextFree a (hs.take k) + (firstSeen (occurring h)).length := by
  induction hs generalizing a k with
  | nil => simp at hk
  | cons x hs ih =>
    cases k with
    | zero => simp at hk; subst hk; simp [nextFree]
    | succ k => rw [List.take_succ_cons, List.take_succ_cons, nextFree_cons, nextFree_cons]; exact ih _ k (by simpa using hk)

theorem nextFree_mono (a : Nat) (hs : List ChunkHist) (j k : Nat) (h : j ≤ k) : nextFree a (hs.take j) ≤ nextFree a (hs.take k) := by
  induction hs generalizing a j k with
  | nil => simp
  | cons x hs ih =>
    cases j with
    | zero => simp [nextFree]
    | succ j =>
      cases k with
      | zero => omega
      | succ k => rw [List.take_succ_cons, List.take_succ_cons, nextFree_cons, nextFree_cons]; exact ih _ j k (by omega)

theorem nextFree_all (a : Nat) (hs : List ChunkHist) (k : Nat) : nextFree a (hs.take k) ≤ nextFree a hs := by
  by_cases h : k ≤ hs.length
  · have := nextFree_mono a hs k hs.length h
    rwa [List.take_length] at this
  · rw [List.take_of_length_le (by omega)]; exact Nat.le_refl _

theorem consecutive_range (a : Nat) (h : ChunkHist) (x : Nat) (hx : x ∈ occurring h) :
    a ≤ consecutive a h x ∧ consecutive a h x < a + (firstSeen (occurring h)).length := by
  have := List.idxOf_lt_length_of_mem ((mem_firstSeen _ _).mpr hx)
  unfold consecutive; omega

/-- C51: the new numbers of all chunks are consecutive, and different for different objects — of the same chunk or of different
chunks. -/
theorem C51_numbers (start : Nat) (hs : List ChunkHist) :
    (∀ n, start ≤ n ∧ n < nextFree start hs ↔
      ∃ k h x, hs[k]? = some h ∧ x ∈ occurring h ∧ consecutive (nextFree start (hs.take k)) h x = n) ∧
    (∀ j k h h' x y, hs[j]? = some h → hs[k]? = some h' → x ∈ occurring h → y ∈ occurring h' →
      consecutive (nextFree start (hs.take j)) h x = consecutive (nextFree start (hs.take k)) h' y → j = k ∧ x = y) := by
  constructor
  · intro n
    constructor
    · intro hn
      induction hs generalizing start with
      | nil => simp [nextFree] at hn; omega
      | cons h hs ih =>
        rw [nextFree_cons] at hn
        by_cases hlt : n < start + (firstSeen (occurring h)).length
        · refine ⟨0, h, (firstSeen (occurring h))[n - start]'(by omega), rfl, ?_, ?_⟩
          · exact (mem_firstSeen _ _).mp (List.getElem_mem _)
          · simp only [List.take_zero, nextFree, List.map_nil, List.sum_nil, consecutive]
            rw [(nodup_firstSeen _).idxOf_getElem]
            omega
        · obtain ⟨k, h', x, h1, h2, h3⟩ := ih (start + (firstSeen (occurring h)).length) ⟨by omega, hn.2⟩
          exact ⟨k + 1, h', x, by simpa using h1, h2, by rw [List.take_succ_cons, nextFree_cons]; exact h3⟩
    · rintro ⟨k, h, x, h1, h2, rfl⟩
      have hr := consecutive_range (nextFree start (hs.take k)) h x h2
      have := nextFree_le start (hs.take k)
      have h4 := nextFree_take start hs k h h1
      have := nextFree_all start hs (k + 1)
      omega
  · intro j k h h' x y hj hk hx hy he
    have rx := consecutive_range (nextFree start (hs.take j)) h x hx
    have ry := consecutive_range (nextFree start (hs.take k)) h' y hy
    have tj := nextFree_take start hs j h hj
    have tk := nextFree_take start hs k h' hk
    have hjk : j = k := by
      rcases Nat.lt_trichotomy j k with h | h | h
      · have := nextFree_mono start hs (j + 1) k h; omega
      · exact h
      · have := nextFree_mono start hs (k + 1) j h; omega
    subst hjk
    rw [hj, Option.some.injEq] at hk
    subst hk
    refine ⟨rfl, ?_⟩
    unfold consecutive at he
    have hx' := (mem_firstSeen (occurring h) x).mpr hx
    have hy' := (mem_firstSeen (occurring h) y).mpr hy
    have ei : (firstSeen (occurring h)).idxOf x = (firstSeen (occurring h)).idxOf y := by omega
    have e1 := List.getElem_idxOf (List.idxOf_lt_length_of_mem hx')
    have e2 := List.getElem_idxOf (List.idxOf_lt_length_of_mem hy')
    rw [← e1, ← e2]
    simp only [ei]

/-! ## The program as a history -/

/-- Objects of the merged chunks. -/
def mergedItems : Nat → List ChunkHist → List Item
  | _, [] => []
  | a, h :: hs => ((chunkItems h).filter fun it => started it.body).map (fun it => (mapItem (pureMap (memoFun a (firstSeen (occurring h)))) it ()).1) ++
      mergedItems (a + (firstSeen (occurring h)).length) hs

theorem renumberInto_state (h : ChunkHist) (c target : Chunk) (hr : h.run = some c) {σ : Type} (m : Mapping σ) (s : σ) :
    (c.renumberInto target m s).2 = (mapObjs m (chunkItems h) s).2 := by
  obtain ⟨ps, hl, hi, -⟩ := chunk_inv h c hr
  have hloop := renumberLoop_eq m ps hl.ok [] (target.mergeLimits c.limits) s
  simp only [List.nil_append, List.length_nil] at hloop
  rw [renumberInto_layout hl, hloop, hi]

theorem merge_hist (base : PdfHist) (p : Pdf) (hb : base.run = some p) (hs : List ChunkHist) (cs : List Chunk)
    (hc : hs.map (·.run) = cs.map some) (next : Ref) (hroom : nextFree next.get.toNat hs ≤ 2147483647) :
    ∃ h : PdfHist, h.run = some (mergeInto p cs next).1 ∧ pdfItems h = pdfItems base ++ mergedItems next.get.toNat hs ∧
      (mergeInto p cs next).2.get = nextFree next.get.toNat hs ∧
      catalogId h = catalogId base ∧ infoId h = infoId base ∧ fileId h = fileId base := by
  induction hs generalizing base p cs next with
  | nil =>
    cases cs with
    | cons c cs => simp at hc
    | nil =>
      refine ⟨base, hb, by simp [mergedItems], ?_, rfl, rfl, rfl⟩
      have := next.pos
      simp [mergeInto, nextFree, Ref.get]; omega
  | cons h hs ih =>
    cases cs with
    | nil => simp at hc
    | cons c cs =>
      simp only [List.map_cons, List.cons.injEq] at hc
      have hst := renumberInto_state h c p.chunk hc.1 memo (next, [])
      rw [nextFree_cons] at hroom
      have hle := nextFree_le (next.get.toNat + (firstSeen (occurring h)).length) hs
      obtain ⟨m1, m2, m3⟩ := mapObjs_memo (chunkItems h) next (show _ ≤ _ from Nat.le_trans hle hroom)
      have hnat : (c.renumberInto p.chunk memo (next, [])).2.1.get = ((next.get.toNat + (firstSeen (occurring h)).length : Nat) : Int) := by
        rw [hst, m2]; rfl
      have hnat' : (c.renumberInto p.chunk memo (next, [])).2.1.get.toNat = next.get.toNat + (firstSeen (occurring h)).length := by
        rw [hnat, Int.toNat_natCast]
      have hb' : (PdfHist.call base (.renumberFrom h _ memo (next, []))).run =
          some { p with chunk := (c.renumberInto p.chunk memo (next, [])).1 } := by
        simp [PdfHist.run, ChunkCall.run, hb, hc.1]
      obtain ⟨h', k1, k2, k3, k4, k5, k6⟩ := ih _ _ hb' cs hc.2 _ (by rw [hnat']; exact hroom)
      refine ⟨h', k1, ?_, ?_, k4, k5, k6⟩
      · rw [k2, hnat']
        simp only [pdfItems, callItems, mergedItems, m1, List.append_assoc]
        rfl
      · rw [nextFree_cons, ← hnat']; exact k3

theorem mem_mergedItems (a : Nat) (hs : List ChunkHist) (it : Item) :
    it ∈ mergedItems a hs ↔ ∃ (k : Nat) (h : ChunkHist) (it0 : Item), hs[k]? = some h ∧ it0 ∈ chunkItems h ∧
      started it0.body = true ∧ it = (mapItem (pureMap (memoFun (nextFree a (hs.take k)) (firstSeen (occurring h)))) it0 ()).1 := by
  induction hs generalizing a with
  | nil => simp [mergedItems]
  | cons h hs ih =>
    simp only [mergedItems, List.mem_append, List.mem_map, List.mem_filter, ih]
    constructor
    · rintro (⟨it0, h1, rfl⟩ | ⟨k, h', it0, h1, h2, h4, h3⟩)
      · exact ⟨0, h, it0, rfl, h1.1, h1.2, by simp [nextFree]⟩
      · exact ⟨k + 1, h', it0, by simpa using h1, h2, h4, by rw [List.take_succ_cons, nextFree_cons]; exact h3⟩
    · rintro ⟨k, h', it0, h1, h2, h4, h3⟩
      cases k with
      | zero =>
        simp at h1; subst h1
        exact Or.inl ⟨it0, ⟨h2, h4⟩, by rw [h3]; simp [nextFree]⟩
      | succ k =>
        rw [List.take_succ_cons, nextFree_cons] at h3
        exact Or.inr ⟨k, h', it0, by simpa using h1, h2, h4, h3⟩

theorem mem_occurring {h : ChunkHist} {r : Ref} (hr : r ∈ callOrder (chunkItems h)) : r.get.toNat ∈ occurring h := List.mem_map_of_mem hr

theorem memoFun_consecutive {a : Nat} (h0 : 0 < a) {h : ChunkHist} {r : Ref} (hr : r ∈ callOrder (chunkItems h))
    (hroom : a + (firstSeen (occurring h)).length ≤ 2147483647) :
    (memoFun a (firstSeen (occurring h)) r).get = (consecutive a h r.get.toNat : Nat) :=
  memoFun_get h0 ((mem_firstSeen _ _).mpr (mem_occurring hr)) (by omega)

/-- Where the ids come from. -/
theorem mergedItems_id {a : Nat} (h0 : 0 < a) {hs : List ChunkHist} (hroom : nextFree a hs ≤ 2147483647) {it : Item} (hit : it ∈ mergedItems a hs) :
    ∃ (k : Nat) (h : ChunkHist) (it0 : Item), hs[k]? = some h ∧ it0 ∈ chunkItems h ∧
      it.id.get = (consecutive (nextFree a (hs.take k)) h it0.id.get.toNat : Nat) := by
  obtain ⟨k, h, it0, h1, h2, -, rfl⟩ := (mem_mergedItems a hs it).mp hit
  refine ⟨k, h, it0, h1, h2, ?_⟩
  have t1 := nextFree_take a hs k h h1
  have t2 := nextFree_all a hs (k + 1)
  have t3 := nextFree_le a (hs.take k)
  exact memoFun_consecutive (by omega) (id_mem_callOrder h2).1 (by omega)

theorem mergedItems_range {a : Nat} (h0 : 0 < a) {hs : List ChunkHist} (hroom : nextFree a hs ≤ 2147483647) {it : Item}
    (hit : it ∈ mergedItems a hs) : (a : Int) ≤ it.id.get ∧ it.id.get < nextFree a hs := by
  obtain ⟨k, h, it0, h1, h2, h3⟩ := mergedItems_id h0 hroom hit
  have := ((C51_numbers a hs).1 _).mpr ⟨k, h, it0.id.get.toNat, h1, mem_occurring (id_mem_callOrder h2).1, rfl⟩
  omega

theorem mergedItems_nodup {a : Nat} (h0 : 0 < a) {hs : List ChunkHist} (hroom : nextFree a hs ≤ 2147483647)
    (hn : ∀ h ∈ hs, ((chunkItems h).map (·.id)).Nodup) : ((mergedItems a hs).map (·.id)).Nodup := by
  induction hs generalizing a with
  | nil => simp [mergedItems]
  | cons h hs ih =>
    rw [nextFree_cons] at hroom
    have hle := nextFree_le (a + (firstSeen (occurring h)).length) hs
    simp only [mergedItems, List.map_append, List.map_map]
    rw [List.nodup_append]
    refine ⟨?_, ih (by omega) hroom (fun x hx => hn x (by simp [hx])), ?_⟩
    · have hn1 := hn h (by simp)
      have key : ∀ its : List Item, (∀ it ∈ its, it ∈ chunkItems h) → (its.map (·.id)).Nodup →
          (its.map (Item.id ∘ fun it => (mapItem (pureMap (memoFun a (firstSeen (occurring h)))) it ()).1)).Nodup := by
        intro its hin hnd
        induction its with
        | nil => simp
        | cons it its ih =>
          simp only [List.map_cons, List.nodup_cons] at hnd ⊢
          refine ⟨?_, ih (fun x hx => hin x (by simp [hx])) hnd.2⟩
          intro hm
          obtain ⟨it', h1, h2⟩ := List.mem_map.mp hm
          simp only [Function.comp, mapItem, pureMap] at h2
          have e1 := memoFun_consecutive (a := a) (h := h) h0 (id_mem_callOrder (hin it (by simp))).1 (by omega)
          have e2 := memoFun_consecutive (a := a) (h := h) h0 (id_mem_callOrder (hin it' (by simp [h1]))).1 (by omega)
          rw [h2, e1] at e2
          have := ((C51_numbers a [h]).2 0 0 h h it.id.get.toNat it'.id.get.toNat rfl rfl
            (mem_occurring (id_mem_callOrder (hin it (by simp))).1) (mem_occurring (id_mem_callOrder (hin it' (by simp [h1]))).1)
            (by simpa [nextFree] using Int.natCast_inj.mp e2)).2
          exact hnd.1 (by rw [ref_toNat_inj this]; exact List.mem_map_of_mem h1)
      exact key _ (fun _ h => (List.mem_filter.mp h).1) (hn1.sublist (List.filter_sublist.map _))
    · intro x hx y hy hxy
      subst hxy
      obtain ⟨it, h1, h2⟩ := List.mem_map.mp hx
      have h1 := (List.mem_filter.mp h1).1
      obtain ⟨it', h1', h2'⟩ := List.mem_map.mp hy
      have r := (mergedItems_range (by omega) hroom h1').1
      simp only [Function.comp, mapItem, pureMap] at h2
      have e1 := memoFun_consecutive (a := a) (h := h) h0 (id_mem_callOrder h1).1 (by omega)
      have e2 := consecutive_range a h _ (mem_occurring (id_mem_callOrder h1).1)
      rw [h2'] at r
      rw [h2] at e1
      omega

/-! ## The statements -/

/-- What is needed of the documents and chunks: they are results of calls; each has no id twice, all ids of the document are
below the allocator, and the allocator does not run out of ids. -/
structure Mergeable (base : PdfHist) (p : Pdf) (hs : List ChunkHist) (cs : List Chunk) (next : Ref) : Prop where
  doc : base.run = some p
  chunks : hs.map (·.run) = cs.map some
  docNodup : (docIds base).Nodup
  docBelow : ∀ r ∈ docIds base, r.get < next.get
  chunkNodup : ∀ h ∈ hs, ((chunkItems h).map (·.id)).Nodup
  room : nextFree next.get.toNat hs ≤ 2147483647

theorem next_pos (next : Ref) : 0 < next.get.toNat := by have := next.pos; simp only [Ref.get]; omega

theorem merged_nodup {base : PdfHist} {p : Pdf} {hs : List ChunkHist} {cs : List Chunk} {next : Ref} (hm : Mergeable base p hs cs next)
    {h : PdfHist} (hi : pdfItems h = pdfItems base ++ mergedItems next.get.toNat hs) : (docIds h).Nodup := by
  have h0 := next_pos next
  rw [docIds, hi, List.map_append, List.nodup_append]
  refine ⟨hm.docNodup, mergedItems_nodup h0 hm.room hm.chunkNodup, ?_⟩
  intro x hx y hy hxy
  subst hxy
  obtain ⟨it, h1, rfl⟩ := List.mem_map.mp hy
  have := (mergedItems_range h0 hm.room h1).1
  have := hm.docBelow _ hx
  omega

theorem merged_ids {base : PdfHist} {p : Pdf} {hs : List ChunkHist} {cs : List Chunk} {next : Ref} (hm : Mergeable base p hs cs next)
    {h : PdfHist} (hi : pdfItems h = pdfItems base ++ mergedItems next.get.toNat hs) : ∀ r ∈ docIds h, r.get < nextFree next.get.toNat hs := by
  have h0 := next_pos next
  have := nextFree_le next.get.toNat hs
  intro r hr
  rw [docIds, hi, List.map_append, List.mem_append] at hr
  rcases hr with hr | hr
  · have := hm.docBelow r hr; omega
  · obtain ⟨it, h1, rfl⟩ := List.mem_map.mp hr
    exact (mergedItems_range h0 hm.room h1).2

/-- C51: merging uses no id twice, whatever ids the chunks use: the document can be finished. The allocator afterwards is the first
free number, and can be used for the cross-reference stream. -/
theorem C51_merge_finishes (base : PdfHist) (p : Pdf) (hs : List ChunkHist) (cs : List Chunk) (next : Ref)
    (hm : Mergeable base p hs cs next) :
    (mergeInto p cs next).2.get = nextFree next.get.toNat hs ∧
    ((mergeInto p cs next).1.finish).isSome = true ∧
    ((mergeInto p cs next).2.get < 2147483647 → (mergeInto p cs next).1.chunk.asBytes.length < 2 ^ 64 →
      ∀ filter : Bytes → Bytes × XRefFilter, (∀ raw, (filter raw).1.length ≤ 2147483647) →
        ((mergeInto p cs next).1.finishWithXRefStreamAndFilter (mergeInto p cs next).2 filter).isSome = true) := by
  obtain ⟨h, k1, k2, k3, -⟩ := merge_hist base p hm.doc hs cs hm.chunks next hm.room
  have hn := merged_nodup hm k2
  have hb := merged_ids hm k2
  have hroom := hm.room
  refine ⟨k3, ?_, ?_⟩
  · rw [Option.isSome_iff_ne_none, Ne, C19_finish h _ k1 (fun r hr => by have := hb r hr; omega)]
    exact fun h => h hn
  · intro hlt hlen filter hsmall
    rw [Option.isSome_iff_ne_none, Ne, C19_finish_with_filter h _ _ filter k1 _ hlen hsmall]
    · intro hnn
      apply hnn
      rw [List.nodup_append]
      refine ⟨hn, by simp, ?_⟩
      intro x hx y hy hxy
      simp only [List.mem_singleton] at hy
      subst hxy; subst hy
      have := hb _ hx; omega
    · intro r hr
      rcases List.mem_append.mp hr with hr | hr
      · have := hb r hr; omega
      · simp only [List.mem_singleton] at hr; subst hr; exact hlt

/-- C51: the file finished after merging contains, under the new numbers, exactly what a file contains that was made of one chunk
alone: for every number that occurs in the chunk (as an object or in a reference), the object in the merged file is the object in
the single file with all its references renamed — or both files have none (a reference to an object that the chunk does not
contain never points to an object of another chunk). -/
theorem C51_merge_chunk (unf : Val → Bytes → Option Bytes) (base : PdfHist) (p : Pdf) (hs : List ChunkHist) (cs : List Chunk) (next : Ref)
    (hm : Mergeable base p hs cs next) (w : Finishing) (bytes : Bytes) (hf : w.run (mergeInto p cs next).1 = some bytes)
    (hfit : w.Fits (mergeInto p cs next).1 bytes) (hu : w.Undone unf)
    (hw : ∀ r ∈ w.ids, r.get < 2147483647 ∧ (r.get < next.get ∨ nextFree next.get.toNat hs ≤ r.get))
    (k : Nat) (h : ChunkHist) (c : Chunk) (hk : hs[k]? = some h) (hc : h.run = some c) (pretty : Bool) (w' : Finishing) (bytes' : Bytes)
    (hf' : w'.run { Pdf.withSettings pretty with chunk := (Pdf.withSettings pretty).chunk.extend c } = some bytes')
    (hids' : ∀ r ∈ (chunkItems h).map (·.id) ++ w'.ids, r.get < 2147483647)
    (hfit' : w'.Fits { Pdf.withSettings pretty with chunk := (Pdf.withSettings pretty).chunk.extend c } bytes') (hu' : w'.Undone unf) :
    ∃ f f', readFile unf bytes = some f ∧ readFile unf bytes' = some f' ∧
      ∀ i ∈ occurring h, (∀ it ∈ chunkItems h, it.id.get = i → ItemOk it) → (∀ r ∈ w'.ids, r.get ≠ i) →
        f.object bytes (consecutive (nextFree next.get.toNat (hs.take k)) h i) =
          (f'.object bytes' i).map (renameIVal (consecutive (nextFree next.get.toNat (hs.take k)) h)) := by
  obtain ⟨hh, k1, k2, k3, -⟩ := merge_hist base p hm.doc hs cs hm.chunks next hm.room
  have hroom := hm.room
  have h0 := next_pos next
  have hb := merged_ids hm k2
  obtain ⟨f, q1, -, q3, q4⟩ := finishing_exact unf hh _ w bytes k1 hf (by
    intro r hr
    rcases List.mem_append.mp hr with hr | hr
    · have := hb r hr; omega
    · exact (hw r hr).1) hfit hu
  have halone : (PdfHist.call (.new pretty) (.extend h)).run =
      some { Pdf.withSettings pretty with chunk := (Pdf.withSettings pretty).chunk.extend c } := by
    simp [PdfHist.run, ChunkCall.run, hc]
  have hitems : pdfItems (PdfHist.call (.new pretty) (.extend h)) = chunkItems h := by simp [pdfItems, callItems]
  obtain ⟨f', q1', -, q3', q4'⟩ := finishing_exact unf _ _ w' bytes' halone hf' (by rw [docIds, hitems]; exact hids') hfit' hu'
  rw [docIds, hitems] at q4'
  rw [hitems] at q3'
  refine ⟨f, f', q1, q1', ?_⟩
  have t1 := nextFree_take next.get.toNat hs k h hk
  have t2 := nextFree_all next.get.toNat hs (k + 1)
  have t3 := nextFree_le next.get.toNat (hs.take k)
  intro i hi hok hiw
  by_cases he : ∃ it ∈ chunkItems h, it.id.get.toNat = i
  · obtain ⟨it, hit, rfl⟩ := he
    have hok := hok it hit (by have := it.id.pos; simp only [Ref.get]; omega)
    rw [q3' it hit hok, Option.map_some]
    have hmem : (mapItem (pureMap (memoFun (nextFree next.get.toNat (hs.take k)) (firstSeen (occurring h)))) it ()).1 ∈ pdfItems hh := by
      rw [k2, List.mem_append]
      exact Or.inr ((mem_mergedItems _ _ _).mpr ⟨k, h, it, hk, hit, started_of_ok it hok, rfl⟩)
    have hg : ∀ r ∈ callOrder (chunkItems h), (memoFun (nextFree next.get.toNat (hs.take k)) (firstSeen (occurring h)) r).get =
        (consecutive (nextFree next.get.toNat (hs.take k)) h r.get.toNat : Nat) := fun r hr => memoFun_consecutive (by omega) hr (by omega)
    have := q3 _ hmem (mapItem_ok _ it () hok)
    simp only [mapItem, pureMap, hg _ (id_mem_callOrder hit).1, Int.toNat_natCast] at this
    rw [this, Option.some.injEq]
    exact bodyVal_map _ _ it.body (fun r hr => by rw [hg r ((id_mem_callOrder hit).2 r hr), Int.toNat_natCast])
  · have hne : ∀ it ∈ chunkItems h, it.id.get ≠ i := fun it hit e => he ⟨it, hit, by omega⟩
    rw [q4' i, Option.map_none]
    · apply q4
      intro r hr hreq
      have hrange := ((C51_numbers next.get.toNat hs).1 _).mpr ⟨k, h, i, hk, hi, rfl⟩
      rcases List.mem_append.mp hr with hr | hr
      · rw [docIds, k2, List.map_append, List.mem_append] at hr
        rcases hr with hr | hr
        · have := hm.docBelow r hr; omega
        · obtain ⟨it', h1, rfl⟩ := List.mem_map.mp hr
          obtain ⟨j, h', it0, j1, j2, j3⟩ := mergedItems_id h0 hroom h1
          rw [hreq] at j3
          obtain ⟨e1, e2⟩ := (C51_numbers next.get.toNat hs).2 k j h h' i it0.id.get.toNat hk j1 hi
            (mem_occurring (id_mem_callOrder j2).1) (Int.natCast_inj.mp j3)
          subst e1
          rw [hk, Option.some.injEq] at j1
          subst j1
          exact hne it0 j2 (by have := it0.id.pos; simp only [Ref.get] at e2 ⊢; omega)
      · have := (hw r hr).2; omega
    · intro r hr
      rcases List.mem_append.mp hr with hr | hr
      · obtain ⟨it, hit, rfl⟩ := List.mem_map.mp hr
        exact hne it hit
      · exact hiw r hr

/-- C51: the objects the document had before stay, and so do catalog, information and identifier. -/
theorem C51_merge_document (unf : Val → Bytes → Option Bytes) (base : PdfHist) (p : Pdf) (hs : List ChunkHist) (cs : List Chunk) (next : Ref)
    (hm : Mergeable base p hs cs next) (hok : ∀ it ∈ pdfItems base, ItemOk it) (w w' : Finishing) (bytes bytes' : Bytes)
    (hf : w.run (mergeInto p cs next).1 = some bytes) (hf' : w'.run p = some bytes')
    (hfit : w.Fits (mergeInto p cs next).1 bytes) (hfit' : w'.Fits p bytes') (hu : w.Undone unf) (hu' : w'.Undone unf)
    (hw : ∀ r ∈ w.ids ++ w'.ids, r.get < 2147483647) :
    ∃ f f', readFile unf bytes = some f ∧ readFile unf bytes' = some f' ∧
      (∀ i : Nat, i < next.get → (∀ r ∈ w.ids ++ w'.ids, r.get ≠ i) → f.object bytes i = f'.object bytes' i) ∧
      (∀ i : Nat, nextFree next.get.toNat hs ≤ i → (∀ r ∈ w.ids, r.get ≠ i) → f.object bytes i = none) ∧
      (∀ k ∈ [b!"Root", b!"Info", b!"ID"], lookup k f.trailer = lookup k f'.trailer) := by
  obtain ⟨hh, k1, k2, k3, k4, k5, k6⟩ := merge_hist base p hm.doc hs cs hm.chunks next hm.room
  have hroom := hm.room
  have h0 := next_pos next
  have hb := merged_ids hm k2
  obtain ⟨f, q1, q2, q3, q4⟩ := finishing_exact unf hh _ w bytes k1 hf (by
    intro r hr
    rcases List.mem_append.mp hr with hr | hr
    · have := hb r hr; omega
    · exact hw r (by simp [hr])) hfit hu
  obtain ⟨f', q1', q2', q3', q4'⟩ := finishing_exact unf base p w' bytes' hm.doc hf' (by
    intro r hr
    rcases List.mem_append.mp hr with hr | hr
    · have := hm.docBelow r hr; have := next.le; simp only [Ref.get] at *; omega
    · exact hw r (by simp [hr])) hfit' hu'
  refine ⟨f, f', q1, q1', ?_, ?_, ?_⟩
  · intro i hlt hiw
    by_cases he : ∃ it ∈ pdfItems base, it.id.get.toNat = i
    · obtain ⟨it, hit, rfl⟩ := he
      rw [q3' it hit (hok it hit), q3 it (by rw [k2]; simp [hit]) (hok it hit)]
    · rw [q4 i, q4' i]
      · intro r hr
        rcases List.mem_append.mp hr with hr | hr
        · obtain ⟨it, hit, rfl⟩ := List.mem_map.mp hr
          exact fun e => he ⟨it, hit, by omega⟩
        · exact hiw r (by simp [hr])
      · intro r hr
        rcases List.mem_append.mp hr with hr | hr
        · rw [docIds, k2, List.map_append, List.mem_append] at hr
          rcases hr with hr | hr
          · obtain ⟨it, hit, rfl⟩ := List.mem_map.mp hr
            exact fun e => he ⟨it, hit, by omega⟩
          · obtain ⟨it, h1, rfl⟩ := List.mem_map.mp hr
            have := (mergedItems_range h0 hroom h1).1
            omega
        · exact hiw r (by simp [hr])
  · intro i hle hiw
    apply q4
    intro r hr
    rcases List.mem_append.mp hr with hr | hr
    · have := hb r hr; omega
    · exact hiw r hr
  · intro k hk
    have hk' : k ∈ [b!"Size", b!"Root", b!"Info", b!"ID"] := List.mem_cons_of_mem _ hk
    rw [← lookup_only' hk' f.trailer, ← lookup_only' hk' f'.trailer, q2, q2']
    simp only [wantedTrailer, k4, k5, k6, lookup, List.append_assoc, List.filter_append]
    have : ∀ n : Nat, List.filter (fun e : Bytes × Val => e.1 == k) [(b!"Size", Val.int (n : Int))] = [] := by
      intro n
      simp only [List.mem_cons, List.not_mem_nil, or_false] at hk
      rcases hk with rfl | rfl | rfl <;> rfl
    rw [this, this]

/-! ## A case that meets the hypotheses -/

/-- The chunk of the documentation (chunk.rs:147-154), and one with the same ids and a reference to an object it does not contain. -/
def mergeA : ChunkHist :=
  .call (.call (.new true) (.indirect (rf 10) (.prim (.bool true))))
    (.indirect (rf 17) (.dict [(b!"Self", .prim (.ref (rf 17))), (b!"Ref", .prim (.ref (rf 10))), (b!"NoRef", .prim (.textStr "Text with 10 0 R".toList))]))
def mergeB : ChunkHist := .call (.call (.new false) (.stream (rf 17) [(b!"Next", .prim (.ref (rf 10))), (b!"Lost", .prim (.ref (rf 3)))] b!"17 0 R"))
  (.indirect (rf 10) (.prim (.ref (rf 17))))
def mergeBase : PdfHist := .catalog (.new true) (rf 1) [(b!"Pages", .prim (.ref (rf 2)))]

example : ∃ p ca cb, Mergeable mergeBase p [mergeA, mergeB] [ca, cb] (rf 3) :=
  ⟨_, _, _, rfl, rfl, by decide +kernel, by decide +kernel, by decide +kernel, by decide +kernel⟩

example : (∀ it ∈ chunkItems mergeA, ItemOk it) ∧ (∀ it ∈ chunkItems mergeB, ItemOk it) := by
  simp [mergeA, mergeB, callItems, chunkItems, chunkPretty, ItemOk, Ok, OkItems, OkEntries, PrimOk, NoClash, NoClashItems, NoClashEntries, isEmptyName, isBareToken]
  rintro a b (⟨rfl, -⟩ | ⟨rfl, -⟩) <;> decide

/-- The new numbers: 10 and 17 become 3 and 4 for the first chunk, 17, 10 and 3 become 5, 6 and 7 for the second. -/
example : (occurring mergeA).map (consecutive 3 mergeA) = [3, 4, 4, 3] ∧ (occurring mergeB).map (consecutive 5 mergeB) = [5, 6, 7, 6, 5] ∧
    nextFree 3 [mergeA, mergeB] = 8 := by decide +kernel

example : (mergeBase.run.bind fun p => mergeA.run.bind fun a => mergeB.run.map fun b => (mergeInto p [a, b] (rf 3)).1.chunk.asBytes) =
    some (b!"%PDF-1.7\n%" ++ [0x80, 0x80, 0x80, 0x80] ++ b!"\n\n1 0 obj\n<<\n  /Type /Catalog\n  /Pages 2 0 R\n>>\nendobj\n\n3 0 obj\ntrue\nendobj\n\n4 0 obj\n<<\n  /Self 4 0 R\n  /Ref 3 0 R\n  /NoRef (Text with 10 0 R)\n>>\nendobj\n\n5 0 obj\n<</Length 6/Next 6 0 R/Lost 7 0 R>>\nstream\n17 0 R\nendstream\nendobj\n\n6 0 obj\n5 0 R\nendobj\n\n") := by decide +kernel

end PdfW.Props
