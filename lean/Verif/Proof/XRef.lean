import Verif.Proof.History
import Verif.Spec.File
import Verif.Model.Pdf

/-! # Lemmas: `write_offsets` -/

set_option linter.unusedSimpArgs false
set_option linter.unusedVariables false

namespace PdfW
open Spec

/-! ## Sorting -/

theorem insertOffset_perm (a : Ref × Nat) (l : List (Ref × Nat)) : (insertOffset a l).Perm (a :: l) := by
  induction l with
  | nil => exact List.Perm.refl _
  | cons b r ih =>
    simp only [insertOffset]
    split
    · exact List.Perm.refl _
    · exact (List.Perm.cons b ih).trans (List.Perm.swap a b r)

theorem sortOffsets_perm (l : List (Ref × Nat)) : (sortOffsets l).Perm l := by
  induction l with
  | nil => exact List.Perm.refl _
  | cons a r ih => exact (insertOffset_perm a _).trans (List.Perm.cons a ih)

theorem insertOffset_sorted (a : Ref × Nat) (l : List (Ref × Nat)) (h : l.Pairwise (fun x y => x.1.get ≤ y.1.get)) :
    (insertOffset a l).Pairwise (fun x y => x.1.get ≤ y.1.get) := by
  induction l with
  | nil => simp [insertOffset]
  | cons b r ih =>
    simp only [List.pairwise_cons] at h
    simp only [insertOffset]
    split
    · rename_i hle
      have hab : a.1.get ≤ b.1.get := by
        simp only [offsetLe, Bool.or_eq_true, decide_eq_true_eq, Bool.and_eq_true, beq_iff_eq] at hle
        omega
      refine List.pairwise_cons.mpr ⟨?_, List.pairwise_cons.mpr h⟩
      intro x hx
      rcases List.mem_cons.mp hx with rfl | hx
      · exact hab
      · have := h.1 x hx; omega
    · rename_i hle
      have hab : b.1.get ≤ a.1.get := by
        simp only [offsetLe, Bool.or_eq_true, decide_eq_true_eq, Bool.and_eq_true, beq_iff_eq] at hle
        omega
      refine List.pairwise_cons.mpr ⟨?_, ih h.2⟩
      intro x hx
      rcases List.mem_cons.mp ((insertOffset_perm a r).mem_iff.mp hx) with rfl | hx
      · exact hab
      · exact h.1 x hx

theorem sortOffsets_sorted (l : List (Ref × Nat)) : (sortOffsets l).Pairwise (fun x y => x.1.get ≤ y.1.get) := by
  induction l with
  | nil => simp [sortOffsets]
  | cons a r ih => exact insertOffset_sorted a _ ih

/-! ## Panics -/

/-- Strictly increasing, starting at `written` or later. -/
def Rising : Int → List (Ref × Nat) → Prop
  | _, [] => True
  | written, p :: r => written ≤ p.1.get ∧ Rising (p.1.get + 1) r

theorem wrapSucc_lt (i : Int) (h : i < 2147483647) : wrapSucc i = i + 1 := by
  have : ¬ i = 2147483647 := by omega
  simp [wrapSucc, this]

theorem offsetsLoop_isSome {σ : Type} (w : XRefWriter σ) (n : Int) (l : List (Ref × Nat)) (hmax : ∀ p ∈ l, p.1.get < 2147483647)
    (written : Int) (s : σ) :
    (offsetsLoop w n l written s).isSome = true ↔ Rising written l := by
  induction l generalizing written s with
  | nil => simp [offsetsLoop, Rising]
  | cons p r ih =>
    obtain ⟨id, off⟩ := p
    simp only [offsetsLoop, Rising]
    by_cases h : written > id.get
    · simp only [h, if_true, Option.isSome_none, Bool.false_eq_true, false_iff]; omega
    · have e : wrapSucc (written + ((id.get - written).toNat : Int)) = id.get + 1 := by
        have : written + ((id.get - written).toNat : Int) = id.get := by omega
        rw [this, wrapSucc_lt _ (hmax (id, off) (by simp))]
      simp only [h, if_false, ih (fun p hp => hmax p (by simp [hp])), e]
      constructor
      · intro h'; exact ⟨by omega, h'⟩
      · intro h'; exact h'.2

theorem rising_iff (l : List (Ref × Nat)) (written : Int) :
    Rising written l ↔ (∀ p ∈ l, written ≤ p.1.get) ∧ l.Pairwise (fun x y => x.1.get < y.1.get) := by
  induction l generalizing written with
  | nil => simp [Rising]
  | cons p r ih =>
    simp only [Rising, ih, List.pairwise_cons, List.mem_cons, forall_eq_or_imp]
    constructor
    · rintro ⟨h1, h2, h3⟩
      exact ⟨⟨h1, fun q hq => by have := h2 q hq; omega⟩, fun q hq => by have := h2 q hq; omega, h3⟩
    · rintro ⟨⟨h1, h2⟩, h3, h4⟩
      exact ⟨h1, fun q hq => by have := h3 q hq; omega, h4⟩

theorem ref_ext {a b : Ref} (h : a.get = b.get) : a = b := by
  obtain ⟨a, _, _⟩ := a; obtain ⟨b, _, _⟩ := b
  simp only [Ref.get] at h; subst h; rfl

theorem sorted_strict_iff (l : List (Ref × Nat)) :
    (sortOffsets l).Pairwise (fun x y => x.1.get < y.1.get) ↔ (l.map (·.1)).Nodup := by
  have hs := sortOffsets_sorted l
  have hp := (sortOffsets_perm l).map (·.1)
  rw [← hp.nodup_iff]
  generalize sortOffsets l = m at hs
  rw [List.Nodup, List.pairwise_map]
  constructor
  · intro h
    exact h.imp (fun hxy he => by rw [he] at hxy; omega)
  · intro h
    have := hs.and h
    exact this.imp (fun ⟨h1, h2⟩ => by
      rcases Int.lt_or_eq_of_le h1 with h | h
      · exact h
      · exact absurd (ref_ext h) h2)

/-- `write_offsets` panics exactly if an id occurs twice. -/
theorem writeOffsets_isSome {σ : Type} (l : List (Ref × Nat)) (hmax : ∀ p ∈ l, p.1.get < 2147483647) (w : XRefWriter σ) (s : σ) :
    (writeOffsets l w s).isSome = true ↔ (l.map (·.1)).Nodup := by
  rw [← sorted_strict_iff]
  simp only [writeOffsets]
  generalize (if (sortOffsets l).isEmpty then _ else _ : σ) = s'
  have h := offsetsLoop_isSome w (wrapSucc (lastId (sortOffsets l))) (sortOffsets l)
    (fun p hp => hmax p ((sortOffsets_perm l).mem_iff.mp hp)) 0 s'
  rw [rising_iff] at h
  have hpos : ∀ p ∈ sortOffsets l, (0 : Int) ≤ p.1.get := fun p _ => by have := p.1.pos; simp only [Ref.get]; omega
  split
  · rename_i hn
    rw [hn] at h
    simp only [Option.isSome_none, Bool.false_eq_true, false_iff] at h ⊢
    exact fun h' => h ⟨hpos, h'⟩
  · rename_i x hn
    rw [hn] at h
    simp only [Option.isSome_some, true_iff] at h ⊢
    exact h.2

/-! ## Entries -/

/-- Write one entry. -/
def emit {σ : Type} (w : XRefWriter σ) (s : σ) : XEntry → σ
  | .free next gen => w.writeFreeEntry next gen s
  | .used off gen => w.writeOccupiedEntry off gen s
  | .packed _ _ => s

/-- Numbers and offsets. -/
def natOffs (l : List (Ref × Nat)) : List (Nat × Nat) := l.map fun p => (p.1.get.toNat, p.2)

theorem findNextFree_spec (rest : List (Ref × Nat)) (hmax : ∀ p ∈ rest, p.1.get < 2147483647) (next : Nat) (hs : rest.Pairwise (fun x y => x.1.get < y.1.get))
    (hge : ∀ p ∈ rest, (next : Int) ≤ p.1.get) :
    ∃ r : Nat, findNextFree next rest = r ∧ next ≤ r ∧ (∀ p ∈ rest, p.1.get ≠ r) ∧
      ∀ i, next ≤ i → i < r → ∃ p ∈ rest, p.1.get = i := by
  induction rest generalizing next with
  | nil => exact ⟨next, rfl, Nat.le_refl _, by simp, by intro i h1 h2; omega⟩
  | cons p r ih =>
    obtain ⟨id, off⟩ := p
    simp only [List.pairwise_cons] at hs
    have h0 := hge (id, off) (by simp)
    simp only at h0
    simp only [findNextFree]
    by_cases h : (next : Int) < id.get
    · refine ⟨next, by simp [h], Nat.le_refl _, ?_, by intro i h1 h2; omega⟩
      intro q hq
      rcases List.mem_cons.mp hq with rfl | hq
      · simp only; omega
      · have := hs.1 q hq; omega
    · have he : id.get = (next : Int) := by omega
      obtain ⟨x, h1, h2, h3, h4⟩ := ih (fun p hp => hmax p (by simp [hp])) (next + 1) hs.2 (by intro q hq; have := hs.1 q hq; omega)
      refine ⟨x, ?_, by omega, ?_, ?_⟩
      · simp only [h, if_false]; rw [wrapSucc_lt _ (hmax (id, off) (by simp)), he]; exact h1
      · intro q hq
        rcases List.mem_cons.mp hq with rfl | hq
        · simp only; omega
        · exact h3 q hq
      · intro i hi1 hi2
        rcases Nat.lt_or_ge next i with hi | hi
        · obtain ⟨q, hq, e⟩ := h4 i (by omega) hi2
          exact ⟨q, by simp [hq], e⟩
        · exact ⟨(id, off), by simp, by simp only; omega⟩

theorem nextUnused_eq (objs : List (Nat × Nat)) (N j r : Nat) (h1 : j < r) (h2 : r ≤ N)
    (h3 : ∀ i, j < i → i < r → ∃ o ∈ objs, o.1 = i) (h4 : ∀ o ∈ objs, o.1 ≠ r) :
    asUsize ((r : Int).tmod N) = nextUnused objs N j := by
  have hused : ∀ i, (∃ o ∈ objs, o.1 = i) → (objs.any fun o => o.1 == i) = true := by
    rintro i ⟨o, ho, rfl⟩; exact List.any_eq_true.mpr ⟨o, ho, by simp⟩
  have hu : asUsize ((r : Int).tmod N) = ((r : Int).tmod N).toNat := by
    have : ¬ (r : Int).tmod N < 0 := by rw [Int.tmod_eq_emod_of_nonneg (by omega)]; have := Int.emod_nonneg (r : Int) (b := (N : Int)) (by omega); omega
    simp [asUsize, this]
  rw [hu]
  rcases Nat.lt_or_ge r N with h | h
  · have e : ((r : Int).tmod N).toNat = r := by
      rw [Int.tmod_eq_emod_of_nonneg (by omega), Int.emod_eq_of_lt (by omega) (by omega)]; simp
    have hf : (List.range N).find? (fun j' => j < j' && !(objs.any fun o => o.1 == j')) = some r := by
      rw [List.find?_range_eq_some]
      refine ⟨?_, by simpa using h, ?_⟩
      · have : (objs.any fun o => o.1 == r) = false := by
          rw [List.any_eq_false]; intro o ho; simpa using h4 o ho
        simp [this, h1]
      · intro i hi
        by_cases hji : j < i
        · simp [hused i (h3 i hji hi)]
        · simp [hji]
    rw [e, nextUnused, hf]
  · have hr : r = N := by omega
    subst hr
    have hf : (List.range r).find? (fun j' => j < j' && !(objs.any fun o => o.1 == j')) = none := by
      rw [List.find?_eq_none]
      intro i hi
      simp only [List.mem_range] at hi
      by_cases hji : j < i
      · simp [hused i (h3 i hji hi)]
      · simp [hji]
    rw [nextUnused, hf]
    have : ((r : Int).tmod r) = 0 := by simp
    simp

theorem find_objs (objs : List (Nat × Nat)) (o : Nat × Nat) (hn : (objs.map (·.1)).Nodup) (ho : o ∈ objs) :
    objs.find? (fun x => x.1 == o.1) = some o := by
  induction objs with
  | nil => simp at ho
  | cons a r ih =>
    simp only [List.map_cons, List.nodup_cons] at hn
    rcases List.mem_cons.mp ho with rfl | ho
    · simp
    · have hne : (a.1 == o.1) = false := by
        rw [beq_eq_false_iff_ne]; intro he; exact hn.1 (he ▸ List.mem_map_of_mem ho)
      rw [List.find?_cons, hne]
      exact ih hn.2 ho

theorem fillFree_eq {σ : Type} (w : XRefWriter σ) (N : Nat) (objs : List (Nat × Nat)) (rest : List (Ref × Nat)) (k n i : Nat) (s : σ)
    (hn : i + n = k)
    (hlink : ∀ j, i ≤ j → j < k →
      asUsize ((if (j : Int) + 1 = (k : Int) then findNextFree ((j : Int) + 1) rest else (j : Int) + 1).tmod N) = nextUnused objs N j)
    (hfree : ∀ j, i ≤ j → j < k → ∀ o ∈ objs, o.1 ≠ j) :
    fillFree w N k rest n i s = ((List.range' i n).map (wantedEntry objs N)).foldl (emit w) s := by
  induction n generalizing i s with
  | zero => simp [fillFree]
  | succ n ih =>
    have hw : wantedEntry objs N i = .free (nextUnused objs N i) (if i = 0 then 65535 else 0) := by
      have : objs.find? (fun o => o.1 == i) = none := by
        rw [List.find?_eq_none]; intro o ho; simpa using hfree i (by omega) (by omega) o ho
      rw [wantedEntry, this]
    simp only [fillFree, List.range'_succ, List.map_cons, List.foldl_cons, hw, emit]
    rw [hlink i (by omega) (by omega)]
    have hg : (if (i : Int) = 0 then 65535 else 0) = (if i = 0 then 65535 else 0 : Nat) := by
      by_cases h : i = 0 <;> simp [h]
    rw [hg]
    exact ih (i + 1) _ (by omega) (fun j h1 h2 => hlink j (by omega) h2) (fun j h1 h2 => hfree j (by omega) h2)

theorem offsetsLoop_eq {σ : Type} (w : XRefWriter σ) (N : Nat) (objs : List (Nat × Nat)) (hnd : (objs.map (·.1)).Nodup)
    (hN : ∀ o ∈ objs, o.1 < N) (rest : List (Ref × Nat)) (hmax : ∀ p ∈ rest, p.1.get < 2147483647) (written : Nat) (s : σ)
    (hs : rest.Pairwise (fun x y => x.1.get < y.1.get)) (hge : ∀ p ∈ rest, (written : Int) ≤ p.1.get)
    (hmem : ∀ p ∈ rest, (p.1.get.toNat, p.2) ∈ objs) (hcov : ∀ o ∈ objs, written ≤ o.1 → ∃ p ∈ rest, p.1.get = (o.1 : Int))
    (hlast : (N : Int) = match rest.getLast? with | some p => p.1.get + 1 | none => (written : Int)) :
    offsetsLoop w N rest written s = some (((List.range' written (N - written)).map (wantedEntry objs N)).foldl (emit w) s) := by
  induction rest generalizing written s with
  | nil =>
    simp only [List.getLast?_nil] at hlast
    have : N - written = 0 := by omega
    simp [offsetsLoop, this]
  | cons p r ih =>
    obtain ⟨id, off⟩ := p
    have h0 := hge (id, off) (by simp)
    simp only at h0
    obtain ⟨k, hk⟩ : ∃ k : Nat, id.get = (k : Int) := ⟨id.get.toNat, by have := id.pos; simp only [Ref.get]; omega⟩
    have hko : (k, off) ∈ objs := by have := hmem (id, off) (by simp); simpa [hk] using this
    have hkN := hN _ hko
    simp only at hkN
    simp only [List.pairwise_cons] at hs
    simp only [offsetsLoop]
    have hnot : ¬ (written : Int) > id.get := by omega
    simp only [hnot, if_false]
    obtain ⟨n, hn⟩ : ∃ n : Nat, written + n = k := ⟨k - written, by omega⟩
    have e1 : (id.get - (written : Int)).toNat = n := by omega
    have hfree : ∀ j, written ≤ j → j < k → ∀ o ∈ objs, o.1 ≠ j := by
      intro j h1 h2 o ho he
      obtain ⟨q, hq, e⟩ := hcov o ho (by omega)
      rcases List.mem_cons.mp hq with rfl | hq
      · simp only at e; omega
      · have := hs.1 q hq; omega
    have hfill := fillFree_eq w N objs ((id, off) :: r) k n written s hn (by
      intro j h1 h2
      by_cases hj : j + 1 = k
      · have hj' : (j : Int) + 1 = (k : Int) := by omega
        simp only [hj', if_true]
        obtain ⟨x, f1, f2, f3, f4⟩ := findNextFree_spec ((id, off) :: r) hmax k (List.pairwise_cons.mpr hs) (by
          intro q hq
          rcases List.mem_cons.mp hq with rfl | hq
          · simp only; omega
          · have := hs.1 q hq; omega)
        rw [f1]
        have huse : ∀ i, j < i → i < x → ∃ o ∈ objs, o.1 = i := by
          intro i hi1 hi2
          obtain ⟨q, hq, e⟩ := f4 i (by omega) hi2
          exact ⟨_, hmem q hq, by simp only [e]; omega⟩
        refine nextUnused_eq objs N j x (by omega) ?_ huse ?_
        · rcases Nat.lt_or_ge N x with h | h
          · obtain ⟨o, ho, e⟩ := huse N (by omega) (by omega)
            have := hN o ho; omega
          · exact h
        · intro o ho he
          obtain ⟨q, hq, e⟩ := hcov o ho (by omega)
          exact f3 q hq (by omega)
      · have hj' : ¬ (j : Int) + 1 = (k : Int) := by omega
        simp only [hj', if_false]
        exact nextUnused_eq objs N j (j + 1) (by omega) (by omega) (by intro i h3 h4; omega) (hfree (j + 1) (by omega) (by omega))) hfree
    rw [e1, show fillFree w (↑N) id.get ((id, off) :: r) n (↑written) s = _ from hk ▸ hfill]
    have e2 : wrapSucc ((written : Int) + (n : Int)) = ((k + 1 : Nat) : Int) := by
      have := hmax (id, off) (by simp)
      rw [wrapSucc_lt _ (by simp only at this; omega)]; omega
    rw [e2]
    have hwk : wantedEntry objs N k = .used off 0 := by
      have := find_objs objs (k, off) hnd hko
      rw [wantedEntry, this]
    rw [ih (fun p hp => hmax p (by simp [hp])) (k + 1) _ hs.2 (by intro q hq; have := hs.1 q hq; omega) (fun q hq => hmem q (by simp [hq])) (by
        intro o ho hle
        obtain ⟨q, hq, e⟩ := hcov o ho (by omega)
        rcases List.mem_cons.mp hq with rfl | hq
        · simp only at e; omega
        · exact ⟨q, hq, e⟩) (by
        rw [hlast]
        cases hr : r.getLast? with
        | none =>
          have : r = [] := List.getLast?_eq_none_iff.mp hr
          subst this
          simp [hk]
        | some q => rw [List.getLast?_cons, hr]; simp)]
    have e3 : N - written = n + (1 + (N - (k + 1))) := by omega
    rw [e3, ← List.range'_append_1, List.map_append, List.foldl_append, hn]
    rw [Nat.add_comm 1, List.range'_succ, List.map_cons, List.foldl_cons, hwk]
    rfl

/-- Number of entries of the cross-reference section: one more than the largest id. -/
def xrefSize (l : List (Ref × Nat)) : Nat := 1 + (l.map fun p => p.1.get.toNat).foldl Max.max 0

theorem foldl_max_spec (l : List Nat) (a : Nat) : a ≤ l.foldl Max.max a ∧ (∀ x ∈ l, x ≤ l.foldl Max.max a) ∧
    (l.foldl Max.max a = a ∨ l.foldl Max.max a ∈ l) := by
  induction l generalizing a with
  | nil => simp
  | cons b r ih =>
    obtain ⟨h1, h2, h3⟩ := ih (Max.max a b)
    simp only [List.foldl_cons, List.mem_cons, forall_eq_or_imp]
    refine ⟨by omega, ⟨by omega, h2⟩, ?_⟩
    rcases h3 with h3 | h3
    · rw [h3]; rcases Nat.le_total a b with h | h <;> simp [Nat.max_def] <;> omega
    · exact Or.inr (Or.inr h3)

theorem xrefSize_sorted (l : List (Ref × Nat)) (hmax : ∀ p ∈ l, p.1.get < 2147483647) :
    (xrefSize l : Int) = wrapSucc (lastId (sortOffsets l)) := by
  have hlt : lastId (sortOffsets l) < 2147483647 := by
    simp only [lastId]
    split
    · rename_i q hq; exact hmax q ((sortOffsets_perm l).mem_iff.mp (List.mem_of_getLast? hq))
    · omega
  rw [wrapSucc_lt _ hlt]
  simp only [lastId]
  have hp := sortOffsets_perm l
  have hs := sortOffsets_sorted l
  obtain ⟨h1, h2, h3⟩ := foldl_max_spec (l.map fun p => p.1.get.toNat) 0
  cases hl : (sortOffsets l).getLast? with
  | none =>
    have he : sortOffsets l = [] := List.getLast?_eq_none_iff.mp hl
    have : l = [] := by rw [he] at hp; exact hp.nil_eq.symm
    subst this
    simp [xrefSize]
  | some q =>
    have hq : q ∈ sortOffsets l := List.mem_of_getLast? hl
    have hql := hp.mem_iff.mp hq
    have hq2 := h2 _ (List.mem_map_of_mem hql)
    simp only [xrefSize]
    generalize hM : List.foldl Max.max 0 (l.map fun p => p.1.get.toNat) = M at *
    have hle : (M : Int) ≤ q.1.get := by
      rcases h3 with h3 | h3
      · have := q.1.pos; simp only [Ref.get]; omega
      · obtain ⟨x, hx, e⟩ := List.mem_map.mp h3
        have hx' := hp.mem_iff.mpr hx
        obtain ⟨pre, hpre⟩ := List.getLast?_eq_some_iff.mp hl
        rw [hpre] at hx' hs
        have : x.1.get ≤ q.1.get := by
          rcases List.mem_append.mp hx' with h | h
          · exact (List.pairwise_append.mp hs).2.2 x h q (by simp)
          · simp at h; rw [h]; omega
        have := x.1.pos
        simp only [Ref.get] at *; omega
    have := q.1.pos
    simp only [Ref.get] at *; omega

/-- `write_offsets` writes one entry per number, exactly the wanted one. -/
theorem writeOffsets_eq {σ : Type} (l : List (Ref × Nat)) (hmax : ∀ p ∈ l, p.1.get < 2147483647) (w : XRefWriter σ) (s : σ) (hnd : (l.map (·.1)).Nodup) :
    writeOffsets l w s = some ((xrefSize l : Int),
      ((List.range (xrefSize l)).map (wantedEntry (natOffs l) (xrefSize l))).foldl (emit w) (w.prologue (xrefSize l) s)) := by
  have hN := xrefSize_sorted l hmax
  have hp := sortOffsets_perm l
  simp only [writeOffsets]
  rw [← hN]
  by_cases hl : l = []
  · subst hl
    simp only [sortOffsets, List.isEmpty_nil, if_true, offsetsLoop]
    have : xrefSize [] = 1 := by decide
    rw [this]
    rfl
  · have hne : (sortOffsets l).isEmpty = false := by
      rw [List.isEmpty_eq_false_iff]
      intro h; rw [h] at hp; exact hl hp.nil_eq.symm
    simp only [hne, Bool.false_eq_true, if_false]
    have hnd' : ((natOffs l).map (·.1)).Nodup := by
      simp only [natOffs, List.map_map]
      have e : ((fun x : Nat × Nat => x.1) ∘ fun p : Ref × Nat => (p.1.get.toNat, p.2)) = (fun r : Ref => r.get.toNat) ∘ (·.1) := rfl
      rw [e, ← List.map_map]
      rw [List.Nodup, List.pairwise_map]
      exact hnd.imp (fun hab he => hab (ref_ext (by
        rename_i a b
        have h1 := a.pos; have h2 := b.pos; simp only [Ref.get] at *; omega)))
    have hin : ∀ o ∈ natOffs l, ∃ p ∈ l, o = (p.1.get.toNat, p.2) := by
      intro o ho
      obtain ⟨p, hp, e⟩ := List.mem_map.mp ho
      exact ⟨p, hp, e.symm⟩
    rw [show (0 : Int) = ((0 : Nat) : Int) from rfl, offsetsLoop_eq w (xrefSize l) (natOffs l) hnd' ?_ (sortOffsets l) (fun p hp' => hmax p (hp.mem_iff.mp hp')) 0 _ ((sorted_strict_iff l).mpr hnd) ?_ ?_ ?_ ?_]
    · simp only [Nat.sub_zero, List.range_eq_range']
    · intro o ho
      obtain ⟨p, hpl, rfl⟩ := hin o ho
      have := (foldl_max_spec (l.map fun p => p.1.get.toNat) 0).2.1 _ (List.mem_map_of_mem hpl)
      simp only [xrefSize] at this ⊢
      omega
    · intro p _; have := p.1.pos; simp only [Ref.get]; omega
    · intro p hpm
      exact List.mem_map_of_mem (f := fun p : Ref × Nat => (p.1.get.toNat, p.2)) (hp.mem_iff.mp hpm)
    · intro o ho _
      obtain ⟨p, hpl, rfl⟩ := hin o ho
      refine ⟨p, hp.mem_iff.mpr hpl, ?_⟩
      have := p.1.pos
      simp only [Ref.get]; omega
    · have hlt : lastId (sortOffsets l) < 2147483647 := by
        simp only [lastId]
        split
        · rename_i q hq; exact hmax q ((sortOffsets_perm l).mem_iff.mp (List.mem_of_getLast? hq))
        · omega
      rw [hN, wrapSucc_lt _ hlt, lastId]
      cases hq : (sortOffsets l).getLast? with
      | none =>
        have he : sortOffsets l = [] := List.getLast?_eq_none_iff.mp hq
        rw [he] at hne; simp at hne
      | some q => rfl

end PdfW
