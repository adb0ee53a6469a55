import Verif.Spec.Tree
import Verif.Proof.Document

set_option linter.unusedSimpArgs false
set_option linter.unusedVariables false

/-!
# Looking up keys in trees
-/

namespace PdfW
open Spec

variable {C K : Type} [DecidableEq K] {f : FileEnd} {bytes : Bytes} {items : List Item}

/-- What the generic proof needs to know about writer and kind of tree. -/
structure TreeOk (T : TreeKind K) (A : TreeApi C K) : Prop where
  reads : ∀ calls, ItemImplied (A.prog calls) (DictIs (calls.flatMap A.means))
  pairs : ∀ ps, ∃ P, A.means (A.pairs ps) = [(T.leaf, P)] ∧
    ∀ v, P v → ∃ vs, v = .arr vs ∧ ItemsAre (ps.flatMap fun e => [fun v => T.key v = some e.1, PrimDenotes e.2]) vs
  kids : ∀ ids : List Ref, A.means (A.kids ids) = [(b!"Kids", ArrayIs (ids.map fun x => IsRef x))]
  limits : ∀ lo hi, ∃ P, A.means (A.limits lo hi) = [(b!"Limits", P)] ∧
    ∀ v, P v → ∃ a b, v = .arr [a, b] ∧ T.limit a = some lo ∧ T.limit b = some hi

theorem find_pairs (T : TreeKind K) (ps : List (K × Prim)) (hn : (ps.map (·.1)).Nodup) (vs : List Val)
    (h : ItemsAre (ps.flatMap fun e => [fun v => T.key v = some e.1, PrimDenotes e.2]) vs) : FindsExactly (fun k => T.find k vs) ps := by
  induction ps generalizing vs with
  | nil => simp only [List.flatMap_nil, ItemsAre] at h; subst h; exact ⟨by simp, fun _ _ => rfl⟩
  | cons p ps ih =>
    simp only [List.flatMap_cons, List.cons_append, List.nil_append] at h
    obtain ⟨a, ws, rfl, ha, v, vs', rfl, hv, hr⟩ := h
    simp only [List.map_cons, List.nodup_cons] at hn
    obtain ⟨i1, i2⟩ := ih hn.2 vs' hr
    constructor
    · intro e he
      simp only [TreeKind.find, ha, Option.some.injEq]
      rcases List.mem_cons.mp he with rfl | he
      · exact ⟨v, by simp, hv⟩
      · have hne : p.1 ≠ e.1 := fun h => hn.1 (h ▸ List.mem_map_of_mem he)
        rw [if_neg hne]
        exact i1 e he
    · intro k hk
      simp only [TreeKind.find, ha, Option.some.injEq]
      rw [if_neg (hk p (by simp))]
      exact i2 k (fun e he => hk e (by simp [he]))

/-- The dictionary of a stored node, with its limits. -/
theorem stored_dict {T : TreeKind K} {A : TreeApi C K} (ok : TreeOk T A) (hf : Finds f bytes items) {t : Tree C K} (hs : t.Stored A items) :
    ∃ d a b, f.object bytes t.id.get.toNat = some (.val (.dict d)) ∧ EntriesAre (t.calls.flatMap A.means) d ∧
      lookup b!"Limits" d = some (.arr [a, b]) ∧ ∀ k, T.within a b k = true ↔ t.Encloses T.le k := by
  obtain ⟨h1, h2⟩ := hs
  obtain ⟨v, ho, hv⟩ := finds_val hf h1
  obtain ⟨d, rfl, he⟩ := ok.reads _ v hv
  obtain ⟨P, hP, hP'⟩ := ok.limits t.lo t.hi
  have hfil : (t.calls.flatMap A.means).filter (fun e => e.1 == b!"Limits") = [(b!"Limits", P)] := by
    rw [onlyCall_filter h2, hP]; rfl
  obtain ⟨w, hl, hw⟩ := lookup_of he hfil
  obtain ⟨a, b, rfl, ha, hb⟩ := hP' w hw
  refine ⟨d, a, b, ho, he, hl, ?_⟩
  intro k
  simp only [TreeKind.within, ha, hb, Bool.and_eq_true, Tree.Encloses]

theorem treesWritten_mem {A : TreeApi C K} {le : K → K → Bool} {lk : Bytes} {ts : List (Tree C K)} (h : treesWritten A le lk items ts)
    (t : Tree C K) (ht : t ∈ ts) : t.Stored A items ∧ (∀ e ∈ t.pairs, t.Encloses le e.1) ∧ t.Written A le lk items := by
  induction ts with
  | nil => simp at ht
  | cons s ts ih =>
    simp only [treesWritten] at h
    rcases List.mem_cons.mp ht with rfl | ht
    · exact ⟨h.1, h.2.1, h.2.2.1⟩
    · exact ih h.2.2.2 ht

theorem mem_treesPairs {ts : List (Tree C K)} {e : K × Prim} : e ∈ treesPairs ts ↔ ∃ t ∈ ts, e ∈ t.pairs := by
  induction ts with
  | nil => simp [treesPairs]
  | cons t ts ih => simp [treesPairs, ih]

theorem depth_le_of_mem {ts : List (Tree C K)} {t : Tree C K} (h : t ∈ ts) : t.depth ≤ treesDepth ts := by
  induction ts with
  | nil => simp at h
  | cons s ts ih =>
    simp only [treesDepth]
    rcases List.mem_cons.mp h with rfl | h
    · omega
    · have := ih h; omega

theorem select_some {T : TreeKind K} {A : TreeApi C K} (ok : TreeOk T A) (hf : Finds f bytes items) {ts : List (Tree C K)}
    (hw : ∀ t ∈ ts, t.Stored A items) (hp : ts.Pairwise (fun s t => ∀ k, ¬ (s.Encloses T.le k ∧ t.Encloses T.le k))) {k : K} {t : Tree C K}
    (ht : t ∈ ts) (he : t.Encloses T.le k) :
    ∃ d, T.select f bytes k (ts.map fun t => t.id.get.toNat) = some d ∧ EntriesAre (t.calls.flatMap A.means) d := by
  induction ts with
  | nil => simp at ht
  | cons s ts ih =>
    obtain ⟨d, a, b, ho, hd, hl, hk⟩ := stored_dict ok hf (hw s (by simp))
    simp only [List.pairwise_cons] at hp
    simp only [List.map_cons, TreeKind.select, ho, hl]
    rcases List.mem_cons.mp ht with rfl | ht'
    · rw [if_pos ((hk k).mpr he)]
      exact ⟨d, rfl, hd⟩
    · rw [if_neg (fun h => hp.1 t ht' k ⟨(hk k).mp h, he⟩)]
      exact ih (fun t ht => hw t (by simp [ht])) hp.2 ht'

theorem select_none {T : TreeKind K} {A : TreeApi C K} (ok : TreeOk T A) (hf : Finds f bytes items) {ts : List (Tree C K)}
    (hw : ∀ t ∈ ts, t.Stored A items) {k : K} (he : ∀ t ∈ ts, ¬ t.Encloses T.le k) :
    T.select f bytes k (ts.map fun t => t.id.get.toNat) = none := by
  induction ts with
  | nil => rfl
  | cons s ts ih =>
    obtain ⟨d, a, b, ho, hd, hl, hk⟩ := stored_dict ok hf (hw s (by simp))
    simp only [List.map_cons, TreeKind.select, ho, hl]
    rw [if_neg (fun h => he s (by simp) ((hk k).mp h))]
    exact ih (fun t ht => hw t (by simp [ht])) (fun t ht => he t (by simp [ht]))

mutual
theorem tree_search {T : TreeKind K} {A : TreeApi C K} (ok : TreeOk T A) (hf : Finds f bytes items) (t : Tree C K)
    (hw : t.Written A T.le T.leaf items) (depth : Nat) (hd : t.depth ≤ depth) (d : List (Bytes × Val))
    (he : EntriesAre (t.calls.flatMap A.means) d) : FindsExactly (T.search f bytes depth d) t.pairs := by
  cases t with
  | leaf id calls lo hi ps =>
    simp only [Tree.depth] at hd
    obtain ⟨n, rfl⟩ : ∃ n, depth = n + 1 := ⟨depth - 1, by omega⟩
    simp only [Tree.Written] at hw
    obtain ⟨h1, h2⟩ := hw
    obtain ⟨P, hP, hP'⟩ := ok.pairs ps
    have hfil : (calls.flatMap A.means).filter (fun e => e.1 == T.leaf) = [(T.leaf, P)] := by
      rw [onlyCall_filter h1, hP]; simp
    simp only [Tree.calls] at he
    obtain ⟨w, hl, hw⟩ := lookup_of he hfil
    obtain ⟨vs, rfl, hvs⟩ := hP' w hw
    have := find_pairs T ps h2 vs hvs
    have hs : T.search f bytes (n + 1) d = fun k => T.find k vs := by
      funext k
      simp only [TreeKind.search]
      rw [if_neg (by rw [present_of he hfil]; decide), hl]
    rw [hs]
    simpa only [Tree.pairs] using this
  | node id calls lo hi kids =>
    simp only [Tree.depth] at hd
    obtain ⟨n, rfl⟩ : ∃ n, depth = n + 1 := ⟨depth - 1, by omega⟩
    simp only [Tree.Written] at hw
    obtain ⟨h1, h2, h3, h4⟩ := hw
    simp only [Tree.calls] at he
    have hfil : (calls.flatMap A.means).filter (fun e => e.1 == b!"Kids") = [(b!"Kids", ArrayIs ((kids.map Tree.id).map fun x => IsRef x))] := by
      rw [onlyCall_filter h2, ok.kids]; rfl
    obtain ⟨w, hl, vs, rfl, hvs⟩ := lookup_of he hfil
    have hst := fun t ht => (treesWritten_mem h4 t ht).1
    have hs : T.search f bytes (n + 1) d = fun k => (T.select f bytes k (kids.map fun t => t.id.get.toNat)).bind fun d' => T.search f bytes n d' k := by
      funext k
      simp only [TreeKind.search]
      rw [if_pos (absent_of he (noCall_filter h1)), hl]
      simp only [refNumbers_of _ vs hvs, Option.bind_some, List.map_map, Function.comp_def]
    rw [hs]
    have ih := trees_search ok hf kids h4
    have hpr : (Tree.node id calls lo hi kids).pairs = treesPairs kids := by simp only [Tree.pairs]
    rw [hpr]
    constructor
    · intro e hmem
      obtain ⟨t, ht, hte⟩ := mem_treesPairs.mp hmem
      obtain ⟨d', q1, q2⟩ := select_some ok hf hst h3 ht ((treesWritten_mem h4 t ht).2.1 e hte)
      simp only [q1, Option.bind_some]
      have := depth_le_of_mem ht
      exact (ih t ht n (by omega) d' q2).1 e hte
    · intro k hk
      by_cases hen : ∃ t ∈ kids, t.Encloses T.le k
      · obtain ⟨t, ht, hte⟩ := hen
        obtain ⟨d', q1, q2⟩ := select_some ok hf hst h3 ht hte
        simp only [q1, Option.bind_some]
        have := depth_le_of_mem ht
        exact (ih t ht n (by omega) d' q2).2 k (fun e he => hk e (mem_treesPairs.mpr ⟨t, ht, he⟩))
      · simp only [select_none ok hf hst (fun t ht h => hen ⟨t, ht, h⟩), Option.bind_none]
termination_by structural t
theorem trees_search {T : TreeKind K} {A : TreeApi C K} (ok : TreeOk T A) (hf : Finds f bytes items) (ts : List (Tree C K))
    (hw : treesWritten A T.le T.leaf items ts) : ∀ t ∈ ts, ∀ depth, t.depth ≤ depth → ∀ d, EntriesAre (t.calls.flatMap A.means) d →
      FindsExactly (T.search f bytes depth d) t.pairs := by
  cases ts with
  | nil => intro t ht; simp at ht
  | cons s ts =>
    simp only [treesWritten] at hw
    have h1 := tree_search ok hf s hw.2.2.1
    have h2 := trees_search ok hf ts hw.2.2.2
    intro t ht depth hd d he
    rcases List.mem_cons.mp ht with rfl | ht
    · exact h1 depth hd d he
    · exact h2 t ht depth hd d he
termination_by structural ts
end

/-! ## The two kinds -/

theorem itemsAre_imp {ms ms' : List (Val → Prop)} (h : ms.length = ms'.length) (hi : ∀ p ∈ ms.zip ms', ∀ v, p.1 v → p.2 v) {vs : List Val}
    (hv : ItemsAre ms vs) : ItemsAre ms' vs := by
  induction ms generalizing ms' vs with
  | nil => cases ms' with
    | nil => exact hv
    | cons => simp at h
  | cons m ms ih =>
    cases ms' with
    | nil => simp at h
    | cons m' ms' =>
      obtain ⟨w, ws, rfl, h1, h2⟩ := hv
      exact ⟨w, ws, rfl, hi (m, m') (by simp) w h1, ih (by simpa using h) (fun p hp => hi p (by simp [hp])) h2⟩

theorem pairs_imp {E : Type} (ps : List E) (F G H : E → Val → Prop) (hFG : ∀ e v, F e v → G e v) {vs : List Val}
    (h : ItemsAre (ps.flatMap fun e => [F e, H e]) vs) : ItemsAre (ps.flatMap fun e => [G e, H e]) vs := by
  induction ps generalizing vs with
  | nil => exact h
  | cons p ps ih =>
    simp only [List.flatMap_cons, List.cons_append, List.nil_append] at h ⊢
    obtain ⟨a, ws, rfl, ha, v, vs', rfl, hv, hr⟩ := h
    exact ⟨a, _, rfl, hFG p a ha, v, vs', rfl, hv, ih hr⟩

theorem numberTree_ok : TreeOk numberTrees numberApi where
  reads := numberTree_denotes
  pairs := fun ps => ⟨_, rfl, by
    rintro v ⟨vs, rfl, h⟩
    exact ⟨vs, rfl, pairs_imp ps (fun e => IsInt e.1) _ (fun e => PrimDenotes e.2) (fun e v hv => by simp only [IsInt] at hv; subst hv; rfl) h⟩⟩
  kids := fun ids => rfl
  limits := fun lo hi => ⟨_, rfl, by
    rintro v ⟨vs, rfl, a, ws, rfl, ha, b, ws', rfl, hb, hn⟩
    simp only [ItemsAre] at hn
    simp only [IsInt] at ha hb
    subst hn ha hb
    exact ⟨_, _, rfl, rfl, rfl⟩⟩

theorem nameTree_ok : TreeOk lenientNameTrees nameApi where
  reads := fun calls => nameTree_denotes .code calls (Or.inl rfl)
  pairs := fun ps => ⟨_, rfl, by
    rintro v ⟨vs, rfl, h⟩
    exact ⟨vs, rfl, pairs_imp ps (fun e => IsStr e.1) _ (fun e => PrimDenotes e.2) (fun e v hv => by simp only [IsStr] at hv; subst hv; rfl) h⟩⟩
  kids := fun ids => rfl
  limits := fun lo hi => ⟨_, rfl, by
    rintro v ⟨vs, rfl, a, ws, rfl, ha, b, ws', rfl, hb, hn⟩
    simp only [ItemsAre] at hn
    simp only [IsName] at ha hb
    subst hn ha hb
    exact ⟨_, _, rfl, rfl, rfl⟩⟩

end PdfW
