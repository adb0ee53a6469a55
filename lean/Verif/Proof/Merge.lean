import Verif.Proof.History
import Verif.Spec.Merge

set_option linter.unusedSimpArgs false
set_option linter.unusedVariables false

/-! # Lemmas for C51 -/

namespace PdfW
open Spec

/-- The closure answers `g` to each of these calls. -/
def Agrees {σ : Type} (m : Mapping σ) (g : Ref → Ref) : List Ref → σ → Prop
  | [], _ => True
  | r :: rs, s => (m s r).1 = g r ∧ Agrees m g rs (m s r).2

/-- State after these calls. -/
def after {σ : Type} (m : Mapping σ) : List Ref → σ → σ
  | [], s => s
  | r :: rs, s => after m rs (m s r).2

theorem agrees_append {σ : Type} (m : Mapping σ) (g : Ref → Ref) (a b : List Ref) (s : σ) :
    Agrees m g (a ++ b) s ↔ Agrees m g a s ∧ Agrees m g b (after m a s) := by
  induction a generalizing s with
  | nil => simp [Agrees, after]
  | cons r a ih => simp [Agrees, after, ih, and_assoc]

theorem after_append {σ : Type} (m : Mapping σ) (a b : List Ref) (s : σ) : after m (a ++ b) s = after m b (after m a s) := by
  induction a generalizing s with
  | nil => rfl
  | cons r a ih => simp [after, ih]

/-- A pure closure. -/
def pureMap (g : Ref → Ref) : Mapping Unit := fun s r => (g r, s)

mutual
theorem mapProg_agrees {σ : Type} (m : Mapping σ) (g : Ref → Ref) (p : Prog) (s : σ) (h : Agrees m g (progRefs p) s) :
    mapProg m p s = ((mapProg (pureMap g) p ()).1, after m (progRefs p) s) := by
  match p with
  | .prim p =>
    cases p <;> simp_all [mapProg, mapPrim, progRefs, after, Agrees, pureMap]
  | .array items => simp only [progRefs] at h; simp [mapProg, mapItems_agrees m g items s h, progRefs]
  | .dict es => simp only [progRefs] at h; simp [mapProg, mapEntries_agrees m g es s h, progRefs]
  | .unused => simp [mapProg, progRefs, after]
termination_by structural p
theorem mapItems_agrees {σ : Type} (m : Mapping σ) (g : Ref → Ref) (xs : List Prog) (s : σ) (h : Agrees m g (itemsRefs xs) s) :
    mapItems m xs s = ((mapItems (pureMap g) xs ()).1, after m (itemsRefs xs) s) := by
  match xs with
  | [] => simp [mapItems, itemsRefs, after]
  | x :: xs =>
    simp only [itemsRefs, agrees_append] at h
    simp [mapItems, mapProg_agrees m g x s h.1, mapItems_agrees m g xs _ h.2, itemsRefs, after_append]
termination_by structural xs
theorem mapEntries_agrees {σ : Type} (m : Mapping σ) (g : Ref → Ref) (xs : List (Bytes × Prog)) (s : σ) (h : Agrees m g (entriesRefs xs) s) :
    mapEntries m xs s = ((mapEntries (pureMap g) xs ()).1, after m (entriesRefs xs) s) := by
  match xs with
  | [] => simp [mapEntries, entriesRefs, after]
  | (k, x) :: xs =>
    simp only [entriesRefs, agrees_append] at h
    simp [mapEntries, mapProg_agrees m g x s h.1, mapEntries_agrees m g xs _ h.2, entriesRefs, after_append]
termination_by structural xs
end

theorem mapItem_agrees {σ : Type} (m : Mapping σ) (g : Ref → Ref) (it : Item) (s : σ) (h : Agrees m g (it.id :: bodyRefs it.body) s) :
    mapItem m it s = ((mapItem (pureMap g) it ()).1, after m (it.id :: bodyRefs it.body) s) := by
  obtain ⟨id, body, pretty⟩ := it
  simp only [Agrees] at h
  cases body with
  | val p =>
    simp only [bodyRefs] at h
    simp [mapItem, mapBody, mapProg_agrees m g p _ h.2, after, bodyRefs, h.1, pureMap]
  | stream es data =>
    simp only [bodyRefs] at h
    simp [mapItem, mapBody, mapEntries_agrees m g es _ h.2, after, bodyRefs, h.1, pureMap]

theorem mapObjs_agrees {σ : Type} (m : Mapping σ) (g : Ref → Ref) (its : List Item) (s : σ) (h : Agrees m g (callOrder its) s) :
    mapObjs m its s = ((its.filter fun it => started it.body).map fun it => (mapItem (pureMap g) it ()).1, after m (callOrder its) s) := by
  induction its generalizing s with
  | nil => simp [mapObjs, callOrder, after]
  | cons it its ih =>
    simp only [callOrder, ← List.cons_append, agrees_append] at h
    cases hst : started it.body with
    | false =>
      have hr : bodyRefs it.body = [] := by
        match hb : it.body, hst with
        | .val .unused, _ => simp [bodyRefs, progRefs]
      simp only [hr, after] at h
      simp [mapObjs, hst, ih _ h.2, callOrder, hr, after]
    | true =>
    simp only [mapObjs, hst, if_true, List.filter_cons, mapItem_agrees m g it s h.1, ih _ h.2, callOrder, ← List.cons_append, after_append, List.map_cons]

/-! ## The values -/

theorem renameVal_real (f : Nat → Nat) (t : Tok) : renameVal f (F32.tokVal t) = F32.tokVal t := by
  cases t <;> simp [F32.tokVal, renameVal]

theorem renameVal_prim (g : Ref → Ref) (f : Nat → Nat) (hg : ∀ r, p = Prim.ref r → (g r).get.toNat = f r.get.toNat) :
    primVal (mapPrim (pureMap g) p ()).1 = renameVal f (primVal p) := by
  cases p with
  | ref r => simpa [mapPrim, pureMap, primVal, renameVal, Ref.get] using hg r rfl
  | real v => simp [mapPrim, primVal, renameVal_real]
  | rect r => simp [mapPrim, primVal, renameVal, renameVals, renameVal_real]
  | _ => simp [mapPrim, primVal, renameVal]

mutual
theorem progVal_map (g : Ref → Ref) (f : Nat → Nat) (p : Prog) (hg : ∀ r ∈ progRefs p, (g r).get.toNat = f r.get.toNat) :
    progVal (mapProg (pureMap g) p ()).1 = renameVal f (progVal p) := by
  match p with
  | .prim p =>
    simp only [mapProg, progVal]
    exact renameVal_prim g f (fun r hr => hg r (by subst hr; simp [progRefs]))
  | .array items => simp only [mapProg, progVal, renameVal]; rw [itemsVal_map g f items hg]
  | .dict es => simp only [mapProg, progVal, renameVal]; rw [entriesVal_map g f es hg]
  | .unused => simp [mapProg, progVal, renameVal]
termination_by structural p
theorem itemsVal_map (g : Ref → Ref) (f : Nat → Nat) (xs : List Prog) (hg : ∀ r ∈ itemsRefs xs, (g r).get.toNat = f r.get.toNat) :
    itemsVal (mapItems (pureMap g) xs ()).1 = renameVals f (itemsVal xs) := by
  match xs with
  | [] => simp [mapItems, itemsVal, renameVals]
  | x :: xs =>
    simp only [itemsRefs, List.mem_append] at hg
    simp only [mapItems, itemsVal, renameVals]
    rw [progVal_map g f x (fun r hr => hg r (Or.inl hr)), itemsVal_map g f xs (fun r hr => hg r (Or.inr hr))]
termination_by structural xs
theorem entriesVal_map (g : Ref → Ref) (f : Nat → Nat) (xs : List (Bytes × Prog)) (hg : ∀ r ∈ entriesRefs xs, (g r).get.toNat = f r.get.toNat) :
    entriesVal (mapEntries (pureMap g) xs ()).1 = renameEntries f (entriesVal xs) := by
  match xs with
  | [] => simp [mapEntries, entriesVal, renameEntries]
  | (k, x) :: xs =>
    simp only [entriesRefs, List.mem_append] at hg
    simp only [mapEntries, entriesVal, renameEntries]
    rw [progVal_map g f x (fun r hr => hg r (Or.inl hr)), entriesVal_map g f xs (fun r hr => hg r (Or.inr hr))]
termination_by structural xs
end

theorem bodyVal_map (g : Ref → Ref) (f : Nat → Nat) (b : Body) (hg : ∀ r ∈ bodyRefs b, (g r).get.toNat = f r.get.toNat) :
    bodyVal (mapBody (pureMap g) b ()).1 = renameIVal f (bodyVal b) := by
  cases b with
  | val p => simp only [mapBody, bodyVal, renameIVal]; rw [progVal_map g f p hg]
  | stream es data => simp only [mapBody, bodyVal, renameIVal, renameEntries, renameVal]; rw [entriesVal_map g f es hg]

/-! ## The allocating closure -/

/-- One more number was seen. -/
def seeStep (seen : List Nat) (r : Nat) : List Nat := if r ∈ seen then seen else seen ++ [r]

theorem firstSeen_eq (l : List Nat) : firstSeen l = l.foldl seeStep [] := rfl

theorem see_prefix (l seen : List Nat) : seen <+: l.foldl seeStep seen := by
  induction l generalizing seen with
  | nil => exact List.prefix_rfl
  | cons r l ih =>
    refine List.IsPrefix.trans ?_ (ih _)
    unfold seeStep; split
    · exact List.prefix_rfl
    · exact List.prefix_append _ _

theorem see_mem (l seen : List Nat) (x : Nat) : x ∈ l.foldl seeStep seen ↔ x ∈ seen ∨ x ∈ l := by
  induction l generalizing seen with
  | nil => simp
  | cons r l ih =>
    rw [List.foldl_cons, ih, List.mem_cons]
    unfold seeStep; split
    · rename_i h
      constructor
      · rintro (h1 | h1) <;> simp [h1]
      · rintro (h1 | rfl | h1)
        · exact Or.inl h1
        · exact Or.inl h
        · exact Or.inr h1
    · simp only [List.mem_append, List.mem_singleton, or_assoc]

theorem see_nodup (l seen : List Nat) (h : seen.Nodup) : (l.foldl seeStep seen).Nodup := by
  induction l generalizing seen with
  | nil => exact h
  | cons r l ih =>
    rw [List.foldl_cons]
    apply ih
    unfold seeStep; split
    · exact h
    · rename_i hr
      rw [List.nodup_append]
      refine ⟨h, by simp, ?_⟩
      intro a ha b hb hab
      simp only [List.mem_singleton] at hb
      subst hb; subst hab; exact hr ha

theorem mem_firstSeen (l : List Nat) (x : Nat) : x ∈ firstSeen l ↔ x ∈ l := by rw [firstSeen_eq, see_mem]; simp
theorem nodup_firstSeen (l : List Nat) : (firstSeen l).Nodup := see_nodup l [] List.nodup_nil

/-- What the state of the closure says. -/
structure MemoInv (a : Nat) (seen : List Nat) (s : Ref × List (Ref × Ref)) : Prop where
  next : s.1.get = a + seen.length
  keys : s.2.map (·.1.get.toNat) = seen
  vals : ∀ (i : Nat) (e : Ref × Ref), s.2[i]? = some e → e.2.get = a + i
  nodup : seen.Nodup

theorem ref_toNat_inj {r r' : Ref} (h : r.get.toNat = r'.get.toNat) : r = r' := by
  obtain ⟨a, ha, ha'⟩ := r
  obtain ⟨b, hb, hb'⟩ := r'
  simp only [Ref.get] at h
  have : a = b := by omega
  subst this; rfl

theorem memo_step {a : Nat} {seen : List Nat} {s : Ref × List (Ref × Ref)} (h : MemoInv a seen s) (r : Ref)
    (hroom : a + (seeStep seen r.get.toNat).length ≤ 2147483647) :
    (memo s r).1.get = a + (seeStep seen r.get.toNat).idxOf r.get.toNat ∧ MemoInv a (seeStep seen r.get.toNat) (memo s r).2 := by
  obtain ⟨next, table⟩ := s
  have hk := h.keys
  simp only at hk
  cases hf : table.find? (·.1 == r) with
  | some e =>
    have he : e.1 = r := by simpa using List.find?_some hf
    obtain ⟨i, hi⟩ := List.getElem?_of_mem (List.mem_of_find?_eq_some hf)
    have hs : seen[i]? = some r.get.toNat := by rw [← hk, List.getElem?_map, hi]; simp [he]
    have hmem : r.get.toNat ∈ seen := List.mem_of_getElem? hs
    have hidx : seen.idxOf r.get.toNat = i := by
      obtain ⟨hlt, hget⟩ := List.getElem?_eq_some_iff.mp hs
      rw [← hget]
      exact h.nodup.idxOf_getElem i hlt
    simp only [memo, hf, seeStep, hmem, if_true, hidx]
    exact ⟨h.vals i e hi, h⟩
  | none =>
    have hmem : r.get.toNat ∉ seen := by
      intro hm
      rw [← hk] at hm
      obtain ⟨e, he, hr⟩ := List.mem_map.mp hm
      have : e.1 = r := ref_toNat_inj hr
      exact (List.find?_eq_none.mp hf e he) (by simp [this])
    simp only [seeStep, hmem, if_false, List.length_append, List.length_singleton] at hroom ⊢
    have hn : next.get = a + seen.length := h.next
    have hb : next.bump = some (next, ⟨next.get + 1, by have := next.pos; simp only [Ref.get]; omega, by omega⟩) := by
      have : wrapSucc next.get = next.get + 1 := by unfold wrapSucc; rw [if_neg (by omega)]
      unfold Ref.bump Ref.next Ref.new
      rw [this, dif_pos ⟨by have := next.pos; simp only [Ref.get]; omega, by omega⟩]
      rfl
    simp only [memo, hf, hb]
    have hidx : (seen ++ [r.get.toNat]).idxOf r.get.toNat = seen.length := by
      rw [List.idxOf_append, if_neg hmem]; simp
    rw [hidx]
    refine ⟨hn, ?_, ?_, ?_, ?_⟩
    · simp only [Ref.get, List.length_append, List.length_singleton] at hn ⊢; omega
    · simp [hk]
    · intro i e hi
      have hlen : table.length = seen.length := by rw [← hk]; simp
      by_cases hlt : i < table.length
      · rw [List.getElem?_append_left hlt] at hi; exact h.vals i e hi
      · rw [List.getElem?_append_right (by omega)] at hi
        have : i - table.length = 0 := by
          rcases Nat.eq_zero_or_pos (i - table.length) with h | hne
          · exact h
          · rw [List.getElem?_eq_none (by simp; omega)] at hi
            simp at hi
        rw [this] at hi
        simp only [List.getElem?_cons_zero, Option.some.injEq] at hi
        subst hi
        simp only [hn]; omega
    · rw [List.nodup_append]
      refine ⟨h.nodup, by simp, ?_⟩
      intro x hx b hb hab
      simp only [List.mem_singleton] at hb
      subst hb; subst hab; exact hmem hx

/-- The function the closure computes. -/
def memoFun (a : Nat) (l : List Nat) (r : Ref) : Ref :=
  match Ref.new (a + l.idxOf r.get.toNat : Nat) with
  | some r' => r'
  | none => r

theorem memoFun_get {a : Nat} {l : List Nat} {r : Ref} (h0 : 0 < a) (hm : r.get.toNat ∈ l) (hroom : a + l.length ≤ 2147483647 + 1) :
    (memoFun a l r).get = (a + l.idxOf r.get.toNat : Nat) := by
  have := List.idxOf_lt_length_of_mem hm
  unfold memoFun Ref.new
  rw [dif_pos ⟨by omega, by omega⟩]
  rfl

theorem memo_run {a : Nat} (h0 : 0 < a) (l : List Ref) (seen : List Nat) (s : Ref × List (Ref × Ref)) (h : MemoInv a seen s)
    (all : List Nat) (hall : (l.map (·.get.toNat)).foldl seeStep seen = all) (hroom : a + all.length ≤ 2147483647) :
    Agrees memo (memoFun a all) l s ∧ MemoInv a all (after memo l s) := by
  induction l generalizing seen s with
  | nil => simp at hall; subst hall; exact ⟨trivial, h⟩
  | cons r l ih =>
    simp only [List.map_cons, List.foldl_cons] at hall
    have hpre : seeStep seen r.get.toNat <+: all := by rw [← hall]; exact see_prefix _ _
    have hlen := hpre.length_le
    obtain ⟨h1, h2⟩ := memo_step h r (by omega)
    obtain ⟨k1, k2⟩ := ih _ _ h2 hall
    refine ⟨⟨?_, k1⟩, k2⟩
    have hm : r.get.toNat ∈ seeStep seen r.get.toNat := by
      unfold seeStep; split
      · assumption
      · simp
    obtain ⟨t, ht⟩ := hpre
    have hm' : r.get.toNat ∈ all := by rw [← ht]; exact List.mem_append_left _ hm
    have hidx : all.idxOf r.get.toNat = (seeStep seen r.get.toNat).idxOf r.get.toNat := by
      rw [← ht, List.idxOf_append, if_pos hm]
    have e := memoFun_get h0 hm' (by omega)
    apply ref_toNat_inj
    rw [h1, e, hidx]; simp

theorem memo_start (next : Ref) : MemoInv next.get.toNat [] (next, []) :=
  ⟨by have := next.pos; simp [Ref.get] at *; omega, rfl, by simp, List.nodup_nil⟩

/-- Renumbering with the allocating closure is renumbering with consecutive numbers. -/
theorem mapObjs_memo (its : List Item) (next : Ref)
    (hroom : next.get.toNat + (firstSeen ((callOrder its).map (·.get.toNat))).length ≤ 2147483647) :
    let g := memoFun next.get.toNat (firstSeen ((callOrder its).map (·.get.toNat)))
    (mapObjs memo its (next, [])).1 = (its.filter fun it => started it.body).map (fun it => (mapItem (pureMap g) it ()).1) ∧
      (mapObjs memo its (next, [])).2.1.get = next.get.toNat + (firstSeen ((callOrder its).map (·.get.toNat))).length ∧
      ∀ r ∈ callOrder its, (g r).get.toNat = next.get.toNat + (firstSeen ((callOrder its).map (·.get.toNat))).idxOf r.get.toNat := by
  intro g
  have h0 : 0 < next.get.toNat := by have := next.pos; simp only [Ref.get]; omega
  obtain ⟨h1, h2⟩ := memo_run h0 (callOrder its) [] (next, []) (memo_start next) _ rfl hroom
  have e := mapObjs_agrees memo g its (next, []) h1
  refine ⟨by rw [e], by rw [e]; exact h2.next, ?_⟩
  intro r hr
  have : r.get.toNat ∈ firstSeen ((callOrder its).map (·.get.toNat)) := (mem_firstSeen _ _).mpr (List.mem_map_of_mem hr)
  have e := memoFun_get h0 this (by omega)
  show (memoFun _ _ r).get.toNat = _
  rw [e, Int.toNat_natCast]

theorem id_mem_callOrder {its : List Item} {it : Item} (h : it ∈ its) : it.id ∈ callOrder its ∧ ∀ r ∈ bodyRefs it.body, r ∈ callOrder its := by
  induction its with
  | nil => simp at h
  | cons x its ih =>
    simp only [callOrder]
    rcases List.mem_cons.mp h with rfl | h
    · exact ⟨by simp, fun r hr => by simp [hr]⟩
    · exact ⟨by simp [(ih h).1], fun r hr => by simp [(ih h).2 r hr]⟩

end PdfW
