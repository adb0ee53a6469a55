import Verif.Spec.Tagged
import Verif.Proof.Interpret
import Verif.Proof.Attach
import Verif.Proof.Typed.Structure

set_option linter.unusedSimpArgs false
set_option linter.unusedVariables false

/-!
# Logical structure
-/

namespace PdfW
open Spec

variable {unf : Val → Bytes → Option Bytes} {f : FileEnd} {bytes : Bytes} {items : List Item}

/-! ## Pages with their numbers -/

mutual
theorem each_zip {α : Type} {P : Ref → Option (List ResourcesCall) → List ContentCall → α → Prop} (t : PageTree)
    (inh : Option (List ResourcesCall)) (xs : List α) (h : t.Each P items inh xs) :
    xs.length = t.leaves.length ∧
    t.Each (fun id res calls (x : Nat × α) => x.1 = id.get.toNat ∧ P id res calls x.2) items inh
      ((t.leaves.map fun e => e.1.get.toNat).zip xs) := by
  cases t with
  | page id calls contents =>
    simp only [PageTree.Each] at h
    obtain ⟨res, x, rfl, h1, h2⟩ := h
    refine ⟨rfl, ?_⟩
    simp only [PageTree.Each, PageTree.leaves]
    exact ⟨res, (id.get.toNat, x), rfl, h1, rfl, h2⟩
  | node id calls kids =>
    simp only [PageTree.Each] at h
    obtain ⟨res, h1, h2⟩ := h
    obtain ⟨q1, q2⟩ := each_zip_list kids res xs h2
    simp only [PageTree.Each, PageTree.leaves]
    exact ⟨q1, res, h1, q2⟩
termination_by structural t
theorem each_zip_list {α : Type} {P : Ref → Option (List ResourcesCall) → List ContentCall → α → Prop} (ts : List PageTree)
    (inh : Option (List ResourcesCall)) (xs : List α) (h : eachList P items ts inh xs) :
    xs.length = (leavesList ts).length ∧
    eachList (fun id res calls (x : Nat × α) => x.1 = id.get.toNat ∧ P id res calls x.2) items ts inh
      (((leavesList ts).map fun e => e.1.get.toNat).zip xs) := by
  cases ts with
  | nil =>
    simp only [eachList] at h
    subst h
    exact ⟨rfl, rfl⟩
  | cons t ts =>
    simp only [eachList] at h
    obtain ⟨a, b, rfl, h1, h2⟩ := h
    obtain ⟨q1, q2⟩ := each_zip t inh a h1
    obtain ⟨q3, q4⟩ := each_zip_list ts inh b h2
    simp only [eachList, leavesList, List.length_append, q1, q3, true_and, List.map_append]
    refine ⟨_, _, ?_, q2, q4⟩
    rw [List.zip_append (by simp [q1])]
termination_by structural ts
end

theorem findIdx_zip (ids : List Ref) (shown : List (List Shown)) (hl : shown.length = ids.length) (r : Ref) (h : r ∈ ids) :
    ∃ i s, ids[i]? = some r ∧ shown[i]? = some s ∧
      (((ids.map fun x => x.get.toNat).zip shown).findIdx? fun e => e.1 == r.get.toNat) = some i ∧
      ((ids.map fun x => x.get.toNat).zip shown)[i]? = some (r.get.toNat, s) := by
  induction ids generalizing shown with
  | nil => simp at h
  | cons a ids ih =>
    cases shown with
    | nil => simp at hl
    | cons s shown =>
      by_cases e : a = r
      · subst e
        exact ⟨0, s, by simp, by simp, by simp [List.findIdx?_cons], by simp⟩
      · have hr : r ∈ ids := by
          rcases List.mem_cons.mp h with h | h
          · exact absurd h.symm e
          · exact h
        obtain ⟨i, s', h1, h2, h3, h4⟩ := ih shown (by simpa using hl) hr
        have hne : (a.get.toNat == r.get.toNat) = false := by
          rw [beq_eq_false_iff_ne]
          intro hc
          apply e
          have := a.pos
          have := r.pos
          cases a; cases r
          simp [Ref.get] at *
          omega
        refine ⟨i + 1, s', by simpa using h1, by simpa using h2, ?_, by simpa using h4⟩
        simp only [List.map_cons, List.zip_cons_cons, List.findIdx?_cons, hne, h3]
        rfl

/-! ## Content -/

/-- The tagger knows the pages and the role map. -/
structure TagOk (t : Tagger) (ids : List Ref) (shown : List (List Shown)) (roles : List (Bytes × StructRole)) : Prop where
  len : shown.length = ids.length
  pages : t.pages = (ids.map fun x => x.get.toNat).zip shown
  roleMap : EntriesAre (roles.flatMap fun e => RoleMapMeans (.insert e.1 e.2)) t.roles
  distinct : (roles.map (·.1)).Nodup

variable {tg : Tagger} {ids : List Ref} {shown : List (List Shown)} {roles : List (Bytes × StructRole)}

theorem tag_page (ht : TagOk tg ids shown roles) {r : Ref} (hr : r ∈ ids) :
    ∃ i s, OnPage ids shown (some r) i s ∧ tg.page r.get.toNat = some (i, s) := by
  obtain ⟨i, s, h1, h2, h3, h4⟩ := findIdx_zip ids shown ht.len r hr
  exact ⟨i, s, ⟨r, rfl, h1, h2⟩, by simp only [Tagger.page, ht.pages, h3, Option.bind_some, h4, Option.map_some]⟩

theorem tag_content (ht : TagOk tg ids shown roles) {p : Option Ref} (hp : ∃ r ∈ ids, p = some r) (m : Mark) :
    ∃ i s, OnPage ids shown p i s ∧ tg.content (p.map fun r => r.get.toNat) m = some (.content i (textIn m s)) := by
  obtain ⟨r, hr, rfl⟩ := hp
  obtain ⟨i, s, h1, h2⟩ := tag_page ht hr
  exact ⟨i, s, h1, by simp only [Tagger.content, Option.map_some, Option.bind_some, h2]⟩

/-! ## Roles -/

theorem roles_filter (roles : List (Bytes × StructRole)) (n : Bytes) :
    (roles.flatMap fun e => RoleMapMeans (.insert e.1 e.2)).filter (fun e => e.1 == n) =
      (roles.filter (fun e => e.1 == n)).map fun e => (e.1, IsRole17 e.2) := by
  induction roles with
  | nil => rfl
  | cons e es ih =>
    rw [List.flatMap_cons, List.filter_append, ih]
    simp only [RoleMapMeans]
    by_cases h : (e.1 == n) = true
    · rw [List.filter_cons_of_pos (by simpa using h), List.filter_cons_of_pos (by simpa using h)]; rfl
    · rw [List.filter_cons_of_neg (by simpa using h), List.filter_cons_of_neg (by simpa using h)]; rfl

theorem filter_nodup (roles : List (Bytes × StructRole)) (hd : (roles.map (·.1)).Nodup) (e : Bytes × StructRole) (he : e ∈ roles) :
    roles.filter (fun x => x.1 == e.1) = [e] := by
  induction roles with
  | nil => simp at he
  | cons a as ih =>
    simp only [List.map_cons, List.nodup_cons] at hd
    rcases List.mem_cons.mp he with rfl | he
    · rw [List.filter_cons_of_pos (by simp)]
      congr 1
      rw [List.filter_eq_nil_iff]
      intro x hx hc
      simp only [beq_iff_eq] at hc
      exact hd.1 (List.mem_map.mpr ⟨x, hx, hc⟩)
    · rw [List.filter_cons_of_neg, ih hd.2 he]
      simp only [beq_iff_eq]
      intro hc
      exact hd.1 (List.mem_map.mpr ⟨e, he, hc.symm⟩)

theorem role_read (ht : TagOk tg ids shown roles) (n : Bytes) :
    ∃ role, tg.role false n = some role ∧ ((∃ r, (n, r) ∈ roles ∧ role = isoRole17 r) ∨ ((∀ e ∈ roles, e.1 ≠ n) ∧ role = n)) := by
  by_cases h : ∃ r, (n, r) ∈ roles
  · obtain ⟨r, hr⟩ := h
    have hf : (roles.flatMap fun e => RoleMapMeans (.insert e.1 e.2)).filter (fun e => e.1 == n) = [(n, IsRole17 r)] := by
      rw [roles_filter, filter_nodup roles ht.distinct (n, r) hr]; rfl
    obtain ⟨a, ha, rfl⟩ := optional_present (Q := fun a => a = isoRole17 r) (read := nameOf) ht.roleMap hf
      (fun v hv => ⟨_, by simp only [IsRole17] at hv; subst hv; rfl, rfl⟩)
    exact ⟨_, by simp only [Tagger.role, ha, Option.map_some, Option.getD_some]; rfl, Or.inl ⟨r, hr, rfl⟩⟩
  · have hn : ∀ e ∈ roles, e.1 ≠ n := fun e he hc => h ⟨e.2, by rw [← hc]; exact he⟩
    have hf : (roles.flatMap fun e => RoleMapMeans (.insert e.1 e.2)).filter (fun e => e.1 == n) = [] := by
      rw [roles_filter, List.filter_eq_nil_iff.mpr (by intro e he; simpa using hn e he)]; rfl
    exact ⟨n, by simp only [Tagger.role, optional_absent ht.roleMap hf, Option.map_some, Option.getD_none]; rfl, Or.inr ⟨hn, rfl⟩⟩

/-! ## Elements -/

theorem texts_read {calls : List StructElementCall} {texts : ElemTexts} (h : TextsSet calls texts) {d : List (Bytes × Val)}
    (he : EntriesAre (StructElementEntries calls) d) : readElemTexts d = some texts := by
  have e1 := optional_eq (read := strOf) IsStr id he rfl h.id (fun _ => rfl) (fun b v hv => by simp only [IsStr] at hv; subst hv; rfl)
  have e2 := optional_eq (read := readText) IsText id he rfl h.title (fun _ => rfl) (fun b v hv => readText_isText b v hv)
  have e3 := optional_eq (read := readText) IsText id he rfl h.lang (fun _ => rfl) (fun b v hv => readText_isText b v hv)
  have e4 := optional_eq (read := readText) IsText id he rfl h.alt (fun _ => rfl) (fun b v hv => readText_isText b v hv)
  have e5 := optional_eq (read := readText) IsText id he rfl h.expanded (fun _ => rfl) (fun b v hv => readText_isText b v hv)
  have e6 := optional_eq (read := readText) IsText id he rfl h.actual (fun _ => rfl) (fun b v hv => readText_isText b v hv)
  simp only [readElemTexts, e1, e2, e3, e4, e5, e6, Option.bind_some, Option.map_some, Option.map_id_fun, id_eq]

theorem type_read (ht : TagOk tg ids shown roles) {calls : List StructElementCall} {type : GivenType} (h : type.Set calls) {d : List (Bytes × Val)}
    (he : EntriesAre (StructElementEntries calls) d) :
    ∃ name role, lookup b!"S" d = some (.name name) ∧ tg.role (!d.all fun e => e.1 != b!"NS") name = some role ∧ type.Named name ∧
      RoleOf roles type name role := by
  have habs : NoCall StructElementMeans b!"NS" calls → (d.all fun e => e.1 != b!"NS") = true := fun hn =>
    absent_of he (by simp only [StructElementEntries, List.filter_append, noCall_filter hn]; rfl)
  cases type with
  | role r =>
    obtain ⟨v, hl, hv⟩ := lookup_of he (k := b!"S") (P := IsRole17 r) (by simp only [StructElementEntries, List.filter_append, onlyCall_filter h.1]; rfl)
    simp only [IsRole17] at hv
    subst hv
    obtain ⟨role, h1, h2⟩ := role_read ht (isoRole17 r)
    exact ⟨_, role, hl, by rw [habs h.2]; exact h1, rfl, h2⟩
  | role2 r ns =>
    obtain ⟨v, hl, n, rfl, hv⟩ := lookup_of he (k := b!"S") (P := IsRole20 r) (by simp only [StructElementEntries, List.filter_append, onlyCall_filter h.1]; rfl)
    have hpr := present_of he (k := b!"NS") (P := IsRef ns) (by simp only [StructElementEntries, List.filter_append, onlyCall_filter h.2]; rfl)
    exact ⟨n, n, hl, by rw [hpr]; rfl, hv, rfl⟩
  | custom c =>
    obtain ⟨v, hl, hv⟩ := lookup_of he (k := b!"S") (P := IsName c) (by simp only [StructElementEntries, List.filter_append, onlyCall_filter h.1]; rfl)
    simp only [IsName] at hv
    subst hv
    obtain ⟨role, h1, h2⟩ := role_read ht c
    exact ⟨_, role, hl, by rw [habs h.2]; exact h1, rfl, h2⟩
  | roleIn r ns =>
    obtain ⟨v, hl, hv⟩ := lookup_of he (k := b!"S") (P := IsRole17 r) (by simp only [StructElementEntries, List.filter_append, onlyCall_filter h.1]; rfl)
    simp only [IsRole17] at hv
    subst hv
    have hpr := present_of he (k := b!"NS") (P := IsRef ns) (by simp only [StructElementEntries, List.filter_append, onlyCall_filter h.2]; rfl)
    exact ⟨_, _, hl, by rw [hpr]; rfl, rfl, rfl⟩
  | customIn c ns =>
    obtain ⟨v, hl, hv⟩ := lookup_of he (k := b!"S") (P := IsName c) (by simp only [StructElementEntries, List.filter_append, onlyCall_filter h.1]; rfl)
    simp only [IsName] at hv
    subst hv
    have hpr := present_of he (k := b!"NS") (P := IsRef ns) (by simp only [StructElementEntries, List.filter_append, onlyCall_filter h.2]; rfl)
    exact ⟨_, _, hl, by rw [hpr]; rfl, rfl, rfl⟩

/-- The meaning of the value for a part. -/
def Spec.StructPart.value : StructPart → Val → Prop
  | .elem id .. => IsRef id
  | .mcid m => IsInt m
  | .marked calls .. => IsMarkedRef calls
  | .object calls .. => IsObjectRef calls

theorem childrenItems (kids : List StructPart) : StructChildrenItems (kids.map StructPart.call) = kids.map StructPart.value := by
  induction kids with
  | nil => rfl
  | cons k ks ih =>
    simp only [List.map_cons, StructChildrenItems, List.flatMap_cons] at ih ⊢
    rw [ih]
    cases k <;> rfl

/-- Leaves. -/
theorem leaf_read (ht : TagOk tg ids shown roles) (elem : Nat → Option StructNode) (t : StructPart) (hleaf : ∀ id c ty x pg ks, t ≠ .elem id c ty x pg ks)
    {parent : Option Ref} (hw : t.Written items parent) (p : Option Ref) (hloc : t.Located ids p) (v : Val) (hv : t.value v) :
    ∃ r, readKid tg elem (p.map fun r => r.get.toNat) v = some r ∧ t.Means ids shown roles p r := by
  cases t with
  | elem id c ty x pg ks => exact absurd rfl (hleaf id c ty x pg ks)
  | mcid m =>
    simp only [StructPart.value, IsInt] at hv
    subst hv
    simp only [StructPart.Located] at hloc
    obtain ⟨i, s, h1, h2⟩ := tag_content ht hloc ⟨none, m⟩
    exact ⟨_, h2, by simp only [StructPart.Means]; exact ⟨i, s, h1, rfl⟩⟩
  | marked calls page stream m =>
    obtain ⟨d, rfl, he⟩ := hv
    simp only [StructPart.Written] at hw
    simp only [StructPart.Located] at hloc
    obtain ⟨w1, w2, w3, w4⟩ := hw
    obtain ⟨w, hl, hw⟩ := lookup_of he (k := b!"Type") (P := IsName b!"MCR") (by
      simp only [MarkedRefEntries, List.filter_append, noCall_filter w1]; rfl)
    simp only [IsName] at hw
    subst hw
    have e1 := optional_ref he rfl w2 (fun _ => rfl)
    have e2 := optional_ref he rfl w3 (fun _ => rfl)
    obtain ⟨w, hl', hw⟩ := lookup_of he (k := b!"MCID") (P := IsInt m) (by
      simp only [MarkedRefEntries, List.filter_append, onlyCall_filter w4]; rfl)
    simp only [IsInt] at hw
    subst hw
    obtain ⟨i, s, h1, h2⟩ := tag_content ht hloc ⟨stream.map fun x => x.get.toNat, m⟩
    refine ⟨_, ?_, by simp only [StructPart.Means]; exact ⟨i, s, h1, rfl⟩⟩
    simp only [readKid, hl, e1, e2, hl', if_true, Option.bind_some, intOf]
    rw [← h2]
    cases page <;> rfl
  | object calls page obj =>
    obtain ⟨d, rfl, he⟩ := hv
    simp only [StructPart.Written] at hw
    simp only [StructPart.Located] at hloc
    obtain ⟨w1, w2, w3⟩ := hw
    obtain ⟨w, hl, hw⟩ := lookup_of he (k := b!"Type") (P := IsName b!"OBJR") (by
      simp only [ObjectRefEntries, List.filter_append, noCall_filter w1]; rfl)
    simp only [IsName] at hw
    subst hw
    have e1 := optional_ref he rfl w2 (fun _ => rfl)
    obtain ⟨w, hl', hw⟩ := lookup_of he (k := b!"Obj") (P := IsRef obj) (by
      simp only [ObjectRefEntries, List.filter_append, onlyCall_filter w3]; rfl)
    simp only [IsRef] at hw
    subst hw
    obtain ⟨r, hr, hp⟩ := hloc
    obtain ⟨i, s, h1, h2⟩ := tag_page ht hr
    refine ⟨.object i obj.get.toNat, ?_, by simp only [StructPart.Means]; exact ⟨i, s, by rw [hp]; exact h1, rfl⟩⟩
    have hpg : (page.map fun r => r.get.toNat).or (p.map fun r => r.get.toNat) = some r.get.toNat := by
      have := congrArg (Option.map fun r : Ref => r.get.toNat) hp
      rw [Option.map_some] at this
      rw [← this]
      cases page <;> rfl
    simp only [readKid, hl, e1, hl', if_true, Option.bind_some, refNumber, hpg, h2, Option.map_some]
    rw [if_neg (by decide)]

theorem value_only {t : StructPart} {c : StructElementCall} (h : t.only = some c) :
    (StructElementMeans c).filter (fun e => e.1 == b!"K") = [(b!"K", t.value)] := by
  cases t <;> simp only [StructPart.only, Option.some.injEq, reduceCtorEq] at h
  all_goals (subst h; rfl)

theorem value_not_arr {t : StructPart} {c : StructElementCall} (h : t.only = some c) {v : Val} (hv : t.value v) : ∀ vs, v ≠ .arr vs := by
  intro vs e
  subst e
  cases t with
  | elem id _ _ _ _ _ => simp [StructPart.value, IsRef] at hv
  | mcid m => simp [StructPart.only] at h
  | marked calls _ _ _ => obtain ⟨d, e, -⟩ := hv; simp at e
  | object calls _ _ => obtain ⟨d, e, -⟩ := hv; simp at e

/-- The kids. -/
theorem kids_of {α : Type} {calls : List StructElementCall} {kids : List StructPart} (hk : KidsSet calls kids) {d : List (Bytes × Val)}
    (he : EntriesAre (StructElementEntries calls) d) {kid : Val → Option α} {R : List α → Prop}
    (hr : ∀ vs, ItemsAre (kids.map StructPart.value) vs → ∃ rs, readEach kid vs = some rs ∧ R rs) :
    ∃ rs, readKids kid d = some rs ∧ R rs := by
  have hfil : (StructElementEntries calls).filter (fun e => e.1 == b!"K") = (calls.flatMap StructElementMeans).filter (fun e => e.1 == b!"K") := by
    simp only [StructElementEntries, List.filter_append]; rfl
  rcases hk with ⟨rfl, hn⟩ | ⟨k, c, rfl, hc, ho⟩ | ho
  · rw [noCall_filter hn] at hfil
    obtain ⟨rs, h1, h2⟩ := hr [] rfl
    refine ⟨rs, ?_, h2⟩
    unfold readKids
    rw [if_pos (absent_of he hfil), ← h1]; rfl
  · rw [onlyCall_filter ho, value_only hc] at hfil
    obtain ⟨v, hl, hv⟩ := lookup_of he hfil
    obtain ⟨rs, h1, h2⟩ := hr [v] ⟨v, [], rfl, hv, rfl⟩
    refine ⟨rs, ?_, h2⟩
    have hna := value_not_arr hc hv
    unfold readKids
    rw [if_neg (by rw [present_of he hfil]; decide), hl]
    have e : (kid v).map (fun k => [k]) = some rs := by
      rw [← h1]
      simp only [readEach]
      cases kid v <;> rfl
    split
    · rename_i vs heq; exact absurd (Option.some.inj heq) (hna vs)
    · rename_i heq; rw [← Option.some.inj heq]; exact e
    · rename_i heq; simp at heq
  · have hfil' : (StructElementEntries calls).filter (fun e => e.1 == b!"K") = [(b!"K", IsStructChildren (kids.map StructPart.call))] := by
      rw [hfil, onlyCall_filter ho]; rfl
    obtain ⟨v, hl, vs, rfl, hvs⟩ := lookup_of he hfil'
    rw [childrenItems] at hvs
    obtain ⟨rs, h1, h2⟩ := hr vs hvs
    refine ⟨rs, ?_, h2⟩
    unfold readKids
    rw [if_neg (by rw [present_of he hfil']; decide), hl]
    exact h1

mutual
theorem elem_read (hf : Finds f bytes items) (ht : TagOk tg ids shown roles) (t : StructPart) (depth : Nat) (hd : t.depth ≤ depth)
    (parent : Option Ref) (hw : t.Written items parent) (p : Option Ref) (hloc : t.Located ids p) (v : Val) (hv : t.value v) :
    ∃ r, readKid tg (readElem f bytes tg depth (parent.map fun r => r.get.toNat)) (p.map fun r => r.get.toNat) v = some r ∧
      t.Means ids shown roles p r := by
  cases t with
  | elem id calls type texts page kids =>
    simp only [StructPart.depth] at hd
    obtain ⟨n, rfl⟩ : ∃ n, depth = n + 1 := ⟨depth - 1, by omega⟩
    simp only [StructPart.Written] at hw
    obtain ⟨h1, h2, h3, h4, h5, h6, h7⟩ := hw
    simp only [StructPart.Located] at hloc
    simp only [StructPart.value, IsRef] at hv
    subst hv
    obtain ⟨w, ho, hw⟩ := finds_val hf h1
    obtain ⟨d, rfl, he⟩ := structElement_denotes calls w hw
    obtain ⟨name, role, q1, q2, q3, q4⟩ := type_read ht h2 he
    have q5 := texts_read h3 he
    have q6 := optional_ref he rfl h5 (fun _ => rfl)
    obtain ⟨rs, q7, q8⟩ := kids_of h6 he (R := partsMean ids shown roles kids page)
      (kid := readKid tg (readElem f bytes tg n (some id.get.toNat)) (page.map fun r => r.get.toNat))
      (fun vs hvs => parts_read hf ht kids n (by omega) id h7 page hloc vs hvs)
    have q9 : parent.map (fun r => r.get.toNat) = none ∨ optionalEntry b!"P" d refNumber = some (parent.map fun r => r.get.toNat) := by
      cases parent with
      | none => exact Or.inl rfl
      | some r =>
        right
        have : MaybeCall StructElementMeans b!"P" calls (some r) .parent := h4 r rfl
        exact optional_ref he rfl this (fun _ => rfl)
    refine ⟨.elem name role texts rs, ?_, by simp only [StructPart.Means]; exact ⟨name, role, rs, rfl, q3, q4, q8⟩⟩
    simp only [readKid, readElem, ho, q1]
    rw [if_pos q9, q2, q5, q6]
    simp only [Option.bind_some, q7, Option.map_some]
  | mcid m => exact leaf_read ht _ _ (by simp) hw p hloc v hv
  | marked c pg s m => exact leaf_read ht _ _ (by simp) hw p hloc v hv
  | object c pg o => exact leaf_read ht _ _ (by simp) hw p hloc v hv
termination_by structural t
theorem parts_read (hf : Finds f bytes items) (ht : TagOk tg ids shown roles) (ts : List StructPart) (depth : Nat) (hd : partsDepth ts ≤ depth)
    (parent : Ref) (hw : partsWritten items parent ts) (p : Option Ref) (hloc : partsLocated ids ts p) (vs : List Val)
    (hvs : ItemsAre (ts.map StructPart.value) vs) :
    ∃ rs, readEach (readKid tg (readElem f bytes tg depth (some parent.get.toNat)) (p.map fun r => r.get.toNat)) vs = some rs ∧
      partsMean ids shown roles ts p rs := by
  cases ts with
  | nil =>
    simp only [List.map_nil, ItemsAre] at hvs
    subst hvs
    exact ⟨[], rfl, rfl⟩
  | cons t ts =>
    simp only [partsDepth] at hd
    simp only [partsWritten] at hw
    simp only [partsLocated] at hloc
    obtain ⟨v, vs', rfl, hv, hr⟩ := hvs
    obtain ⟨r, h1, h2⟩ := elem_read hf ht t depth (by omega) (some parent) hw.1 p hloc.1 v hv
    obtain ⟨rs, h3, h4⟩ := parts_read hf ht ts depth (by omega) parent hw.2 p hloc.2 vs' hr
    refine ⟨r :: rs, ?_, by simp only [partsMean]; exact ⟨r, rs, rfl, h2, h4⟩⟩
    simp only [Option.map_some] at h1
    simp only [readEach, h1, h3, Option.bind_some, Option.map_some]
termination_by structural ts
end

/-! ## The root -/

theorem top_read (hf : Finds f bytes items) (ht : TagOk tg ids shown roles) (top : List StructPart) (tids : List Ref) (hids : elemIds top = some tids)
    (depth : Nat) (hd : partsDepth top ≤ depth) (parent : Option Ref) (hw : ∀ t ∈ top, t.Written items parent) (hloc : partsLocated ids top none)
    (vs : List Val) (hvs : ItemsAre (tids.map fun r => IsRef r) vs) :
    ∃ rs, readEach (fun v => (refNumber v).bind (readElem f bytes tg depth (parent.map fun r => r.get.toNat))) vs = some rs ∧
      partsMean ids shown roles top none rs := by
  induction top generalizing tids vs with
  | nil =>
    simp only [elemIds, Option.some.injEq] at hids
    subst hids
    simp only [List.map_nil, ItemsAre] at hvs
    subst hvs
    exact ⟨[], rfl, rfl⟩
  | cons t ts ih =>
    cases t with
    | elem id calls type texts page kids =>
      simp only [elemIds, Option.map_eq_some_iff] at hids
      obtain ⟨tids', h0, rfl⟩ := hids
      obtain ⟨v, vs', rfl, hv, hr⟩ := hvs
      simp only [partsDepth] at hd
      simp only [partsLocated] at hloc
      obtain ⟨r, h1, h2⟩ := elem_read hf ht (.elem id calls type texts page kids) depth (by omega) parent (hw _ (by simp)) none hloc.1 v hv
      obtain ⟨rs, h3, h4⟩ := ih tids' h0 (by omega) (fun t ht => hw t (by simp [ht])) hloc.2 vs' hr
      refine ⟨r :: rs, ?_, by simp only [partsMean]; exact ⟨r, rs, rfl, h2, h4⟩⟩
      simp only [IsRef] at hv
      subst hv
      simp only [readKid] at h1
      simp only [readEach]
      rw [h3]
      simp only [refNumber, Option.bind_some, h1, Option.map_some]
    | mcid m => simp [elemIds] at hids
    | marked c pg s m => simp [elemIds] at hids
    | object c pg o => simp [elemIds] at hids

theorem root_read (hf : Finds f bytes items) {cat : List CatalogCall} {root : List StructTreeRootCall} {rootId : Option Ref}
    (h : RootSet items cat root rootId) {d : List (Bytes × Val)} (he : EntriesAre (CatalogEntries .code cat) d) :
    ∃ r, readStructRoot f bytes d = some (rootId.map fun r => r.get.toNat, r) ∧ EntriesAre (StructTreeRootEntries .code root) r := by
  cases rootId with
  | none =>
    obtain ⟨v, hl, r, rfl, hr⟩ := lookup_of he (k := b!"StructTreeRoot") (P := IsStructTreeRoot .code root) (by
      simp only [CatalogEntries, List.filter_append, onlyCall_filter h]; rfl)
    exact ⟨r, by simp only [readStructRoot, hl, followDict, followRef]; rfl, hr⟩
  | some id =>
    obtain ⟨h1, h2⟩ := h
    obtain ⟨v, hl, hv⟩ := lookup_of he (k := b!"StructTreeRoot") (P := Denotes (.prim (.ref id))) (by
      simp only [CatalogEntries, List.filter_append, onlyCall_filter h1]; rfl)
    simp only [Denotes, PrimDenotes] at hv
    subst hv
    obtain ⟨w, ho, hw⟩ := finds_val hf h2
    obtain ⟨r, rfl, hr⟩ := structTreeRoot_denotes .code root (Or.inl rfl) w hw
    exact ⟨r, by simp only [readStructRoot, hl, followDict, followRef, ho, refNumber, Option.map_some], hr⟩

theorem rootKids_of {α : Type} {root : List StructTreeRootCall} {ids : List Ref}
    (hk : (ids = [] ∧ NoCall (StructTreeRootMeans .code) b!"K" root) ∨ (∃ id, ids = [id] ∧ OnlyCall (StructTreeRootMeans .code) b!"K" root (.child id)) ∨
      OnlyCall (StructTreeRootMeans .code) b!"K" root (.children ids)) {r : List (Bytes × Val)}
    (her : EntriesAre (StructTreeRootEntries .code root) r) {kid : Val → Option α} {R : List α → Prop}
    (hr : ∀ vs, ItemsAre (ids.map fun x => IsRef x) vs → ∃ rs, readEach kid vs = some rs ∧ R rs) : ∃ rs, readKids kid r = some rs ∧ R rs := by
  have hfil : (StructTreeRootEntries .code root).filter (fun e => e.1 == b!"K") = (root.flatMap (StructTreeRootMeans .code)).filter (fun e => e.1 == b!"K") := by
    simp only [StructTreeRootEntries, List.filter_append]; rfl
  rcases hk with ⟨rfl, hn⟩ | ⟨id, rfl, ho⟩ | ho
  · rw [noCall_filter hn] at hfil
    obtain ⟨rs, h1, h2⟩ := hr [] rfl
    refine ⟨rs, ?_, h2⟩
    unfold readKids
    rw [if_pos (absent_of her hfil), ← h1]; rfl
  · have hfil' : (StructTreeRootEntries .code root).filter (fun e => e.1 == b!"K") = [(b!"K", IsRef id)] := by rw [hfil, onlyCall_filter ho]; rfl
    obtain ⟨v, hl, hv⟩ := lookup_of her hfil'
    obtain ⟨rs, h1, h2⟩ := hr [v] ⟨v, [], rfl, hv, rfl⟩
    refine ⟨rs, ?_, h2⟩
    simp only [IsRef] at hv
    subst hv
    unfold readKids
    rw [if_neg (by rw [present_of her hfil']; decide), hl, ← h1]
    simp only [readEach]
    generalize kid _ = x
    cases x <;> rfl
  · have hfil' : (StructTreeRootEntries .code root).filter (fun e => e.1 == b!"K") = [(b!"K", ArrayIs (ids.map fun x => IsRef x))] := by
      rw [hfil, onlyCall_filter ho]; rfl
    obtain ⟨v, hl, vs, rfl, hvs⟩ := lookup_of her hfil'
    obtain ⟨rs, h1, h2⟩ := hr vs hvs
    refine ⟨rs, ?_, h2⟩
    unfold readKids
    rw [if_neg (by rw [present_of her hfil']; decide), hl]
    exact h1

theorem roleMap_read {root : List StructTreeRootCall} (hs : (roles = [] ∧ NoCall (StructTreeRootMeans .code) b!"RoleMap" root) ∨
      OnlyCall (StructTreeRootMeans .code) b!"RoleMap" root (.roleMap (roles.map fun e => .insert e.1 e.2))) {r : List (Bytes × Val)}
    (her : EntriesAre (StructTreeRootEntries .code root) r) :
    ∃ roles', optionalEntry b!"RoleMap" r (followDict f bytes) = some roles' ∧
      EntriesAre (roles.flatMap fun e => RoleMapMeans (.insert e.1 e.2)) (roles'.getD []) := by
  rcases hs with ⟨e, hn⟩ | ho
  · refine ⟨none, optional_absent her (by simp only [StructTreeRootEntries, List.filter_append, noCall_filter hn]; rfl), ?_⟩
    rw [e]; rfl
  · obtain ⟨a, h1, h2⟩ := optional_present (Q := fun a => EntriesAre (roles.flatMap fun e => RoleMapMeans (.insert e.1 e.2)) a)
      (read := followDict f bytes) her (k := b!"RoleMap") (P := IsRoleMap (roles.map fun e => .insert e.1 e.2))
      (by simp only [StructTreeRootEntries, List.filter_append, onlyCall_filter ho]; rfl)
      (fun v hv => by
        obtain ⟨m, rfl, hm⟩ := hv
        refine ⟨m, rfl, ?_⟩
        simpa only [RoleMapEntries, List.flatMap_map] using hm)
    exact ⟨some a, h1, h2⟩

theorem structure_read (hf : Finds f bytes items) {cat : List CatalogCall} {root : List StructTreeRootCall} {rootId : Option Ref}
    {top : List StructPart} (h : StructureWritten items cat rootId root roles top) {d : List (Bytes × Val)}
    (he : EntriesAre (CatalogEntries .code cat) d) (hlen : shown.length = ids.length) (hloc : partsLocated ids top none) (depth : Nat)
    (hd : partsDepth top ≤ depth) :
    ∃ rs, readStructure f bytes ((ids.map fun x => x.get.toNat).zip shown) depth d = some rs ∧ partsMean ids shown roles top none rs := by
  obtain ⟨r, hr, her⟩ := root_read hf h.rootSet he
  obtain ⟨roles', q1, q2⟩ := roleMap_read (f := f) (bytes := bytes) h.rolesSet her
  have ht : TagOk ⟨(ids.map fun x => x.get.toNat).zip shown, roles'.getD []⟩ ids shown roles := ⟨hlen, rfl, q2, h.distinct⟩
  obtain ⟨tids, k1, k2⟩ := h.kids
  obtain ⟨rs, h1, h2⟩ := rootKids_of k2 her (R := partsMean ids shown roles top none) (top_read hf ht top tids k1 depth hd rootId h.written hloc)
  exact ⟨rs, by simp only [readStructure, hr, Option.bind_some, q1, h1], h2⟩

/-! ## The parent tree -/

theorem find_pair (k : Int) (pr : Prim) (pairs : List (Int × Prim)) (rs : List (Int × Val)) (h : PairsMean pairs rs)
    (hd : (pairs.map (·.1)).Nodup) (hm : (k, pr) ∈ pairs) : ∃ v, rs.find? (fun e => e.1 == k) = some (k, v) ∧ PrimDenotes pr v := by
  induction h with
  | nil => simp at hm
  | cons ha hr ih =>
    rename_i a b as bs
    obtain ⟨h1, h2⟩ := ha
    obtain ⟨a1, a2⟩ := a
    obtain ⟨b1, b2⟩ := b
    simp only at h1 h2
    subst h1
    simp only [List.map_cons, List.nodup_cons] at hd
    rcases List.mem_cons.mp hm with e | hm
    · simp only [Prod.mk.injEq] at e
      obtain ⟨rfl, rfl⟩ := e
      exact ⟨b2, by simp, h2⟩
    · have hne : b1 ≠ k := by
        intro e
        exact hd.1 (List.mem_map.mpr ⟨(k, pr), hm, e.symm⟩)
      obtain ⟨v, h3, h4⟩ := ih hd.2 hm
      exact ⟨v, by rw [List.find?_cons_of_neg (by simpa using hne), h3], h4⟩

theorem refs_denote (rs : List Ref) (vs : List Val) (h : DenotesItems (rs.map fun r => Prog.prim (.ref r)) vs) :
    ItemsAre (rs.map fun r => IsRef r) vs := by
  induction rs generalizing vs with
  | nil => simpa [DenotesItems, ItemsAre] using h
  | cons r rs ih =>
    simp only [List.map_cons, DenotesItems, Denotes, PrimDenotes] at h
    obtain ⟨w, ws, rfl, h1, h2⟩ := h
    exact ⟨w, ws, rfl, h1, ih ws h2⟩

theorem parents_read (hf : Finds f bytes items) {pairs : List (Int × Prim)} {rs : List (Int × Val)} (hp : PairsMean pairs rs)
    (hd : (pairs.map (·.1)).Nodup) {id : Ref} {page : List PageCall} (ho : HasObject items id (.val (Page.prog page)))
    (parents : Option (List Ref)) (h : ParentsSet items pairs page parents) :
    readParents f bytes rs id.get.toNat = some (parents.map fun l => l.map fun r => r.get.toNat) := by
  obtain ⟨v, h1, hv⟩ := finds_val hf ho
  obtain ⟨d, rfl, he⟩ := page_denotes .code page (Or.inl rfl) v hv
  cases parents with
  | none =>
    have e := optional_absent (read := intOf) he (k := b!"StructParents") (by
      simp only [PageEntries, List.filter_append, noCall_filter h]; rfl)
    simp only [readParents, h1, e, Option.map_none]
  | some l =>
    obtain ⟨k, a, h2, h3, h4⟩ := h
    obtain ⟨x, e, rfl⟩ := optional_present (Q := fun x => x = k) (read := intOf) he (k := b!"StructParents") (P := IsInt k)
      (by simp only [PageEntries, List.filter_append, onlyCall_filter h2]; rfl)
      (fun v hv => ⟨k, by simp only [IsInt] at hv; subst hv; rfl, rfl⟩)
    obtain ⟨w, h5, hw⟩ := find_pair x _ pairs rs hp hd h3
    simp only [PrimDenotes] at hw
    subst hw
    obtain ⟨u, h6, hu⟩ := finds_val hf h4
    simp only [Denotes] at hu
    obtain ⟨vs, rfl, hu⟩ := hu
    have := refNumbers_of l vs (refs_denote l vs hu)
    simp only [readParents, h1, e, h5, Option.bind_some, followRef, h6, this, Option.map_some]

theorem allParents_read (hf : Finds f bytes items) {pairs : List (Int × Prim)} {rs : List (Int × Val)} (hp : PairsMean pairs rs)
    (hd : (pairs.map (·.1)).Nodup) (ls : List (Ref × List PageCall)) (parents : List (Option (List Ref)))
    (hob : ∀ e ∈ ls, HasObject items e.1 (.val (Page.prog e.2))) (h : Pairwise (fun e x => ParentsSet items pairs e.2 x) ls parents) :
    readEach (readParents f bytes rs) (ls.map fun e => e.1.get.toNat) = some (parents.map fun x => x.map fun l => l.map fun r => r.get.toNat) := by
  induction h with
  | nil => rfl
  | cons ha hr ih =>
    simp only [List.map_cons, readEach, parents_read hf hp hd (hob _ (List.mem_cons_self ..)) _ ha, ih (fun e he => hob e (by simp [he])),
      Option.bind_some, Option.map_some]

end PdfW
