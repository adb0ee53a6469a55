import Verif.Spec.Embedded
import Verif.Proof.Merge

set_option linter.unusedSimpArgs false
set_option linter.unusedVariables false

/-! # Readers do not depend on object numbers: lemmas for C88 -/

namespace PdfW
open Spec

/-! ## What objects mention -/

theorem mentions_prim (p : Prim) : mentions (primVal p) = (match p with | .ref r => [r.get.toNat] | _ => []) := by
  have hr : ∀ t, mentions (F32.tokVal t) = [] := by intro t; cases t <;> simp [F32.tokVal, mentions]
  cases p <;> simp [primVal, mentions, mentionsAll, hr, Ref.get]

mutual
theorem mentions_prog (p : Prog) (n : Nat) (h : n ∈ mentions (progVal p)) : ∃ r ∈ progRefs p, r.get.toNat = n := by
  match p with
  | .prim p =>
    simp only [progVal, mentions_prim] at h
    cases p with
    | ref r => exact ⟨r, by simp [progRefs], by simp at h; exact h.symm⟩
    | _ => simp at h
  | .array items =>
    simp only [progVal, mentions] at h
    simp only [progRefs]
    exact mentions_items items n h
  | .dict es =>
    simp only [progVal, mentions] at h
    simp only [progRefs]
    exact mentions_entries es n h
  | .unused => simp [progVal, mentions] at h
termination_by structural p
theorem mentions_items (xs : List Prog) (n : Nat) (h : n ∈ mentionsAll (itemsVal xs)) : ∃ r ∈ itemsRefs xs, r.get.toNat = n := by
  match xs with
  | [] => simp [itemsVal, mentionsAll] at h
  | x :: xs =>
    simp only [itemsVal, mentionsAll, List.mem_append] at h
    simp only [itemsRefs, List.mem_append]
    rcases h with h | h
    · obtain ⟨r, h1, h2⟩ := mentions_prog x n h
      exact ⟨r, Or.inl h1, h2⟩
    · obtain ⟨r, h1, h2⟩ := mentions_items xs n h
      exact ⟨r, Or.inr h1, h2⟩
termination_by structural xs
theorem mentions_entries (xs : List (Bytes × Prog)) (n : Nat) (h : n ∈ mentionsEntries (entriesVal xs)) : ∃ r ∈ entriesRefs xs, r.get.toNat = n := by
  match xs with
  | [] => simp [entriesVal, mentionsEntries] at h
  | (k, x) :: xs =>
    simp only [entriesVal, mentionsEntries, List.mem_append] at h
    simp only [entriesRefs, List.mem_append]
    rcases h with h | h
    · obtain ⟨r, h1, h2⟩ := mentions_prog x n h
      exact ⟨r, Or.inl h1, h2⟩
    · obtain ⟨r, h1, h2⟩ := mentions_entries xs n h
      exact ⟨r, Or.inr h1, h2⟩
termination_by structural xs
end

/-- The numbers to which an object refers. -/
def mentionsObject : IVal → List Nat
  | .val v => mentions v
  | .stream d _ => mentionsEntries d

theorem mentions_body (b : Body) (n : Nat) (h : n ∈ mentionsObject (bodyVal b)) : ∃ r ∈ bodyRefs b, r.get.toNat = n := by
  cases b with
  | val p => exact mentions_prog p n h
  | stream es data =>
    simp only [bodyVal, mentionsObject, mentionsEntries, mentions, List.nil_append] at h
    exact mentions_entries es n h

/-! ## Renaming and the parts of values -/

section
variable (g : Nat → Nat)

theorem renameEntries_map (d : List (Bytes × Val)) : renameEntries g d = d.map fun e => (e.1, renameVal g e.2) := by
  induction d with
  | nil => simp [renameEntries]
  | cons e es ih => obtain ⟨k, v⟩ := e; simp [renameEntries, ih]

theorem renameVals_map (vs : List Val) : renameVals g vs = vs.map (renameVal g) := by
  induction vs with
  | nil => simp [renameVals]
  | cons e es ih => simp [renameVals, ih]

theorem renamed_lookup (k : Bytes) (d : List (Bytes × Val)) : lookup k (renameEntries g d) = (lookup k d).map (renameVal g) := by
  rw [renameEntries_map]
  unfold lookup
  rw [List.filter_map]
  simp only [Function.comp_def]
  cases h : d.filter (fun e => e.1 == k) with
  | nil => rfl
  | cons e es => cases es <;> simp

theorem renamed_all (d : List (Bytes × Val)) (q : Bytes → Bool) : (renameEntries g d).all (fun e => q e.1) = d.all fun e => q e.1 := by
  rw [renameEntries_map, List.all_map]
  rfl

theorem renamed_refNumber (v : Val) : refNumber (renameVal g v) = (refNumber v).map g := by
  cases v with
  | ref n gen => cases gen <;> simp [renameVal, refNumber]
  | _ => simp [renameVal, refNumber]

theorem renamed_refNumbers (vs : List Val) : refNumbers (renameVals g vs) = (refNumbers vs).map (List.map g) := by
  induction vs with
  | nil => simp [renameVals, refNumbers]
  | cons v vs ih =>
    simp only [renameVals, refNumbers, renamed_refNumber, ih]
    cases refNumber v <;> cases refNumbers vs <;> simp

theorem mem_mentionsEntries {d : List (Bytes × Val)} {e : Bytes × Val} (he : e ∈ d) {n : Nat} (hn : n ∈ mentions e.2) : n ∈ mentionsEntries d := by
  induction d with
  | nil => simp at he
  | cons x xs ih =>
    obtain ⟨k, v⟩ := x
    simp only [mentionsEntries, List.mem_append]
    rcases List.mem_cons.mp he with rfl | he
    · exact Or.inl hn
    · exact Or.inr (ih he)

theorem lookup_mem {k : Bytes} {d : List (Bytes × Val)} {v : Val} (h : lookup k d = some v) : (k, v) ∈ d := by
  unfold lookup at h
  split at h
  · rename_i e he
    simp only [Option.some.injEq] at h
    have hm : e ∈ d.filter (fun e => e.1 == k) := by rw [he]; simp
    obtain ⟨h1, h2⟩ := List.mem_filter.mp hm
    have : e = (k, v) := by
      rw [← h]
      have : e.1 = k := by simpa using h2
      rw [← this]
    rw [← this]
    exact h1
  · cases h

theorem lookup_mentions {k : Bytes} {d : List (Bytes × Val)} {v : Val} (h : lookup k d = some v) {n : Nat} (hn : n ∈ mentions v) : n ∈ mentionsEntries d :=
  mem_mentionsEntries (lookup_mem h) hn

theorem refNumbers_mentions {vs : List Val} {ns : List Nat} (h : refNumbers vs = some ns) : ∀ n ∈ ns, n ∈ mentionsAll vs := by
  induction vs generalizing ns with
  | nil => simp only [refNumbers, Option.some.injEq] at h; subst h; simp
  | cons v vs ih =>
    simp only [refNumbers, Option.bind_eq_some_iff, Option.map_eq_some_iff] at h
    obtain ⟨a, h1, b, h2, rfl⟩ := h
    intro n hn
    simp only [mentionsAll, List.mem_append]
    rcases List.mem_cons.mp hn with rfl | hn
    · refine Or.inl ?_
      cases v with
      | ref m gen =>
        cases gen with
        | zero => simp only [refNumber, Option.some.injEq] at h1; simp [mentions, h1]
        | succ _ => simp [refNumber] at h1
      | _ => simp [refNumber] at h1
    · exact Or.inr (ih h2 n hn)

theorem refNumber_mentions {v : Val} {n : Nat} (h : refNumber v = some n) : n ∈ mentions v := by
  cases v with
  | ref m gen =>
    cases gen with
    | zero => simp only [refNumber, Option.some.injEq] at h; simp [mentions, h]
    | succ _ => simp [refNumber] at h
  | _ => simp [refNumber] at h

end

/-! ## Two files with the same objects under different numbers -/

/-- The objects with numbers in `s` are the same in both files, up to renaming by `g`, and do not refer to objects outside of `s`. -/
structure SameObjects (g : Nat → Nat) (s : List Nat) (f : FileEnd) (bytes : Bytes) (f' : FileEnd) (bytes' : Bytes) : Prop where
  same : ∀ n ∈ s, f.object bytes (g n) = (f'.object bytes' n).map (renameIVal g)
  closed : ∀ n ∈ s, ∀ o, f'.object bytes' n = some o → ∀ i ∈ mentionsObject o, i ∈ s

section
variable {unf : Val → Bytes → Option Bytes} {g : Nat → Nat} {s : List Nat} {f f' : FileEnd} {bytes bytes' : Bytes}

theorem same_decodedStream (hs : SameObjects g s f bytes f' bytes') (hn : NumbersIgnored unf) {n : Nat} (h : n ∈ s) :
    decodedStream unf f bytes (g n) = decodedStream unf f' bytes' n := by
  simp only [decodedStream, hs.same n h]
  cases f'.object bytes' n with
  | none => rfl
  | some o =>
    cases o with
    | val v => rfl
    | stream d data =>
      simp only [Option.map_some, renameIVal, unfiltered, renamed_lookup, renamed_all g d (fun k => k != b!"Filter")]
      cases lookup b!"Filter" d with
      | none => rfl
      | some v => simp only [Option.map_some]; rw [hn g v data]

theorem same_decodedStreams (hs : SameObjects g s f bytes f' bytes') (hn : NumbersIgnored unf) (ns : List Nat) (h : ∀ n ∈ ns, n ∈ s) :
    decodedStreams unf f bytes (ns.map g) = decodedStreams unf f' bytes' ns := by
  induction ns with
  | nil => rfl
  | cons n ns ih =>
    cases ns with
    | nil => simp only [List.map_cons, List.map_nil, decodedStreams]; exact same_decodedStream hs hn (h n (by simp))
    | cons m ns =>
      simp only [List.map_cons, decodedStreams] at ih ⊢
      rw [same_decodedStream hs hn (h n (by simp)), ih (fun x hx => h x (List.mem_cons_of_mem _ hx))]

theorem same_pageOperations (hs : SameObjects g s f bytes f' bytes') (hn : NumbersIgnored unf) (d : List (Bytes × Val))
    (h : ∀ n ∈ mentionsEntries d, n ∈ s) : pageOperations unf f bytes (renameEntries g d) = pageOperations unf f' bytes' d := by
  simp only [pageOperations, renamed_all g d (fun k => k != b!"Contents"), renamed_lookup]
  split
  · rfl
  · cases hl : lookup b!"Contents" d with
    | none => rfl
    | some v =>
      have hm : ∀ n ∈ mentions v, n ∈ s := fun n hv => h n (lookup_mentions hl hv)
      simp only [Option.map_some]
      cases v with
      | arr vs =>
        simp only [renameVal, renamed_refNumbers]
        cases hr : refNumbers vs with
        | none => rfl
        | some ns =>
          simp only [Option.map_some, Option.bind_some]
          rw [same_decodedStreams hs hn ns (fun n hx => hm n (by simp only [mentions]; exact refNumbers_mentions hr n hx))]
      | ref n gen =>
        cases gen with
        | zero =>
          simp only [renameVal, refNumber, Option.bind_some]
          rw [same_decodedStream hs hn (hm n (by simp [mentions]))]
        | succ _ => rfl
      | _ => rfl

theorem same_collect {α β : Type} (a : Nat → Option (List α)) (b : Nat → Option (List β)) (t : α → β) (ns : List Nat)
    (h : ∀ n ∈ ns, b (g n) = (a n).map (List.map t)) : collect b (ns.map g) = (collect a ns).map (List.map t) := by
  induction ns with
  | nil => rfl
  | cons n ns ih =>
    simp only [List.map_cons, collect, h n (by simp), ih (fun x hx => h x (by simp [hx]))]
    cases a n <;> cases collect a ns <;> simp

theorem same_pageTree (hs : SameObjects g s f bytes f' bytes') (hn : NumbersIgnored unf) (depth n : Nat) (h : n ∈ s) :
    readPageTree unf f bytes depth (g n) = (readPageTree unf f' bytes' depth n).map (List.map (renamePage g)) := by
  induction depth generalizing n with
  | zero => rfl
  | succ depth ih =>
    simp only [readPageTree, hs.same n h]
    cases ho : f'.object bytes' n with
    | none => rfl
    | some o =>
      have hc := hs.closed n h o ho
      cases o with
      | stream d data => rfl
      | val v =>
        cases v with
        | dict d =>
          simp only [mentionsObject, mentions] at hc
          simp only [Option.map_some, renameIVal, renameVal, renamed_lookup, same_pageOperations hs hn d hc]
          cases lookup b!"Type" d with
          | none => rfl
          | some t =>
            cases t with
            | name t =>
              simp only [Option.map_some, renameVal]
              split
              · cases pageOperations unf f' bytes' d <;> simp [renamePage, renameVal]
              · split
                · cases hl : lookup b!"Kids" d with
                  | none => rfl
                  | some v =>
                    cases v with
                    | arr vs =>
                      simp only [Option.map_some, renameVal, renamed_refNumbers]
                      cases hr : refNumbers vs with
                      | none => rfl
                      | some ns =>
                        simp only [Option.map_some, Option.bind_some]
                        exact same_collect _ _ _ ns (fun m hm => ih m (hc m (lookup_mentions hl (by simp only [mentions]; exact refNumbers_mentions hr m hm))))
                    | _ => rfl
                · rfl
            | _ => rfl
        | _ => rfl

/-! ## Resources -/

theorem same_followDict (hs : SameObjects g s f bytes f' bytes') (v : Val) (h : ∀ n ∈ mentions v, n ∈ s) :
    followDict f bytes (renameVal g v) = (followDict f' bytes' v).map (renameEntries g) := by
  cases v with
  | ref n gen =>
    cases gen with
    | zero =>
      simp only [followDict, followRef, renameVal, hs.same n (h n (by simp [mentions]))]
      cases f'.object bytes' n with
      | none => rfl
      | some o =>
        cases o with
        | val v => cases v <;> rfl
        | stream d data => rfl
    | succ _ => rfl
  | _ => rfl

theorem followDict_closed (hs : SameObjects g s f bytes f' bytes') {v : Val} (h : ∀ n ∈ mentions v, n ∈ s) {d : List (Bytes × Val)}
    (hd : followDict f' bytes' v = some d) : ∀ n ∈ mentionsEntries d, n ∈ s := by
  cases v with
  | ref n gen =>
    cases gen with
    | zero =>
      have hn := h n (by simp [mentions])
      simp only [followDict, followRef] at hd
      cases ho : f'.object bytes' n with
      | none => rw [ho] at hd; simp at hd
      | some o =>
        rw [ho] at hd
        cases o with
        | stream d data => simp at hd
        | val v =>
          cases v with
          | dict d' =>
            simp only [Option.some.injEq] at hd
            subst hd
            have := hs.closed n hn _ ho
            simpa only [mentionsObject, mentions] using this
          | _ => simp at hd
    | succ _ => simp [followDict, followRef] at hd
  | dict d' =>
    simp only [followDict, followRef, Option.some.injEq] at hd
    subst hd
    simpa only [mentions] using h
  | _ => simp [followDict, followRef] at hd

/-- The resources mention only objects in `s`. -/
def ResourcesIn (s : List Nat) (res : Option Val) : Prop := ∀ r, res = some r → ∀ n ∈ mentions r, n ∈ s

theorem same_category (hs : SameObjects g s f bytes f' bytes') {res : Option Val} (hr : ResourcesIn s res) (category name : Bytes) :
    ((res.map (renameVal g)).bind fun r => (followDict f bytes r).bind fun d => (lookup category d).bind fun c => (followDict f bytes c).bind fun es => lookup name es) =
      (res.bind fun r => (followDict f' bytes' r).bind fun d => (lookup category d).bind fun c => (followDict f' bytes' c).bind fun es => lookup name es).map (renameVal g) ∧
    ∀ v, (res.bind fun r => (followDict f' bytes' r).bind fun d => (lookup category d).bind fun c => (followDict f' bytes' c).bind fun es => lookup name es) = some v →
      ∀ n ∈ mentions v, n ∈ s := by
  cases res with
  | none => simp
  | some r =>
    have h1 := hr r rfl
    simp only [Option.map_some, Option.bind_some, same_followDict hs r h1]
    cases hd : followDict f' bytes' r with
    | none => simp
    | some d =>
      have h2 := followDict_closed hs h1 hd
      simp only [Option.map_some, Option.bind_some, renamed_lookup]
      cases hl : lookup category d with
      | none => simp
      | some c =>
        have h3 : ∀ n ∈ mentions c, n ∈ s := fun n hn => h2 n (lookup_mentions hl hn)
        simp only [Option.map_some, Option.bind_some, same_followDict hs c h3]
        cases he : followDict f' bytes' c with
        | none => simp
        | some es =>
          have h4 := followDict_closed hs h3 he
          simp only [Option.map_some, Option.bind_some, renamed_lookup]
          exact ⟨trivial, fun v hv n hn => h4 n (lookup_mentions hv hn)⟩

theorem namedResource_eq (f : FileEnd) (bytes : Bytes) (res : Option Val) (category name : Bytes) : namedResource f bytes res category name =
    (res.bind fun r => (followDict f bytes r).bind fun d => (lookup category d).bind fun c => (followDict f bytes c).bind fun es => lookup name es).bind
      (followDict f bytes) := by
  simp only [namedResource, Option.bind_assoc]

theorem resourceNumber_eq (f : FileEnd) (bytes : Bytes) (res : Option Val) (category name : Bytes) : resourceNumber f bytes res category name =
    (res.bind fun r => (followDict f bytes r).bind fun d => (lookup category d).bind fun c => (followDict f bytes c).bind fun es => lookup name es).bind refNumber := by
  simp only [resourceNumber, Option.bind_assoc]

theorem same_namedResource (hs : SameObjects g s f bytes f' bytes') {res : Option Val} (hr : ResourcesIn s res) (category name : Bytes) :
    namedResource f bytes (res.map (renameVal g)) category name = (namedResource f' bytes' res category name).map (renameEntries g) ∧
    ∀ d, namedResource f' bytes' res category name = some d → ∀ n ∈ mentionsEntries d, n ∈ s := by
  obtain ⟨h1, h2⟩ := same_category hs hr category name
  rw [namedResource_eq, namedResource_eq, h1]
  cases hv : (res.bind fun r => (followDict f' bytes' r).bind fun d => (lookup category d).bind fun c => (followDict f' bytes' c).bind fun es => lookup name es) with
  | none => simp
  | some v =>
    simp only [Option.map_some, Option.bind_some]
    exact ⟨same_followDict hs v (h2 v hv), fun d hd => followDict_closed hs (h2 v hv) hd⟩

theorem same_resourceNumber (hs : SameObjects g s f bytes f' bytes') {res : Option Val} (hr : ResourcesIn s res) (category name : Bytes) :
    resourceNumber f bytes (res.map (renameVal g)) category name = (resourceNumber f' bytes' res category name).map g ∧
    ∀ n, resourceNumber f' bytes' res category name = some n → n ∈ s := by
  obtain ⟨h1, h2⟩ := same_category hs hr category name
  rw [resourceNumber_eq, resourceNumber_eq, h1]
  cases hv : (res.bind fun r => (followDict f' bytes' r).bind fun d => (lookup category d).bind fun c => (followDict f' bytes' c).bind fun es => lookup name es) with
  | none => simp
  | some v =>
    simp only [Option.map_some, Option.bind_some]
    exact ⟨renamed_refNumber g v, fun n hn => h2 v hv n (refNumber_mentions hn)⟩

theorem same_readFontText (hs : SameObjects g s f bytes f' bytes') (hn : NumbersIgnored unf) (d : List (Bytes × Val)) (h : ∀ n ∈ mentionsEntries d, n ∈ s) :
    readFontText unf f bytes (renameEntries g d) = readFontText unf f' bytes' d := by
  simp only [readFontText, renamed_lookup]
  cases lookup b!"Subtype" d with
  | none => rfl
  | some t =>
    cases t with
    | name t =>
      cases hu : lookup b!"ToUnicode" d with
      | none => rfl
      | some v =>
        have hm : ∀ n ∈ mentions v, n ∈ s := fun n hv => h n (lookup_mentions hu hv)
        cases v with
        | ref n gen =>
          cases gen with
          | zero =>
            have hw : codeWidth t ((lookup b!"Encoding" d).map (renameVal g)) = codeWidth t (lookup b!"Encoding" d) := by
              cases lookup b!"Encoding" d with
              | none => rfl
              | some v => cases v <;> rfl
            simp only [Option.map_some, renameVal, hw, same_decodedStream hs hn (hm n (by simp [mentions]))]
          | succ _ => rfl
        | _ => rfl
    | _ => rfl

theorem same_effective (res : Option Val) (d : List (Bytes × Val)) :
    effectiveResources (res.map (renameVal g)) (renameEntries g d) = (effectiveResources res d).map (Option.map (renameVal g)) := by
  simp only [effectiveResources, renamed_all g d (fun k => k != b!"Resources"), renamed_lookup]
  split
  · rfl
  · cases lookup b!"Resources" d <;> rfl

theorem effective_in {res : Option Val} (hr : ResourcesIn s res) {d : List (Bytes × Val)} (h : ∀ n ∈ mentionsEntries d, n ∈ s) {r : Option Val}
    (he : effectiveResources res d = some r) : ResourcesIn s r := by
  simp only [effectiveResources] at he
  split at he
  · simp only [Option.some.injEq] at he; subst he; exact hr
  · simp only [Option.map_eq_some_iff] at he
    obtain ⟨v, hv, rfl⟩ := he
    intro x hx n hn
    simp only [Option.some.injEq] at hx
    subst hx
    exact h n (lookup_mentions hv hn)

/-! ## What is shown -/

/-- The same scene, up to numbers. -/
structure SameScene (g : Nat → Nat) (a b : Scene) : Prop where
  stream : a.stream = b.stream.map g
  font : a.font = b.font
  gstate : ∀ n, a.gstate n = (b.gstate n).map (renameEntries g)
  props : ∀ n, a.props n = (b.props n).map (renameEntries g)
  xobject : ∀ n cur mark, a.xobject n cur (mark.map (renameMark g)) = (b.xobject n cur mark).map (List.map (renameShown g))

theorem same_innermost (base : Option Mark) (ms : List (Option Mark)) :
    innermost (base.map (renameMark g)) (ms.map (Option.map (renameMark g))) = (innermost base ms).map (renameMark g) := by
  induction ms with
  | nil => rfl
  | cons m ms ih => cases m <;> simp [innermost, ih]

theorem same_markIn {a b : Scene} (h : SameScene g a b) (d : List (Bytes × Val)) :
    markIn a (renameEntries g d) = (markIn b d).map (Option.map (renameMark g)) ∧ markIn a d = (markIn b d).map (Option.map (renameMark g)) := by
  have he : optionalEntry b!"MCID" (renameEntries g d) intOf = optionalEntry b!"MCID" d intOf := by
    simp only [optionalEntry, renamed_all g d (fun k => k != b!"MCID"), renamed_lookup]
    cases lookup b!"MCID" d with
    | none => rfl
    | some v => cases v <;> rfl
  simp only [markIn, he, h.stream]
  cases optionalEntry b!"MCID" d intOf with
  | none => simp
  | some m => cases m <;> simp [renameMark]

theorem same_markOf {a b : Scene} (h : SameScene g a b) (args : List Val) : markOf a args = (markOf b args).map (Option.map (renameMark g)) := by
  unfold markOf
  split
  · exact (same_markIn h _).2
  · rw [h.props]
    rename_i n
    cases b.props n with
    | none => rfl
    | some d => exact (same_markIn h d).1
  · rfl

theorem same_shownIn (m : Option Mark) (t : PageText) : (shownIn m t).map (renameShown g) = shownIn (m.map (renameMark g)) t := by
  simp [shownIn, renameShown]

theorem same_interpret {a b : Scene} (h : SameScene g a b) (base : Option Mark) (ops : List ReadOp) :
    ∀ (cur : Option FontText) (saved : List (Option FontText)) (marks : List (Option Mark)),
    interpret a (base.map (renameMark g)) cur saved (marks.map (Option.map (renameMark g))) ops =
      (interpret b base cur saved marks ops).map (List.map (renameShown g)) := by
  have key : ∀ (x : Option PageText) (y : Option (List Shown)) (m : Option Mark),
      (x.bind fun t => (y.map (List.map (renameShown g))).map (shownIn (m.map (renameMark g)) t ++ ·)) =
        (x.bind fun t => y.map (shownIn m t ++ ·)).map (List.map (renameShown g)) := by
    intro x y m
    cases x <;> cases y <;> simp [same_shownIn]
  induction ops with
  | nil => intros; rfl
  | cons o ops ih =>
    intro cur saved marks
    obtain ⟨k, args⟩ := o
    simp only [interpret]
    by_cases c : k = b!"Tf"
    · rw [if_pos c, if_pos c]
      split
      · rw [h.font]
        rename_i n x
        cases b.font n with
        | none => rfl
        | some t => exact ih _ _ _
      · rfl
    rw [if_neg c, if_neg c]
    by_cases c : k = b!"q"
    · rw [if_pos c, if_pos c]
      exact ih _ _ _
    rw [if_neg c, if_neg c]
    by_cases c : k = b!"Q"
    · rw [if_pos c, if_pos c]
      split
      · exact ih _ _ _
      · exact ih _ _ _
    rw [if_neg c, if_neg c]
    by_cases c : k = b!"gs"
    · rw [if_pos c, if_pos c]
      split
      · rename_i n
        rw [h.gstate]
        cases b.gstate n with
        | none => rfl
        | some d =>
          simp only [Option.map_some, Option.bind_some, renamed_all g d (fun k => k != b!"Font")]
          split
          · exact ih _ _ _
          · rfl
      · rfl
    rw [if_neg c, if_neg c]
    by_cases c : k = b!"Tj" ∨ k = b!"'"
    · rw [if_pos c, if_pos c]
      split
      · rw [ih, same_innermost]; exact key _ _ _
      · rfl
    rw [if_neg c, if_neg c]
    by_cases c : k = b!"\""
    · rw [if_pos c, if_pos c]
      split
      · rw [ih, same_innermost]; exact key _ _ _
      · rfl
    rw [if_neg c, if_neg c]
    by_cases c : k = b!"TJ"
    · rw [if_pos c, if_pos c]
      split
      · rw [ih, same_innermost]; exact key _ _ _
      · rfl
    rw [if_neg c, if_neg c]
    by_cases c : k = b!"BMC"
    · rw [if_pos c, if_pos c]
      have := ih cur saved (none :: marks)
      simpa only [List.map_cons, Option.map_none] using this
    rw [if_neg c, if_neg c]
    by_cases c : k = b!"BDC"
    · rw [if_pos c, if_pos c, same_markOf h]
      cases markOf b args with
      | none => rfl
      | some m =>
        have := ih cur saved (m :: marks)
        simpa only [List.map_cons, Option.map_some, Option.bind_some] using this
    rw [if_neg c, if_neg c]
    by_cases c : k = b!"EMC"
    · rw [if_pos c, if_pos c]
      cases marks with
      | nil => rfl
      | cons m marks => exact ih _ _ _
    rw [if_neg c, if_neg c]
    by_cases c : k = b!"Do"
    · rw [if_pos c, if_pos c]
      split
      · rename_i n
        rw [same_innermost, h.xobject, ih]
        cases b.xobject n cur (innermost base marks) <;> cases interpret b base cur saved marks ops <;> simp
      · rfl
    rw [if_neg c, if_neg c]
    exact ih _ _ _

theorem same_scene (hs : SameObjects g s f bytes f' bytes') (hn : NumbersIgnored unf) (forms : Nat) :
    ∀ (stream : Option Nat) (res : Option Val), ResourcesIn s res →
      SameScene g (sceneOf unf f bytes forms (stream.map g) (res.map (renameVal g))) (sceneOf unf f' bytes' forms stream res) := by
  have hfont : ∀ (res : Option Val), ResourcesIn s res →
      (fun n => (namedResource f bytes (res.map (renameVal g)) b!"Font" n).bind (readFontText unf f bytes)) =
        fun n => (namedResource f' bytes' res b!"Font" n).bind (readFontText unf f' bytes') := by
    intro res hr
    funext n
    obtain ⟨h1, h2⟩ := same_namedResource hs hr b!"Font" n
    rw [h1]
    cases hd : namedResource f' bytes' res b!"Font" n with
    | none => rfl
    | some d => exact same_readFontText hs hn d (h2 d hd)
  induction forms with
  | zero =>
    intro stream res hr
    constructor
    · rw [sceneOf, sceneOf]
    · rw [sceneOf, sceneOf]; exact hfont res hr
    · intro n; rw [sceneOf, sceneOf]; exact (same_namedResource hs hr _ n).1
    · intro n; rw [sceneOf, sceneOf]; exact (same_namedResource hs hr _ n).1
    · intro n cur mark; rw [sceneOf, sceneOf]; rfl
  | succ forms ih =>
    intro stream res hr
    constructor
    · rw [sceneOf, sceneOf]
    · rw [sceneOf, sceneOf]; exact hfont res hr
    · intro n; rw [sceneOf, sceneOf]; exact (same_namedResource hs hr _ n).1
    · intro n; rw [sceneOf, sceneOf]; exact (same_namedResource hs hr _ n).1
    · intro name cur mark
      rw [sceneOf, sceneOf]
      obtain ⟨h1, h2⟩ := same_resourceNumber hs hr b!"XObject" name
      simp only [h1]
      cases hx : resourceNumber f' bytes' res b!"XObject" name with
      | none => rfl
      | some n =>
        have hm := h2 n hx
        simp only [Option.map_some, Option.bind_some, hs.same n hm]
        cases ho : f'.object bytes' n with
        | none => rfl
        | some o =>
          have hc := hs.closed n hm o ho
          cases o with
          | val v => rfl
          | stream d data =>
            simp only [mentionsObject] at hc
            simp only [Option.map_some, renameIVal, renamed_lookup, same_effective, same_decodedStream hs hn hm]
            cases lookup b!"Subtype" d with
            | none => rfl
            | some t =>
              cases t with
              | name t =>
                simp only [Option.map_some, renameVal]
                split
                · rfl
                split
                · cases he : effectiveResources res d with
                  | none => rfl
                  | some r =>
                    simp only [Option.map_some, Option.bind_some]
                    cases decodedStream unf f' bytes' n with
                    | none => rfl
                    | some data' =>
                      simp only [Option.bind_some]
                      cases readContent data' with
                      | none => rfl
                      | some ops =>
                        simp only [Option.bind_some]
                        exact same_interpret (ih (some n) r (effective_in hr hc he)) mark ops cur [] []
                · rfl
              | _ => rfl

theorem same_pagesWith {α : Type} (hs : SameObjects g s f bytes f' bytes') (page page' : Nat → Option Val → List (Bytes × Val) → Option α) (t : α → α)
    (hp : ∀ n res d, ResourcesIn s res → (∀ i ∈ mentionsEntries d, i ∈ s) → page (g n) (res.map (renameVal g)) (renameEntries g d) = (page' n res d).map t)
    (depth : Nat) : ∀ (res : Option Val) (n : Nat), ResourcesIn s res → n ∈ s →
      readPagesWith page f bytes depth (res.map (renameVal g)) (g n) = (readPagesWith page' f' bytes' depth res n).map (List.map t) := by
  induction depth with
  | zero => intros; rfl
  | succ depth ih =>
    intro res n hr h
    simp only [readPagesWith, hs.same n h]
    cases ho : f'.object bytes' n with
    | none => rfl
    | some o =>
      have hc := hs.closed n h o ho
      cases o with
      | stream d data => rfl
      | val v =>
        cases v with
        | dict d =>
          simp only [mentionsObject, mentions] at hc
          simp only [Option.map_some, renameIVal, renameVal, renamed_lookup, same_effective]
          cases he : effectiveResources res d with
          | none => rfl
          | some r =>
            have hr' := effective_in hr hc he
            simp only [Option.map_some, Option.bind_some, hp n r d hr' hc]
            cases lookup b!"Type" d with
            | none => rfl
            | some ty =>
              cases ty with
              | name ty =>
                simp only [Option.map_some, renameVal]
                split
                · cases page' n r d <;> simp
                · split
                  · cases hl : lookup b!"Kids" d with
                    | none => rfl
                    | some v =>
                      cases v with
                      | arr vs =>
                        simp only [Option.map_some, renameVal, renamed_refNumbers]
                        cases hq : refNumbers vs with
                        | none => rfl
                        | some ns =>
                          simp only [Option.map_some, Option.bind_some]
                          exact same_collect _ _ _ ns (fun m hm => ih r m hr' (hc m (lookup_mentions hl (by simp only [mentions]; exact refNumbers_mentions hq m hm))))
                      | _ => rfl
                  · rfl
              | _ => rfl
        | _ => rfl

theorem same_pageShown (hs : SameObjects g s f bytes f' bytes') (hn : NumbersIgnored unf) (forms n : Nat) (res : Option Val) (d : List (Bytes × Val))
    (hr : ResourcesIn s res) (h : ∀ i ∈ mentionsEntries d, i ∈ s) :
    readPageShown unf f bytes forms (g n) (res.map (renameVal g)) (renameEntries g d) =
      (readPageShown unf f' bytes' forms n res d).map (List.map (renameShown g)) := by
  simp only [readPageShown, same_pageOperations hs hn d h]
  cases pageOperations unf f' bytes' d with
  | none => rfl
  | some ops => exact same_interpret (same_scene hs hn forms none res hr) none ops none [] []

end

end PdfW
