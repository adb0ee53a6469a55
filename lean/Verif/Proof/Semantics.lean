import Verif.Spec.Semantics
import Verif.Proof.Tagged
import Verif.Proof.Colors
import Verif.Proof.Events
import Verif.Proof.Roles

set_option linter.unusedSimpArgs false
set_option linter.unusedVariables false

/-!
# What structure elements mean
-/

namespace PdfW
open Spec

variable {unf : Val → Bytes → Option Bytes} {f : FileEnd} {bytes : Bytes} {items : List Item}

/-! ## Keyed entries -/

theorem entriesAre_filterKeys {ms : List (Bytes × (Val → Prop))} {es : List (Bytes × Val)} (h : EntriesAre ms es) (p : Bytes → Bool) :
    EntriesAre (ms.filter fun e => p e.1) (es.filter fun e => p e.1) := by
  induction ms generalizing es with
  | nil => simp only [EntriesAre] at h; subst h; rfl
  | cons m ms ih =>
    obtain ⟨w, ws, rfl, hm, hr⟩ := h
    cases hk : p m.1 with
    | true =>
      rw [List.filter_cons_of_pos (by simpa using hk), List.filter_cons_of_pos (by simpa using hk)]
      exact ⟨w, _, rfl, hm, ih hr⟩
    | false =>
      rw [List.filter_cons_of_neg (by simp [hk]), List.filter_cons_of_neg (by simp [hk])]
      exact ih hr

theorem keyed_filter {α : Type} (l : List (Bytes × α)) (P : Bytes × α → Val → Prop) (n : Bytes) :
    (l.map fun e => (e.1, P e)).filter (fun e => e.1 == n) = (l.filter (fun e => e.1 == n)).map fun e => (e.1, P e) := by
  rw [List.filter_map]; rfl

theorem keyed_nodup {α : Type} (l : List (Bytes × α)) (hd : (l.map (·.1)).Nodup) (e : Bytes × α) (he : e ∈ l) :
    l.filter (fun x => x.1 == e.1) = [e] := by
  induction l with
  | nil => simp at he
  | cons a as ih =>
    simp only [List.map_cons, List.nodup_cons] at hd
    rcases List.mem_cons.mp he with rfl | he
    · rw [List.filter_cons_of_pos (by simp)]
      congr 1
      rw [List.filter_eq_nil_iff]
      intro x hx hc
      simp only [beq_iff_eq] at hc
      exact hd.1 (List.mem_map.mpr ⟨x, hx, hc⟩)
    · rw [List.filter_cons_of_neg, ih hd.2 he]
      simp only [beq_iff_eq]
      intro hc
      exact hd.1 (List.mem_map.mpr ⟨e, he, hc.symm⟩)

/-- The entry for a key that is there. -/
theorem keyed_present {α γ : Type} {l : List (Bytes × α)} {P : Bytes × α → Val → Prop} {d : List (Bytes × Val)}
    (he : EntriesAre (l.map fun e => (e.1, P e)) d) (hd : (l.map (·.1)).Nodup) {n : Bytes} {a : α} (hm : (n, a) ∈ l) {read : Val → Option γ} {Q : γ → Prop}
    (hP : ∀ v, P (n, a) v → ∃ x, read v = some x ∧ Q x) : ∃ x, optionalEntry n d read = some (some x) ∧ Q x :=
  optional_present he (P := P (n, a)) (by rw [keyed_filter, keyed_nodup l hd (n, a) hm]; rfl) hP

/-- The entry for a key that is not there. -/
theorem keyed_absent {α γ : Type} {l : List (Bytes × α)} {P : Bytes × α → Val → Prop} {d : List (Bytes × Val)}
    (he : EntriesAre (l.map fun e => (e.1, P e)) d) {n : Bytes} (hn : ∀ e ∈ l, e.1 ≠ n) {read : Val → Option γ} : optionalEntry n d read = some none :=
  optional_absent he (by rw [keyed_filter, List.filter_eq_nil_iff.mpr (by intro e he; simpa using hn e he)]; rfl)

theorem keyed_lookup {α : Type} {l : List (Bytes × α)} {P : Bytes × α → Val → Prop} {d : List (Bytes × Val)}
    (he : EntriesAre (l.map fun e => (e.1, P e)) d) (hd : (l.map (·.1)).Nodup) {n : Bytes} {a : α} (hm : (n, a) ∈ l) :
    ∃ v, lookup n d = some v ∧ P (n, a) v :=
  lookup_of he (by rw [keyed_filter, keyed_nodup l hd (n, a) hm]; rfl)

/-! ## Namespaces -/

theorem isoRole20_unique {r : StructRole2} {a b : Bytes} (ha : isoRole20 r a) (hb : isoRole20 r b) : a = b := by
  cases r <;> simp only [isoRole20] at ha hb
  case heading l p q => rw [(headingLevel_some _ _ ha).1, (headingLevel_some _ _ hb).1]
  all_goals rw [ha, hb]

theorem named_unique {t : GivenType} {a b : Bytes} (ha : t.Named a) (hb : t.Named b) : a = b := by
  cases t <;> simp only [GivenType.Named] at ha hb
  case role2 r ns => exact isoRole20_unique ha hb
  all_goals rw [ha, hb]

/-- What the value for a target is. -/
def NsTargetIs : NsTarget → Val → Prop
  | .pdf17 r => IsRole17 r
  | .pdf20 r ns => ArrayIs [IsRole20 r, IsRef ns]
  | .other n ns => ArrayIs [IsName n, IsRef ns]

theorem nsMap_entries (m : List (Bytes × NsTarget)) :
    NamespaceRoleMapEntries (m.map fun e => e.2.call e.1) = m.map fun e => (e.1, NsTargetIs e.2) := by
  induction m with
  | nil => rfl
  | cons e m ih =>
    simp only [NamespaceRoleMapEntries, List.map_cons, List.flatMap_cons] at ih ⊢
    rw [ih]
    obtain ⟨n, t⟩ := e
    cases t <;> rfl

theorem namespace_read (hf : Finds f bytes items) {g : GivenNamespace} (h : g.Written items) :
    ∃ m, readNamespace f bytes g.id.get.toNat = some (g.uri, m) ∧ EntriesAre (g.map.map fun e => (e.1, NsTargetIs e.2)) m := by
  obtain ⟨v, ho, hv⟩ := finds_val hf h.object
  obtain ⟨d, rfl, he⟩ := namespace_denotes .code g.calls (Or.inl rfl) v hv
  have hty : optionalEntry b!"Type" d nameOf = some (some b!"Namespace") := by
    obtain ⟨x, hx, rfl⟩ := optional_present (Q := fun x => x = b!"Namespace") (read := nameOf) he (k := b!"Type") (P := IsName b!"Namespace")
      (by simp only [NamespaceEntries, List.filter_append, noCall_filter h.noType]; rfl) (fun v hv => ⟨_, isName_nameOf _ v hv, rfl⟩)
    exact hx
  have hns : requiredEntry b!"NS" d readText = some g.uri := by
    rcases h.named with hn | ⟨hn, e⟩ | ⟨hn, e⟩ | ⟨hn, e⟩
    · exact required_eq (IsText g.uri) g.uri he rfl hn rfl (readText_isText _)
    · exact required_eq (IsText g.uri) g.uri he rfl hn (by rw [e]; rfl) (readText_isText _)
    · exact required_eq (IsText g.uri) g.uri he rfl hn (by rw [e]; rfl) (readText_isText _)
    · exact required_eq (IsText g.uri) g.uri he rfl hn (by rw [e]; rfl) (readText_isText _)
  obtain ⟨m, hm, hem⟩ : ∃ m, optionalEntry b!"RoleMapNS" d (followDict f bytes) = some m ∧
      EntriesAre (g.map.map fun e => (e.1, NsTargetIs e.2)) (m.getD []) := by
    rcases h.mapped with ⟨e, hn⟩ | ho
    · exact ⟨none, optional_absent he (by simp only [NamespaceEntries, List.filter_append, noCall_filter hn]; rfl), by rw [e]; rfl⟩
    · obtain ⟨a, h1, h2⟩ := optional_present (Q := fun a => EntriesAre (g.map.map fun e => (e.1, NsTargetIs e.2)) a)
        (read := followDict f bytes) he (k := b!"RoleMapNS") (P := IsNamespaceRoleMap (g.map.map fun e => e.2.call e.1))
        (by simp only [NamespaceEntries, List.filter_append, onlyCall_filter ho]; rfl)
        (fun v hv => by
          obtain ⟨m, rfl, hm⟩ := hv
          exact ⟨m, rfl, by rwa [nsMap_entries] at hm⟩)
      exact ⟨some a, h1, h2⟩
  refine ⟨m.getD [], ?_, hem⟩
  simp only [readNamespace, ho, hty]
  rw [if_pos (by simp)]
  simp only [hns, hm, Option.bind_some, Option.map_some]

theorem chain_read (hf : Finds f bytes items) {roles : List (Bytes × StructRole)} (hd : (roles.map (·.1)).Nodup) {rm : List (Bytes × Val)}
    (hr : EntriesAre (roles.map fun e => (e.1, IsRole17 e.2)) rm) {spaces : List GivenNamespace} (hs : ∀ g ∈ spaces, g.Written items)
    {ns : Option Ref} {s : Bytes} {c : List TypeIn} (h : Chain roles spaces ns s c) (steps : Nat) (hl : c.length ≤ steps) :
    readMeaning f bytes rm steps (ns.map fun r => r.get.toNat) s = some c := by
  induction h generalizing steps with
  | plain h =>
    obtain ⟨n, rfl⟩ : ∃ n, steps = n + 1 := ⟨steps - 1, by simp at hl; omega⟩
    simp only [Option.map_none, readMeaning, keyed_absent hr h]
  | role h hc ih =>
    rename_i s r c
    obtain ⟨n, rfl⟩ : ∃ n, steps = n + 1 := ⟨steps - 1, by simp at hl; omega⟩
    obtain ⟨x, hx, rfl⟩ := keyed_present hr hd h (read := nameOf) (Q := fun x => x = isoRole17 r)
      (fun v hv => ⟨_, by simp only [IsRole17] at hv; subst hv; rfl, rfl⟩)
    have := ih n (by simp at hl; omega)
    simp only [Option.map_none] at this
    simp only [Option.map_none, readMeaning, hx, this, Option.map_some]
  | own hg h =>
    rename_i g s
    obtain ⟨n, rfl⟩ : ∃ n, steps = n + 1 := ⟨steps - 1, by simp at hl; omega⟩
    obtain ⟨m, h1, h2⟩ := namespace_read hf (hs g hg)
    simp only [Option.map_some, readMeaning, h1, Option.bind_some, keyed_absent (P := fun e => NsTargetIs e.2) h2 h]
  | to17 hg h =>
    rename_i g s r
    obtain ⟨n, rfl⟩ : ∃ n, steps = n + 1 := ⟨steps - 1, by simp at hl; omega⟩
    obtain ⟨m, h1, h2⟩ := namespace_read hf (hs g hg)
    obtain ⟨x, hx, rfl⟩ := keyed_present (P := fun e => NsTargetIs e.2) h2 (hs g hg).distinct h (read := some) (Q := fun x => x = .name (isoRole17 r))
      (fun v hv => ⟨v, rfl, hv⟩)
    simp only [Option.map_some, readMeaning, h1, Option.bind_some, hx]
  | to20 hg h ht hc ih =>
    rename_i g s t r ns c
    obtain ⟨n, rfl⟩ : ∃ n, steps = n + 1 := ⟨steps - 1, by simp at hl; omega⟩
    obtain ⟨m, h1, h2⟩ := namespace_read hf (hs g hg)
    obtain ⟨x, hx, rfl⟩ := keyed_present (P := fun e => NsTargetIs e.2) h2 (hs g hg).distinct h (read := some)
      (Q := fun x => x = .arr [.name t, .ref ns.get.toNat 0])
      (fun v hv => by
        refine ⟨v, rfl, ?_⟩
        obtain ⟨vs, rfl, w, ws, rfl, ⟨n, rfl, hn⟩, u, us, rfl, hu, hnil⟩ := hv
        simp only [ItemsAre] at hnil
        simp only [IsRef] at hu
        subst hnil hu
        rw [isoRole20_unique hn ht])
    have := ih n (by simp at hl; omega)
    simp only [Option.map_some] at this
    simp only [Option.map_some, readMeaning, h1, Option.bind_some, hx, this]
  | toOther hg h hc ih =>
    rename_i g s t ns c
    obtain ⟨n, rfl⟩ : ∃ n, steps = n + 1 := ⟨steps - 1, by simp at hl; omega⟩
    obtain ⟨m, h1, h2⟩ := namespace_read hf (hs g hg)
    obtain ⟨x, hx, rfl⟩ := keyed_present (P := fun e => NsTargetIs e.2) h2 (hs g hg).distinct h (read := some)
      (Q := fun x => x = .arr [.name t, .ref ns.get.toNat 0])
      (fun v hv => by
        refine ⟨v, rfl, ?_⟩
        obtain ⟨vs, rfl, w, ws, rfl, hw, u, us, rfl, hu, hnil⟩ := hv
        simp only [ItemsAre] at hnil
        simp only [IsRef] at hu
        simp only [IsName] at hw
        subst hnil hu hw
        rfl)
    have := ih n (by simp at hl; omega)
    simp only [Option.map_some] at this
    simp only [Option.map_some, readMeaning, h1, Option.bind_some, hx, this]

/-! ## Attributes -/

/-- The object read is the one given. -/
structure AttrRead (g : GivenAttributes) (o : AttrObj) : Prop where
  owner : o.owner = g.owner.1
  ns : o.ns = g.owner.2.map fun r => r.get.toNat
  entries : EntriesAre g.attributes o.entries

theorem raws_means (es : List (Bytes × Prog)) :
    (es.map fun e => AttributesCall.raw e.1 e.2).flatMap AttributesMeans = es.map fun e => (e.1, Denotes e.2) := by
  induction es with
  | nil => rfl
  | cons e es ih => rw [List.map_cons, List.flatMap_cons, ih]; rfl

theorem attrs_entries (g : GivenAttributes) : AttributesEntries g.calls =
    (b!"O", IsName g.owner.1) :: ((g.owner.2.map fun r => (b!"NS", IsRef r)).toList ++ g.attributes) := by
  cases g <;> simp only [AttributesEntries, GivenAttributes.calls, List.flatMap_cons, List.flatMap_nil, List.append_nil, AttributesMeans,
    GivenAttributes.owner, GivenAttributes.attributes, LayoutAttributesEntries, ListAttributesEntries, FieldAttributesEntries, TableAttributesEntries,
    ArtifactAttributesEntries, FENoteAttributesEntries, Option.map_none, Option.map_some, Option.toList_none, Option.toList_some, List.nil_append, List.cons_append,
    raws_means, List.map_map]
  all_goals rfl

theorem isoOwner_nso {o : AttributeOwner} {iso2020 : Bool} (h : o ≠ .nso) : isoOwner iso2020 o ≠ b!"NSO" := by
  cases o <;> cases iso2020 <;> first | exact absurd rfl h | decide

theorem isoOwner_user {o : AttributeOwner} {iso2020 : Bool} (h : o ≠ .user) : isoOwner iso2020 o ≠ b!"UserProperties" := by
  cases o <;> cases iso2020 <;> first | exact absurd rfl h | decide

theorem owner_nso {g : GivenAttributes} (h : g.Proper) : g.owner.1 = b!"NSO" ↔ g.owner.2.isSome = true := by
  cases g with
  | other o iso2020 es => simp only [GivenAttributes.owner, Option.isSome_none, Bool.false_eq_true, iff_false]; exact isoOwner_nso h.2.1
  | inNamespace ns es => simp [GivenAttributes.owner]
  | _ => simp only [GivenAttributes.owner, Option.isSome_none, Bool.false_eq_true, iff_false]; decide

theorem filter_all {α : Type} (p : α → Bool) (l : List α) (h : ∀ x ∈ l, p x = true) : l.filter p = l := List.filter_eq_self.mpr h

theorem attrObj_read {g : GivenAttributes} (hp : g.Proper) {v : Val} (hv : IsAttributes g.calls v) :
    ∃ o, readAttrObj f bytes v = some o ∧ AttrRead g o := by
  obtain ⟨d, rfl, he⟩ := hv
  rw [attrs_entries] at he
  have hno : g.attributes.filter (fun e => e.1 == b!"O") = [] := by
    rw [List.filter_eq_nil_iff]; intro e hm; simpa using hp.1 e hm
  have ho : requiredEntry b!"O" d nameOf = some g.owner.1 := by
    obtain ⟨x, hx, rfl⟩ := required_head (Q := fun x => x = g.owner.1) (read := nameOf) he (k := b!"O") (P := IsName g.owner.1)
      (by
        rw [List.filter_cons_of_pos (by simp), List.filter_append, hno, List.append_nil]
        cases g.owner.2 <;> rfl) (fun v hv => ⟨_, isName_nameOf _ v hv, rfl⟩)
    exact hx
  have hiff := owner_nso hp
  cases hns : g.owner.2 with
  | none =>
    rw [hns] at hiff he
    have hne : g.owner.1 ≠ b!"NSO" := fun hc => by simpa using hiff.mp hc
    refine ⟨⟨g.owner.1, none, d.filter fun e => e.1 != b!"O"⟩, ?_, rfl, by rw [hns]; rfl, ?_⟩
    · simp only [readAttrObj, followDict, followRef, Option.bind_some, ho]
      rw [if_neg hne]
    · have := entriesAre_filterKeys he (fun k => k != b!"O")
      rw [List.filter_cons_of_neg (by simp)] at this
      simp only [Option.map_none, Option.toList_none, List.nil_append] at this
      rwa [filter_all _ g.attributes (fun e hm => by simpa using hp.1 e hm)] at this
  | some r =>
    rw [hns] at hiff he
    have heq : g.owner.1 = b!"NSO" := hiff.mpr rfl
    have hnn : ∀ e ∈ g.attributes, e.1 ≠ b!"NS" := by
      cases g with
      | inNamespace ns es =>
        intro e hm
        simp only [GivenAttributes.attributes, List.mem_map] at hm
        obtain ⟨x, hx, rfl⟩ := hm
        exact hp.2 x hx
      | _ => simp [GivenAttributes.owner] at hns
    have hnf : g.attributes.filter (fun e => e.1 == b!"NS") = [] := by
      rw [List.filter_eq_nil_iff]; intro e hm; simpa using hnn e hm
    have hn : requiredEntry b!"NS" d refNumber = some r.get.toNat := by
      obtain ⟨x, hx, rfl⟩ := required_head (Q := fun x => x = r.get.toNat) (read := refNumber) he (k := b!"NS") (P := IsRef r)
        (by
          rw [List.filter_cons_of_neg (by simp), List.filter_append, hnf, List.append_nil]
          rfl) (fun v hv => ⟨_, by simp only [IsRef] at hv; subst hv; rfl, rfl⟩)
      exact hx
    refine ⟨⟨g.owner.1, some r.get.toNat, d.filter fun e => e.1 != b!"O" && e.1 != b!"NS"⟩, ?_, rfl, by rw [hns]; rfl, ?_⟩
    · simp only [readAttrObj, followDict, followRef, Option.bind_some, ho]
      rw [if_pos heq, hn]
      rfl
    · have := entriesAre_filterKeys he (fun k => k != b!"O" && k != b!"NS")
      rw [List.filter_cons_of_neg (by simp)] at this
      simp only [Option.map_some, Option.toList_some, List.cons_append, List.nil_append] at this
      rw [List.filter_cons_of_neg (by simp)] at this
      rwa [filter_all _ g.attributes (fun e hm => by simpa using ⟨hp.1 e hm, hnn e hm⟩)] at this

theorem attrObjs_each (gs : List GivenAttributes) (hp : ∀ g ∈ gs, g.Proper) (vs : List Val)
    (hv : ItemsAre (gs.map fun g => IsAttributes g.calls) vs) :
    (∀ x ∈ vs, (intOf x).isNone = true) ∧ ∃ os, readEach (readAttrObj f bytes) vs = some os ∧ Pairwise AttrRead gs os := by
  induction gs generalizing vs with
  | nil =>
    simp only [List.map_nil, ItemsAre] at hv
    subst hv
    exact ⟨by simp, [], rfl, .nil⟩
  | cons g gs ih =>
    obtain ⟨w, ws, rfl, hw, hr⟩ := hv
    obtain ⟨h1, os, h2, h3⟩ := ih (fun x hx => hp x (List.mem_cons_of_mem _ hx)) ws hr
    obtain ⟨o, h4, h5⟩ := attrObj_read (f := f) (bytes := bytes) (hp g (List.mem_cons_self ..)) hw
    refine ⟨?_, o :: os, by simp only [readEach, h4, h2, Option.bind_some, Option.map_some], .cons h5 h3⟩
    intro x hx
    rcases List.mem_cons.mp hx with rfl | hx
    · obtain ⟨d, rfl, -⟩ := hw; rfl
    · exact h1 x hx

theorem attrObjs_read (gs : List GivenAttributes) (hp : ∀ g ∈ gs, g.Proper) (v : Val) (hv : ArrayIs (gs.map fun g => IsAttributes g.calls) v) :
    ∃ os, readAttrObjs f bytes v = some os ∧ Pairwise AttrRead gs os := by
  obtain ⟨vs, rfl, hv⟩ := hv
  obtain ⟨h1, os, h2, h3⟩ := attrObjs_each (f := f) (bytes := bytes) gs hp vs hv
  refine ⟨os, ?_, h3⟩
  simp only [readAttrObjs, followRef]
  rw [filter_all _ vs h1, h2]

/-- What the value for a class is. -/
def ClassIs : GivenClass → Val → Prop
  | .single g => IsAttributes g.calls
  | .multiple gs => ArrayIs (gs.map fun g => IsAttributes g.calls)

theorem classMap_entries (m : List (Bytes × GivenClass)) :
    ClassMapEntries (m.map fun e => e.2.call e.1) = m.map fun e => (e.1, ClassIs e.2) := by
  induction m with
  | nil => rfl
  | cons e m ih =>
    simp only [ClassMapEntries, List.map_cons, List.flatMap_cons] at ih ⊢
    rw [ih]
    obtain ⟨n, t⟩ := e
    cases t with
    | single g => rfl
    | multiple gs => simp only [GivenClass.call, ClassMapMeans, ClassIs, List.map_map]; rfl

theorem class_read (c : GivenClass) (hp : ∀ g ∈ c.objects, g.Proper) (v : Val) (hv : ClassIs c v) :
    ∃ os, readAttrObjs f bytes v = some os ∧ Pairwise AttrRead c.objects os := by
  cases c with
  | multiple gs => exact attrObjs_read gs hp v hv
  | single g =>
    obtain ⟨o, h1, h2⟩ := attrObj_read (f := f) (bytes := bytes) (hp g (List.mem_singleton.mpr rfl)) hv
    refine ⟨[o], ?_, .cons h2 .nil⟩
    obtain ⟨d, rfl, -⟩ := hv
    simp only [readAttrObjs, followRef]
    rw [h1]; rfl

theorem classes_read {m : List (Bytes × GivenClass)} {cm : List (Bytes × Val)} (he : EntriesAre (m.map fun e => (e.1, ClassIs e.2)) cm)
    (hd : (m.map (·.1)).Nodup) (hp : ∀ e ∈ m, ∀ g ∈ e.2.objects, g.Proper) (ns : List Bytes) (cs : List GivenClass)
    (h : Pairwise (fun n c => (n, c) ∈ m) ns cs) :
    ∃ os, readEach (fun c => (lookup c cm).bind (readAttrObjs f bytes)) ns = some os ∧ Pairwise AttrRead (cs.flatMap GivenClass.objects) os.flatten := by
  induction h with
  | nil => exact ⟨[], rfl, .nil⟩
  | cons ha hr ih =>
    rename_i n c ns cs
    obtain ⟨os, h1, h2⟩ := ih
    obtain ⟨v, h3, h4⟩ := keyed_lookup (P := fun e => ClassIs e.2) he hd ha
    obtain ⟨o, h5, h6⟩ := class_read (f := f) (bytes := bytes) c (hp _ ha) v h4
    refine ⟨o :: os, by simp only [readEach, h3, h5, h1, Option.bind_some, Option.map_some], ?_⟩
    rw [List.flatMap_cons, List.flatten_cons]
    exact pairwise_append h6 h2

theorem objects_unique {m : List (Bytes × GivenClass)} (hd : (m.map (·.1)).Nodup) {e : GivenElem} {a b : List GivenAttributes}
    (ha : e.Objects m a) (hb : e.Objects m b) : a = b := by
  obtain ⟨cs, h1, rfl⟩ := ha
  obtain ⟨ds, h2, rfl⟩ := hb
  congr 2
  revert h1 h2
  generalize e.classes.getD [] = ns
  intro h1
  induction h1 generalizing ds with
  | nil => intro h2; cases h2; rfl
  | cons x _ ih =>
    intro h2
    cases h2 with
    | cons y h2 =>
      have := ih _ h2
      subst this
      have e1 := keyed_nodup m hd _ x
      have e2 := keyed_nodup m hd _ y
      rw [e1] at e2
      simp at e2
      rw [e2]

theorem elemAttrs_read {m : List (Bytes × GivenClass)} {cm : List (Bytes × Val)} (he : EntriesAre (m.map fun e => (e.1, ClassIs e.2)) cm)
    (hd : (m.map (·.1)).Nodup) (hp : ∀ e ∈ m, ∀ g ∈ e.2.objects, g.Proper) {calls : List StructElementCall} {e : GivenElem} (h : e.Set calls)
    {given : List GivenAttributes} (ho : e.Objects m given) {d : List (Bytes × Val)} (hed : EntriesAre (StructElementEntries calls) d) :
    ∃ os, readElemAttrs f bytes cm d = some os ∧ Pairwise AttrRead given os := by
  obtain ⟨cs, h1, rfl⟩ := ho
  have q1 : optionalEntry b!"C" d readClassNames = some e.classes := by
    have := optional_eq (read := readClassNames) (fun ns => ArrayIs (ns.map fun x => IsName x)) id hed rfl h.classes (fun _ => rfl) (fun ns v hv => by
      obtain ⟨vs, rfl, hv⟩ := hv
      have hnone : ∀ x ∈ vs, (intOf x).isNone = true := by
        clear h1 h he hed
        induction ns generalizing vs with
        | nil => simp only [List.map_nil, ItemsAre] at hv; subst hv; simp
        | cons n ns ih =>
          obtain ⟨w, ws, rfl, hw, hr⟩ := hv
          intro x hx
          rcases List.mem_cons.mp hx with rfl | hx
          · simp only [IsName] at hw; subst hw; rfl
          · exact ih ws hr x hx
      simp only [readClassNames]
      rw [filter_all _ vs hnone, readEach_items (P := fun n => IsName n) (g := id) (fun n v hv => isName_nameOf n v hv) ns vs hv]
      simp)
    simpa using this
  obtain ⟨os, q2, q3⟩ := classes_read (f := f) (bytes := bytes) he hd hp _ _ h1
  obtain ⟨y, q4, q5⟩ := optional_call (read := readAttrObjs f bytes) (P := fun gs => ArrayIs (gs.map fun g => IsAttributes g.calls))
    (R := fun gs os => Pairwise AttrRead gs os) hed rfl h.own (fun gs _ => by
      simp only [StructElementMeans, List.map_map]; rfl) (fun gs hgs v hv => attrObjs_read gs (fun g hg => h.proper g (by rw [hgs]; exact hg)) v hv)
  refine ⟨os.flatten ++ y.getD [], ?_, ?_⟩
  · simp only [readElemAttrs, q1, q2, q4, Option.bind_some, Option.map_some]
  · refine pairwise_append q3 ?_
    cases hy : e.own <;> cases y <;> rw [hy] at q5 <;> simp only [BothOrNone] at q5
    · exact .nil
    · exact q5

/-! ## Values in effect -/

theorem attr_absent {g : GivenAttributes} {o : AttrObj} (h : AttrRead g o) {key : Bytes} (hn : ∀ e ∈ g.attributes, e.1 ≠ key) : lookup key o.entries = none := by
  have := absent_of h.entries (k := key) (by rw [List.filter_eq_nil_iff]; intro e he; simpa using hn e he)
  simp only [lookup]
  rw [List.filter_eq_nil_iff.mpr (by intro e he; simpa using List.all_eq_true.mp this e he)]

theorem owner_beq {g : GivenAttributes} {o : AttrObj} (h : AttrRead g o) (owner : Bytes × Option Ref) :
    (o.owner == owner.1 && o.ns == owner.2.map fun r => r.get.toNat) = true ↔ g.owner = owner := by
  simp only [Bool.and_eq_true, beq_iff_eq, h.owner, h.ns]
  constructor
  · rintro ⟨h1, h2⟩
    obtain ⟨a, b⟩ := owner
    rw [Prod.ext_iff]
    refine ⟨h1, ?_⟩
    simp only at h2 ⊢
    cases hg : g.owner.2 <;> cases b <;> rw [hg] at h2 <;> simp at h2
    · rename_i x y
      have := x.pos
      have := y.pos
      cases x; cases y
      simp [Ref.get] at *
      omega
  · rintro rfl; exact ⟨rfl, rfl⟩

theorem effect_none {given : List GivenAttributes} {objs : List AttrObj} (h : Pairwise AttrRead given objs) {owner : Bytes × Option Ref} {key : Bytes}
    (hu : Unset given owner key) :
    ∀ o ∈ objs, (o.owner == owner.1 && o.ns == owner.2.map fun r => r.get.toNat) = true → lookup key o.entries = none := by
  induction h with
  | nil => simp
  | cons ha hr ih =>
    rename_i g o gs os
    intro x hx hb
    rcases List.mem_cons.mp hx with rfl | hx
    · exact attr_absent ha (hu g (List.mem_cons_self ..) ((owner_beq ha owner).mp hb))
    · exact ih (fun y hy => hu y (List.mem_cons_of_mem _ hy)) x hx hb

theorem attributeValue_none {objs : List AttrObj} {owner : Bytes} {ns : Option Nat} {key : Bytes}
    (h : ∀ o ∈ objs, (o.owner == owner && o.ns == ns) = true → lookup key o.entries = none) : attributeValue objs owner ns key = none := by
  simp only [attributeValue, List.findSome?_eq_none_iff, List.mem_filter, List.mem_reverse, and_imp]
  intro o ho hb
  exact h o ho hb

theorem pairwise_split {α β : Type} {R : α → β → Prop} (a : List α) {x : α} {b : List α} {l : List β} (h : Pairwise R (a ++ x :: b) l) :
    ∃ l1 y l2, l = l1 ++ y :: l2 ∧ Pairwise R a l1 ∧ R x y ∧ Pairwise R b l2 := by
  induction a generalizing l with
  | nil => cases h with | cons h1 h2 => exact ⟨[], _, _, rfl, .nil, h1, h2⟩
  | cons z a ih =>
    cases h with
    | cons h1 h2 =>
      obtain ⟨l1, y, l2, rfl, q1, q2, q3⟩ := ih h2
      exact ⟨_ :: l1, y, l2, rfl, .cons h1 q1, q2, q3⟩

theorem sameAttributes_of {given : List GivenAttributes} {objs : List AttrObj} (h : Pairwise AttrRead given objs) : SameAttributes given objs := by
  intro owner key
  refine ⟨?_, fun hu => attributeValue_none (effect_none h hu)⟩
  rintro P ⟨pre, g, post, rfl, hg, hf, hpost⟩
  obtain ⟨l1, o, l2, rfl, -, h2, h3⟩ := pairwise_split pre h
  obtain ⟨v, hv, hP⟩ := lookup_of h2.entries hf
  refine ⟨v, ?_, hP⟩
  have hno := effect_none h3 (owner := owner) (key := key) hpost
  simp only [attributeValue, List.reverse_append, List.reverse_cons, List.append_assoc, List.filter_append, List.findSome?_append]
  have e1 : (List.filter (fun o => o.owner == owner.1 && o.ns == owner.2.map fun r => r.get.toNat) l2.reverse).findSome? (fun o => lookup key o.entries) = none := by
    simp only [List.findSome?_eq_none_iff, List.mem_filter, List.mem_reverse, and_imp]
    exact fun x hx hb => hno x hx hb
  have e2 : List.filter (fun o : AttrObj => o.owner == owner.1 && o.ns == owner.2.map fun r => r.get.toNat) [o] = [o] := by
    rw [List.filter_cons_of_pos]
    · rfl
    · exact (owner_beq h2 owner).mpr hg
  rw [e1, e2]
  simp [hv]

/-! ## User properties -/

theorem prop_read {g : GivenProp} (h : g.Set) {v : Val} (hv : IsUserProperty g.calls v) : ∃ r, readUserProp f bytes v = some r ∧ SameProp g r := by
  obtain ⟨d, rfl, he⟩ := hv
  have he : EntriesAre ([] ++ g.calls.flatMap UserPropertyMeans) d := he
  have e1 := required_eq (read := readText) (IsText g.name) g.name he rfl h.name rfl (readText_isText _)
  obtain ⟨x, e2, hx⟩ := required_call (read := some) (P := Denotes g.value) (Q := Denotes g.value) he rfl h.value rfl (fun v hv => ⟨v, rfl, hv⟩)
  have e3 := optional_eq (read := readText) IsText id he rfl h.format (fun _ => rfl) (fun b v hv => readText_isText b v hv)
  have e4 := optional_eq (read := truthOf) IsBool id he rfl h.hidden (fun _ => rfl) (fun b v hv => bool_read b v hv)
  refine ⟨⟨g.name, x, g.format, g.hidden.getD false⟩, ?_, rfl, hx, rfl, rfl⟩
  simp only [readUserProp, followDict, followRef, Option.bind_some, e1, e2, e3, e4, Option.map_id_fun, id_eq, Option.map_some]

theorem propItems_read (gs : List GivenProp) (hp : ∀ g ∈ gs, g.Set) (vs : List Val) (hv : ItemsAre (gs.map fun g => IsUserProperty g.calls) vs) :
    ∃ rs, readEach (readUserProp f bytes) vs = some rs ∧ Pairwise SameProp gs rs := by
  induction gs generalizing vs with
  | nil =>
    simp only [List.map_nil, ItemsAre] at hv
    subst hv
    exact ⟨[], rfl, .nil⟩
  | cons g gs ih =>
    obtain ⟨w, ws, rfl, hw, hr⟩ := hv
    obtain ⟨rs, h2, h3⟩ := ih (fun x hx => hp x (List.mem_cons_of_mem _ hx)) ws hr
    obtain ⟨r, h4, h5⟩ := prop_read (f := f) (bytes := bytes) (hp g (List.mem_cons_self ..)) hw
    exact ⟨r :: rs, by simp only [readEach, h4, h2, Option.bind_some, Option.map_some], .cons h5 h3⟩

theorem userProps_read {given : List GivenAttributes} {objs : List AttrObj} (h : Pairwise AttrRead given objs) (hp : ∀ g ∈ given, g.Proper) :
    ∃ rs, readUserProps f bytes objs = some rs ∧ Pairwise SameProp (given.flatMap GivenAttributes.props) rs := by
  have key : ∃ rs, readEach (readPropObj f bytes) (objs.filter fun o => o.owner == b!"UserProperties") = some rs ∧ Pairwise SameProp (given.flatMap GivenAttributes.props) rs.flatten := by
    induction h with
    | nil => exact ⟨[], rfl, .nil⟩
    | cons ha hr ih =>
      rename_i g o gs os
      obtain ⟨rs, h1, h2⟩ := ih (fun x hx => hp x (List.mem_cons_of_mem _ hx))
      have hg := hp g (List.mem_cons_self ..)
      by_cases hu : ∃ props, g = .user props
      · obtain ⟨props, rfl⟩ := hu
        have hen : EntriesAre [(b!"P", ArrayIs (props.map fun g => IsUserProperty g.calls))] o.entries := ha.entries
        obtain ⟨x, q1, vs, q2, q3⟩ := required_head (read := followRef f bytes) (k := b!"P") (Q := fun x => ∃ vs, x = .arr vs ∧ ItemsAre (props.map fun g => IsUserProperty g.calls) vs)
          hen rfl (fun v hv => by obtain ⟨vs, rfl, hv⟩ := hv; exact ⟨_, rfl, vs, rfl, hv⟩)
        subst q2
        obtain ⟨r, q4, q5⟩ := propItems_read (f := f) (bytes := bytes) props hg.2 vs q3
        have ho : (o.owner == b!"UserProperties") = true := by rw [ha.owner]; rfl
        refine ⟨r :: rs, ?_, ?_⟩
        · rw [List.filter_cons_of_pos (p := fun o : AttrObj => o.owner == b!"UserProperties") ho]
          simp only [readEach, readPropObj, q1, Option.bind_some, q4, h1, Option.map_some]
        · exact pairwise_append q5 h2
      · have ho : (o.owner == b!"UserProperties") = false := by
          rw [ha.owner, beq_eq_false_iff_ne]
          cases g with
          | user props => exact absurd ⟨props, rfl⟩ hu
          | other w i es => exact isoOwner_user hg.2.2
          | _ => simp only [GivenAttributes.owner]; decide
        refine ⟨rs, ?_, ?_⟩
        · rw [List.filter_cons_of_neg (by simp [ho]), h1]
        · have : g.props = [] := by
            cases g with
            | user props => exact absurd ⟨props, rfl⟩ hu
            | _ => rfl
          rw [List.flatMap_cons, this, List.nil_append]
          exact h2
  obtain ⟨rs, h1, h2⟩ := key
  exact ⟨rs.flatten, by simp only [readUserProps, h1, Option.map_some], h2⟩

/-! ## Elements -/

theorem typeName_read {calls : List StructElementCall} {type : GivenType} (h : type.Set calls) {d : List (Bytes × Val)}
    (he : EntriesAre (StructElementEntries calls) d) :
    ∃ name, requiredEntry b!"S" d nameOf = some name ∧ optionalEntry b!"NS" d refNumber = some (type.space.map fun r => r.get.toNat) ∧ type.Named name := by
  have hS : ∀ {c : StructElementCall} {P : Val → Prop} {Q : Bytes → Prop}, OnlyCall StructElementMeans b!"S" calls c →
      (StructElementMeans c).filter (fun e => e.1 == b!"S") = [(b!"S", P)] → (∀ v, P v → ∃ n, nameOf v = some n ∧ Q n) →
      ∃ n, requiredEntry b!"S" d nameOf = some n ∧ Q n := fun ho hm hP =>
    required_head he (by simp only [StructElementEntries, List.filter_append, onlyCall_filter ho, hm]; rfl) hP
  have hN : NoCall StructElementMeans b!"NS" calls → optionalEntry b!"NS" d refNumber = some none := fun hn =>
    optional_absent he (by simp only [StructElementEntries, List.filter_append, noCall_filter hn]; rfl)
  have hR : ∀ {c : StructElementCall} {r : Ref}, OnlyCall StructElementMeans b!"NS" calls c →
      (StructElementMeans c).filter (fun e => e.1 == b!"NS") = [(b!"NS", IsRef r)] → optionalEntry b!"NS" d refNumber = some (some r.get.toNat) := fun {c r} ho hm => by
    obtain ⟨x, hx, rfl⟩ := optional_present (Q := fun x => x = r.get.toNat) (read := refNumber) he (k := b!"NS") (P := IsRef r)
      (by simp only [StructElementEntries, List.filter_append, onlyCall_filter ho, hm]; rfl) (fun v hv => ⟨_, by simp only [IsRef] at hv; subst hv; rfl, rfl⟩)
    exact hx
  have h17 : ∀ (r : StructRole) (v : Val), IsRole17 r v → ∃ n, nameOf v = some n ∧ n = isoRole17 r := fun r v hv =>
    ⟨_, by simp only [IsRole17] at hv; subst hv; rfl, rfl⟩
  have hnm : ∀ (c : Bytes) (v : Val), IsName c v → ∃ n, nameOf v = some n ∧ n = c := fun c v hv => ⟨_, isName_nameOf _ v hv, rfl⟩
  cases type with
  | role r =>
    obtain ⟨n, h1, h2⟩ := hS h.1 rfl (h17 r)
    exact ⟨n, h1, hN h.2, h2⟩
  | role2 r ns =>
    obtain ⟨n, h1, h2⟩ := hS (P := IsRole20 r) (Q := isoRole20 r) h.1 rfl (fun v hv => by obtain ⟨n, rfl, hn⟩ := hv; exact ⟨n, rfl, hn⟩)
    exact ⟨n, h1, hR h.2 rfl, h2⟩
  | custom c =>
    obtain ⟨n, h1, h2⟩ := hS h.1 rfl (hnm c)
    exact ⟨n, h1, hN h.2, h2⟩
  | roleIn r ns =>
    obtain ⟨n, h1, h2⟩ := hS h.1 rfl (h17 r)
    exact ⟨n, h1, hR h.2 rfl, h2⟩
  | customIn c ns =>
    obtain ⟨n, h1, h2⟩ := hS h.1 rfl (hnm c)
    exact ⟨n, h1, hR h.2 rfl, h2⟩

/-- The reader's surroundings are those given. -/
structure VocOk (items : List Item) (voc : Vocabulary) (rm cm : List (Bytes × Val)) : Prop where
  roles : EntriesAre (voc.roles.map fun e => (e.1, IsRole17 e.2)) rm
  distinct : (voc.roles.map (·.1)).Nodup
  classes : EntriesAre (voc.classMap.map fun e => (e.1, ClassIs e.2)) cm
  classesDistinct : (voc.classMap.map (·.1)).Nodup
  proper : ∀ e ∈ voc.classMap, ∀ g ∈ e.2.objects, g.Proper
  spaces : ∀ g ∈ voc.spaces, g.Written items

theorem objects_proper {voc : Vocabulary} (hp : ∀ e ∈ voc.classMap, ∀ g ∈ e.2.objects, g.Proper) {calls : List StructElementCall} {e : GivenElem}
    (h : e.Set calls) {given : List GivenAttributes} (ho : e.Objects voc.classMap given) : ∀ g ∈ given, g.Proper := by
  obtain ⟨cs, h1, rfl⟩ := ho
  intro g hg
  rcases List.mem_append.mp hg with hg' | hg'
  · obtain ⟨c, hc, hgc⟩ := List.mem_flatMap.mp hg'
    clear hg hg'
    revert h1 hc
    generalize e.classes.getD [] = ns
    intro h1
    induction h1 with
    | nil => simp
    | cons ha _ ih =>
      intro hc
      rcases List.mem_cons.mp hc with rfl | hc
      · exact hp _ ha g hgc
      · exact ih hc
  · exact h.proper g hg'

mutual
theorem sem_read (hf : Finds f bytes items) {voc : Vocabulary} {rm cm : List (Bytes × Val)} (hv : VocOk items voc rm cm) (extra : Ref → GivenElem)
    (t : StructPart) (depth : Nat) (hd : t.depth ≤ depth) (parent : Option Ref) (hw : t.Written items parent) (hx : t.Extra voc extra)
    (inh : Option (List Char)) (v : Val) (hval : t.value v) :
    ∃ r, readSemKid (readSem f bytes rm cm voc.steps depth inh) v = some r ∧ t.Same voc extra inh r := by
  cases t with
  | elem id calls type texts page kids =>
    simp only [StructPart.depth] at hd
    obtain ⟨n, rfl⟩ : ∃ n, depth = n + 1 := ⟨depth - 1, by omega⟩
    simp only [StructPart.Written] at hw
    obtain ⟨h1, h2, h3, -, -, h6, h7⟩ := hw
    simp only [StructPart.Extra] at hx
    obtain ⟨x1, ⟨given, x2⟩, ⟨name, x3, x4⟩, x5, x6⟩ := hx
    simp only [StructPart.value, IsRef] at hval
    subst hval
    obtain ⟨w, ho, hw⟩ := finds_val hf h1
    obtain ⟨d, rfl, he⟩ := structElement_denotes calls w hw
    obtain ⟨name', q1, q2, q3⟩ := typeName_read h2 he
    have := named_unique q3 x3
    subst this
    have q4 := chain_read hf hv.distinct hv.roles hv.spaces x4 voc.steps x5
    have q5 := optional_eq (read := readText) IsText (fun x => x) he rfl h3.lang (fun _ => rfl) (fun b v hv => readText_isText b v hv)
    obtain ⟨os, q6, q7⟩ := elemAttrs_read (f := f) (bytes := bytes) hv.classes hv.classesDistinct hv.proper x1 x2 he
    obtain ⟨ps, q8, q9⟩ := userProps_read (f := f) (bytes := bytes) q7 (objects_proper hv.proper x1 x2)
    have q10 := optional_eq (read := readRefs) (fun rs => ArrayIs (rs.map fun x => IsRef x))
      (fun rs => rs.map fun r => r.get.toNat) he rfl x1.refs (fun _ => rfl) (fun rs v hv => by
        obtain ⟨vs, rfl, hv⟩ := hv
        exact refNumbers_of rs vs hv)
    have q11 := optional_eq (read := readText) IsText (fun x => x) he rfl x1.phoneme (fun _ => rfl) (fun b v hv => readText_isText b v hv)
    have q12 := optional_eq (read := nameOf) (fun a => IsName (isoPhoneticAlphabet a)) isoPhoneticAlphabet he rfl x1.alphabet (fun _ => rfl)
      (fun b v hv => isName_nameOf _ v hv)
    obtain ⟨rss, q13, q14⟩ := kids_of h6 he (R := fun rss => partsSame voc extra (texts.lang.or inh) kids rss.flatten)
      (fun vs hvs => sems_read hf hv extra kids n (by omega) id h7 x6 (texts.lang.or inh) vs hvs)
    refine ⟨_, ?_, by
      simp only [StructPart.Same]
      refine ⟨os, ps, rss.flatten, rfl, ?_, q14⟩
      intro g hg
      have := objects_unique hv.classesDistinct hg x2
      subst this
      exact ⟨sameAttributes_of q7, q9⟩⟩
    simp only [readSemKid, readSem, ho, q1, q2, q4, q5, q6, q8, q10, q11, q12, Option.bind_some, Option.map_id_fun, Option.map_id_fun', id_eq, readSemKids, q13, Option.map_some]
    cases (extra id).refs <;> rfl
  | mcid m =>
    simp only [StructPart.value, IsInt] at hval
    subst hval
    exact ⟨[], rfl, by simp only [StructPart.Same]⟩
  | marked c pg s m =>
    obtain ⟨d, rfl, -⟩ := hval
    exact ⟨[], rfl, by simp only [StructPart.Same]⟩
  | object c pg o =>
    obtain ⟨d, rfl, -⟩ := hval
    exact ⟨[], rfl, by simp only [StructPart.Same]⟩
termination_by structural t
theorem sems_read (hf : Finds f bytes items) {voc : Vocabulary} {rm cm : List (Bytes × Val)} (hv : VocOk items voc rm cm) (extra : Ref → GivenElem)
    (ts : List StructPart) (depth : Nat) (hd : partsDepth ts ≤ depth) (parent : Ref) (hw : partsWritten items parent ts) (hx : partsExtra voc extra ts)
    (inh : Option (List Char)) (vs : List Val) (hvs : ItemsAre (ts.map StructPart.value) vs) :
    ∃ rss, readEach (readSemKid (readSem f bytes rm cm voc.steps depth inh)) vs = some rss ∧ partsSame voc extra inh ts rss.flatten := by
  cases ts with
  | nil =>
    simp only [List.map_nil, ItemsAre] at hvs
    subst hvs
    exact ⟨[], rfl, rfl⟩
  | cons t ts =>
    simp only [partsDepth] at hd
    simp only [partsWritten] at hw
    simp only [partsExtra] at hx
    obtain ⟨v, vs', rfl, hval, hr⟩ := hvs
    obtain ⟨r, h1, h2⟩ := sem_read hf hv extra t depth (by omega) (some parent) hw.1 hx.1 inh v hval
    obtain ⟨rs, h3, h4⟩ := sems_read hf hv extra ts depth (by omega) parent hw.2 hx.2 inh vs' hr
    refine ⟨r :: rs, ?_, by simp only [partsSame, List.flatten_cons]; exact ⟨r, rs.flatten, rfl, h2, h4⟩⟩
    simp only [readEach, h1, h3, Option.bind_some, Option.map_some]
termination_by structural ts
end

/-! ## The root -/

theorem semTop_read (hf : Finds f bytes items) {voc : Vocabulary} {rm cm : List (Bytes × Val)} (hv : VocOk items voc rm cm) (extra : Ref → GivenElem)
    (top : List StructPart) (tids : List Ref) (hids : elemIds top = some tids) (depth : Nat) (hd : partsDepth top ≤ depth) (parent : Option Ref)
    (hw : ∀ t ∈ top, t.Written items parent) (hx : partsExtra voc extra top) (inh : Option (List Char)) (vs : List Val)
    (hvs : ItemsAre (tids.map fun r => IsRef r) vs) :
    ∃ rss, readEach (readSemKid (readSem f bytes rm cm voc.steps depth inh)) vs = some rss ∧ partsSame voc extra inh top rss.flatten := by
  induction top generalizing tids vs with
  | nil =>
    simp only [elemIds, Option.some.injEq] at hids
    subst hids
    simp only [List.map_nil, ItemsAre] at hvs
    subst hvs
    exact ⟨[], rfl, rfl⟩
  | cons t ts ih =>
    cases t with
    | elem id calls type texts page kids =>
      simp only [elemIds, Option.map_eq_some_iff] at hids
      obtain ⟨tids', h0, rfl⟩ := hids
      obtain ⟨v, vs', rfl, hval, hr⟩ := hvs
      simp only [partsDepth] at hd
      simp only [partsExtra] at hx
      obtain ⟨r, h1, h2⟩ := sem_read hf hv extra (.elem id calls type texts page kids) depth (by omega) parent (hw _ (by simp)) hx.1 inh v hval
      obtain ⟨rs, h3, h4⟩ := ih tids' h0 (by omega) (fun t ht => hw t (by simp [ht])) hx.2 vs' hr
      refine ⟨r :: rs, ?_, by simp only [partsSame, List.flatten_cons]; exact ⟨r, rs.flatten, rfl, h2, h4⟩⟩
      simp only [readEach, h1, h3, Option.bind_some, Option.map_some]
    | mcid m => simp [elemIds] at hids
    | marked c pg s m => simp [elemIds] at hids
    | object c pg o => simp [elemIds] at hids

theorem roles_keyed (roles : List (Bytes × StructRole)) :
    (roles.flatMap fun e => RoleMapMeans (.insert e.1 e.2)) = roles.map fun e => (e.1, IsRole17 e.2) := by
  induction roles with
  | nil => rfl
  | cons e es ih => rw [List.flatMap_cons, ih]; rfl

theorem semantics_read (hf : Finds f bytes items) {cat : List CatalogCall} {root : List StructTreeRootCall} {rootId : Option Ref}
    {voc : Vocabulary} {top : List StructPart} (h : StructureWritten items cat rootId root voc.roles top) (hvw : VocabularyWritten items root voc)
    (extra : Ref → GivenElem) (hx : partsExtra voc extra top) {d : List (Bytes × Val)} (he : EntriesAre (CatalogEntries .code cat) d)
    {lang : Option (List Char)} (hl : MaybeCall (CatalogMeans .code) b!"Lang" cat lang .lang) (depth : Nat) (hd : partsDepth top ≤ depth) :
    ∃ rs, ((optionalEntry b!"Lang" d readText).bind fun lang => (readStructRoot f bytes d).bind fun r =>
      (optionalEntry b!"RoleMap" r.2 (followDict f bytes)).bind fun roles => (optionalEntry b!"ClassMap" r.2 (followDict f bytes)).bind fun classes =>
        readSemKids (readSem f bytes (roles.getD []) (classes.getD []) voc.steps depth lang) r.2) = some rs ∧ partsSame voc extra lang top rs := by
  obtain ⟨r, hr, her⟩ := root_read hf h.rootSet he
  obtain ⟨rm, q1, q2⟩ := roleMap_read (f := f) (bytes := bytes) h.rolesSet her
  rw [roles_keyed] at q2
  obtain ⟨cm, q3, q4⟩ : ∃ m, optionalEntry b!"ClassMap" r (followDict f bytes) = some m ∧
      EntriesAre (voc.classMap.map fun e => (e.1, ClassIs e.2)) (m.getD []) := by
    rcases hvw.classes with ⟨e, hn⟩ | ho
    · exact ⟨none, optional_absent her (by simp only [StructTreeRootEntries, List.filter_append, noCall_filter hn]; rfl), by rw [e]; rfl⟩
    · obtain ⟨a, h1, h2⟩ := optional_present (Q := fun a => EntriesAre (voc.classMap.map fun e => (e.1, ClassIs e.2)) a)
        (read := followDict f bytes) her (k := b!"ClassMap") (P := IsClassMap (voc.classMap.map fun e => e.2.call e.1))
        (by simp only [StructTreeRootEntries, List.filter_append, onlyCall_filter ho]; rfl)
        (fun v hv => by
          obtain ⟨m, rfl, hm⟩ := hv
          exact ⟨m, rfl, by rwa [classMap_entries] at hm⟩)
      exact ⟨some a, h1, h2⟩
  have hv : VocOk items voc (rm.getD []) (cm.getD []) := ⟨q2, h.distinct, q4, hvw.distinct, hvw.proper, hvw.spaces⟩
  obtain ⟨tids, k1, k2⟩ := h.kids
  obtain ⟨rs, h1, h2⟩ := rootKids_of k2 her (R := fun rss => partsSame voc extra lang top rss.flatten)
    (semTop_read hf hv extra top tids k1 depth hd rootId h.written hx lang)
  have q5 := optional_eq (read := readText) IsText id he rfl hl (fun _ => rfl) (fun b v hv => readText_isText b v hv)
  refine ⟨rs.flatten, ?_, h2⟩
  simp only [q5, hr, q1, q3, Option.bind_some, Option.map_id_fun, id_eq, readSemKids, h1, Option.map_some]

end PdfW
