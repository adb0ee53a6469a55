import Verif.Spec.Namespaces
import Verif.Proof.Semantics
import Verif.Proof.Associated
import Verif.Proof.XObjects

set_option linter.unusedSimpArgs false
set_option linter.unusedVariables false

/-! # Proofs for `Spec/Namespaces.lean`. -/

namespace PdfW
open Spec

variable {f : FileEnd} {bytes : Bytes} {items : List Item} {unf : Val → Bytes → Option Bytes}

/-- Each item is read as the one it stands for. -/
theorem readEach_rel {α β γ δ : Type} {P : α → γ → Prop} {R : α → δ → Prop} {read : γ → Option β} {g : δ → β}
    (hP : ∀ a x, R a x → ∀ v, P a v → read v = some (g x)) {as : List α} {xs : List δ} (hR : Pairwise R as xs) {vs : List γ} (h : Pairwise P as vs) :
    readEach read vs = some (xs.map g) := by
  induction hR generalizing vs with
  | nil => cases h; rfl
  | cons h1 h2 ih =>
    cases h with
    | cons k1 k2 => simp only [readEach, hP _ _ h1 _ k1, Option.bind_some, ih k2, Option.map_some, List.map_cons]

theorem array_rel {α β δ : Type} {P : α → Val → Prop} {R : α → δ → Prop} {read : Val → Option β} {g : δ → β}
    (hP : ∀ a x, R a x → ∀ v, P a v → read v = some (g x)) {as : List α} {xs : List δ} (hR : Pairwise R as xs) (v : Val) (h : ArrayIs (as.map P) v) :
    arrayOf read v = some (xs.map g) := by
  obtain ⟨vs, rfl, hv⟩ := h
  exact readEach_rel hP hR (items_pairs as vs hv)

theorem entries_pairs {α : Type} {P : Bytes × α → Val → Prop} (l : List (Bytes × α)) (d : List (Bytes × Val))
    (h : EntriesAre (l.map fun e => (e.1, P e)) d) : Pairwise (fun (e : Bytes × α) (x : Bytes × Val) => x.1 = e.1 ∧ P e x.2) l d := by
  induction l generalizing d with
  | nil => simp only [List.map_nil, EntriesAre] at h; subst h; exact .nil
  | cons e l ih =>
    simp only [List.map_cons, EntriesAre] at h
    obtain ⟨w, ws, rfl, h1, h2⟩ := h
    exact .cons ⟨rfl, h1⟩ (ih ws h2)

theorem nsTarget_read (hf : Finds f bytes items) {spaces : List GivenNamespace} (hs : ∀ g ∈ spaces, g.Written items) {t : NsTarget} {x : TypeIn}
    (h : NsTargetMeans spaces t x) (v : Val) (hv : NsTargetIs t v) : readNsTarget f bytes v = some x := by
  cases t with
  | pdf17 r =>
    simp only [NsTargetIs, IsRole17, NsTargetMeans] at hv h
    subst hv h
    rfl
  | pdf20 r ns =>
    obtain ⟨g, hg, rfl, name, hn, rfl⟩ := h
    obtain ⟨vs, rfl, a, as, rfl, ha, b, bs, rfl, hb, rfl⟩ := hv
    obtain ⟨n', ha, hn'⟩ := ha
    simp only [IsRef] at hb
    subst ha hb
    obtain ⟨m, hm, -⟩ := namespace_read hf (hs g hg)
    simp only [readNsTarget, hm, Option.map_some, isoRole20_unique hn' hn]
  | other n ns =>
    obtain ⟨g, hg, rfl, rfl⟩ := h
    obtain ⟨vs, rfl, a, as, rfl, ha, b, bs, rfl, hb, rfl⟩ := hv
    simp only [IsRef, IsName] at ha hb
    subst ha hb
    obtain ⟨m, hm, -⟩ := namespace_read hf (hs g hg)
    simp only [readNsTarget, hm, Option.map_some]

theorem nsInfo_read (hf : Finds f bytes items) {spaces : List GivenNamespace} (hs : ∀ g ∈ spaces, g.Written items) {g : GivenNamespace} {x : NsInfo Date}
    (h : NsInfoSet unf items spaces g x) : readNsInfo unf f bytes g.id.get.toNat = some x.expected := by
  obtain ⟨m, h1, h2⟩ := namespace_read hf h.written
  obtain ⟨v, ho, hv⟩ := finds_val hf h.written.object
  obtain ⟨d, rfl, he⟩ := namespace_denotes .code g.calls (Or.inl rfl) v hv
  have he : EntriesAre ([(b!"Type", IsName b!"Namespace")] ++ g.calls.flatMap (NamespaceMeans .code)) d := he
  obtain ⟨cs, k1, k2⟩ := h.schema
  obtain ⟨y, r1, m1⟩ := optional_both (read := readSpecified unf f bytes) (R := fun a b => b = a.expected) (P := IsFileSpec) he (by decide) k1 k2
    (fun _ _ _ => rfl) (fun b g hw v hv => ⟨_, specified_read hf hw v hv, rfl⟩)
  have r2 := readEach_rel (read := fun x : Bytes × Val => (readNsTarget f bytes x.2).map fun t => (x.1, t)) (g := fun x => x)
    (fun a x hx v hv => by
      rw [nsTarget_read hf hs hx.2 v.2 hv.2, Option.map_some, hv.1, ← hx.1]) h.map (entries_pairs (P := fun e => NsTargetIs e.2) g.map m h2)
  simp only [readNsInfo, h1, Option.bind_some, dictObject, ho, r1, r2, Option.map_some, bothOrNone_eq m1, List.map_id_fun', _root_.id,
    NsInfo.expected, h.uri, h.number]

theorem fileObject_read (hf : Finds f bytes items) {id : Ref} {x : Specified Date} (h : FileObject unf items id x) (v : Val) (hv : IsRef id v) :
    readSpecified unf f bytes v = some x.expected := by
  obtain ⟨calls, ho, hs⟩ := h
  simp only [IsRef] at hv
  subst hv
  obtain ⟨w, h1, h2⟩ := finds_val hf ho
  have := specified_read hf hs w (fileSpec_denotes calls w h2)
  obtain ⟨d, rfl, -⟩ := fileSpec_denotes calls w h2
  rw [← this]
  simp only [readSpecified, followDict, followRef, h1]

theorem nsList_read (hf : Finds f bytes items) {root : List StructTreeRootCall} {given : List GivenNamespace} {x : NsList Date}
    (h : NsListSet unf items root given x) {r : List (Bytes × Val)} (he : EntriesAre (StructTreeRootEntries .code root) r) :
    (optionalEntry b!"Namespaces" r (arrayOf fun v => (refNumber v).bind (readNsInfo unf f bytes))).map (fun l => l.getD []) = some (x.spaces.map NsInfo.expected) ∧
    (optionalEntry b!"PronunciationLexicon" r (arrayOf (readSpecified unf f bytes))).map (fun l => l.getD []) = some (x.lexicons.map Specified.expected) ∧
    optionalEntry b!"ParentTreeNextKey" r intOf = some x.next := by
  refine ⟨?_, ?_, ?_⟩
  · rcases h.spaces with ⟨e, hn⟩ | ⟨l, ho, hp⟩
    · rw [optional_absent he (by simp only [StructTreeRootEntries, List.filter_append, noCall_filter hn]; rfl), e]; rfl
    · obtain ⟨a, q1, q2⟩ := optional_present (Q := fun a => a = x.spaces.map NsInfo.expected) he (k := b!"Namespaces")
        (read := arrayOf fun v => (refNumber v).bind (readNsInfo unf f bytes))
        (P := ArrayIs ((l.map (·.id)).map fun x => IsRef x)) (by simp only [StructTreeRootEntries, List.filter_append, onlyCall_filter ho]; rfl)
        (fun v hv => ⟨_, by
          rw [List.map_map] at hv
          exact array_rel (R := NsInfoSet unf items given) (P := fun g : GivenNamespace => IsRef g.id) (fun g y hy w hw => by
            simp only [IsRef] at hw
            subst hw
            exact nsInfo_read hf h.written hy) hp v hv, rfl⟩)
      rw [q1, q2]; rfl
  · rcases h.lexicons with ⟨e, hn⟩ | ⟨l, ho, hp⟩
    · rw [optional_absent he (by simp only [StructTreeRootEntries, List.filter_append, noCall_filter hn]; rfl), e]; rfl
    · obtain ⟨a, q1, q2⟩ := optional_present (Q := fun a => a = x.lexicons.map Specified.expected) he (k := b!"PronunciationLexicon")
        (read := arrayOf (readSpecified unf f bytes))
        (P := ArrayIs (l.map fun x => IsRef x)) (by simp only [StructTreeRootEntries, List.filter_append, onlyCall_filter ho]; rfl)
        (fun v hv => ⟨_, array_rel (R := FileObject unf items) (fun g y hy w hw => fileObject_read hf hy w hw) hp v hv, rfl⟩)
      rw [q1, q2]; rfl
  · have he : EntriesAre ([(b!"Type", IsName b!"StructTreeRoot")] ++ root.flatMap (StructTreeRootMeans .code)) r := he
    have := optional_eq (read := intOf) IsInt (fun x => x) he (by decide) h.next (fun _ => rfl) int_read
    rwa [Option.map_id_fun'] at this

end PdfW
