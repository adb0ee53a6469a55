import Verif.Spec.Resources
import Verif.Proof.XObjects
import Verif.Proof.Colors

set_option linter.unusedSimpArgs false
set_option linter.unusedVariables false

/-! # Proofs for `Spec/Resources.lean`. -/

namespace PdfW
open Spec

variable {f : FileEnd} {bytes : Bytes} {items : List Item} {unf : Val → Bytes → Option Bytes}

theorem pairwise_refl {α : Type} {R : α → α → Prop} (h : ∀ a, R a a) (as : List α) : Pairwise R as as := by
  induction as with
  | nil => exact .nil
  | cons a as ih => exact .cons (h a) ih

theorem categoryNames_read (hf : Finds f bytes items) {rc : List ResourcesCall} {key : Bytes} {method : List (Bytes × Prog) → ResourcesCall}
    {xs : List (Bytes × Prog)} (hi : ∀ es, ResourcesMeans (method es) = [(key, DictIs (es.map fun e => (e.1, Denotes e.2)))])
    (h : CategoryIs items rc key method xs) {d : List (Bytes × Val)} (hd : EntriesAre (ResourcesEntries rc) d) :
    ∃ rs, readCategory f bytes d key some = some rs ∧ NamesMean xs rs := by
  refine category_read (written := fun p x => x = p) (Q := Denotes) hf hi (h.imp id fun h => ⟨xs, h, pairwise_refl (fun a => ⟨rfl, rfl⟩) xs⟩) hd ?_
  rintro p x rfl v hv
  exact ⟨v, rfl, hv⟩

theorem resourceLists_read (hf : Finds f bytes items) {rc : List ResourcesCall} {x : GivenResources} (h : ResourcesGiven items rc x) (v : Val)
    (hv : IsResources rc v) : ∃ r, readResourceLists f bytes v = some r ∧ x.Means r := by
  obtain ⟨d, rfl, he⟩ := hv
  obtain ⟨r1, q1, m1⟩ := categoryNames_read hf (fun _ => rfl) h.xObjects he
  obtain ⟨r2, q2, m2⟩ := categoryNames_read hf (fun _ => rfl) h.fonts he
  obtain ⟨r3, q3, m3⟩ := categoryNames_read hf (fun _ => rfl) h.spaces he
  obtain ⟨r4, q4, m4⟩ := categoryNames_read hf (fun _ => rfl) h.patterns he
  obtain ⟨r5, q5, m5⟩ := categoryNames_read hf (fun _ => rfl) h.shadings he
  obtain ⟨r6, q6, m6⟩ := categoryNames_read hf (fun _ => rfl) h.states he
  obtain ⟨r7, q7, m7⟩ : ∃ rs, readCategory f bytes d b!"Properties" some = some rs ∧
      NamesMean (x.properties.map fun e => (e.1, .dict (e.2.map propEntry))) rs := by
    rcases h.properties with ⟨hn, e⟩ | ho
    · refine ⟨[], ?_, by rw [e]; exact .nil⟩
      rw [readCategory, optional_absent he (by simp only [ResourcesEntries, noCall_filter hn])]
      rfl
    · obtain ⟨a, k1, k2⟩ := optional_present (k := b!"Properties") (read := fun v => (followDict f bytes v).bind (readEach fun e => (some e.2).map fun x => (e.1, x)))
        (P := DictIs (x.properties.map fun e => (e.1, Denotes (.dict (e.2.map propEntry)))))
        (Q := fun rs => NamesMean (x.properties.map fun e => (e.1, .dict (e.2.map propEntry))) rs) he
        (by rw [ResourcesEntries, onlyCall_filter ho]; rfl) (by
          rintro v ⟨es, rfl, hes⟩
          refine ⟨es, ?_, ?_⟩
          · show readEach (fun e : Bytes × Val => (some e.2).map fun x => (e.1, x)) es = some es
            clear hes
            induction es with
            | nil => rfl
            | cons e es ih => simp only [readEach, Option.map_some, Option.bind_some] at ih ⊢; rw [ih]; rfl
          · generalize x.properties = l at hes
            induction l generalizing es with
            | nil => simp only [List.map_nil, EntriesAre] at hes; subst hes; exact .nil
            | cons e l ih =>
              simp only [List.map_cons, EntriesAre] at hes
              obtain ⟨w, ws, rfl, h1, h2⟩ := hes
              exact .cons ⟨rfl, h1⟩ (ih ws h2))
      exact ⟨a, by rw [readCategory, k1]; rfl, k2⟩
  have q8 : optionalEntry b!"ProcSet" d (arrayOf nameOf) = some (x.procSets.map fun l => l.map isoProcSet) := by
    have hpr : ∀ (l : List ProcSet) (v : Val), ArrayIs (l.map fun x => IsName (isoProcSet x)) v → arrayOf nameOf v = some (l.map isoProcSet) :=
      fun l v hv => array_read (fun a v hv => isName_nameOf _ v hv) l v hv
    rcases h.procSets with hp | ⟨hp, e⟩
    · exact optional_eq (pre := []) (fun l => ArrayIs (l.map fun x => IsName (isoProcSet x))) (fun l => l.map isoProcSet) he rfl hp (fun _ => rfl) hpr
    · obtain ⟨a, k1, rfl⟩ := optional_present (k := b!"ProcSet") (read := arrayOf nameOf)
        (P := ArrayIs ([ProcSet.pdf, .text, .imageGrayscale, .imageColor, .imageIndexed].map fun x => IsName (isoProcSet x)))
        (Q := fun a => a = [ProcSet.pdf, .text, .imageGrayscale, .imageColor, .imageIndexed].map isoProcSet) he
        (by rw [ResourcesEntries, onlyCall_filter hp]; rfl) (fun v hv => ⟨_, hpr _ v hv, rfl⟩)
      rw [k1, e]
      rfl
  refine ⟨⟨r1, r2, r3, r4, r5, r6, r7, x.procSets.map fun l => l.map isoProcSet⟩, ?_, ⟨m1, m2, m3, m4, m5, m6, m7, rfl⟩⟩
  simp only [readResourceLists, followDict, followRef, q1, q2, q3, q4, q5, q6, q7, q8, Option.bind_some, Option.map_some]

theorem resourcesOf_read (hf : Finds f bytes items) {id : Ref} {res : Option (List ResourcesCall)} (h : ResourcesOf items id res) :
    ∃ d y, anyDict f bytes id.get.toNat = some d ∧ optionalEntry b!"Resources" d some = some y ∧ BothOrNone IsResources res y := by
  cases h with
  | page ho hm =>
    obtain ⟨v, q, hv⟩ := finds_val hf ho
    obtain ⟨d, rfl, he⟩ := page_denotes .code _ (Or.inl rfl) v hv
    obtain ⟨y, r, k⟩ := optional_call (pre := [(b!"Type", IsName b!"Page")]) (read := some) (R := IsResources) (P := IsResources) he rfl hm (fun _ _ => rfl)
      (fun b _ v hv => ⟨v, rfl, hv⟩)
    exact ⟨d, y, by rw [anyDict, q], r, k⟩
  | pages ho hm =>
    obtain ⟨v, q, hv⟩ := finds_val hf ho
    obtain ⟨d, rfl, he⟩ := pages_denotes _ v hv
    obtain ⟨y, r, k⟩ := optional_call (pre := [(b!"Type", IsName b!"Pages")]) (read := some) (R := IsResources) (P := IsResources) he rfl hm (fun _ _ => rfl)
      (fun b _ v hv => ⟨v, rfl, hv⟩)
    exact ⟨d, y, by rw [anyDict, q], r, k⟩
  | @form calls data _ ho hm =>
    obtain ⟨d, q, he⟩ := stream_dict hf ho (formXObject_implied _)
    obtain ⟨y, r, k⟩ := optional_call (pre := [(b!"Length", IsInt data.length), (b!"Type", IsName b!"XObject"), (b!"Subtype", IsName b!"Form")]) (read := some)
      (R := IsResources) (P := IsResources) he rfl hm (fun _ _ => rfl) (fun b _ v hv => ⟨v, rfl, hv⟩)
    exact ⟨d, y, q, r, k⟩
  | @pattern calls data _ ho hm =>
    obtain ⟨d, q, he⟩ := stream_dict hf ho (tilingPattern_implied _)
    obtain ⟨y, r, k⟩ := optional_call (pre := [(b!"Length", IsInt data.length), (b!"Type", IsName b!"Pattern"), (b!"PatternType", IsInt 1)]) (read := some)
      (R := IsResources) (P := IsResources) he rfl hm (fun _ _ => rfl) (fun b _ v hv => ⟨v, rfl, hv⟩)
    exact ⟨d, y, q, r, k⟩
  | type3 ho hm =>
    obtain ⟨v, q, hv⟩ := finds_val hf ho
    obtain ⟨d, rfl, he⟩ := type3Font_denotes _ v hv
    obtain ⟨y, r, k⟩ := optional_call (pre := [(b!"Type", IsName b!"Font"), (b!"Subtype", IsName b!"Type3")]) (read := some) (R := IsResources) (P := IsResources)
      he rfl hm (fun _ _ => rfl) (fun b _ v hv => ⟨v, rfl, hv⟩)
    exact ⟨d, y, by rw [anyDict, q], r, k⟩

end PdfW
