import Verif.Spec.XObjects
import Verif.Proof.Associated
import Verif.Proof.Details

set_option linter.unusedSimpArgs false
set_option linter.unusedVariables false

namespace PdfW.Spec
open PdfW

variable {unf : Val → Bytes → Option Bytes} {f : FileEnd} {bytes : Bytes} {items : List Item}

/-- The dictionary of a stream, with the length that is always there. -/
theorem stream_dict (hf : Finds f bytes items) {id : Ref} {es : List (Bytes × Prog)} {ms : List (Bytes × (Val → Prop))} {data : Bytes}
    (ho : HasObject items id (.stream es data)) (hi : Implied EntryImplied es ms) :
    ∃ d, anyDict f bytes id.get.toNat = some d ∧ EntriesAre ((b!"Length", IsInt data.length) :: ms) d := by
  obtain ⟨d, q, hd⟩ := finds_stream hf ho
  exact ⟨_, by rw [anyDict, q], _, _, rfl, rfl, entriesAre_of hi hd⟩

theorem metadataOf_read (hf : Finds f bytes items) {id : Ref} {m : Option Ref} (h : MetadataOf items id m) :
    ∃ d y, anyDict f bytes id.get.toNat = some d ∧ optionalEntry b!"Metadata" d some = some y ∧ BothOrNone IsRef m y := by
  cases h with
  | catalog ho hm =>
    obtain ⟨v, q, hv⟩ := finds_val hf ho
    obtain ⟨d, rfl, he⟩ := catalog_denotes .code _ (Or.inl rfl) v hv
    obtain ⟨y, r, k⟩ := optional_call (pre := [(b!"Type", IsName b!"Catalog")]) (read := some) (R := IsRef) (P := IsRef) he rfl hm (fun _ _ => rfl) (fun b _ v hv => ⟨v, rfl, hv⟩)
    exact ⟨d, y, by rw [anyDict, q], r, k⟩
  | page ho hm =>
    obtain ⟨v, q, hv⟩ := finds_val hf ho
    obtain ⟨d, rfl, he⟩ := page_denotes .code _ (Or.inl rfl) v hv
    obtain ⟨y, r, k⟩ := optional_call (pre := [(b!"Type", IsName b!"Page")]) (read := some) (R := IsRef) (P := IsRef) he rfl hm (fun _ _ => rfl) (fun b _ v hv => ⟨v, rfl, hv⟩)
    exact ⟨d, y, by rw [anyDict, q], r, k⟩
  | @image calls data _ ho hm =>
    obtain ⟨d, q, he⟩ := stream_dict hf ho (imageXObject_implied _)
    obtain ⟨y, r, k⟩ := optional_call (pre := [(b!"Length", IsInt data.length), (b!"Type", IsName b!"XObject"), (b!"Subtype", IsName b!"Image")]) (read := some) (R := IsRef) (P := IsRef)
      he rfl hm (fun _ _ => rfl) (fun b _ v hv => ⟨v, rfl, hv⟩)
    exact ⟨d, y, q, r, k⟩
  | @form calls data _ ho hm =>
    obtain ⟨d, q, he⟩ := stream_dict hf ho (formXObject_implied _)
    obtain ⟨y, r, k⟩ := optional_call (pre := [(b!"Length", IsInt data.length), (b!"Type", IsName b!"XObject"), (b!"Subtype", IsName b!"Form")]) (read := some) (R := IsRef) (P := IsRef)
      he rfl hm (fun _ _ => rfl) (fun b _ v hv => ⟨v, rfl, hv⟩)
    exact ⟨d, y, q, r, k⟩
  | @profile calls data _ ho hm =>
    obtain ⟨d, q, he⟩ := stream_dict hf ho (iccProfile_implied _)
    obtain ⟨y, r, k⟩ := optional_call (pre := [(b!"Length", IsInt data.length)]) (read := some) (R := IsRef) (P := IsRef)
      he rfl hm (fun _ _ => rfl) (fun b _ v hv => ⟨v, rfl, hv⟩)
    exact ⟨d, y, q, r, k⟩

theorem alternate_read (hf : Finds f bytes items) (a : GivenAlternate) (h : HasObject items a.id (.val a.prog)) (v : Val) (hv : IsRef a.id v) :
    readAlternate f bytes v = some (a.image.get.toNat, a.printing.getD false) := by
  simp only [IsRef] at hv
  subst hv
  obtain ⟨w, q, hw⟩ := finds_val hf h
  obtain ⟨id, image, printing⟩ := a
  cases printing with
  | none =>
    obtain ⟨es, rfl, w1, ws, rfl, h1, rfl⟩ := hw
    simp only [PrimDenotes, Denotes] at h1
    subst h1
    rw [readAlternate, followDict, followRef, q]
    rfl
  | some p =>
    obtain ⟨es, rfl, w1, ws, rfl, h1, w2, ws2, rfl, h2, rfl⟩ := hw
    simp only [PrimDenotes, Denotes] at h1 h2
    subst h1 h2
    rw [readAlternate, followDict, followRef, q]
    rfl

theorem readEach_mem {α β γ : Type} {P : α → γ → Prop} {read : γ → Option β} {g : α → β} (as : List α) (hP : ∀ a ∈ as, ∀ v, P a v → read v = some (g a))
    {vs : List γ} (h : Pairwise P as vs) : readEach read vs = some (as.map g) := by
  induction h with
  | nil => rfl
  | cons h1 h2 ih =>
    simp only [readEach, hP _ List.mem_cons_self _ h1, Option.bind_some, ih fun a ha => hP a (List.mem_cons_of_mem _ ha), Option.map_some, List.map_cons]

theorem imageDetails_read (hf : Finds f bytes items) {id : Ref} {calls : List ImageXObjectCall} {data : Bytes}
    (ho : HasObject items id (.stream (ImageXObject.entries calls) data)) {x : ImageDetails F32} (hx : ImageDetailsSet items calls x) :
    ∃ d r, anyDict f bytes id.get.toNat = some d ∧ readImageDetails f bytes d = some r ∧ SameImageDetails x r := by
  obtain ⟨d, q, he⟩ := stream_dict hf ho (imageXObject_implied _)
  have he : EntriesAre ([(b!"Length", IsInt data.length), (b!"Type", IsName b!"XObject"), (b!"Subtype", IsName b!"Image")] ++ calls.flatMap ImageXObjectMeans) d := he
  obtain ⟨⟨i, e1, h1⟩, ⟨s, e2, h2⟩, ⟨o, e3, h3⟩, ⟨as, e4, ha, h4⟩, h5, h6⟩ := hx
  have r1 := optional_eq (read := nameOf) (fun i => IsName (isoRenderingIntent i)) isoRenderingIntent he rfl h1 (fun _ => rfl) (named_read isoRenderingIntent)
  have r2 := optional_eq (read := truthOf) IsBool (fun x => x) he rfl h2 (fun _ => rfl) bool_read
  have r3 := optional_eq (read := intOf) (fun o => IsInt (isoSMaskInData o)) isoSMaskInData he rfl h3 (fun _ => rfl) (fun b v hv => int_read _ v hv)
  obtain ⟨y4, r4, m4⟩ := optional_call (read := fun v => (itemsOf v).bind (readEach (readAlternate f bytes)))
    (P := fun as : List GivenAlternate => ArrayIs ((as.map GivenAlternate.id).map fun x => IsRef x))
    (R := fun as r => r = as.map fun a => (a.image.get.toNat, a.printing.getD false)) he rfl h4 (fun _ _ => rfl) (fun b hb v hv => by
      obtain ⟨vs, rfl, hv⟩ := hv
      rw [List.map_map] at hv
      have hv : ItemsAre (b.map fun (a : GivenAlternate) v => IsRef a.id v) vs := hv
      refine ⟨_, ?_, rfl⟩
      exact readEach_mem (P := fun (a : GivenAlternate) v => IsRef a.id v) b (fun a hm v hv => alternate_read hf a (ha a (by rw [hb]; exact hm)) v hv) (items_pairs (P := fun (a : GivenAlternate) v => IsRef a.id v) b vs hv))
  have r5 := optional_eq (read := intOf) IsInt (fun x => x) he rfl h5 (fun _ => rfl) int_read
  obtain ⟨y6, r6, m6⟩ := optional_call (read := itemsOf) (P := fun xs => ArrayIs (xs.map fun x => NumIs x)) (R := Pairwise NumIs) he rfl h6 (fun _ _ => rfl)
    (fun b _ v hv => numbers_read b v hv)
  simp only [Option.map_id_fun', _root_.id] at r2 r5
  refine ⟨d, ⟨i.map isoRenderingIntent, s.getD false, (o.map isoSMaskInData).getD 0, y4.getD [], x.tag, y6⟩, q, by simp only [readImageDetails, r1, r2, r3, r4, r5, r6, Option.bind_some, Option.map_some], ⟨⟨e1.symm, e2.symm, e3.symm, ?_, rfl⟩, m6⟩⟩
  rw [e4]
  cases as <;> cases y4 <;> simp_all [BothOrNone]

theorem formDetails_read (hf : Finds f bytes items) {id : Ref} {calls : List FormXObjectCall} {data : Bytes}
    (ho : HasObject items id (.stream (FormXObject.entries calls) data)) {x : FormDetails} (hx : FormDetailsSet calls x) :
    ∃ d, anyDict f bytes id.get.toNat = some d ∧ optionalEntry b!"LastModified" d dateOf = some x.modified ∧ optionalEntry b!"StructParent" d intOf = some x.tag ∧
      optionalEntry b!"StructParents" d intOf = some x.tags := by
  obtain ⟨d, q, he⟩ := stream_dict hf ho (formXObject_implied _)
  have he : EntriesAre ([(b!"Length", IsInt data.length), (b!"Type", IsName b!"XObject"), (b!"Subtype", IsName b!"Form")] ++ calls.flatMap FormXObjectMeans) d := he
  obtain ⟨⟨m, e1, h1⟩, h2, h3⟩ := hx
  have r1 := optional_eq (read := dateOf) IsDate expectedDate he rfl h1 (fun _ => rfl) dateOf_isDate
  have r2 := optional_eq (read := intOf) IsInt (fun x => x) he rfl h2 (fun _ => rfl) int_read
  have r3 := optional_eq (read := intOf) IsInt (fun x => x) he rfl h3 (fun _ => rfl) int_read
  simp only [Option.map_id_fun', _root_.id] at r2 r3
  exact ⟨d, q, by rw [r1, e1], r2, r3⟩

end PdfW.Spec
