import Verif.Spec.Borders
import Verif.Proof.Annots
import Verif.Proof.States
import Verif.Proof.Events

set_option linter.unusedSimpArgs false
set_option linter.unusedVariables false

/-! # Borders and appearance characteristics: proofs -/

namespace PdfW
open Spec Imaging

variable {unf : Val → Bytes → Option Bytes} {f : FileEnd} {bytes : Bytes} {items : List Item}

theorem outline_read {calls : List BorderStyleCall} {x : Outline F32} (h : OutlineSet calls x) (v : Val) (hv : IsBorderStyle calls v) :
    ∃ r, readOutline f bytes v = some r ∧ SameOutline x r := by
  obtain ⟨d, rfl, he⟩ := hv
  have he : EntriesAre ([(b!"Type", IsName b!"Border")] ++ calls.flatMap BorderStyleMeans) d := he
  obtain ⟨h1, ⟨s, es, h2⟩, h3⟩ := h
  obtain ⟨y1, r1, m1⟩ := optional_call (read := numberOf) (R := NumIs) (P := NumIs) he (by decide) h1 (fun _ _ => rfl) (fun b _ v hv => numberOf_read b v hv)
  have r2 := optional_eq (read := nameOf) (fun s => IsName (isoBorderType s)) isoBorderType he (by decide) h2 (fun _ => rfl) (fun b => isName_nameOf _)
  obtain ⟨y3, r3, m3⟩ := optional_call (read := itemsOf) (R := Pairwise NumIs) (P := fun l => ArrayIs (l.map fun x => NumIs x)) he (by decide) h3 (fun _ _ => rfl)
    (fun b _ v hv => numbers_read b v hv)
  exact ⟨⟨y1, s.map isoBorderType, y3⟩, by simp only [readOutline, followDict, followRef, r1, r2, r3, Option.bind_some, Option.map_some], ⟨m1, es.symm, m3⟩⟩

theorem placement_read {calls : List IconFitCall} {x : IconPlace F32} (h : IconPlaceSet calls x) (v : Val) (hv : IsIconFit calls v) :
    ∃ r, readIconPlace f bytes v = some r ∧ SameIconPlace x r := by
  obtain ⟨d, rfl, he⟩ := hv
  have he : EntriesAre ([] ++ calls.flatMap IconFitMeans) d := he
  obtain ⟨⟨s, es, h1⟩, ⟨k, ek, h2⟩, ⟨p, ep, h3⟩, ⟨b, eb, h4⟩⟩ := h
  have r1 := optional_eq (read := nameOf) (fun s => IsName (isoIconScale s)) isoIconScale he (by decide) h1 (fun _ => rfl) (fun b => isName_nameOf _)
  have r2 := optional_eq (read := nameOf) (fun s => IsName (isoIconScaleType s)) isoIconScaleType he (by decide) h2 (fun _ => rfl) (fun b => isName_nameOf _)
  obtain ⟨y3, r3, m3⟩ := optional_call (read := itemsOf) (R := fun (p : F32 × F32) vs => Pairwise NumIs [p.1, p.2] vs) (P := fun (p : F32 × F32) => ArrayIs [NumIs p.1, NumIs p.2]) he (by decide) h3
    (fun _ _ => rfl) (fun b _ v hv => numbers_read [b.1, b.2] v hv)
  have r4 := optional_eq (read := truthOf) IsBool (fun x => x) he (by decide) h4 (fun _ => rfl) bool_read
  simp only [Option.map_id_fun', id] at r4
  exact ⟨⟨s.map isoIconScale, k.map isoIconScaleType, y3, b.getD false⟩,
    by simp only [readIconPlace, followDict, followRef, r1, r2, r3, r4, Option.bind_some, Option.map_some],
    ⟨es.symm, ek.symm, by rw [ep]; exact bothOrNone_map (R := Pairwise NumIs) (h := fun p : F32 × F32 => [p.1, p.2]) m3, eb.symm⟩⟩

theorem icon_read (hf : Finds f bytes items) {forms n : Nat} (hn : forms ≤ n) {r : Ref} {x : Icon (Element F32 Prog)} (h : IconSet unf items forms r x) (v : Val)
    (hv : IsRef r v) : ∃ y, readIcon unf f bytes n v = some y ∧ SameIcon x y := by
  obtain ⟨form, rfl, hx, hw⟩ := h
  obtain ⟨es, q1, q2⟩ := appearance_read hf forms n hn ⟨form, x.elements⟩ hw
  simp only [IsRef] at hv
  subst hv
  exact ⟨⟨form.id.get.toNat, es⟩, by simp only [readIcon, refNumber, Option.bind_some, q1, Option.map_some], ⟨hx.symm, q2⟩⟩

/-- Colors, and other entries that several calls can set. -/
theorem optional_any {α γ δ : Type} {means : α → List (Bytes × (Val → Prop))} {pre : List (Bytes × (Val → Prop))} {calls : List α}
    {d : List (Bytes × Val)} {k : Bytes} {x : Option α} {y : Option δ} {read : Val → Option γ} {R : δ → γ → Prop}
    {W : α → δ → Prop} (he : EntriesAre (pre ++ calls.flatMap means) d) (hp : pre.filter (fun e => e.1 == k) = [])
    (hx : MaybeCall means k calls x (fun c => c)) (hb : BothOrNone W x y)
    (hr : ∀ b g, W b g → ∃ P, (means b).filter (fun e => e.1 == k) = [(k, P)] ∧ ∀ v, P v → ∃ a, read v = some a ∧ R g a) :
    ∃ z, optionalEntry k d read = some z ∧ BothOrNone R y z := by
  cases x with
  | none =>
    cases y with
    | none => exact ⟨none, optional_absent he (by rw [List.filter_append, hp, noCall_filter hx]; rfl), trivial⟩
    | some y => exact hb.elim
  | some b =>
    cases y with
    | none => exact hb.elim
    | some y =>
      obtain ⟨P, q1, q2⟩ := hr b y hb
      obtain ⟨a, h1, h2⟩ := optional_present (k := k) (read := read) (Q := R y) he
        (by rw [List.filter_append, hp, onlyCall_filter (show OnlyCall means k calls b from hx), q1]; rfl) q2
      exact ⟨some a, h1, h2⟩

theorem borderColor_read {c : AppearanceCharacteristicsCall} {x : List F32} (h : BorderColorSet c x) :
    ∃ P, (AppearanceCharacteristicsMeans .code c).filter (fun e => e.1 == b!"BC") = [(b!"BC", P)] ∧
      ∀ v, P v → ∃ a, itemsOf v = some a ∧ Pairwise NumIs x a := by
  refine ⟨ArrayIs (x.map fun x => NumIs x), by cases h <;> rfl, fun v hv => numbers_read x v hv⟩

theorem background_read {c : AppearanceCharacteristicsCall} {x : List F32} (h : BackgroundSet c x) :
    ∃ P, (AppearanceCharacteristicsMeans .code c).filter (fun e => e.1 == b!"BG") = [(b!"BG", P)] ∧
      ∀ v, P v → ∃ a, itemsOf v = some a ∧ Pairwise NumIs x a := by
  refine ⟨ArrayIs (x.map fun x => NumIs x), by cases h <;> rfl, fun v hv => numbers_read x v hv⟩

theorem characteristics_read (hf : Finds f bytes items) {forms n : Nat} (hn : forms ≤ n) {calls : List AppearanceCharacteristicsCall} {x : GivenCharacteristics}
    (h : CharacteristicsSet unf items forms calls x) (v : Val) (hv : IsAppearanceCharacteristics .code calls v) :
    ∃ r, readCharacteristics unf f bytes n v = some r ∧ SameCharacteristics x r := by
  obtain ⟨d, rfl, he⟩ := hv
  have he : EntriesAre ([] ++ calls.flatMap (AppearanceCharacteristicsMeans .code)) d := he
  obtain ⟨h1, ⟨c2, h2, h2'⟩, ⟨c3, h3, h3'⟩, h4, h5, h6, ⟨c7, h7, h7'⟩, ⟨c8, h8, h8'⟩, ⟨c9, h9, h9'⟩, ⟨c10, h10, h10'⟩, ⟨p, ep, h11⟩⟩ := h
  have r1 := optional_eq (read := intOf) IsInt (fun x => x) he (by decide) h1 (fun _ => rfl) int_read
  obtain ⟨y2, r2, m2⟩ := optional_any (read := itemsOf) (R := Pairwise NumIs) he (by decide) h2 h2' (fun _ _ => borderColor_read)
  obtain ⟨y3, r3, m3⟩ := optional_any (read := itemsOf) (R := Pairwise NumIs) he (by decide) h3 h3' (fun _ _ => background_read)
  have r4 := optional_eq (read := readText) IsText (fun x => x) he (by decide) h4 (fun _ => rfl) readText_isText
  have r5 := optional_eq (read := readText) IsText (fun x => x) he (by decide) h5 (fun _ => rfl) readText_isText
  have r6 := optional_eq (read := readText) IsText (fun x => x) he (by decide) h6 (fun _ => rfl) readText_isText
  obtain ⟨y7, r7, m7⟩ := optional_both (read := readIcon unf f bytes n) (R := SameIcon) (P := IsRef) he (by decide) h7 h7' (fun _ _ _ => rfl)
    (fun b g hw v hv => icon_read hf hn hw v hv)
  obtain ⟨y8, r8, m8⟩ := optional_both (read := readIcon unf f bytes n) (R := SameIcon) (P := IsRef) he (by decide) h8 h8' (fun _ _ _ => rfl)
    (fun b g hw v hv => icon_read hf hn hw v hv)
  obtain ⟨y9, r9, m9⟩ := optional_both (read := readIcon unf f bytes n) (R := SameIcon) (P := IsRef) he (by decide) h9 h9' (fun _ _ _ => rfl)
    (fun b g hw v hv => icon_read hf hn hw v hv)
  obtain ⟨y10, r10, m10⟩ := optional_both (read := readIconPlace f bytes) (R := SameIconPlace) (P := IsIconFit) he (by decide) h10 h10' (fun _ _ _ => rfl)
    (fun b g hw v hv => placement_read hw v hv)
  have r11 := optional_eq (read := intOf) (fun p => IsInt (isoTextPosition p)) isoTextPosition he (by decide) h11 (fun _ => rfl) (fun b => int_read _)
  simp only [Option.map_id_fun', id] at r1 r4 r5 r6
  exact ⟨⟨x.rotate, y2, y3, x.caption, x.rolloverCaption, x.downCaption, y7, y8, y9, y10, p.map isoTextPosition⟩,
    by simp only [readCharacteristics, followDict, followRef, r1, r2, r3, r4, r5, r6, r7, r8, r9, r10, r11, Option.bind_some, Option.map_some],
    ⟨m2, m3, m7, m8, m9, m10, rfl, rfl, rfl, rfl, ep.symm⟩⟩

/-- As `source_call`, for entries that hold dictionaries. -/
theorem source_both {β γ δ : Type} {s : AnnotSource} {k : Bytes} {x : Option β} {y : Option δ} {c : β → AnnotationCall} {read : Val → Option γ}
    {R : δ → γ → Prop} {W : β → δ → Prop} (P : β → Val → Prop) (hk : k ≠ b!"Type" ∧ k ≠ b!"Subtype") {d : List (Bytes × Val)} (he : EntriesAre s.meant d)
    (hx : s.Sets k x c) (hb : BothOrNone W x y) (hc : ∀ b, (AnnotationMeans .code (c b)).filter (fun e => e.1 == k) = [(k, P b)])
    (hP : ∀ b g, W b g → ∀ v, P b v → ∃ a, read v = some a ∧ R g a) : ∃ z, optionalEntry k d read = some z ∧ BothOrNone R y z := by
  obtain ⟨z, q1, q2⟩ := source_call (read := some) (R := P) P hk he hx hc (fun b v hv => ⟨v, rfl, hv⟩)
  have q3 := optional_raw read q1
  cases x with
  | none =>
    cases y with
    | none =>
      cases z with
      | none => exact ⟨none, q3, trivial⟩
      | some z => exact q2.elim
    | some y => exact hb.elim
  | some b =>
    cases y with
    | none => exact hb.elim
    | some y =>
      cases z with
      | none => exact q2.elim
      | some z =>
        obtain ⟨a, e1, e2⟩ := hP b y hb z q2
        exact ⟨some a, by rw [q3]; simp only [Option.elim, e1, Option.map_some], e2⟩

theorem trim_read (hf : Finds f bytes items) {forms n : Nat} (hn : forms ≤ n) {id : Ref} {x : GivenTrim} (h : TrimSet unf items forms id x) :
    ∃ r, readTrim unf f bytes n id.get.toNat = some r ∧ SameTrim x r := by
  obtain ⟨hx, s, ho, ⟨c1, h1, h1'⟩, c2, h2, h2'⟩ := h
  obtain ⟨v, q, hv⟩ := finds_val hf ho
  obtain ⟨d, rfl, he⟩ := source_body s v hv
  obtain ⟨y1, r1, m1⟩ := source_both (read := readOutline f bytes) (R := SameOutline) IsBorderStyle (by decide) he h1 h1' (fun _ => rfl)
    (fun b g hw v hv => outline_read hw v hv)
  obtain ⟨y2, r2, m2⟩ := source_both (read := readCharacteristics unf f bytes n) (R := SameCharacteristics) (IsAppearanceCharacteristics .code) (by decide) he h2 h2'
    (fun _ => rfl) (fun b g hw v hv => characteristics_read hf hn hw v hv)
  exact ⟨⟨id.get.toNat, y1, y2⟩, by simp only [readTrim, dictObject, q, r1, r2, Option.bind_some, Option.map_some], ⟨hx.symm, m1, m2⟩⟩

/-- What can be read of each annotation can be read page by page. -/
theorem eachAnnot_read {α β : Type} (hf : Finds f bytes items) {W : Ref → α → Prop} {R : α → β → Prop} {read : Nat → Option β}
    (key : ∀ id x, W id x → ∃ r, read id.get.toNat = some r ∧ R x r) (ls : List (Ref × List PageCall)) (pages : List (List α))
    (hob : ∀ e ∈ ls, HasObject items e.1 (.val (Page.prog e.2))) (h : Pairwise (fun e xs => ∃ ids, AnnotsSet e.2 ids ∧ Pairwise W ids xs) ls pages) :
    ∃ rs, readEach (fun m => (pageAnnots f bytes m).bind (readEach read)) (ls.map fun e => e.1.get.toNat) = some rs ∧ Pairwise (Pairwise R) pages rs := by
  have each : ∀ ids xs, Pairwise W ids xs → ∃ rs, readEach read (ids.map fun r => r.get.toNat) = some rs ∧ Pairwise R xs rs := by
    intro ids xs h
    induction h with
    | nil => exact ⟨[], rfl, .nil⟩
    | cons h1 _ ih =>
      obtain ⟨r, q1, q2⟩ := key _ _ h1
      obtain ⟨rs, q3, q4⟩ := ih
      exact ⟨r :: rs, by simp only [List.map_cons, readEach, q1, q3, Option.bind_some, Option.map_some], .cons q2 q4⟩
  induction h with
  | nil => exact ⟨[], rfl, .nil⟩
  | cons ha hr ih =>
    rename_i e xs es xss
    obtain ⟨ids, ha1, ha2⟩ := ha
    obtain ⟨rs, h1, h2⟩ := ih (fun e he => hob e (List.mem_cons_of_mem _ he))
    obtain ⟨r, h3, h4⟩ := each ids xs ha2
    have hp := page_annots_read hf [e] [ids] (by intro x hx; simp only [List.mem_singleton] at hx; subst hx; exact hob _ (List.mem_cons_self ..))
      (.cons ha1 .nil)
    simp only [List.map_cons, List.map_nil, readEach] at hp
    cases hq : pageAnnots f bytes e.1.get.toNat with
    | none => rw [hq] at hp; simp at hp
    | some l =>
      rw [hq] at hp
      simp only [Option.bind_some, Option.map_some, Option.some.injEq, List.cons.injEq, and_true] at hp
      subst hp
      exact ⟨r :: rs, by simp only [List.map_cons, readEach, hq, Option.bind_some, h3, h1, Option.map_some], .cons h4 h2⟩

end PdfW
