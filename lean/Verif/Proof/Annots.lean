import Verif.Spec.Annots
import Verif.Proof.Display
import Verif.Proof.Fields
import Verif.Proof.Fonts
import Verif.Proof.Properties

set_option linter.unusedSimpArgs false
set_option linter.unusedVariables false

/-! # Annotations: proofs -/

namespace PdfW
open Spec Imaging

variable {unf : Val → Bytes → Option Bytes} {f : FileEnd} {bytes : Bytes} {items : List Item}

/-! ## Appearances -/

theorem appearance_read (hf : Finds f bytes items) (forms n : Nat) (hn : forms ≤ n) (g : GivenStream) (hg : g.Written unf items forms) :
    ∃ es, readAppearance unf f bytes n g.form.id.get.toNat = some es ∧ Pairwise (SameElement NumIs Denotes) g.elements es := by
  obtain ⟨hw, res', matrix, r, hset, hmx, hbb, hd⟩ := hg
  obtain ⟨d, rv', data, fops, q1, q2, q3, q4, q5, q6, q7⟩ := form_read hf g.form hw (res := none) (rv := none) rfl hset
  obtain ⟨d', g1, g2⟩ := finds_stream hf hw.object
  have hent := entriesAre_of (formXObject_implied g.form.calls) g2
  obtain ⟨y, hy, hym⟩ := optional_call (read := itemsOf) (R := Pairwise NumIs) (P := fun xs => ArrayIs (xs.map fun x => NumIs x))
    hent rfl hmx (fun _ _ => rfl) (fun b _ v hv => numbers_read b v hv)
  have hbf : (FormXObjectEntries g.form.calls).filter (fun e => e.1 == b!"BBox") = [(b!"BBox", IsRect r)] := by
    simp only [FormXObjectEntries, List.filter_append, onlyCall_filter hbb]; rfl
  obtain ⟨w, hl, bs, rfl, hbs⟩ := lookup_of hent hbf
  rw [g1] at q1
  obtain rfl : (b!"Length", Val.int g.form.data.length) :: d' = d := by
    simpa using q1
  have hmt : Pairwise (Pairwise NumIs) matrix.toList y.toList := by
    cases matrix <;> cases y <;> first | exact .nil | exact hym.elim | exact .cons hym .nil
  have hini : SameState NumIs Denotes (initial fun n => .prim (.name n)) (initial Val.name) :=
    ⟨.nil, .nil, ⟨rfl, .nil, trivial⟩, ⟨rfl, .nil, trivial⟩, .nil⟩
  have hin := inside_same hmt (itemsAre_pairwise [r.x1, r.y1, r.x2, r.y2] bs hbs) hini
  obtain ⟨fas, fes, p1, p2, p3⟩ := displays_read hf forms n hn res' rv' q4 _ _ hin g.form.content g.elements hd fops q7
  refine ⟨fes, ?_, p3⟩
  simp only [readAppearance, g1, q2, q3, q5, q6, Option.bind_some, nameOf, if_true]
  rw [optional_cons (by decide), hy, lookup_skip_length (by decide), hl]
  simp only [itemsOf, Option.bind_some, p1, p2]

theorem states_read (hf : Finds f bytes items) (forms n : Nat) (hn : forms ≤ n) (l : List (Bytes × GivenStream))
    (hl : ∀ s ∈ l.map Prod.snd, s.Written unf items forms) (es : List (Bytes × Val)) (he : EntriesAre (l.map fun e => (e.1, IsRef e.2.form.id)) es) :
    ∃ rs, readEach (fun e : Bytes × Val => (refNumber e.2).bind fun m => (readAppearance unf f bytes n m).map fun l => (e.1, m, l)) es = some rs ∧
      Pairwise (fun (e : Bytes × GivenStream) (r : Bytes × Nat × List (Element Val Val)) => r.1 = e.1 ∧ r.2.1 = e.2.form.id.get.toNat ∧
        Pairwise (SameElement NumIs Denotes) e.2.elements r.2.2) l rs := by
  induction l generalizing es with
  | nil => simp only [List.map_nil, EntriesAre] at he; subst he; exact ⟨[], rfl, .nil⟩
  | cons a l ih =>
    simp only [List.map_cons, EntriesAre] at he
    obtain ⟨w, ws, rfl, hw, h2⟩ := he
    simp only [IsRef] at hw
    subst hw
    obtain ⟨rs, h3, h4⟩ := ih (fun s hs => hl s (by simp only [List.map_cons, List.mem_cons]; exact Or.inr hs)) ws h2
    obtain ⟨es', h5, h6⟩ := appearance_read hf forms n hn a.2 (hl a.2 (by simp))
    refine ⟨(a.1, a.2.form.id.get.toNat, es') :: rs, ?_, .cons ⟨rfl, rfl, h6⟩ h4⟩
    rw [readEach, h3]
    simp only [refNumber, Option.bind_some, h5, Option.map_some]

theorem look_read (hf : Finds f bytes items) (forms n : Nat) (hn : forms ≤ n) (g : GivenLook) (hg : ∀ s ∈ g.streams, s.Written unf items forms)
    (v : Val) (hv : IsAppearanceEntry g.entry v) : ∃ r, readLook unf f bytes n v = some r ∧ LookReads g r := by
  cases g with
  | single s =>
    simp only [GivenLook.entry, IsAppearanceEntry, IsRef] at hv
    subst hv
    obtain ⟨es, h1, h2⟩ := appearance_read hf forms n hn s (hg s (by simp [GivenLook.streams]))
    exact ⟨.single _ es, by simp only [readLook, refNumber, Option.bind_some, h1, Option.map_some], .single rfl h2⟩
  | states l =>
    obtain ⟨es, rfl, he⟩ := hv
    rw [List.map_map] at he
    obtain ⟨rs, h1, h2⟩ := states_read hf forms n hn l hg es he
    exact ⟨.states rs, by simp only [readLook, h1, Option.map_some], .states h2⟩

theorem lookEntry_read (hf : Finds f bytes items) (forms n : Nat) (hn : forms ≤ n) {k : Bytes} {ap : List AppearanceCall} {x : Option GivenLook}
    {c : AppearanceEntry → AppearanceCall} (h : MaybeCall AppearanceMeans k ap (x.map GivenLook.entry) c)
    (hc : ∀ e, (AppearanceMeans (c e)).filter (fun e => e.1 == k) = [(k, IsAppearanceEntry e)])
    (hx : ∀ l ∈ x.toList, ∀ s ∈ l.streams, s.Written unf items forms) {d : List (Bytes × Val)} (he : EntriesAre (AppearanceEntries ap) d) :
    ∃ y, optionalEntry k d (readLook unf f bytes n) = some y ∧ BothOrNone LookReads x y := by
  cases x with
  | none => exact ⟨none, optional_absent he (noCall_filter h), trivial⟩
  | some l =>
    obtain ⟨a, h1, h2⟩ := optional_present (read := readLook unf f bytes n) (Q := LookReads l) (P := IsAppearanceEntry l.entry) he
      (by rw [show AppearanceEntries ap = ap.flatMap AppearanceMeans from rfl, onlyCall_filter h, hc])
      (fun v hv => look_read hf forms n hn l (hx l (by simp)) v hv)
    exact ⟨some a, h1, h2⟩

/-! ## Entries -/

/-- What the dictionary says. -/
def _root_.PdfW.Spec.AnnotSource.meant : AnnotSource → List (Bytes × (Val → Prop))
  | .annotation calls => AnnotationEntries .code calls
  | .widget field _ => FieldEntries .code field

theorem source_body (s : AnnotSource) (v : Val) (hv : Denotes s.body v) : ∃ d, v = .dict d ∧ EntriesAre s.meant d := by
  cases s with
  | annotation calls => exact annotation_denotes .code calls (Or.inl rfl) v hv
  | widget field calls => exact field_denotes .code field (Or.inl rfl) v hv

theorem source_call {β γ : Type} {s : AnnotSource} {k : Bytes} {x : Option β} {c : β → AnnotationCall} {read : Val → Option γ} {R : β → γ → Prop}
    (P : β → Val → Prop) (hk : k ≠ b!"Type" ∧ k ≠ b!"Subtype") {d : List (Bytes × Val)} (he : EntriesAre s.meant d) (hx : s.Sets k x c)
    (hc : ∀ b, (AnnotationMeans .code (c b)).filter (fun e => e.1 == k) = [(k, P b)])
    (hP : ∀ b v, P b v → ∃ a, read v = some a ∧ R b a) : ∃ y, optionalEntry k d read = some y ∧ BothOrNone R x y := by
  have h1 : (b!"Type" == k) = false := by simpa using fun h => hk.1 h.symm
  have h2 : (b!"Subtype" == k) = false := by simpa using fun h => hk.2 h.symm
  cases s with
  | annotation calls =>
    exact optional_call (P := P) he (by simp only [List.filter_cons, h1, List.filter_nil]; rfl) hx (fun b _ => hc b) (fun b _ v hv => hP b v hv)
  | widget field calls =>
    cases x with
    | none => exact ⟨none, optional_absent he (noCall_filter hx), trivial⟩
    | some b =>
      obtain ⟨ho, hi⟩ := hx
      obtain ⟨a, q1, q2⟩ := optional_present (read := read) (Q := R b) (P := P b) he (by
        rw [show AnnotSource.meant (.widget field calls) = field.flatMap (FieldMeans .code) from rfl, onlyCall_filter ho]
        simp only [FieldMeans, List.filter_append, List.filter_cons, h1, h2, List.filter_nil, onlyCall_filter hi, hc]
        rfl) (fun v hv => hP b v hv)
      exact ⟨some a, q1, q2⟩

theorem source_eq {β γ : Type} {s : AnnotSource} {k : Bytes} {x : Option β} {c : β → AnnotationCall} {read : Val → Option γ}
    (P : β → Val → Prop) (g : β → γ) (hk : k ≠ b!"Type" ∧ k ≠ b!"Subtype") {d : List (Bytes × Val)} (he : EntriesAre s.meant d) (hx : s.Sets k x c)
    (hc : ∀ b, (AnnotationMeans .code (c b)).filter (fun e => e.1 == k) = [(k, P b)])
    (hP : ∀ b v, P b v → read v = some (g b)) : optionalEntry k d read = some (x.map g) := by
  obtain ⟨y, h1, h2⟩ := source_call (R := fun b a => a = g b) P hk he hx hc (fun b v hv => ⟨_, hP b v hv, rfl⟩)
  rw [h1, bothOrNone_eq h2]

theorem isName_nameOf (n : Bytes) (v : Val) (h : IsName n v) : nameOf v = some n := by
  simp only [IsName] at h; subst h; rfl

theorem source_type {s : AnnotSource} {kind : AnnotationType} {d : List (Bytes × Val)} (he : EntriesAre s.meant d) (h : s.HasType kind) :
    (lookup b!"Subtype" d).bind nameOf = some (isoAnnotationType kind) := by
  have key : s.meant.filter (fun e => e.1 == b!"Subtype") = [(b!"Subtype", IsName (isoAnnotationType kind))] := by
    cases s with
    | annotation calls => simp only [AnnotSource.meant, AnnotationEntries, List.filter_append, onlyCall_filter h]; rfl
    | widget field calls =>
      obtain ⟨rfl, ho, hn⟩ := h
      rw [show AnnotSource.meant (.widget field calls) = field.flatMap (FieldMeans .code) from rfl, onlyCall_filter ho]
      simp only [FieldMeans, List.filter_append, noCall_filter hn]
      rfl
  obtain ⟨w, hl, hw⟩ := lookup_of he key
  rw [hl, Option.bind_some, isName_nameOf _ w hw]

theorem isoAnnotationType_widget (k : AnnotationType) : isoAnnotationType k = b!"Widget" ↔ k = .widget := by
  cases k <;> simp [isoAnnotationType]

theorem optional_lookup {γ : Type} {k : Bytes} {d : List (Bytes × Val)} {read : Val → Option γ} {a : γ} (h : optionalEntry k d read = some (some a)) :
    (lookup k d).bind read = some a := by
  unfold optionalEntry at h
  split at h
  · simp at h
  · cases hr : (lookup k d).bind read with
    | none => rw [hr] at h; simp at h
    | some b => rw [hr] at h; simpa using h

/-! ## Annotations -/

theorem givenAnnot_read (hf : Finds f bytes items) (forms n : Nat) (hn : forms ≤ n) (g : GivenAnnot) (hg : g.Written unf items forms) :
    ∃ r, readAnnot unf f bytes n g.id.get.toNat = some r ∧ AnnotReads g r := by
  obtain ⟨v, ho, hv⟩ := finds_val hf hg.object
  obtain ⟨d, rfl, he⟩ := source_body g.source v hv
  have e0 := source_type he hg.kind
  obtain ⟨y1, e1, m1⟩ := source_call (read := itemsOf) (R := fun b vs => Pairwise NumIs [b.x1, b.y1, b.x2, b.y2] vs) IsRect (by decide) he hg.rect
    (fun _ => rfl) rect_read
  obtain ⟨rect, rfl⟩ : ∃ a, y1 = some a := by cases y1 with | none => exact m1.elim | some a => exact ⟨a, rfl⟩
  have e1' := optional_lookup e1
  obtain ⟨fl, e2, m2⟩ := source_call (read := flagsOf) (R := fun b k => ∀ i, k.testBit i = true ↔ i + 1 ∈ b.map isoAnnotationFlag)
    (fun b => FlagsAre (b.map isoAnnotationFlag)) (by decide) he hg.flags (fun _ => rfl) (fun b v hv => flags_read isoAnnotationFlag b v hv)
  have e3 := source_eq (read := readText) IsText id (by decide) he hg.contents (fun _ => rfl) readText_isText
  have e4 : (if isoAnnotationType g.kind = b!"Widget" then some none else optionalEntry b!"T" d readText) = some g.author := by
    have ha := hg.author
    by_cases hk : g.kind = .widget
    · rw [if_pos hk] at ha
      rw [if_pos ((isoAnnotationType_widget _).mpr hk), ha]
    · rw [if_neg hk] at ha
      rw [if_neg (mt (isoAnnotationType_widget _).mp hk), source_eq (read := readText) IsText id (by decide) he ha (fun _ => rfl) readText_isText]
      simp
  have e5 := source_eq (read := readText) IsText id (by decide) he hg.subject (fun _ => rfl) readText_isText
  have e6 := source_eq (read := readText) IsText id (by decide) he hg.name (fun _ => rfl) readText_isText
  have e7 := source_eq (read := dateOf) IsDate expectedDate (by decide) he hg.modified (fun _ => rfl) dateOf_isDate
  have e8 := source_eq (read := refNumber) IsRef (fun r => r.get.toNat) (by decide) he hg.page (fun _ => rfl)
    (fun b v hv => by simp only [IsRef] at hv; subst hv; rfl)
  have e9 := source_eq (read := intOf) IsInt id (by decide) he hg.structParent (fun _ => rfl)
    (fun b v hv => by simp only [IsInt] at hv; subst hv; rfl)
  have e10 := source_eq (read := nameOf) (fun i => IsName (isoAnnotationIcon i)) isoAnnotationIcon (by decide) he hg.icon (fun _ => rfl)
    (fun b v hv => isName_nameOf _ v hv)
  have e11 := source_eq (read := nameOf) (fun i => IsName (isoHighlightEffect i)) isoHighlightEffect (by decide) he hg.highlight (fun _ => rfl)
    (fun b v hv => isName_nameOf _ v hv)
  obtain ⟨y12, e12, m12⟩ := source_call (read := itemsOf) (R := fun c vs => Pairwise NumIs c.components vs)
    (fun c => ArrayIs (c.components.map fun x => NumIs x)) (by decide) he hg.color (fun b => by cases b <;> rfl) (fun b v hv => numbers_read _ v hv)
  obtain ⟨y13, e13, m13⟩ := source_call (read := itemsOf) (R := Pairwise NumIs) (fun c => ArrayIs (c.map fun x => NumIs x)) (by decide) he hg.quads
    (fun b => rfl) (fun b v hv => numbers_read b v hv)
  obtain ⟨y14, e14, m14⟩ := source_call (read := itemsOf) (R := fun (l : GivenLine) vs => Pairwise NumIs [l.x1, l.y1, l.x2, l.y2] vs)
    (fun (l : GivenLine) => ArrayIs [NumIs l.x1, NumIs l.y1, NumIs l.x2, NumIs l.y2]) (by decide) he hg.line
    (fun b => rfl) (fun b v hv => numbers_read [b.x1, b.y1, b.x2, b.y2] v hv)
  obtain ⟨y15, e15, m15⟩ := source_call (read := itemsOf) (R := fun b vs => ItemsAre ([NumIs b.horizontal, NumIs b.vertical, NumIs b.width] ++
      (b.dashes.map fun p => ArrayIs (p.map fun x => NumIs x)).toList) vs)
    (fun b => ArrayIs ([NumIs b.horizontal, NumIs b.vertical, NumIs b.width] ++ (b.dashes.map fun p => ArrayIs (p.map fun x => NumIs x)).toList))
    (by decide) he hg.border (fun b => rfl) (fun b v hv => by obtain ⟨vs, rfl, h⟩ := hv; exact ⟨vs, rfl, h⟩)
  have e16 := source_eq (read := nameOf) IsName id (by decide) he hg.state (fun _ => rfl) isName_nameOf
  obtain ⟨ap, e17, m17⟩ := source_call (read := followDict f bytes) (R := fun ap d => EntriesAre (AppearanceEntries ap) d) IsAppearance (by decide) he
    hg.appearance (fun _ => rfl) (fun b v hv => by obtain ⟨es, rfl, h⟩ := hv; exact ⟨es, rfl, h⟩)
  have hap : EntriesAre (AppearanceEntries (g.appearance.getD [])) (ap.getD []) := by
    revert m17
    cases g.appearance <;> cases ap <;> intro m17
    · rfl
    · exact m17.elim
    · exact m17.elim
    · exact m17
  have hlk := hg.looks
  obtain ⟨yn, en, mn⟩ := lookEntry_read hf forms n hn hg.normal (fun _ => rfl)
    (fun l hl => hlk l (by simp only [List.mem_append]; exact Or.inl (Or.inl hl))) hap
  obtain ⟨yr, er, mr⟩ := lookEntry_read hf forms n hn hg.rollover (fun _ => rfl)
    (fun l hl => hlk l (by simp only [List.mem_append]; exact Or.inl (Or.inr hl))) hap
  obtain ⟨yd, ed, md⟩ := lookEntry_read hf forms n hn hg.down (fun _ => rfl)
    (fun l hl => hlk l (by simp only [List.mem_append]; exact Or.inr hl)) hap
  refine ⟨_, by
    simp only [readAnnot, dictObject, ho, Option.bind_some, e0, e1', e2, e3, e4, e5, e6, e7, e8, e9, e10, e11, e12, e13, e14, e15, e16, readLooks, e17,
      en, er, ed, Option.map_some]
    rfl, ?_⟩
  refine ⟨rfl, rfl, m1, ?_, by simp, rfl, by simp, by simp, rfl, rfl, by simp, rfl, rfl, m12, m13, m14, m15, by simp, mn, mr, md⟩
  intro i
  revert m2
  cases g.flags <;> cases fl <;> intro m2
  · simp
  · exact m2.elim
  · exact m2.elim
  · exact m2 i

theorem givenAnnots_read (hf : Finds f bytes items) (forms n : Nat) (hn : forms ≤ n) (gs : List GivenAnnot) (hg : ∀ g ∈ gs, g.Written unf items forms) :
    ∃ rs, readEach (readAnnot unf f bytes n) (gs.map fun g => g.id.get.toNat) = some rs ∧ Pairwise AnnotReads gs rs := by
  induction gs with
  | nil => exact ⟨[], rfl, .nil⟩
  | cons g gs ih =>
    obtain ⟨r, h1, h2⟩ := givenAnnot_read hf forms n hn g (hg g (by simp))
    obtain ⟨rs, h3, h4⟩ := ih (fun x hx => hg x (by simp [hx]))
    exact ⟨r :: rs, by simp only [List.map_cons, readEach, h1, h3, Option.bind_some, Option.map_some], .cons h2 h4⟩

theorem allAnnots_read (hf : Finds f bytes items) (forms n : Nat) (hn : forms ≤ n) (ls : List (Ref × List PageCall)) (pages : List (List GivenAnnot))
    (hob : ∀ e ∈ ls, HasObject items e.1 (.val (Page.prog e.2))) (h : Pairwise (fun e gs => AnnotsGiven unf items forms e.2 gs) ls pages) :
    ∃ rs, readEach (fun m => (pageAnnots f bytes m).bind (readEach (readAnnot unf f bytes n))) (ls.map fun e => e.1.get.toNat) = some rs ∧
      Pairwise (Pairwise AnnotReads) pages rs := by
  induction h with
  | nil => exact ⟨[], rfl, .nil⟩
  | cons ha hr ih =>
    rename_i e gs es gss
    obtain ⟨rs, h1, h2⟩ := ih (fun e he => hob e (List.mem_cons_of_mem _ he))
    obtain ⟨r, h3, h4⟩ := givenAnnots_read hf forms n hn gs ha.2
    have hp := page_annots_read hf [e] [gs.map GivenAnnot.id] (by intro x hx; simp only [List.mem_singleton] at hx; subst hx; exact hob _ (List.mem_cons_self ..))
      (.cons ha.1 .nil)
    simp only [List.map_cons, List.map_nil, readEach] at hp
    cases hq : pageAnnots f bytes e.1.get.toNat with
    | none => rw [hq] at hp; simp at hp
    | some l =>
      rw [hq] at hp
      simp only [Option.bind_some, Option.map_some, Option.some.injEq, List.cons.injEq, and_true] at hp
      subst hp
      rw [List.map_map] at hq
      refine ⟨r :: rs, ?_, .cons h4 h2⟩
      simp only [List.map_cons, readEach, hq, Option.bind_some]
      rw [show (fun x : Ref => x.get.toNat) ∘ GivenAnnot.id = fun g => g.id.get.toNat from rfl, h3]
      simp only [Option.bind_some, h1, Option.map_some]

end PdfW
