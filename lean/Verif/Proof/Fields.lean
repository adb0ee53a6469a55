import Verif.Spec.Fields
import Verif.Proof.Tagged
import Verif.Proof.Typed.Forms

set_option linter.unusedSimpArgs false
set_option linter.unusedVariables false

/-! # Interactive forms: proofs -/

namespace PdfW
open PdfW.Spec

variable {unf : Val → Bytes → Option Bytes} {f : FileEnd} {bytes : Bytes} {items : List Item}

theorem ref_number_inj {a b : Ref} (h : a.get.toNat = b.get.toNat) : a = b := by
  have := a.pos; have := b.pos
  cases a; cases b
  simp [Ref.get] at *
  omega

theorem refArray_of (rs : List Ref) (v : Val) (h : ArrayIs (rs.map fun x => IsRef x) v) : refArray v = some (rs.map fun r => r.get.toNat) := by
  obtain ⟨vs, rfl, h⟩ := h
  exact refNumbers_of rs vs h

theorem field_object (hf : Finds f bytes items) {id : Ref} {calls : List FieldCall} (h : HasObject items id (.val (Field.prog calls))) :
    ∃ d, dictObject f bytes id.get.toNat = some d ∧ EntriesAre (calls.flatMap (FieldMeans .code)) d := by
  obtain ⟨v, h1, hv⟩ := finds_val hf h
  obtain ⟨d, rfl, he⟩ := field_denotes .code calls (Or.inl rfl) v hv
  exact ⟨d, by simp only [dictObject, h1], he⟩

/-! ## What a field says -/

/-- The state read is what is said. -/
structure StateReads (a : Above) (s : ReadState) : Prop where
  names : s.names = a.names
  type : s.type = a.type.map isoFieldType
  flags : BothOrNone (fun fl (n : Nat) => ∀ i, n.testBit i = true ↔ i + 1 ∈ fl.map isoFieldFlag) a.flags s.flags
  value : s.value = a.value
  default : s.default = a.default

def valueMeans : GivenValue → Val → Prop
  | .checkbox s => IsName (isoCheckBoxState s)
  | .radio n => IsName n
  | .text t => IsTextLike (.plain t)
  | .choice t => IsOptText t
  | .choices ts => ArrayIs (ts.map fun x => IsText x)

theorem texts_each (ts : List (List Char)) (vs : List Val) (h : ItemsAre (ts.map fun x => IsText x) vs) : readEach readText vs = some ts := by
  induction ts generalizing vs with
  | nil => simp only [List.map_nil, ItemsAre] at h; subst h; rfl
  | cons t ts ih =>
    obtain ⟨w, ws, rfl, h1, h2⟩ := h
    simp only [readEach, readText_isText t w h1, ih ws h2, Option.bind_some, Option.map_some]

theorem value_read (g : GivenValue) (v : Val) (h : valueMeans g v) : readFieldValue v = some g.value := by
  cases g with
  | checkbox s => simp only [valueMeans, IsName] at h; subst h; rfl
  | radio n => simp only [valueMeans, IsName] at h; subst h; rfl
  | text t =>
    obtain ⟨s, rfl, hs⟩ := h
    simp only [readFieldValue, hs, Option.map_some, GivenValue.value]
  | choice t =>
    cases t with
    | none => simp only [valueMeans, IsOptText] at h; subst h; rfl
    | some t =>
      obtain ⟨s, rfl, hs⟩ := h
      simp only [readFieldValue, hs, Option.map_some, GivenValue.value]
  | choices ts =>
    obtain ⟨vs, rfl, hs⟩ := h
    simp only [readFieldValue, texts_each ts vs hs, Option.map_some, GivenValue.value]

theorem join_map {α β : Type} (x : Option α) (g : α → Option β) : (x.map g).join = x.bind g := by cases x <;> rfl

theorem state_read {calls : List FieldCall} {own : OwnField} (h : own.Set calls) {d : List (Bytes × Val)}
    (he : EntriesAre (calls.flatMap (FieldMeans .code)) d) {a : Above} {s : ReadState} (hs : StateReads a s) :
    ∃ s', readFieldState s d = some s' ∧ StateReads (own.below a) s' := by
  have e1 := optional_eq (pre := []) (read := readText) IsText id he rfl h.name (fun _ => rfl) (fun b v hv => readText_isText b v hv)
  have e2 := optional_eq (pre := []) (read := nameOf) (fun t => IsName (isoFieldType t)) isoFieldType he rfl h.type (fun _ => rfl)
    (fun b v hv => by simp only [IsName] at hv; subst hv; rfl)
  obtain ⟨ff, e3, q3⟩ := optional_call (pre := []) (read := flagsOf) (P := fun fl => FlagsAre (fl.map isoFieldFlag))
    (R := fun fl (n : Nat) => ∀ i, n.testBit i = true ↔ i + 1 ∈ fl.map isoFieldFlag) he rfl h.flags (fun _ _ => rfl)
    (fun b _ v hv => by obtain ⟨n, rfl, hn⟩ := hv; exact ⟨n, rfl, hn⟩)
  have e4 := optional_eq (pre := []) (read := readFieldValue) valueMeans GivenValue.value he rfl h.value (fun b => by cases b <;> rfl) value_read
  have e5 := optional_eq (pre := []) (read := readFieldValue) valueMeans GivenValue.value he rfl h.default (fun b => by cases b <;> rfl) value_read
  refine ⟨_, by simp only [readFieldState, e1, e2, e3, e4, e5, Option.bind_some, Option.map_some]; rfl, ?_, ?_, ?_, ?_, ?_⟩
  · simp only [OwnField.below, hs.names, Option.map_id_fun, id_eq]
  · simp only [OwnField.below, hs.type]
    cases own.type <;> rfl
  · simp only [OwnField.below]
    have q := hs.flags
    revert q3 q
    cases own.flags with
    | none => cases ff <;> simp [BothOrNone]
    | some x =>
      cases ff with
      | none => simp [BothOrNone]
      | some y => exact fun q3 _ => q3
  · simp only [OwnField.below, hs.value, join_map]
  · simp only [OwnField.below, hs.default, join_map]

theorem state_field {a : Above} {s : ReadState} (hs : StateReads a s) (annots : List (List Ref)) (id : Ref) (ws : List (Ref × Rect)) (rs : List ReadWidget)
    (hw : Pairwise (WidgetReads annots) ws rs) : FieldReads annots (a.wanted id ws) (s.field id.get.toNat rs) where
  number := rfl
  name := by simp only [ReadState.field, Above.wanted, hs.names]
  type := hs.type
  flags := by
    have q := hs.flags
    simp only [ReadState.field, Above.wanted]
    revert q
    cases a.flags <;> cases s.flags <;> simp [BothOrNone]
  value := hs.value
  default := hs.default
  widgets := hw

/-! ## Widgets -/

theorem annotPage_of (annots : List (List Ref)) (r : Ref) :
    annotPage (annots.map fun l => l.map fun x => x.get.toNat) r.get.toNat = annots.findIdx? fun l => decide (r ∈ l) := by
  have key : ∀ l : List Ref, (l.map fun x => x.get.toNat).contains r.get.toNat = decide (r ∈ l) := by
    intro l
    rw [Bool.eq_iff_iff]
    simp only [List.contains_iff_mem, List.mem_map, decide_eq_true_eq]
    exact ⟨fun ⟨x, hx, e⟩ => ref_number_inj e ▸ hx, fun h => ⟨r, h, rfl⟩⟩
  simp only [annotPage, List.findIdx?_map, Function.comp_def, key]

theorem widget_filters {calls : List FieldCall} {annot : List AnnotationCall} {rect : Rect} (h : WidgetSet calls annot rect) :
    (calls.flatMap (FieldMeans .code)).filter (fun e => e.1 == b!"Subtype") = [(b!"Subtype", IsName b!"Widget")] ∧
    (calls.flatMap (FieldMeans .code)).filter (fun e => e.1 == b!"Rect") = [(b!"Rect", IsRect rect)] := by
  constructor
  · rw [onlyCall_filter h.subtype]
    simp only [FieldMeans, List.filter_append, noCall_filter h.noSubtype]
    rfl
  · rw [onlyCall_filter h.rect]
    simp only [FieldMeans, List.filter_append, onlyCall_filter h.rectCall]
    rfl

theorem widget_of {calls : List FieldCall} {annot : List AnnotationCall} {rect : Rect} (h : WidgetSet calls annot rect) {d : List (Bytes × Val)}
    (he : EntriesAre (calls.flatMap (FieldMeans .code)) d) (annots : List (List Ref)) (id : Ref) :
    ∃ r, widgetOf (annots.map fun l => l.map fun x => x.get.toNat) id.get.toNat d = some r ∧ WidgetReads annots (id, rect) r := by
  obtain ⟨h1, h2⟩ := widget_filters h
  obtain ⟨v, q1, hv⟩ := lookup_of he h1
  obtain ⟨w, q2, hw⟩ := lookup_of he h2
  simp only [IsName] at hv
  subst hv
  refine ⟨_, by simp only [widgetOf, q1, q2, Option.bind_some, nameOf, Option.map_some]; rfl, rfl, hw, annotPage_of annots id⟩

theorem widgets_read (hf : Finds f bytes items) (annots : List (List Ref)) (parent : Ref) (ws : List WidgetPart) (h : ∀ w ∈ ws, w.Written items parent) :
    readEach (isField f bytes) (ws.map fun w => w.id.get.toNat) = some (ws.map fun _ => false) ∧
    ∃ rs, readEach (readWidget f bytes (annots.map fun l => l.map fun x => x.get.toNat) parent.get.toNat) (ws.map fun w => w.id.get.toNat) = some rs ∧
      Pairwise (WidgetReads annots) (ws.map fun w => (w.id, w.rect)) rs := by
  induction ws with
  | nil => exact ⟨rfl, [], rfl, .nil⟩
  | cons w ws ih =>
    obtain ⟨i1, rs, i2, i3⟩ := ih (fun w hw => h w (List.mem_cons_of_mem _ hw))
    obtain ⟨h1, h2, h3, h4⟩ := h w (List.mem_cons_self ..)
    obtain ⟨d, hd, he⟩ := field_object hf h1
    obtain ⟨r, hr, hr'⟩ := widget_of h4 he annots w.id
    have ha := absent_of he (k := b!"T") (noCall_filter h2)
    have hp := optional_present (read := refNumber) (Q := fun n => n = parent.get.toNat) he (k := b!"Parent") (P := IsRef parent)
      (by rw [onlyCall_filter h3]; rfl) (fun v hv => ⟨_, by simp only [IsRef] at hv; subst hv; rfl, rfl⟩)
    obtain ⟨n, hp, rfl⟩ := hp
    have k1 : isField f bytes w.id.get.toNat = some false := by simp only [isField, hd, Option.map_some, ha, Bool.not_true]
    have k2 : readWidget f bytes (annots.map fun l => l.map fun x => x.get.toNat) parent.get.toNat w.id.get.toNat = some r := by
      simp only [readWidget, hd, Option.bind_some, hp, if_true, hr]
    refine ⟨?_, r :: rs, ?_, .cons hr' i3⟩
    · simp only [List.map_cons, readEach, k1, i1, Option.map_some, Option.bind_some]
    · simp only [List.map_cons, readEach, k2, i2, Option.map_some, Option.bind_some]

/-! ## Fields -/

theorem written_named (hf : Finds f bytes items) {parent : Option Ref} (t : FieldTree) (hn : t.own.name ≠ none) (h : t.Written items parent) :
    isField f bytes t.id.get.toNat = some true := by
  have key : ∀ id calls own, own.name ≠ none → FieldWritten items parent id calls own → isField f bytes id.get.toNat = some true := by
    intro id calls own hn ⟨h1, h2, _⟩
    obtain ⟨d, hd, he⟩ := field_object hf h1
    have q := h2.name
    cases hx : own.name with
    | none => exact absurd hx hn
    | some n =>
      rw [hx] at q
      have := present_of he (k := b!"T") (P := IsText n) (by rw [onlyCall_filter q]; rfl)
      simp only [isField, hd, Option.map_some, this, Bool.not_false]
  cases t with
  | node id calls own kids => simp only [FieldTree.Written] at h; exact key id calls own hn h.1
  | widgets id calls own ws => simp only [FieldTree.Written] at h; exact key id calls own hn h.1
  | merged id calls own annot rect => simp only [FieldTree.Written] at h; exact key id calls own hn h.1
  | invisible id calls own => simp only [FieldTree.Written] at h; exact key id calls own hn h.1

theorem kids_named (hf : Finds f bytes items) {parent : Ref} : ∀ (ts : List FieldTree), (∀ k ∈ ts, k.own.name ≠ none) → fieldsWritten items parent ts →
    readEach (isField f bytes) (ts.map fun t => t.id.get.toNat) = some (ts.map fun _ => true)
  | [], _, _ => rfl
  | t :: ts, hn, h => by
    simp only [fieldsWritten] at h
    have ih := kids_named hf ts (fun k hk => hn k (List.mem_cons_of_mem _ hk)) h.2
    simp only [List.map_cons, readEach, written_named hf t (hn t (List.mem_cons_self ..)) h.1, ih, Option.bind_some, Option.map_some]

/-- A field, up to its kids. -/
theorem field_head (hf : Finds f bytes items) {parent : Option Ref} {id : Ref} {calls : List FieldCall} {own : OwnField}
    (h : FieldWritten items parent id calls own) {a : Above} {s : ReadState} (hs : StateReads a s) :
    ∃ d s', dictObject f bytes id.get.toNat = some d ∧ EntriesAre (calls.flatMap (FieldMeans .code)) d ∧
      optionalEntry b!"Parent" d refNumber = some (parent.map fun r => r.get.toNat) ∧
      readFieldState s d = some s' ∧ StateReads (own.below a) s' := by
  obtain ⟨h1, h2, h3⟩ := h
  obtain ⟨d, hd, he⟩ := field_object hf h1
  obtain ⟨s', q1, q2⟩ := state_read h2 he hs
  exact ⟨d, s', hd, he, optional_ref (pre := []) he rfl h3 (fun _ => rfl), q1, q2⟩

theorem pairwise_append {α β : Type} {R : α → β → Prop} {as as' : List α} {bs bs' : List β} (h : Pairwise R as bs) (h' : Pairwise R as' bs') :
    Pairwise R (as ++ as') (bs ++ bs') := by
  induction h with
  | nil => exact h'
  | cons h1 _ ih => exact .cons h1 ih

mutual
theorem fields_read (hf : Finds f bytes items) (annots : List (List Ref)) (t : FieldTree) (depth : Nat) (hd : t.depth ≤ depth) (parent : Option Ref)
    (h : t.Written items parent) (a : Above) (s : ReadState) (hs : StateReads a s) :
    ∃ rs, readFields f bytes (annots.map fun l => l.map fun x => x.get.toNat) depth (parent.map fun r => r.get.toNat) s t.id.get.toNat = some rs ∧
      Pairwise (FieldReads annots) (t.wanted a) rs := by
  cases t with
  | node id calls own kids =>
    simp only [FieldTree.depth] at hd
    obtain ⟨n, rfl⟩ : ∃ n, depth = n + 1 := ⟨depth - 1, by omega⟩
    simp only [FieldTree.Written] at h
    obtain ⟨h1, h2, h3, h4, h5⟩ := h
    obtain ⟨d, s', q1, he, q2, q3, hs'⟩ := field_head hf h1 hs
    obtain ⟨rs, q4, q5⟩ := fields_list hf annots kids n (by omega) id h5 (own.below a) s' hs'
    have hk := optional_present (read := refArray) (Q := fun l => l = kids.map fun t => t.id.get.toNat) he (k := b!"Kids")
      (P := ArrayIs ((kids.map FieldTree.id).map fun x => IsRef x)) (by rw [onlyCall_filter h4]; rfl)
      (fun v hv => ⟨_, refArray_of _ v hv, by simp [List.map_map, Function.comp_def]⟩)
    obtain ⟨l, hk, rfl⟩ := hk
    refine ⟨rs, ?_, by simpa only [FieldTree.wanted] using q5⟩
    have hb1 : ((kids.map fun _ => true).all (· == false)) = false := by
      cases kids with
      | nil => exact absurd rfl h2
      | cons k ks => rfl
    have hb2 : ((kids.map fun _ => true).all (· == true)) = true := by simp
    show readFields f bytes _ (n + 1) _ s id.get.toNat = some rs
    simp only [readFields, q1, Option.bind_some, q2, if_true, q3, hk, kids_named hf kids h3 h5, hb1, hb2, Bool.false_eq_true, if_false]
    exact q4
  | widgets id calls own ws =>
    simp only [FieldTree.depth] at hd
    obtain ⟨n, rfl⟩ : ∃ n, depth = n + 1 := ⟨depth - 1, by omega⟩
    simp only [FieldTree.Written] at h
    obtain ⟨h1, h2, h3⟩ := h
    obtain ⟨d, s', q1, he, q2, q3, hs'⟩ := field_head hf h1 hs
    obtain ⟨k1, rs, k2, k3⟩ := widgets_read hf annots id ws h3
    have hk := optional_present (read := refArray) (Q := fun l => l = ws.map fun t => t.id.get.toNat) he (k := b!"Kids")
      (P := ArrayIs ((ws.map WidgetPart.id).map fun x => IsRef x)) (by rw [onlyCall_filter h2]; rfl)
      (fun v hv => ⟨_, refArray_of _ v hv, by simp [List.map_map, Function.comp_def]⟩)
    obtain ⟨l, hk, rfl⟩ := hk
    have hb : ((ws.map fun _ => false).all (· == false)) = true := by simp
    refine ⟨[s'.field id.get.toNat rs], ?_, .cons (state_field hs' annots id _ rs k3) .nil⟩
    simp only [readFields, FieldTree.id, q1, Option.bind_some, q2, if_true, q3, hk, k1, hb, k2, Option.map_some]
  | merged id calls own annot rect =>
    simp only [FieldTree.depth] at hd
    obtain ⟨n, rfl⟩ : ∃ n, depth = n + 1 := ⟨depth - 1, by omega⟩
    simp only [FieldTree.Written] at h
    obtain ⟨h1, h2, h3⟩ := h
    obtain ⟨d, s', q1, he, q2, q3, hs'⟩ := field_head hf h1 hs
    have hk := optional_absent (read := refArray) he (k := b!"Kids") (noCall_filter h2)
    have hp := present_of he (widget_filters h3).1
    obtain ⟨r, k1, k2⟩ := widget_of h3 he annots id
    refine ⟨[s'.field id.get.toNat [r]], ?_, .cons (state_field hs' annots id _ [r] (.cons k2 .nil)) .nil⟩
    simp only [readFields, FieldTree.id, q1, Option.bind_some, q2, if_true, q3, hk, hp, k1, Option.map_some]
    rfl
  | invisible id calls own =>
    simp only [FieldTree.depth] at hd
    obtain ⟨n, rfl⟩ : ∃ n, depth = n + 1 := ⟨depth - 1, by omega⟩
    simp only [FieldTree.Written] at h
    obtain ⟨h1, h2, h3⟩ := h
    obtain ⟨d, s', q1, he, q2, q3, hs'⟩ := field_head hf h1 hs
    have hk := optional_absent (read := refArray) he (k := b!"Kids") (noCall_filter h2)
    have ha := absent_of he (k := b!"Subtype") (noCall_filter h3)
    refine ⟨[s'.field id.get.toNat []], ?_, .cons (state_field hs' annots id _ [] .nil) .nil⟩
    simp only [readFields, FieldTree.id, q1, Option.bind_some, q2, if_true, q3, hk, ha]
termination_by structural t
theorem fields_list (hf : Finds f bytes items) (annots : List (List Ref)) (ts : List FieldTree) (depth : Nat) (hd : fieldsDepth ts ≤ depth) (parent : Ref)
    (h : fieldsWritten items parent ts) (a : Above) (s : ReadState) (hs : StateReads a s) :
    ∃ rs, collect (readFields f bytes (annots.map fun l => l.map fun x => x.get.toNat) depth (some parent.get.toNat) s) (ts.map fun t => t.id.get.toNat) = some rs ∧
      Pairwise (FieldReads annots) (wantedFields a ts) rs := by
  cases ts with
  | nil => exact ⟨[], rfl, .nil⟩
  | cons t ts =>
    simp only [fieldsDepth] at hd
    simp only [fieldsWritten] at h
    obtain ⟨r1, h1, h2⟩ := fields_read hf annots t depth (by omega) (some parent) h.1 a s hs
    obtain ⟨r2, h3, h4⟩ := fields_list hf annots ts depth (by omega) parent h.2 a s hs
    refine ⟨r1 ++ r2, ?_, by simpa only [wantedFields] using pairwise_append h2 h4⟩
    simp only [Option.map_some] at h1
    simp only [List.map_cons, collect, h1, h3, Option.bind_some, Option.map_some]
termination_by structural ts
end

theorem tops_read (hf : Finds f bytes items) (annots : List (List Ref)) (ts : List FieldTree) (depth : Nat) (hd : fieldsDepth ts ≤ depth)
    (h : ∀ t ∈ ts, t.Written items none) (a : Above) (s : ReadState) (hs : StateReads a s) :
    ∃ rs, collect (readFields f bytes (annots.map fun l => l.map fun x => x.get.toNat) depth none s) (ts.map fun t => t.id.get.toNat) = some rs ∧
      Pairwise (FieldReads annots) (wantedFields a ts) rs := by
  induction ts with
  | nil => exact ⟨[], rfl, .nil⟩
  | cons t ts ih =>
    simp only [fieldsDepth] at hd
    obtain ⟨r1, h1, h2⟩ := fields_read hf annots t depth (by omega) none (h t (List.mem_cons_self ..)) a s hs
    obtain ⟨r2, h3, h4⟩ := ih (by omega) (fun t ht => h t (List.mem_cons_of_mem _ ht))
    refine ⟨r1 ++ r2, ?_, by simpa only [wantedFields] using pairwise_append h2 h4⟩
    simp only [Option.map_none] at h1
    simp only [List.map_cons, collect, h1, h3, Option.bind_some, Option.map_some]

/-! ## Pages and the form -/

theorem page_annots_read (hf : Finds f bytes items) (ls : List (Ref × List PageCall)) (annots : List (List Ref))
    (hob : ∀ e ∈ ls, HasObject items e.1 (.val (Page.prog e.2))) (h : Pairwise (fun e l => AnnotsSet e.2 l) ls annots) :
    readEach (pageAnnots f bytes) (ls.map fun e => e.1.get.toNat) = some (annots.map fun l => l.map fun x => x.get.toNat) := by
  induction h with
  | nil => rfl
  | cons ha hr ih =>
    rename_i e l es ls
    obtain ⟨v, h1, hv⟩ := finds_val hf (hob e (List.mem_cons_self ..))
    obtain ⟨d, rfl, he⟩ := page_denotes .code e.2 (Or.inl rfl) v hv
    have key : pageAnnots f bytes e.1.get.toNat = some (l.map fun x => x.get.toNat) := by
      rcases ha with ⟨rfl, hn⟩ | ho
      · have := optional_absent (read := refArray) he (k := b!"Annots") (by simp only [PageEntries, List.filter_append, noCall_filter hn]; rfl)
        simp only [pageAnnots, dictObject, h1, Option.bind_some, this, Option.map_some]; rfl
      · obtain ⟨a, q, rfl⟩ := optional_present (read := refArray) (Q := fun a => a = l.map fun x => x.get.toNat) he (k := b!"Annots")
          (P := ArrayIs (l.map fun x => IsRef x)) (by simp only [PageEntries, List.filter_append, onlyCall_filter ho]; rfl)
          (fun v hv => ⟨_, refArray_of _ v hv, rfl⟩)
        simp only [pageAnnots, dictObject, h1, Option.bind_some, q, Option.map_some]; rfl
    simp only [List.map_cons, readEach, key, ih (fun e he => hob e (List.mem_cons_of_mem _ he)), Option.bind_some, Option.map_some]

theorem form_fields {form : List FormCall} {ids : List Ref} (h : OnlyCall FormMeans b!"Fields" form (.fields ids)) {d : List (Bytes × Val)}
    (he : EntriesAre (FormEntries form) d) : (lookup b!"Fields" d).bind refArray = some (ids.map fun r => r.get.toNat) := by
  obtain ⟨v, h1, hv⟩ := lookup_of he (k := b!"Fields") (P := ArrayIs (ids.map fun x => IsRef x)) (by
    rw [show FormEntries form = form.flatMap FormMeans from rfl, onlyCall_filter h]; rfl)
  rw [h1, Option.bind_some, refArray_of _ v hv]

theorem form_tops_read (hf : Finds f bytes items) {cat : List CatalogCall} {tops : List FieldTree} (h : FormWritten items cat tops) {d : List (Bytes × Val)}
    (he : EntriesAre (CatalogEntries .code cat) d) : readForm f bytes d = some (tops.map fun t => t.id.get.toNat) := by
  rcases h with ⟨rfl, hn⟩ | ⟨form, h1, ho | ⟨id, ho, hob⟩⟩
  · have := optional_absent (read := followDict f bytes) he (k := b!"AcroForm") (by simp only [CatalogEntries, List.filter_append, noCall_filter hn]; rfl)
    simp only [readForm, this, Option.bind_some]; rfl
  · obtain ⟨fd, q, hq⟩ := optional_present (read := followDict f bytes) (Q := fun a => EntriesAre (FormEntries form) a) he (k := b!"AcroForm")
      (P := IsForm form) (by simp only [CatalogEntries, List.filter_append, onlyCall_filter ho]; rfl)
      (fun v hv => by obtain ⟨m, rfl, hm⟩ := hv; exact ⟨m, rfl, hm⟩)
    simp only [readForm, q, Option.bind_some, form_fields h1 hq, List.map_map, Function.comp_def]
  · obtain ⟨v, q1, hv⟩ := finds_val hf hob
    obtain ⟨fd, rfl, hfd⟩ := form_denotes form v hv
    obtain ⟨fd', q, rfl⟩ := optional_present (read := followDict f bytes) (Q := fun a => a = fd) he (k := b!"AcroForm")
      (P := Denotes (.prim (.ref id))) (by simp only [CatalogEntries, List.filter_append, onlyCall_filter ho]; rfl)
      (fun v hv => by
        simp only [Denotes, PrimDenotes] at hv
        subst hv
        exact ⟨fd, by simp only [followDict, followRef, q1], rfl⟩)
    simp only [readForm, q, Option.bind_some, form_fields h1 hfd, List.map_map, Function.comp_def]

end PdfW
