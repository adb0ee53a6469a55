import Verif.Spec.Events
import Verif.Proof.Annots
import Verif.Proof.Colors
import Verif.Proof.Properties

set_option linter.unusedSimpArgs false
set_option linter.unusedVariables false

/-! # Reading actions -/

namespace PdfW
open Spec Imaging

variable {unf : Val → Bytes → Option Bytes} {f : FileEnd} {bytes : Bytes} {items : List Item} {nav : Navigator} {cat : List CatalogCall} {ids : List Ref}

theorem named_read {α : Type} (iso : α → Bytes) (a : α) (v : Val) (h : IsName (iso a) v) : nameOf v = some (iso a) := by
  simp only [IsName] at h; subst h; rfl

theorem str_read (s : Bytes) (v : Val) (h : IsStr s v) : strOf v = some s := by
  simp only [IsStr] at h; subst h; rfl

theorem place_read (g : GivenPlace) (hg : g.Set) (v : Val) (hv : IsFileSpec g.calls v) : readPlace f bytes v = some g.is := by
  obtain ⟨d, rfl, he⟩ := hv
  have he : EntriesAre ([(b!"Type", IsName b!"Filespec")] ++ g.calls.flatMap FileSpecMeans) d := he
  have e1 := optional_eq (read := nameOf) IsName id he rfl hg.system (fun _ => rfl) (named_read id)
  have e2 := optional_eq (read := strOf) IsStr id he rfl hg.path (fun _ => rfl) str_read
  have e3 := optional_eq (read := readText) IsText id he rfl hg.unicode (fun _ => rfl) (fun b v hv => readText_isText b v hv)
  simp only [readPlace, followDict, followRef, e1, e2, e3, Option.bind_some, Option.map_some, Option.map_id, id]

theorem readEach_append {α β : Type} (read : α → Option β) (a b : List α) :
    readEach read (a ++ b) = (readEach read a).bind fun x => (readEach read b).map (x ++ ·) := by
  induction a with
  | nil => simp [readEach]
  | cons c a ih =>
    simp only [List.cons_append, readEach, ih]
    cases read c with
    | none => rfl
    | some r => cases readEach read a <;> cases readEach read b <;> rfl

theorem fieldRef_id (r : Ref) (v : Val) (h : IsRef r v) : readFieldRef v = some (GivenFieldRef.object r).wanted := by
  simp only [IsRef] at h; subst h; rfl

theorem fieldRef_name (n : List Char) (v : Val) (h : IsText n v) : readFieldRef v = some (GivenFieldRef.named n).wanted := by
  have := readText_isText n v h
  obtain ⟨s, rfl, hs⟩ := h
  simp only [readFieldRef, GivenFieldRef.wanted]
  simp only [readText] at this
  rw [this]; rfl

theorem itemsAre_append (a b : List (Val → Prop)) (vs : List Val) (h : ItemsAre (a ++ b) vs) :
    ∃ x y, vs = x ++ y ∧ ItemsAre a x ∧ ItemsAre b y := by
  induction a generalizing vs with
  | nil => exact ⟨[], vs, rfl, rfl, h⟩
  | cons m a ih =>
    simp only [List.cons_append, ItemsAre] at h
    obtain ⟨w, ws, rfl, hw, hr⟩ := h
    obtain ⟨x, y, rfl, hx, hy⟩ := ih ws hr
    exact ⟨w :: x, y, rfl, ⟨w, x, rfl, hw, hx⟩, hy⟩

theorem readEach_items {α β : Type} {P : α → Val → Prop} {read : Val → Option β} {g : α → β} (hP : ∀ a v, P a v → read v = some (g a)) (as : List α)
    (vs : List Val) (h : ItemsAre (as.map P) vs) : readEach read vs = some (as.map g) := by
  induction as generalizing vs with
  | nil => simp only [List.map_nil, ItemsAre] at h; subst h; rfl
  | cons a as ih =>
    simp only [List.map_cons, ItemsAre] at h
    obtain ⟨w, ws, rfl, hw, hr⟩ := h
    simp only [readEach, hP a w hw, Option.bind_some, ih ws hr, Option.map_some, List.map_cons]

theorem fieldRefs_read (calls : List FieldsCall) (l : List GivenFieldRef) (hl : fieldsGiven calls = some l) (v : Val) (hv : IsFields calls v) :
    readFieldRefs v = some (l.map GivenFieldRef.wanted) := by
  obtain ⟨vs, rfl, hi⟩ := hv
  simp only [readFieldRefs, itemsOf, Option.bind_some]
  induction calls generalizing l vs with
  | nil =>
    simp only [fieldsGiven, Option.some.injEq] at hl
    subst hl
    simp only [FieldsItems, List.flatMap_nil, ItemsAre] at hi
    subst hi
    rfl
  | cons c cs ih =>
    simp only [FieldsItems, List.flatMap_cons] at hi
    obtain ⟨x, y, rfl, hx, hy⟩ := itemsAre_append _ _ vs hi
    rw [readEach_append]
    cases c with
    | raw p => simp [fieldsGiven] at hl
    | id r =>
      simp only [fieldsGiven, Option.map_eq_some_iff] at hl
      obtain ⟨l', hl', rfl⟩ := hl
      rw [readEach_items (P := IsRef) (g := fun r => (GivenFieldRef.object r).wanted) fieldRef_id [r] x hx, Option.bind_some, ih l' hl' y hy]; rfl
    | name n =>
      simp only [fieldsGiven, Option.map_eq_some_iff] at hl
      obtain ⟨l', hl', rfl⟩ := hl
      rw [readEach_items (P := IsText) (g := fun r => (GivenFieldRef.named r).wanted) fieldRef_name [n] x hx, Option.bind_some, ih l' hl' y hy]; rfl
    | ids rs =>
      simp only [fieldsGiven, Option.map_eq_some_iff] at hl
      obtain ⟨l', hl', rfl⟩ := hl
      rw [readEach_items (P := IsRef) (g := fun r => (GivenFieldRef.object r).wanted) fieldRef_id rs x hx, Option.bind_some, ih l' hl' y hy]
      simp
    | names ns =>
      simp only [fieldsGiven, Option.map_eq_some_iff] at hl
      obtain ⟨l', hl', rfl⟩ := hl
      rw [readEach_items (P := IsText) (g := fun r => (GivenFieldRef.named r).wanted) fieldRef_name ns x hx, Option.bind_some, ih l' hl' y hy]
      simp

theorem clip_read (g : GivenClip) (hg : g.Set) (v : Val) (hv : IsMediaClip g.calls v) : readClip f bytes v = some g.wanted := by
  obtain ⟨d, rfl, he⟩ := hv
  have he : EntriesAre ([(b!"Type", IsName b!"MediaClip")] ++ g.calls.flatMap MediaClipMeans) d := he
  have text : ∀ b v, IsText b v → readText v = some (id b) := fun b v hv => readText_isText b v hv
  have e1 := required_eq (read := nameOf) _ (isoMediaClipType g.kind) he rfl hg.kind rfl (named_read _ _)
  have e2 := optional_eq (read := readText) IsText id he rfl hg.name (fun _ => rfl) text
  obtain ⟨y3, e3, m3⟩ := optional_call (read := readPlace f bytes) (P := fun p : GivenPlace => IsFileSpec p.calls) (R := fun p a => a = p.is) he rfl hg.place
    (fun _ _ => rfl) (fun p hp v hv => ⟨_, place_read p (hg.placeSet p hp) v hv, rfl⟩)
  have m3 := bothOrNone_eq (g := fun p : GivenPlace => p.is) m3
  have e4 := optional_eq (read := strOf) IsStr id he rfl hg.mime (fun _ => rfl) str_read
  have e5 : ∃ y, (optionalEntry b!"P" d fun v => (followDict f bytes v).bind fun p => optionalEntry b!"TF" p strOf) = some y ∧
      y.join = g.temporary.map isoTempFileType := by
    obtain ⟨y, h1, h2⟩ := optional_call (read := fun v => (followDict f bytes v).bind fun p => optionalEntry b!"TF" p strOf)
      (P := fun c => IsMediaPermissions c) (R := fun _ a => a = g.temporary.map isoTempFileType) he rfl hg.permissions (fun _ _ => rfl)
      (fun c hc v hv => by
        obtain ⟨pd, rfl, hp⟩ := hv
        have hp : EntriesAre ([(b!"Type", IsName b!"MediaPermissions")] ++ c.flatMap MediaPermissionsMeans) pd := hp
        have ht := hg.temporary
        rw [hc] at ht
        exact ⟨_, by
          simp only [followDict, followRef, Option.bind_some]
          exact optional_eq (read := strOf) (fun t => IsStr (isoTempFileType t)) isoTempFileType hp rfl ht (fun _ => rfl) (fun t => str_read _), rfl⟩)
    refine ⟨y, h1, ?_⟩
    cases hp : g.permissions with
    | none =>
      rw [hp] at h2
      cases y with
      | some _ => exact h2.elim
      | none =>
        have ht := hg.temporary
        rw [hp] at ht
        cases ht' : g.temporary with
        | none => rfl
        | some t => rw [ht'] at ht; simp [MaybeCall, OnlyCall] at ht
    | some c =>
      rw [hp] at h2
      cases y with
      | none => exact h2.elim
      | some a => simp only [BothOrNone] at h2; subst h2; rfl
  obtain ⟨y5, e5, m5⟩ := e5
  have e6 := optional_eq (read := fun v => (itemsOf v).bind (readEach readText)) (fun ts : List (List Char) => ArrayIs (ts.map fun x => IsText x)) id he rfl
    hg.alternates (fun _ => rfl) (fun ts v hv => by
      obtain ⟨vs, rfl, hi⟩ := hv
      simp only [itemsOf, Option.bind_some]
      rw [readEach_items (P := IsText) (g := id) (fun a v h => readText_isText a v h) ts vs hi]
      simp)
  simp only [readClip, followDict, followRef, e1, e2, e3, e4, e6, Option.bind_some] at *
  simp only [e5, m5, m3, Option.bind_some, Option.map_some, Option.map_id, id, GivenClip.wanted]

theorem media_read (g : GivenMedia) (hg : g.Set) (v : Val) (hv : IsRendition g.calls v) : readMedia f bytes v = some g.wanted := by
  obtain ⟨d, rfl, he⟩ := hv
  have he : EntriesAre ([(b!"Type", IsName b!"Rendition")] ++ g.calls.flatMap RenditionMeans) d := he
  have text : ∀ b v, IsText b v → readText v = some (id b) := fun b v hv => readText_isText b v hv
  have e1 := required_eq (read := nameOf) _ (isoRenditionType g.kind) he rfl hg.kind rfl (named_read _ _)
  have e2 := optional_eq (read := readText) IsText id he rfl hg.name (fun _ => rfl) text
  obtain ⟨y3, e3, m3⟩ := optional_call (read := readClip f bytes) (P := fun c : GivenClip => IsMediaClip c.calls) (R := fun c a => a = c.wanted) he rfl hg.clip
    (fun _ _ => rfl) (fun c hc v hv => ⟨_, clip_read c (hg.clipSet c hc) v hv, rfl⟩)
  have m3 := bothOrNone_eq (g := GivenClip.wanted) m3
  have e4 : ∃ y, (optionalEntry b!"P" d fun v => (followDict f bytes v).bind fun p =>
      optionalEntry b!"BE" p fun v => (followDict f bytes v).bind fun b => optionalEntry b!"C" b truthOf) = some y ∧ y.join.join = g.controls := by
    obtain ⟨y, h1, h2⟩ := optional_call (read := fun v => (followDict f bytes v).bind fun p =>
        optionalEntry b!"BE" p fun v => (followDict f bytes v).bind fun b => optionalEntry b!"C" b truthOf)
      (P := fun c => IsMediaPlayParams c) (R := fun _ a => a.join = g.controls) he rfl hg.play (fun _ _ => rfl)
      (fun c hc v hv => by
        obtain ⟨pd, rfl, hp⟩ := hv
        have hp : EntriesAre ([(b!"Type", IsName b!"MediaPlayParams")] ++ c.flatMap MediaPlayParamsMeans) pd := hp
        have ht := hg.controls
        rw [hc] at ht
        obtain ⟨z, z1, z2⟩ := optional_call (read := fun v => (followDict f bytes v).bind fun b => optionalEntry b!"C" b truthOf)
          (P := fun c => DictIs [(b!"C", IsBool c)]) (R := fun c a => a = some c) hp rfl ht (fun _ _ => rfl)
          (fun c _ v hv => by
            obtain ⟨es, rfl, he⟩ := hv
            obtain ⟨w, ws, rfl, hw, rfl⟩ := he
            simp only [IsBool] at hw
            subst hw
            exact ⟨some c, rfl, rfl⟩)
        refine ⟨z, by simp only [followDict, followRef, Option.bind_some]; exact z1, ?_⟩
        cases hg' : g.controls <;> rw [hg'] at z2 <;> cases z <;> simp_all [BothOrNone])
    refine ⟨y, h1, ?_⟩
    cases hp : g.play with
    | none =>
      rw [hp] at h2
      cases y with
      | some _ => exact h2.elim
      | none =>
        have ht := hg.controls
        rw [hp] at ht
        cases ht' : g.controls with
        | none => rfl
        | some t => rw [ht'] at ht; simp [MaybeCall, OnlyCall] at ht
    | some c =>
      rw [hp] at h2
      cases y with
      | none => exact h2.elim
      | some a => simp only [BothOrNone] at h2; exact h2
  obtain ⟨y4, e4, m4⟩ := e4
  simp only [readMedia, followDict, followRef, e1, e2, e3, Option.bind_some] at *
  simp only [e4, m4, m3, Option.bind_some, Option.map_some, Option.map_id, id, GivenMedia.wanted]

/-! ## Actions -/

theorem fieldsEntry_read {calls : List ActionCall} {d : List (Bytes × Val)} (he : EntriesAre ([(b!"Type", IsName b!"Action")] ++ calls.flatMap ActionMeans) d)
    {fs : Option GivenFields} (h : MaybeCall ActionMeans b!"Fields" calls fs (fun g => .fields g.calls))
    (hl : ∀ g, fs = some g → fieldsGiven g.calls = some g.list) :
    optionalEntry b!"Fields" d readFieldRefs = some (fs.map fun g => g.list.map GivenFieldRef.wanted) := by
  obtain ⟨y, h1, h2⟩ := optional_call (read := readFieldRefs) (P := fun g : GivenFields => IsFields g.calls)
    (R := fun g a => a = g.list.map GivenFieldRef.wanted) he rfl h (fun _ _ => rfl) (fun g hg v hv => ⟨_, fieldRefs_read g.calls g.list (hl g hg) v hv, rfl⟩)
  rw [h1, bothOrNone_eq (g := fun g : GivenFields => g.list.map GivenFieldRef.wanted) h2]

theorem flagsEntry_read {calls : List ActionCall} {d : List (Bytes × Val)} (he : EntriesAre ([(b!"Type", IsName b!"Action")] ++ calls.flatMap ActionMeans) d)
    {fl : Option (List FormActionFlag)} (h : MaybeCall ActionMeans b!"Flags" calls fl .formFlags) :
    ∃ n, optionalEntry b!"Flags" d flagsOf = some n ∧ FormFlagsRead fl (n.getD 0) := by
  obtain ⟨y, h1, h2⟩ := optional_call (read := flagsOf) (P := fun fl : List FormActionFlag => FlagsAre (fl.map isoFormActionFlag))
    (R := fun fl n => FormFlagsRead (some fl) n) he rfl h (fun _ _ => rfl) (fun fl _ v hv => flags_read isoFormActionFlag fl v hv)
  refine ⟨y, h1, ?_⟩
  cases fl <;> cases y <;> first | exact h2 | exact h2.elim | (intro i; simp [FormFlagsRead])

theorem action_read (hf : Finds f bytes items) (hnav : NavOk nav items cat ids) (calls : List ActionCall) (g : GivenAction)
    (hg : ActionSet unf items cat ids calls g) (v : Val) (hv : IsAction calls v) :
    ∃ r, readAction unf f bytes nav v = some r ∧ ActionReads ids g r := by
  obtain ⟨d, rfl, he⟩ := hv
  have he : EntriesAre ([(b!"Type", IsName b!"Action")] ++ calls.flatMap ActionMeans) d := he
  have kind : ∀ t, OnlyCall ActionMeans b!"S" calls (.actionType t) → requiredEntry b!"S" d nameOf = some (isoActionType t) := fun t h =>
    required_eq (read := nameOf) _ (isoActionType t) he rfl h rfl (named_read _ _)
  have placed : ∀ p : GivenPlace, OnlyCall ActionMeans b!"F" calls (.fileSpec p.calls) → p.Set → requiredEntry b!"F" d (readPlace f bytes) = some p.is :=
    fun p h hp => required_eq (read := readPlace f bytes) _ p.is he rfl h rfl (place_read p hp)
  have window : ∀ w, MaybeCall ActionMeans b!"NewWindow" calls w .newWindow → optionalEntry b!"NewWindow" d truthOf = some w := fun w h => by
    have := optional_eq (read := truthOf) (fun b : Bool => IsBool b) id he rfl h (fun _ => rfl) bool_read
    simpa using this
  cases g with
  | goTo g =>
    obtain ⟨h1, h2, h3⟩ := hg
    obtain ⟨r, q, m⟩ := required_call (read := readDest nav) (P := g.call IsDestination IsName) (Q := DestMeans ids g) he rfl h2
      (by obtain ⟨p, vw, nm⟩ := g; cases nm <;> rfl) (fun v hv => dest_read hnav h3 hv)
    refine ⟨.goTo r.1 r.2, ?_, m⟩
    simp only [readAction, followDict, followRef, kind _ h1, isoActionType, Option.bind_some, if_true, q, Option.map_some]
  | remote p n w =>
    obtain ⟨h1, h2, h3, h4, h5⟩ := hg
    have q := required_eq (read := nameOf) (IsName n) n he rfl h4 rfl (isName_nameOf n)
    refine ⟨.remote p.is n w, ?_, rfl, rfl, rfl⟩
    simp only [readAction, followDict, followRef, kind _ h1, isoActionType, Option.bind_some, placed p h2 h3, window w h5, q, Option.map_some]
    rfl
  | launch p w =>
    obtain ⟨h1, h2, h3, h5⟩ := hg
    refine ⟨.launch p.is w, ?_, rfl, rfl⟩
    simp only [readAction, followDict, followRef, kind _ h1, isoActionType, Option.bind_some, placed p h2 h3, window w h5, Option.map_some]
    rfl
  | uri u m =>
    obtain ⟨h1, h2, h3⟩ := hg
    have q := required_eq (read := strOf) (IsStr u) u he rfl h2 rfl (str_read u)
    have q2 := optional_eq (read := truthOf) (fun b : Bool => IsBool b) id he rfl h3 (fun _ => rfl) bool_read
    refine ⟨.uri u (m.getD false), ?_, rfl, rfl⟩
    simp only [readAction, followDict, followRef, kind _ h1, isoActionType, Option.bind_some, q, q2, Option.map_some, Option.map_id, id]
    rfl
  | submit p fs fl =>
    obtain ⟨h1, h2, h3, h4, h5, h6⟩ := hg
    obtain ⟨n, q1, q2⟩ := flagsEntry_read he h6
    refine ⟨.submit p.is (fs.map fun g => g.list.map GivenFieldRef.wanted) (n.getD 0), ?_, rfl, rfl, q2⟩
    simp only [readAction, followDict, followRef, kind _ h1, isoActionType, Option.bind_some, placed p h2 h3, fieldsEntry_read he h4 h5, q1, Option.map_some]
    rfl
  | reset fs fl =>
    obtain ⟨h1, h4, h5, h6⟩ := hg
    obtain ⟨n, q1, q2⟩ := flagsEntry_read he h6
    refine ⟨.reset (fs.map fun g => g.list.map GivenFieldRef.wanted) (n.getD 0), ?_, rfl, q2⟩
    simp only [readAction, followDict, followRef, kind _ h1, isoActionType, Option.bind_some, fieldsEntry_read he h4 h5, q1, Option.map_some]
    rfl
  | importData p =>
    obtain ⟨h1, h2, h3⟩ := hg
    refine ⟨.importData p.is, ?_, rfl⟩
    simp only [readAction, followDict, followRef, kind _ h1, isoActionType, Option.bind_some, placed p h2 h3, Option.map_some]
    rfl
  | script t =>
    obtain ⟨h1, h2⟩ := hg
    have q := required_eq (read := readScript unf f bytes) (IsText t) t he rfl h2 rfl (fun v hv => by
      have := readText_isText t v hv
      obtain ⟨s, rfl, -⟩ := hv
      exact this)
    refine ⟨.script t, ?_, rfl⟩
    simp only [readAction, followDict, followRef, kind _ h1, isoActionType, Option.bind_some, q, Option.map_some]
    rfl
  | scriptStream id stream stored data t =>
    obtain ⟨h1, h2, h3, h4, h5⟩ := hg
    obtain ⟨-, -, -, q3⟩ := dataStored_read hf h3 h4
    have q := required_eq (read := readScript unf f bytes) (IsRef id) t he rfl h2 rfl (fun v hv => by
      simp only [IsRef] at hv
      subst hv
      simp only [readScript, q3, Option.bind_some, h5])
    refine ⟨.script t, ?_, rfl⟩
    simp only [readAction, followDict, followRef, kind _ h1, isoActionType, Option.bind_some, q, Option.map_some]
    rfl
  | rendition op an m =>
    obtain ⟨h1, h2, h3, h4, h5⟩ := hg
    have q1 := optional_eq (read := intOf) (fun o => IsInt (isoRenditionOperation o)) isoRenditionOperation he rfl h2 (fun _ => rfl) (fun o v hv => int_read _ v hv)
    have q2 := optional_eq (read := refNumber) IsRef (fun r => r.get.toNat) he rfl h3 (fun _ => rfl) (fun r v hv => by
      obtain ⟨a, h, rfl⟩ := refNumber_isRef r v hv; exact h)
    obtain ⟨y, q3, m3⟩ := optional_call (read := readMedia f bytes) (P := fun g : GivenMedia => IsRendition g.calls) (R := fun g a => a = g.wanted) he rfl h4
      (fun _ _ => rfl) (fun g hg v hv => ⟨_, media_read g (h5 g hg) v hv, rfl⟩)
    have m3 := bothOrNone_eq (g := GivenMedia.wanted) m3
    refine ⟨.rendition (op.map isoRenditionOperation) (an.map fun r => r.get.toNat) (m.map GivenMedia.wanted), ?_, rfl, rfl, rfl⟩
    simp only [readAction, followDict, followRef, kind _ h1, isoActionType, Option.bind_some, q1, q2, q3, m3, Option.map_some]
    rfl

/-! ## Events -/

/-- How the reader treats actions that were given. -/
def ReadsActions (ids : List Ref) (ok : List ActionCall → GivenAction → Prop) (read : Val → Option ReadAction) : Prop :=
  ∀ calls g, ok calls g → ∀ v, IsAction calls v → ∃ r, read v = some r ∧ ActionReads ids g r

theorem events_read {ok : List ActionCall → GivenAction → Prop} {read : Val → Option ReadAction} (hr : ReadsActions ids ok read) (g : GivenEvents)
    (table : List (Bytes × Event)) (hm : ∀ e ∈ table, ∀ a, (AdditionalActionsMeans .code (e.2.call a)).filter (fun x => x.1 == e.1) = [(e.1, IsAction a)])
    (hg : g.Set table ok) (d : List (Bytes × Val)) (he : EntriesAre (AdditionalActionsEntries .code (g.calls.getD [])) d) :
    ∃ rs, readEvents read table d = some rs ∧ EventsRead ids (g.list table) rs := by
  have he : EntriesAre ([] ++ (g.calls.getD []).flatMap (AdditionalActionsMeans .code)) d := he
  induction table with
  | nil => exact ⟨[], rfl, .nil⟩
  | cons e es ih =>
    obtain ⟨rs, h1, h2⟩ := ih (fun x hx => hm x (List.mem_cons_of_mem _ hx)) (fun x hx => hg x (List.mem_cons_of_mem _ hx))
    obtain ⟨h3, h4⟩ := hg e (List.mem_cons_self ..)
    obtain ⟨y, h5, h6⟩ := optional_call (read := read) (P := fun a : CalledAction => IsAction a.1) (R := fun a r => ActionReads ids a.2 r) he rfl h3
      (fun a _ => hm e (List.mem_cons_self ..) a.1) (fun a ha v hv => hr a.1 a.2 (h4 a ha) v hv)
    refine ⟨(y.map fun a => (e.2, a)).toList ++ rs, by simp only [readEvents, h5, Option.bind_some, h1, Option.map_some], ?_⟩
    simp only [EventsRead, GivenEvents.list, List.filterMap_cons]
    cases hx : g.on e.2 with
    | none =>
      rw [hx] at h6
      cases y with
      | some _ => exact h6.elim
      | none => exact h2
    | some a =>
      rw [hx] at h6
      cases y with
      | none => exact h6.elim
      | some r => exact .cons ⟨rfl, h6⟩ h2

/-- The dictionary of additional actions, or nothing. -/
def AdditionalAre (g : GivenEvents) (d : List (Bytes × Val)) : Prop :=
  ∃ y, optionalEntry b!"AA" d some = some y ∧ BothOrNone (fun c v => IsAdditionalActions .code c v) g.calls y

theorem additional_read {ok : List ActionCall → GivenAction → Prop} {read : Val → Option ReadAction} (hr : ReadsActions ids ok read) (g : GivenEvents)
    (table : List (Bytes × Event)) (hm : ∀ e ∈ table, ∀ a, (AdditionalActionsMeans .code (e.2.call a)).filter (fun x => x.1 == e.1) = [(e.1, IsAction a)])
    (hg : g.Set table ok) {d : List (Bytes × Val)}
    (hd : ∃ y, optionalEntry b!"AA" d (followDict f bytes) = some y ∧ BothOrNone (fun c es => EntriesAre (AdditionalActionsEntries .code c) es) g.calls y) :
    ∃ rs, readAdditional f bytes read table d = some rs ∧ EventsRead ids (g.list table) rs := by
  obtain ⟨y, h1, h2⟩ := hd
  simp only [readAdditional, h1, Option.bind_some]
  apply events_read hr g table hm hg
  cases hc : g.calls <;> rw [hc] at h2 <;> cases y <;> first | exact h2 | exact h2.elim | rfl

theorem documentEvents_means : ∀ e ∈ documentEvents, ∀ a, (AdditionalActionsMeans .code (e.2.call a)).filter (fun x => x.1 == e.1) = [(e.1, IsAction a)] := by
  intro e he a
  simp only [documentEvents, List.mem_cons, List.not_mem_nil, or_false] at he
  rcases he with rfl | rfl | rfl | rfl | rfl <;> rfl

theorem pageEvents_means : ∀ e ∈ pageEvents, ∀ a, (AdditionalActionsMeans .code (e.2.call a)).filter (fun x => x.1 == e.1) = [(e.1, IsAction a)] := by
  intro e he a
  simp only [pageEvents, List.mem_cons, List.not_mem_nil, or_false] at he
  rcases he with rfl | rfl <;> rfl

theorem annotationEvents_means : ∀ e ∈ annotationEvents, ∀ a, (AdditionalActionsMeans .code (e.2.call a)).filter (fun x => x.1 == e.1) = [(e.1, IsAction a)] := by
  intro e he a
  simp only [annotationEvents, List.mem_cons, List.not_mem_nil, or_false] at he
  rcases he with rfl | rfl | rfl | rfl | rfl | rfl | rfl | rfl | rfl | rfl | rfl | rfl | rfl <;> rfl

theorem additional_dict (c : List AdditionalActionsCall) (v : Val) (hv : IsAdditionalActions .code c v) :
    ∃ es, followDict f bytes v = some es ∧ EntriesAre (AdditionalActionsEntries .code c) es := by
  obtain ⟨es, rfl, he⟩ := hv
  exact ⟨es, rfl, he⟩

theorem source_events {s : AnnotSource} {x : Option (List AdditionalActionsCall)} {d : List (Bytes × Val)} (he : EntriesAre s.meant d) (hx : s.SetsEvents x) :
    ∃ y, optionalEntry b!"AA" d (followDict f bytes) = some y ∧ BothOrNone (fun c es => EntriesAre (AdditionalActionsEntries .code c) es) x y := by
  rcases hx with hx | ⟨field, annot, aa, rfl, rfl, ho⟩
  · exact source_call (read := followDict f bytes) (R := fun c es => EntriesAre (AdditionalActionsEntries .code c) es) (IsAdditionalActions .code) (by decide) he hx
      (fun _ => rfl) additional_dict
  · have he : EntriesAre ([] ++ field.flatMap (FieldMeans .code)) d := he
    exact optional_call (x := some aa) (c := fun aa => FieldCall.additionalActions aa) (P := fun c => IsAdditionalActions .code c) he rfl ho (fun _ _ => rfl)
      (fun c _ v hv => additional_dict c v hv)

theorem optional_raw {γ : Type} {k : Bytes} {d : List (Bytes × Val)} {y : Option Val} (read : Val → Option γ) (h : optionalEntry k d some = some y) :
    optionalEntry k d read = y.elim (some none) fun v => (read v).map some := by
  unfold optionalEntry at *
  split at h
  · rename_i hc
    simp only [Option.some.injEq] at h
    subst h
    rw [if_pos hc]; rfl
  · rename_i hc
    rw [if_neg hc]
    cases hl : lookup k d with
    | none => rw [hl] at h; simp at h
    | some v => rw [hl] at h; simp only [Option.bind_some, Option.map_some, Option.some.injEq] at h; subst h; rfl

theorem annotEvents_read (hf : Finds f bytes items) {ok : List ActionCall → GivenAction → Prop} {read : Val → Option ReadAction}
    (hr : ReadsActions ids ok read) (g : EventAnnot) (hg : g.Written items ok) :
    ∃ rs, readAnnotEvents f bytes read g.id.get.toNat = some rs ∧ EventsRead ids g.list rs := by
  obtain ⟨v, ho, hv⟩ := finds_val hf hg.object
  obtain ⟨d, rfl, he⟩ := source_body g.source v hv
  obtain ⟨z, z1, z2⟩ := source_call (read := some) (R := fun (a : CalledAction) v => IsAction a.1 v) (fun a : CalledAction => IsAction a.1) (by decide) he
    hg.action (fun _ => rfl) (fun a v hv => ⟨v, rfl, hv⟩)
  have hact : ∃ y, optionalEntry b!"A" d read = some y ∧ BothOrNone (fun (a : CalledAction) r => ActionReads ids a.2 r) g.action y := by
    rw [optional_raw read z1]
    cases ha : g.action with
    | none =>
      rw [ha] at z2
      cases z with
      | none => exact ⟨none, rfl, trivial⟩
      | some _ => exact z2.elim
    | some a =>
      rw [ha] at z2
      cases z with
      | none => exact z2.elim
      | some v =>
        obtain ⟨r, h1, h2⟩ := hr a.1 a.2 (hg.actionSet a ha) v z2
        exact ⟨some r, by simp only [Option.elim_some, h1, Option.map_some], h2⟩
  obtain ⟨y, h1, h2⟩ := hact
  obtain ⟨rs, h3, h4⟩ := additional_read (f := f) (bytes := bytes) hr g.events annotationEvents annotationEvents_means hg.events (source_events he hg.additional)
  refine ⟨(y.map fun a => (Event.activated, a)).toList ++ rs, ?_, ?_⟩
  · simp only [readAnnotEvents, dictObject, ho, Option.bind_some, h1, h3, Option.map_some]
  · simp only [EventAnnot.list, EventsRead]
    cases ha : g.action <;> rw [ha] at h2 <;> cases y <;> first | exact h2.elim | exact h4 | exact .cons ⟨rfl, h2⟩ h4

theorem pageEvents_read (hf : Finds f bytes items) {ok : List ActionCall → GivenAction → Prop} {read : Val → Option ReadAction}
    (hr : ReadsActions ids ok read) (id : Ref) (calls : List PageCall) (ho : HasObject items id (.val (Page.prog calls))) (g : EventPage)
    (hg : g.Written items ok calls) : ∃ r, readPageEvents f bytes read id.get.toNat = some r ∧ EventPageReads ids g r := by
  have hp := page_annots_read hf [(id, calls)] [g.annots.map EventAnnot.id] (by intro x hx; simp only [List.mem_singleton] at hx; subst hx; exact ho)
    (.cons hg.annots .nil)
  obtain ⟨v, hob, hv⟩ := finds_val hf ho
  obtain ⟨d, rfl, he⟩ := page_denotes .code calls (Or.inl rfl) v hv
  have he : EntriesAre ([(b!"Type", IsName b!"Page")] ++ calls.flatMap (PageMeans .code)) d := he
  have haa := optional_call (read := followDict f bytes) (P := fun c => IsAdditionalActions .code c)
    (R := fun c es => EntriesAre (AdditionalActionsEntries .code c) es) he rfl hg.additional (fun _ _ => rfl) (fun c _ v hv => additional_dict c v hv)
  obtain ⟨own, h1, h2⟩ := additional_read hr g.events pageEvents pageEvents_means hg.events haa
  have hall : ∀ as : List EventAnnot, (∀ a ∈ as, a.Written items ok) →
      ∃ rs, readEach (readAnnotEvents f bytes read) (as.map fun a => a.id.get.toNat) = some rs ∧ Pairwise (fun a r => EventsRead ids (EventAnnot.list a) r) as rs := by
    intro as has
    induction as with
    | nil => exact ⟨[], rfl, .nil⟩
    | cons a as ih =>
      obtain ⟨r, q1, q2⟩ := annotEvents_read hf hr a (has a (List.mem_cons_self ..))
      obtain ⟨rs, q3, q4⟩ := ih (fun x hx => has x (List.mem_cons_of_mem _ hx))
      exact ⟨r :: rs, by simp only [List.map_cons, readEach, q1, q3, Option.bind_some, Option.map_some], .cons q2 q4⟩
  obtain ⟨rs, h3, h4⟩ := hall g.annots hg.annotsWritten
  simp only [List.map_cons, List.map_nil, readEach] at hp
  cases hq : pageAnnots f bytes id.get.toNat with
  | none => rw [hq] at hp; simp at hp
  | some l =>
    rw [hq] at hp
    simp only [Option.bind_some, Option.map_some, Option.some.injEq, List.cons.injEq, and_true] at hp
    subst hp
    rw [List.map_map] at hq
    refine ⟨(own, rs), ?_, h2, h4⟩
    simp only [readPageEvents, hq, Option.bind_some]
    rw [show (fun x : Ref => x.get.toNat) ∘ EventAnnot.id = fun g => g.id.get.toNat from rfl, h3]
    simp only [dictObject, hob, Option.bind_some, h1, Option.map_some]

theorem allPageEvents_read (hf : Finds f bytes items) {ok : List ActionCall → GivenAction → Prop} {read : Val → Option ReadAction}
    (hr : ReadsActions ids ok read) (ls : List (Ref × List PageCall)) (pages : List EventPage)
    (hob : ∀ e ∈ ls, HasObject items e.1 (.val (Page.prog e.2))) (h : Pairwise (fun e g => EventPage.Written items ok e.2 g) ls pages) :
    ∃ rs, readEach (readPageEvents f bytes read) (ls.map fun e => e.1.get.toNat) = some rs ∧ Pairwise (EventPageReads ids) pages rs := by
  induction h with
  | nil => exact ⟨[], rfl, .nil⟩
  | cons ha hr' ih =>
    rename_i e g es gs
    obtain ⟨rs, h1, h2⟩ := ih (fun e he => hob e (List.mem_cons_of_mem _ he))
    obtain ⟨r, h3, h4⟩ := pageEvents_read hf hr e.1 e.2 (hob e (List.mem_cons_self ..)) g ha
    exact ⟨r :: rs, by simp only [List.map_cons, readEach, h3, h1, Option.bind_some, Option.map_some], .cons h4 h2⟩

/-! ## Named scripts -/

theorem namedScripts_read (hf : Finds f bytes items) {ok : List ActionCall → GivenAction → Prop} {read : Val → Option ReadAction}
    (hr : ReadsActions ids ok read) (href : ∀ n v, f.object bytes n = some (.val (.dict v)) → read (.ref n 0) = read (.dict v)) (gs : List GivenScript)
    (hg : ∀ g ∈ gs, HasObject items g.id (.val (Action.prog g.action.1)) ∧ ok g.action.1 g.action.2) (rs : List (Bytes × Val))
    (hp : PairsMean (gs.map fun g => (g.name, Prim.ref g.id)) rs) :
    ∃ out, readEach (fun e : Bytes × Val => (read e.2).map fun a => (e.1, a)) rs = some out ∧
      Pairwise (fun (g : GivenScript) r => r.1 = g.name ∧ ActionReads ids g.action.2 r.2) gs out := by
  induction gs generalizing rs with
  | nil => cases hp; exact ⟨[], rfl, .nil⟩
  | cons g gs ih =>
    simp only [List.map_cons, PairsMean] at hp
    cases hp with
    | cons h hp' =>
      rename_i r rs
      obtain ⟨ho, hok⟩ := hg g (List.mem_cons_self ..)
      obtain ⟨out, q1, q2⟩ := ih (fun x hx => hg x (List.mem_cons_of_mem _ hx)) rs hp'
      obtain ⟨k, w⟩ := r
      obtain ⟨rfl, hw⟩ := h
      simp only [PrimDenotes] at hw
      subst hw
      obtain ⟨v, hob, hv⟩ := finds_val hf ho
      have hia := action_denotes g.action.1 v hv
      obtain ⟨d, rfl, -⟩ := id hia
      obtain ⟨a, q3, q4⟩ := hr _ _ hok _ hia
      refine ⟨(g.name, a) :: out, ?_, .cons ⟨rfl, q4⟩ q2⟩
      simp only [readEach, href _ _ hob, q3, Option.map_some, Option.bind_some, q1]

theorem scripts_read (hf : Finds f bytes items) {ok : List ActionCall → GivenAction → Prop} {read : Val → Option ReadAction}
    (hr : ReadsActions ids ok read) (href : ∀ n v, f.object bytes n = some (.val (.dict v)) → read (.ref n 0) = read (.dict v)) (depth : Nat)
    (gs : List GivenScript) (hg : ScriptsWritten items ok cat depth gs) {d : List (Bytes × Val)} (he : EntriesAre (CatalogEntries .code cat) d) :
    ∃ out, readScripts f bytes read depth d = some out ∧ Pairwise (fun (g : GivenScript) r => r.1 = g.name ∧ ActionReads ids g.action.2 r.2) gs out := by
  rcases hg with ⟨hn, rfl⟩ | ⟨names, hn, hg⟩
  · refine ⟨[], ?_, .nil⟩
    simp only [readScripts]
    rw [optional_absent he (by simp only [CatalogEntries, List.filter_append, noCall_filter hn]; rfl)]
    rfl
  · have h1 : ∃ nd, optionalEntry b!"Names" d (followDict f bytes) = some (some nd) ∧ EntriesAre (NamesEntries .code names) nd := by
      obtain ⟨a, q1, q2⟩ := optional_present (read := followDict f bytes) (Q := fun nd => EntriesAre (NamesEntries .code names) nd) (P := IsNames .code names) he
        (k := b!"Names") (by simp only [CatalogEntries, List.filter_append, onlyCall_filter hn]; rfl) (fun v hv => by
          obtain ⟨nd, rfl, h⟩ := hv
          exact ⟨nd, rfl, h⟩)
      exact ⟨a, q1, q2⟩
    obtain ⟨nd, h1, hnd⟩ := h1
    rcases hg with ⟨hj, rfl⟩ | ⟨t, hj, hw, hd, hp, hg⟩
    · refine ⟨[], ?_, .nil⟩
      simp only [readScripts, h1, Option.bind_some, Option.getD_some]
      rw [optional_absent hnd (by simp only [NamesEntries, noCall_filter hj])]
      rfl
    · obtain ⟨td, q1, q2⟩ := optional_present (read := followDict f bytes) (Q := fun td => EntriesAre (NameTreeEntries .code t.calls) td)
        (P := IsNameTree .code t.calls) hnd (k := b!"JavaScript") (by simp only [NamesEntries, onlyCall_filter hj]; rfl) (fun v hv => by
          obtain ⟨nd, rfl, h⟩ := hv
          exact ⟨nd, rfl, h⟩)
      obtain ⟨rs, q3, q4⟩ := tree_list nameTree_ok hf t hw depth hd td q2
      have q3 : listTree b!"Names" strOf f bytes depth td = some rs := q3
      rw [hp] at q4
      obtain ⟨out, q5, q6⟩ := namedScripts_read hf hr href gs hg rs q4
      exact ⟨out, by simp only [readScripts, h1, Option.bind_some, Option.getD_some, q1, q3, q5], q6⟩

end PdfW
