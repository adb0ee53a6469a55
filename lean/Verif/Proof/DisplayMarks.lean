import Verif.Spec.DisplayMarks
import Verif.Proof.Display
import Verif.Proof.Interpret

set_option linter.unusedSimpArgs false
set_option linter.unusedVariables false

/-!
# What is painted in the marked-content sequences of a page
-/

namespace PdfW
open Spec Imaging

/-- The same event. -/
inductive SameEvent {N V N' V' : Type} (R : N → N' → Prop) (S : V → V' → Prop) : MarkEvent N V → MarkEvent N' V' → Prop
  | act {a a'} : SameAct R S a a' → SameEvent R S (.act a) (.act a')
  | start {s} : SameEvent R S (.start s) (.start s)
  | finish : SameEvent R S .finish .finish

theorem pairwise_with {α β γ : Type} {Q : α → β → Prop} (c : γ) {l : List α} {l' : List β} (h : Pairwise Q l l') :
    Pairwise (fun (x : α × γ) (y : β × γ) => Q x.1 y.1 ∧ y.2 = x.2) (l.map fun x => (x, c)) (l'.map fun x => (x, c)) := by
  induction h with
  | nil => exact .nil
  | cons a _ ih => exact .cons ⟨a, rfl⟩ ih

/-- The same element in the same sequences. -/
abbrev SameWithin {N V N' V' : Type} (R : N → N' → Prop) (S : V → V' → Prop) (x : Element N V × List Sequence) (y : Element N' V' × List Sequence) :
    Prop := SameElement R S x.1 y.1 ∧ y.2 = x.2

/-- An environment without XObjects. -/
def Env.bare {N V : Type} (e : Env N V) : Env N V := { e with object := fun _ _ => none }

theorem stepMarks_bare {N V : Type} (e : Env N V) (object : Bytes → GState N V → List Sequence → Option (List (Element N V × List Sequence)))
    (m : Canvas N V) (marks : List Sequence) (a : Act N V) : stepMarks e object m marks a = stepMarks (Env.bare e) object m marks a := by
  cases a <;> rfl

theorem stepMarks_same {N V N' V' : Type} {R : N → N' → Prop} {S : V → V' → Prop} {e : Env N V} {e' : Env N' V'}
    (he : SameEnv R S (Env.bare e) (Env.bare e'))
    {object : Bytes → GState N V → List Sequence → Option (List (Element N V × List Sequence))}
    {object' : Bytes → GState N' V' → List Sequence → Option (List (Element N' V' × List Sequence))}
    (ho : ∀ n g g' marks es, SameState R S g g' → object n g marks = some es →
      ∃ es', object' n g' marks = some es' ∧ Pairwise (SameWithin R S) es es')
    {m : Canvas N V} {m' : Canvas N' V'} (hm : SameCanvas R S m m') {marks : List Sequence} {a : Act N V} {a' : Act N' V'} (ha : SameAct R S a a')
    {r : Canvas N V × List (Element N V × List Sequence)} (h : stepMarks e object m marks a = some r) :
    ∃ r', stepMarks e' object' m' marks a' = some r' ∧ SameCanvas R S m m' ∧ SameCanvas R S r.1 r'.1 ∧ Pairwise (SameWithin R S) r.2 r'.2 := by
  rw [stepMarks_bare] at h ⊢
  have key : ∀ (hx : (Imaging.step (Env.bare e) m a).map (fun r => (r.1, within marks r.2)) = some r)
      (hy : stepMarks (Env.bare e') object' m' marks a' = (Imaging.step (Env.bare e') m' a').map (fun r => (r.1, within marks r.2))),
      ∃ r', stepMarks (Env.bare e') object' m' marks a' = some r' ∧ SameCanvas R S m m' ∧ SameCanvas R S r.1 r'.1 ∧
        Pairwise (SameWithin R S) r.2 r'.2 := by
    intro hx hy
    simp only [Option.map_eq_some_iff] at hx
    obtain ⟨r1, h1, rfl⟩ := hx
    obtain ⟨r', h3, h4, h5⟩ := step_same he hm ha h1
    exact ⟨(r'.1, within marks r'.2), by rw [hy, h3, Option.map_some], hm, h4, pairwise_with marks h5⟩
  cases ha with
  | object =>
    simp only [stepMarks, Option.map_eq_some_iff] at h
    obtain ⟨es, h1, rfl⟩ := h
    obtain ⟨es', h2, h3⟩ := ho _ _ _ _ _ hm.state h1
    exact ⟨(m', es'), by simp only [stepMarks, h2, Option.map_some], hm, hm, h3⟩
  | _ => exact key h rfl

theorem displayMarks_same {N V N' V' : Type} {R : N → N' → Prop} {S : V → V' → Prop} {e : Env N V} {e' : Env N' V'}
    (he : SameEnv R S (Env.bare e) (Env.bare e'))
    {object : Bytes → GState N V → List Sequence → Option (List (Element N V × List Sequence))}
    {object' : Bytes → GState N' V' → List Sequence → Option (List (Element N' V' × List Sequence))}
    (ho : ∀ n g g' marks es, SameState R S g g' → object n g marks = some es →
      ∃ es', object' n g' marks = some es' ∧ Pairwise (SameWithin R S) es es')
    {around : List Sequence} {evs : List (MarkEvent N V)} {evs' : List (MarkEvent N' V')} (ha : Pairwise (SameEvent R S) evs evs')
    {m : Canvas N V} {m' : Canvas N' V'} (hm : SameCanvas R S m m') {own : List Sequence} {es : List (Element N V × List Sequence)}
    (h : displayMarks e object around m own evs = some es) :
    ∃ es', displayMarks e' object' around m' own evs' = some es' ∧ Pairwise (SameWithin R S) es es' := by
  induction ha generalizing m m' own es with
  | nil =>
    simp only [displayMarks] at h ⊢
    split at h
    · rename_i hc; cases h; exact ⟨[], by rw [if_pos hc], .nil⟩
    · cases h
  | cons hab _ ih =>
    cases hab with
    | act hab =>
      simp only [displayMarks, Option.bind_eq_some_iff, Option.map_eq_some_iff] at h
      obtain ⟨r, h1, es2, h2, rfl⟩ := h
      obtain ⟨r', h3, -, h4, h5⟩ := stepMarks_same he ho hm hab h1
      obtain ⟨es', h6, h7⟩ := ih h4 h2
      exact ⟨r'.2 ++ es', by simp only [displayMarks, h3, Option.bind_some, h6, Option.map_some], pairwise_append h5 h7⟩
    | start =>
      simp only [displayMarks] at h ⊢
      exact ih hm h
    | finish =>
      simp only [displayMarks] at h ⊢
      split at h
      · cases h
      · rename_i hc
        rw [if_neg hc]
        exact ih hm h

variable {unf : Val → Bytes → Option Bytes} {f : FileEnd} {bytes : Bytes} {items : List Item}

theorem mcid_read (calls : List PropCall) (mcid : Option Int) (hm : McidSet calls mcid) (d : List (Bytes × Val))
    (hd : DenotesEntries (calls.map propEntry) d) : optionalEntry b!"MCID" d intOf = some mcid := by
  have he := propEntries_are calls d hd
  have := optional_eq (pre := []) (read := intOf) (P := IsInt) (g := id) he rfl hm
    (fun b => by simp [PropMeans, propEntry]; funext v; simp [Denotes, PrimDenotes, IsInt])
    (fun b v hv => by simp only [IsInt] at hv; subst hv; rfl)
  simpa using this

theorem sameEvents {as : List (Act F32 Prog)} {bs : List (Act Val Val)} (h : Pairwise (SameAct NumIs Denotes) as bs) :
    Pairwise (SameEvent NumIs Denotes) (as.map .act) (bs.map .act) := by
  induction h with
  | nil => exact .nil
  | cons a _ ih => exact .cons (.act a) ih

/-- What a call asks for is what its operator asks for. -/
theorem actsEvents_read {res : Option (List ResourcesCall)} {rv : Option Val} (hr : ResRead f bytes res rv) {c : ContentCall} {op : ReadOp}
    (h : Means c op) {o : Option Ref} {evs : List (MarkEvent F32 Prog)} (ha : Asks o res c evs) :
    ∃ evs', readMarkEvents f bytes (o.map fun r => r.get.toNat) rv op = some evs' ∧ Pairwise (SameEvent NumIs Denotes) evs evs' := by
  cases ha with
  | plain =>
    obtain ⟨k, args⟩ := op
    obtain ⟨hk, ha⟩ := h
    simp only [operatorOf] at hk
    simp only [operandsOf, nam, DenotesItems, Denotes, PrimDenotes] at ha
    obtain ⟨_, _, rfl, rfl, rfl⟩ := ha
    subst hk
    exact ⟨_, rfl, .cons .start .nil⟩
  | listed hmc =>
    obtain ⟨k, args⟩ := op
    obtain ⟨hk, ha⟩ := h
    simp only [operatorOf] at hk
    simp only [operandsOf, DenotesItems, nam, Denotes, PrimDenotes] at ha
    obtain ⟨w, ws, rfl, rfl, w', ws', rfl, ⟨d, rfl, hd'⟩, rfl⟩ := ha
    subst hk
    refine ⟨_, ?_, .cons .start .nil⟩
    simp only [readMarkEvents, readSequence, mcid_read _ _ hmc d hd', Option.map_some]
    rw [if_neg (by decide), if_pos trivial]
  | named hpw hmc =>
    obtain ⟨k, args⟩ := op
    obtain ⟨hk, ha⟩ := h
    simp only [operatorOf] at hk
    simp only [operandsOf, DenotesItems, nam, Denotes, PrimDenotes] at ha
    obtain ⟨w, ws, rfl, rfl, w', ws', rfl, rfl, rfl⟩ := ha
    obtain ⟨d, hn, hd'⟩ := propsNamed_read hr hpw
    subst hk
    refine ⟨_, ?_, .cons .start .nil⟩
    simp only [readMarkEvents, readSequence, hn, Option.bind_some, mcid_read _ _ hmc d hd', Option.map_some]
    rw [if_neg (by decide), if_pos trivial]
  | finish =>
    obtain ⟨k, args⟩ := op
    obtain ⟨hk, ha⟩ := h
    simp only [operatorOf] at hk
    simp only [operandsOf, DenotesItems] at ha
    subst hk ha
    exact ⟨_, rfl, .cons .finish .nil⟩
  | other hu ho =>
    obtain ⟨bs, h1, h2⟩ := acts_read c op h hu
    rw [← h.1] at ho
    simp only [List.mem_cons, List.not_mem_nil, or_false, not_or] at ho
    exact ⟨_, by simp only [readMarkEvents, if_neg ho.1, if_neg ho.2.1, if_neg ho.2.2, h1, Option.map_some], sameEvents h2⟩

theorem allActsEvents_read {res : Option (List ResourcesCall)} {rv : Option Val} (hr : ResRead f bytes res rv) {o : Option Ref} {cs : List ContentCall}
    {evs : List (List (MarkEvent F32 Prog))} (ha : Pairwise (Asks o res) cs evs) (ops : List ReadOp) (h : AllMean cs ops) :
    ∃ evs', readAllMarkEvents f bytes (o.map fun r => r.get.toNat) rv ops = some evs' ∧ Pairwise (SameEvent NumIs Denotes) evs.flatten evs' := by
  induction ha generalizing ops with
  | nil => simp only [AllMean] at h; subst h; exact ⟨[], rfl, .nil⟩
  | cons hc _ ih =>
    obtain ⟨op, os, rfl, h1, h2⟩ := h
    obtain ⟨a, h3, h4⟩ := actsEvents_read hr h1 hc
    obtain ⟨b, h5, h6⟩ := ih os h2
    exact ⟨a ++ b, by simp only [readAllMarkEvents, h3, Option.bind_some, h5, Option.map_some], by
      rw [List.flatten_cons]; exact pairwise_append h4 h6⟩

theorem displayObjectMarks_eq (forms : Nat) (rv : Option Val) (name : Bytes) (g : GState Val Val) (around : List Sequence) :
    displayObjectMarks unf f bytes forms rv name g around =
      (resourceNumber f bytes rv b!"XObject" name).bind fun n =>
        match f.object bytes n with
        | some (.stream d _) =>
          match lookup b!"Subtype" d with
          | some (.name t) =>
            if t = b!"Image" then some [(.image n g, around)]
            else if t = b!"Form" then
              match forms with
              | 0 => none
              | forms + 1 =>
                (optionalEntry b!"Matrix" d itemsOf).bind fun matrix => ((lookup b!"BBox" d).bind itemsOf).bind fun box =>
                  (effectiveResources rv d).bind fun res => (decodedStream unf f bytes n).bind fun data =>
                    (readContent data).bind fun ops => (readAllMarkEvents f bytes (some n) res ops).bind fun evs =>
                      (displayMarks ⟨.name, namedValue f bytes res, fun _ _ => none⟩ (displayObjectMarks unf f bytes forms res) around
                        (blank (inside matrix box g)) [] evs).map fun es => [(.enter n g, around)] ++ es ++ [(.leave n, around)]
            else none
          | _ => none
        | _ => none := by
  rw [displayObjectMarks.eq_def]
  rfl

theorem bare_same (hf : Finds f bytes items) {res : Option (List ResourcesCall)} {rv : Option Val} (hr : ResRead f bytes res rv) {e : Env F32 Prog}
    (he1 : ∀ n, e.device n = .prim (.name n)) (he2 : ∀ category n v, e.resource category n = some v → ResourceGiven items res category n v) :
    SameEnv NumIs Denotes (Env.bare e) (Env.bare ⟨.name, namedValue f bytes rv, fun _ _ => none⟩) :=
  ⟨fun n => by simp only [Env.bare, he1 n]; rfl, fun c n v hv => namedValue_read hf hr (he2 c n v hv), by intro n g g' es _ h; cases h⟩

theorem marks_read (hf : Finds f bytes items) (depth : Nat) : ∀ (forms : Nat), depth ≤ forms →
    ∀ (o : Option Ref) (res : Option (List ResourcesCall)) (rv : Option Val), ResRead f bytes res rv →
    ∀ (g : GState F32 Prog) (g' : GState Val Val), SameState NumIs Denotes g g' →
    ∀ (around : List Sequence) (calls : List ContentCall) (es : List (Element F32 Prog × List Sequence)),
      MarksGiven unf items depth o res g around calls es →
    ∀ (ops : List ReadOp), AllMean calls ops →
    ∃ evs es', readAllMarkEvents f bytes (o.map fun r => r.get.toNat) rv ops = some evs ∧
      displayMarks ⟨.name, namedValue f bytes rv, fun _ _ => none⟩ (displayObjectMarks unf f bytes forms rv) around (blank g') [] evs = some es' ∧
      Pairwise SameMarked es es' := by
  induction depth with
  | zero =>
    intro forms hd o res rv hr g g' hg around calls es h ops hm
    obtain ⟨e, object, evs, he1, he2, he3, ha, hrun⟩ := h
    obtain ⟨as, h1, h2⟩ := allActsEvents_read hr ha ops hm
    obtain ⟨es', h3, h4⟩ := displayMarks_same (bare_same hf hr he1 he2) (object' := displayObjectMarks unf f bytes forms rv) (fun n g g' marks es hg ho => by
      rcases he3 n g marks es ho with ⟨id, ic, data, hx, hob, hsub, rfl⟩ | ⟨p, res', matrix, r, inner, hx, hw, hset, hmx, hbb, hbelow, rfl⟩
      · obtain ⟨d, q1, q2⟩ := image_read hf hob hsub
        refine ⟨[(.image id.get.toNat g', marks)], ?_, .cons ⟨.image hg, rfl⟩ .nil⟩
        rw [displayObjectMarks_eq]
        simp only [xobjectNumber_read hf hr hx, q1, q2, if_true, Option.bind_some]
      · exact hbelow.elim) h2 (blank_same hg) hrun
    exact ⟨as, es', h1, h3, h4⟩
  | succ depth ih =>
    intro forms hd o res rv hr g g' hg around calls es h ops hm
    obtain ⟨e, object, evs, he1, he2, he3, ha, hrun⟩ := h
    obtain ⟨as, h1, h2⟩ := allActsEvents_read hr ha ops hm
    obtain ⟨es', h3, h4⟩ := displayMarks_same (bare_same hf hr he1 he2) (object' := displayObjectMarks unf f bytes forms rv) (fun n g g' marks es hg ho => by
      rcases he3 n g marks es ho with ⟨id, ic, data, hx, hob, hsub, rfl⟩ | ⟨p, res', matrix, r, inner, hx, hw, hset, hmx, hbb, hbelow, rfl⟩
      · obtain ⟨d, q1, q2⟩ := image_read hf hob hsub
        refine ⟨[(.image id.get.toNat g', marks)], ?_, .cons ⟨.image hg, rfl⟩ .nil⟩
        rw [displayObjectMarks_eq]
        simp only [xobjectNumber_read hf hr hx, q1, q2, if_true, Option.bind_some]
      · obtain ⟨m, rfl⟩ : ∃ m, forms = m + 1 := ⟨forms - 1, by omega⟩
        obtain ⟨d, rv', data, fops, q1, q2, q3, q4, q5, q6, q7⟩ := form_read hf p hw hr hset
        obtain ⟨d', g1, g2⟩ := finds_stream hf hw.object
        have hent := entriesAre_of (formXObject_implied p.calls) g2
        obtain ⟨y, hy, hym⟩ := optional_call (read := itemsOf) (R := Pairwise NumIs) (P := fun xs => ArrayIs (xs.map fun x => NumIs x))
          hent rfl hmx (fun _ _ => rfl) (fun b _ v hv => numbers_read b v hv)
        have hbf : (FormXObjectEntries p.calls).filter (fun e => e.1 == b!"BBox") = [(b!"BBox", IsRect r)] := by
          simp only [FormXObjectEntries, List.filter_append, onlyCall_filter hbb]; rfl
        obtain ⟨w, hl, bs, rfl, hbs⟩ := lookup_of hent hbf
        rw [g1] at q1
        obtain rfl : (b!"Length", Val.int p.data.length) :: d' = d := by
          simpa using q1
        have hmt : Pairwise (Pairwise NumIs) matrix.toList y.toList := by
          cases matrix <;> cases y <;> first | exact .nil | exact hym.elim | exact .cons hym .nil
        have hin := inside_same hmt (itemsAre_pairwise [r.x1, r.y1, r.x2, r.y2] bs hbs) hg
        obtain ⟨fas, fes, p1, p2, p3⟩ := ih m (by omega) (some p.id) res' rv' q4 _ _ hin marks p.content inner hbelow fops q7
        refine ⟨[(.enter p.id.get.toNat g', marks)] ++ fes ++ [(.leave p.id.get.toNat, marks)], ?_,
          pairwise_append (pairwise_append (.cons ⟨.enter hg, rfl⟩ .nil) p3) (.cons ⟨.leave, rfl⟩ .nil)⟩
        rw [displayObjectMarks_eq]
        simp only [xobjectNumber_read hf hr hx, Option.bind_some, g1, q2, q3, q5, q6]
        rw [if_neg (by decide), if_pos trivial, optional_cons (by decide), hy, lookup_skip_length (by decide), hl]
        simp only [Option.map_some] at p1
        simp only [itemsOf, Option.bind_some, p1, p2, Option.map_some]) h2 (blank_same hg) hrun
    exact ⟨as, es', h1, h3, h4⟩

theorem pageMarks_read (hf : Finds f bytes items) (forms depth : Nat) (hd : depth ≤ forms) (id : Ref) (res : Option (List ResourcesCall))
    (calls : List ContentCall) (x : List (Element F32 Prog × List Sequence)) (rv : Option Val) (d : List (Bytes × Val)) (ops : List ReadOp)
    (hx : MarksGiven unf items depth none res (initial fun n => .prim (.name n)) [] calls x) (hr : ResRead f bytes res rv)
    (hops : pageOperations unf f bytes d = some ops) (hm : AllMean calls ops) :
    ∃ y, readPageMarks unf f bytes forms id.get.toNat rv d = some y ∧ Pairwise SameMarked x y := by
  have hg : SameState NumIs Denotes (initial fun n => .prim (.name n)) (initial Val.name) :=
    ⟨.nil, .nil, ⟨rfl, .nil, trivial⟩, ⟨rfl, .nil, trivial⟩, .nil⟩
  obtain ⟨evs, y, h1, h2, h3⟩ := marks_read hf depth forms hd none res rv hr _ _ hg [] calls x hx ops hm
  simp only [Option.map_none] at h1
  exact ⟨y, by simp only [readPageMarks, hops, Option.bind_some, h1, h2], h3⟩

/-! ## Without the sequences -/

/-- The requests among events. -/
def actsIn {N V : Type} : List (MarkEvent N V) → List (Act N V)
  | [] => []
  | .act a :: evs => a :: actsIn evs
  | .start _ :: evs => actsIn evs
  | .finish :: evs => actsIn evs

theorem actsIn_append {N V : Type} (a b : List (MarkEvent N V)) : actsIn (a ++ b) = actsIn a ++ actsIn b := by
  induction a with
  | nil => rfl
  | cons x xs ih => cases x <;> simp only [List.cons_append, actsIn, ih]

theorem actsIn_map {N V : Type} (as : List (Act N V)) : actsIn (as.map .act) = as := by
  induction as with
  | nil => rfl
  | cons x xs ih => simp only [List.map_cons, actsIn, ih]

theorem within_fst {N V : Type} (marks : List Sequence) (es : List (Element N V)) : (within marks es).map Prod.fst = es := by
  simp only [within, List.map_map]
  exact List.map_id _

/-- The sequences do not change what is painted. -/
theorem displayMarks_erase {N V : Type} (e : Env N V) (x : Bytes → GState N V → Option (List (Element N V)))
    (object : Bytes → GState N V → List Sequence → Option (List (Element N V × List Sequence)))
    (ho : ∀ n g marks es, object n g marks = some es → x n g = some (es.map Prod.fst)) (around : List Sequence) (evs : List (MarkEvent N V)) :
    ∀ (m : Canvas N V) (own : List Sequence) (es : List (Element N V × List Sequence)), displayMarks e object around m own evs = some es →
      display { e with object := x } m (actsIn evs) = some (es.map Prod.fst) := by
  induction evs with
  | nil =>
    intro m own es h
    simp only [displayMarks] at h
    split at h
    · cases h; rfl
    · cases h
  | cons ev evs ih =>
    intro m own es h
    cases ev with
    | act a =>
      simp only [displayMarks, Option.bind_eq_some_iff, Option.map_eq_some_iff] at h
      obtain ⟨r, h1, es2, h2, rfl⟩ := h
      have hs : Imaging.step { e with object := x } m a = some (r.1, r.2.map Prod.fst) := by
        have key : ∀ (hx : (Imaging.step e m a).map (fun r => (r.1, within (own ++ around) r.2)) = some r)
            (hy : Imaging.step { e with object := x } m a = Imaging.step e m a), 
            Imaging.step { e with object := x } m a = some (r.1, r.2.map Prod.fst) := by
          intro hx hy
          simp only [Option.map_eq_some_iff] at hx
          obtain ⟨r1, q1, rfl⟩ := hx
          rw [hy, q1, within_fst]
        cases a with
        | object n =>
          simp only [stepMarks, Option.map_eq_some_iff] at h1
          obtain ⟨es, q1, rfl⟩ := h1
          simp only [Imaging.step, ho _ _ _ _ q1, Option.map_some]
        | _ => exact key h1 rfl
      simp only [actsIn, display, hs, Option.bind_some, ih _ _ _ h2, Option.map_some, List.map_append]
    | start s =>
      simp only [displayMarks] at h
      exact ih _ _ _ h
    | finish =>
      simp only [displayMarks] at h
      split at h
      · cases h
      · exact ih _ _ _ h

theorem readEvents_erase {o : Option Nat} {rv : Option Val} (op : ReadOp) (evs : List (MarkEvent Val Val)) (h : readMarkEvents f bytes o rv op = some evs) :
    readActs op = some (actsIn evs) := by
  obtain ⟨k, args⟩ := op
  unfold readMarkEvents at h
  simp only at h
  split at h
  · rename_i hk
    subst hk
    have : operators.find? (fun o => o.1 == b!"BMC") = none := by decide +kernel
    simp only [readActs, this]
    split at h
    · cases h; rfl
    · cases h
  split at h
  · rename_i hk
    subst hk
    have : operators.find? (fun o => o.1 == b!"BDC") = none := by decide +kernel
    simp only [readActs, this]
    simp only [Option.map_eq_some_iff] at h
    obtain ⟨s, -, rfl⟩ := h
    rfl
  split at h
  · rename_i hk
    subst hk
    have : operators.find? (fun o => o.1 == b!"EMC") = none := by decide +kernel
    simp only [readActs, this]
    split at h
    · cases h; rfl
    · cases h
  · simp only [Option.map_eq_some_iff] at h
    obtain ⟨as, h1, rfl⟩ := h
    rw [h1, actsIn_map]

theorem readAllEvents_erase {o : Option Nat} {rv : Option Val} (ops : List ReadOp) (evs : List (MarkEvent Val Val)) (h : readAllMarkEvents f bytes o rv ops = some evs) :
    readAllActs ops = some (actsIn evs) := by
  induction ops generalizing evs with
  | nil => cases h; rfl
  | cons o os ih =>
    simp only [readAllMarkEvents, Option.bind_eq_some_iff, Option.map_eq_some_iff] at h
    obtain ⟨a, h1, b, h2, rfl⟩ := h
    simp only [readAllActs, readEvents_erase _ _ h1, Option.bind_some, ih _ h2, Option.map_some, actsIn_append]

theorem objectMarks_erase (forms : Nat) : ∀ (rv : Option Val) (name : Bytes) (g : GState Val Val) (around : List Sequence)
    (es : List (Element Val Val × List Sequence)), displayObjectMarks unf f bytes forms rv name g around = some es →
    displayObject unf f bytes forms rv name g = some (es.map Prod.fst) := by
  induction forms with
  | zero =>
    intro rv name g around es h
    rw [displayObjectMarks_eq] at h
    rw [displayObject_eq]
    simp only [Option.bind_eq_some_iff] at h
    obtain ⟨n, h1, h⟩ := h
    simp only [h1, Option.bind_some]
    split at h
    · rename_i hob
      simp only [hob]
      split at h
      · rename_i hty
        simp only [hty]
        split at h
        · rename_i hc; rw [if_pos hc]; cases h; rfl
        · split at h <;> cases h
      · cases h
    · cases h
  | succ forms ih =>
    intro rv name g around es h
    rw [displayObjectMarks_eq] at h
    rw [displayObject_eq]
    simp only [Option.bind_eq_some_iff] at h
    obtain ⟨n, h1, h⟩ := h
    simp only [h1, Option.bind_some]
    split at h
    · rename_i hob
      simp only [hob]
      split at h
      · rename_i hty
        simp only [hty]
        split at h
        · rename_i hc; rw [if_pos hc]; cases h; rfl
        · rename_i hc
          rw [if_neg hc]
          split at h
          · rename_i hc2
            rw [if_pos hc2]
            simp only [Option.bind_eq_some_iff, Option.map_eq_some_iff] at h
            obtain ⟨m, q1, b, q2, res, q3, data, q4, ops, q5, evs, q6, es, q7, rfl⟩ := h
            have q8 := displayMarks_erase _ (displayObject unf f bytes forms res) _ (fun n g marks es hx => ih res n g marks es hx) around evs _ _ _ q7
            simp only at q8
            obtain ⟨bv, q2, q2'⟩ := q2
            simp only [q1, Option.bind_some, q2, q2', q3, q4, q5, readAllEvents_erase _ _ q6, q8, Option.map_some, List.map_append, List.map_cons, List.map_nil]
          · cases h
      · cases h
    · cases h

theorem pageMarks_erase {forms n : Nat} {rv : Option Val} {d : List (Bytes × Val)} {x : List (Element Val Val × List Sequence)}
    (h : readPageMarks unf f bytes forms n rv d = some x) : readPageDisplay unf f bytes forms n rv d = some (x.map Prod.fst) := by
  simp only [readPageMarks, Option.bind_eq_some_iff] at h
  obtain ⟨ops, h1, evs, h2, h3⟩ := h
  simp only [readPageDisplay, h1, Option.bind_some, readAllEvents_erase _ _ h2]
  exact displayMarks_erase _ _ _ (fun n g marks es hx => objectMarks_erase forms rv n g marks es hx) [] evs _ _ _ h3

theorem collect_map {α β : Type} (t : α → β) {r : Nat → Option (List α)} {r' : Nat → Option (List β)}
    (hp : ∀ n xs, r n = some xs → r' n = some (xs.map t)) (ns : List Nat) (xs : List α) (h : collect r ns = some xs) :
    collect r' ns = some (xs.map t) := by
  induction ns generalizing xs with
  | nil => cases h; rfl
  | cons n ns ih =>
    simp only [collect, Option.bind_eq_some_iff, Option.map_eq_some_iff] at h
    obtain ⟨a, h1, b, h2, rfl⟩ := h
    simp only [collect, hp _ _ h1, Option.bind_some, ih _ h2, Option.map_some, List.map_append]

theorem pagesWith_map {α β : Type} (t : α → β) {page : Nat → Option Val → List (Bytes × Val) → Option α}
    {page' : Nat → Option Val → List (Bytes × Val) → Option β} (hp : ∀ n res d x, page n res d = some x → page' n res d = some (t x))
    (depth : Nat) : ∀ (res : Option Val) (n : Nat) (xs : List α), readPagesWith page f bytes depth res n = some xs →
      readPagesWith page' f bytes depth res n = some (xs.map t) := by
  induction depth with
  | zero => intro res n xs h; cases h
  | succ depth ih =>
    intro res n xs h
    unfold readPagesWith at h ⊢
    split at h
    · simp only [Option.bind_eq_some_iff] at h
      obtain ⟨rs, h1, h2⟩ := h
      simp only [h1, Option.bind_some]
      split at h2
      · split at h2
        · rename_i hc
          simp only [Option.map_eq_some_iff] at h2
          obtain ⟨x, h3, rfl⟩ := h2
          simp only [if_pos hc, hp _ _ _ _ h3, Option.map_some, List.map_cons, List.map_nil]
        split at h2
        · rename_i hc1 hc2
          simp only [if_neg hc1, if_pos hc2]
          split at h2
          · simp only [Option.bind_eq_some_iff] at h2
            obtain ⟨ns, h3, h4⟩ := h2
            simp only [h3, Option.bind_some]
            exact collect_map t (fun n xs hx => ih _ _ _ hx) ns xs h4
          · cases h2
        · cases h2
      · cases h2
    · cases h

/-! ## Structure elements -/

theorem ownerOf_map {α β : Type} (g : α → β) (parents : Option (List α)) (marks : List Sequence) :
    ownerOf (parents.map (List.map g)) marks = (ownerOf parents marks).map g := by
  unfold ownerOf
  cases parents with
  | none => rfl
  | some ps =>
    rcases identifierOf marks with _ | ⟨_ | n, m⟩
    · rfl
    · simp only [Option.map_some]
      split
      · rfl
      · rw [List.getElem?_map]
    · rfl

theorem owners_same {pages : List (List (Element F32 Prog × List Sequence))} {read : List (List (Element Val Val × List Sequence))}
    (h : Pairwise (Pairwise SameMarked) pages read) (parents : List (Option (List Ref))) :
    Pairwise (Pairwise fun x y => SameElement NumIs Denotes x.1 y.1 ∧ y.2 = x.2.map fun r => r.get.toNat) (owners pages parents)
      (owners read (parents.map fun x => x.map fun l => l.map fun r => r.get.toNat)) := by
  induction h generalizing parents with
  | nil => exact .nil
  | cons hab _ ih =>
    cases parents with
    | nil => exact .nil
    | cons p ps =>
      refine .cons ?_ (ih ps)
      clear ih
      induction hab with
      | nil => exact .nil
      | cons hxy _ ih => exact .cons ⟨hxy.1, by simp only [hxy.2]; exact ownerOf_map _ p _⟩ ih

end PdfW
