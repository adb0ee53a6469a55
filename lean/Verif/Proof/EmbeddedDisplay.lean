import Verif.Spec.EmbeddedDisplay
import Verif.Proof.Embedded

/-! # Lemmas: the imaging model does not depend on how numbers and resources are represented -/

set_option linter.unusedSimpArgs false
set_option linter.unusedVariables false

namespace PdfW.Spec.Imaging
open PdfW Spec

section
variable {N N' V V' : Type} (r : N → N') (q : V → V') (g : Nat → Nat)

def Act.map : Act N V → Act N' V'
  | .save => .save
  | .restore => .restore
  | .transform m => .transform (m.map r)
  | .set p v => .set p (v.map r q)
  | .font n x => .font n (r x)
  | .dictionary n => .dictionary n
  | .segment s => .segment (s.map r)
  | .paint f s => .paint f s
  | .clip rule => .clip rule
  | .beginText => .beginText
  | .endText => .endText
  | .moveBy x y => .moveBy (r x) (r y)
  | .matrix m => .matrix (m.map r)
  | .nextLine => .nextLine
  | .show ts => .show (ts.map (Text.map r))
  | .space s n => .space s n
  | .color s xs p => .color s (xs.map r) p
  | .device s n xs => .device s n (xs.map r)
  | .shading n => .shading n
  | .object n => .object n

def TextObject.map (t : TextObject N V) : TextObject N' V' := ⟨t.moves.map (Move.map r q), t.index, t.clip.map (Run.map r q)⟩

def Canvas.map (m : Canvas N V) : Canvas N' V' :=
  ⟨m.state.map r q, m.saved.map (GState.map r q), m.path.map (Segment.map r), m.pending, m.text.map (TextObject.map r q)⟩

/-- Names refer to the same. -/
structure MapsEnv (e : Env N V) (e' : Env N' V') : Prop where
  device : ∀ n, e'.device n = q (e.device n)
  resource : ∀ c n, e'.resource c n = (e.resource c n).map q
  object : ∀ n s, e'.object n (s.map r q) = (e.object n s).map (List.map (Element.map r q g))

theorem put_map (p : Param) (v : Value N V) (l : List (Setting N V)) :
    (put p v l).map (Setting.map r q) = put p (v.map r q) (l.map (Setting.map r q)) := by
  simp only [put]
  split
  · rfl
  · simp only [List.map_cons, List.filter_map]
    rfl

theorem valueOf_map (p : Param) (l : List (Setting N V)) : valueOf p (l.map (Setting.map r q)) = (valueOf p l).map (Value.map r q) := by
  simp only [valueOf, List.find?_map, Option.map_map]
  rfl

theorem clipsText_map (l : List (Setting N V)) : clipsText (l.map (Setting.map r q)) = clipsText l := by
  simp only [clipsText, valueOf_map]
  cases valueOf .rendering l with
  | none => rfl
  | some v => cases v <;> rfl

theorem setColor_map (s : Bool) (c : Color N V) (x : GState N V) : (x.setColor s c).map r q = (x.map r q).setColor s (c.map r q) := by
  cases s <;> rfl

theorem color_map (s : Bool) (x : GState N V) : (x.map r q).color s = (x.color s).map r q := by cases s <;> rfl

theorem clipTo_map (o : Option Rule) (p : List (Segment N)) (x : GState N V) : (clipTo o p x).map r q = clipTo o (p.map (Segment.map r)) (x.map r q) := by
  cases o <;> rfl

theorem gput_map (p : Param) (v : Value N V) (x : GState N V) : (x.put p v).map r q = (x.map r q).put p (v.map r q) := by
  simp only [GState.put, GState.map, put_map]

variable {r q g}

/-- The machine commutes with the replacement. -/
theorem step_map {e : Env N V} {e' : Env N' V'} (h : MapsEnv r q g e e') (m : Canvas N V) (a : Act N V) :
    step e' (m.map r q) (a.map r q) = (step e m a).map fun x => (x.1.map r q, x.2.map (Element.map r q g)) := by
  cases a with
  | restore => cases hs : m.saved <;> simp [Act.map, step, Canvas.map, hs]
  | transform t => simp [Act.map, step, Canvas.map, GState.map]
  | set p v => simp [Act.map, step, Canvas.map, gput_map]
  | font n x =>
    simp only [Act.map, step, h.resource]
    cases e.resource b!"Font" n <;> simp [Canvas.map, gput_map, Value.map]
  | dictionary n =>
    simp only [Act.map, step, h.resource]
    cases e.resource b!"ExtGState" n <;> simp [Canvas.map, gput_map, Value.map]
  | paint f s =>
    simp only [Act.map, step, Option.map_some, Canvas.map, clipTo_map]
    split <;> simp [Element.map]
  | endText =>
    cases ht : m.text with
    | none => simp [Act.map, step, Canvas.map, ht]
    | some t =>
      simp only [Act.map, step, Canvas.map, ht, Option.map_some, TextObject.map, List.isEmpty_map]
      split <;> simp [GState.map, Clip.map]
  | moveBy x y => cases ht : m.text <;> simp [Act.map, step, Canvas.map, ht, TextObject.map, Move.map]
  | matrix x => cases ht : m.text <;> simp [Act.map, step, Canvas.map, ht, TextObject.map, Move.map]
  | nextLine =>
    cases ht : m.text with
    | none => simp [Act.map, step, Canvas.map, ht]
    | some t => simp [Act.map, step, Canvas.map, ht, TextObject.map, Move.map, GState.map, valueOf_map]
  | «show» ts =>
    cases ht : m.text with
    | none => simp [Act.map, step, Canvas.map, ht]
    | some t =>
      have hc : clipsText (m.state.map r q).settings = clipsText m.state.settings := clipsText_map r q _
      simp only [Act.map, step, Canvas.map, ht, Option.map_some, TextObject.map, hc]
      split <;> simp [Element.map, Run.map, GState.map]
  | space s n =>
    simp only [Act.map, step, spaceNamed, h.device, h.resource]
    split
    · simp [Canvas.map, setColor_map, Color.map]
    · cases e.resource b!"ColorSpace" n <;> simp [Canvas.map, setColor_map, Color.map]
  | color s xs p =>
    cases p with
    | none => simp [Act.map, step, patternNamed, Canvas.map, setColor_map, color_map, Color.map]
    | some p =>
      simp only [Act.map, step, patternNamed, h.resource]
      cases e.resource b!"Pattern" p <;> simp [Canvas.map, setColor_map, color_map, Color.map]
  | device s n xs => simp [Act.map, step, Canvas.map, setColor_map, Color.map, h.device]
  | shading n =>
    simp only [Act.map, step, h.resource]
    cases e.resource b!"Shading" n <;> simp [Canvas.map, Element.map]
  | object n =>
    simp only [Act.map, step]
    have : (m.map r q).state = m.state.map r q := rfl
    rw [this, h.object]
    cases e.object n m.state <;> simp
  | _ => simp [Act.map, step, Canvas.map, TextObject.map, Segment.map]

theorem display_map {e : Env N V} {e' : Env N' V'} (h : MapsEnv r q g e e') (as : List (Act N V)) :
    ∀ m : Canvas N V, display e' (m.map r q) (as.map (Act.map r q)) = (display e m as).map (List.map (Element.map r q g)) := by
  induction as with
  | nil => intro m; rfl
  | cons a as ih =>
    intro m
    simp only [List.map_cons, display, step_map h]
    cases step e m a with
    | none => rfl
    | some x =>
      simp only [Option.map_some, Option.bind_some, ih]
      cases display e x.1 as <;> simp

end

/-! ## Operators mention no objects -/

theorem isNumber_rename {g : Nat → Nat} {v : Val} (h : isNumber v = true) : renameVal g v = v := by
  cases v <;> first | rfl | simp [isNumber] at h

theorem numbers_rename {g : Nat → Nat} {vs : List Val} (h : vs.all isNumber = true) : vs.map (renameVal g) = vs := by
  rw [List.all_eq_true] at h
  exact (List.map_congr_left fun v hv => isNumber_rename (h v hv)).trans (List.map_id _)

/-- What an operator asks for does not depend on object numbers. -/
def Steady (o : List Val → Option (List (Act Val Val))) : Prop :=
  ∀ (g : Nat → Nat) (args : List Val) (acts : List (Act Val Val)), o args = some acts → acts.map (Act.map (renameVal g) (renameVal g)) = acts

theorem plain_steady {acts : List (Act Val Val)} (h : ∀ g, acts.map (Act.map (renameVal g) (renameVal g)) = acts) : Steady (plain acts) := by
  intro g args as ha
  cases args <;> simp only [plain, reduceCtorEq, Option.some.injEq] at ha
  subst ha; exact h g

theorem numeric_steady {k : Nat} {make : List Val → List (Act Val Val)}
    (h : ∀ g (xs : List Val), xs.map (renameVal g) = xs → (make xs).map (Act.map (renameVal g) (renameVal g)) = make xs) : Steady (numeric k make) := by
  intro g args as ha
  simp only [numeric] at ha
  split at ha
  · rename_i hc
    simp only [Option.some.injEq] at ha
    subst ha; exact h g args (numbers_rename hc.2)
  · simp at ha

theorem one_steady {make : Val → List (Act Val Val)}
    (h : ∀ g x, renameVal g x = x → (make x).map (Act.map (renameVal g) (renameVal g)) = make x) : Steady (one make) := by
  intro g args as ha
  unfold one at ha
  split at ha
  · split at ha
    · rename_i hc
      simp only [Option.some.injEq] at ha
      subst ha; exact h g _ (isNumber_rename hc)
    · simp at ha
  · simp at ha

theorem two_steady {make : Val → Val → List (Act Val Val)}
    (h : ∀ g x y, renameVal g x = x → renameVal g y = y → (make x y).map (Act.map (renameVal g) (renameVal g)) = make x y) : Steady (two make) := by
  intro g args as ha
  unfold two at ha
  split at ha
  · split at ha
    · rename_i hc
      simp only [Option.some.injEq] at ha
      subst ha; exact h g _ _ (isNumber_rename hc.1) (isNumber_rename hc.2)
    · simp at ha
  · simp at ha

theorem spaced_steady {make : Val → Val → Bytes → List (Act Val Val)}
    (h : ∀ g x y s, renameVal g x = x → renameVal g y = y → (make x y s).map (Act.map (renameVal g) (renameVal g)) = make x y s) : Steady (spaced make) := by
  intro g args as ha
  unfold spaced at ha
  split at ha
  · split at ha
    · rename_i hc
      simp only [Option.some.injEq] at ha
      subst ha; exact h g _ _ _ (isNumber_rename hc.1) (isNumber_rename hc.2)
    · simp at ha
  · simp at ha

theorem integer_steady {make : Int → List (Act Val Val)}
    (h : ∀ g x, (make x).map (Act.map (renameVal g) (renameVal g)) = make x) : Steady (integer make) := by
  intro g args as ha
  unfold integer at ha
  split at ha
  · simp only [Option.some.injEq] at ha
    subst ha; exact h g _
  · simp at ha

theorem named_steady {make : Bytes → List (Act Val Val)}
    (h : ∀ g x, (make x).map (Act.map (renameVal g) (renameVal g)) = make x) : Steady (named make) := by
  intro g args as ha
  unfold named at ha
  split at ha
  · simp only [Option.some.injEq] at ha
    subst ha; exact h g _
  · simp at ha

theorem colorOperands_rename {g : Nat → Nat} (args : List Val) : ∀ x, colorOperands args = some x → x.1.map (renameVal g) = x.1 := by
  induction args with
  | nil => intro x h; simp only [colorOperands, Option.some.injEq] at h; subst h; rfl
  | cons v vs ih =>
    intro x h
    unfold colorOperands at h
    split at h
    · simp at *
    · simp only [Option.some.injEq] at h; subst h; rfl
    · rename_i h1 h2
      split at h
      · rename_i hn
        simp only [Option.map_eq_some_iff] at h
        obtain ⟨y, hy, rfl⟩ := h
        simp only [List.cons.injEq] at h2
        obtain ⟨rfl, rfl⟩ := h2
        simp [ih y hy, isNumber_rename hn]
      · simp at h

theorem textItems_rename {g : Nat → Nat} (vs : List Val) : ∀ x, textItems vs = some x → x.map (Text.map (renameVal g)) = x := by
  induction vs with
  | nil => intro x h; simp only [textItems, Option.some.injEq] at h; subst h; rfl
  | cons v vs ih =>
    intro x h
    unfold textItems at h
    split at h
    · simp at *
    · rename_i h2
      simp only [Option.map_eq_some_iff] at h
      obtain ⟨y, hy, rfl⟩ := h
      simp only [List.cons.injEq] at h2
      obtain ⟨rfl, rfl⟩ := h2
      simp [ih y hy, Text.map]
    · rename_i h2
      split at h
      · rename_i hn
        simp only [Option.map_eq_some_iff] at h
        obtain ⟨y, hy, rfl⟩ := h
        simp only [List.cons.injEq] at h2
        obtain ⟨rfl, rfl⟩ := h2
        simp [ih y hy, Text.map, isNumber_rename hn]
      · simp at h

theorem operators_steady : ∀ o ∈ operators, Steady o.2 := by
  simp only [operators, List.forall_mem_cons, List.not_mem_nil, false_implies, implies_true, and_true]
  repeat' apply And.intro
  all_goals try dsimp only
  all_goals first
    | (apply plain_steady; intro g; rfl)
    | (apply numeric_steady; intro g xs h; simp [Act.map, Segment.map, h])
    | (apply one_steady; intro g x h; simp [Act.map, Value.map, h])
    | (apply two_steady; intro g x y h1 h2; simp [Act.map, Value.map, h1, h2])
    | (apply spaced_steady; intro g x y s h1 h2; simp [Act.map, Value.map, Text.map, h1, h2])
    | (apply integer_steady; intro g x; simp [Act.map, Value.map])
    | (apply named_steady; intro g x; simp [Act.map, Value.map])
    | skip
  · intro g args as ha; dsimp only at ha
    split at ha
    · split at ha
      · rename_i hc
        simp only [Option.some.injEq] at ha
        subst ha; simp [Act.map, Value.map, numbers_rename hc.1, isNumber_rename hc.2]
      · simp at ha
    · simp at ha
  · intro g args as ha; dsimp only at ha
    split at ha
    · rename_i hc
      simp only [Option.some.injEq] at ha
      subst ha; simp [Act.map, numbers_rename hc]
    · simp at ha
  · intro g args as ha; dsimp only at ha
    split at ha
    · rename_i hc
      simp only [Option.some.injEq] at ha
      subst ha; simp [Act.map, numbers_rename hc]
    · simp at ha
  · intro g args as ha; dsimp only at ha
    simp only [Option.map_eq_some_iff] at ha
    obtain ⟨y, hy, rfl⟩ := ha
    simp [Act.map, colorOperands_rename args y hy]
  · intro g args as ha; dsimp only at ha
    simp only [Option.map_eq_some_iff] at ha
    obtain ⟨y, hy, rfl⟩ := ha
    simp [Act.map, colorOperands_rename args y hy]
  · intro g args as ha; dsimp only at ha
    simp at ha
  · intro g args as ha; dsimp only at ha
    split at ha
    · split at ha
      · rename_i hc
        simp only [Option.some.injEq] at ha
        subst ha; simp [Act.map, isNumber_rename hc]
      · simp at ha
    · simp at ha
  · intro g args as ha; dsimp only at ha
    split at ha
    · simp only [Option.some.injEq] at ha
      subst ha; simp [Act.map, Text.map]
    · simp at ha
  · intro g args as ha; dsimp only at ha
    split at ha
    · simp only [Option.some.injEq] at ha
      subst ha; simp [Act.map, Text.map]
    · simp at ha
  · intro g args as ha; dsimp only at ha
    split at ha
    · simp only [Option.map_eq_some_iff] at ha
      obtain ⟨y, hy, rfl⟩ := ha
      simp [Act.map, textItems_rename _ y hy]
    · simp at ha

theorem readAllActs_rename (g : Nat → Nat) (ops : List ReadOp) : ∀ as, readAllActs ops = some as → as.map (Act.map (renameVal g) (renameVal g)) = as := by
  induction ops with
  | nil => intro as h; simp only [readAllActs, Option.some.injEq] at h; subst h; rfl
  | cons o os ih =>
    intro as h
    simp only [readAllActs, Option.bind_eq_some_iff, Option.map_eq_some_iff] at h
    obtain ⟨a, ha, b, hb, rfl⟩ := h
    rw [List.map_append, ih b hb]
    congr 1
    simp only [readActs] at ha
    split at ha
    · rename_i x hx
      exact operators_steady x (List.mem_of_find?_eq_some hx) g _ a ha
    · simp only [Option.some.injEq] at ha; subst ha; rfl

/-! ## Reading -/

section
variable {unf : Val → Bytes → Option Bytes} {g : Nat → Nat} {s : List Nat} {f f' : FileEnd} {bytes bytes' : Bytes}

theorem same_display {res : Option Val} (hs : SameObjects g s f bytes f' bytes') (hr : ResourcesIn s res)
    {x y : Bytes → GState Val Val → Option (List (Element Val Val))}
    (hx : ∀ n st, x n (st.map (renameVal g) (renameVal g)) = (y n st).map (List.map (renameElement g)))
    (ops : List ReadOp) (st : GState Val Val) :
    ((readAllActs ops).bind (display ⟨.name, namedValue f bytes (res.map (renameVal g)), x⟩ (blank (st.map (renameVal g) (renameVal g))))) =
      ((readAllActs ops).bind (display ⟨.name, namedValue f' bytes' res, y⟩ (blank st))).map (List.map (renameElement g)) := by
  cases ha : readAllActs ops with
  | none => rfl
  | some as =>
    simp only [Option.bind_some]
    have h := display_map (r := renameVal g) (q := renameVal g) (g := g) (e := ⟨.name, namedValue f' bytes' res, y⟩)
      (e' := ⟨.name, namedValue f bytes (res.map (renameVal g)), x⟩)
      ⟨fun n => rfl, fun c n => (same_category hs hr c n).1, hx⟩ as (blank st)
    rw [readAllActs_rename g ops as ha] at h
    exact h

theorem same_entryItems (k : Bytes) (d : List (Bytes × Val)) :
    optionalEntry k (renameEntries g d) itemsOf = (optionalEntry k d itemsOf).map (Option.map (renameVals g)) := by
  simp only [optionalEntry, renamed_all g d (fun x => x != k), renamed_lookup]
  split
  · rfl
  · cases lookup k d with
    | none => rfl
    | some v => cases v <;> rfl

theorem same_displayObject (hs : SameObjects g s f bytes f' bytes') (hn : NumbersIgnored unf) (forms : Nat) :
    ∀ (res : Option Val) (name : Bytes) (st : GState Val Val), ResourcesIn s res →
      displayObject unf f bytes forms (res.map (renameVal g)) name (st.map (renameVal g) (renameVal g)) =
        (displayObject unf f' bytes' forms res name st).map (List.map (renameElement g)) := by
  induction forms with
  | zero =>
    intro res name st hr
    obtain ⟨h1, h2⟩ := same_resourceNumber hs hr b!"XObject" name
    rw [displayObject, displayObject]
    simp only [h1]
    cases hx : resourceNumber f' bytes' res b!"XObject" name with
    | none => rfl
    | some n =>
      have hm := h2 n hx
      simp only [Option.map_some, Option.bind_some, hs.same n hm]
      cases ho : f'.object bytes' n with
      | none => rfl
      | some o =>
        cases o with
        | val v => rfl
        | stream d data =>
          simp only [Option.map_some, renameIVal, renamed_lookup]
          cases lookup b!"Subtype" d with
          | none => rfl
          | some t =>
            cases t with
            | name t =>
              simp only [Option.map_some, renameVal]
              split
              · rfl
              · split <;> rfl
            | _ => rfl
  | succ forms ih =>
    intro res name st hr
    obtain ⟨h1, h2⟩ := same_resourceNumber hs hr b!"XObject" name
    rw [displayObject, displayObject]
    simp only [h1]
    cases hx : resourceNumber f' bytes' res b!"XObject" name with
    | none => rfl
    | some n =>
      have hm := h2 n hx
      simp only [Option.map_some, Option.bind_some, hs.same n hm]
      cases ho : f'.object bytes' n with
      | none => rfl
      | some o =>
        have hcl := hs.closed n hm o ho
        cases o with
        | val v => rfl
        | stream d data =>
          simp only [mentionsObject] at hcl
          simp only [Option.map_some, renameIVal, renamed_lookup, same_effective, same_decodedStream hs hn hm]
          cases lookup b!"Subtype" d with
          | none => rfl
          | some t =>
            cases t with
            | name t =>
              simp only [Option.map_some, renameVal]
              split
              · rfl
              · split
                · rw [same_entryItems b!"Matrix" d]
                  cases optionalEntry b!"Matrix" d itemsOf with
                  | none => rfl
                  | some matrix =>
                  simp only [Option.map_some, Option.bind_some]
                  have hb : ((lookup b!"BBox" d).map (renameVal g)).bind itemsOf = ((lookup b!"BBox" d).bind itemsOf).map (renameVals g) := by
                    cases lookup b!"BBox" d with
                    | none => rfl
                    | some v => cases v <;> rfl
                  rw [hb]
                  cases (lookup b!"BBox" d).bind itemsOf with
                  | none => rfl
                  | some box =>
                  simp only [Option.map_some, Option.bind_some]
                  cases he : effectiveResources res d with
                  | none => rfl
                  | some r =>
                  simp only [Option.map_some, Option.bind_some]
                  cases decodedStream unf f' bytes' n with
                  | none => rfl
                  | some data' =>
                  simp only [Option.bind_some]
                  cases readContent data' with
                  | none => rfl
                  | some ops =>
                    simp only [Option.bind_some]
                    have hi : inside (matrix.map (renameVals g)) (renameVals g box) (st.map (renameVal g) (renameVal g)) =
                        (inside matrix box st).map (renameVal g) (renameVal g) := by
                      cases matrix <;> simp [inside, GState.map, Clip.map, renameVals_map]
                    have := same_display hs (effective_in hr hcl he) (fun nm a => ih r nm a (effective_in hr hcl he)) ops (inside matrix box st)
                    rw [hi]
                    revert this
                    cases readAllActs ops with
                    | none => intro _; rfl
                    | some as =>
                      intro this
                      simp only [Option.bind_some] at this ⊢
                      rw [this]
                      cases display ⟨.name, namedValue f' bytes' r, displayObject unf f' bytes' forms r⟩ (blank (inside matrix box st)) as with
                      | none => rfl
                      | some es => simp [renameElement, Element.map]
                · rfl
            | _ => rfl

theorem same_pageDisplay (hs : SameObjects g s f bytes f' bytes') (hn : NumbersIgnored unf) (forms n : Nat) (res : Option Val) (d : List (Bytes × Val))
    (hr : ResourcesIn s res) (h : ∀ i ∈ mentionsEntries d, i ∈ s) :
    readPageDisplay unf f bytes forms (g n) (res.map (renameVal g)) (renameEntries g d) =
      (readPageDisplay unf f' bytes' forms n res d).map (List.map (renameElement g)) := by
  simp only [readPageDisplay, same_pageOperations hs hn d h]
  cases pageOperations unf f' bytes' d with
  | none => rfl
  | some ops => exact same_display hs hr (fun nm a => same_displayObject hs hn forms res nm a hr) ops (initial .name)

end

end PdfW.Spec.Imaging
