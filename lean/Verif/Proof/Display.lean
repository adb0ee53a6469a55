import Verif.Spec.Display
import Verif.Proof.Images
import Verif.Proof.Fonts

set_option linter.unusedSimpArgs false
set_option linter.unusedVariables false

/-!
# What is painted on a page
-/

namespace PdfW
open Spec Imaging

/-! ## The machine does not depend on how numbers and resources are represented -/

section
variable {N V N' V' : Type} {R : N → N' → Prop} {S : V → V' → Prop}

/-- The same request. -/
inductive SameAct (R : N → N' → Prop) (S : V → V' → Prop) : Act N V → Act N' V' → Prop
  | save : SameAct R S .save .save
  | restore : SameAct R S .restore .restore
  | transform {m m'} : Pairwise R m m' → SameAct R S (.transform m) (.transform m')
  | set {p v v'} : SameValue R S v v' → SameAct R S (.set p v) (.set p v')
  | font {n x x'} : R x x' → SameAct R S (.font n x) (.font n x')
  | dictionary {n} : SameAct R S (.dictionary n) (.dictionary n)
  | segment {k s s'} : Pairwise R s s' → SameAct R S (.segment ⟨k, s⟩) (.segment ⟨k, s'⟩)
  | paint {f s} : SameAct R S (.paint f s) (.paint f s)
  | clip {r} : SameAct R S (.clip r) (.clip r)
  | beginText : SameAct R S .beginText .beginText
  | endText : SameAct R S .endText .endText
  | moveBy {x x' y y'} : R x x' → R y y' → SameAct R S (.moveBy x y) (.moveBy x' y')
  | matrix {m m'} : Pairwise R m m' → SameAct R S (.matrix m) (.matrix m')
  | nextLine : SameAct R S .nextLine .nextLine
  | show {t t'} : Pairwise (SameText R) t t' → SameAct R S (.show t) (.show t')
  | space {s n} : SameAct R S (.space s n) (.space s n)
  | color {s x x' p} : Pairwise R x x' → SameAct R S (.color s x p) (.color s x' p)
  | device {s n x x'} : Pairwise R x x' → SameAct R S (.device s n x) (.device s n x')
  | shading {n} : SameAct R S (.shading n) (.shading n)
  | object {n} : SameAct R S (.object n) (.object n)

/-- The same text object. -/
structure SameTextObject (R : N → N' → Prop) (S : V → V' → Prop) (t : TextObject N V) (t' : TextObject N' V') : Prop where
  moves : Pairwise (SameMove R S) t.moves t'.moves
  index : t.index = t'.index
  clip : Pairwise (SameRun R S) t.clip t'.clip

/-- The same canvas. -/
structure SameCanvas (R : N → N' → Prop) (S : V → V' → Prop) (m : Canvas N V) (m' : Canvas N' V') : Prop where
  state : SameState R S m.state m'.state
  saved : Pairwise (SameState R S) m.saved m'.saved
  path : Pairwise (SameSegment R) m.path m'.path
  pending : m.pending = m'.pending
  text : BothOrNone (SameTextObject R S) m.text m'.text

/-- What is known in one environment is known in the other. -/
structure SameEnv (R : N → N' → Prop) (S : V → V' → Prop) (e : Env N V) (e' : Env N' V') : Prop where
  device : ∀ n, S (e.device n) (e'.device n)
  resource : ∀ c n v, e.resource c n = some v → ∃ v', e'.resource c n = some v' ∧ S v v'
  object : ∀ n g g' es, SameState R S g g' → e.object n g = some es → ∃ es', e'.object n g' = some es' ∧ Pairwise (SameElement R S) es es'

theorem put_same {p : Param} {v : Value N V} {v' : Value N' V'} (hv : SameValue R S v v') {l : List (Setting N V)} {l' : List (Setting N' V')}
    (h : Pairwise (SameSetting R S) l l') : Pairwise (SameSetting R S) (put p v l) (put p v' l') := by
  unfold Imaging.put
  refine .cons ⟨rfl, hv⟩ ?_
  by_cases hp : p = .dictionary
  · rw [if_pos hp, if_pos hp]; exact h
  · rw [if_neg hp, if_neg hp]
    induction h with
    | nil => exact .nil
    | @cons a b as bs hab _ ih =>
      have : (a.param != p) = (b.param != p) := by rw [hab.1]
      by_cases hq : (a.param != p) = true
      · rw [List.filter_cons_of_pos (by simpa using hq), List.filter_cons_of_pos (by rw [this] at hq; simpa using hq)]
        exact .cons hab ih
      · rw [List.filter_cons_of_neg (by simpa using hq), List.filter_cons_of_neg (by rw [this] at hq; simpa using hq)]
        exact ih

theorem valueOf_same (p : Param) {l : List (Setting N V)} {l' : List (Setting N' V')} (h : Pairwise (SameSetting R S) l l') :
    BothOrNone (SameValue R S) (valueOf p l) (valueOf p l') := by
  induction h with
  | nil => trivial
  | @cons a b as bs hab _ ih =>
    have : (a.param == p) = (b.param == p) := by rw [hab.1]
    unfold valueOf at ih ⊢
    simp only [List.find?_cons, ← this]
    cases hq : (a.param == p)
    · exact ih
    · exact hab.2

theorem clipsText_same {l : List (Setting N V)} {l' : List (Setting N' V')} (h : Pairwise (SameSetting R S) l l') :
    clipsText l = clipsText l' := by
  have := valueOf_same .rendering h
  unfold clipsText
  revert this
  cases valueOf Param.rendering l <;> cases valueOf Param.rendering l' <;> intro this
  · rfl
  · exact this.elim
  · exact this.elim
  · have h : SameValue R S _ _ := this
    cases h <;> rfl

theorem gput_same {p : Param} {v : Value N V} {v' : Value N' V'} (hv : SameValue R S v v') {g : GState N V} {g' : GState N' V'}
    (h : SameState R S g g') : SameState R S (g.put p v) (g'.put p v') :=
  ⟨h.ctm, h.clips, h.stroking, h.filling, put_same hv h.settings⟩

theorem setColor_same {s : Bool} {c : Color N V} {c' : Color N' V'} (hc : SameColor R S c c') {g : GState N V} {g' : GState N' V'}
    (h : SameState R S g g') : SameState R S (g.setColor s c) (g'.setColor s c') := by
  cases s
  · exact ⟨h.ctm, h.clips, h.stroking, hc, h.settings⟩
  · exact ⟨h.ctm, h.clips, hc, h.filling, h.settings⟩

theorem color_same (s : Bool) {g : GState N V} {g' : GState N' V'} (h : SameState R S g g') : SameColor R S (g.color s) (g'.color s) := by
  cases s
  · exact h.filling
  · exact h.stroking

theorem clipTo_same (r : Option Rule) {p : List (Segment N)} {p' : List (Segment N')} (hp : Pairwise (SameSegment R) p p')
    {g : GState N V} {g' : GState N' V'} (h : SameState R S g g') : SameState R S (clipTo r p g) (clipTo r p' g') := by
  cases r
  · exact h
  · exact ⟨h.ctm, .cons (.path hp h.ctm) h.clips, h.stroking, h.filling, h.settings⟩

theorem inside_same {m : Option (List N)} {m' : Option (List N')} (hm : Pairwise (Pairwise R) m.toList m'.toList) {b : List N} {b' : List N'}
    (hb : Pairwise R b b') {g : GState N V} {g' : GState N' V'} (h : SameState R S g g') : SameState R S (inside m b g) (inside m' b' g') :=
  ⟨pairwise_append hm h.ctm, .cons (.box hb (pairwise_append hm h.ctm)) h.clips, h.stroking, h.filling, h.settings⟩

theorem spaceNamed_same {e : Env N V} {e' : Env N' V'} (he : SameEnv R S e e') {n : Bytes} {v : V} (h : spaceNamed e n = some v) :
    ∃ v', spaceNamed e' n = some v' ∧ S v v' := by
  unfold spaceNamed at h ⊢
  by_cases hd : n ∈ directSpaces
  · rw [if_pos hd] at h ⊢
    cases h
    exact ⟨_, rfl, he.device n⟩
  · rw [if_neg hd] at h ⊢
    exact he.resource _ _ _ h

theorem patternNamed_same {e : Env N V} {e' : Env N' V'} (he : SameEnv R S e e') {p : Option Bytes} {v : Option V}
    (h : patternNamed e p = some v) : ∃ v', patternNamed e' p = some v' ∧ BothOrNone S v v' := by
  cases p with
  | none => cases h; exact ⟨none, rfl, trivial⟩
  | some n =>
    simp only [patternNamed, Option.map_eq_some_iff] at h ⊢
    obtain ⟨a, ha, rfl⟩ := h
    obtain ⟨b, hb, hs⟩ := he.resource _ _ _ ha
    exact ⟨some b, ⟨b, hb, rfl⟩, hs⟩

theorem isEmpty_same {α β : Type} {Q : α → β → Prop} {l : List α} {l' : List β} (h : Pairwise Q l l') : l.isEmpty = l'.isEmpty := by
  cases h <;> rfl

theorem step_same {e : Env N V} {e' : Env N' V'} (he : SameEnv R S e e') {m : Canvas N V} {m' : Canvas N' V'} (hm : SameCanvas R S m m')
    {a : Act N V} {a' : Act N' V'} (ha : SameAct R S a a') {r : Canvas N V × List (Element N V)} (h : Imaging.step e m a = some r) :
    ∃ r', Imaging.step e' m' a' = some r' ∧ SameCanvas R S r.1 r'.1 ∧ Pairwise (SameElement R S) r.2 r'.2 := by
  obtain ⟨g, saved, path, pending, text⟩ := m
  obtain ⟨g', saved', path', pending', text'⟩ := m'
  obtain ⟨hs, hsv, hp, hpe, ht⟩ := hm
  simp only at hs hsv hp hpe ht
  subst hpe
  have inText : ∀ {x : TextObject N V → Canvas N V × List (Element N V)} {x' : TextObject N' V' → Canvas N' V' × List (Element N' V')},
      text.map x = some r →
      (∀ t t', SameTextObject R S t t' → SameCanvas R S (x t).1 (x' t').1 ∧ Pairwise (SameElement R S) (x t).2 (x' t').2) → ∃ r', text'.map x' = some r' ∧ SameCanvas R S r.1 r'.1 ∧ Pairwise (SameElement R S) r.2 r'.2 := by
    intro x x' h hx
    cases text with
    | none => cases h
    | some t =>
      cases text' with
      | none => exact ht.elim
      | some t' =>
        cases h
        exact ⟨_, rfl, hx t t' ht⟩
  cases ha with
  | save => cases h; exact ⟨_, rfl, ⟨hs, .cons hs hsv, hp, rfl, ht⟩, .nil⟩
  | restore =>
    cases hsv with
    | nil => cases h; exact ⟨_, rfl, ⟨hs, .nil, hp, rfl, ht⟩, .nil⟩
    | cons h1 h2 => cases h; exact ⟨_, rfl, ⟨h1, h2, hp, rfl, ht⟩, .nil⟩
  | transform hm => cases h; exact ⟨_, rfl, ⟨⟨.cons hm hs.ctm, hs.clips, hs.stroking, hs.filling, hs.settings⟩, hsv, hp, rfl, ht⟩, .nil⟩
  | set hv => cases h; exact ⟨_, rfl, ⟨gput_same hv hs, hsv, hp, rfl, ht⟩, .nil⟩
  | font hx =>
    simp only [Imaging.step, Option.map_eq_some_iff] at h ⊢
    obtain ⟨v, h1, rfl⟩ := h
    obtain ⟨v', h2, h3⟩ := he.resource _ _ _ h1
    exact ⟨_, ⟨v', h2, rfl⟩, ⟨gput_same (.font h3 hx) hs, hsv, hp, rfl, ht⟩, .nil⟩
  | dictionary =>
    simp only [Imaging.step, Option.map_eq_some_iff] at h ⊢
    obtain ⟨v, h1, rfl⟩ := h
    obtain ⟨v', h2, h3⟩ := he.resource _ _ _ h1
    exact ⟨_, ⟨v', h2, rfl⟩, ⟨gput_same (.dictionary h3) hs, hsv, hp, rfl, ht⟩, .nil⟩
  | segment hx => cases h; exact ⟨_, rfl, ⟨hs, hsv, pairwise_append hp (.cons ⟨rfl, hx⟩ .nil), rfl, ht⟩, .nil⟩
  | @paint f s =>
    cases h
    refine ⟨_, rfl, ⟨clipTo_same pending hp hs, hsv, .nil, rfl, ht⟩, ?_⟩
    simp only
    by_cases hc : (f.isSome || s) = true
    · rw [if_pos hc, if_pos hc]; exact .cons (.path hp hs) .nil
    · rw [if_neg hc, if_neg hc]; exact .nil
  | clip => cases h; exact ⟨_, rfl, ⟨hs, hsv, hp, rfl, ht⟩, .nil⟩
  | beginText => cases h; exact ⟨_, rfl, ⟨hs, hsv, hp, rfl, ⟨.nil, rfl, .nil⟩⟩, .nil⟩
  | endText =>
    simp only [Imaging.step] at h ⊢
    refine inText h (fun t t' htt => ⟨⟨?_, hsv, hp, rfl, trivial⟩, .nil⟩)
    simp only
    rw [isEmpty_same htt.clip]
    cases t'.clip.isEmpty
    · exact ⟨hs.ctm, .cons (.text htt.clip) hs.clips, hs.stroking, hs.filling, hs.settings⟩
    · exact hs
  | moveBy hx hy =>
    simp only [Imaging.step] at h ⊢
    exact inText h (fun t t' htt => ⟨⟨hs, hsv, hp, rfl, ⟨.cons (.by hx hy) htt.moves, rfl, htt.clip⟩⟩, .nil⟩)
  | matrix hx =>
    simp only [Imaging.step] at h ⊢
    exact inText h (fun t t' htt => ⟨⟨hs, hsv, hp, rfl, ⟨.cons (.matrix hx) .nil, rfl, htt.clip⟩⟩, .nil⟩)
  | nextLine =>
    simp only [Imaging.step] at h ⊢
    exact inText h (fun t t' htt => ⟨⟨hs, hsv, hp, rfl, ⟨.cons (.next (valueOf_same .leading hs.settings)) htt.moves, rfl, htt.clip⟩⟩, .nil⟩)
  | «show» hx =>
    simp only [Imaging.step] at h ⊢
    refine inText h (fun t t' htt => ?_)
    have hr : SameRun R S ⟨t.moves, t.index, _, g.ctm, g.settings⟩ ⟨t'.moves, t'.index, _, g'.ctm, g'.settings⟩ :=
      ⟨htt.moves, htt.index, hx, hs.ctm, hs.settings⟩
    refine ⟨⟨hs, hsv, hp, rfl, ⟨htt.moves, by simp only [htt.index], ?_⟩⟩, .cons (.text hr hs) .nil⟩
    simp only
    rw [clipsText_same hs.settings]
    cases clipsText g'.settings
    · exact htt.clip
    · exact pairwise_append htt.clip (.cons hr .nil)
  | @space s n =>
    simp only [Imaging.step, Option.map_eq_some_iff] at h ⊢
    obtain ⟨v, h1, rfl⟩ := h
    obtain ⟨v', h2, h3⟩ := spaceNamed_same he h1
    exact ⟨_, ⟨v', h2, rfl⟩, ⟨setColor_same (c := ⟨v, [], none⟩) (c' := ⟨v', [], none⟩) ⟨h3, .nil, trivial⟩ hs, hsv, hp, rfl, ht⟩, .nil⟩
  | @color s x x' p hx =>
    simp only [Imaging.step, Option.map_eq_some_iff] at h ⊢
    obtain ⟨v, h1, rfl⟩ := h
    obtain ⟨v', h2, h3⟩ := patternNamed_same he h1
    exact ⟨_, ⟨v', h2, rfl⟩, ⟨setColor_same (c := ⟨_, x, v⟩) (c' := ⟨_, x', v'⟩) ⟨(color_same s hs).1, hx, h3⟩ hs, hsv, hp, rfl, ht⟩, .nil⟩
  | @device s n x x' hx => cases h; exact ⟨_, rfl, ⟨setColor_same (c := ⟨_, x, none⟩) (c' := ⟨_, x', none⟩) ⟨he.device n, hx, trivial⟩ hs, hsv, hp, rfl, ht⟩, .nil⟩
  | shading =>
    simp only [Imaging.step, Option.map_eq_some_iff] at h ⊢
    obtain ⟨v, h1, rfl⟩ := h
    obtain ⟨v', h2, h3⟩ := he.resource _ _ _ h1
    exact ⟨_, ⟨v', h2, rfl⟩, ⟨hs, hsv, hp, rfl, ht⟩, .cons (.shading h3 hs) .nil⟩
  | object =>
    simp only [Imaging.step, Option.map_eq_some_iff] at h ⊢
    obtain ⟨v, h1, rfl⟩ := h
    obtain ⟨v', h2, h3⟩ := he.object _ _ _ _ hs h1
    exact ⟨_, ⟨v', h2, rfl⟩, ⟨hs, hsv, hp, rfl, ht⟩, h3⟩

theorem display_same {e : Env N V} {e' : Env N' V'} (he : SameEnv R S e e') {as : List (Act N V)} {as' : List (Act N' V')}
    (ha : Pairwise (SameAct R S) as as') {m : Canvas N V} {m' : Canvas N' V'} (hm : SameCanvas R S m m') {es : List (Element N V)}
    (h : display e m as = some es) : ∃ es', display e' m' as' = some es' ∧ Pairwise (SameElement R S) es es' := by
  induction ha generalizing m m' es with
  | nil => cases h; exact ⟨[], rfl, .nil⟩
  | cons hab _ ih =>
    simp only [display, Option.bind_eq_some_iff, Option.map_eq_some_iff] at h
    obtain ⟨r, h1, es2, h2, rfl⟩ := h
    obtain ⟨r', h3, h4, h5⟩ := step_same he hm hab h1
    obtain ⟨es', h6, h7⟩ := ih h4 h2
    exact ⟨r'.2 ++ es', by simp only [display, h3, Option.bind_some, h6, Option.map_some], pairwise_append h5 h7⟩

end

/-! ## Operators -/

theorem pairwise_length {α β : Type} {Q : α → β → Prop} {l : List α} {l' : List β} (h : Pairwise Q l l') : l'.length = l.length := by
  induction h with
  | nil => rfl
  | cons _ _ ih => simp [ih]

theorem allNumbers {xs : List F32} {vs : List Val} (h : Pairwise NumIs xs vs) : vs.all isNumber = true := by
  induction h with
  | nil => rfl
  | cons h _ ih => simp [numIs_isNumber h, ih]

theorem numbers_pairwise (xs : List F32) (vs : List Val) (h : DenotesItems (xs.map num) vs) : Pairwise NumIs xs vs := by
  induction xs generalizing vs with
  | nil => simp only [List.map_nil, DenotesItems] at h; subst h; exact .nil
  | cons x xs ih =>
    simp only [List.map_cons, DenotesItems] at h
    obtain ⟨w, ws, rfl, hw, hr⟩ := h
    exact .cons hw (ih ws hr)

theorem numeric_read {xs : List F32} {vs : List Val} (h : Pairwise NumIs xs vs) (k : Nat) (hk : xs.length = k)
    (make : List Val → List (Act Val Val)) : numeric k make vs = some (make vs) := by
  unfold numeric
  rw [if_pos ⟨by rw [pairwise_length h, hk], allNumbers h⟩]

theorem colorOperands_read (xs : List F32) (vs : List Val) (h : DenotesItems (xs.map num) vs) :
    colorOperands vs = some (vs, none) ∧ Pairwise NumIs xs vs := by
  induction xs generalizing vs with
  | nil => simp only [List.map_nil, DenotesItems] at h; subst h; exact ⟨rfl, .nil⟩
  | cons x xs ih =>
    simp only [List.map_cons, DenotesItems] at h
    obtain ⟨w, ws, rfl, hw, hr⟩ := h
    obtain ⟨h1, h2⟩ := ih ws hr
    refine ⟨?_, .cons hw h2⟩
    have hn : isNumber w = true := numIs_isNumber hw
    rw [colorOperands.eq_def]
    cases w <;> first | (simp [isNumber] at hn; done) | simp [h1, hn]

theorem patternOperands_read (xs : List F32) (n : Bytes) (vs : List Val) (h : DenotesItems (xs.map num ++ [nam n]) vs) :
    ∃ ws, colorOperands vs = some (ws, some n) ∧ Pairwise NumIs xs ws := by
  induction xs generalizing vs with
  | nil =>
    simp only [List.map_nil, List.nil_append, DenotesItems, nam, Denotes, PrimDenotes] at h
    obtain ⟨w, ws, rfl, rfl, rfl⟩ := h
    exact ⟨[], rfl, .nil⟩
  | cons x xs ih =>
    simp only [List.map_cons, List.cons_append, DenotesItems] at h
    obtain ⟨w, ws, rfl, hw, hr⟩ := h
    obtain ⟨us, h1, h2⟩ := ih ws hr
    refine ⟨w :: us, ?_, .cons hw h2⟩
    have hn : isNumber w = true := numIs_isNumber hw
    rw [colorOperands.eq_def]
    cases w <;> first | (simp [isNumber] at hn; done) | simp [h1, hn]

theorem textItems_read (its : List PosItem) (vs : List Val)
    (h : DenotesItems (its.map fun | .show s => .prim (.str s) | .adjust a => num a) vs) :
    ∃ ts, textItems vs = some ts ∧ Pairwise (SameText NumIs) (its.map fun | .show s => .codes s | .adjust x => .adjust x) ts := by
  induction its generalizing vs with
  | nil => simp only [List.map_nil, DenotesItems] at h; subst h; exact ⟨[], rfl, .nil⟩
  | cons x xs ih =>
    simp only [List.map_cons, DenotesItems] at h
    obtain ⟨w, ws, rfl, hw, hr⟩ := h
    obtain ⟨us, h1, h2⟩ := ih ws hr
    cases x with
    | «show» s =>
      simp only [Denotes, PrimDenotes] at hw
      subst hw
      exact ⟨.codes s :: us, by simp only [textItems, h1, Option.map_some], .cons .codes h2⟩
    | adjust a =>
      have hw : NumIs a w := hw
      have hn : isNumber w = true := numIs_isNumber hw
      refine ⟨.adjust w :: us, ?_, .cons (.adjust hw) h2⟩
      rw [textItems.eq_def]
      cases w <;> first | (simp [isNumber] at hn; done) | simp [h1, hn]

theorem one_read {x : F32} {v : Val} (h : NumIs x v) (make : Val → List (Act Val Val)) : one make [v] = some (make v) := by
  simp only [one, numIs_isNumber h, if_true]
theorem two_read {x y : F32} {v w : Val} (h : NumIs x v) (h' : NumIs y w) (make : Val → Val → List (Act Val Val)) :
    two make [v, w] = some (make v w) := by
  simp only [two, numIs_isNumber h, numIs_isNumber h', and_self, if_true]

theorem readActs_of {k : Bytes} {args : List Val} {k' : Bytes} {o : List Val → Option (List (Act Val Val))}
    (h : operators.find? (fun o => o.1 == k) = some (k', o)) : readActs (k, args) = o args := by
  simp only [readActs, h]

/-- What a call asks for is what its operator asks for. -/
theorem acts_read (c : ContentCall) (op : ReadOp) (h : Means c op) (hu : Unrelated c) :
    ∃ as, readActs op = some as ∧ Pairwise (SameAct NumIs Denotes) (acts c) as := by
  obtain ⟨k, args⟩ := op
  obtain ⟨hk, ha⟩ := h
  simp only at hk ha
  subst hk
  cases c
  case op name xs =>
    refine ⟨[], ?_, .nil⟩
    have : operators.find? (fun o => o.1 == name) = none := by
      rw [List.find?_eq_none]
      intro o ho he
      exact hu (List.mem_map.mpr ⟨o, ho, by simpa using he⟩)
    simp only [readActs, operatorOf, this]
  case setLineCap x => cases x <;> (simp only [operandsOf, DenotesItems, Denotes, PrimDenotes] at ha; obtain ⟨_, _, rfl, rfl, rfl⟩ := ha; exact ⟨_, rfl, .cons (.set .integer) .nil⟩)
  case setLineJoin x => cases x <;> (simp only [operandsOf, DenotesItems, Denotes, PrimDenotes] at ha; obtain ⟨_, _, rfl, rfl, rfl⟩ := ha; exact ⟨_, rfl, .cons (.set .integer) .nil⟩)
  case setTextRenderingMode x => cases x <;> (simp only [operandsOf, DenotesItems, Denotes, PrimDenotes] at ha; obtain ⟨_, _, rfl, rfl, rfl⟩ := ha; exact ⟨_, rfl, .cons (.set .integer) .nil⟩)
  case setRenderingIntent x => cases x <;> (simp only [operandsOf, nam, DenotesItems, Denotes, PrimDenotes] at ha; obtain ⟨_, _, rfl, rfl, rfl⟩ := ha; exact ⟨_, rfl, .cons (.set .name) .nil⟩)
  case setStrokeColorSpace x => cases x <;> (simp only [operandsOf, nam, DenotesItems, Denotes, PrimDenotes] at ha; obtain ⟨_, _, rfl, rfl, rfl⟩ := ha; exact ⟨_, rfl, .cons .space .nil⟩)
  case setFillColorSpace x => cases x <;> (simp only [operandsOf, nam, DenotesItems, Denotes, PrimDenotes] at ha; obtain ⟨_, _, rfl, rfl, rfl⟩ := ha; exact ⟨_, rfl, .cons .space .nil⟩)
  case setFlatness i => simp only [operandsOf, DenotesItems, Denotes, PrimDenotes] at ha; obtain ⟨_, _, rfl, rfl, rfl⟩ := ha; exact ⟨_, rfl, .cons (.set .integer) .nil⟩
  case setLineWidth x => simp only [operandsOf, num, DenotesItems, Denotes, PrimDenotes] at ha; obtain ⟨w, _, rfl, h1, rfl⟩ := ha; exact ⟨_, (readActs_of rfl).trans (one_read h1 _), .cons (.set (.number h1)) .nil⟩
  case setMiterLimit x => simp only [operandsOf, num, DenotesItems, Denotes, PrimDenotes] at ha; obtain ⟨w, _, rfl, h1, rfl⟩ := ha; exact ⟨_, (readActs_of rfl).trans (one_read h1 _), .cons (.set (.number h1)) .nil⟩
  case setCharSpacing x => simp only [operandsOf, num, DenotesItems, Denotes, PrimDenotes] at ha; obtain ⟨w, _, rfl, h1, rfl⟩ := ha; exact ⟨_, (readActs_of rfl).trans (one_read h1 _), .cons (.set (.number h1)) .nil⟩
  case setWordSpacing x => simp only [operandsOf, num, DenotesItems, Denotes, PrimDenotes] at ha; obtain ⟨w, _, rfl, h1, rfl⟩ := ha; exact ⟨_, (readActs_of rfl).trans (one_read h1 _), .cons (.set (.number h1)) .nil⟩
  case setHorizontalScaling x => simp only [operandsOf, num, DenotesItems, Denotes, PrimDenotes] at ha; obtain ⟨w, _, rfl, h1, rfl⟩ := ha; exact ⟨_, (readActs_of rfl).trans (one_read h1 _), .cons (.set (.number h1)) .nil⟩
  case setLeading x => simp only [operandsOf, num, DenotesItems, Denotes, PrimDenotes] at ha; obtain ⟨w, _, rfl, h1, rfl⟩ := ha; exact ⟨_, (readActs_of rfl).trans (one_read h1 _), .cons (.set (.number h1)) .nil⟩
  case setRise x => simp only [operandsOf, num, DenotesItems, Denotes, PrimDenotes] at ha; obtain ⟨w, _, rfl, h1, rfl⟩ := ha; exact ⟨_, (readActs_of rfl).trans (one_read h1 _), .cons (.set (.number h1)) .nil⟩
  case setDashPattern xs x =>
    simp only [operandsOf, DenotesItems] at ha
    obtain ⟨w, _, rfl, h1, w2, _, rfl, h2, rfl⟩ := ha
    simp only [Denotes] at h1
    obtain ⟨vs, rfl, h1⟩ := h1
    have h1 := numbers_pairwise xs vs h1
    have h2 : NumIs x w2 := h2
    refine ⟨[.set .dash (.dash vs w2)], ?_, .cons (.set (.dash h1 h2)) .nil⟩
    show (if vs.all isNumber ∧ isNumber w2 then some [Act.set Param.dash (.dash vs w2)] else none) = _
    rw [if_pos ⟨allNumbers h1, numIs_isNumber h2⟩]
  case setParameters n => simp only [operandsOf, nam, DenotesItems, Denotes, PrimDenotes] at ha; obtain ⟨_, _, rfl, rfl, rfl⟩ := ha; exact ⟨_, rfl, .cons .dictionary .nil⟩
  case shading n => simp only [operandsOf, nam, DenotesItems, Denotes, PrimDenotes] at ha; obtain ⟨_, _, rfl, rfl, rfl⟩ := ha; exact ⟨_, rfl, .cons .shading .nil⟩
  case xObject n => simp only [operandsOf, nam, DenotesItems, Denotes, PrimDenotes] at ha; obtain ⟨_, _, rfl, rfl, rfl⟩ := ha; exact ⟨_, rfl, .cons .object .nil⟩
  case saveState => simp only [operandsOf, DenotesItems] at ha; subst ha; exact ⟨_, rfl, .cons .save .nil⟩
  case restoreState => simp only [operandsOf, DenotesItems] at ha; subst ha; exact ⟨_, rfl, .cons .restore .nil⟩
  case closePath => simp only [operandsOf, DenotesItems] at ha; subst ha; exact ⟨_, rfl, .cons (.segment .nil) .nil⟩
  case stroke => simp only [operandsOf, DenotesItems] at ha; subst ha; exact ⟨_, rfl, .cons .paint .nil⟩
  case closeAndStroke => simp only [operandsOf, DenotesItems] at ha; subst ha; exact ⟨_, rfl, .cons (.segment .nil) (.cons .paint .nil)⟩
  case fillNonzero => simp only [operandsOf, DenotesItems] at ha; subst ha; exact ⟨_, rfl, .cons .paint .nil⟩
  case fillEvenOdd => simp only [operandsOf, DenotesItems] at ha; subst ha; exact ⟨_, rfl, .cons .paint .nil⟩
  case fillNonzeroAndStroke => simp only [operandsOf, DenotesItems] at ha; subst ha; exact ⟨_, rfl, .cons .paint .nil⟩
  case fillEvenOddAndStroke => simp only [operandsOf, DenotesItems] at ha; subst ha; exact ⟨_, rfl, .cons .paint .nil⟩
  case closeFillNonzeroAndStroke => simp only [operandsOf, DenotesItems] at ha; subst ha; exact ⟨_, rfl, .cons (.segment .nil) (.cons .paint .nil)⟩
  case closeFillEvenOddAndStroke => simp only [operandsOf, DenotesItems] at ha; subst ha; exact ⟨_, rfl, .cons (.segment .nil) (.cons .paint .nil)⟩
  case endPath => simp only [operandsOf, DenotesItems] at ha; subst ha; exact ⟨_, rfl, .cons .paint .nil⟩
  case clipNonzero => simp only [operandsOf, DenotesItems] at ha; subst ha; exact ⟨_, rfl, .cons .clip .nil⟩
  case clipEvenOdd => simp only [operandsOf, DenotesItems] at ha; subst ha; exact ⟨_, rfl, .cons .clip .nil⟩
  case beginText => simp only [operandsOf, DenotesItems] at ha; subst ha; exact ⟨_, rfl, .cons .beginText .nil⟩
  case endText => simp only [operandsOf, DenotesItems] at ha; subst ha; exact ⟨_, rfl, .cons .endText .nil⟩
  case nextLineUsingLeading => simp only [operandsOf, DenotesItems] at ha; subst ha; exact ⟨_, rfl, .cons .nextLine .nil⟩
  case transform m0 m1 m2 m3 m4 m5 =>
    have := numbers_pairwise [m0, m1, m2, m3, m4, m5] args ha
    exact ⟨_, (readActs_of rfl).trans (numeric_read this 6 rfl _), .cons (.transform this) .nil⟩
  case setTextMatrix m0 m1 m2 m3 m4 m5 =>
    have := numbers_pairwise [m0, m1, m2, m3, m4, m5] args ha
    exact ⟨_, (readActs_of rfl).trans (numeric_read this 6 rfl _), .cons (.matrix this) .nil⟩
  case moveTo x y => have := numbers_pairwise [x, y] args ha; exact ⟨_, (readActs_of rfl).trans (numeric_read this 2 rfl _), .cons (.segment this) .nil⟩
  case lineTo x y => have := numbers_pairwise [x, y] args ha; exact ⟨_, (readActs_of rfl).trans (numeric_read this 2 rfl _), .cons (.segment this) .nil⟩
  case cubicTo a b c d e f => have := numbers_pairwise [a, b, c, d, e, f] args ha; exact ⟨_, (readActs_of rfl).trans (numeric_read this 6 rfl _), .cons (.segment this) .nil⟩
  case cubicToInitial a b c d => have := numbers_pairwise [a, b, c, d] args ha; exact ⟨_, (readActs_of rfl).trans (numeric_read this 4 rfl _), .cons (.segment this) .nil⟩
  case cubicToFinal a b c d => have := numbers_pairwise [a, b, c, d] args ha; exact ⟨_, (readActs_of rfl).trans (numeric_read this 4 rfl _), .cons (.segment this) .nil⟩
  case rect a b c d => have := numbers_pairwise [a, b, c, d] args ha; exact ⟨_, (readActs_of rfl).trans (numeric_read this 4 rfl _), .cons (.segment this) .nil⟩
  case setStrokeGray a => have := numbers_pairwise [a] args ha; exact ⟨_, (readActs_of rfl).trans (numeric_read this 1 rfl _), .cons (.device this) .nil⟩
  case setFillGray a => have := numbers_pairwise [a] args ha; exact ⟨_, (readActs_of rfl).trans (numeric_read this 1 rfl _), .cons (.device this) .nil⟩
  case setStrokeRgb a b c => have := numbers_pairwise [a, b, c] args ha; exact ⟨_, (readActs_of rfl).trans (numeric_read this 3 rfl _), .cons (.device this) .nil⟩
  case setFillRgb a b c => have := numbers_pairwise [a, b, c] args ha; exact ⟨_, (readActs_of rfl).trans (numeric_read this 3 rfl _), .cons (.device this) .nil⟩
  case setStrokeCmyk a b c d => have := numbers_pairwise [a, b, c, d] args ha; exact ⟨_, (readActs_of rfl).trans (numeric_read this 4 rfl _), .cons (.device this) .nil⟩
  case setFillCmyk a b c d => have := numbers_pairwise [a, b, c, d] args ha; exact ⟨_, (readActs_of rfl).trans (numeric_read this 4 rfl _), .cons (.device this) .nil⟩
  case setFont n x =>
    simp only [operandsOf, nam, num, DenotesItems, Denotes, PrimDenotes] at ha
    obtain ⟨_, _, rfl, rfl, w, _, rfl, h1, rfl⟩ := ha
    refine ⟨[.font n w], ?_, .cons (.font h1) .nil⟩
    show (if isNumber w then some [Act.font n w] else none) = _
    rw [if_pos (numIs_isNumber h1)]
  case nextLine x y =>
    simp only [operandsOf, num, DenotesItems, Denotes, PrimDenotes] at ha
    obtain ⟨w, _, rfl, h1, w2, _, rfl, h2, rfl⟩ := ha
    exact ⟨_, (readActs_of rfl).trans (two_read h1 h2 _), .cons (.moveBy h1 h2) .nil⟩
  case nextLineAndSetLeading x y =>
    simp only [operandsOf, num, DenotesItems, Denotes, PrimDenotes] at ha
    obtain ⟨w, _, rfl, h1, w2, _, rfl, h2, rfl⟩ := ha
    exact ⟨_, (readActs_of rfl).trans (two_read h1 h2 _), .cons (.set (.negated h2)) (.cons (.moveBy h1 h2) .nil)⟩
  case «show» s =>
    simp only [operandsOf, DenotesItems, Denotes, PrimDenotes] at ha
    obtain ⟨_, _, rfl, rfl, rfl⟩ := ha
    exact ⟨_, rfl, .cons (.show (.cons .codes .nil)) .nil⟩
  case nextLineShow s =>
    simp only [operandsOf, DenotesItems, Denotes, PrimDenotes] at ha
    obtain ⟨_, _, rfl, rfl, rfl⟩ := ha
    exact ⟨_, rfl, .cons .nextLine (.cons (.show (.cons .codes .nil)) .nil)⟩
  case nextLineShowAndSetWordAndCharSpacing x y s =>
    simp only [operandsOf, num, DenotesItems, Denotes, PrimDenotes] at ha
    obtain ⟨w, _, rfl, h1, w2, _, rfl, h2, _, _, rfl, rfl, rfl⟩ := ha
    refine ⟨_, ?_, .cons (.set (.number h1)) (.cons (.set (.number h2)) (.cons .nextLine (.cons (.show (.cons .codes .nil)) .nil)))⟩
    refine (readActs_of rfl).trans ?_
    simp only [spaced, numIs_isNumber h1, numIs_isNumber h2, and_self, if_true]
  case showPositioned its =>
    simp only [operandsOf, DenotesItems] at ha
    obtain ⟨w, _, rfl, h1, rfl⟩ := ha
    simp only [Denotes] at h1
    obtain ⟨vs, rfl, h1⟩ := h1
    obtain ⟨ts, h2, h3⟩ := textItems_read its vs h1
    refine ⟨[.show ts], ?_, .cons (.show h3) .nil⟩
    show (textItems vs).map (fun ts => [Act.show ts]) = _
    rw [h2]; rfl
  case startColorGlyph x => exact ⟨[], rfl, .nil⟩
  case startShapeGlyph => exact ⟨[], rfl, .nil⟩
  case setStrokeColor xs =>
    obtain ⟨h1, h2⟩ := colorOperands_read xs args ha
    refine ⟨[.color true args none], ?_, .cons (.color h2) .nil⟩
    show (colorOperands args).map (fun r => [Act.color true r.1 r.2]) = _
    rw [h1]; rfl
  case setFillColor xs =>
    obtain ⟨h1, h2⟩ := colorOperands_read xs args ha
    refine ⟨[.color false args none], ?_, .cons (.color h2) .nil⟩
    show (colorOperands args).map (fun r => [Act.color false r.1 r.2]) = _
    rw [h1]; rfl
  case setStrokePattern xs n =>
    obtain ⟨ws, h1, h2⟩ := patternOperands_read xs n args ha
    refine ⟨[.color true ws (some n)], ?_, .cons (.color h2) .nil⟩
    show (colorOperands args).map (fun r => [Act.color true r.1 r.2]) = _
    rw [h1]; rfl
  case setFillPattern xs n =>
    obtain ⟨ws, h1, h2⟩ := patternOperands_read xs n args ha
    refine ⟨[.color false ws (some n)], ?_, .cons (.color h2) .nil⟩
    show (colorOperands args).map (fun r => [Act.color false r.1 r.2]) = _
    rw [h1]; rfl
  all_goals exact ⟨[], rfl, .nil⟩

theorem allActs_read (cs : List ContentCall) (ops : List ReadOp) (h : AllMean cs ops) (hu : ∀ c ∈ cs, Unrelated c) :
    ∃ as, readAllActs ops = some as ∧ Pairwise (SameAct NumIs Denotes) (cs.flatMap acts) as := by
  induction cs generalizing ops with
  | nil => simp only [AllMean] at h; subst h; exact ⟨[], rfl, .nil⟩
  | cons c cs ih =>
    obtain ⟨o, os, rfl, h1, h2⟩ := h
    obtain ⟨a, h3, h4⟩ := acts_read c o h1 (hu c (by simp))
    obtain ⟨b, h5, h6⟩ := ih os h2 (fun x hx => hu x (by simp [hx]))
    exact ⟨a ++ b, by simp only [readAllActs, h3, Option.bind_some, h5, Option.map_some], by
      rw [List.flatMap_cons]; exact pairwise_append h4 h6⟩

/-! ## Pages -/

variable {unf : Val → Bytes → Option Bytes} {f : FileEnd} {bytes : Bytes} {items : List Item}

theorem namedValue_read (hf : Finds f bytes items) {res : Option (List ResourcesCall)} {rv : Option Val} (hr : ResRead f bytes res rv)
    {category name : Bytes} {v : Prog} (h : ResourceGiven items res category name v) :
    ∃ w, namedValue f bytes rv category name = some w ∧ Denotes v w := by
  obtain ⟨method, rc, es, hm, rfl, hc, hn⟩ := h
  obtain ⟨w, d, rfl, h1, h2⟩ := hr
  have hi : ResourcesMeans (method es) = [(category, DictIs (es.map fun e => (e.1, Denotes e.2)))] := by
    simp only [categoryMethods, List.mem_cons, Prod.mk.injEq, List.not_mem_nil, or_false] at hm
    rcases hm with ⟨rfl, rfl⟩ | ⟨rfl, rfl⟩ | ⟨rfl, rfl⟩ | ⟨rfl, rfl⟩ | ⟨rfl, rfl⟩ <;> rfl
  obtain ⟨w', d', h3, h4, h5⟩ := categorySet_reads hf hi hc h2
  have h6 := denotesEntries_filter h5 name
  rw [hn] at h6
  simp only [DenotesEntries] at h6
  obtain ⟨w'', ws, he, hv, rfl⟩ := h6
  have hl : lookup name d' = some w'' := by simp [lookup, he]
  exact ⟨w'', by simp only [namedValue, Option.bind_some, h1, h3, h4, hl], hv⟩

theorem displayObject_eq (forms : Nat) (rv : Option Val) (name : Bytes) (g : GState Val Val) :
    displayObject unf f bytes forms rv name g =
      (resourceNumber f bytes rv b!"XObject" name).bind fun n =>
        match f.object bytes n with
        | some (.stream d _) =>
          match lookup b!"Subtype" d with
          | some (.name t) =>
            if t = b!"Image" then some [.image n g]
            else if t = b!"Form" then
              match forms with
              | 0 => none
              | forms + 1 =>
                (optionalEntry b!"Matrix" d itemsOf).bind fun matrix => ((lookup b!"BBox" d).bind itemsOf).bind fun box =>
                  (effectiveResources rv d).bind fun res => (decodedStream unf f bytes n).bind fun data =>
                    (readContent data).bind fun ops => (readAllActs ops).bind fun acts =>
                      (display ⟨.name, namedValue f bytes res, displayObject unf f bytes forms res⟩ (blank (inside matrix box g)) acts).map fun es =>
                        [.enter n g] ++ es ++ [.leave n]
            else none
          | _ => none
        | _ => none := by
  rw [displayObject.eq_def]
  rfl

theorem blank_same {N V N' V' : Type} {R : N → N' → Prop} {S : V → V' → Prop} {g : GState N V} {g' : GState N' V'} (h : SameState R S g g') :
    SameCanvas R S (blank g) (blank g') := ⟨h, .nil, .nil, rfl, trivial⟩

theorem displays_read (hf : Finds f bytes items) (depth : Nat) : ∀ (forms : Nat), depth ≤ forms →
    ∀ (res : Option (List ResourcesCall)) (rv : Option Val), ResRead f bytes res rv →
    ∀ (g : GState F32 Prog) (g' : GState Val Val), SameState NumIs Denotes g g' →
    ∀ (calls : List ContentCall) (es : List (Element F32 Prog)), Displays unf items depth res g calls es →
    ∀ (ops : List ReadOp), AllMean calls ops →
    ∃ as es', readAllActs ops = some as ∧
      display ⟨.name, namedValue f bytes rv, displayObject unf f bytes forms rv⟩ (blank g') as = some es' ∧
      Pairwise (SameElement NumIs Denotes) es es' := by
  induction depth with
  | zero =>
    intro forms hd res rv hr g g' hg calls es h ops hm
    obtain ⟨e, he1, he2, he3, hu, hrun⟩ := h
    obtain ⟨as, h1, h2⟩ := allActs_read calls ops hm hu
    have henv : SameEnv NumIs Denotes e ⟨.name, namedValue f bytes rv, displayObject unf f bytes forms rv⟩ := by
      refine ⟨fun n => by rw [he1 n]; rfl, fun c n v hv => namedValue_read hf hr (he2 c n v hv), ?_⟩
      intro n g g' es hg ho
      rcases he3 n g es ho with ⟨id, ic, data, hx, hob, hsub, rfl⟩ | ⟨p, res', matrix, r, inner, hx, hw, hset, hmx, hbb, hbelow, rfl⟩
      · obtain ⟨d, q1, q2⟩ := image_read hf hob hsub
        refine ⟨[.image id.get.toNat g'], ?_, .cons (.image hg) .nil⟩
        simp only
        rw [displayObject_eq]
        simp only [xobjectNumber_read hf hr hx, q1, q2, if_true, Option.bind_some]
      · exact hbelow.elim
    obtain ⟨es', h3, h4⟩ := display_same henv h2 (blank_same hg) hrun
    exact ⟨as, es', h1, h3, h4⟩
  | succ depth ih =>
    intro forms hd res rv hr g g' hg calls es h ops hm
    obtain ⟨e, he1, he2, he3, hu, hrun⟩ := h
    obtain ⟨as, h1, h2⟩ := allActs_read calls ops hm hu
    have henv : SameEnv NumIs Denotes e ⟨.name, namedValue f bytes rv, displayObject unf f bytes forms rv⟩ := by
      refine ⟨fun n => by rw [he1 n]; rfl, fun c n v hv => namedValue_read hf hr (he2 c n v hv), ?_⟩
      intro n g g' es hg ho
      rcases he3 n g es ho with ⟨id, ic, data, hx, hob, hsub, rfl⟩ | ⟨p, res', matrix, r, inner, hx, hw, hset, hmx, hbb, hbelow, rfl⟩
      · obtain ⟨d, q1, q2⟩ := image_read hf hob hsub
        refine ⟨[.image id.get.toNat g'], ?_, .cons (.image hg) .nil⟩
        simp only
        rw [displayObject_eq]
        simp only [xobjectNumber_read hf hr hx, q1, q2, if_true, Option.bind_some]
      · obtain ⟨m, rfl⟩ : ∃ m, forms = m + 1 := ⟨forms - 1, by omega⟩
        obtain ⟨d, rv', data, fops, q1, q2, q3, q4, q5, q6, q7⟩ := form_read hf p hw hr hset
        obtain ⟨d', g1, g2⟩ := finds_stream hf hw.object
        have hent := entriesAre_of (formXObject_implied p.calls) g2
        obtain ⟨y, hy, hym⟩ := optional_call (read := itemsOf) (R := Pairwise NumIs) (P := fun xs => ArrayIs (xs.map fun x => NumIs x))
          hent rfl hmx (fun _ _ => rfl) (fun b _ v hv => numbers_read b v hv)
        have hbf : (FormXObjectEntries p.calls).filter (fun e => e.1 == b!"BBox") = [(b!"BBox", IsRect r)] := by
          simp only [FormXObjectEntries, List.filter_append, onlyCall_filter hbb]; rfl
        obtain ⟨w, hl, bs, rfl, hbs⟩ := lookup_of hent hbf
        rw [g1] at q1
        obtain rfl : (b!"Length", Val.int p.data.length) :: d' = d := by
          simpa using q1
        have hmt : Pairwise (Pairwise NumIs) matrix.toList y.toList := by
          cases matrix <;> cases y <;> first | exact .nil | exact hym.elim | exact .cons hym .nil
        have hin := inside_same hmt (itemsAre_pairwise [r.x1, r.y1, r.x2, r.y2] bs hbs) hg
        obtain ⟨fas, fes, p1, p2, p3⟩ := ih m (by omega) res' rv' q4 _ _ hin p.content inner hbelow fops q7
        refine ⟨[.enter p.id.get.toNat g'] ++ fes ++ [.leave p.id.get.toNat], ?_,
          pairwise_append (pairwise_append (.cons (.enter hg) .nil) p3) (.cons .leave .nil)⟩
        simp only
        rw [displayObject_eq]
        simp only [xobjectNumber_read hf hr hx, Option.bind_some, g1, q2, q3, q5, q6]
        rw [if_neg (by decide), if_pos trivial, optional_cons (by decide), hy, lookup_skip_length (by decide), hl]
        simp only [itemsOf, Option.bind_some, p1, p2, Option.map_some]
    obtain ⟨es', h3, h4⟩ := display_same henv h2 (blank_same hg) hrun
    exact ⟨as, es', h1, h3, h4⟩

theorem pageDisplay_read (hf : Finds f bytes items) (forms depth : Nat) (hd : depth ≤ forms) (id : Ref) (res : Option (List ResourcesCall))
    (calls : List ContentCall) (x : List (Element F32 Prog)) (rv : Option Val) (d : List (Bytes × Val)) (ops : List ReadOp)
    (hx : Displays unf items depth res (initial fun n => .prim (.name n)) calls x) (hr : ResRead f bytes res rv)
    (hops : pageOperations unf f bytes d = some ops) (hm : AllMean calls ops) :
    ∃ y, readPageDisplay unf f bytes forms id.get.toNat rv d = some y ∧ Pairwise (SameElement NumIs Denotes) x y := by
  have hg : SameState NumIs Denotes (initial fun n => .prim (.name n)) (initial Val.name) :=
    ⟨.nil, .nil, ⟨rfl, .nil, trivial⟩, ⟨rfl, .nil, trivial⟩, .nil⟩
  obtain ⟨as, r, h1, h2, h3⟩ := displays_read hf depth forms hd res rv hr _ _ hg calls x hx ops hm
  exact ⟨r, by simp only [readPageDisplay, hops, Option.bind_some, h1, h2], h3⟩

end PdfW
