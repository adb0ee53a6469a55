import Verif.Spec.Geometry
import Verif.Proof.Annots

set_option linter.unusedSimpArgs false
set_option linter.unusedVariables false

/-! # Pages: boundaries, orientation and presentation: proofs -/

namespace PdfW
open Spec

variable {unf : Val → Bytes → Option Bytes} {f : FileEnd} {bytes : Bytes} {items : List Item}

theorem bothOrNone_or {α β : Type} {R : α → β → Prop} {a b : Option α} {x y : Option β} (h1 : BothOrNone R a x) (h2 : BothOrNone R b y) :
    BothOrNone R (a.or b) (x.or y) := by
  cases a <;> cases x <;> first | exact h1.elim | exact h2 | exact h1

/-- The entries in effect are those inherited by the pages of the tree. -/
def FrameReads (fr : Frame) (i : Inherits) : Prop :=
  BothOrNone RectReads fr.media i.media ∧ BothOrNone RectReads fr.crop i.crop ∧ i.rotate = fr.rotate

theorem transition_read (g : GivenTransition) (hg : g.Set) (v : Val) (hv : IsTransition .code g.calls v) :
    ∃ r, readTransition v = some r ∧ TransitionReads g r := by
  obtain ⟨d, rfl, he⟩ := hv
  have e1 := optional_eq (read := nameOf) (fun i => IsName (isoTransitionStyle i)) isoTransitionStyle he (by decide) hg.style (fun _ => rfl)
    (fun b v hv => isName_nameOf _ v hv)
  obtain ⟨y2, e2, m2⟩ := optional_call (read := numberOf) (R := NumIs) (P := NumIs) he (by decide) hg.duration (fun _ _ => rfl) (fun b _ v hv => numberOf_read b v hv)
  have e3 := optional_eq (read := nameOf) (fun i => IsName (if i then b!"V" else b!"H")) (fun i => if i then b!"V" else b!"H") he (by decide) hg.vertical
    (fun _ => rfl) (fun b v hv => isName_nameOf _ v hv)
  have e4 := optional_eq (read := nameOf) (fun i => IsName (if i then b!"O" else b!"I")) (fun i => if i then b!"O" else b!"I") he (by decide) hg.outward
    (fun _ => rfl) (fun b v hv => isName_nameOf _ v hv)
  obtain ⟨y5, e5, m5⟩ := optional_call (read := some) (R := IsAngle) (P := IsAngle) he (by decide) hg.angle (fun _ _ => rfl) (fun b _ v hv => ⟨v, rfl, hv⟩)
  obtain ⟨y6, e6, m6⟩ := optional_call (read := numberOf) (R := NumIs) (P := NumIs) he (by decide) hg.scale (fun _ _ => rfl) (fun b _ v hv => numberOf_read b v hv)
  exact ⟨_, by simp only [readTransition, e1, e2, e3, e4, e5, e6, Option.bind_some, Option.map_some]; rfl, rfl, m2, rfl, rfl, m5, m6⟩

theorem group_read (g : GivenGroup) (hg : g.Set) (v : Val) (hv : IsGroup g.calls v) : ∃ r, readGroup v = some r ∧ GroupReads g r := by
  obtain ⟨d, rfl, he⟩ := hv
  have e1 := optional_eq (read := nameOf) (fun _ => IsName b!"Transparency") (fun _ => b!"Transparency") he (by decide) hg.transparency (fun _ => rfl)
    (fun b v hv => isName_nameOf _ v hv)
  obtain ⟨y2, e2, m2⟩ := optional_call (read := some) (R := Denotes) (P := Denotes) he (by decide) hg.space (fun _ _ => rfl) (fun b _ v hv => ⟨v, rfl, hv⟩)
  have e3 := optional_eq (read := truthOf) IsBool id he (by decide) hg.isolated (fun _ => rfl) (fun b v hv => by simp only [IsBool] at hv; subst hv; rfl)
  have e4 := optional_eq (read := truthOf) IsBool id he (by decide) hg.knockout (fun _ => rfl) (fun b v hv => by simp only [IsBool] at hv; subst hv; rfl)
  refine ⟨_, by simp only [readGroup, e1, e2, e3, e4, Option.bind_some, Option.map_some]; rfl, ?_, m2, by simp, by simp⟩
  cases g.transparency <;> rfl

theorem getD_reads {R : Rect → List Val → Prop} {a b : Option Rect} {x : Option (List Val)} {y : List Val} (h : BothOrNone R a x)
    (hb : ∃ r, b = some r ∧ R r y) : ∃ r, a.or b = some r ∧ R r (x.getD y) := by
  cases a <;> cases x
  · exact hb
  · exact h.elim
  · exact h.elim
  · exact ⟨_, rfl, h⟩

theorem setup_read (g : GivenSetup) (calls : List PageCall) (hg : g.Set calls) (i0 : Inherits) (hi0 : FrameReads g.inherited i0)
    (d : List (Bytes × Val)) (he : EntriesAre (PageEntries .code calls) d) :
    ∃ i r, effective i0 d = some i ∧ readSetup g.id.get.toNat i d = some r ∧ SetupReads g r := by
  obtain ⟨q1, q2, q3⟩ := hi0
  obtain ⟨a1, b1, c1⟩ := optional_call (read := itemsOf) (R := RectReads) (P := IsRect) he (by decide) hg.media (fun _ _ => rfl) (fun b _ v hv => rect_read b v hv)
  obtain ⟨a2, b2, c2⟩ := optional_call (read := itemsOf) (R := RectReads) (P := IsRect) he (by decide) hg.crop (fun _ _ => rfl) (fun b _ v hv => rect_read b v hv)
  have b3 := optional_eq (read := intOf) IsInt id he (by decide) hg.rotate (fun _ => rfl) (fun b v hv => by simp only [IsInt] at hv; subst hv; rfl)
  obtain ⟨a4, b4, c4⟩ := optional_call (read := itemsOf) (R := RectReads) (P := IsRect) he (by decide) hg.bleed (fun _ _ => rfl) (fun b _ v hv => rect_read b v hv)
  obtain ⟨a5, b5, c5⟩ := optional_call (read := itemsOf) (R := RectReads) (P := IsRect) he (by decide) hg.trim (fun _ _ => rfl) (fun b _ v hv => rect_read b v hv)
  obtain ⟨a6, b6, c6⟩ := optional_call (read := itemsOf) (R := RectReads) (P := IsRect) he (by decide) hg.art (fun _ _ => rfl) (fun b _ v hv => rect_read b v hv)
  obtain ⟨a7, b7, c7⟩ := optional_call (read := numberOf) (R := NumIs) (P := NumIs) he (by decide) hg.unit (fun _ _ => rfl) (fun b _ v hv => numberOf_read b v hv)
  have b8 := optional_eq (read := dateOf) IsDate expectedDate he (by decide) hg.modified (fun _ => rfl) dateOf_isDate
  have b9 := optional_eq (read := intOf) IsInt id he (by decide) hg.structParents (fun _ => rfl) (fun b v hv => by simp only [IsInt] at hv; subst hv; rfl)
  have b10 := optional_eq (read := nameOf) (fun i => IsName (isoTabOrder i)) isoTabOrder he (by decide) hg.tabs (fun _ => rfl)
    (fun b v hv => isName_nameOf _ v hv)
  have b11 := optional_ref he (by decide) hg.thumbnail (fun _ => rfl)
  have b12 := optional_ref he (by decide) hg.metadata (fun _ => rfl)
  obtain ⟨a13, b13, c13⟩ := optional_call (read := numberOf) (R := NumIs) (P := NumIs) he (by decide) hg.duration (fun _ _ => rfl) (fun b _ v hv => numberOf_read b v hv)
  obtain ⟨a14, b14, c14⟩ := optional_call (read := readTransition) (R := TransitionReads) (P := fun (t : GivenTransition) => IsTransition .code t.calls) he
    (by decide) hg.transition (fun _ _ => rfl) (fun b hb v hv => transition_read b (hg.transitionSet b hb) v hv)
  obtain ⟨a15, b15, c15⟩ := optional_call (read := readGroup) (R := GroupReads) (P := fun (t : GivenGroup) => IsGroup t.calls) he
    (by decide) hg.group (fun _ _ => rfl) (fun b hb v hv => group_read b (hg.groupSet b hb) v hv)
  have hm := bothOrNone_or c1 q1
  have hc := bothOrNone_or c2 q2
  obtain ⟨box, hbox⟩ := Option.isSome_iff_exists.mp hg.hasMedia
  have hbox' : g.media.or g.inherited.media = some box := hbox
  rw [hbox'] at hm
  obtain ⟨media, hmv⟩ : ∃ m, a1.or i0.media = some m := by
    cases hh : a1.or i0.media with
    | none => rw [hh] at hm; exact hm.elim
    | some m => exact ⟨m, rfl⟩
  rw [hmv] at hm
  have hmedia : ∃ b, g.mediaBox = some b ∧ RectReads b media := ⟨box, hbox, hm⟩
  have hcrop : ∃ b, g.cropBox = some b ∧ RectReads b ((a2.or i0.crop).getD media) := getD_reads hc hmedia
  refine ⟨⟨a1.or i0.media, a2.or i0.crop, (g.rotate.map id).or i0.rotate⟩, _, by simp only [effective, b1, b2, b3, Option.bind_some, Option.map_some], by
    simp only [readSetup, hmv, b4, b5, b6, b7, b8, b9, b10, b11, b12, b13, b14, b15, Option.bind_some, Option.map_some]
    rfl, ?_⟩
  exact ⟨rfl, hmedia, hcrop, getD_reads c4 hcrop, getD_reads c5 hcrop, getD_reads c6 hcrop, by simp [GivenSetup.turned, q3], c7, rfl, by simp, rfl, rfl, rfl,
    c13, c14, c15⟩

theorem frame_read (calls : List PagesCall) (frame : Frame) {media crop : Option Rect} {rotate : Option Int}
    (h1 : MaybeCall PagesMeans b!"MediaBox" calls media .mediaBox)
    (h2 : MaybeCall PagesMeans b!"CropBox" calls crop (fun r => .raw b!"CropBox" (.prim (.rect r))))
    (h3 : MaybeCall PagesMeans b!"Rotate" calls rotate (fun n => .raw b!"Rotate" (.prim (.int n))))
    (i0 : Inherits) (hi0 : FrameReads frame i0) (d : List (Bytes × Val)) (he : EntriesAre (PagesEntries calls) d) :
    ∃ i, effective i0 d = some i ∧ FrameReads ⟨media.or frame.media, crop.or frame.crop, rotate.or frame.rotate⟩ i := by
  obtain ⟨q1, q2, q3⟩ := hi0
  obtain ⟨a1, b1, c1⟩ := optional_call (read := itemsOf) (R := RectReads) (P := IsRect) he (by decide) h1 (fun _ _ => rfl) (fun b _ v hv => rect_read b v hv)
  obtain ⟨a2, b2, c2⟩ := optional_call (read := itemsOf) (R := RectReads) (P := fun r => Denotes (.prim (.rect r))) he (by decide) h2 (fun _ _ => rfl)
    (fun b _ v hv => rect_read b v (l_rect b v hv))
  have b3 := optional_eq (read := intOf) (fun n => Denotes (.prim (.int n))) id he (by decide) h3 (fun _ => rfl)
    (fun b v hv => by simp only [Denotes, PrimDenotes] at hv; subst hv; rfl)
  exact ⟨⟨a1.or i0.media, a2.or i0.crop, (rotate.map id).or i0.rotate⟩, by simp only [effective, b1, b2, b3, Option.bind_some, Option.map_some], bothOrNone_or c1 q1, bothOrNone_or c2 q2, by simp [q3]⟩

mutual
theorem tree_setups (hf : Finds f bytes items) (t : PageTree) (depth : Nat) (hd : t.depth ≤ depth) (hw : t.Written unf items)
    (frame : Frame) (i0 : Inherits) (hi : FrameReads frame i0) (gs : List GivenSetup) (hg : t.Setups frame gs) :
    ∃ rs, readSetups f bytes depth i0 t.id.get.toNat = some rs ∧ Pairwise SetupReads gs rs := by
  cases t with
  | page id calls contents =>
    simp only [PageTree.depth] at hd
    obtain ⟨n, rfl⟩ : ∃ n, depth = n + 1 := ⟨depth - 1, by omega⟩
    simp only [PageTree.Written] at hw
    simp only [PageTree.Setups] at hg
    obtain ⟨h1, h2, h3, h4⟩ := hw
    obtain ⟨g, rfl, rfl, rfl, hg⟩ := hg
    obtain ⟨v, ho, hv⟩ := finds_val hf h1
    obtain ⟨d, rfl, he⟩ := page_denotes .code calls (Or.inl rfl) v hv
    have hty : (PageEntries .code calls).filter (fun e => e.1 == b!"Type") = [(b!"Type", IsName b!"Page")] := by
      simp only [PageEntries, List.filter_append, noCall_filter h2]
      rfl
    obtain ⟨w, hl, hw⟩ := lookup_of he hty
    simp only [IsName] at hw
    subst hw
    obtain ⟨i, r, k1, k2, k3⟩ := setup_read g calls hg i0 hi d he
    exact ⟨[r], by simp only [readSetups, PageTree.id, ho, hl, if_true, k1, k2, Option.bind_some, Option.map_some], .cons k3 .nil⟩
  | node id calls kids =>
    simp only [PageTree.depth] at hd
    obtain ⟨n, rfl⟩ : ∃ n, depth = n + 1 := ⟨depth - 1, by omega⟩
    simp only [PageTree.Written] at hw
    simp only [PageTree.Setups] at hg
    obtain ⟨h1, h2, h3, h4⟩ := hw
    obtain ⟨media, crop, rotate, g1, g2, g3, g4⟩ := hg
    obtain ⟨v, ho, hv⟩ := finds_val hf h1
    obtain ⟨d, rfl, he⟩ := pages_denotes calls v hv
    have hty : (PagesEntries calls).filter (fun e => e.1 == b!"Type") = [(b!"Type", IsName b!"Pages")] := by
      simp only [PagesEntries, List.filter_append, noCall_filter h2]
      rfl
    have hki : (PagesEntries calls).filter (fun e => e.1 == b!"Kids") = [(b!"Kids", ArrayIs ((kids.map PageTree.id).map fun x => IsRef x))] := by
      simp only [PagesEntries, List.filter_append, onlyCall_filter h3]
      rfl
    obtain ⟨w, hl, hw⟩ := lookup_of he hty
    simp only [IsName] at hw
    subst hw
    obtain ⟨w, hl', vs, rfl, hvs⟩ := lookup_of he hki
    obtain ⟨i, k1, k2⟩ := frame_read calls frame g1 g2 g3 i0 hi d he
    obtain ⟨rs, k3, k4⟩ := trees_setups hf kids n (by omega) h4 _ i k2 gs g4
    refine ⟨rs, ?_, k4⟩
    simp only [readSetups, PageTree.id, ho, hl, hl', k1, refNumbers_of _ vs hvs, Option.bind_some, List.map_map, Function.comp_def]
    rw [if_neg (by decide), if_pos trivial]
    exact k3
termination_by structural t
theorem trees_setups (hf : Finds f bytes items) (ts : List PageTree) (depth : Nat) (hd : depthList ts ≤ depth) (hw : writtenList unf items ts)
    (frame : Frame) (i0 : Inherits) (hi : FrameReads frame i0) (gs : List GivenSetup) (hg : setupsList ts frame gs) :
    ∃ rs, collect (readSetups f bytes depth i0) (ts.map fun t => t.id.get.toNat) = some rs ∧ Pairwise SetupReads gs rs := by
  cases ts with
  | nil =>
    simp only [setupsList] at hg
    subst hg
    exact ⟨[], rfl, .nil⟩
  | cons t ts =>
    simp only [depthList] at hd
    simp only [writtenList] at hw
    simp only [setupsList] at hg
    obtain ⟨a, b, rfl, g1, g2⟩ := hg
    obtain ⟨r1, k1, k2⟩ := tree_setups hf t depth (by omega) hw.1 frame i0 hi a g1
    obtain ⟨r2, k3, k4⟩ := trees_setups hf ts depth (by omega) hw.2 frame i0 hi b g2
    exact ⟨r1 ++ r2, by simp only [List.map_cons, collect, k1, k3, Option.bind_some, Option.map_some], pairwise_append k2 k4⟩
termination_by structural ts
end

end PdfW
