import Verif.Spec.Labels
import Verif.Proof.Attach

set_option linter.unusedSimpArgs false
set_option linter.unusedVariables false

/-! # Reading page labels -/

namespace PdfW
open Spec

variable {unf : Val → Bytes → Option Bytes} {f : FileEnd} {bytes : Bytes} {items : List Item}

/-- What is read for a range. -/
def Spec.GivenRange.range (g : GivenRange) : LabelRange := ⟨g.first, g.style.map isoNumberingStyle, g.pre, g.start⟩

theorem range_read (hf : Finds f bytes items) (g : GivenRange) (hg : g.Written items) {v : Val} (hv : v = .ref g.id.get.toNat 0) :
    readRange f bytes (g.first, v) = some g.range := by
  obtain ⟨w, ho, hw⟩ := finds_val hf hg.object
  obtain ⟨d, rfl, he⟩ := pageLabel_denotes g.calls w hw
  have e1 := optional_eq (read := nameOf) (fun k => IsName (isoNumberingStyle k)) isoNumberingStyle he rfl hg.style (fun _ => rfl)
    (fun b v hv => by simp only [IsName] at hv; subst hv; rfl)
  have e2 := optional_eq (read := readText) IsText id he rfl hg.pre (fun _ => rfl) (fun b v hv => readText_isText b v hv)
  have e3 := optional_eq (read := intOf) IsInt id he rfl hg.start (fun _ => rfl) (fun b v hv => by simp only [IsInt] at hv; subst hv; rfl)
  subst hv
  simp only [readRange, followDict, followRef, ho, e1, e2, e3, Option.bind_some, Option.map_some, Option.map_id, id, GivenRange.range]

theorem ranges_read (hf : Finds f bytes items) (gs : List GivenRange) (hg : ∀ g ∈ gs, g.Written items) (rs : List (Int × Val))
    (h : PairsMean (gs.map fun g => (g.first, Prim.ref g.id)) rs) : readEach (readRange f bytes) rs = some (gs.map GivenRange.range) := by
  induction gs generalizing rs with
  | nil => simp only [List.map_nil, PairsMean] at h; cases h; rfl
  | cons g gs ih =>
    simp only [List.map_cons, PairsMean] at h
    cases h with
    | cons ha hr =>
      rename_i b bs
      obtain ⟨h1, h2⟩ := ha
      obtain ⟨k, v⟩ := b
      simp only [PrimDenotes] at h1 h2
      subst h1
      simp only [readEach, range_read hf g (hg g (by simp)) h2, ih (fun x hx => hg x (by simp [hx])) bs hr, Option.bind_some,
        Option.map_some, List.map_cons]

theorem label_read (g : GivenRange) (i : Nat) : g.range.label i = some (g.label i) := by
  obtain ⟨first, id, calls, style, pre, start⟩ := g
  cases style with
  | none => simp [LabelRange.label, GivenRange.range, GivenRange.label, numberText]
  | some s => cases s <;> rfl

theorem labelOf_read (gs : List GivenRange) (i : Nat) (l : List Char) (h : HasLabel gs i l) : labelOf (gs.map GivenRange.range) i = some l := by
  obtain ⟨before, g, after, rfl, h1, h2, rfl⟩ := h
  have ha : (after.map GivenRange.range).filter (fun r => decide (r.first ≤ (i : Int))) = [] := by
    rw [List.filter_eq_nil_iff]
    intro r hr
    obtain ⟨a, ha, rfl⟩ := List.mem_map.mp hr
    have := h2 a ha
    intro hd
    have hd : a.first ≤ (i : Int) := of_decide_eq_true hd
    omega
  have hg : decide (g.range.first ≤ (i : Int)) = true := decide_eq_true (p := g.first ≤ (i : Int)) h1
  have hc : (g.range :: after.map GivenRange.range).filter (fun r => decide (r.first ≤ (i : Int))) = [g.range] := by
    rw [List.filter_cons_of_pos (by exact hg), ha]
  simp only [labelOf, List.map_append, List.map_cons, List.filter_append, hc]
  simp only [List.getLast?_append, List.getLast?_singleton, Option.some_or, Option.bind_some, label_read]

theorem labels_read (gs : List GivenRange) (labels : List (List Char)) (k n : Nat) (hn : labels.length = n)
    (h : ∀ i, (hi : i < labels.length) → HasLabel gs (k + i) labels[i]) :
    readEach (labelOf (gs.map GivenRange.range)) (List.range' k n) = some labels := by
  subst hn
  induction labels generalizing k with
  | nil => rfl
  | cons l ls ih =>
    have h0 := h 0 (by simp)
    simp only [Nat.add_zero, List.getElem_cons_zero] at h0
    have := ih (k + 1) (fun i hi => by
      have := h (i + 1) (by simpa using hi)
      simpa only [List.getElem_cons_succ, Nat.add_assoc, Nat.add_comm 1] using this)
    simp only [List.length_cons, List.range'_succ, readEach, labelOf_read gs k l h0, this, Option.bind_some, Option.map_some]

end PdfW
