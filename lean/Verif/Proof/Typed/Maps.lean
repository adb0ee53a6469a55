import Verif.Spec.Typed.Maps
import Verif.Spec.Typed.Enums
import Verif.Proof.Typed.Fonts
import Verif.Proof.Typed.Object

/-! # Lemmas: tables of fonts and trees -/

set_option linter.unusedSimpArgs false
set_option linter.unusedVariables false

namespace PdfW
open Spec

theorem WrittenAs.imp {p : Prog} {P Q : Val → Prop} (h : WrittenAs p P) (i : ∀ v, P v → Q v) : WrittenAs p Q := by
  refine ⟨fun pretty indent pad buf hc => ?_, fun c r hc => ?_⟩
  · obtain ⟨out, v, h1, h2, h3⟩ := h.1 pretty indent pad buf hc
    exact ⟨out, v, h1, h2, i v h3⟩
  · obtain ⟨out, h1, h2, h3⟩ := h.2 c r hc
    refine ⟨out, h1, h2, fun rest => ?_⟩
    obtain ⟨v, rem, h4, h5⟩ := h3 rest
    exact ⟨v, rem, h4, i v h5⟩

theorem Pairwise.append {α β : Type} {R : α → β → Prop} {a c : List α} {b d : List β} (h : Pairwise R a b) (k : Pairwise R c d) :
    Pairwise R (a ++ c) (b ++ d) := by
  induction h with
  | nil => exact k
  | cons h _ ih => exact .cons h ih

theorem ItemsAre.append {ms ns : List (Val → Prop)} {vs : List Val} (h : ItemsAre (ms ++ ns) vs) :
    ∃ a b, vs = a ++ b ∧ ItemsAre ms a ∧ ItemsAre ns b := by
  induction ms generalizing vs with
  | nil => exact ⟨[], vs, rfl, rfl, h⟩
  | cons m ms ih =>
    obtain ⟨w, ws, rfl, hw, h⟩ := h
    obtain ⟨a, b, rfl, ha, hb⟩ := ih h
    exact ⟨w :: a, b, rfl, ⟨w, a, rfl, hw, ha⟩, hb⟩

theorem numIs_isNumber {x : F32} {v : Val} (h : NumIs x v) : isNumber v = true := by
  cases v <;> first | rfl | exact h.elim

theorem consecutive_pairwise (c : Int) {ws : List F32} {vs : List Val} (h : ItemsAre (ws.map fun x => NumIs x) vs) :
    vs.all isNumber = true ∧ Pairwise (fun a (w : Int × F32) => a.1 = w.1 ∧ NumIs w.2 a.2) (consecutiveFrom c vs) (consecutiveFrom c ws) := by
  induction ws generalizing vs c with
  | nil => cases h; exact ⟨rfl, .nil⟩
  | cons w ws ih =>
    obtain ⟨v, vs, rfl, hv, h⟩ := h
    have := ih (c + 1) h
    exact ⟨by simp [numIs_isNumber hv]; simpa using this.1, .cons ⟨rfl, hv⟩ this.2⟩

theorem same_pairwise (c : Int) {w : F32} {v : Val} (h : NumIs w v) (n : Nat) :
    Pairwise (fun a (w : Int × F32) => a.1 = w.1 ∧ NumIs w.2 a.2) (sameFrom c v n) (sameFrom c w n) := by
  induction n generalizing c with
  | zero => exact .nil
  | succ n ih => exact .cons ⟨rfl, h⟩ (ih _)

theorem gives_widths (calls : List WidthsCall) (ht : ∀ c ∈ calls, c.typed) {vs : List Val} (h : ItemsAre (WidthsItems calls) vs) :
    ∃ as, readW vs = some as ∧ Pairwise (fun a w => a.1 = w.1 ∧ NumIs w.2 a.2) as (calls.flatMap widthsGiven) := by
  induction calls generalizing vs with
  | nil => cases h; exact ⟨[], by simp [readW], .nil⟩
  | cons c calls ih =>
    simp only [WidthsItems, List.flatMap_cons] at h
    obtain ⟨a, rest, rfl, ha, hr⟩ := ItemsAre.append h
    obtain ⟨as, h1, h2⟩ := ih (fun c hc => ht c (by simp [hc])) hr
    have := ht c (by simp)
    cases c with
    | raw p => exact this.elim
    | consecutive start ws =>
      obtain ⟨x, _, rfl, rfl, y, _, rfl, ⟨items, rfl, hi⟩, rfl⟩ := ha
      obtain ⟨h3, h4⟩ := consecutive_pairwise start.toNat hi
      refine ⟨consecutiveFrom start.toNat items ++ as, ?_, Pairwise.append h4 h2⟩
      show readW (_ :: _ :: rest) = _
      rw [readW, if_pos h3, h1]; rfl
    | same first last w =>
      obtain ⟨x, _, rfl, rfl, y, _, rfl, rfl, z, _, rfl, hz, rfl⟩ := ha
      refine ⟨sameFrom first.toNat z ((last.toNat : Int) - first.toNat + 1).toNat ++ as, ?_, ?_⟩
      · show readW (_ :: _ :: _ :: rest) = _
        rw [readW, if_pos (numIs_isNumber hz), h1]; rfl
      · have e : ((last.toNat : Int) - first.toNat + 1).toNat = last.toNat + 1 - first.toNat := by omega
        rw [e]
        exact Pairwise.append (same_pairwise _ hz _) h2

theorem readDifferences_names (c : Int) (names : List Bytes) {vs rest : List Val} (h : ItemsAre (names.map IsName) vs)
    {out : List (Int × Bytes)} (hr : ∀ o, readDifferences o rest = some out) :
    readDifferences (some c) (vs ++ rest) = some (consecutiveFrom c names ++ out) := by
  induction names generalizing vs c with
  | nil => cases h; exact hr _
  | cons n names ih =>
    obtain ⟨v, vs, rfl, rfl, h⟩ := h
    simp only [List.cons_append, readDifferences, ih (c + 1) h, Option.map_some, consecutiveFrom]

theorem gives_names (calls : List DifferencesCall) (ht : ∀ c ∈ calls, c.typed) {vs : List Val} (h : ItemsAre (DifferencesItems calls) vs) :
    ∀ o, readDifferences o vs = some (calls.flatMap differencesGiven) := by
  induction calls generalizing vs with
  | nil => cases h; intro o; simp [readDifferences]
  | cons c calls ih =>
    simp only [DifferencesItems, List.flatMap_cons] at h
    obtain ⟨a, rest, rfl, ha, hr⟩ := ItemsAre.append h
    have hn := ih (fun c hc => ht c (by simp [hc])) hr
    have := ht c (by simp)
    cases c with
    | raw p => exact this.elim
    | consecutive start names =>
      obtain ⟨x, ys, rfl, rfl, hy⟩ := ha
      intro o
      simp only [List.cons_append, readDifferences, List.flatMap_cons, differencesGiven]
      exact readDifferences_names _ _ hy hn

theorem readNames_of {entries : List (Bytes × Prim)} {vs : List Val}
    (h : ItemsAre (entries.flatMap fun e => [IsStr e.1, PrimDenotes e.2]) vs) :
    ∃ ps, readNames vs = some ps ∧ Pairwise (fun p e => p.1 = e.1 ∧ PrimDenotes e.2 p.2) ps entries := by
  induction entries generalizing vs with
  | nil => cases h; exact ⟨[], rfl, .nil⟩
  | cons e entries ih =>
    obtain ⟨k, _, rfl, rfl, v, rest, rfl, hv, h⟩ := h
    obtain ⟨ps, h1, h2⟩ := ih h
    exact ⟨(e.1, v) :: ps, by rw [readNames, h1]; rfl, .cons ⟨rfl, hv⟩ h2⟩

theorem readNums_of {entries : List (Int × Prim)} {vs : List Val}
    (h : ItemsAre (entries.flatMap fun e => [IsInt e.1, PrimDenotes e.2]) vs) :
    ∃ ps, readNums vs = some ps ∧ Pairwise (fun p e => p.1 = e.1 ∧ PrimDenotes e.2 p.2) ps entries := by
  induction entries generalizing vs with
  | nil => cases h; exact ⟨[], rfl, .nil⟩
  | cons e entries ih =>
    obtain ⟨k, _, rfl, rfl, v, rest, rfl, hv, h⟩ := h
    obtain ⟨ps, h1, h2⟩ := ih h
    exact ⟨(e.1, v) :: ps, by rw [readNums, h1]; rfl, .cons ⟨rfl, hv⟩ h2⟩

theorem getKey_names {calls : List NameTreeCall} {entries : List (Bytes × Prim)} (ho : onlyNames calls entries)
    {es : List (Bytes × Val)} (h : EntriesAre (NameTreeEntries .code calls) es) :
    ∃ items, getKey b!"Names" es = some (.arr items) ∧ ItemsAre (entries.flatMap fun e => [IsStr e.1, PrimDenotes e.2]) items := by
  induction calls generalizing es with
  | nil => exact ho.elim
  | cons c calls ih =>
    cases c with
    | names l =>
      obtain ⟨rfl, _⟩ := ho
      obtain ⟨w, ws, rfl, ⟨items, rfl, hi⟩, _⟩ := h
      exact ⟨items, by simp [getKey], hi⟩
    | kids l =>
      obtain ⟨w, ws, rfl, _, h⟩ := h
      obtain ⟨items, h1, h2⟩ := ih ho h
      exact ⟨items, by rw [getKey, if_neg (by simp)]; exact h1, h2⟩
    | limits a b =>
      obtain ⟨w, ws, rfl, _, h⟩ := h
      obtain ⟨items, h1, h2⟩ := ih ho h
      exact ⟨items, by rw [getKey, if_neg (by simp)]; exact h1, h2⟩

theorem getKey_nums {calls : List NumberTreeCall} {entries : List (Int × Prim)} (ho : onlyNums calls entries)
    {es : List (Bytes × Val)} (h : EntriesAre (NumberTreeEntries calls) es) :
    ∃ items, getKey b!"Nums" es = some (.arr items) ∧ ItemsAre (entries.flatMap fun e => [IsInt e.1, PrimDenotes e.2]) items := by
  induction calls generalizing es with
  | nil => exact ho.elim
  | cons c calls ih =>
    cases c with
    | nums l =>
      obtain ⟨rfl, _⟩ := ho
      obtain ⟨w, ws, rfl, ⟨items, rfl, hi⟩, _⟩ := h
      exact ⟨items, by simp [getKey], hi⟩
    | kids l =>
      obtain ⟨w, ws, rfl, _, h⟩ := h
      obtain ⟨items, h1, h2⟩ := ih ho h
      exact ⟨items, by rw [getKey, if_neg (by simp)]; exact h1, h2⟩
    | limits a b =>
      obtain ⟨w, ws, rfl, _, h⟩ := h
      obtain ⟨items, h1, h2⟩ := ih ho h
      exact ⟨items, by rw [getKey, if_neg (by simp)]; exact h1, h2⟩

theorem ok_pFlags {α : Type} (bits iso : α → Nat) (h : ∀ x, 1 ≤ iso x ∧ iso x ≤ 31 ∧ bits x = 2 ^ (iso x - 1)) (l : List α) :
    Ok (pFlags (l.map bits)) := by
  simp only [pFlags, pInt]
  refine okB_sound _ ?_
  simp [okB, primOkB]

theorem hasFlags {α : Type} (bits iso : α → Nat) (h : ∀ x, 1 ≤ iso x ∧ iso x ≤ 31 ∧ bits x = 2 ^ (iso x - 1))
    (inj : ∀ x y, iso x = iso y → x = y) (l : List α) : WrittenAs (pFlags (l.map bits)) (HasFlags iso l) := by
  refine WrittenAs.imp (writtenAs_of (ok_pFlags bits iso h l) (l_flags bits iso h l)) ?_
  rintro v ⟨n, rfl, hn⟩
  refine ⟨n, rfl, fun f => ?_, fun i hi => ?_⟩
  · rw [hn]
    have := h f
    simp only [List.mem_map]
    constructor
    · rintro ⟨g, hg, e⟩
      rw [inj f g (by omega)]; exact hg
    · intro hf; exact ⟨f, hf, by omega⟩
  · have := (hn i).mp hi
    simpa using this

end PdfW
