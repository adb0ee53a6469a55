import Verif.Spec.History
import Verif.Proof.Typed.Base

/-!
# A decision procedure for the side condition on objects

Used for concrete documents only: a test that implies `ItemOk`, evaluated by the kernel.
-/

namespace PdfW
open Spec

mutual
def noClashB : Prog → Bool
  | .prim _ => true
  | .array items => noClashItemsB items
  | .dict entries => noClashEntriesB entries
  | .unused => true
termination_by structural p => p
def noClashItemsB : List Prog → Bool
  | [] => true
  | x :: xs => noClashB x && (!isEmptyName x || xs.head?.all fun y => !isBareToken y) && noClashItemsB xs
termination_by structural p => p
def noClashEntriesB : List (Bytes × Prog) → Bool
  | [] => true
  | (k, x) :: xs => (k != [] || !isBareToken x) && noClashB x && noClashEntriesB xs
termination_by structural p => p
end

mutual
theorem noClashB_sound (p : Prog) (h : noClashB p = true) : NoClash p := by
  match p with
  | .prim p => simp [NoClash]
  | .array items => simp only [noClashB] at h; simpa [NoClash] using noClashItemsB_sound items h
  | .dict entries => simp only [noClashB] at h; simpa [NoClash] using noClashEntriesB_sound entries h
  | .unused => simp [NoClash]
termination_by structural p
theorem noClashItemsB_sound (xs : List Prog) (h : noClashItemsB xs = true) : NoClashItems xs := by
  match xs with
  | [] => simp [NoClashItems]
  | x :: xs =>
    simp only [noClashItemsB, Bool.and_eq_true, Bool.or_eq_true, Bool.not_eq_true'] at h
    simp only [NoClashItems]
    refine ⟨noClashB_sound x h.1.1, ?_, noClashItemsB_sound xs h.2⟩
    intro he y hy
    rcases h.1.2 with h1 | h1
    · rw [he] at h1; cases h1
    · simp only [Option.mem_def] at hy
      rw [hy] at h1
      simpa using h1
termination_by structural xs
theorem noClashEntriesB_sound (xs : List (Bytes × Prog)) (h : noClashEntriesB xs = true) : NoClashEntries xs := by
  match xs with
  | [] => simp [NoClashEntries]
  | (k, x) :: xs =>
    simp only [noClashEntriesB, Bool.and_eq_true, Bool.or_eq_true, Bool.not_eq_true', bne_iff_ne] at h
    simp only [NoClashEntries]
    refine ⟨?_, noClashB_sound x h.1.2, noClashEntriesB_sound xs h.2⟩
    intro hk
    rcases h.1.1 with h1 | h1
    · exact (h1 hk).elim
    · exact h1
termination_by structural xs
end

/-- The test. -/
def itemOkB (it : Item) : Bool :=
  match it.body with
  | .val p => okB p && (it.pretty || noClashB p)
  | .stream es _ => okEntriesB es && (it.pretty || noClashEntriesB es) && es.all fun e => e.1 != b!"Length"

theorem itemOkB_sound (it : Item) (h : itemOkB it = true) : ItemOk it := by
  obtain ⟨id, body, pretty⟩ := it
  cases body with
  | val p =>
    simp only [itemOkB, Bool.and_eq_true, Bool.or_eq_true] at h
    exact ⟨okB_sound p h.1, h.2.imp (fun x => x) (noClashB_sound p)⟩
  | stream es d =>
    simp only [itemOkB, Bool.and_eq_true, Bool.or_eq_true, List.all_eq_true, bne_iff_ne] at h
    exact ⟨okEntriesB_sound es h.1.1, h.1.2.imp (fun x => x) (noClashEntriesB_sound es), h.2⟩

end PdfW
