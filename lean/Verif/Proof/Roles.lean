import Verif.Spec.Roles
import Verif.Proof.Num

/-! # Lemmas: decimal digits of heading levels, role tables -/

set_option linter.unusedSimpArgs false
set_option linter.unusedVariables false

namespace PdfW
open Spec

theorem natDigitsAux_fuel (f g n : Nat) (hf : n < f) (hg : n < g) : natDigitsAux f n = natDigitsAux g n := by
  induction f generalizing g n with
  | zero => omega
  | succ f ih =>
    cases g with
    | zero => omega
    | succ g =>
      unfold natDigitsAux
      split
      · rfl
      · rw [ih g (n / 10) (by omega) (by omega)]

theorem natBytes_step (n d : Nat) (hn : 0 < n) (hd : d < 10) :
    natBytes (n * 10 + d) = natBytes n ++ [UInt8.ofNat (48 + d)] := by
  unfold natBytes
  rw [natDigitsAux, if_neg (by omega)]
  have e1 : (n * 10 + d) / 10 = n := by omega
  have e2 : (n * 10 + d) % 10 = d := by omega
  rw [e1, e2, natDigitsAux_fuel _ (n + 1) n (by omega) (by omega)]

theorem natBytes_small (d : Nat) (hd : d < 10) : natBytes d = [UInt8.ofNat (48 + d)] := by
  unfold natBytes
  rw [natDigitsAux, if_pos hd]

theorem digit_ofNat : ∀ d : UInt8, isDigit d = true → d = UInt8.ofNat (48 + (d.toNat - 48)) ∧ d.toNat - 48 < 10 :=
  forall_byte (by decide +kernel)

/-- A digit string without leading zeros is the decimal spelling of its value. -/
theorem natBytes_digitsVal (ds : Bytes) (hne : ds ≠ []) (hall : ds.all isDigit = true) (h0 : ds.head? ≠ some 48) :
    natBytes (digitsVal ds) = ds ∧ 0 < digitsVal ds := by
  obtain ⟨k, hk⟩ : ∃ k, ds.length = k := ⟨_, rfl⟩
  induction k generalizing ds with
  | zero => simp at hk; exact absurd hk hne
  | succ k ih =>
    obtain ⟨init, d, rfl⟩ : ∃ init d, ds = init ++ [d] := ⟨ds.dropLast, ds.getLast hne, (List.dropLast_concat_getLast hne).symm⟩
    simp only [List.all_append, List.all_cons, List.all_nil, Bool.and_true, Bool.and_eq_true] at hall
    obtain ⟨e1, e2⟩ := digit_ofNat d hall.2
    have ev : digitsVal (init ++ [d]) = digitsVal init * 10 + (d.toNat - 48) := by
      simp [digitsVal, List.foldl_append]
    rw [ev]
    by_cases hi : init = []
    · subst hi
      have hd0 : d ≠ 48 := by simpa using h0
      have hz : digitsVal [] = 0 := rfl
      rw [hz, Nat.zero_mul, Nat.zero_add, natBytes_small _ e2, ← e1]
      refine ⟨rfl, ?_⟩
      rcases Nat.eq_zero_or_pos (d.toNat - 48) with h | h
      · rw [h] at e1; exact absurd e1 hd0
      · exact h
    · obtain ⟨h1, h2⟩ := ih init hi hall.1 (by cases init with | nil => exact absurd rfl hi | cons a t => simpa using h0) (by simp at hk; omega)
      rw [natBytes_step _ _ h2 e2, h1, ← e1]
      exact ⟨rfl, by omega⟩

theorem natBytes_head (n : Nat) (hn : 0 < n) : ∃ d ds, natBytes n = d :: ds ∧ d ≠ 48 := by
  induction n using Nat.strongRecOn with
  | _ n ih =>
    by_cases h : n < 10
    · rw [natBytes_small n h]
      refine ⟨_, _, rfl, ?_⟩
      have : ∀ k, k < 10 → 0 < k → UInt8.ofNat (48 + k) ≠ 48 := by decide
      exact this n h hn
    · obtain ⟨d, ds, e, h0⟩ := ih (n / 10) (by omega) (by omega)
      have : n = (n / 10) * 10 + n % 10 := by omega
      rw [this, natBytes_step _ _ (by omega) (by omega), e]
      exact ⟨d, _, rfl, h0⟩

theorem headingName_eq (level : Nat) (h : level < 65536) : headingName level = some (ch!"H" :: natBytes level) := by
  have := natBytes_length_le level 5 (by omega) (by omega)
  unfold headingName
  rw [if_pos (by simp only [List.length_cons]; omega)]

theorem headingLevel_natBytes (level : Nat) (h : 0 < level) : headingLevel (ch!"H" :: natBytes level) = some level := by
  obtain ⟨d, ds, e, h0⟩ := natBytes_head level h
  have hd := natBytes_digits level
  have hv := digitsVal_natBytes level
  rw [e] at hd hv ⊢
  simp only [headingLevel]
  rw [if_pos ⟨trivial, h0, hd⟩, hv]

theorem headingLevel_some (n : Bytes) (level : Nat) (h : headingLevel n = some level) :
    n = ch!"H" :: natBytes level ∧ 0 < level := by
  unfold headingLevel at h
  split at h
  · rename_i hd d ds
    split at h
    · rename_i hc
      obtain ⟨h1, h2, h3⟩ := hc
      obtain ⟨e, p⟩ := natBytes_digitsVal (d :: ds) (by simp) h3 (by simpa using h2)
      injection h with h
      subst h
      rw [e, h1]
      exact ⟨rfl, p⟩
    · exact absurd h (by simp)
  · exact absurd h (by simp)

end PdfW
