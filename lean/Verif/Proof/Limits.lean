import Verif.Proof.History
import Verif.Spec.Limits

/-! # Lemmas: limits -/

set_option linter.unusedSimpArgs false
set_option linter.unusedVariables false

namespace PdfW
open Spec

/-! ## UTF-8: the model's encoding is that of Lean's strings -/

theorem utf8Char_eq (c : Char) : utf8Char c = String.utf8EncodeChar c := by
  unfold utf8Char String.utf8EncodeChar
  have hc : c.toNat < 0x110000 := by
    have h : c.val.toNat < 0xd800 ∨ (0xdfff < c.val.toNat ∧ c.val.toNat < 0x110000) := c.valid
    have e : c.val.toNat = c.toNat := rfl
    omega
  have e : c.val.toNat = c.toNat := rfl
  simp only [e]
  generalize c.toNat = n at *
  by_cases h1 : n < 0x80
  · rw [if_pos h1, if_pos (show n ≤ 127 by omega)]
  · rw [if_neg h1, if_neg (show ¬ n ≤ 127 by omega)]
    by_cases h2 : n < 0x800
    · rw [if_pos h2, if_pos (show n ≤ 2047 by omega), show n / 64 % 32 = n / 64 by omega]
      simp only [Nat.add_comm]
    · rw [if_neg h2, if_neg (show ¬ n ≤ 2047 by omega)]
      by_cases h3 : n < 0x10000
      · rw [if_pos h3, if_pos (show n ≤ 65535 by omega), show n / 4096 % 16 = n / 4096 by omega]
        simp only [Nat.add_comm]
      · rw [if_neg h3, if_neg (show ¬ n ≤ 65535 by omega), show n / 262144 % 8 = n / 262144 by omega]
        simp only [Nat.add_comm]
theorem utf8_eq (t : List Char) : utf8 t = (String.ofList t).toByteArray.data.toList := by
  rw [String.toByteArray_ofList, List.utf8Encode]
  simp only [utf8, show utf8Char = String.utf8EncodeChar from funext utf8Char_eq]
  simp
theorem utf8_length (t : List Char) : (utf8 t).length = (String.ofList t).utf8ByteSize := by
  rw [utf8_eq]; rfl

/-! ## Whole numbers -/

namespace F32

theorem scaled_magOfNat (n : Nat) (h0 : 0 < n) (h : n < 16777216) : scaled (magOfNat n) = n * 2 ^ 149 := by
  have hl : n.log2 ≤ 23 := by
    have : n.log2 < 24 := (Nat.log2_lt (by omega)).mpr (by omega)
    omega
  have g1 : 2 ^ n.log2 ≤ n := Nat.log2_self_le (by omega)
  have g2 : n < 2 ^ (n.log2 + 1) := Nat.lt_log2_self
  unfold magOfNat
  rw [if_neg (by omega)]
  simp only [hl, if_true]
  generalize n.log2 = e at *
  have p1 : 2 ^ e * 2 ^ (23 - e) = 8388608 := by rw [← Nat.pow_add, show e + (23 - e) = 23 by omega]
  have p2 : 2 ^ (e + 1) * 2 ^ (23 - e) = 16777216 := by rw [← Nat.pow_add, show e + 1 + (23 - e) = 24 by omega]
  rw [scaled_form]
  · rw [Nat.mul_assoc, ← Nat.pow_add, show 23 - e + (e + 126) = 149 by omega]
  · rw [← p1]; exact Nat.mul_le_mul_right _ g1
  · rw [← p2]; exact Nat.mul_le_mul_right _ (Nat.le_of_lt g2)

theorem scaled_large (m : Nat) (h : 2 ^ 172 ≤ scaled m) : scaled m % 2 ^ 149 = 0 := by
  unfold scaled at *
  split
  · rename_i hm; rw [if_pos hm] at h; exfalso
    have : (2 : Nat) ^ 172 = 2 ^ 23 * 2 ^ 149 := by decide +kernel
    have : (0 : Nat) < 2 ^ 149 := by decide +kernel
    generalize (2 : Nat) ^ 149 = P at *
    omega
  · rename_i hm; rw [if_neg hm] at h
    have hk : 149 ≤ m / 8388608 - 1 := by
      rcases Nat.lt_or_ge (m / 8388608 - 1) 149 with hk | hk
      · exfalso
        have : 2 ^ (m / 8388608 - 1) ≤ 2 ^ 148 := Nat.pow_le_pow_right (by decide) (by omega)
        have h3 : (8388608 + m % 8388608) * 2 ^ (m / 8388608 - 1) < 16777216 * 2 ^ 148 :=
          Nat.lt_of_lt_of_le (Nat.mul_lt_mul_of_pos_right (by omega) (Nat.two_pow_pos _)) (Nat.mul_le_mul_left _ this)
        have : 16777216 * 2 ^ 148 = 2 ^ 172 := by decide +kernel
        omega
      · exact hk
    obtain ⟨j, hj⟩ := Nat.exists_eq_add_of_le hk
    rw [hj, Nat.pow_add, ← Nat.mul_assoc, Nat.mul_right_comm]
    exact Nat.mul_mod_left _ _

theorem exact_unique (N m m' : Nat) (h : roundsTo N 1 m = true) (h' : scaled m' = N * 2 ^ 149) : m = m' := by
  unfold roundsTo at h
  simp only [Bool.and_eq_true, Bool.or_eq_true, decide_eq_true_eq, beq_iff_eq, Nat.mul_one, ← h'] at h
  obtain ⟨h1, h2⟩ := h
  rcases Nat.lt_trichotomy m m' with hlt | heq | hgt
  · exfalso
    have e1 := scaled_le (show m + 1 ≤ m' by omega)
    have e2 := scaled_succ m
    omega
  · exact heq
  · exfalso
    have e1 := scaled_le (show m' ≤ m - 1 by omega)
    have e2 := scaled_lt (show m - 1 < m by omega)
    omega

theorem scaled_max : scaled 1325400064 = 2147483648 * 2 ^ 149 := by decide +kernel

theorem ofI32_mag (i : Int) (h : i.natAbs ≤ 2147483648) : (ofI32 i).mag.val = magOfNat i.natAbs := by
  have := (magOfNat_spec i.natAbs h).2
  simp only [ofI32, Fin.val_ofNat]
  exact Nat.mod_eq_of_lt (by omega)

theorem toI32_eq (v : F32) (hn : v.isNaN = false) :
    v.toI32 = if v.neg then Max.max (-((scaled v.mag.val / 2 ^ 149 : Nat) : Int)) (-2147483648)
      else Min.min ((scaled v.mag.val / 2 ^ 149 : Nat) : Int) 2147483647 := by
  unfold toI32; simp [hn]

theorem natAbs_toI32 (v : F32) (hn : v.isNaN = false) (ht : scaled v.mag.val / 2 ^ 149 < 2147483648) :
    v.toI32.natAbs = scaled v.mag.val / 2 ^ 149 := by
  rw [toI32_eq v hn]
  generalize scaled v.mag.val / 2 ^ 149 = t at *
  split <;> omega

/-- When `push_float` takes the integer path. -/
theorem integral_whole (v : F32) : v.isIntegral = (wholeNumber v).isSome ∧ ∀ w ∈ wholeNumber v, v.toI32 = Min.min w 2147483647 := by
  have hP : (0 : Nat) < 2 ^ 149 := Nat.two_pow_pos _
  by_cases hc : scaled v.mag.val % 2 ^ 149 = 0 ∧ scaled v.mag.val / 2 ^ 149 ≤ 2147483648
  · obtain ⟨c1, c2⟩ := hc
    have hex : scaled v.mag.val = scaled v.mag.val / 2 ^ 149 * 2 ^ 149 := by
      have := Nat.div_add_mod (scaled v.mag.val) (2 ^ 149)
      rw [Nat.mul_comm]; omega
    have hmag : v.mag.val ≤ 1325400064 := by
      rcases Nat.lt_or_ge 1325400064 v.mag.val with h | h
      · exfalso
        have := scaled_lt h
        rw [scaled_max, hex] at this
        have := Nat.lt_of_mul_lt_mul_right this
        omega
      · exact h
    have hn : v.isNaN = false := by
      have : ¬ v.mag.val > infMag := by have : infMag = 2139095040 := rfl
                                        omega
      simp [isNaN, this]
    have hw : wholeNumber v = some (if v.neg then -((scaled v.mag.val / 2 ^ 149 : Nat) : Int) else (scaled v.mag.val / 2 ^ 149 : Nat)) := by
      unfold wholeNumber; rw [if_pos ⟨c1, c2⟩]
    have htoi : v.toI32 = Min.min (if v.neg then -((scaled v.mag.val / 2 ^ 149 : Nat) : Int) else (scaled v.mag.val / 2 ^ 149 : Nat)) 2147483647 := by
      rw [toI32_eq v hn]
      generalize scaled v.mag.val / 2 ^ 149 = t at *
      split <;> omega
    refine ⟨?_, ?_⟩
    · rw [hw, Option.isSome_some]
      have hle : v.toI32.natAbs ≤ 2147483648 := by
        rw [htoi]
        generalize scaled v.mag.val / 2 ^ 149 = t at *
        split <;> omega
      have hm := ofI32_mag v.toI32 hle
      have hmm : (ofI32 v.toI32).mag.val = v.mag.val := by
        rw [hm]
        by_cases ht : scaled v.mag.val / 2 ^ 149 = 2147483648 ∧ v.neg = false
        · have e1 : v.toI32 = 2147483647 := by
            rw [htoi, ht.1, ht.2]; decide
          rw [e1]
          apply scaled_inj
          rw [hex, ht.1, ← scaled_max]
          exact congrArg scaled (by decide +kernel)
        · have e1 : v.toI32.natAbs = scaled v.mag.val / 2 ^ 149 := by
            rw [htoi]
            generalize scaled v.mag.val / 2 ^ 149 = t at *
            split
            · omega
            · rename_i hneg
              have : ¬ t = 2147483648 := fun h => ht ⟨h, by simpa using hneg⟩
              omega
          rw [e1]
          exact exact_unique _ _ _ (magOfNat_spec _ (by omega)).1 hex
      have hn' : (ofI32 v.toI32).isNaN = false := by
        simp only [isNaN, hmm]; simpa [isNaN] using hn
      unfold isIntegral eq
      simp only [hn, hn', Bool.not_false, Bool.true_and, beq_iff_eq]
      unfold sval
      rw [hmm]
      have hneg : (ofI32 v.toI32).neg = decide (v.toI32 < 0) := rfl
      rw [hneg]
      by_cases h0 : scaled v.mag.val = 0
      · rw [h0]; simp
      · have ht : 0 < scaled v.mag.val / 2 ^ 149 := by
          rcases Nat.eq_zero_or_pos (scaled v.mag.val / 2 ^ 149) with h | h
          · rw [h] at hex; omega
          · exact h
        have : decide (v.toI32 < 0) = v.neg := by
          rw [htoi]
          generalize scaled v.mag.val / 2 ^ 149 = t at *
          cases v.neg
          · simp; omega
          · simp; omega
        rw [this]
    · intro w hw'
      rw [hw] at hw'
      simp only [Option.mem_def, Option.some.injEq] at hw'
      rw [← hw']; exact htoi
  · have hw : wholeNumber v = none := by unfold wholeNumber; rw [if_neg hc]
    refine ⟨?_, by simp [hw]⟩
    rw [hw, Option.isSome_none]
    cases hi : v.isIntegral with
    | false => rfl
    | true =>
      exfalso
      unfold isIntegral eq at hi
      simp only [Bool.and_eq_true, beq_iff_eq, Bool.not_eq_true'] at hi
      obtain ⟨⟨-, hn⟩, heq⟩ := hi
      have hr := toI32_range v
      have hm := ofI32_mag v.toI32 (by omega)
      have hval : scaled (magOfNat v.toI32.natAbs) = scaled v.mag.val := by
        unfold sval at heq
        rw [hm] at heq
        split at heq <;> split at heq <;> omega
      have hmm := scaled_inj hval
      have hle : scaled v.mag.val ≤ 2147483648 * 2 ^ 149 := by
        rw [← scaled_max]; apply scaled_le; rw [← hmm]; exact (magOfNat_spec _ (by omega)).2
      have c2 : scaled v.mag.val / 2 ^ 149 ≤ 2147483648 := (Nat.div_le_iff_le_mul_add_pred hP).mpr (by rw [Nat.mul_comm]; omega)
      apply hc
      refine ⟨?_, c2⟩
      rcases Nat.lt_or_ge (scaled v.mag.val) (2 ^ 172) with hs | hs
      · have ht : scaled v.mag.val / 2 ^ 149 < 8388608 := by
          rw [Nat.div_lt_iff_lt_mul hP]
          have : 8388608 * 2 ^ 149 = 2 ^ 172 := by decide +kernel
          omega
        have ha := natAbs_toI32 v hn (by omega)
        rw [← hval]
        rcases Nat.eq_zero_or_pos v.toI32.natAbs with h0 | h0
        · rw [h0]; decide +kernel
        · rw [scaled_magOfNat _ h0 (by omega)]
          exact Nat.mul_mod_left _ _
      · exact scaled_large _ hs

end F32

/-! ## Maxima -/

/-- Register a fact. -/
def regFact (l : Limits) : Fact → Limits
  | .name n => l.registerNameLen n
  | .str n => l.registerStrLen n
  | .arr n => l.registerArrayLen n
  | .dict n => l.registerDictEntries n
  | .int i => l.registerInt i
  | .real x => l.registerReal x

theorem Spec.IsMax.congr {s s' : Nat → Prop} {n : Nat} (h : IsMax s n) (e : ∀ k, s' k ↔ s k) : IsMax s' n :=
  ⟨fun k hk => h.1 k ((e k).mp hk), h.2.imp_right (e n).mpr⟩

theorem Spec.IsMax.union {s s' t : Nat → Prop} {n n' : Nat} (h : IsMax s n) (h' : IsMax s' n') (e : ∀ k, t k ↔ s k ∨ s' k) :
    IsMax t (Max.max n n') := by
  refine ⟨?_, ?_⟩
  · intro k hk
    rcases (e k).mp hk with hk | hk
    · have := h.1 k hk; omega
    · have := h'.1 k hk; omega
  · rcases Nat.le_total n n' with hn | hn
    · rw [Nat.max_eq_right hn]; exact h'.2.imp_right fun x => (e _).mpr (Or.inr x)
    · rw [Nat.max_eq_left hn]; exact h.2.imp_right fun x => (e _).mpr (Or.inl x)

theorem Spec.IsMax.single (v : Nat) : IsMax (fun k => k = v) v := ⟨fun k hk => by omega, Or.inr rfl⟩
theorem Spec.IsMax.none : IsMax (fun _ => False) 0 := ⟨fun k hk => hk.elim, Or.inl rfl⟩

theorem F32.max_spec (x y : F32) (hx : x.isNaN = false) (hx' : x.neg = false) (hy : y.isNaN = false) (hy' : y.neg = false) :
    (x.max y).neg = false ∧ (x.max y).isNaN = false ∧ (x.max y).mag.val = Max.max x.mag.val y.mag.val := by
  unfold F32.max
  simp only [hx, hy, Bool.false_eq_true, if_false]
  have : x.lt y = decide (x.mag.val < y.mag.val) := by
    simp only [F32.lt, hx, hy, F32.sval, hx', hy', Bool.false_eq_true, if_false, Bool.not_false, Bool.true_and]
    rcases Nat.lt_trichotomy x.mag.val y.mag.val with h | h | h
    · have := F32.scaled_lt h; simp [h, this]
    · simp [h]
    · have := F32.scaled_lt h
      have h1 : ¬ x.mag.val < y.mag.val := by omega
      have h2 : ¬ F32.scaled x.mag.val < F32.scaled y.mag.val := by omega
      simp [h1, h2]
  rw [this]
  by_cases h : x.mag.val < y.mag.val
  · simp [h, hy, hy']; omega
  · simp [h, hx, hx']; omega

theorem exact_notNaN {l : Limits} {fs : List Fact} (h : Exact l fs) : l.real.isNaN = false := by
  rcases h.real.2.2 with h0 | ⟨x, -, hx, he⟩
  · simp [F32.isNaN, h0]
  · simp only [F32.isNaN] at *; rw [← he]; exact hx

theorem exact_new : Exact Limits.new [] := by
  constructor
  · exact IsMax.none.congr (by simp)
  · exact IsMax.none.congr (by simp)
  · exact IsMax.none.congr (by simp)
  · exact IsMax.none.congr (by simp)
  · exact ⟨by simp [Limits.new], IsMax.none.congr (by simp)⟩
  · exact ⟨rfl, IsMax.none.congr (by simp)⟩

theorem registerInt_eq (l : Limits) (v : Int) (h : 0 ≤ l.int) (hv : v ≠ -2147483648) :
    0 ≤ (l.registerInt v).int ∧ (l.registerInt v).int.natAbs = Max.max l.int.natAbs v.natAbs := by
  simp only [Limits.registerInt, Limits.absI32, if_neg hv]; omega

theorem registerInt_min (l : Limits) (h : 0 ≤ l.int) : l.registerInt (-2147483648) = l := by
  simp only [Limits.registerInt, Limits.absI32, if_true]
  rw [show Max.max l.int (-2147483648) = l.int by omega]

theorem registerInt_zero (l : Limits) (h : 0 ≤ l.int) : l.registerInt 0 = l := by
  simp only [Limits.registerInt, Limits.absI32]
  rw [if_neg (by decide), show Max.max l.int ((0 : Int).natAbs : Int) = l.int by omega]

theorem registerReal_nan (l : Limits) (x : F32) (h : l.real.isNaN = false) (hx : x.isNaN = true) : l.registerReal x = l := by
  have : x.abs.isNaN = true := hx
  simp only [Limits.registerReal, F32.max, h, this, if_true, Bool.false_eq_true, if_false]

theorem exact_reg {l : Limits} {fs : List Fact} (h : Exact l fs) (f : Fact) : Exact (regFact l f) (fs ++ [f]) := by
  have hnan := exact_notNaN h
  obtain ⟨h1, h2, h3, h4, ⟨h5, h6⟩, h7, h8⟩ := h
  cases f with
  | name n =>
    refine ⟨h1.union (.single n) (by simp), h2.congr (by simp), h3.congr (by simp), h4.congr (by simp), ⟨h5, h6.congr (by simp)⟩, h7, h8.congr (by simp)⟩
  | str n =>
    refine ⟨h1.congr (by simp), h2.union (.single n) (by simp), h3.congr (by simp), h4.congr (by simp), ⟨h5, h6.congr (by simp)⟩, h7, h8.congr (by simp)⟩
  | arr n =>
    refine ⟨h1.congr (by simp), h2.congr (by simp), h3.union (.single n) (by simp), h4.congr (by simp), ⟨h5, h6.congr (by simp)⟩, h7, h8.congr (by simp)⟩
  | dict n =>
    refine ⟨h1.congr (by simp), h2.congr (by simp), h3.congr (by simp), h4.union (.single n) (by simp), ⟨h5, h6.congr (by simp)⟩, h7, h8.congr (by simp)⟩
  | int i =>
    by_cases hi : i = -2147483648
    · subst hi
      rw [regFact, registerInt_min l h5]
      refine ⟨h1.congr (by simp), h2.congr (by simp), h3.congr (by simp), h4.congr (by simp), ⟨h5, h6.congr ?_⟩, h7, h8.congr (by simp)⟩
      intro k
      constructor
      · rintro ⟨j, hj, hne, e⟩
        simp only [List.mem_append, List.mem_singleton, Fact.int.injEq] at hj
        rcases hj with hj | hj
        · exact ⟨j, hj, hne, e⟩
        · exact absurd hj hne
      · rintro ⟨j, hj, r⟩; exact ⟨j, by simp [hj], r⟩
    · obtain ⟨k1, k2⟩ := registerInt_eq l i h5 hi
      refine ⟨h1.congr (by simp), h2.congr (by simp), h3.congr (by simp), h4.congr (by simp), ⟨k1, ?_⟩, h7, h8.congr (by simp)⟩
      rw [regFact, k2]
      refine h6.union (.single i.natAbs) ?_
      intro k
      constructor
      · rintro ⟨j, hj, hne, e⟩
        simp only [List.mem_append, List.mem_singleton, Fact.int.injEq] at hj
        rcases hj with hj | hj
        · exact Or.inl ⟨j, hj, hne, e⟩
        · subst hj; exact Or.inr e.symm
      · rintro (⟨j, hj, r⟩ | e)
        · exact ⟨j, by simp [hj], r⟩
        · exact ⟨i, by simp, hi, e.symm⟩
  | real x =>
    cases hx : x.isNaN with
    | true =>
      rw [regFact, registerReal_nan l x hnan hx]
      refine ⟨h1.congr (by simp), h2.congr (by simp), h3.congr (by simp), h4.congr (by simp), ⟨h5, h6.congr (by simp)⟩, h7, h8.congr ?_⟩
      intro k
      constructor
      · rintro ⟨j, hj, hne, e⟩
        simp only [List.mem_append, List.mem_singleton, Fact.real.injEq] at hj
        rcases hj with hj | hj
        · exact ⟨j, hj, hne, e⟩
        · subst hj; rw [hx] at hne; simp at hne
      · rintro ⟨j, hj, r⟩; exact ⟨j, by simp [hj], r⟩
    | false =>
      have hxa : x.abs.isNaN = false := hx
      obtain ⟨k1, -, k3⟩ := F32.max_spec l.real x.abs hnan h7 hxa rfl
      refine ⟨h1.congr (by simp), h2.congr (by simp), h3.congr (by simp), h4.congr (by simp), ⟨h5, h6.congr (by simp)⟩, k1, ?_⟩
      simp only [regFact, Limits.registerReal, k3]
      refine h8.union (.single x.mag.val) ?_
      intro k
      constructor
      · rintro ⟨j, hj, hne, e⟩
        simp only [List.mem_append, List.mem_singleton, Fact.real.injEq] at hj
        rcases hj with hj | hj
        · exact Or.inl ⟨j, hj, hne, e⟩
        · subst hj; exact Or.inr e.symm
      · rintro (⟨j, hj, r⟩ | e)
        · exact ⟨j, by simp [hj], r⟩
        · exact ⟨x, by simp, hx, e.symm⟩

theorem exact_regs {l : Limits} {fs : List Fact} (h : Exact l fs) (gs : List Fact) : Exact (gs.foldl regFact l) (fs ++ gs) := by
  induction gs generalizing l fs with
  | nil => simpa using h
  | cons g gs ih =>
    have := ih (exact_reg h g)
    simpa using this

/-- Membership is all that counts. -/
theorem Spec.Exact.congr {l : Limits} {fs gs : List Fact} (h : Exact l fs) (e : ∀ f, f ∈ gs ↔ f ∈ fs) : Exact l gs := by
  obtain ⟨h1, h2, h3, h4, ⟨h5, h6⟩, h7, h8⟩ := h
  exact ⟨h1.congr (by simp [e]), h2.congr (by simp [e]), h3.congr (by simp [e]), h4.congr (by simp [e]), ⟨h5, h6.congr (by simp [e])⟩, h7, h8.congr (by simp [e])⟩

theorem merge_foldl (l o : Limits) : l.merge o = (limitFacts o).foldl regFact l := rfl

theorem exact_merge {l o : Limits} {fs gs : List Fact} (h : Exact l fs) (h' : Exact o gs) : Exact (l.merge o) (fs ++ gs) := by
  have hnan := exact_notNaN h
  have hnan' := exact_notNaN h'
  obtain ⟨h1, h2, h3, h4, ⟨h5, h6⟩, h7, h8⟩ := h
  obtain ⟨g1, g2, g3, g4, ⟨g5, g6⟩, g7, g8⟩ := h'
  have ho : o.int ≠ -2147483648 := by omega
  obtain ⟨k1, k2⟩ := registerInt_eq l o.int h5 ho
  have habs : o.real.abs = o.real := by
    revert g7
    cases o.real with
    | mk n m => intro g7; simp only at g7; subst g7; rfl
  obtain ⟨m1, -, m3⟩ := F32.max_spec l.real o.real hnan h7 hnan' g7
  refine ⟨h1.union g1 (by simp), h2.union g2 (by simp), h3.union g3 (by simp), h4.union g4 (by simp), ⟨k1, ?_⟩, ?_, ?_⟩
  · have : (l.merge o).int.natAbs = Max.max l.int.natAbs o.int.natAbs := k2
    rw [this]
    refine h6.union g6 ?_
    intro k
    constructor
    · rintro ⟨j, hj, r⟩
      rcases List.mem_append.mp hj with hj | hj
      · exact Or.inl ⟨j, hj, r⟩
      · exact Or.inr ⟨j, hj, r⟩
    · rintro (⟨j, hj, r⟩ | ⟨j, hj, r⟩)
      · exact ⟨j, by simp [hj], r⟩
      · exact ⟨j, by simp [hj], r⟩
  · have : (l.merge o).real = l.real.max o.real.abs := rfl
    rw [this, habs]; exact m1
  · have : (l.merge o).real = l.real.max o.real.abs := rfl
    rw [this, habs, m3]
    refine h8.union g8 ?_
    intro k
    constructor
    · rintro ⟨j, hj, r⟩
      rcases List.mem_append.mp hj with hj | hj
      · exact Or.inl ⟨j, hj, r⟩
      · exact Or.inr ⟨j, hj, r⟩
    · rintro (⟨j, hj, r⟩ | ⟨j, hj, r⟩)
      · exact ⟨j, by simp [hj], r⟩
      · exact ⟨j, by simp [hj], r⟩

/-! ## Objects -/

theorem numFacts_eq (v : F32) (l : Limits) : v.realLimits l = (numFacts v).foldl regFact l := by
  obtain ⟨h1, h2⟩ := F32.integral_whole v
  unfold F32.realLimits numFacts
  rw [h1]
  cases hw : wholeNumber v with
  | none => rfl
  | some w =>
    simp only [Option.isSome_some, if_true, List.foldl_cons, List.foldl_nil, regFact]
    rw [h2 w (by simp [hw])]

theorem foldl_sum (segs : List (LangId × List Char)) (a : Nat) :
    segs.foldl (fun acc s => acc + ((utf8 s.2).length + s.1.len + 2)) a =
      a + (segs.map fun s => (String.ofList s.2).utf8ByteSize + (if s.1.region.isSome then 4 else 2) + 2).sum := by
  induction segs generalizing a with
  | nil => simp
  | cons s segs ih =>
    rw [List.foldl_cons, ih, List.map_cons, List.sum_cons]
    simp only [LangId.len, utf8_length]; omega

theorem primFacts_eq (p : Prim) (l : Limits) : primLimits p l = (primFacts p).foldl regFact l := by
  cases p with
  | real x => exact numFacts_eq x l
  | rect r => simp only [primLimits, primFacts, List.foldl_append, numFacts_eq]; rfl
  | textStrLang segs =>
    simp only [primLimits, primFacts, List.foldl_cons, List.foldl_nil, regFact, langLen]
    rw [foldl_sum]; simp
  | textStr t => simp only [primLimits, primFacts, List.foldl_cons, List.foldl_nil, regFact, utf8_length]
  | _ => rfl

mutual
theorem progFacts_eq (p : Prog) (l : Limits) : progLimits p l = (progFacts p).foldl regFact l := by
  match p with
  | .prim p => simp only [progLimits, progFacts]; exact primFacts_eq p l
  | .array items => simp only [progLimits, progFacts, List.foldl_append, itemsFacts_eq items]; rfl
  | .dict entries => simp only [progLimits, progFacts, List.foldl_append, entriesFacts_eq entries]; rfl
  | .unused => simp [progLimits, progFacts]
termination_by structural p
theorem itemsFacts_eq (xs : List Prog) (l : Limits) : itemsLimits xs l = (itemsFacts xs).foldl regFact l := by
  match xs with
  | [] => simp [itemsLimits, itemsFacts]
  | x :: xs => simp only [itemsLimits, itemsFacts, List.foldl_append, progFacts_eq x, itemsFacts_eq xs]
termination_by structural xs
theorem entriesFacts_eq (xs : List (Bytes × Prog)) (l : Limits) : entriesLimits xs l = (entriesFacts xs).foldl regFact l := by
  match xs with
  | [] => simp [entriesLimits, entriesFacts]
  | (k, x) :: xs =>
    simp only [entriesLimits, entriesFacts, List.foldl_cons, List.foldl_append, progFacts_eq x, entriesFacts_eq xs, regFact]
termination_by structural xs
end

theorem bodyFacts_eq (b : Body) (l : Limits) : bodyLimits b l = (bodyFacts b).foldl regFact l := by
  cases b with
  | val p => exact progFacts_eq p l
  | stream es data =>
    simp only [bodyLimits, bodyFacts, entriesFacts_eq, streamEntries, entriesFacts, progFacts, primFacts, List.foldl_cons, List.foldl_append,
      List.foldl_nil, List.length_cons, regFact]
    rfl

theorem itemFacts_eq (it : Item) (l : Limits) : bodyLimits it.body (l.registerInt it.id.id) = (itemFacts it).foldl regFact l := by
  rw [bodyFacts_eq]; rfl

/-! ## Renumbering -/

section
variable {σ : Type} (m : Mapping σ)

theorem exact_ref {l : Limits} {fs : List Fact} (h : Exact l fs) (r : Ref) :
    Exact ((l.registerInt r.id).registerInt 0) (fs ++ [.int r.get]) := by
  have := exact_reg h (.int r.id)
  have e := registerInt_zero _ this.int.1
  rw [regFact] at e this
  rw [e]
  exact this

mutual
theorem patchProg_exact (p : Prog) (s : σ) {l : Limits} {fs : List Fact} (h : Exact l fs) :
    Exact (patchLimits m p s l) (fs ++ (progRefs (mapProg m p s).1).map fun r => .int r.get) := by
  match p with
  | .prim p =>
    cases p with
    | ref r => simpa [patchLimits, mapProg, mapPrim, progRefs] using exact_ref h (m s r).1
    | _ => simpa [patchLimits, mapProg, mapPrim, progRefs] using h
  | .array items => simpa only [patchLimits, mapProg, progRefs] using patchItems_exact items s h
  | .dict entries => simpa only [patchLimits, mapProg, progRefs] using patchEntries_exact entries s h
  | .unused => simpa [patchLimits, mapProg, progRefs] using h
termination_by structural p
theorem patchItems_exact (xs : List Prog) (s : σ) {l : Limits} {fs : List Fact} (h : Exact l fs) :
    Exact (patchItemsLimits m xs s l) (fs ++ (itemsRefs (mapItems m xs s).1).map fun r => .int r.get) := by
  match xs with
  | [] => simpa [patchItemsLimits, mapItems, itemsRefs] using h
  | x :: xs =>
    have := patchItems_exact xs (mapProg m x s).2 (patchProg_exact x s h)
    simpa only [patchItemsLimits, mapItems, itemsRefs, List.map_append, List.append_assoc] using this
termination_by structural xs
theorem patchEntries_exact (xs : List (Bytes × Prog)) (s : σ) {l : Limits} {fs : List Fact} (h : Exact l fs) :
    Exact (patchEntriesLimits m xs s l) (fs ++ (entriesRefs (mapEntries m xs s).1).map fun r => .int r.get) := by
  match xs with
  | [] => simpa [patchEntriesLimits, mapEntries, entriesRefs] using h
  | (k, x) :: xs =>
    have := patchEntries_exact xs (mapProg m x s).2 (patchProg_exact x s h)
    simpa only [patchEntriesLimits, mapEntries, entriesRefs, List.map_append, List.append_assoc] using this
termination_by structural xs
end

theorem patchBody_exact (b : Body) (s : σ) {l : Limits} {fs : List Fact} (h : Exact l fs) :
    Exact (patchBodyLimits m b s l) (fs ++ (bodyRefs (mapBody m b s).1).map fun r => .int r.get) := by
  cases b with
  | val p => exact patchProg_exact m p s h
  | stream es data => exact patchEntries_exact m es s h

theorem patchObjs_exact (its : List Item) (s : σ) {l : Limits} {fs : List Fact} (h : Exact l fs) :
    Exact (patchObjsLimits m its s l) (fs ++ (callOrder (mapObjs m its s).1).map fun r => .int r.get) := by
  induction its generalizing s l fs with
  | nil => simpa [patchObjsLimits, mapObjs, callOrder] using h
  | cons it its ih =>
    have := ih (mapItem m it s).2 (patchBody_exact m it.body (m s it.id).2 (exact_ref h (m s it.id).1))
    cases hst : started it.body with
    | false => simpa [patchObjsLimits, mapObjs, hst] using ih (m s it.id).2 h
    | true =>
    simpa only [patchObjsLimits, patchItemLimits, mapObjs, hst, if_true, mapItem, callOrder, List.map_append, List.map_cons, List.append_assoc, List.cons_append, List.nil_append] using this

end

/-! ## Histories -/

mutual
theorem chunk_exact (h : ChunkHist) (c : Chunk) (hr : h.run = some c) : Exact c.limits (chunkFacts h) := by
  match h with
  | .new pretty =>
    simp only [ChunkHist.run, Option.some.injEq] at hr
    subst hr
    simp only [chunkFacts]; exact exact_new
  | .ofPdf p =>
    simp only [ChunkHist.run] at hr
    cases hp : p.run with
    | none => simp [hp] at hr
    | some q =>
      simp only [hp, Option.some.injEq] at hr
      subst hr
      simp only [chunkFacts]; exact pdf_exact p q hp
  | .call h k =>
    simp only [ChunkHist.run] at hr
    cases hh : h.run with
    | none => simp [hh] at hr
    | some ch =>
      simp only [hh] at hr
      simp only [chunkFacts]
      obtain ⟨ps, hl, -⟩ := chunk_inv h ch hh
      exact call_exact k ch c _ ps hl hr (chunk_exact h ch hh)
termination_by structural h
theorem call_exact (k : ChunkCall) (ch c : Chunk) (fs : List Fact) (ps : List Piece) (hl : Layout ch ps) (hr : k.run ch = some c)
    (hf : Exact ch.limits fs) : Exact c.limits (fs ++ callFacts k) := by
  match k with
  | .indirect id p =>
    simp only [ChunkCall.run, Option.some.injEq] at hr
    subst hr
    rw [writeIndirect_eq, Chunk.limits]
    simp only [callFacts]
    rw [itemFacts_eq ⟨id, .val p, true⟩]
    exact exact_regs hf _
  | .stream id es data =>
    simp only [ChunkCall.run, writeStream_eq] at hr
    split at hr
    · rw [Option.some.injEq] at hr
      subst hr
      rw [Chunk.limits]
      simp only [callFacts]
      rw [itemFacts_eq ⟨id, .stream es data, true⟩]
      exact exact_regs hf _
    · simp at hr
  | .extend o =>
    simp only [ChunkCall.run] at hr
    cases ho : o.run with
    | none => simp [ho] at hr
    | some oc =>
      simp only [ho, Option.some.injEq] at hr
      subst hr
      simp only [callFacts]
      exact exact_merge hf (chunk_exact o oc ho)
  | .mergeLimits l =>
    simp only [ChunkCall.run, Option.some.injEq] at hr
    subst hr
    simp only [callFacts, Chunk.mergeLimits, Chunk.limits]
    rw [merge_foldl]
    exact exact_regs hf _
  | .renumberFrom src σ m s =>
    simp only [ChunkCall.run] at hr
    cases ho : src.run with
    | none => simp [ho] at hr
    | some oc =>
      simp only [ho, Option.some.injEq] at hr
      subst hr
      simp only [callFacts]
      obtain ⟨qs, hq, hqi, -⟩ := chunk_inv src oc ho
      obtain ⟨-, -, hlim, -⟩ := layout_renumberInto hq hl m s
      rw [Chunk.limits, hlim, hqi, ← List.append_assoc]
      exact patchObjs_exact m _ s (exact_merge hf (chunk_exact src oc ho))
termination_by structural k
theorem pdf_exact (h : PdfHist) (p : Pdf) (hr : h.run = some p) : Exact p.chunk.limits (pdfFacts h) := by
  match h with
  | .new pretty =>
    simp only [PdfHist.run, Option.some.injEq] at hr
    subst hr
    simp only [pdfFacts]; exact exact_new
  | .call h k =>
    simp only [PdfHist.run] at hr
    cases hh : h.run with
    | none => simp [hh] at hr
    | some q =>
      simp only [hh] at hr
      cases hk : k.run q.chunk with
      | none => simp [hk] at hr
      | some c =>
        simp only [hk, Option.some.injEq] at hr
        subst hr
        simp only [pdfFacts]
        obtain ⟨ps, hl, -⟩ := pdf_inv h q hh
        exact call_exact k q.chunk c _ _ hl hk (pdf_exact h q hh)
  | .setVersion h a b =>
    simp only [PdfHist.run] at hr
    cases hh : h.run with
    | none => simp [hh] at hr
    | some q =>
      simp only [hh, Option.some.injEq] at hr
      subst hr
      simp only [pdfFacts]; exact pdf_exact h q hh
  | .setBinaryMarker h a =>
    simp only [PdfHist.run] at hr
    cases hh : h.run with
    | none => simp [hh] at hr
    | some q =>
      simp only [hh, Option.some.injEq] at hr
      subst hr
      simp only [pdfFacts]; exact pdf_exact h q hh
  | .setFileId h a =>
    simp only [PdfHist.run] at hr
    cases hh : h.run with
    | none => simp [hh] at hr
    | some q =>
      simp only [hh, Option.some.injEq] at hr
      subst hr
      simp only [pdfFacts]; exact pdf_exact h q hh
  | .catalog h id es =>
    simp only [PdfHist.run] at hr
    cases hh : h.run with
    | none => simp [hh] at hr
    | some q =>
      simp only [hh, Option.some.injEq] at hr
      subst hr
      have hf := pdf_exact h q hh
      simp only [pdfFacts, Pdf.catalog, writeIndirect_eq, Chunk.limits]
      rw [itemFacts_eq ⟨id, .val (.dict ((b!"Type", .prim (.name b!"Catalog")) :: es)), true⟩]
      exact exact_regs hf _
  | .documentInfo h id es =>
    simp only [PdfHist.run] at hr
    cases hh : h.run with
    | none => simp [hh] at hr
    | some q =>
      simp only [hh, Option.some.injEq] at hr
      subst hr
      have hf := pdf_exact h q hh
      simp only [pdfFacts, Pdf.documentInfo, writeIndirect_eq, Chunk.limits]
      rw [itemFacts_eq ⟨id, .val (.dict es), true⟩]
      exact exact_regs hf _
termination_by structural h
end

end PdfW
