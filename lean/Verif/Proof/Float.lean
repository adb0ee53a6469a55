import Verif.Proof.Num
import Verif.Spec.Float

/-! # Lemmas: numbers round back -/

set_option linter.unusedSimpArgs false
set_option linter.unusedVariables false

namespace PdfW
open Spec
namespace F32

theorem scaled_succ (m : Nat) : scaled m < scaled (m + 1) := by
  unfold scaled
  by_cases h1 : m + 1 < 8388608
  · rw [if_pos h1, if_pos (by omega)]; omega
  · rw [if_neg h1]
    by_cases h2 : m < 8388608
    · have : m = 8388607 := by omega
      subst this; decide
    · rw [if_neg h2]
      by_cases h3 : m % 8388608 = 8388607
      · have e1 : (m + 1) % 8388608 = 0 := by omega
        have e2 : (m + 1) / 8388608 - 1 = (m / 8388608 - 1) + 1 := by omega
        rw [e1, e2, h3, Nat.pow_succ]
        have : 0 < 2 ^ (m / 8388608 - 1) := Nat.pow_pos (by decide)
        omega
      · have e1 : (m + 1) % 8388608 = m % 8388608 + 1 := by omega
        have e2 : (m + 1) / 8388608 = m / 8388608 := by omega
        rw [e1, e2]
        exact Nat.mul_lt_mul_of_pos_right (by omega) (Nat.pow_pos (by decide))

theorem scaled_lt {a b : Nat} (h : a < b) : scaled a < scaled b := by
  induction b with
  | zero => omega
  | succ b ih =>
    rcases Nat.lt_succ_iff_lt_or_eq.mp h with h | h
    · exact Nat.lt_trans (ih h) (scaled_succ b)
    · subst h; exact scaled_succ a

theorem scaled_le {a b : Nat} (h : a ≤ b) : scaled a ≤ scaled b := by
  rcases Nat.lt_or_eq_of_le h with h | h
  · exact Nat.le_of_lt (scaled_lt h)
  · subst h; exact Nat.le_refl _

theorem scaled_inj {a b : Nat} (h : scaled a = scaled b) : a = b := by
  rcases Nat.lt_trichotomy a b with h1 | h1 | h1
  · have := scaled_lt h1; omega
  · exact h1
  · have := scaled_lt h1; omega

theorem scaled_zero : scaled 0 = 0 := by decide

/-- The neighbour check decides correct rounding. -/
theorem roundsTo_spec (N D m : Nat) (hD : 0 < D) (hm : m < infMag) (h : roundsTo N D m = true) :
    RoundsTo N D m := by
  refine ⟨hm, fun m' hm' => ?_⟩
  unfold roundsTo at h
  simp only [Bool.and_eq_true, Bool.or_eq_true, decide_eq_true_eq, beq_iff_eq] at h
  obtain ⟨hup, hlo⟩ := h
  unfold dist
  generalize 2 ^ 149 = P at *
  rcases Nat.lt_trichotomy m' m with h1 | h1 | h1
  · have a1 : scaled m' < scaled m := scaled_lt h1
    have a2 : scaled m' ≤ scaled (m - 1) := scaled_le (by omega)
    have b1 : scaled m' * D < scaled m * D := Nat.mul_lt_mul_of_pos_right a1 hD
    have b2 : scaled m' * D ≤ scaled (m - 1) * D := Nat.mul_le_mul_right _ a2
    rw [Nat.add_mul] at hlo
    generalize scaled m' * D = X at *
    generalize scaled m * D = Y at *
    generalize scaled (m - 1) * D = Z at *
    generalize N * P = W at *
    refine ⟨by omega, ?_⟩
    omega
  · subst h1
    exact ⟨Nat.le_refl _, fun h => absurd rfl h⟩
  · have a1 : scaled m < scaled m' := scaled_lt h1
    have a2 : scaled (m + 1) ≤ scaled m' := scaled_le (by omega)
    have b1 : scaled m * D < scaled m' * D := Nat.mul_lt_mul_of_pos_right a1 hD
    have b2 : scaled (m + 1) * D ≤ scaled m' * D := Nat.mul_le_mul_right _ a2
    rw [Nat.add_mul] at hup
    generalize scaled m' * D = X at *
    generalize scaled m * D = Y at *
    generalize scaled (m + 1) * D = Z at *
    generalize N * P = W at *
    refine ⟨by omega, ?_⟩
    omega

theorem dist_scale (N D c m : Nat) : dist (N * c) (D * c) m = dist N D m * c := by
  unfold dist
  have h1 : N * c * 2 ^ 149 = N * 2 ^ 149 * c := by rw [Nat.mul_right_comm]
  have h2 : scaled m * (D * c) = scaled m * D * c := by rw [Nat.mul_assoc]
  rw [h1, h2]
  generalize N * 2 ^ 149 = A
  generalize scaled m * D = B
  have : ((A * c : Nat) : Int) - ((B * c : Nat) : Int) = ((A : Int) - (B : Int)) * (c : Int) := by
    push_cast; rw [Int.sub_mul]
  rw [this, Int.natAbs_mul, Int.natAbs_natCast]

theorem RoundsTo_scale {N D m : Nat} (c : Nat) (hc : 0 < c) (h : RoundsTo N D m) :
    RoundsTo (N * c) (D * c) m := by
  refine ⟨h.1, fun m' hm' => ?_⟩
  rw [dist_scale, dist_scale]
  obtain ⟨h1, h2⟩ := h.2 m' hm'
  exact ⟨Nat.mul_le_mul_right _ h1, fun hne heq => h2 hne (Nat.eq_of_mul_eq_mul_right hc heq)⟩

/-! ## Shortest digits -/

theorem decDen_pos (i : Nat) : 0 < decDen i := by
  unfold decDen; split
  · decide
  · exact Nat.pow_pos (by decide)

theorem exact_last (m : Nat) (hm : 0 < m) :
    roundsTo (decNum (roundDiv (unitNum m 187) (unitDen 187)) 187) (decDen 187) m = true := by
  have e1 : roundDiv (unitNum m 187) (unitDen 187) = scaled m * 5 ^ 149 := by
    have u1 : unitNum m 187 = scaled m * 10 ^ (187 - 38) := if_neg (by decide)
    have u2 : unitDen 187 = 2 ^ 149 := if_neg (by decide)
    rw [u1, u2]
    unfold roundDiv
    have : (10 : Nat) ^ (187 - 38) = 5 ^ 149 * 2 ^ 149 := by decide +kernel
    rw [this]
    have hP : (0 : Nat) < 2 ^ 149 := by decide +kernel
    generalize (2 : Nat) ^ 149 = P at *
    generalize (5 : Nat) ^ 149 = Q
    have e : scaled m * (Q * P) = scaled m * Q * P := by ac_rfl
    rw [e, Nat.mul_mod_left, Nat.mul_div_cancel _ hP, if_pos (by omega)]
  have e2 : decDen 187 = 5 ^ 149 * 2 ^ 149 := by decide +kernel
  unfold roundsTo decNum
  rw [if_neg (by decide), e1, e2]
  have hP : (0 : Nat) < 2 ^ 149 := by decide +kernel
  have hQ : (0 : Nat) < 5 ^ 149 := by decide +kernel
  generalize (2 : Nat) ^ 149 = P at *
  generalize (5 : Nat) ^ 149 = Q at *
  have hR : 0 < Q * P := Nat.mul_pos hQ hP
  simp only [Bool.and_eq_true, Bool.or_eq_true, decide_eq_true_eq, beq_iff_eq]
  rw [Nat.mul_assoc (scaled m), ← Nat.mul_assoc 2]
  constructor
  · left
    apply Nat.mul_lt_mul_of_pos_right _ hR
    have := scaled_succ m; omega
  · left; right
    apply Nat.mul_lt_mul_of_pos_right _ hR
    have := scaled_lt (show m - 1 < m by omega); omega

theorem shortestFrom_spec (m : Nat) (hm : 0 < m) (fuel i : Nat) (h : i + fuel = 187) :
    roundsTo (decNum (shortestFrom m fuel i).1 (shortestFrom m fuel i).2) (decDen (shortestFrom m fuel i).2) m = true
    ∧ (shortestFrom m fuel i).2 ≤ 187 := by
  induction fuel generalizing i with
  | zero =>
    have : i = 187 := by omega
    subst this
    exact ⟨exact_last m hm, Nat.le_refl _⟩
  | succ fuel ih =>
    rw [shortestFrom]
    split
    · rename_i h'; exact ⟨h', by simp; omega⟩
    · split
      · rename_i h'; exact ⟨h', by simp; omega⟩
      · exact ih (i + 1) (by omega)

theorem shortest_roundsTo (m : Nat) (hm : 0 < m) :
    roundsTo (decNum (shortest m).1 (shortest m).2) (decDen (shortest m).2) m = true :=
  (shortestFrom_spec m hm 187 0 rfl).1

theorem shortest_pos (m : Nat) (hm : 0 < m) : 0 < (shortest m).1 := by
  have h := shortest_roundsTo m hm
  rcases Nat.eq_zero_or_pos (shortest m).1 with h0 | h0
  · exfalso
    rw [h0] at h
    have : decNum 0 (shortest m).2 = 0 := by unfold decNum; simp
    rw [this] at h
    unfold roundsTo at h
    simp only [Bool.and_eq_true, Bool.or_eq_true, decide_eq_true_eq, beq_iff_eq, Nat.zero_mul, Nat.mul_zero] at h
    have := decDen_pos (shortest m).2
    have hs : 0 < scaled m := by
      have := scaled_lt hm
      omega
    have : 0 < (scaled (m - 1) + scaled m) * decDen (shortest m).2 := Nat.mul_pos (by omega) this
    omega
  · exact h0

/-! ## Reading decimal numbers -/

end F32

theorem digitsVal_append (a b : Bytes) : digitsVal (a ++ b) = digitsVal a * 10 ^ b.length + digitsVal b := by
  unfold digitsVal
  rw [List.foldl_append]
  generalize List.foldl (fun a d => a * 10 + (UInt8.toNat d - 48)) 0 a = x
  have gen : ∀ (b : Bytes) (x y : Nat), List.foldl (fun a d => a * 10 + (UInt8.toNat d - 48)) (x + y) b =
      x * 10 ^ b.length + List.foldl (fun a d => a * 10 + (UInt8.toNat d - 48)) y b := by
    intro b
    induction b with
    | nil => simp
    | cons d b ih =>
      intro x y
      simp only [List.foldl_cons, List.length_cons]
      rw [show (x + y) * 10 + (d.toNat - 48) = x * 10 + (y * 10 + (d.toNat - 48)) by omega, ih, Nat.pow_succ]
      congr 1
      ac_rfl
  have := gen b x 0
  simpa using this

theorem digitsVal_replicate_zero (k : Nat) : digitsVal (List.replicate k 48) = 0 := by
  have := digitsVal_zeros k []
  simpa [digitsVal] using this

theorem digitsVal_lt (ds : Bytes) (h : ds.all isDigit = true) : digitsVal ds < 10 ^ ds.length := by
  have dig : ∀ b : UInt8, isDigit b = true → b.toNat - 48 < 10 := forall_byte (by decide +kernel)
  induction ds with
  | nil => simp [digitsVal]
  | cons d ds ih =>
    rw [List.all_cons, Bool.and_eq_true] at h
    have h1 := ih h.2
    have h3 := dig d h.1
    have e := digitsVal_append [d] ds
    rw [List.singleton_append] at e
    rw [e]
    have : digitsVal [d] = d.toNat - 48 := by simp [digitsVal]
    rw [this, List.length_cons, Nat.pow_succ]
    have : (d.toNat - 48) * 10 ^ ds.length ≤ 9 * 10 ^ ds.length := Nat.mul_le_mul_right _ (by omega)
    omega

theorem natBytes_lt (n : Nat) : n < 10 ^ (natBytes n).length := by
  have := digitsVal_lt _ (natBytes_digits n)
  rwa [digitsVal_natBytes] at this

theorem natBytes_ge (n : Nat) (hn : 0 < n) : 10 ^ ((natBytes n).length - 1) ≤ n := by
  rcases Nat.lt_or_ge n (10 ^ ((natBytes n).length - 1)) with h | h
  · exfalso
    rcases Nat.eq_zero_or_pos ((natBytes n).length - 1) with h0 | h0
    · rw [h0] at h; simp at h; omega
    · have := natBytes_length_le n _ h0 h
      have h2 : (natBytes n).length ≠ 0 := by simp [natBytes_ne_nil]
      omega
  · exact h

theorem takeWhile_digit_dot (ip fp : Bytes) (h1 : ip.all isDigit = true) :
    (ip ++ 46 :: fp).takeWhile isDigit = ip ∧ (ip ++ 46 :: fp).dropWhile isDigit = 46 :: fp := by
  induction ip with
  | nil => simp [isDigit]
  | cons x xs ih =>
    simp only [List.all_cons, Bool.and_eq_true] at h1
    simp [h1.1, ih h1.2]

theorem readUnsigned_decimal (neg : Bool) (ip fp : Bytes) (h1 : ip.all isDigit = true) (h2 : fp.all isDigit = true)
    (hne : ip ≠ []) :
    readUnsigned neg (ip ++ 46 :: fp) = some (.real (applySign neg (digitsVal (ip ++ fp))) fp.length) := by
  obtain ⟨e1, e2⟩ := takeWhile_digit_dot ip fp h1
  unfold readUnsigned
  simp only [e1, e2, h2]
  simp [hne]

theorem readNumber_signed (neg : Bool) (body : Bytes) (h : ∃ b r, body = b :: r ∧ isDigit b = true) :
    readNumber ((if neg then b!"-" else []) ++ body) = readUnsigned neg body := by
  obtain ⟨b, r, rfl, hb⟩ := h
  obtain ⟨-, f2, f3, -, -⟩ := digit_facts b hb
  cases neg <;> simp [readNumber, f2, f3]

namespace F32

/-- Characters of decimal numbers. -/
def isDec (b : UInt8) : Bool := isDigit b || b == 46

theorem isDec_of_digits (ds : Bytes) (h : ds.all isDigit = true) : ds.all isDec = true := by
  rw [List.all_eq_true] at h ⊢
  intro b hb; simp [isDec, h b hb]

theorem head_digit (ds : Bytes) (h : ds.all isDigit = true) (hne : ds ≠ []) (rest : Bytes) :
    ∃ b r, ds ++ rest = b :: r ∧ isDigit b = true := by
  cases ds with
  | nil => simp at hne
  | cons b r => simp at h; exact ⟨b, r ++ rest, rfl, h.1⟩

theorem zeros_digits (k : Nat) : (List.replicate k (48 : UInt8)).all isDigit = true := by
  simp [List.all_replicate, isDigit]

theorem all_take (p : UInt8 → Bool) (xs : Bytes) (n : Nat) (h : xs.all p = true) : (xs.take n).all p = true := by
  rw [List.all_eq_true] at h ⊢
  intro b hb; exact h b (List.mem_of_mem_take hb)

theorem all_drop (p : UInt8 → Bool) (xs : Bytes) (n : Nat) (h : xs.all p = true) : (xs.drop n).all p = true := by
  rw [List.all_eq_true] at h ⊢
  intro b hb; exact h b (List.mem_of_mem_drop hb)

/-- The value read from a layout without exponent. -/
def layoutTok (neg : Bool) (d : Nat) (k : Int) : Tok :=
  if 0 ≤ k then .real (applySign neg (d * 10 ^ k.toNat * 10)) 1 else .real (applySign neg d) (-k).toNat

theorem case_mid (neg : Bool) (d : Nat) (k : Int) (hk : k < 0) (hkk : 0 < ((natBytes d).length : Int) + k) :
    readUnsigned neg ((natBytes d).take (((natBytes d).length : Int) + k).toNat ++ 46 :: (natBytes d).drop (((natBytes d).length : Int) + k).toNat)
      = some (.real (applySign neg d) (-k).toNat) := by
  have hd := natBytes_digits d
  rw [readUnsigned_decimal _ _ _ (all_take _ _ _ hd) (all_drop _ _ _ hd), List.take_append_drop, digitsVal_natBytes]
  · simp only [List.length_drop]; congr 3; omega
  · intro h
    rw [List.take_eq_nil_iff] at h
    rcases h with h | h
    · omega
    · exact natBytes_ne_nil d h

theorem case_low (neg : Bool) (d : Nat) (k : Int) (hkk : ((natBytes d).length : Int) + k ≤ 0) :
    readUnsigned neg (b!"0." ++ List.replicate (-(((natBytes d).length : Int) + k)).toNat ch!"0" ++ natBytes d)
      = some (.real (applySign neg d) (-k).toNat) := by
  have hd := natBytes_digits d
  have h2 : (List.replicate (-(((natBytes d).length : Int) + k)).toNat ch!"0" ++ natBytes d).all isDigit = true := by
    rw [List.all_append, zeros_digits, hd]; rfl
  have := readUnsigned_decimal neg [48] (List.replicate (-(((natBytes d).length : Int) + k)).toNat ch!"0" ++ natBytes d)
    (by decide) h2 (by simp)
  simp only [List.cons_append, List.nil_append, List.append_assoc] at this ⊢
  rw [this]
  have e : digitsVal (48 :: (List.replicate (-(((natBytes d).length : Int) + k)).toNat 48 ++ natBytes d)) = d := by
    have := digitsVal_zeros ((-(((natBytes d).length : Int) + k)).toNat + 1) (natBytes d)
    rw [List.replicate_succ, digitsVal_natBytes] at this
    exact this
  rw [e]
  simp only [List.length_append, List.length_replicate]
  congr 2; omega

theorem ryuLayout_read (neg : Bool) (d : Nat) (k : Int)
    (h1 : -6 < ((natBytes d).length : Int) + k) (h2 : ((natBytes d).length : Int) + k ≤ 13) :
    readUnsigned neg (ryuLayout d k) = some (layoutTok neg d k) := by
  have hd := natBytes_digits d
  unfold ryuLayout layoutTok
  simp only
  by_cases hk : 0 ≤ k
  · rw [if_pos ⟨hk, h2⟩, if_pos hk]
    have := readUnsigned_decimal neg (natBytes d ++ List.replicate k.toNat 48) [48]
      (by rw [List.all_append, zeros_digits, hd]; rfl) (by decide) (by simp [natBytes_ne_nil])
    rw [this, digitsVal_append, digitsVal_append, digitsVal_natBytes, digitsVal_replicate_zero]
    simp [digitsVal]
  · rw [if_neg (by omega), if_neg hk]
    by_cases hkk : 0 < ((natBytes d).length : Int) + k
    · rw [if_pos ⟨hkk, h2⟩]
      have := case_mid neg d k (by omega) hkk
      simpa using this
    · rw [if_neg (by omega), if_pos (by omega)]
      exact case_low neg d k (by omega)

theorem ryuLayout_head (d : Nat) (k : Int) : ∃ b r, ryuLayout d k = b :: r ∧ isDigit b = true := by
  have hd := natBytes_digits d
  have hne := natBytes_ne_nil d
  have hz : isDigit 48 = true := by decide
  unfold ryuLayout
  simp only
  split
  · rw [List.append_assoc]; exact head_digit _ hd hne _
  · split
    · rename_i h
      rw [List.append_assoc]
      refine head_digit _ (all_take _ _ _ hd) ?_ _
      simp [hne]; omega
    · split
      · exact ⟨48, _, rfl, hz⟩
      · split
        · rw [List.append_assoc]; exact head_digit _ hd hne _
        · simp only [List.append_assoc]
          exact head_digit _ (all_take _ _ _ hd) (by simp [hne]) _

theorem ryuLayout_dec (d : Nat) (k : Int)
    (h1 : -6 < ((natBytes d).length : Int) + k) (h2 : ((natBytes d).length : Int) + k ≤ 13) :
    (ryuLayout d k).all isDec = true := by
  have hd := isDec_of_digits _ (natBytes_digits d)
  have hz := fun k => isDec_of_digits _ (zeros_digits k)
  unfold ryuLayout
  simp only
  split
  · simp only [List.all_append, hd, hz]; decide
  · split
    · simp only [List.all_append, all_take _ _ _ hd, all_drop _ _ _ hd]; decide
    · split
      · simp only [List.all_append, hd, hz]; decide
      · omega

theorem displayLayout_read (neg : Bool) (d : Nat) (k : Int) :
    readUnsigned neg (displayLayout d k) = some (if 0 ≤ k then .int (applySign neg (d * 10 ^ k.toNat)) else layoutTok neg d k) := by
  have hd := natBytes_digits d
  have hlen : 0 < (natBytes d).length := by
    have := natBytes_ne_nil d
    exact List.length_pos_iff.mpr this
  unfold displayLayout layoutTok
  simp only
  by_cases hk : 0 ≤ k
  · rw [if_neg (by omega), if_neg (by omega), if_pos hk]
    rw [readUnsigned_digits _ _ (by rw [List.all_append, zeros_digits, hd]; rfl) (by simp [natBytes_ne_nil])]
    rw [digitsVal_append, digitsVal_natBytes, digitsVal_replicate_zero]
    simp
    congr 3; omega
  · rw [if_neg hk]
    by_cases hkk : 0 < ((natBytes d).length : Int) + k
    · rw [if_neg (by omega), if_pos (by omega), if_neg hk]
      have := case_mid neg d k (by omega) hkk
      simpa using this
    · rw [if_pos (by omega), if_neg hk]
      exact case_low neg d k (by omega)

theorem displayLayout_head (d : Nat) (k : Int) : ∃ b r, displayLayout d k = b :: r ∧ isDigit b = true := by
  have hd := natBytes_digits d
  have hne := natBytes_ne_nil d
  have hz : isDigit 48 = true := by decide
  unfold displayLayout
  simp only
  split
  · exact ⟨48, _, rfl, hz⟩
  · split
    · rw [List.append_assoc]
      refine head_digit _ (all_take _ _ _ hd) ?_ _
      simp [hne]; omega
    · exact head_digit _ hd hne _

theorem displayLayout_dec (d : Nat) (k : Int) : (displayLayout d k).all isDec = true := by
  have hd := isDec_of_digits _ (natBytes_digits d)
  have hz := fun k => isDec_of_digits _ (zeros_digits k)
  unfold displayLayout
  simp only
  split
  · simp only [List.all_append, hd, hz]; decide
  · split
    · simp only [List.all_append, all_take _ _ _ hd, all_drop _ _ _ hd]; decide
    · simp only [List.all_append, hd, hz]; decide

/-! ## The range in which `ryu` writes no exponent -/

theorem point_upper (d i : Nat) (hd : 0 < d) (h : decNum d i < 10 ^ 12 * decDen i) :
    ((natBytes d).length : Int) + (38 - (i : Int)) ≤ 13 := by
  have hge := natBytes_ge d hd
  have hlen : 0 < (natBytes d).length := List.length_pos_iff.mpr (natBytes_ne_nil d)
  unfold decNum decDen at h
  by_cases hi : i ≤ 38
  · rw [if_pos hi, if_pos hi, Nat.mul_one] at h
    have h1 : 10 ^ ((natBytes d).length - 1 + (38 - i)) < 10 ^ 12 := by
      rw [Nat.pow_add]
      exact Nat.lt_of_le_of_lt (Nat.mul_le_mul_right _ hge) h
    have h2 := (Nat.pow_lt_pow_iff_right (by decide)).mp h1
    omega
  · rw [if_neg hi, if_neg hi, ← Nat.pow_add] at h
    have h2 := (Nat.pow_lt_pow_iff_right (by decide)).mp (Nat.lt_of_le_of_lt hge h)
    omega

theorem point_lower (d i : Nat) (h : decDen i < decNum d i * 10 ^ 6) :
    -6 < ((natBytes d).length : Int) + (38 - (i : Int)) := by
  have hlen : 0 < (natBytes d).length := List.length_pos_iff.mpr (natBytes_ne_nil d)
  unfold decNum decDen at h
  by_cases hi : i ≤ 38
  · omega
  · rw [if_neg hi, if_neg hi] at h
    have h1 : 10 ^ (i - 38) < 10 ^ ((natBytes d).length + 6) := by
      rw [Nat.pow_add]
      exact Nat.lt_trans h (Nat.mul_lt_mul_of_pos_right (natBytes_lt d) (by decide))
    have h2 := (Nat.pow_lt_pow_iff_right (by decide)).mp h1
    omega

theorem c1e12_scaled : scaled 1399379109 < 10 ^ 12 * 2 ^ 149 := by decide +kernel
theorem c1em6_scaled : 2 * 2 ^ 149 < (scaled 897988541 + scaled 897988542) * 10 ^ 6 := by decide +kernel

theorem ryu_range (m : Nat) (h1 : 897988541 < m) (h2 : m < 1399379109) :
    -6 < ((natBytes (shortest m).1).length : Int) + (38 - ((shortest m).2 : Int)) ∧
    ((natBytes (shortest m).1).length : Int) + (38 - ((shortest m).2 : Int)) ≤ 13 := by
  have hr := shortest_roundsTo m (by omega)
  have hpos := shortest_pos m (by omega)
  generalize shortest m = s at *
  obtain ⟨d, i⟩ := s
  simp only at *
  have hD := decDen_pos i
  have pl := point_lower d i
  have pu := point_upper d i hpos
  unfold roundsTo at hr
  simp only [Bool.and_eq_true, Bool.or_eq_true, decide_eq_true_eq, beq_iff_eq] at hr
  obtain ⟨hup, hlo⟩ := hr
  have u1 : scaled m ≤ scaled 1399379109 := scaled_le (by omega)
  have u2 : scaled (m + 1) ≤ scaled 1399379109 := scaled_le (by omega)
  have l1 : scaled 897988541 ≤ scaled (m - 1) := scaled_le (by omega)
  have l2 : scaled 897988542 ≤ scaled m := scaled_le (by omega)
  have c1 := c1e12_scaled
  have c2 := c1em6_scaled
  have hP : (0 : Nat) < 2 ^ 149 := by decide +kernel
  generalize (2 : Nat) ^ 149 = P at *
  generalize decNum d i = N at *
  generalize decDen i = D at *
  generalize scaled 1399379109 = A at *
  generalize scaled 897988541 = B at *
  generalize scaled 897988542 = C at *
  generalize scaled m = X at *
  generalize scaled (m + 1) = Y at *
  generalize scaled (m - 1) = Z at *
  constructor
  · apply pl
    have q1 : (B + C) * D ≤ 2 * (N * P) := by
      have : (B + C) * D ≤ (Z + X) * D := Nat.mul_le_mul_right _ (by omega)
      omega
    have q2 : 2 * P * D < (B + C) * 10 ^ 6 * D := Nat.mul_lt_mul_of_pos_right c2 hD
    have q3 : (B + C) * D * 10 ^ 6 ≤ 2 * (N * P) * 10 ^ 6 := Nat.mul_le_mul_right _ q1
    have q4 : (B + C) * 10 ^ 6 * D = (B + C) * D * 10 ^ 6 := by ac_rfl
    have q5 : D * (2 * P) < N * 10 ^ 6 * (2 * P) := by
      have e1 : D * (2 * P) = 2 * P * D := by ac_rfl
      have e2 : N * 10 ^ 6 * (2 * P) = 2 * (N * P) * 10 ^ 6 := by ac_rfl
      omega
    exact Nat.lt_of_mul_lt_mul_right q5
  · apply pu
    have q1 : 2 * (N * P) ≤ 2 * A * D := by
      have : (X + Y) * D ≤ 2 * A * D := Nat.mul_le_mul_right _ (by omega)
      omega
    have q2 : 2 * A * D < 2 * (10 ^ 12 * P) * D := Nat.mul_lt_mul_of_pos_right (by omega) hD
    have q3 : N * (2 * P) < 10 ^ 12 * D * (2 * P) := by
      have e1 : N * (2 * P) = 2 * (N * P) := by ac_rfl
      have e2 : 10 ^ 12 * D * (2 * P) = 2 * (10 ^ 12 * P) * D := by ac_rfl
      omega
    exact Nat.lt_of_mul_lt_mul_right q3

/-! ## Integers to floats -/

theorem scaled_form (E q : Nat) (h1 : 8388608 ≤ q) (h2 : q ≤ 16777216) :
    scaled (E * 8388608 + q) = q * 2 ^ E := by
  unfold scaled
  rw [if_neg (by omega)]
  by_cases h : q = 16777216
  · subst h
    have e1 : (E * 8388608 + 16777216) % 8388608 = 0 := by omega
    have e2 : (E * 8388608 + 16777216) / 8388608 - 1 = E + 1 := by omega
    rw [e1, e2, show 2 ^ (E + 1) = 2 ^ E * 2 from Nat.pow_succ 2 E]; omega
  · have e1 : (E * 8388608 + q) % 8388608 = q - 8388608 := by omega
    have e2 : (E * 8388608 + q) / 8388608 - 1 = E := by omega
    rw [e1, e2, show 8388608 + (q - 8388608) = q by omega]

theorem roundsTo_of_exact (N m : Nat) (h : scaled m = N * 2 ^ 149) : roundsTo N 1 m = true := by
  unfold roundsTo
  simp only [Bool.and_eq_true, Bool.or_eq_true, decide_eq_true_eq, beq_iff_eq, Nat.mul_one, ← h]
  have := scaled_succ m
  refine ⟨by omega, ?_⟩
  by_cases hm : m = 0
  · simp [hm]
  · have := scaled_lt (show m - 1 < m by omega)
    omega

theorem magOfNat_spec (n : Nat) (hn : n ≤ 2147483648) :
    roundsTo n 1 (magOfNat n) = true ∧ magOfNat n ≤ 1325400064 := by
  unfold magOfNat
  by_cases h0 : n = 0
  · subst h0
    exact ⟨by decide +kernel, by decide⟩
  · rw [if_neg h0]
    have g1 : 2 ^ n.log2 ≤ n := Nat.log2_self_le h0
    have g2 : n < 2 ^ (n.log2 + 1) := Nat.lt_log2_self
    have g3 : n.log2 ≤ 31 := by
      have : n.log2 < 32 := (Nat.log2_lt h0).mpr (by omega)
      omega
    generalize n.log2 = e at *
    simp only
    by_cases he : e ≤ 23
    · rw [if_pos he]
      have k1 : 2 ^ 23 ≤ n * 2 ^ (23 - e) := by
        have : 2 ^ 23 = 2 ^ e * 2 ^ (23 - e) := by rw [← Nat.pow_add]; congr 1; omega
        rw [this]; exact Nat.mul_le_mul_right _ g1
      have k2 : n * 2 ^ (23 - e) < 2 ^ 24 := by
        have : 2 ^ 24 = 2 ^ (e + 1) * 2 ^ (23 - e) := by rw [← Nat.pow_add]; congr 1; omega
        rw [this]; exact Nat.mul_lt_mul_of_pos_right g2 (Nat.pow_pos (by decide))
      constructor
      · apply roundsTo_of_exact
        rw [scaled_form _ _ (by omega) (by omega), Nat.mul_assoc, ← Nat.pow_add]
        congr 2; omega
      · omega
    · rw [if_neg he]
      obtain ⟨s, hs, hs8⟩ : ∃ s, e = 23 + s ∧ s ≤ 8 := ⟨e - 23, by omega, by omega⟩
      subst hs
      have es : 23 + s - 23 = s := by omega
      rw [es]
      have hS : 0 < 2 ^ s := Nat.pow_pos (by decide)
      rw [show 23 + s + 1 = 24 + s by omega, Nat.pow_add] at g2
      rw [Nat.pow_add] at g1
      have q1 : 8388608 ≤ n / 2 ^ s := (Nat.le_div_iff_mul_le hS).mpr (by simpa using g1)
      have q2 : n / 2 ^ s < 16777216 := (Nat.div_lt_iff_lt_mul hS).mpr (by simpa using g2)
      have q3 : n = 2 ^ s * (n / 2 ^ s) + n % 2 ^ s := (Nat.div_add_mod n (2 ^ s)).symm
      have q4 : n % 2 ^ s < 2 ^ s := Nat.mod_lt _ hS
      have hE : 2 ^ (23 + s + 126) = 2 ^ s * 2 ^ 149 := by rw [← Nat.pow_add]; congr 1; omega
      have sc : ∀ q, 8388608 ≤ q → q ≤ 16777216 → scaled ((23 + s + 126) * 8388608 + q) = 2 ^ s * q * 2 ^ 149 := by
        intro q a b
        rw [scaled_form _ _ a b, hE]; ac_rfl
      have hlast : n / 2 ^ s + 1 ≤ 16777216 := by omega
      have sc0 := sc _ q1 (by omega)
      have sc1 := sc _ (show 8388608 ≤ n / 2 ^ s + 1 by omega) hlast
      have hbound : (23 + s + 126) * 8388608 + roundShift n s ≤ 1325400064 := by
        -- for s = 8 the quotient is exactly 2^23
        have : roundShift n s ≤ n / 2 ^ s + 1 := by
          unfold roundShift; simp only; split
          · omega
          · split
            · omega
            · omega
        by_cases h8 : s = 8
        · subst h8
          have : n / 2 ^ 8 = 8388608 := by omega
          have h5 : n % 2 ^ 8 = 0 := by omega
          unfold roundShift; simp only [this, h5]; decide
        · have k7 : s ≤ 7 := by omega
          clear sc sc0 sc1 hE
          generalize n / 2 ^ s = q at *
          generalize roundShift n s = r at *
          clear q3 q4 g1 g2 hS
          omega
      refine ⟨?_, hbound⟩
      have down : 2 * (n % 2 ^ s) < 2 ^ s ∨ (2 * (n % 2 ^ s) = 2 ^ s ∧ (n / 2 ^ s) % 2 = 0) →
          roundsTo n 1 ((23 + s + 126) * 8388608 + n / 2 ^ s) = true := by
        intro hc
        have nb := scaled_lt (show (23 + s + 126) * 8388608 + n / 2 ^ s - 1 < (23 + s + 126) * 8388608 + n / 2 ^ s by omega)
        unfold roundsTo
        simp only [Bool.and_eq_true, Bool.or_eq_true, decide_eq_true_eq, beq_iff_eq, Nat.mul_one]
        rw [show (23 + s + 126) * 8388608 + n / 2 ^ s + 1 = (23 + s + 126) * 8388608 + (n / 2 ^ s + 1) by omega]
        have par : ((23 + s + 126) * 8388608 + n / 2 ^ s) % 2 = (n / 2 ^ s) % 2 := by omega
        rw [par]
        rw [sc0] at nb ⊢
        rw [sc1]
        have hP : (0 : Nat) < 2 ^ 149 := by decide +kernel
        generalize (2 : Nat) ^ 149 = P at *
        obtain ⟨Z, hZ⟩ : ∃ Z, scaled ((23 + s + 126) * 8388608 + n / 2 ^ s - 1) = Z := ⟨_, rfl⟩
        rw [hZ] at nb ⊢
        clear hZ
        generalize n / 2 ^ s = q at *
        generalize n % 2 ^ s = r at *
        generalize 2 ^ s = S at *
        rw [show n * P = S * q * P + r * P by rw [← Nat.add_mul, ← q3],
          show S * (q + 1) * P = S * q * P + S * P by rw [Nat.mul_add S q 1, Nat.add_mul, Nat.mul_one]]
        have m1 : 2 * r < S → 2 * (r * P) < S * P := by
          intro h; have := Nat.mul_lt_mul_of_pos_right h hP; rw [Nat.mul_assoc] at this; exact this
        have m2 : 2 * r = S → 2 * (r * P) = S * P := by
          intro h; rw [← h, Nat.mul_assoc]
        generalize S * q * P = U at *
        generalize r * P = V at *
        generalize S * P = W at *
        omega
      have upw : 2 ^ s < 2 * (n % 2 ^ s) ∨ (2 * (n % 2 ^ s) = 2 ^ s ∧ (n / 2 ^ s) % 2 = 1) →
          roundsTo n 1 ((23 + s + 126) * 8388608 + (n / 2 ^ s + 1)) = true := by
        intro hc
        have nb := scaled_succ ((23 + s + 126) * 8388608 + (n / 2 ^ s + 1))
        unfold roundsTo
        simp only [Bool.and_eq_true, Bool.or_eq_true, decide_eq_true_eq, beq_iff_eq, Nat.mul_one]
        rw [show (23 + s + 126) * 8388608 + (n / 2 ^ s + 1) - 1 = (23 + s + 126) * 8388608 + n / 2 ^ s by omega]
        have par : ((23 + s + 126) * 8388608 + (n / 2 ^ s + 1)) % 2 = (n / 2 ^ s + 1) % 2 := by omega
        rw [par]
        rw [sc1] at nb ⊢
        rw [sc0]
        have hP : (0 : Nat) < 2 ^ 149 := by decide +kernel
        generalize (2 : Nat) ^ 149 = P at *
        obtain ⟨Z, hZ⟩ : ∃ Z, scaled ((23 + s + 126) * 8388608 + (n / 2 ^ s + 1) + 1) = Z := ⟨_, rfl⟩
        rw [hZ] at nb ⊢
        clear hZ
        generalize n / 2 ^ s = q at *
        generalize n % 2 ^ s = r at *
        generalize 2 ^ s = S at *
        rw [show S * (q + 1) * P = S * q * P + S * P by rw [Nat.mul_add S q 1, Nat.add_mul, Nat.mul_one]] at nb ⊢
        rw [show n * P = S * q * P + r * P by rw [← Nat.add_mul, ← q3]]
        have m1 : S < 2 * r → S * P < 2 * (r * P) := by
          intro h; have := Nat.mul_lt_mul_of_pos_right h hP; rw [Nat.mul_assoc 2] at this; exact this
        have m2 : 2 * r = S → 2 * (r * P) = S * P := by
          intro h; rw [← h, Nat.mul_assoc]
        have m3 : r * P < S * P := Nat.mul_lt_mul_of_pos_right q4 hP
        generalize S * q * P = U at *
        generalize r * P = V at *
        generalize S * P = W at *
        omega
      unfold roundShift
      simp only
      split
      · exact down (by omega)
      · split
        · exact upw (by omega)
        · by_cases hq : (n / 2 ^ s) % 2 = 0
          · rw [hq]; exact down (by omega)
          · rw [show (n / 2 ^ s) % 2 = 1 by omega]; exact upw (by omega)

/-! ## What `push_decimal` and `push_float` write -/

/-- Spelling of `push_decimal`. -/
def decimalBytes (v : F32) : Bytes :=
  if v.eq zero || (c1em6.lt v.abs && v.abs.lt c1e12) then v.ryuFormat else v.displayFormat

/-- Does `push_float` take the integer path? -/
def isIntegral (v : F32) : Bool := (ofI32 v.toI32).eq v

/-- Spelling of `push_float`. -/
def realBytes (v : F32) : Bytes := if v.isIntegral then intBytes v.toI32 else decimalBytes v

/-- Limits after `push_float`. -/
def realLimits (v : F32) (l : Limits) : Limits :=
  if v.isIntegral then l.registerInt v.toI32 else l.registerReal v

end F32

theorem pushDecimal_eq (b : Buf) (v : F32) :
    b.pushDecimal v = ⟨b.inner ++ v.decimalBytes, b.limits.registerReal v⟩ := by
  unfold Buf.pushDecimal F32.decimalBytes
  simp only
  split <;> simp [Buf.extend]

theorem pushInt_eq (b : Buf) (v : Int) : b.pushInt v = ⟨b.inner ++ intBytes v, b.limits.registerInt v⟩ := by
  simp [Buf.pushInt, Buf.extend]

theorem pushFloat_eq (b : Buf) (v : F32) : b.pushFloat v = ⟨b.inner ++ v.realBytes, v.realLimits b.limits⟩ := by
  unfold Buf.pushFloat F32.realBytes F32.realLimits F32.isIntegral
  split <;> simp [pushInt_eq, pushDecimal_eq]

namespace F32

/-- Tokens of numbers as values. -/
def tokVal : Tok → Val
  | .int n => .int n
  | .real m s => .real m s
  | _ => .null

/-- A spelling of `v`: characters are digits, points and a minus sign; it is read as a number whose value
rounds to `v`. -/
def Spells (v : F32) (bs : Bytes) : Prop :=
  bs.all (fun b => isDec b || b == 45) = true ∧ bs ≠ [] ∧
  ∃ t, readNumber bs = some t ∧ ((∃ n, t = .int n) ∨ (∃ m s, t = .real m s)) ∧ NumIs v (tokVal t)

theorem all_sign (neg : Bool) (body : Bytes) (h : body.all isDec = true) :
    ((if neg then b!"-" else []) ++ body).all (fun b => isDec b || b == 45) = true := by
  rw [List.all_append]
  have : body.all (fun b => isDec b || b == 45) = true := by
    rw [List.all_eq_true] at h ⊢
    intro b hb; simp [h b hb]
  rw [this]
  cases neg <;> decide

theorem applySign_natAbs (neg : Bool) (n : Nat) : (applySign neg n).natAbs = n := by
  cases neg <;> simp [applySign]

theorem applySign_sign (neg : Bool) (n : Nat) (h : applySign neg n ≠ 0) : neg = decide (applySign neg n < 0) := by
  cases neg <;> simp [applySign] at * <;> omega

theorem RoundsTo_shortest (m : Nat) (h0 : 0 < m) (hm : m < infMag) :
    RoundsTo (decNum (shortest m).1 (shortest m).2) (decDen (shortest m).2) m :=
  roundsTo_spec _ _ _ (decDen_pos _) hm (shortest_roundsTo m h0)

theorem NumIs_layoutTok (v : F32) (h0 : 0 < v.mag.val) (hm : v.mag.val < infMag) :
    NumIs v (tokVal (layoutTok v.neg (shortest v.mag.val).1 (38 - ((shortest v.mag.val).2 : Int)))) := by
  have hr := RoundsTo_shortest v.mag.val h0 hm
  generalize shortest v.mag.val = s at *
  obtain ⟨d, i⟩ := s
  simp only at *
  unfold decNum decDen at hr
  unfold layoutTok
  by_cases hi : i ≤ 38
  · rw [if_pos (by omega)]
    rw [if_pos hi, if_pos hi] at hr
    refine ⟨?_, applySign_sign _ _⟩
    rw [applySign_natAbs]
    have := RoundsTo_scale 10 (by decide) hr
    rw [show (38 - (i : Int)).toNat = 38 - i by omega]
    simpa using this
  · rw [if_neg (by omega)]
    rw [if_neg hi, if_neg hi] at hr
    refine ⟨?_, applySign_sign _ _⟩
    rw [applySign_natAbs]
    rw [show (-(38 - (i : Int))).toNat = i - 38 by omega]
    exact hr

theorem NumIs_displayTok (v : F32) (h0 : 0 < v.mag.val) (hm : v.mag.val < infMag) (hk : 0 ≤ 38 - ((shortest v.mag.val).2 : Int)) :
    NumIs v (.int (applySign v.neg ((shortest v.mag.val).1 * 10 ^ (38 - ((shortest v.mag.val).2 : Int)).toNat))) := by
  have hr := RoundsTo_shortest v.mag.val h0 hm
  generalize shortest v.mag.val = s at *
  obtain ⟨d, i⟩ := s
  simp only at *
  unfold decNum decDen at hr
  rw [if_pos (by omega), if_pos (by omega)] at hr
  refine ⟨?_, applySign_sign _ _⟩
  rw [applySign_natAbs, show (38 - (i : Int)).toNat = 38 - i by omega]
  exact hr

theorem layoutTok_num (neg : Bool) (d : Nat) (k : Int) : ∃ m s, layoutTok neg d k = .real m s := by
  unfold layoutTok; split <;> exact ⟨_, _, rfl⟩

theorem lt_mag (x y : F32) (hx : x.neg = false) (hy : y.neg = false) (h : x.lt y = true) : x.mag.val < y.mag.val := by
  unfold lt sval at h
  simp only [hx, hy, Bool.and_eq_true, decide_eq_true_eq] at h
  rcases Nat.lt_or_ge x.mag.val y.mag.val with h1 | h1
  · exact h1
  · have := scaled_le h1; simp at h; omega

theorem RoundsTo_zero (D : Nat) (hD : 0 < D) : RoundsTo 0 D 0 := by
  apply roundsTo_spec _ _ _ hD (by decide)
  unfold roundsTo
  have : 0 < scaled 1 := by decide
  simp only [scaled_zero, Bool.and_eq_true, Bool.or_eq_true, decide_eq_true_eq, beq_iff_eq, Nat.zero_mul, Nat.mul_zero, Nat.zero_add]
  exact ⟨Or.inl (Nat.mul_pos this hD), by simp⟩

theorem decimalBytes_spells (v : F32) (hf : v.isFinite = true) : Spells v v.decimalBytes := by
  have hm : v.mag.val < infMag := by simpa [isFinite] using hf
  have hn : v.isNaN = false := by simp [isNaN]; omega
  have hni : v.mag.val ≠ infMag := by omega
  unfold decimalBytes
  by_cases h0 : v.mag.val = 0
  · have hz : v.eq zero = true := by
      have hzn : zero.isNaN = false := by decide
      have : v.sval = zero.sval := by
        unfold sval; rw [h0]; cases v.neg <;> decide
      simp [eq, hn, hzn, this]
    rw [hz, Bool.true_or, if_pos rfl]
    unfold ryuFormat
    rw [hn]
    simp only [Bool.false_eq_true, if_false, if_neg hni, if_pos h0]
    refine ⟨all_sign _ _ (by decide), by simp, ?_⟩
    rw [readNumber_signed _ _ ⟨48, _, rfl, by decide⟩]
    have := readUnsigned_decimal v.neg [48] [48] (by decide) (by decide) (by simp)
    refine ⟨_, this, Or.inr ⟨_, _, rfl⟩, ?_⟩
    have e : digitsVal ([48] ++ [48]) = 0 := by decide
    rw [e]
    refine ⟨?_, applySign_sign _ _⟩
    rw [applySign_natAbs, h0]
    exact RoundsTo_zero _ (by decide)
  · have hpos : 0 < v.mag.val := by omega
    have hz : v.eq zero = false := by
      have : v.sval ≠ 0 := by
        have := scaled_lt hpos
        unfold sval; split <;> omega
      have e : zero.sval = 0 := by decide
      simp [eq, e, this]
    rw [hz, Bool.false_or]
    split
    · rename_i hr
      rw [Bool.and_eq_true] at hr
      have r1 := lt_mag _ _ rfl rfl hr.1
      have r2 := lt_mag _ _ rfl rfl hr.2
      have rr := ryu_range v.mag.val r1 r2
      unfold ryuFormat
      rw [hn]
      simp only [Bool.false_eq_true, if_false, if_neg hni, if_neg h0]
      refine ⟨all_sign _ _ (ryuLayout_dec _ _ rr.1 rr.2), ?_, ?_⟩
      · obtain ⟨b, r, e, -⟩ := ryuLayout_head (shortest v.mag.val).1 (38 - ((shortest v.mag.val).2 : Int))
        rw [e]; simp
      · rw [readNumber_signed _ _ (ryuLayout_head _ _), ryuLayout_read _ _ _ rr.1 rr.2]
        exact ⟨_, rfl, Or.inr (layoutTok_num _ _ _), NumIs_layoutTok v hpos hm⟩
    · unfold displayFormat
      rw [hn]
      simp only [Bool.false_eq_true, if_false, if_neg hni, if_neg h0]
      refine ⟨all_sign _ _ (displayLayout_dec _ _), ?_, ?_⟩
      · obtain ⟨b, r, e, -⟩ := displayLayout_head (shortest v.mag.val).1 (38 - ((shortest v.mag.val).2 : Int))
        rw [e]; simp
      · rw [readNumber_signed _ _ (displayLayout_head _ _), displayLayout_read]
        refine ⟨_, rfl, ?_, ?_⟩
        · split
          · exact Or.inl ⟨_, rfl⟩
          · exact Or.inr (layoutTok_num _ _ _)
        · split
          · rename_i hk; exact NumIs_displayTok v hpos hm hk
          · exact NumIs_layoutTok v hpos hm

theorem toI32_range (v : F32) : -2147483648 ≤ v.toI32 ∧ v.toI32 ≤ 2147483647 := by
  unfold toI32; simp only
  split
  · decide
  · split <;> omega

theorem intBytes_dec (i : Int) : (intBytes i).all (fun b => isDec b || b == 45) = true := by
  have h := isDec_of_digits _ (natBytes_digits i.natAbs)
  have := all_sign (decide (i < 0)) _ h
  unfold intBytes
  split
  · rename_i hi; simpa [hi] using this
  · rename_i hi; simpa [hi] using this

theorem realBytes_spells (v : F32) (hf : v.isFinite = true) : Spells v v.realBytes := by
  unfold realBytes
  split
  · rename_i hi
    refine ⟨intBytes_dec _, intBytes_ne_nil _, _, readNumber_intBytes _, Or.inl ⟨_, rfl⟩, ?_⟩
    have hm : v.mag.val < infMag := by simpa [isFinite] using hf
    have hn : v.isNaN = false := by simp [isNaN]; omega
    have hr := toI32_range v
    obtain ⟨m1, m2⟩ := magOfNat_spec v.toI32.natAbs (by omega)
    unfold isIntegral eq at hi
    simp only [Bool.and_eq_true, beq_iff_eq] at hi
    have heq := hi.2
    have hmag : (ofI32 v.toI32).mag.val = magOfNat v.toI32.natAbs := by
      simp only [ofI32, Fin.val_ofNat]
      exact Nat.mod_eq_of_lt (by omega)
    have hval : scaled (magOfNat v.toI32.natAbs) = scaled v.mag.val := by
      unfold sval at heq
      rw [hmag] at heq
      split at heq <;> split at heq <;> omega
    have hmm := scaled_inj hval
    refine ⟨?_, ?_⟩
    · rw [← hmm]
      exact roundsTo_spec _ _ _ (by decide) (by unfold infMag; omega) m1
    · intro hne
      unfold toI32 at hne ⊢
      rw [hn] at hne ⊢
      simp only [Bool.false_eq_true, if_false] at hne ⊢
      cases hneg : v.neg
      · simp only [hneg, Bool.false_eq_true, if_false] at hne ⊢
        symm; rw [decide_eq_false_iff_not]; omega
      · simp only [hneg, if_true] at hne ⊢
        symm; rw [decide_eq_true_iff]; omega
  · exact decimalBytes_spells v hf

theorem dec_regular : ∀ b : UInt8, (isDec b || b == 45) = true → isRegular b = true := forall_byte (by decide +kernel)

theorem Spells_token (v : F32) (bs rest : Bytes) (h : Spells v bs) (hr : sepOk rest = true) :
    ∃ t, tokenAt (bs ++ rest) = some (t, rest) ∧ ((∃ n, t = .int n) ∨ (∃ m s, t = .real m s)) ∧ NumIs v (tokVal t) ∧
      readNumber bs = some t := by
  obtain ⟨h1, h2, t, h3, h4, h5⟩ := h
  refine ⟨t, ?_, h4, h5, h3⟩
  rw [tokenAt_run bs rest ?_ h2 hr, readRun, h3]
  rw [List.all_eq_true] at h1 ⊢
  intro b hb; exact dec_regular b (h1 b hb)

end F32
end PdfW
