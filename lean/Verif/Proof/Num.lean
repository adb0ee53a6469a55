import Verif.Proof.Str

/-! # Lemmas: runs of regular characters, integers, names -/

set_option linter.unusedSimpArgs false
set_option linter.unusedVariables false

namespace PdfW
open Spec

/-- The input is empty or starts with white space or a delimiter. -/
def sepOk : Bytes → Bool
  | [] => true
  | b :: _ => !isRegular b

theorem takeWhile_regular (xs rest : Bytes) (h : xs.all isRegular = true) (hr : sepOk rest = true) :
    (xs ++ rest).takeWhile isRegular = xs ∧ (xs ++ rest).dropWhile isRegular = rest := by
  induction xs with
  | nil =>
    cases rest with
    | nil => simp
    | cons b r =>
      simp [sepOk] at hr
      simp [hr]
  | cons x xs ih =>
    simp only [List.all_cons, Bool.and_eq_true] at h
    simp [h.1, ih h.2]

/-! ## Decimal digits -/

theorem natDigitsAux_spec (fuel n : Nat) (h : n < fuel) :
    (natDigitsAux fuel n).all isDigit = true ∧ digitsVal (natDigitsAux fuel n) = n ∧ natDigitsAux fuel n ≠ [] := by
  induction fuel generalizing n with
  | zero => omega
  | succ fuel ih =>
    unfold natDigitsAux
    have key : ∀ k, k < 10 → isDigit (UInt8.ofNat (48 + k)) = true ∧ (UInt8.ofNat (48 + k)).toNat - 48 = k := by
      decide
    split
    · rename_i h10
      obtain ⟨h1, h2⟩ := key n h10
      refine ⟨by simp only [List.all_cons, List.all_nil, h1, Bool.and_self], ?_, by simp⟩
      simp only [digitsVal, List.foldl_cons, List.foldl_nil, h2]; omega
    · rename_i h10
      obtain ⟨h1, h2, h3⟩ := ih (n / 10) (by omega)
      obtain ⟨h4, h5⟩ := key (n % 10) (by omega)
      refine ⟨by simp only [List.all_append, List.all_cons, List.all_nil, h1, h4, Bool.and_self], ?_, by simp⟩
      unfold digitsVal at h2 ⊢
      rw [List.foldl_append, h2]
      simp only [List.foldl_cons, List.foldl_nil, h5]; omega

theorem natBytes_digits (n : Nat) : (natBytes n).all isDigit = true := (natDigitsAux_spec _ n (by omega)).1
theorem digitsVal_natBytes (n : Nat) : digitsVal (natBytes n) = n := (natDigitsAux_spec _ n (by omega)).2.1
theorem natBytes_ne_nil (n : Nat) : natBytes n ≠ [] := (natDigitsAux_spec _ n (by omega)).2.2

theorem natDigitsAux_length (fuel n w : Nat) (h : n < fuel) (hw : 0 < w) (hn : n < 10 ^ w) :
    (natDigitsAux fuel n).length ≤ w := by
  induction fuel generalizing n w with
  | zero => omega
  | succ fuel ih =>
    unfold natDigitsAux
    split
    · simp; omega
    · rename_i h10
      obtain ⟨w', rfl⟩ : ∃ w', w = w' + 1 := ⟨w - 1, by omega⟩
      have hw' : 0 < w' := by
        rcases Nat.eq_zero_or_pos w' with rfl | h
        · simp at hn; omega
        · exact h
      have : n / 10 < 10 ^ w' := by
        rw [Nat.pow_succ] at hn; omega
      have := ih (n / 10) w' (by omega) hw' this
      simp; omega

theorem natBytes_length_le (n w : Nat) (hw : 0 < w) (hn : n < 10 ^ w) : (natBytes n).length ≤ w :=
  natDigitsAux_length _ n w (by omega) hw hn

theorem padNat_length (w n : Nat) (hw : 0 < w) (hn : n < 10 ^ w) : (Date.padNat w n).length = w := by
  have := natBytes_length_le n w hw hn
  simp [Date.padNat]; omega

theorem padNat_digits (w n : Nat) : (Date.padNat w n).all isDigit = true := by
  unfold Date.padNat
  simp only [List.all_append, natBytes_digits, Bool.and_true]
  simp [List.all_replicate]
  right; decide

theorem digitsVal_zeros (k : Nat) (ds : Bytes) : digitsVal (List.replicate k 48 ++ ds) = digitsVal ds := by
  unfold digitsVal
  rw [List.foldl_append]
  congr 1
  induction k with
  | zero => rfl
  | succ k ih => simpa [List.replicate_succ] using ih

theorem digitsVal_padNat (w n : Nat) : digitsVal (Date.padNat w n) = n := by
  simp only [Date.padNat, digitsVal_zeros, digitsVal_natBytes]

theorem digit_facts : ∀ b : UInt8, isDigit b = true →
    isRegular b = true ∧ b ≠ 45 ∧ b ≠ 43 ∧ b ≠ 46 ∧ isWhite b = false :=
  forall_byte (by decide +kernel)

theorem all_digit_regular (ds : Bytes) (h : ds.all isDigit = true) : ds.all isRegular = true := by
  rw [List.all_eq_true] at h ⊢
  intro b hb; exact (digit_facts b (h b hb)).1

theorem takeWhile_all {p : UInt8 → Bool} (xs : Bytes) (h : xs.all p = true) :
    xs.takeWhile p = xs ∧ xs.dropWhile p = [] := by
  induction xs with
  | nil => simp
  | cons x xs ih =>
    simp only [List.all_cons, Bool.and_eq_true] at h
    simp [h.1, ih h.2]

theorem readUnsigned_digits (neg : Bool) (ds : Bytes) (h : ds.all isDigit = true) (hne : ds ≠ []) :
    readUnsigned neg ds = some (.int (applySign neg (digitsVal ds))) := by
  obtain ⟨h1, h2⟩ := takeWhile_all ds h
  unfold readUnsigned
  simp [h1, h2, hne]

theorem readNumber_digits (ds : Bytes) (h : ds.all isDigit = true) (hne : ds ≠ []) :
    readNumber ds = some (.int (digitsVal ds)) := by
  cases ds with
  | nil => simp at hne
  | cons b r =>
    have hb : isDigit b = true := by simp at h; exact h.1
    obtain ⟨-, f2, f3, -, -⟩ := digit_facts b hb
    simp only [readNumber, f2, f3, if_false]
    rw [readUnsigned_digits _ _ h hne]; rfl

theorem readNumber_intBytes (i : Int) : readNumber (intBytes i) = some (.int i) := by
  unfold intBytes
  split
  · rename_i h
    simp only [readNumber, if_true]
    rw [readUnsigned_digits _ _ (natBytes_digits _) (natBytes_ne_nil _), digitsVal_natBytes]
    simp [applySign]; omega
  · rename_i h
    rw [readNumber_digits _ (natBytes_digits _) (natBytes_ne_nil _), digitsVal_natBytes]
    congr 2; omega

theorem intBytes_regular (i : Int) : (intBytes i).all isRegular = true := by
  unfold intBytes
  split
  · simp only [List.all_cons, all_digit_regular _ (natBytes_digits _), Bool.and_true]; decide
  · exact all_digit_regular _ (natBytes_digits _)

theorem intBytes_ne_nil (i : Int) : intBytes i ≠ [] := by
  unfold intBytes; split <;> simp [natBytes_ne_nil]

/-- A run of regular characters whose first byte is not special is read by `readRun`. -/
theorem tokenAt_run (run rest : Bytes) (hreg : run.all isRegular = true) (hne : run ≠ []) (hr : sepOk rest = true) :
    tokenAt (run ++ rest) = some (readRun run, rest) := by
  cases run with
  | nil => simp at hne
  | cons b r =>
    have hb : isRegular b = true := by simp at hreg; exact hreg.1
    have facts : ∀ b : UInt8, isRegular b = true →
        b ≠ 40 ∧ b ≠ 60 ∧ b ≠ 62 ∧ b ≠ 91 ∧ b ≠ 93 ∧ b ≠ 123 ∧ b ≠ 125 ∧ b ≠ 47 ∧ b ≠ 41 :=
      forall_byte (by decide +kernel)
    obtain ⟨f1, f2, f3, f4, f5, f6, f7, f8, f9⟩ := facts b hb
    obtain ⟨h1, h2⟩ := takeWhile_regular (b :: r) rest hreg hr
    simp only [List.cons_append] at h1 h2 ⊢
    simp only [tokenAt, f1, f2, f3, f4, f5, f6, f7, f8, f9, if_false, h1, h2]

/-! ## Names -/

/-- Spelling of one byte of a name. -/
def nameByte (b : UInt8) : Bytes :=
  if b != ch!"#" && (0x21 ≤ b && b ≤ 0x7E) && isRegularCharacter b then [b] else ch!"#" :: hex2 b

/-- Spelling of a name. -/
def nameBytes (n : Bytes) : Bytes := ch!"/" :: n.flatMap nameByte

theorem nameStep_eq (buf : Buf) (b : UInt8) : nameStep buf b = buf.extend (nameByte b) := by
  unfold nameStep nameByte
  split <;> simp [Buf.push_eq, pushHex_eq]

theorem foldl_nameStep (n : Bytes) (buf : Buf) : n.foldl nameStep buf = buf.extend (n.flatMap nameByte) := by
  induction n generalizing buf with
  | nil => simp
  | cons x xs ih => simp [ih, nameStep_eq]

theorem writeName_eq (n : Bytes) (buf : Buf) :
    writeName n buf = { inner := buf.inner ++ nameBytes n, limits := buf.limits.registerNameLen n.length } := by
  simp [writeName, foldl_nameStep, nameBytes, Buf.push, Buf.extend]

theorem nameByte_facts : ∀ b : UInt8, (nameByte b).all isRegular = true ∧
    ((b ≠ 35 ∧ nameByte b = [b]) ∨ nameByte b = 35 :: hex2 b) := by
  apply forall_byte
  decide +kernel

theorem nameBytes_regular (n : Bytes) : (n.flatMap nameByte).all isRegular = true := by
  induction n with
  | nil => rfl
  | cons b n ih => simp only [List.flatMap_cons, List.all_append, ih, (nameByte_facts b).1, Bool.and_self]

theorem decodeName_nameBytes (n : Bytes) : decodeName (n.flatMap nameByte) = some n := by
  induction n with
  | nil => simp [decodeName]
  | cons b n ih =>
    rcases (nameByte_facts b).2 with ⟨h1, h2⟩ | h2
    · simp only [List.flatMap_cons, h2, List.singleton_append]
      rw [decodeName.eq_def]; simp [h1, ih]
    · obtain ⟨f1, f2, -, -, -, -, -, f3, -⟩ := hex2_facts b
      simp only [List.flatMap_cons, h2, hex2, List.cons_append, List.nil_append]
      rw [decodeName.eq_def]; simp [ih, f1, f2, f3]

theorem tokenAt_nameBytes (n rest : Bytes) (hr : sepOk rest = true) :
    tokenAt (nameBytes n ++ rest) = some (.name n, rest) := by
  obtain ⟨h1, h2⟩ := takeWhile_regular _ rest (nameBytes_regular n) hr
  simp only [nameBytes, List.cons_append, tokenAt, h1, h2, decodeName_nameBytes]
  simp

end PdfW
