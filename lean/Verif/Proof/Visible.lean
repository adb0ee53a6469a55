import Verif.Proof.Enc

/-! # Lemmas: primitives are spelled in visible ASCII -/

set_option linter.unusedSimpArgs false
set_option linter.unusedVariables false

namespace PdfW
open Spec

/-- `0x20 … 0x7E`. -/
def isVisible (b : UInt8) : Bool := 0x20 ≤ b && b ≤ 0x7E

theorem all_flatMap {f : UInt8 → Bytes} (p : UInt8 → Bool) (h : ∀ b, (f b).all p = true) (s : Bytes) :
    (s.flatMap f).all p = true := by
  induction s with
  | nil => rfl
  | cons b s ih => simp only [List.flatMap_cons, List.all_append, h, ih, Bool.and_self]

theorem hex2_visible : ∀ b : UInt8, (hex2 b).all isVisible = true := forall_byte (by decide +kernel)
theorem nameByte_visible : ∀ b : UInt8, (nameByte b).all isVisible = true := forall_byte (by decide +kernel)
theorem litByte_visible (bal : Bool) : ∀ b : UInt8, (litByte bal b).all isVisible = true := by
  cases bal <;> exact forall_byte (by decide +kernel)
theorem digit_visible : ∀ b : UInt8, isDigit b = true → isVisible b = true := forall_byte (by decide +kernel)

theorem digits_visible (ds : Bytes) (h : ds.all isDigit = true) : ds.all isVisible = true := by
  rw [List.all_eq_true] at h ⊢
  intro b hb; exact digit_visible b (h b hb)

theorem strBytes_visible (s : Bytes) : (strBytes s).all isVisible = true := by
  unfold strBytes; split
  · simp only [List.all_cons, List.all_append, all_flatMap _ (litByte_visible _)]; decide
  · simp only [List.all_cons, List.all_append, all_flatMap _ hex2_visible]; decide

theorem textBytes_visible (t : List Char) : (textBytes t).all isVisible = true := by
  unfold textBytes; split
  · exact strBytes_visible _
  · simp only [List.all_cons, List.all_append, all_flatMap _ hex2_visible]; decide

theorem intBytes_visible (i : Int) : (intBytes i).all isVisible = true := by
  unfold intBytes; split
  · simp only [List.all_cons, digits_visible _ (natBytes_digits _)]; decide
  · exact digits_visible _ (natBytes_digits _)

theorem all_replicate_zero (n : Nat) : (List.replicate n (48 : UInt8)).all isVisible = true :=
  digits_visible _ (F32.zeros_digits n)

theorem realBytes_visible (v : F32) : v.realBytes.all isVisible = true := by
  by_cases hf : v.isFinite = true
  · have h := (F32.realBytes_spells v hf).1
    have f : ∀ b : UInt8, (F32.isDec b || b == 45) = true → isVisible b = true := forall_byte (by decide +kernel)
    rw [List.all_eq_true] at h ⊢
    intro b hb; exact f b (h b hb)
  · unfold F32.realBytes
    split
    · exact intBytes_visible _
    · unfold F32.decimalBytes F32.ryuFormat F32.displayFormat
      have hinf : ¬ v.mag.val < F32.infMag := by simpa [F32.isFinite] using hf
      have h0 : v.mag.val = F32.infMag ∨ v.isNaN = true := by
        simp only [F32.isNaN, decide_eq_true_eq]; omega
      rcases h0 with h0 | h0
      · have hn : v.isNaN = false := by simp [F32.isNaN, h0]
        simp only [hn, h0, if_true, Bool.false_eq_true, if_false]
        cases v.neg <;> split <;> decide
      · simp only [h0, if_true]
        split <;> decide

theorem dateContent_visible (d : Date) : (dateContent d).all isVisible = true := by
  have h := dateText_chars d
  have f : ∀ b : UInt8, (isDigit b || b == ch!"Z" || b == ch!"'" || b == ch!"+" || b == ch!"-") = true → isVisible b = true :=
    forall_byte (by decide +kernel)
  have : (dateText d).all isVisible = true := by
    rw [List.all_eq_true] at h ⊢
    intro b hb; exact f b (h b hb)
  simp only [dateContent, List.all_append, this]; decide

theorem primBytes_visible (p : Prim) : (primBytes p).all isVisible = true := by
  cases p with
  | null => decide
  | bool v => cases v <;> decide
  | int v => exact intBytes_visible v
  | real v => exact realBytes_visible v
  | str s => exact strBytes_visible s
  | textStr t => exact textBytes_visible t
  | textStrLang segs =>
    simp only [primBytes, langBytes, List.all_cons, List.all_append, all_flatMap _ hex2_visible]; decide
  | name n => simp only [primBytes, nameBytes, List.all_cons, all_flatMap _ nameByte_visible]; decide
  | ref r => simp only [primBytes, List.all_append, intBytes_visible]; decide
  | rect r => simp only [primBytes, rectBytes, List.all_cons, List.all_append, realBytes_visible]; decide
  | date d => simp only [primBytes, List.all_cons, List.all_append, dateContent_visible]; decide

end PdfW
