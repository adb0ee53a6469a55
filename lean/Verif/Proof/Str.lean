import Verif.Model.Prim
import Verif.Spec.Reader

/-! # Lemmas: byte strings -/

set_option linter.unusedSimpArgs false
set_option linter.unusedVariables false

namespace PdfW
open Spec

@[simp] theorem Buf.push_inner (b : Buf) (x : UInt8) : (b.push x).inner = b.inner ++ [x] := rfl
@[simp] theorem Buf.push_limits (b : Buf) (x : UInt8) : (b.push x).limits = b.limits := rfl
@[simp] theorem Buf.extend_inner (b : Buf) (x : Bytes) : (b.extend x).inner = b.inner ++ x := rfl
@[simp] theorem Buf.extend_limits (b : Buf) (x : Bytes) : (b.extend x).limits = b.limits := rfl
theorem Buf.push_eq (b : Buf) (x : UInt8) : b.push x = b.extend [x] := rfl
@[simp] theorem Buf.extend_extend (b : Buf) (x y : Bytes) : (b.extend x).extend y = b.extend (x ++ y) := by
  simp [Buf.extend]
@[simp] theorem Buf.extend_nil (b : Buf) : b.extend [] = b := by simp [Buf.extend]

/-- Two upper-case hexadecimal digits. -/
def hex2 (v : UInt8) : Bytes := [Buf.hexDigit (v >>> 4), Buf.hexDigit (v &&& 0xF)]

theorem pushHex_eq (b : Buf) (v : UInt8) : b.pushHex v = b.extend (hex2 v) := by
  simp [Buf.pushHex, hex2, Buf.push_eq]

theorem foldl_pushHex (s : Bytes) (b : Buf) : s.foldl Buf.pushHex b = b.extend (s.flatMap hex2) := by
  induction s generalizing b with
  | nil => simp
  | cons x xs ih => simp [ih, pushHex_eq]

/-- Spelling of one byte in a literal string. -/
def litByte (bal : Bool) (byte : UInt8) : Bytes :=
  if byte = ch!"(" ∨ byte = ch!")" then (if bal then [byte] else [ch!"\\", byte])
  else if byte = ch!"\\" then b!"\\\\"
  else if 0x20 ≤ byte ∧ byte ≤ 0x7E then [byte]
  else if byte = 0x0A then b!"\\n"
  else if byte = 0x0D then b!"\\r"
  else if byte = 0x09 then b!"\\t"
  else if byte = 0x08 then b!"\\b"
  else if byte = 0x0C then b!"\\f"
  else [ch!"\\", (48 : UInt8) + (byte >>> 6), (48 : UInt8) + ((byte >>> 3) &&& 7), (48 : UInt8) + (byte &&& 7)]

/-- Spelling of a byte string. -/
def strBytes (s : Bytes) : Bytes :=
  if s.all (fun b => b < 128) then ch!"(" :: (s.flatMap (litByte (isBalanced s)) ++ [ch!")"])
  else ch!"<" :: (s.flatMap hex2 ++ [ch!">"])

def isParen (b : UInt8) : Bool := b == ch!"(" || b == ch!")"

theorem isBalancedFrom_noparen (p t : Bytes) (d : Nat) (h : p.all (fun b => !isParen b)) :
    isBalancedFrom d (p ++ t) = isBalancedFrom d t := by
  induction p with
  | nil => rfl
  | cons x xs ih =>
    simp only [List.all_cons, Bool.and_eq_true, isParen] at h
    have h1 : x ≠ 40 := by intro hx; simp [hx] at h
    have h2 : x ≠ 41 := by intro hx; simp [hx] at h
    simp [isBalancedFrom, h1, h2, ih h.2]

theorem strStep_some (all : Bytes) (bal : Bool) (buf : Buf) (x : UInt8) :
    strStep all (buf, some bal) x = (buf.extend (litByte bal x), some bal) := by
  unfold strStep litByte
  by_cases hp : x = ch!"(" ∨ x = ch!")"
  · cases bal <;> simp [hp, Buf.push_eq]
  · simp only [hp, if_false]
    repeat' split
    all_goals simp [Buf.push_eq, Buf.pushOctal]

theorem strStep_none_noparen (all : Bytes) (bal : Bool) (buf : Buf) (x : UInt8) (h : isParen x = false) :
    strStep all (buf, none) x = (buf.extend (litByte bal x), none) := by
  unfold strStep litByte
  have hp : ¬ (x = ch!"(" ∨ x = ch!")") := by
    simp [isParen] at h; simp [h]
  simp only [hp, if_false]
  repeat' split
  all_goals simp [Buf.push_eq, Buf.pushOctal]

theorem foldl_strStep_some (all s : Bytes) (bal : Bool) (buf : Buf) :
    s.foldl (strStep all) (buf, some bal) = (buf.extend (s.flatMap (litByte bal)), some bal) := by
  induction s generalizing buf with
  | nil => simp
  | cons x xs ih => simp [strStep_some, ih]

theorem foldl_strStep_none (p s : Bytes) (buf : Buf) (hp : p.all (fun b => !isParen b)) :
    (s.foldl (strStep (p ++ s)) (buf, none)).1 = buf.extend (s.flatMap (litByte (isBalanced (p ++ s)))) := by
  induction s generalizing p buf with
  | nil => simp
  | cons x xs ih =>
    by_cases hx : isParen x = true
    · have hb : strStep (p ++ x :: xs) (buf, none) x
          = (buf.extend (litByte (isBalanced (p ++ x :: xs)) x), some (isBalanced (p ++ x :: xs))) := by
        have hne : (x != ch!")" && isBalanced (p ++ x :: xs)) = isBalanced (p ++ x :: xs) := by
          unfold isBalanced
          rw [isBalancedFrom_noparen _ _ _ hp]
          by_cases h41 : x = 41
          · simp [h41, isBalancedFrom]
          · simp [h41]
        have : strStep (p ++ x :: xs) (buf, none) x
            = strStep (p ++ x :: xs) (buf, some (isBalanced (p ++ x :: xs))) x := by
          have hx' : x = 40 ∨ x = 41 := by simpa [isParen] using hx
          unfold strStep
          simp only [hx', if_true, Option.getD_none, Option.getD_some, hne]
        rw [this, strStep_some]
      rw [List.foldl_cons, hb, foldl_strStep_some]
      simp
    · have hx' : isParen x = false := by simpa using hx
      rw [List.foldl_cons, strStep_none_noparen _ (isBalanced (p ++ x :: xs)) _ _ hx']
      have := ih (p ++ [x]) (buf.extend (litByte (isBalanced (p ++ x :: xs)) x)) (by simp [hp, hx'] at *; try exact hp)
      simp only [List.append_assoc, List.singleton_append] at this
      rw [this]
      simp

theorem writeStr_eq (s : Bytes) (buf : Buf) :
    writeStr s buf = { inner := buf.inner ++ strBytes s, limits := buf.limits.registerStrLen s.length } := by
  unfold writeStr strBytes
  by_cases h : s.all (fun b => b < 128)
  · simp only [h, if_true]
    have := foldl_strStep_none [] s ({ buf with limits := buf.limits.registerStrLen s.length }.push ch!"(") rfl
    simp only [List.nil_append] at this
    rw [this]
    simp [Buf.push, Buf.extend]
  · simp only [h, if_false]
    rw [foldl_pushHex]
    simp [Buf.push, Buf.extend]

/-! ## Reading back -/

theorem octal_facts : ∀ b : UInt8,
    let e1 := (48 : UInt8) + (b >>> 6)
    let e2 := (48 : UInt8) + ((b >>> 3) &&& 7)
    let e3 := (48 : UInt8) + (b &&& 7)
    isOctal e1 = true ∧ isOctal e2 = true ∧ isOctal e3 = true ∧
    e1 ≠ 110 ∧ e1 ≠ 114 ∧ e1 ≠ 116 ∧ e1 ≠ 98 ∧ e1 ≠ 102 ∧
    (e1 - 48) * 64 + (e2 - 48) * 8 + (e3 - 48) = b :=
  forall_byte (by decide +kernel)

theorem readLit_litByte_nonparen (bal : Bool) (b : UInt8) (d : Nat) (tail : Bytes) (h : isParen b = false) :
    readLit d (litByte bal b ++ tail) = consFst b (readLit d tail) := by
  unfold litByte
  have hp : ¬ (b = ch!"(" ∨ b = ch!")") := by
    simp [isParen] at h; simp [h]
  have h1 : b ≠ 40 := fun e => hp (Or.inl e)
  have h2 : b ≠ 41 := fun e => hp (Or.inr e)
  simp only [hp, if_false]
  split
  · rename_i hb; subst hb; simp only [List.cons_append, List.nil_append]; rw [readLit.eq_def]; simp [isOctal]
  · split
    · rename_i h3 h4
      have h5 : b ≠ 13 := by rintro rfl; revert h4; decide
      simp only [List.cons_append, List.nil_append]; rw [readLit.eq_def]; simp [h1, h2, h3, h5]
    · split
      · rename_i hb; subst hb; simp only [List.cons_append, List.nil_append]; rw [readLit.eq_def]; simp []
      · split
        · rename_i hb; subst hb; simp only [List.cons_append, List.nil_append]; rw [readLit.eq_def]; simp []
        · split
          · rename_i hb; subst hb; simp only [List.cons_append, List.nil_append]; rw [readLit.eq_def]; simp []
          · split
            · rename_i hb; subst hb; simp only [List.cons_append, List.nil_append]; rw [readLit.eq_def]; simp []
            · split
              · rename_i hb; subst hb; simp only [List.cons_append, List.nil_append]; rw [readLit.eq_def]; simp []
              · obtain ⟨f1, f2, f3, f4, f5, f6, f7, f8, f9⟩ := octal_facts b
                simp only [List.cons_append, List.nil_append]; rw [readLit.eq_def]; simp [f1, f2, f3, f4, f5, f6, f7, f8, f9]

theorem readLit_litByte_escaped (b : UInt8) (d : Nat) (tail : Bytes) :
    readLit d (litByte false b ++ tail) = consFst b (readLit d tail) := by
  by_cases h : isParen b = true
  · have : b = 40 ∨ b = 41 := by simpa [isParen] using h
    rcases this with rfl | rfl <;> (simp [litByte]; rw [readLit.eq_def]; simp [isOctal])
  · exact readLit_litByte_nonparen _ _ _ _ (by simpa using h)

theorem readLit_escaped (s tail : Bytes) (r : Bytes) (d : Nat) (h : readLit d tail = some ([], r)) :
    readLit d (s.flatMap (litByte false) ++ tail) = some (s, r) := by
  induction s with
  | nil => simpa using h
  | cons b s ih =>
    simp only [List.flatMap_cons, List.append_assoc]
    rw [readLit_litByte_escaped, ih]; rfl

theorem readLit_balanced (s r : Bytes) (d : Nat) (h : isBalancedFrom d s = true) :
    readLit d (s.flatMap (litByte true) ++ ch!")" :: r) = some (s, r) := by
  induction s generalizing d with
  | nil =>
    simp [isBalancedFrom] at h
    subst h; simp; rw [readLit.eq_def]; simp
  | cons b s ih =>
    simp only [List.flatMap_cons, List.append_assoc]
    by_cases hb : isParen b = true
    · have : b = 40 ∨ b = 41 := by simpa [isParen] using hb
      rcases this with rfl | rfl
      · simp only [isBalancedFrom, if_true] at h
        simp only [litByte]; simp; rw [readLit.eq_def]; simp [ih _ h, consFst]
      · simp only [isBalancedFrom] at h
        cases d with
        | zero => simp at h
        | succ d =>
          simp at h
          simp only [litByte]; simp; rw [readLit.eq_def]; simp [ih _ h, consFst]
    · have hb' : isParen b = false := by simpa using hb
      rw [readLit_litByte_nonparen _ _ _ _ hb']
      have h1 : b ≠ 40 := by rintro rfl; simp [isParen] at hb
      have h2 : b ≠ 41 := by rintro rfl; simp [isParen] at hb
      simp [isBalancedFrom, h1, h2] at h
      rw [ih _ h]; rfl

theorem hex2_facts : ∀ v : UInt8,
    hexVal (Buf.hexDigit (v >>> 4)) = some (v >>> 4) ∧ hexVal (Buf.hexDigit (v &&& 0xF)) = some (v &&& 0xF) ∧
    isWhite (Buf.hexDigit (v >>> 4)) = false ∧ isWhite (Buf.hexDigit (v &&& 0xF)) = false ∧
    Buf.hexDigit (v >>> 4) ≠ 62 ∧ Buf.hexDigit (v &&& 0xF) ≠ 62 ∧
    Buf.hexDigit (v >>> 4) ≠ 60 ∧ 
    (v >>> 4) * 16 + (v &&& 0xF) = v ∧
    isRegular (Buf.hexDigit (v >>> 4)) = true ∧ isRegular (Buf.hexDigit (v &&& 0xF)) = true :=
  forall_byte (by decide +kernel)

theorem readHexDigits_hex (s r : Bytes) :
    readHexDigits (s.flatMap hex2 ++ ch!">" :: r) = some (s.flatMap (fun v : UInt8 => [v >>> 4, v &&& 0xF]), r) := by
  induction s with
  | nil => simp [readHexDigits]
  | cons v s ih =>
    obtain ⟨f1, f2, f3, f4, f5, f6, -, -, -⟩ := hex2_facts v
    simp [hex2, readHexDigits, f1, f2, f3, f4, f5, f6, ih, consFst]

theorem pairHex_flat (s : Bytes) : pairHex (s.flatMap (fun v : UInt8 => [v >>> 4, v &&& 0xF])) = s := by
  induction s with
  | nil => rfl
  | cons v s ih =>
    obtain ⟨-, -, -, -, -, -, -, f, -⟩ := hex2_facts v
    simp [pairHex, ih, f]

theorem readHex_hex (s r : Bytes) : readHex (s.flatMap hex2 ++ ch!">" :: r) = some (s, r) := by
  simp [readHex, readHexDigits_hex, pairHex_flat]

theorem tokenAt_hexString (s r : Bytes) (h : s ≠ [] ∨ True) :
    tokenAt (ch!"<" :: (s.flatMap hex2 ++ ch!">" :: r)) = some (.str s, r) := by
  have key : ∀ l : Bytes, (∀ c l', l = c :: l' → c ≠ 60) → l ≠ [] →
      tokenAt (ch!"<" :: l) = (match readHex l with
        | some (s, r'') => some (.str s, r'')
        | none => none) := by
    intro l h1 h2
    cases l with
    | nil => simp at h2
    | cons c l' => simp only [tokenAt]; simp [h1 c l' rfl]; rfl
  rw [key, readHex_hex]
  · intro c l' h
    cases s with
    | nil => simp at h; rw [← h.1]; decide
    | cons v s =>
      simp [hex2] at h
      rw [← h.1]; exact (hex2_facts v).2.2.2.2.2.2.1
  · simp

theorem tokenAt_strBytes (s r : Bytes) : tokenAt (strBytes s ++ r) = some (.str s, r) := by
  unfold strBytes
  split
  · simp only [List.cons_append, List.append_assoc]
    have : readLit 0 (s.flatMap (litByte (isBalanced s)) ++ ([ch!")"] ++ r)) = some (s, r) := by
      cases hb : isBalanced s
      · exact readLit_escaped s _ r 0 (by rw [readLit.eq_def]; simp)
      · exact readLit_balanced s r 0 hb
    simp [tokenAt]
    simp at this
    simp [this]
  · simp only [List.cons_append, List.append_assoc]
    exact tokenAt_hexString s r (Or.inr trivial)

end PdfW
