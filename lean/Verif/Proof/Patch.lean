import Verif.Model.Renumber
import Verif.Spec.Renumber
import Verif.Proof.Visible
import Verif.Proof.Scan

/-! # Lemmas: patching the spelling of a tree gives the spelling of the renumbered tree -/

set_option linter.unusedSimpArgs false
set_option linter.unusedVariables false

namespace PdfW
open Spec

/-! ## Suffixes -/

theorem eatSuffix_append (a b : Bytes) (p : UInt8 → Bool) (hb : b.all p = true) (ha : ∀ x ∈ a.getLast?, p x = false) :
    eatSuffix (a ++ b) p = (a, b) := by
  have h1 : ((a ++ b).reverse.takeWhile p) = b.reverse := by
    rw [List.reverse_append, List.takeWhile_append_of_pos]
    · have : a.reverse.takeWhile p = [] := by
        rw [← List.head?_reverse] at ha
        cases h : a.reverse with
        | nil => rfl
        | cons x l =>
          rw [h] at ha
          have := ha x (by simp)
          simp [List.takeWhile_cons, this]
      rw [this, List.append_nil]
    · intro x hx
      rw [List.all_eq_true] at hb
      exact hb x (by simpa using hx)
  simp only [eatSuffix, h1, List.reverse_reverse, List.length_append]
  have : a.length + b.length - b.length = a.length := by omega
  rw [this, List.take_left]

theorem isWhitespace_eq (b : UInt8) : isWhitespace b = isWhite b := rfl
theorem isAsciiDigit_eq (b : UInt8) : isAsciiDigit b = isDigit b := rfl

/-- Bytes after which neither a reference nor a stream can be recognised. -/
def blocks (b : UInt8) : Bool := !isWhite b && b != ch!">"

theorem eatSuffix_nil (pre : Bytes) (p : UInt8 → Bool) (h : ∀ x ∈ pre.getLast?, p x = false) : eatSuffix pre p = (pre, []) := by
  have := eatSuffix_append pre [] p rfl h
  simpa using this

theorem validateRef_blocked (pre : Bytes) (b : UInt8) (h : isWhite b = false) : validateRef (pre ++ [b]) = none := by
  have : eatSuffix (pre ++ [b]) isWhitespace = (pre ++ [b], []) :=
    eatSuffix_nil _ _ (by intro x hx; simp at hx; rw [← hx]; exact h)
  simp [validateRef, requireWhitespaceRev, this]

theorem validateStream_blocked (pre : Bytes) (b : UInt8) (h : blocks b = true) : validateStream (pre ++ [b]) = false := by
  simp only [blocks, Bool.and_eq_true, Bool.not_eq_true', bne_iff_ne] at h
  have : eatSuffix (pre ++ [b]) isWhitespace = (pre ++ [b], []) :=
    eatSuffix_nil _ _ (by intro x hx; simp at hx; rw [← hx]; exact h.1)
  rw [validateStream, this]
  rw [Bool.eq_false_iff]
  intro hs
  rw [List.isSuffixOf_iff_suffix] at hs
  obtain ⟨t, ht⟩ := hs
  have := congrArg List.getLast? ht
  rw [getLast?_append_ne (by simp), getLast?_append_ne (by simp)] at this
  simp at this
  exact h.2 this.symm

/-! ## Passing over bytes without change -/

/-- Scanning `x` from mode `M` leads to mode `M'` and changes nothing else. -/
def Skip {σ : Type} (m : Mapping σ) (M : PatchMode) (pre x : Bytes) (M' : PatchMode) : Prop :=
  ∀ w rest buf s, patchScan m M w pre (x ++ rest) buf s = patchScan m M' w (pre ++ x) rest buf s

section
variable {σ : Type} {m : Mapping σ}

theorem Skip.nil (M : PatchMode) (pre : Bytes) : Skip m M pre [] M := by intro w rest buf s; simp

theorem Skip.append {M M1 M2 : PatchMode} {pre x y : Bytes} (h1 : Skip m M pre x M1) (h2 : Skip m M1 (pre ++ x) y M2) :
    Skip m M pre (x ++ y) M2 := by
  intro w rest buf s
  rw [List.append_assoc, h1, h2, List.append_assoc]

theorem Skip.cons {M M1 M2 : PatchMode} {pre : Bytes} {b : UInt8} {y : Bytes} (h1 : Skip m M pre [b] M1)
    (h2 : Skip m M1 (pre ++ [b]) y M2) : Skip m M pre (b :: y) M2 := Skip.append (x := [b]) h1 h2

/-- Bytes that the scanner never stops at. -/
def dull (b : UInt8) : Bool := b != ch!"R" && b != ch!"%" && b != ch!"(" && b != ch!"s"

theorem skip_dull (pre : Bytes) (b : UInt8) (h : dull b = true) : Skip m .normal pre [b] .normal := by
  intro w rest buf s
  simp only [dull, Bool.and_eq_true, bne_iff_ne] at h
  obtain ⟨⟨⟨h1, h2⟩, h3⟩, h4⟩ := h
  simp [patchScan, h1, h2, h3, h4]

theorem skip_dulls (pre x : Bytes) (h : x.all dull = true) : Skip m .normal pre x .normal := by
  induction x generalizing pre with
  | nil => exact Skip.nil _ _
  | cons b x ih =>
    simp only [List.all_cons, Bool.and_eq_true] at h
    exact Skip.cons (skip_dull pre b h.1) (ih _ h.2)

/-- After a blocking byte, everything but `%` and `(` is passed over. -/
theorem skip_blocked (pre : Bytes) (c b : UInt8) (hc : blocks c = true) (h1 : b ≠ ch!"%") (h2 : b ≠ ch!"(") :
    Skip m .normal (pre ++ [c]) [b] .normal := by
  intro w rest buf s
  have hw : isWhite c = false := by simp [blocks] at hc; exact hc.1
  have e1 := validateRef_blocked pre c hw
  have e2 := validateStream_blocked pre c hc
  simp only [List.cons_append, List.nil_append, patchScan, e1, e2, h1, h2, if_false]
  split
  · rfl
  · simp

theorem regular_facts : ∀ b : UInt8, isRegular b = true → blocks b = true ∧ b ≠ ch!"%" ∧ b ≠ ch!"(" :=
  forall_byte (by decide +kernel)

/-- Regular characters after a blocking byte. -/
theorem skip_regular (pre : Bytes) (c : UInt8) (x : Bytes) (hc : blocks c = true) (hx : x.all isRegular = true) :
    Skip m .normal (pre ++ [c]) x .normal := by
  induction x generalizing pre c with
  | nil => exact Skip.nil _ _
  | cons b x ih =>
    simp only [List.all_cons, Bool.and_eq_true] at hx
    obtain ⟨f1, f2, f3⟩ := regular_facts b hx.1
    exact Skip.cons (skip_blocked pre c b hc f2 f3) (ih (pre ++ [c]) b f1 hx.2)

/-- A bare token whose first byte is dull. -/
theorem skip_bare (pre : Bytes) (b : UInt8) (x : Bytes) (hd : dull b = true) (hx : (b :: x).all isRegular = true) :
    Skip m .normal pre (b :: x) .normal := by
  simp only [List.all_cons, Bool.and_eq_true] at hx
  exact Skip.cons (skip_dull pre b hd) (skip_regular pre b x (regular_facts b hx.1).1 hx.2)

theorem skip_name (pre n : Bytes) : Skip m .normal pre (nameBytes n) .normal := by
  unfold nameBytes
  exact Skip.cons (skip_dull pre _ (by decide)) (skip_regular pre _ _ (by decide) (nameBytes_regular n))

/-! ### Strings -/

/-- Bytes without meaning inside a literal string. -/
def strPlain (b : UInt8) : Bool := b != ch!"(" && b != ch!")" && b != ch!"\\"

theorem skip_strPlain (pre : Bytes) (d : Nat) (b : UInt8) (h : strPlain b = true) :
    Skip m (.string d) pre [b] (.string d) := by
  intro w rest buf s
  simp only [strPlain, Bool.and_eq_true, bne_iff_ne] at h
  obtain ⟨⟨h1, h2⟩, h3⟩ := h
  simp [patchScan, h1, h2, h3]

theorem skip_strPlains (pre : Bytes) (d : Nat) (x : Bytes) (h : x.all strPlain = true) :
    Skip m (.string d) pre x (.string d) := by
  induction x generalizing pre with
  | nil => exact Skip.nil _ _
  | cons b x ih =>
    simp only [List.all_cons, Bool.and_eq_true] at h
    exact Skip.cons (skip_strPlain pre d b h.1) (ih _ h.2)

/-- A plain piece, or a backslash, any byte, and a plain piece. -/
def litShape (x : Bytes) : Bool :=
  x.all strPlain || (match x with | c :: _ :: r => c == ch!"\\" && r.all strPlain | _ => false)

theorem skip_litShape (pre : Bytes) (d : Nat) (x : Bytes) (h : litShape x = true) :
    Skip m (.string d) pre x (.string d) := by
  simp only [litShape, Bool.or_eq_true] at h
  rcases h with h | h
  · exact skip_strPlains pre d x h
  · match x, h with
    | c :: e :: r, h =>
      simp only [Bool.and_eq_true, beq_iff_eq] at h
      obtain ⟨rfl, h⟩ := h
      have s1 : Skip m (.string d) pre [(92 : UInt8)] (.escaped d) := by intro w rest buf s; simp [patchScan]
      have s2 : Skip m (.escaped d) (pre ++ [(92 : UInt8)]) [e] (.string d) := by intro w rest buf s; simp [patchScan]
      exact Skip.cons s1 (Skip.cons s2 (skip_strPlains _ d r h))
    | [], h => simp at h
    | [_], h => simp at h

theorem litByte_false_shape : ∀ b : UInt8, litShape (litByte false b) = true := forall_byte (by decide +kernel)
theorem litByte_true_shape : ∀ b : UInt8, isParen b = false → litShape (litByte true b) = true :=
  forall_byte (by decide +kernel)

theorem skip_escaped (pre : Bytes) (d : Nat) (s : Bytes) :
    Skip m (.string d) pre (s.flatMap (litByte false)) (.string d) := by
  induction s generalizing pre with
  | nil => exact Skip.nil _ _
  | cons b s ih =>
    rw [List.flatMap_cons]
    exact Skip.append (skip_litShape pre d _ (litByte_false_shape b)) (ih _)

theorem skip_balanced (pre : Bytes) (d : Nat) (s : Bytes) (h : isBalancedFrom d s = true) :
    Skip m (.string (d + 1)) pre (s.flatMap (litByte true)) (.string 1) := by
  induction s generalizing pre d with
  | nil =>
    simp [isBalancedFrom] at h; subst h
    exact Skip.nil _ _
  | cons b s ih =>
    rw [List.flatMap_cons]
    by_cases h1 : b = 40
    · subst h1
      simp [isBalancedFrom] at h
      have e : litByte true 40 = [40] := by decide
      rw [e]
      have s1 : Skip m (.string (d + 1)) pre [(40 : UInt8)] (.string (d + 1 + 1)) := by intro w rest buf s; simp [patchScan]
      exact Skip.append s1 (ih _ _ h)
    · by_cases h2 : b = 41
      · subst h2
        simp [isBalancedFrom] at h
        have e : litByte true 41 = [41] := by decide
        rw [e]
        obtain ⟨h3, h4⟩ := h
        have s1 : Skip m (.string (d + 1)) pre [(41 : UInt8)] (.string d) := by
          intro w rest buf s; simp [patchScan]; intro h5; omega
        have := ih (pre ++ [41]) (d - 1) h4
        have e2 : d - 1 + 1 = d := by omega
        rw [e2] at this
        exact Skip.append s1 this
      · have hp : isParen b = false := by simp [isParen, h1, h2]
        simp [isBalancedFrom, h1, h2] at h
        exact Skip.append (skip_litShape pre _ _ (litByte_true_shape b hp)) (ih _ _ h)

theorem skip_open (pre : Bytes) : Skip m .normal pre [ch!"("] (.string 1) := by intro w rest buf s; simp [patchScan]
theorem skip_close (pre : Bytes) : Skip m (.string 1) pre [ch!")"] .normal := by intro w rest buf s; simp [patchScan]

theorem hex2_dull : ∀ b : UInt8, (hex2 b).all dull = true := forall_byte (by decide +kernel)

theorem skip_hex (pre s : Bytes) : Skip m .normal pre (ch!"<" :: (s.flatMap hex2 ++ [ch!">"])) .normal := by
  apply skip_dulls
  simp only [List.all_cons, List.all_append, all_flatMap _ hex2_dull]; decide

theorem skip_str (pre s : Bytes) : Skip m .normal pre (strBytes s) .normal := by
  unfold strBytes; split
  · refine Skip.cons (skip_open pre) (Skip.append (M1 := .string 1) ?_ (skip_close _))
    cases hb : isBalanced s with
    | false => exact skip_escaped _ _ _
    | true => exact skip_balanced _ 0 s hb
  · exact skip_hex pre s

theorem dateContent_plain (d : Date) : (dateContent d).all strPlain = true := by
  have h := dateText_chars d
  have f : ∀ b : UInt8, (isDigit b || b == ch!"Z" || b == ch!"'" || b == ch!"+" || b == ch!"-") = true → strPlain b = true :=
    forall_byte (by decide +kernel)
  have : (dateText d).all strPlain = true := by
    rw [List.all_eq_true] at h ⊢
    intro b hb; exact f b (h b hb)
  simp only [dateContent, List.all_append, this]; decide

theorem realBytes_dull (v : F32) : v.realBytes.all dull = true := by
  by_cases hf : v.isFinite = true
  · have h := (F32.realBytes_spells v hf).1
    have f : ∀ b : UInt8, (F32.isDec b || b == 45) = true → dull b = true := forall_byte (by decide +kernel)
    rw [List.all_eq_true] at h ⊢
    intro b hb; exact f b (h b hb)
  · unfold F32.realBytes
    split
    · have h := F32.intBytes_dec v.toI32
      have f : ∀ b : UInt8, (F32.isDec b || b == 45) = true → dull b = true := forall_byte (by decide +kernel)
      rw [List.all_eq_true] at h ⊢
      intro b hb; exact f b (h b hb)
    · unfold F32.decimalBytes F32.ryuFormat F32.displayFormat
      have hinf : ¬ v.mag.val < F32.infMag := by simpa [F32.isFinite] using hf
      have h0 : v.mag.val = F32.infMag ∨ v.isNaN = true := by
        simp only [F32.isNaN, decide_eq_true_eq]; omega
      rcases h0 with h0 | h0
      · have hn : v.isNaN = false := by simp [F32.isNaN, h0]
        simp only [hn, h0, if_true, Bool.false_eq_true, if_false]
        cases v.neg <;> split <;> decide
      · simp only [h0, if_true]
        split <;> decide

theorem intBytes_dull (i : Int) : (intBytes i).all dull = true := by
  have h := F32.intBytes_dec i
  have f : ∀ b : UInt8, (F32.isDec b || b == 45) = true → dull b = true := forall_byte (by decide +kernel)
  rw [List.all_eq_true] at h ⊢
  intro b hb; exact f b (h b hb)

/-- Every primitive except references is passed over. -/
theorem skip_prim (pre : Bytes) (p : Prim) (hp : ∀ r, p ≠ .ref r) : Skip m .normal pre (primBytes p) .normal := by
  cases p with
  | null => exact skip_dulls _ _ (by decide)
  | bool v =>
    cases v
    · exact skip_bare _ _ _ (by decide) (by decide)
    · exact skip_dulls _ _ (by decide)
  | int v => exact skip_dulls _ _ (intBytes_dull v)
  | real v => exact skip_dulls _ _ (realBytes_dull v)
  | str s => exact skip_str pre s
  | textStr t =>
    simp only [primBytes, textBytes]; split
    · exact skip_str pre _
    · exact skip_hex pre _
  | textStrLang segs => exact skip_hex pre _
  | name n => exact skip_name pre n
  | ref r => exact absurd rfl (hp r)
  | rect r =>
    apply skip_dulls
    simp only [primBytes, rectBytes, List.all_cons, List.all_append, realBytes_dull]; decide
  | date d =>
    exact Skip.cons (skip_open pre) (Skip.append (skip_strPlains _ _ _ (dateContent_plain d)) (skip_close _))

/-! ## References -/

theorem intBytes_pos (i : Int) (h : 0 < i) : intBytes i = natBytes i.toNat := by
  have : ¬ i < 0 := by omega
  have e : i.natAbs = i.toNat := by omega
  simp [intBytes, this, e]

theorem parseI32_natBytes (n : Nat) (h : n ≤ 2147483647) : parseI32 (natBytes n) = some (n : Int) := by
  have e : (natBytes n).foldl (fun a d => a * 10 + (d.toNat - 48)) 0 = n := digitsVal_natBytes n
  have hne := natBytes_ne_nil n
  unfold parseI32
  rw [e]
  simp [List.isEmpty_iff, hne, h]

theorem validateRef_ref (pre : Bytes) (r : Ref) (h : ∀ x ∈ pre.getLast?, isDigit x = false) :
    validateRef (pre ++ (intBytes r.id ++ b!" 0 ")) = some (pre.length, r, 0) := by
  have hp := r.pos
  have hle := r.le
  have e1 : eatSuffix (pre ++ (intBytes r.id ++ b!" 0 ")) isWhitespace = (pre ++ (intBytes r.id ++ b!" 0"), b!" ") := by
    have := eatSuffix_append (pre ++ (intBytes r.id ++ b!" 0")) b!" " isWhitespace (by decide)
      (by intro x hx; rw [← List.append_assoc, getLast?_append_ne (by simp)] at hx; simp at hx; rw [← hx]; decide)
    simpa using this
  have e2 : eatSuffix (pre ++ (intBytes r.id ++ b!" 0")) isAsciiDigit = (pre ++ (intBytes r.id ++ b!" "), b!"0") := by
    have := eatSuffix_append (pre ++ (intBytes r.id ++ b!" ")) b!"0" isAsciiDigit (by decide)
      (by intro x hx; rw [← List.append_assoc, getLast?_append_ne (by simp)] at hx; simp at hx; rw [← hx]; decide)
    simpa using this
  have hdig : (natBytes r.id.toNat).all isDigit = true := natBytes_digits _
  have hne := natBytes_ne_nil r.id.toNat
  have e3 : eatSuffix (pre ++ (intBytes r.id ++ b!" ")) isWhitespace = (pre ++ intBytes r.id, b!" ") := by
    have := eatSuffix_append (pre ++ intBytes r.id) b!" " isWhitespace (by decide)
      (by
        intro x hx
        rw [intBytes_pos _ hp, getLast?_append_ne hne] at hx
        have hm := List.mem_of_getLast? hx
        rw [List.all_eq_true] at hdig
        exact (digit_facts x (hdig x hm)).2.2.2.2)
    simpa using this
  have e4 : eatSuffix (pre ++ intBytes r.id) isAsciiDigit = (pre, intBytes r.id) := by
    apply eatSuffix_append
    · rw [intBytes_pos _ hp]; exact hdig
    · exact h
  have e5 : parseI32 (intBytes r.id) = some r.id := by
    rw [intBytes_pos _ hp, parseI32_natBytes _ (by omega)]
    congr 1; omega
  have e6 : parseI32 b!"0" = some 0 := by decide
  have e7 : Ref.new r.id = some r := by simp [Ref.new, hp, hle]
  have r1 : requireWhitespaceRev (pre ++ (intBytes r.id ++ b!" 0 ")) = some (pre ++ (intBytes r.id ++ b!" 0")) := by
    simp [requireWhitespaceRev, e1]
  have r2 : requireWhitespaceRev (pre ++ (intBytes r.id ++ b!" ")) = some (pre ++ intBytes r.id) := by
    simp [requireWhitespaceRev, e3]
  have n1 : eatNumberRev (pre ++ (intBytes r.id ++ b!" 0")) = some (0, pre ++ (intBytes r.id ++ b!" ")) := by
    simp [eatNumberRev, e2, e6]
  have n2 : eatNumberRev (pre ++ intBytes r.id) = some (r.id, pre) := by
    simp [eatNumberRev, e4, e5]
  simp only [validateRef, r1, r2, n1, n2, e7]

/-! ## Patching -/

/-- Patching `x` (after `pre`) amounts to writing `x'`, moving the closure's state from `s` to `s'` and updating
the limits with `f`. -/
def Patch (m : Mapping σ) (pre x x' : Bytes) (s s' : σ) (f : Limits → Limits) : Prop :=
  ∀ w rest buf, w ≤ pre.length → ∃ w' buf', w' ≤ (pre ++ x).length ∧
    patchScan m .normal w pre (x ++ rest) buf s = patchScan m .normal w' (pre ++ x) rest buf' s' ∧
    buf'.inner ++ (pre ++ x).drop w' = buf.inner ++ (pre.drop w ++ x') ∧ buf'.limits = f buf.limits

theorem Patch.skip {pre x : Bytes} {s : σ} (h : Skip m .normal pre x .normal) : Patch m pre x x s s id := by
  intro w rest buf hw
  refine ⟨w, buf, by simp; omega, h w rest buf s, ?_, rfl⟩
  rw [List.drop_append_of_le_length hw]

theorem Patch.append {pre x x' y y' : Bytes} {s s1 s2 : σ} {f g : Limits → Limits} (h1 : Patch m pre x x' s s1 f)
    (h2 : Patch m (pre ++ x) y y' s1 s2 g) : Patch m pre (x ++ y) (x' ++ y') s s2 (fun l => g (f l)) := by
  intro w rest buf hw
  obtain ⟨w1, b1, c1, c2, c3, c4⟩ := h1 w (y ++ rest) buf hw
  obtain ⟨w2, b2, d1, d2, d3, d4⟩ := h2 w1 rest b1 c1
  refine ⟨w2, b2, by simpa [List.append_assoc] using d1, ?_, ?_, ?_⟩
  · rw [List.append_assoc, c2, d2, List.append_assoc]
  · rw [List.append_assoc] at d3
    rw [d3, ← List.append_assoc, c3]
    simp
  · rw [d4, c4]

theorem Patch.ref (pre : Bytes) (r : Ref) (s : σ) (h : ∀ x ∈ pre.getLast?, isDigit x = false) :
    Patch m pre (intBytes r.id ++ b!" 0 R") (intBytes (m s r).1.id ++ b!" 0 R") s (m s r).2
      (fun l => (l.registerInt (m s r).1.id).registerInt 0) := by
  intro w rest buf hw
  have e : intBytes r.id ++ b!" 0 R" = (intBytes r.id ++ b!" 0 ") ++ b!"R" := by simp
  have hs : Skip m .normal pre (intBytes r.id ++ b!" 0 ") .normal := by
    apply skip_dulls; simp only [List.all_append, intBytes_dull]; decide
  have hv := validateRef_ref pre r h
  refine ⟨(pre ++ (intBytes r.id ++ b!" 0 ")).length + 1,
    ⟨buf.inner ++ (pre.drop w ++ (intBytes (m s r).1.id ++ b!" 0 R")), (buf.limits.registerInt (m s r).1.id).registerInt 0⟩,
    ?_, ?_, ?_, rfl⟩
  · simp only [List.length_append, List.length_cons, List.length_nil]; omega
  · rw [e, List.append_assoc, hs]
    have htake : (pre ++ (intBytes r.id ++ b!" 0 ")).take pre.length = pre := List.take_left
    have i0 : intBytes 0 = b!"0" := by decide
    simp only [List.cons_append, List.nil_append, patchScan, if_true, hv, htake, pushInt_eq, Buf.extend, Buf.push, i0, Ref.get]
    simp
  · have : (pre ++ (intBytes r.id ++ b!" 0 R")).drop ((pre ++ (intBytes r.id ++ b!" 0 ")).length + 1) = [] := by
      apply List.drop_eq_nil_of_le
      simp only [List.length_append, List.length_cons, List.length_nil]; omega
    rw [this]; simp

end

/-! ## Trees -/

mutual
/-- Limits registered while patching a tree: the new id and the generation of every reference. -/
def patchLimits {σ : Type} (m : Mapping σ) : Prog → σ → Limits → Limits
  | .prim (.ref r), s, l => (l.registerInt (m s r).1.id).registerInt 0
  | .prim _, _, l => l
  | .array items, s, l => patchItemsLimits m items s l
  | .dict entries, s, l => patchEntriesLimits m entries s l
  | .unused, _, l => l
termination_by structural p => p
def patchItemsLimits {σ : Type} (m : Mapping σ) : List Prog → σ → Limits → Limits
  | [], _, l => l
  | x :: xs, s, l => patchItemsLimits m xs (mapProg m x s).2 (patchLimits m x s l)
termination_by structural p => p
def patchEntriesLimits {σ : Type} (m : Mapping σ) : List (Bytes × Prog) → σ → Limits → Limits
  | [], _, l => l
  | (_, x) :: xs, s, l => patchEntriesLimits m xs (mapProg m x s).2 (patchLimits m x s l)
termination_by structural p => p
end

section
variable {σ : Type} (m : Mapping σ)

theorem mapPrim_start (p : Prim) (s : σ) : (mapPrim m p s).1.startsWithDelimiter = p.startsWithDelimiter := by
  cases p <;> rfl

theorem mapPrim_last (p : Prim) (s : σ) : (primBytes (mapPrim m p s).1).getLast? = (primBytes p).getLast? := by
  cases p <;> first | rfl | skip
  rename_i r
  simp only [mapPrim, primBytes]
  rw [getLast?_append_ne (by simp), getLast?_append_ne (by simp)]

theorem enc_last_map (pretty : Bool) (indent : Nat) (pad : Bool) (last : Option UInt8) (p : Prog) (s : σ) :
    (enc pretty indent pad last (mapProg m p s).1).getLast? = (enc pretty indent pad last p).getLast? := by
  cases p with
  | prim p =>
    simp only [mapProg, enc]
    rw [getLast?_append_ne (primBytes_ne_nil _), getLast?_append_ne (primBytes_ne_nil _), mapPrim_last]
  | array items =>
    simp only [mapProg, enc]
    rw [← List.singleton_append, getLast?_append_ne (by simp), getLast?_append_ne (by simp)]
    rw [← List.singleton_append (l := encItems _ _ _ _ items ++ _), getLast?_append_ne (by simp), getLast?_append_ne (by simp)]
  | dict entries =>
    simp only [mapProg, enc]
    rw [getLast?_append_ne (by simp), getLast?_append_ne (by simp), getLast?_append_ne (by simp)]
    rw [getLast?_append_ne (by simp), getLast?_append_ne (by simp), getLast?_append_ne (by simp)]
  | unused => rfl

theorem mapEntries_isEmpty (es : List (Bytes × Prog)) (s : σ) : (mapEntries m es s).1.isEmpty = es.isEmpty := by
  cases es with
  | nil => rfl
  | cons e es => obtain ⟨k, v⟩ := e; rfl

/-- What is needed of the bytes before an object: nothing can be glued to the digits of a reference. -/
def BeforeOk (pad : Bool) (last : Option UInt8) (pre : Bytes) : Prop :=
  if pad then pre.getLast? = last else ∀ x ∈ pre.getLast?, isDigit x = false

variable {m}

theorem lineSep_dull (p : Bool) (n : Nat) : (lineSep p n).all dull = true := by
  cases p
  · rfl
  · simp only [lineSep, if_true, List.all_cons, spaces]
    have : (List.replicate n (32 : UInt8)).all dull = true := by simp [List.all_replicate]; right; decide
    rw [this]; decide

theorem lineSep_notdigit (pre : Bytes) (pretty : Bool) (n : Nat) : True := trivial

theorem delimiter_notdigit : ∀ b : UInt8, isDelimiterCharacter b = true → isDigit b = false :=
  forall_byte (by decide +kernel)

theorem patch_prim (pre : Bytes) (pad : Bool) (last : Option UInt8) (p : Prim) (s : σ) (h : BeforeOk pad last pre) :
    Patch m pre (padOf pad last p ++ primBytes p) (padOf pad last p ++ primBytes (mapPrim m p s).1) s (mapPrim m p s).2
      (patchLimits m (.prim p) s) := by
  have hpad : Patch m pre (padOf pad last p) (padOf pad last p) s s id := by
    apply Patch.skip; apply skip_dulls; unfold padOf; split <;> decide
  by_cases hr : ∃ r, p = .ref r
  · obtain ⟨r, rfl⟩ := hr
    have hnd : ∀ x ∈ (pre ++ padOf pad last (.ref r)).getLast?, isDigit x = false := by
      unfold padOf
      unfold BeforeOk at h
      cases pad with
      | false => simpa using h
      | true =>
        simp only [if_true] at h
        simp only [Prim.startsWithDelimiter, Bool.not_false, Bool.and_self, Bool.true_and]
        split
        · rw [getLast?_append_ne (by simp)]; simp; decide
        · rename_i hl
          simp at hl
          intro x hx
          rw [List.append_nil, h] at hx
          rw [hx] at hl
          exact delimiter_notdigit x (by simpa using hl)
    have := Patch.append hpad (Patch.ref (m := m) (pre ++ padOf pad last (.ref r)) r s hnd)
    exact this
  · have hp : ∀ r, p ≠ .ref r := fun r hr' => hr ⟨r, hr'⟩
    have e : mapPrim m p s = (p, s) := by cases p <;> first | rfl | exact absurd rfl (hp _)
    have el : patchLimits m (.prim p) s = id := by
      funext l; cases p <;> first | (simp [patchLimits]; done) | exact absurd rfl (hp _)
    rw [e, el]
    exact Patch.append hpad (Patch.skip (skip_prim _ p hp))

mutual
theorem patch_enc (pretty : Bool) (p : Prog) (pre : Bytes) (indent : Nat) (pad : Bool) (last : Option UInt8) (s : σ)
    (h : BeforeOk pad last pre) :
    Patch m pre (enc pretty indent pad last p) (enc pretty indent pad last (mapProg m p s).1) s (mapProg m p s).2
      (patchLimits m p s) := by
  match p with
  | .prim p =>
    have e : padOf pad last (mapPrim m p s).1 = padOf pad last p := by unfold padOf; rw [mapPrim_start]
    simp only [enc, mapProg, e]
    exact patch_prim pre pad last p s h
  | .array items =>
    simp only [enc, mapProg, patchLimits]
    have h1 : Patch m pre [ch!"["] [ch!"["] s s id := Patch.skip (skip_dulls _ _ (by decide))
    have h2 := patch_items pretty items (pre ++ [ch!"["]) indent true (some ch!"[") s
      ⟨by rw [getLast?_append_ne (by simp)]; simp, by simp; decide⟩
    have h3 : Patch m (pre ++ [ch!"["] ++ encItems pretty indent true (some ch!"[") items) [ch!"]"] [ch!"]"]
        (mapItems m items s).2 (mapItems m items s).2 id := Patch.skip (skip_dulls _ _ (by decide))
    have h4 := Patch.append h1 (Patch.append h2 h3)
    exact h4
  | .dict entries =>
    simp only [enc, mapProg, patchLimits, mapEntries_isEmpty]
    have h1 : Patch m pre b!"<<" b!"<<" s s id := Patch.skip (skip_dulls _ _ (by decide))
    have h2 := patch_entries pretty entries (pre ++ b!"<<") (saturatingAdd indent 2) s
    have h3 : ∀ q s', Patch m q (lineSep (!entries.isEmpty && pretty) (saturatingAdd indent 2 - 2) ++ b!">>")
        (lineSep (!entries.isEmpty && pretty) (saturatingAdd indent 2 - 2) ++ b!">>") s' s' id := by
      intro q s'
      apply Patch.skip; apply skip_dulls
      simp only [List.all_append, lineSep_dull]; decide
    have h4 := Patch.append h1 (Patch.append h2 (h3 _ _))
    exact h4
  | .unused =>
    simp only [enc, mapProg]
    have e : patchLimits m .unused s = id := by funext l; simp [patchLimits]
    rw [e]
    exact Patch.skip (Skip.nil _ _)
termination_by structural p
theorem patch_items (pretty : Bool) (xs : List Prog) (pre : Bytes) (indent : Nat) (first : Bool) (last : Option UInt8) (s : σ)
    (h : pre.getLast? = last ∧ (first = true → ∀ x ∈ last, isDigit x = false)) :
    Patch m pre (encItems pretty indent first last xs) (encItems pretty indent first last (mapItems m xs s).1) s (mapItems m xs s).2
      (patchItemsLimits m xs s) := by
  match xs with
  | [] =>
    simp only [encItems, mapItems]
    have e : patchItemsLimits m ([] : List Prog) s = id := by funext l; simp [patchItemsLimits]
    rw [e]
    exact Patch.skip (Skip.nil _ _)
  | x :: xs =>
    simp only [encItems, mapItems]
    have hsep : Patch m pre (itemSep pretty first) (itemSep pretty first) s s id := by
      apply Patch.skip; apply skip_dulls; unfold itemSep; split <;> decide
    have hb : BeforeOk (!first && !pretty) last (pre ++ itemSep pretty first) := by
      unfold BeforeOk itemSep
      cases first with
      | true => simpa [h.1] using h.2 rfl
      | false =>
        cases pretty with
        | true => simp; decide
        | false => simpa using h.1
    have h1 := Patch.append hsep (patch_enc pretty x (pre ++ itemSep pretty first) indent (!first && !pretty) last s hb)
    have hl : (itemSep pretty first ++ enc pretty indent (!first && !pretty) last (mapProg m x s).1).getLast? =
        (itemSep pretty first ++ enc pretty indent (!first && !pretty) last x).getLast? := by
      simp only [List.getLast?_append, enc_last_map]
    rw [hl]
    have h2 := patch_items pretty xs (pre ++ (itemSep pretty first ++ enc pretty indent (!first && !pretty) last x)) indent false
      ((itemSep pretty first ++ enc pretty indent (!first && !pretty) last x).getLast?.or last) (mapProg m x s).2
      ⟨by rw [List.getLast?_append (l := pre), h.1], by simp⟩
    have e : patchItemsLimits m (x :: xs) s = fun l => patchItemsLimits m xs (mapProg m x s).2 (patchLimits m x s l) := by
      funext l; simp [patchItemsLimits]
    rw [e]
    have h3 := Patch.append h1 h2
    simpa only [List.append_assoc, id] using h3
termination_by structural xs
theorem patch_entries (pretty : Bool) (es : List (Bytes × Prog)) (pre : Bytes) (indent : Nat) (s : σ) :
    Patch m pre (encEntries pretty indent es) (encEntries pretty indent (mapEntries m es s).1) s (mapEntries m es s).2
      (patchEntriesLimits m es s) := by
  match es with
  | [] =>
    simp only [encEntries, mapEntries]
    have e : patchEntriesLimits m ([] : List (Bytes × Prog)) s = id := by funext l; simp [patchEntriesLimits]
    rw [e]
    exact Patch.skip (Skip.nil _ _)
  | (k, x) :: es =>
    simp only [encEntries, mapEntries]
    have h1 : Patch m pre (lineSep pretty indent) (lineSep pretty indent) s s id :=
      Patch.skip (skip_dulls _ _ (lineSep_dull _ _))
    have h2 : Patch m (pre ++ lineSep pretty indent) (nameBytes k) (nameBytes k) s s id := Patch.skip (skip_name _ _)
    have h3 : Patch m (pre ++ lineSep pretty indent ++ nameBytes k) (keySep pretty) (keySep pretty) s s id := by
      apply Patch.skip; apply skip_dulls; unfold keySep; split <;> decide
    have hb : BeforeOk (!pretty) (nameBytes k).getLast? (pre ++ lineSep pretty indent ++ nameBytes k ++ keySep pretty) := by
      unfold BeforeOk keySep
      cases pretty with
      | true => simp only [Bool.not_true, Bool.false_eq_true, if_false, if_true]; rw [getLast?_append_ne (by simp)]; simp; decide
      | false =>
        simp only [Bool.not_false, Bool.false_eq_true, if_false, if_true, List.append_nil]
        exact getLast?_append_ne (by simp [nameBytes])
    have h4 := patch_enc pretty x _ indent (!pretty) (nameBytes k).getLast? s hb
    have h5 := patch_entries pretty es (pre ++ lineSep pretty indent ++ nameBytes k ++ keySep pretty ++
      enc pretty indent (!pretty) (nameBytes k).getLast? x) indent (mapProg m x s).2
    have e : patchEntriesLimits m ((k, x) :: es) s = fun l => patchEntriesLimits m es (mapProg m x s).2 (patchLimits m x s l) := by
      funext l; simp [patchEntriesLimits]
    rw [e]
    have h6 := Patch.append h1 (Patch.append h2 (Patch.append h3 (Patch.append h4 h5)))
    simpa only [List.append_assoc, id] using h6
termination_by structural es
end
end
end PdfW
