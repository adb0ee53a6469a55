import Verif.Spec.Spelling
import Verif.Proof.Text
import Verif.Proof.Float

set_option linter.unusedSimpArgs false
set_option linter.unusedVariables false

namespace PdfW
open PdfW.Spec

/-! ## Balanced parentheses -/

theorem balanced_step {s : Bytes} (h : Balanced s) : ∀ (d : Nat) (t : Bytes), isBalancedFrom d (s ++ t) = isBalancedFrom d t := by
  induction h with
  | nil => intro d t; rfl
  | byte b s h1 h2 _ ih =>
    intro d t
    simp only [List.cons_append, isBalancedFrom, if_neg h1, if_neg h2, ih]
  | pair s u _ _ ih1 ih2 =>
    intro d t
    simp [isBalancedFrom, List.append_assoc, ih1, ih2]

/-- `d` closing parentheses, each after a balanced part, and a balanced rest. -/
inductive Closes : Nat → Bytes → Prop where
  | done (s : Bytes) : Balanced s → Closes 0 s
  | close (d : Nat) (s t : Bytes) : Balanced s → Closes d t → Closes (d + 1) (s ++ ch!")" :: t)

theorem Closes.byte {d : Nat} {s : Bytes} (b : UInt8) (h1 : b ≠ ch!"(") (h2 : b ≠ ch!")") (h : Closes d s) : Closes d (b :: s) := by
  cases h with
  | done _ h => exact .done _ (.byte _ _ h1 h2 h)
  | close d u t hu ht => exact .close d (b :: u) t (.byte _ _ h1 h2 hu) ht

theorem Closes.openParen {d : Nat} {s : Bytes} (h : Closes (d + 1) s) : Closes d (ch!"(" :: s) := by
  cases h with
  | close d u t hu ht =>
    cases ht with
    | done _ ht => exact .done _ (.pair _ _ hu ht)
    | close d v w hv hw =>
      have := Closes.close d _ w (.pair u v hu hv) hw
      simpa [List.append_assoc] using this

theorem closes_of : ∀ (s : Bytes) (d : Nat), isBalancedFrom d s = true → Closes d s
  | [], d, h => by
    simp only [isBalancedFrom, beq_iff_eq] at h
    subst h
    exact .done _ .nil
  | b :: s, d, h => by
    unfold isBalancedFrom at h
    split at h
    · rename_i hb; subst hb
      exact (closes_of s _ h).openParen
    · rename_i h1
      split at h
      · rename_i hb; subst hb
        split at h
        · rename_i hd
          have := Closes.close (d - 1) [] s .nil (closes_of s _ h)
          rw [Nat.sub_add_cancel hd] at this
          exact this
        · simp at h
      · rename_i h2
        exact (closes_of s d h).byte b h1 h2

theorem isBalanced_iff (s : Bytes) : isBalanced s = true ↔ Balanced s := by
  constructor
  · intro h
    cases closes_of s 0 h with
    | done _ h => exact h
  · intro h
    have := balanced_step h 0 []
    rw [List.append_nil] at this
    rw [isBalanced, this]; rfl

/-! ## Bytes -/

theorem hex2_eq : ∀ b : UInt8, hex2 b = hexPair b := forall_byte (by decide +kernel)

theorem litByte_eq (bal : Bool) : ∀ b : UInt8, b < 128 → litByte bal b = escaped (!bal) b := by
  cases bal <;> exact forall_byte (by decide +kernel)

theorem flatMap_congr' {α β : Type} (f g : α → List β) : ∀ (s : List α), (∀ b ∈ s, f b = g b) → s.flatMap f = s.flatMap g
  | [], _ => rfl
  | b :: s, h => by
    simp only [List.flatMap_cons, h b (by simp), flatMap_congr' f g s (fun x hx => h x (by simp [hx]))]

theorem flatMap_self {α : Type} (f : α → List α) : ∀ (s : List α), (∀ b ∈ s, f b = [b]) → s.flatMap f = s
  | [], _ => rfl
  | b :: s, h => by
    simp only [List.flatMap_cons, h b (by simp), flatMap_self f s (fun x hx => h x (by simp [hx])), List.singleton_append]

theorem strBytes_ascii (s : Bytes) (h : ∀ b ∈ s, b < 128) (parens : Bool) (hp : parens = true ↔ ¬ Balanced s) :
    strBytes s = ch!"(" :: (s.flatMap (escaped parens) ++ [ch!")"]) := by
  have ha : (s.all (fun b => decide (b < 128))) = true := by
    rw [List.all_eq_true]; intro b hb; exact decide_eq_true (h b hb)
  have hb : parens = !isBalanced s := by
    rw [← isBalanced_iff] at hp
    cases parens <;> cases hx : isBalanced s <;> simp_all
  rw [strBytes, if_pos ha, hb]
  congr 2
  exact flatMap_congr' _ _ s (fun b hbs => by rw [litByte_eq _ b (h b hbs)])

theorem strBytes_hex (s : Bytes) (h : ∃ b ∈ s, 128 ≤ b) : strBytes s = ch!"<" :: (s.flatMap hexPair ++ [ch!">"]) := by
  obtain ⟨b, hb, h⟩ := h
  have ha : ¬ (s.all (fun b => decide (b < 128))) = true := by
    intro hx
    rw [List.all_eq_true] at hx
    have := of_decide_eq_true (hx b hb)
    have h1 : b.toNat < 128 := by simpa [UInt8.lt_iff_toNat_lt] using this
    have h2 : 128 ≤ b.toNat := by simpa [UInt8.le_iff_toNat_le] using h
    omega
  rw [strBytes, if_neg ha]
  congr 2
  exact flatMap_congr' _ _ s (fun b _ => hex2_eq b)

/-! ## Names -/

theorem nameByte_plain : ∀ b : UInt8, isRegular b = true → 0x21 ≤ b → b ≤ 0x7E → b ≠ ch!"#" → nameByte b = [b] :=
  forall_byte (by decide +kernel)

theorem nameByte_length_le : ∀ b : UInt8, (nameByte b).length ≤ 3 := forall_byte (by decide +kernel)

/-- No spelling of a name in printable regular characters is shorter than the one chosen byte by byte. -/
theorem decodeName_length : ∀ (k : Nat) (o n : Bytes), o.length ≤ k → (∀ b ∈ o, isRegular b = true ∧ 0x21 ≤ b ∧ b ≤ 0x7E) →
    decodeName o = some n → (n.flatMap nameByte).length ≤ o.length
  | 0, o, n, hk, ho, hd => by
    have : o = [] := List.length_eq_zero_iff.mp (by omega)
    subst this
    simp only [decodeName, Option.some.injEq] at hd
    subst hd; simp
  | k + 1, [], n, hk, ho, hd => by
    simp only [decodeName, Option.some.injEq] at hd
    subst hd; simp
  | k + 1, b :: o, n, hk, ho, hd => by
    rw [decodeName.eq_def] at hd
    simp only at hd
    split at hd
    · split at hd
      · rename_i h l r
        split at hd
        · rename_i hv lv m _ _ hr
          simp only [Option.some.injEq] at hd
          subst hd
          have := decodeName_length k r m (by simp at hk; omega) (fun x hx => ho x (by simp [hx])) hr
          have h3 := nameByte_length_le (hv * 16 + lv)
          simp only [List.flatMap_cons, List.length_append, List.length_cons]
          omega
        · simp at hd
      · simp at hd
    · rename_i hb
      split at hd
      · rename_i m hr
        simp only [Option.some.injEq] at hd
        subst hd
        have := decodeName_length k o m (by simp at hk; omega) (fun x hx => ho x (by simp [hx])) hr
        obtain ⟨h1, h2, h3⟩ := ho b (by simp)
        simp only [List.flatMap_cons, nameByte_plain b h1 h2 h3 hb, List.length_append, List.length_cons, List.length_nil]
        omega
      · simp at hd

/-! ## UTF-16 -/

theorem unitBytes_utf16Char (c : Char) : unitBytes (utf16Char c) = bigEndian c := by
  have hc : c.toNat < 0x110000 := by
    have := c.valid
    simp only [UInt32.isValidChar, Nat.isValidChar] at this
    change c.val.toNat < _
    omega
  have key : ∀ n : Nat, n < 65536 →
      [(UInt16.ofNat n >>> 8).toUInt8, (UInt16.ofNat n).toUInt8] = [UInt8.ofNat (n / 256), UInt8.ofNat (n % 256)] := by
    intro n hn
    congr 1
    · apply UInt8.toNat_inj.mp
      simp [UInt16.toNat_shiftRight, Nat.shiftRight_eq_div_pow]
      omega
    · congr 1
      apply UInt8.toNat_inj.mp
      simp
  unfold utf16Char bigEndian
  simp only
  split
  · rename_i h
    simpa only [unitBytes, List.flatMap_cons, List.flatMap_nil, List.append_nil] using key _ h
  · rename_i h
    have h1 := key (0xD800 + (c.toNat - 0x10000) / 1024) (by omega)
    have h2 := key (0xDC00 + (c.toNat - 0x10000) % 1024) (by omega)
    simp only [unitBytes, List.flatMap_cons, List.flatMap_nil, List.append_nil]
    rw [h1, h2]

theorem unitBytes_utf16 (t : List Char) : unitBytes (utf16 t) = t.flatMap bigEndian := by
  induction t with
  | nil => rfl
  | cons c t ih =>
    rw [utf16, List.flatMap_cons, unitBytes_append, unitBytes_utf16Char, List.flatMap_cons]
    rw [utf16] at ih
    rw [ih]

theorem utf8Char_plain (c : Char) (h1 : 0x20 ≤ c.toNat) (h2 : c.toNat ≤ 0x7E) :
    utf8Char c = [UInt8.ofNat c.toNat] ∧ 0x20 ≤ UInt8.ofNat c.toNat ∧ UInt8.ofNat c.toNat ≤ 0x7E := by
  refine ⟨by unfold utf8Char; exact if_pos (by omega), ?_, ?_⟩
  · rw [UInt8.le_iff_toNat_le]
    simp only [UInt8.toNat_ofNat', Nat.reducePow, Nat.mod_eq_of_lt (show c.toNat < 256 by omega)]; exact h1
  · rw [UInt8.le_iff_toNat_le]
    simp only [UInt8.toNat_ofNat', Nat.reducePow, Nat.mod_eq_of_lt (show c.toNat < 256 by omega)]; exact h2

theorem utf8_plain (t : List Char) (h : ∀ c ∈ t, 0x20 ≤ c.toNat ∧ c.toNat ≤ 0x7E) :
    utf8 t = t.map (fun c => UInt8.ofNat c.toNat) ∧ ∀ b ∈ utf8 t, 0x20 ≤ b ∧ b ≤ 0x7E := by
  induction t with
  | nil => exact ⟨rfl, by simp [utf8]⟩
  | cons c t ih =>
    obtain ⟨i1, i2⟩ := ih (fun x hx => h x (by simp [hx]))
    obtain ⟨h1, h2⟩ := h c (by simp)
    obtain ⟨e, e2⟩ := utf8Char_plain c h1 h2
    simp only [utf8, List.flatMap_cons, e, List.map_cons, List.singleton_append] at i1 i2 ⊢
    refine ⟨by rw [i1], ?_⟩
    intro b hb
    rcases List.mem_cons.mp hb with hb | hb
    · subst hb; exact e2
    · exact i2 b hb

theorem textBytes_utf16 (t : List Char) (h : ∃ c ∈ t, c.toNat < 0x20 ∨ 0x7E < c.toNat) :
    textBytes t = ch!"<" :: ((0xFE :: 0xFF :: t.flatMap bigEndian).flatMap hexPair ++ [ch!">"]) := by
  obtain ⟨c, hc, h⟩ := h
  have hn : ¬ (utf8 t).all (fun b => 32 ≤ b && b ≤ 126) = true := by
    intro hx
    rw [List.all_eq_true] at hx
    have : (utf8Char c).all (fun b => 32 ≤ b && b ≤ 126) = true := by
      rw [List.all_eq_true]
      intro b hb
      exact hx b (List.mem_flatMap.mpr ⟨c, hc, hb⟩)
    have := utf8Char_ascii c this
    omega
  rw [textBytes, if_neg hn, textContent, if_neg hn, unitBytes_utf16]
  congr 2
  exact flatMap_congr' _ _ _ (fun b _ => hex2_eq b)

theorem textBytes_plain (t : List Char) (h : ∀ c ∈ t, 0x20 ≤ c.toNat ∧ c.toNat ≤ 0x7E) :
    textBytes t = strBytes (t.map (fun c => UInt8.ofNat c.toNat)) := by
  obtain ⟨h1, h2⟩ := utf8_plain t h
  have hn : (utf8 t).all (fun b => 32 ≤ b && b ≤ 126) = true := by
    rw [List.all_eq_true]
    intro b hb
    obtain ⟨x, y⟩ := h2 b hb
    simp [x, y]
  rw [textBytes, if_pos hn, h1]

/-! ## Integers -/

theorem readUnsigned_int (neg : Bool) (body : Bytes) (i : Int) (h : readUnsigned neg body = some (.int i)) :
    i = applySign neg (digitsVal body) ∧ body ≠ [] ∧ body.all isDigit = true := by
  unfold readUnsigned at h
  simp only at h
  split at h
  · rename_i hd
    have hall : body.all isDigit = true := by
      clear h
      induction body with
      | nil => rfl
      | cons b r ih =>
        cases hb : isDigit b with
        | false => simp [List.dropWhile, hb] at hd
        | true =>
          simp only [List.dropWhile, hb] at hd
          simp [hb, ih hd]
    rw [(takeWhile_all body hall).1] at h
    split at h
    · simp at h
    · rename_i he
      simp only [Option.some.injEq, Tok.int.injEq] at h
      exact ⟨h.symm, by intro hx; subst hx; simp at he, hall⟩
  · split at h <;> simp at h

theorem natBytes_shortest (ds : Bytes) (h : ds.all isDigit = true) (hne : ds ≠ []) :
    (natBytes (digitsVal ds)).length ≤ ds.length := by
  have hlen : 0 < ds.length := List.length_pos_iff.mpr hne
  have hlt := digitsVal_lt ds h
  rcases Nat.eq_zero_or_pos (digitsVal ds) with h0 | h0
  · rw [h0]
    have : (natBytes 0).length = 1 := by decide +kernel
    omega
  · have hge := natBytes_ge _ h0
    have : (natBytes (digitsVal ds)).length - 1 < ds.length := by
      rcases Nat.lt_or_ge ((natBytes (digitsVal ds)).length - 1) ds.length with hx | hx
      · exact hx
      · have := Nat.pow_le_pow_right (show 0 < 10 by omega) hx
        omega
    omega

theorem intBytes_shortest (o : Bytes) (i : Int) (h : readNumber o = some (.int i)) : (intBytes i).length ≤ o.length := by
  have pos : ∀ ds : Bytes, ds.all isDigit = true → ds ≠ [] → (intBytes (digitsVal ds : Int)).length ≤ ds.length := by
    intro ds hd hne
    have : ¬ ((digitsVal ds : Int) < 0) := by omega
    simp only [intBytes, this, if_false, Int.natAbs_natCast]
    exact natBytes_shortest ds hd hne
  unfold readNumber at h
  split at h
  · simp at h
  · rename_i b r
    split at h
    · obtain ⟨e, hne, hd⟩ := readUnsigned_int _ _ _ h
      have hs := natBytes_shortest r hd hne
      simp only [applySign, if_true] at e
      rcases Nat.eq_zero_or_pos (digitsVal r) with h0 | h0
      · have : i = 0 := by omega
        subst this
        have : (intBytes 0).length = 1 := by decide +kernel
        simp only [List.length_cons]; omega
      · have hi : i < 0 := by omega
        have hn : i.natAbs = digitsVal r := by omega
        simp only [intBytes, hi, if_true, List.length_cons]
        simp only [hn]
        omega
    · split at h
      · obtain ⟨e, hne, hd⟩ := readUnsigned_int _ _ _ h
        have := pos r hd hne
        simp only [applySign] at e
        subst e
        simp only [List.length_cons]
        simp at this ⊢
        omega
      · obtain ⟨e, hne, hd⟩ := readUnsigned_int _ _ _ h
        have := pos _ hd hne
        simp only [applySign] at e
        subst e
        simpa using this


/-! ## Precision of reals -/

namespace F32

theorem RoundsTo_bool {N D m : Nat} (hD : 0 < D) (h : RoundsTo N D m) : roundsTo N D m = true := by
  obtain ⟨hm, hall⟩ := h
  have hup := hall (m + 1) (by omega)
  have hlo := hall (m - 1) (by omega)
  have s1 : scaled m * D < scaled (m + 1) * D := Nat.mul_lt_mul_of_pos_right (scaled_succ m) hD
  have s2 : 0 < m → scaled (m - 1) * D < scaled m * D := fun h0 => Nat.mul_lt_mul_of_pos_right (scaled_lt (by omega)) hD
  unfold roundsTo
  simp only [Bool.and_eq_true, Bool.or_eq_true, decide_eq_true_eq, beq_iff_eq, Nat.add_mul]
  unfold dist at hup hlo
  generalize N * 2 ^ 149 = y at *
  generalize scaled m * D = p at *
  generalize scaled (m + 1) * D = u at *
  generalize scaled (m - 1) * D = l at *
  constructor
  · have a := hup.1
    have b := hup.2 (by omega)
    omega
  · rcases Nat.eq_zero_or_pos m with h0 | h0
    · exact Or.inl (Or.inl h0)
    · have s2 := s2 h0
      have a := hlo.1
      have b := hlo.2 (by omega)
      omega

/-- If a decimal in units of `10^(38 - i)` rounds to `m`, then so does one of the two next to `m`. -/
theorem neighbour_rounds (m d i : Nat) (hm : 0 < m) (h : roundsTo (decNum d i) (decDen i) m = true) :
    roundsTo (decNum (roundDiv (unitNum m i) (unitDen i)) i) (decDen i) m = true ∨
    roundsTo (decNum (otherDiv (unitNum m i) (unitDen i)) i) (decDen i) m = true := by
  have e1 : ∀ x, decNum x i * 2 ^ 149 = x * unitDen i := by
    intro x
    unfold decNum unitDen
    split <;> ac_rfl
  have e2 : scaled m * decDen i = unitNum m i := by
    unfold decDen unitNum
    split
    · omega
    · rfl
  have hb : 0 < unitDen i := by
    unfold unitDen
    split
    · exact Nat.mul_pos (Nat.pow_pos (by decide)) (Nat.pow_pos (by decide))
    · exact Nat.pow_pos (by decide)
  have hD := decDen_pos i
  have s1 : scaled m * decDen i < scaled (m + 1) * decDen i := Nat.mul_lt_mul_of_pos_right (scaled_succ m) hD
  have s2 : scaled (m - 1) * decDen i < scaled m * decDen i := Nat.mul_lt_mul_of_pos_right (scaled_lt (by omega)) hD
  have key : ∀ x, roundsTo (decNum x i) (decDen i) m = true ↔
      ((2 * (x * unitDen i) < scaled m * decDen i + scaled (m + 1) * decDen i ∨
        2 * (x * unitDen i) = scaled m * decDen i + scaled (m + 1) * decDen i ∧ m % 2 = 0) ∧
      ((m = 0 ∨ scaled (m - 1) * decDen i + scaled m * decDen i < 2 * (x * unitDen i)) ∨
        scaled (m - 1) * decDen i + scaled m * decDen i = 2 * (x * unitDen i) ∧ m % 2 = 0)) := by
    intro x
    unfold roundsTo
    simp only [Bool.and_eq_true, Bool.or_eq_true, decide_eq_true_eq, beq_iff_eq, Nat.add_mul, e1]
  rw [key] at h
  rw [key, key]
  have hdm := Nat.div_add_mod (unitNum m i) (unitDen i)
  have hlt := Nat.mod_lt (unitNum m i) hb
  have lowd : d ≤ unitNum m i / unitDen i → d * unitDen i ≤ unitNum m i / unitDen i * unitDen i :=
    fun hx => Nat.mul_le_mul_right _ hx
  have highd : unitNum m i / unitDen i + 1 ≤ d → (unitNum m i / unitDen i + 1) * unitDen i ≤ d * unitDen i :=
    fun hx => Nat.mul_le_mul_right _ hx
  rw [Nat.mul_comm] at hdm
  unfold roundDiv otherDiv
  have hs : (unitNum m i / unitDen i + 1) * unitDen i = unitNum m i / unitDen i * unitDen i + unitDen i := by
    rw [Nat.add_mul, Nat.one_mul]
  rw [hs] at highd
  by_cases hc : 2 * (unitNum m i % unitDen i) < unitDen i ∨
      (2 * (unitNum m i % unitDen i) = unitDen i ∧ unitNum m i / unitDen i % 2 = 0)
  · simp only [if_pos hc, hs]
    clear key e1 hc
    generalize unitNum m i / unitDen i * unitDen i = qb at *
    generalize unitNum m i % unitDen i = r at *
    generalize unitNum m i / unitDen i = q at *
    generalize unitNum m i = a at *
    generalize unitDen i = b at *
    generalize d * b = db at *
    generalize scaled (m + 1) * decDen i = u at *
    generalize scaled (m - 1) * decDen i = l at *
    generalize scaled m * decDen i = t at *
    rcases Nat.lt_or_ge q d with hq | hq
    · have := highd hq; omega
    · have := lowd hq; omega
  · simp only [if_neg hc, hs]
    clear key e1 hc
    generalize unitNum m i / unitDen i * unitDen i = qb at *
    generalize unitNum m i % unitDen i = r at *
    generalize unitNum m i / unitDen i = q at *
    generalize unitNum m i = a at *
    generalize unitDen i = b at *
    generalize d * b = db at *
    generalize scaled (m + 1) * decDen i = u at *
    generalize scaled (m - 1) * decDen i = l at *
    generalize scaled m * decDen i = t at *
    rcases Nat.lt_or_ge q d with hq | hq
    · have := highd hq; omega
    · have := lowd hq; omega

theorem shortestFrom_coarsest (m d i' : Nat) (hm : 0 < m) (h : roundsTo (decNum d i') (decDen i') m = true) :
    ∀ fuel i, i ≤ i' → (shortestFrom m fuel i).2 ≤ i'
  | 0, i, hi => by simpa [shortestFrom] using hi
  | fuel + 1, i, hi => by
    rw [shortestFrom]
    split
    · exact hi
    · rename_i h1
      split
      · exact hi
      · rename_i h2
        rcases Nat.lt_or_ge i i' with hl | hl
        · exact shortestFrom_coarsest m d i' hm h fuel (i + 1) hl
        · have : i = i' := by omega
          subst this
          rcases neighbour_rounds m d i hm h with h | h
          · exact absurd h h1
          · exact absurd h h2

/-- No decimal that rounds to the magnitude has a coarser unit than the one found. -/
theorem shortest_coarsest (m N s : Nat) (hm : 0 < m) (h : RoundsTo N (10 ^ s) m) : (shortest m).2 ≤ 38 + s := by
  have hb := RoundsTo_bool (Nat.pow_pos (by decide)) h
  refine shortestFrom_coarsest m N (38 + s) hm ?_ 187 0 (by omega)
  unfold decNum decDen
  rcases Nat.eq_zero_or_pos s with h0 | h0
  · subst h0; simpa using hb
  · rw [if_neg (by omega), if_neg (by omega), Nat.add_sub_cancel_left]
    exact hb

theorem shortest_le_decimals (v : F32) (h0 : 0 < v.mag.val) (t : Tok) (h : NumIs v (tokVal t)) :
    (shortest v.mag.val).2 ≤ 38 + decimals t := by
  cases t with
  | int n => exact shortest_coarsest _ n.natAbs 0 h0 h.1
  | real m s => exact shortest_coarsest _ m.natAbs s h0 h.1
  | _ => exact absurd h (by simp [tokVal, NumIs])

theorem decimalBytes_precision (v : F32) (hf : v.isFinite = true) (t : Tok) (ht : NumIs v (tokVal t)) :
    ∃ tok, readNumber v.decimalBytes = some tok ∧ (decimals tok ≤ decimals t ∨ ∃ ip, v.decimalBytes = ip ++ b!".0") := by
  have hm : v.mag.val < infMag := by simpa [isFinite] using hf
  have hn : v.isNaN = false := by simp [isNaN]; omega
  have hni : v.mag.val ≠ infMag := by omega
  obtain ⟨-, -, tok, hread, -⟩ := decimalBytes_spells v hf
  refine ⟨tok, hread, ?_⟩
  unfold decimalBytes at hread ⊢
  by_cases h0 : v.mag.val = 0
  · have hz : v.eq zero = true := by
      have hzn : zero.isNaN = false := by decide
      have : v.sval = zero.sval := by
        unfold sval; rw [h0]; cases v.neg <;> decide
      simp [eq, hn, hzn, this]
    rw [hz, Bool.true_or, if_pos rfl]
    right
    unfold ryuFormat
    rw [hn]
    simp only [Bool.false_eq_true, if_false, if_neg hni, if_pos h0]
    exact ⟨(if v.neg then b!"-" else []) ++ b!"0", by rw [List.append_assoc]; rfl⟩
  · have hpos : 0 < v.mag.val := by omega
    have hle := shortest_le_decimals v hpos t ht
    have hz : v.eq zero = false := by
      have : v.sval ≠ 0 := by
        have := scaled_lt hpos
        unfold sval; split <;> omega
      have e : zero.sval = 0 := by decide
      simp [eq, e, this]
    rw [hz, Bool.false_or] at hread ⊢
    split
    · rename_i hr
      rw [if_pos hr] at hread
      rw [Bool.and_eq_true] at hr
      have r1 := lt_mag _ _ rfl rfl hr.1
      have r2 := lt_mag _ _ rfl rfl hr.2
      have rr := ryu_range v.mag.val r1 r2
      unfold ryuFormat at hread ⊢
      rw [hn] at hread ⊢
      simp only [Bool.false_eq_true, if_false, if_neg hni, if_neg h0] at hread ⊢
      rw [readNumber_signed _ _ (ryuLayout_head _ _), ryuLayout_read _ _ _ rr.1 rr.2, Option.some.injEq] at hread
      obtain ⟨-, r2⟩ := rr
      generalize shortest v.mag.val = sp at *
      obtain ⟨d, i⟩ := sp
      simp only at *
      by_cases hk : 0 ≤ 38 - (i : Int)
      · right
        have e : ryuLayout d (38 - (i : Int)) = natBytes d ++ List.replicate (38 - (i : Int)).toNat ch!"0" ++ b!".0" :=
          if_pos ⟨hk, r2⟩
        rw [e]
        exact ⟨_, (List.append_assoc _ _ _).symm⟩
      · left
        rw [layoutTok, if_neg hk] at hread
        rw [← hread]
        show (-(38 - (i : Int))).toNat ≤ decimals t
        omega
    · rename_i hr
      rw [if_neg hr] at hread
      unfold displayFormat at hread ⊢
      rw [hn] at hread ⊢
      simp only [Bool.false_eq_true, if_false, if_neg hni, if_neg h0] at hread ⊢
      rw [readNumber_signed _ _ (displayLayout_head _ _), displayLayout_read, Option.some.injEq] at hread
      generalize shortest v.mag.val = sp at *
      obtain ⟨d, i⟩ := sp
      simp only at *
      left
      by_cases hk : 0 ≤ 38 - (i : Int)
      · rw [if_pos hk] at hread
        rw [← hread]
        exact Nat.zero_le _
      · rw [if_neg hk, layoutTok, if_neg hk] at hread
        rw [← hread]
        show (-(38 - (i : Int))).toNat ≤ decimals t
        omega

theorem toI32_of (v : F32) (i : Int) (hi : -2147483648 ≤ i ∧ i ≤ 2147483647) (h : IsInteger v i) : v.toI32 = i := by
  obtain ⟨h1, h2, h3⟩ := h
  unfold toI32
  rw [h1, h2]
  have hP : (0 : Nat) < 2 ^ 149 := Nat.pow_pos (by decide)
  simp only [Bool.false_eq_true, if_false, Nat.mul_div_cancel _ hP]
  by_cases h0 : i = 0
  · subst h0; simp only [Int.natAbs_zero]; split <;> omega
  · rw [h3 h0]
    by_cases hn : i < 0
    · simp only [hn, decide_true, if_true]; omega
    · simp only [hn, decide_false, Bool.false_eq_true, if_false]; omega

theorem realBytes_integer (v : F32) (i : Int) (hi : -2147483648 ≤ i ∧ i ≤ 2147483647) (h : IsInteger v i) :
    v.realBytes = intBytes i := by
  have ht := toI32_of v i hi h
  obtain ⟨h1, h2, h3⟩ := h
  have hint : v.isIntegral = true := by
    unfold isIntegral eq
    rw [ht]
    obtain ⟨m1, m2⟩ := magOfNat_spec i.natAbs (by omega)
    have hmag : (ofI32 i).mag.val = magOfNat i.natAbs := by
      simp only [ofI32, Fin.val_ofNat]
      exact Nat.mod_eq_of_lt (by omega)
    have hnan : (ofI32 i).isNaN = false := by
      simp only [isNaN, hmag, infMag, decide_eq_false_iff_not]
      omega
    have hr1 := roundsTo_spec _ _ _ (by decide) (by unfold infMag; omega) m1
    have hr2 := roundsTo_of_exact i.natAbs v.mag.val h2
    have hval : scaled (magOfNat i.natAbs) = i.natAbs * 2 ^ 149 := by
      have hd := hr1.2 v.mag.val (by simp [isNaN] at h1; exact h1)
      unfold dist at hd
      rw [h2] at hd
      simp only [Nat.mul_one] at hd
      omega
    have hsv : (ofI32 i).sval = v.sval := by
      unfold sval
      rw [hmag, hval, h2]
      by_cases h0 : i = 0
      · subst h0; simp
      · rw [h3 h0]; simp [ofI32]
    simp [hnan, h1, hsv]
  unfold realBytes
  rw [hint, ht]; rfl

end F32

end PdfW
