import Verif.Proof.Spelling
import Verif.Props.Primitives

/-!
# Property C69: strings, names and numbers are spelled plainly

The other theorems about primitives say that what is written reads back. These say that the spelling is the plain one: nothing is
escaped without need, nothing is spelled longer or more precisely than needed.
-/

set_option linter.unusedSimpArgs false
set_option linter.unusedVariables false

namespace PdfW.Props
open PdfW PdfW.Spec

/-! ## Names -/

/-- C69: a name of printable regular characters other than the number sign is written as it is, after the slash. -/
theorem C69_name_plain (n : Bytes) (hn : ∀ b ∈ n, isRegular b = true ∧ 0x21 ≤ b ∧ b ≤ 0x7E ∧ b ≠ ch!"#") (buf : Buf) :
    ((Prim.name n).write buf).inner = buf.inner ++ ch!"/" :: n := by
  rw [show (Prim.name n).write buf = writeName n buf from rfl, writeName_eq, nameBytes]
  simp only
  rw [flatMap_self nameByte n (fun b hb => nameByte_plain b (hn b hb).1 (hn b hb).2.1 (hn b hb).2.2.1 (hn b hb).2.2.2)]

example : ∀ b ∈ b!"Font-1.A@x", isRegular b = true ∧ 0x21 ≤ b ∧ b ≤ 0x7E ∧ b ≠ ch!"#" := by decide +kernel

/-- C69: among the spellings of a name in printable characters, none is shorter than the one written. -/
theorem C69_name_shortest (n other : Bytes) (ho : ∀ b ∈ other, 0x21 ≤ b ∧ b ≤ 0x7E)
    (hr : nextToken other = some (.name n, [])) (buf : Buf) :
    ∃ out, ((Prim.name n).write buf).inner = buf.inner ++ out ∧ nextToken out = some (.name n, []) ∧ out.length ≤ other.length := by
  refine ⟨nameBytes n, by rw [show (Prim.name n).write buf = writeName n buf from rfl, writeName_eq], ?_, ?_⟩
  · have := nextToken_of_tokenAt (tokenAt_nameBytes n [] rfl) ⟨_, _, rfl, by decide, by decide⟩
    simpa using this
  · cases other with
    | nil => simp [nextToken, skipSpace, tokenAt] at hr
    | cons b r =>
      have hb := ho b (by simp)
      have facts : ∀ b : UInt8, 0x21 ≤ b ∧ b ≤ 0x7E → isWhite b = false := forall_byte (by decide +kernel)
      rw [nextToken, skipSpace, facts b hb] at hr
      simp only [Bool.false_eq_true, if_false] at hr
      split at hr
      · -- a comment would have to end with a line break
        have nocr : ∀ (r : Bytes), (∀ b ∈ r, 0x21 ≤ b ∧ b ≤ 0x7E) → skipSpace true r = [] := by
          intro r
          induction r with
          | nil => intro _; rfl
          | cons x xs ih =>
            intro h
            have hx := h x (by simp)
            have f : ∀ b : UInt8, 0x21 ≤ b ∧ b ≤ 0x7E → ¬ (b = 0x0A ∨ b = 0x0D) := forall_byte (by decide +kernel)
            rw [skipSpace, if_neg (f x hx)]
            exact ih (fun y hy => h y (by simp [hy]))
        rw [nocr r (fun y hy => ho y (by simp [hy]))] at hr
        simp [tokenAt] at hr
      · have hname : b = ch!"/" ∧ decodeName (r.takeWhile isRegular) = some n := by
          have run : ∀ x, readRun x ≠ .name n := by
            intro x hx
            unfold readRun at hx
            split at hx
            · rename_i t ht
              subst hx
              unfold readNumber at ht
              have un : ∀ s y, readUnsigned s y ≠ some (.name n) := by
                intro s y hy
                unfold readUnsigned at hy
                simp only at hy
                split at hy <;> split at hy <;> simp at hy
              split at ht
              · simp at ht
              · split at ht
                · exact un _ _ ht
                · split at ht <;> exact un _ _ ht
            · simp at hx
          unfold tokenAt at hr
          simp only at hr
          repeat' split at hr
          all_goals (first | (simp at hr; done) | skip)
          all_goals (simp only [Option.some.injEq, Prod.mk.injEq] at hr)
          · rename_i hb _ m hm
            refine ⟨hb, ?_⟩
            have : m = n := by simpa using hr.1
            rw [← this]; exact hm
          · exact absurd hr.1 (run _)
        obtain ⟨hb, hd⟩ := hname
        have htw : ∀ x ∈ r.takeWhile isRegular, isRegular x = true ∧ 0x21 ≤ x ∧ x ≤ 0x7E := by
          intro x hx
          refine ⟨?_, ho x (by simp [(List.takeWhile_sublist _).subset hx])⟩
          have := List.all_takeWhile (l := r) (p := isRegular)
          rw [List.all_eq_true] at this
          exact this x hx
        have hlen := decodeName_length _ _ n (Nat.le_refl _) htw hd
        have := (List.takeWhile_sublist (l := r) isRegular).length_le
        simp only [nameBytes, List.length_cons]
        omega

/-- The hypotheses are met by a longer spelling of a name. -/
example : nextToken b!"/A#42" = some (.name b!"AB", []) ∧ ∀ b ∈ b!"/A#42", 0x21 ≤ b ∧ b ≤ 0x7E := by
  constructor <;> decide +kernel

/-! ## Byte strings -/

/-- C69: a string of printable ASCII characters without backslashes whose parentheses balance is written as it is, in parentheses. -/
theorem C69_str_plain (s : Bytes) (hs : ∀ b ∈ s, 0x20 ≤ b ∧ b ≤ 0x7E ∧ b ≠ ch!"\\") (hb : Balanced s) (buf : Buf) :
    ((Prim.str s).write buf).inner = buf.inner ++ ch!"(" :: (s ++ [ch!")"]) := by
  have lt : ∀ b : UInt8, b ≤ 0x7E → b < 128 := forall_byte (by decide +kernel)
  have self : ∀ b : UInt8, 0x20 ≤ b → b ≤ 0x7E → b ≠ ch!"\\" → escaped false b = [b] := forall_byte (by decide +kernel)
  rw [show (Prim.str s).write buf = writeStr s buf from rfl, writeStr_eq,
    strBytes_ascii s (fun b h => lt b (hs b h).2.1) false (by simp [hb]),
    flatMap_self (escaped false) s (fun b h => self b (hs b h).1 (hs b h).2.1 (hs b h).2.2)]

example : (∀ b ∈ b!"f(x) (y)", 0x20 ≤ b ∧ b ≤ 0x7E ∧ b ≠ ch!"\\") ∧ Balanced b!"f(x) (y)" :=
  ⟨by decide +kernel, (isBalanced_iff _).mp (by decide +kernel)⟩

/-- C69: a string of ASCII characters is written literally: each byte as it is or with its escape of ISO 32000-1, Table 3, and
parentheses escaped only if they do not balance. -/
theorem C69_str_ascii (s : Bytes) (hs : ∀ b ∈ s, b < 0x80) (buf : Buf) :
    ∃ parens : Bool, (parens = true ↔ ¬ Balanced s) ∧
      ((Prim.str s).write buf).inner = buf.inner ++ ch!"(" :: (s.flatMap (escaped parens) ++ [ch!")"]) := by
  refine ⟨!isBalanced s, ?_, ?_⟩
  · rw [← isBalanced_iff]; simp
  · rw [show (Prim.str s).write buf = writeStr s buf from rfl, writeStr_eq,
      strBytes_ascii s hs (!isBalanced s) (by rw [← isBalanced_iff]; simp)]

example : (∀ b ∈ b!"a)(\n\x01\x7f", b < 0x80) ∧ ¬ Balanced b!"a)(\n\x01\x7f" ∧
    (b!"a)(\n\x01\x7f").flatMap (escaped true) = b!"a\\)\\(\\n\\001\\177" :=
  ⟨by decide +kernel, fun h => absurd ((isBalanced_iff _).mpr h) (by decide +kernel), by decide +kernel⟩

/-- C69: a string with a byte outside of ASCII is written in hexadecimal, two upper-case digits for each byte. -/
theorem C69_str_hex (s : Bytes) (hs : ∃ b ∈ s, 0x80 ≤ b) (buf : Buf) :
    ((Prim.str s).write buf).inner = buf.inner ++ ch!"<" :: (s.flatMap hexPair ++ [ch!">"]) := by
  rw [show (Prim.str s).write buf = writeStr s buf from rfl, writeStr_eq, strBytes_hex s hs]

example : (∃ b ∈ [0x28, 0xFF, (0x0A : UInt8)], 0x80 ≤ b) ∧ [0x28, 0xFF, (0x0A : UInt8)].flatMap hexPair = b!"28FF0A" := by
  constructor <;> decide +kernel

/-! ## Text strings -/

/-- C69: a text of printable ASCII characters is written as the string with these characters as its bytes. -/
theorem C69_text_plain (t : List Char) (ht : ∀ c ∈ t, 0x20 ≤ c.toNat ∧ c.toNat ≤ 0x7E) (buf : Buf) :
    ((Prim.textStr t).write buf).inner = ((Prim.str (t.map (fun c => UInt8.ofNat c.toNat))).write buf).inner := by
  rw [show (Prim.textStr t).write buf = writeTextStr t buf from rfl, writeTextStr_eq, textBytes_plain t ht,
    show (Prim.str (t.map (fun c => UInt8.ofNat c.toNat))).write buf = writeStr _ buf from rfl, writeStr_eq]

example : (∀ c ∈ ['H', 'i', '!'], 0x20 ≤ c.toNat ∧ c.toNat ≤ 0x7E) ∧ ['H', 'i', '!'].map (fun c => UInt8.ofNat c.toNat) = b!"Hi!" := by
  constructor <;> decide +kernel

/-- C69: any other text is written in hexadecimal: the byte order mark and the characters in UTF-16BE. -/
theorem C69_text_utf16 (t : List Char) (ht : ∃ c ∈ t, c.toNat < 0x20 ∨ 0x7E < c.toNat) (buf : Buf) :
    ((Prim.textStr t).write buf).inner =
      buf.inner ++ ch!"<" :: ((0xFE :: 0xFF :: t.flatMap bigEndian).flatMap hexPair ++ [ch!">"]) := by
  rw [show (Prim.textStr t).write buf = writeTextStr t buf from rfl, writeTextStr_eq, textBytes_utf16 t ht]

example : (∃ c ∈ ['a', 'é'], c.toNat < 0x20 ∨ 0x7E < c.toNat) ∧
    (['a', 'é', Char.ofNat 0x1F642].flatMap bigEndian).flatMap hexPair = b!"006100E9D83DDE42" := by
  constructor <;> decide +kernel

/-! ## Numbers -/

/-- C69: no spelling of an integer is shorter than the one written. -/
theorem C69_int_shortest (i : Int) (other : Bytes) (hr : readNumber other = some (.int i)) (buf : Buf) :
    ∃ out, ((Prim.int i).write buf).inner = buf.inner ++ out ∧ readNumber out = some (.int i) ∧ out.length ≤ other.length :=
  ⟨intBytes i, by simp [Prim.write, pushInt_eq], readNumber_intBytes i, intBytes_shortest other i hr⟩

example : readNumber b!"-0012" = some (.int (-12)) := by decide +kernel

/-- C69: a float that is an integer of type `i32` is written as that integer, without a point. -/
theorem C69_float_integer (x : F32) (i : Int) (hi : -2147483648 ≤ i ∧ i ≤ 2147483647) (hx : IsInteger x i) (buf : Buf) :
    (buf.pushFloat x).inner = ((Prim.int i).write buf).inner := by
  rw [pushFloat_eq, F32.realBytes_integer x i hi hx]
  simp [Prim.write, pushInt_eq]

example : IsInteger ⟨true, 0x40400000⟩ (-3) := by
  refine ⟨by decide +kernel, by decide +kernel, by decide +kernel⟩

/-- C69: a finite float is written with no more digits after the point than any other number that reads as the same float needs,
but for a single zero. -/
theorem C69_float_precision (x : F32) (hx : x.isFinite = true) (other : Tok) (ho : NumIs x (numberOf other)) (buf : Buf) :
    ∃ out tok, (buf.pushFloat x).inner = buf.inner ++ out ∧ readNumber out = some tok ∧ NumIs x (numberOf tok) ∧
      (decimals tok ≤ decimals other ∨ ∃ whole, out = whole ++ b!".0") := by
  obtain ⟨-, -, t, h3, h4, h5⟩ := F32.realBytes_spells x hx
  refine ⟨x.realBytes, t, by simp [pushFloat_eq], h3, ?_, ?_⟩
  · rcases h4 with ⟨n, rfl⟩ | ⟨m, s, rfl⟩ <;> exact h5
  · unfold F32.realBytes at h3 ⊢
    split
    · rename_i hi
      rw [if_pos hi, readNumber_intBytes, Option.some.injEq] at h3
      subst h3
      exact Or.inl (Nat.zero_le _)
    · rename_i hi
      rw [if_neg hi] at h3
      obtain ⟨tok, h6, h7⟩ := F32.decimalBytes_precision x hx other (by cases other <;> exact ho)
      rw [h6, Option.some.injEq] at h3
      subst h3
      exact h7

/-- C69: the same for `push_decimal`. -/
theorem C69_decimal_precision (x : F32) (hx : x.isFinite = true) (other : Tok) (ho : NumIs x (numberOf other)) (buf : Buf) :
    ∃ out tok, (buf.pushDecimal x).inner = buf.inner ++ out ∧ readNumber out = some tok ∧ NumIs x (numberOf tok) ∧
      (decimals tok ≤ decimals other ∨ ∃ whole, out = whole ++ b!".0") := by
  obtain ⟨-, -, t, h3, h4, h5⟩ := F32.decimalBytes_spells x hx
  obtain ⟨tok, h6, h7⟩ := F32.decimalBytes_precision x hx other (by cases other <;> exact ho)
  rw [h6, Option.some.injEq] at h3
  subst h3
  refine ⟨x.decimalBytes, tok, by simp [pushDecimal_eq], h6, ?_, h7⟩
  rcases h4 with ⟨n, rfl⟩ | ⟨m, s, rfl⟩ <;> exact h5

/-- The float nearest to 0.1 can be read from `0.1` and from `0.100000001`; one digit is written. -/
example : NumIs ⟨false, 0x3DCCCCCD⟩ (numberOf (.real 100000001 9)) :=
  ⟨F32.roundsTo_spec _ _ _ (by decide) (by decide) (by decide +kernel), by decide⟩
example : (Buf.new.pushFloat ⟨false, 0x3DCCCCCD⟩).inner = b!"0.1" := by decide +kernel
/-- Where two decimals are equally near, the even one is written: 2^-12 is 0.000244140625. -/
example : (Buf.new.pushFloat ⟨false, 0x39800000⟩).inner = b!"0.00024414062" := by decide +kernel
/-- At a power of two the nearer decimal may not read back: 2^90 is 1237940039285380274899124224, and 1.237940e27 is too low. -/
example : (Buf.new.pushFloat ⟨false, 0x6C800000⟩).inner = b!"1237940100000000000000000000" := by decide +kernel

end PdfW.Props
