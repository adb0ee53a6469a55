import Verif.Proof.History
import Verif.Spec.Recover

/-! # Lemmas: reading the objects of a truncated file -/

set_option linter.unusedSimpArgs false
set_option linter.unusedVariables false

namespace PdfW
open Spec

/-! ## More input does not change what was read -/

theorem takeWhile_ext {f : UInt8 → Bool} (P Q : Bytes) (h : P.dropWhile f ≠ []) :
    (P ++ Q).takeWhile f = P.takeWhile f ∧ (P ++ Q).dropWhile f = P.dropWhile f ++ Q := by
  induction P with
  | nil => simp at h
  | cons b P ih =>
    by_cases hb : f b = true
    · simp only [List.dropWhile_cons, hb, if_true] at h
      simp [hb, ih h]
    · simp [hb]

theorem skipSpace_ext (c : Bool) (P Q : Bytes) (h : skipSpace c P ≠ []) : skipSpace c (P ++ Q) = skipSpace c P ++ Q := by
  induction P generalizing c with
  | nil => simp [skipSpace] at h
  | cons b P ih =>
    cases c with
    | true =>
      simp only [skipSpace, List.cons_append] at h ⊢
      split
      · rename_i hb; simp only [hb, if_true] at h; exact ih _ h
      · rename_i hb; simp only [hb, if_false] at h; exact ih _ h
    | false =>
      simp only [skipSpace, List.cons_append] at h ⊢
      split
      · rename_i hb; simp only [hb, if_true] at h; exact ih _ h
      · rename_i hb
        simp only [hb, if_false] at h
        split
        · rename_i hb'; simp only [hb', if_true] at h; exact ih _ h
        · rfl

theorem consFst_inv {b : UInt8} {o : Option (Bytes × Bytes)} {s r : Bytes} (h : consFst b o = some (s, r)) :
    ∃ s', o = some (s', r) ∧ s = b :: s' := by
  cases o with
  | none => simp [consFst] at h
  | some x => obtain ⟨s', r'⟩ := x; simp only [consFst, Option.some.injEq, Prod.mk.injEq] at h; exact ⟨s', by simp [h.2], h.1.symm⟩

theorem consFst_ext {b : UInt8} {o o' : Option (Bytes × Bytes)} {Q : Bytes} (ih : ∀ s r, o = some (s, r) → o' = some (s, r ++ Q)) {s r : Bytes}
    (h : consFst b o = some (s, r)) : consFst b o' = some (s, r ++ Q) := by
  obtain ⟨s', h1, rfl⟩ := consFst_inv h
  rw [ih _ _ h1]; rfl

theorem readLit_ext (d : Nat) (P Q s r : Bytes) (h : readLit d P = some (s, r)) : readLit d (P ++ Q) = some (s, r ++ Q) := by
  fun_induction readLit d P generalizing s r <;>
    first
    | (simp at h; done)
    | (simp only [List.cons_append]; rw [readLit.eq_def]; simp_all; done)
    | (simp only [List.cons_append] at *; rw [readLit.eq_def]; simp_all; exact consFst_ext (by assumption) h)
    | (simp only [List.cons_append] at *; rw [readLit.eq_def]; simp_all; apply_assumption; exact h)

theorem readHexDigits_ext (P Q s r : Bytes) (h : readHexDigits P = some (s, r)) : readHexDigits (P ++ Q) = some (s, r ++ Q) := by
  induction P generalizing s r with
  | nil => simp [readHexDigits] at h
  | cons b P ih =>
    simp only [readHexDigits, List.cons_append] at h ⊢
    split at h
    · rename_i hb; simp only [Option.some.injEq, Prod.mk.injEq] at h; simp [hb, ← h.1, ← h.2]
    · rename_i hb
      simp only [hb, if_false]
      split at h
      · rename_i hw; simp only [hw, if_true]; exact ih _ _ h
      · rename_i hw
        simp only [hw, if_false]
        cases hv : hexVal b with
        | none => simp [hv] at h
        | some v =>
          simp only [hv] at h ⊢
          obtain ⟨s', h1, rfl⟩ := consFst_inv h
          rw [ih _ _ h1]; rfl

theorem tokenAt_ext (P Q r : Bytes) (t : Tok) (h : tokenAt P = some (t, r)) (hr : r ≠ []) : tokenAt (P ++ Q) = some (t, r ++ Q) := by
  cases P with
  | nil => simp [tokenAt] at h
  | cons b P =>
    simp only [tokenAt, List.cons_append] at h ⊢
    split at h
    · rename_i hb
      simp only [hb, if_true]
      cases hl : readLit 0 P with
      | none => simp [hl] at h
      | some x =>
        obtain ⟨s, r'⟩ := x
        simp only [hl, Option.some.injEq, Prod.mk.injEq] at h
        rw [readLit_ext _ _ Q _ _ hl]; simp [← h.1, ← h.2]
    · rename_i h1
      simp only [h1, if_false]
      split at h
      · rename_i h2
        simp only [h2, if_true]
        cases P with
        | nil => simp at h
        | cons c P =>
          simp only [List.cons_append] at h ⊢
          split at h
          · rename_i hc; simp only [Option.some.injEq, Prod.mk.injEq] at h; simp [hc, ← h.1, ← h.2]
          · rename_i hc
            simp only [hc, if_false, readHex] at h ⊢
            cases hl : readHexDigits (c :: P) with
            | none => simp [hl] at h
            | some x =>
              obtain ⟨s, r'⟩ := x
              simp only [hl, Option.some.injEq, Prod.mk.injEq] at h
              have := readHexDigits_ext _ Q _ _ hl
              rw [List.cons_append] at this
              rw [this]; simp [← h.1, ← h.2]
      · rename_i h2
        simp only [h2, if_false]
        split at h
        · rename_i h3
          simp only [h3, if_true]
          cases P with
          | nil => simp at h
          | cons c P =>
            simp only [List.cons_append] at h ⊢
            split at h
            · rename_i hc; simp only [Option.some.injEq, Prod.mk.injEq] at h; simp [hc, ← h.1, ← h.2]
            · simp at h
        · rename_i h3
          simp only [h3, if_false]
          split at h
          · rename_i h4; simp only [Option.some.injEq, Prod.mk.injEq] at h; simp [h4, ← h.1, ← h.2]
          · rename_i h4
            simp only [h4, if_false]
            split at h
            · rename_i h5; simp only [Option.some.injEq, Prod.mk.injEq] at h; simp [h5, ← h.1, ← h.2]
            · rename_i h5
              simp only [h5, if_false]
              split at h
              · rename_i h6; simp only [Option.some.injEq, Prod.mk.injEq] at h; simp [h6, ← h.1, ← h.2]
              · rename_i h6
                simp only [h6, if_false]
                split at h
                · rename_i h7; simp only [Option.some.injEq, Prod.mk.injEq] at h; simp [h7, ← h.1, ← h.2]
                · rename_i h7
                  simp only [h7, if_false]
                  split at h
                  · rename_i h8
                    simp only [h8, if_true]
                    cases hd : decodeName (P.takeWhile isRegular) with
                    | none => simp [hd] at h
                    | some n =>
                      simp only [hd, Option.some.injEq, Prod.mk.injEq] at h
                      obtain ⟨e1, e2⟩ := takeWhile_ext (f := isRegular) P Q (by rw [h.2]; exact hr)
                      rw [e1, e2, hd]; simp [← h.1, ← h.2]
                  · rename_i h8
                    simp only [h8, if_false]
                    split at h
                    · simp at h
                    · rename_i h9
                      simp only [h9, if_false]
                      simp only [Option.some.injEq, Prod.mk.injEq] at h
                      obtain ⟨e1, e2⟩ := takeWhile_ext (f := isRegular) (b :: P) Q (by rw [h.2]; exact hr)
                      rw [List.cons_append] at e1 e2
                      rw [e1, e2]; simp [← h.1, ← h.2]

theorem nextToken_ext {P r : Bytes} {t : Tok} (h : nextToken P = some (t, r)) (hr : r ≠ []) (Q : Bytes) : nextToken (P ++ Q) = some (t, r ++ Q) := by
  unfold nextToken at h ⊢
  rw [skipSpace_ext]
  · exact tokenAt_ext _ _ _ _ h hr
  · intro e; rw [e] at h; simp [tokenAt] at h

theorem nextToken_nil : nextToken [] = none := by simp [nextToken, skipSpace, tokenAt]

theorem all_of_dropWhile_nil {f : UInt8 → Bool} {l : Bytes} (h : l.dropWhile f = []) : ∀ x ∈ l, f x = true := by
  induction l with
  | nil => simp
  | cons b l ih =>
    rw [List.dropWhile_cons] at h
    split at h
    · rename_i hb
      intro x hx
      rcases List.mem_cons.mp hx with rfl | hx
      · exact hb
      · exact ih h x hx
    · simp at h

/-- A keyword at the very end of the input may be the start of a longer word. -/
theorem nextToken_kw_end {P k : Bytes} (h : nextToken P = some (.kw k, [])) (Q : Bytes) :
    nextToken (P ++ Q) = some (readRun (k ++ Q.takeWhile isRegular), Q.dropWhile isRegular) := by
  unfold nextToken at h ⊢
  generalize hS : skipSpace false P = S at h
  rw [skipSpace_ext _ _ _ (by rw [hS]; intro e; subst e; simp [tokenAt] at h), hS]
  cases S with
  | nil => simp [tokenAt] at h
  | cons b S =>
    have hrun : ∀ run : Bytes, readRun run = .kw k → run = k := by
      intro run e
      unfold readRun at e
      split at e
      · rename_i t ht
        subst e
        unfold readNumber readUnsigned at ht
        simp only at ht
        repeat' split at ht
        all_goals simp at ht
      · simpa using e
    simp only [tokenAt, List.cons_append] at h ⊢
    split at h
    · split at h <;> simp at h
    · rename_i h1
      simp only [h1, if_false]
      split at h
      · split at h
        · simp at h
        · split at h
          · simp at h
          · split at h <;> simp at h
      · rename_i h2
        simp only [h2, if_false]
        split at h
        · split at h
          · simp at h
          · split at h <;> simp at h
        · rename_i h3
          simp only [h3, if_false]
          split at h
          · simp at h
          · rename_i h4
            simp only [h4, if_false]
            split at h
            · simp at h
            · rename_i h5
              simp only [h5, if_false]
              split at h
              · simp at h
              · rename_i h6
                simp only [h6, if_false]
                split at h
                · simp at h
                · rename_i h7
                  simp only [h7, if_false]
                  split at h
                  · split at h <;> simp at h
                  · rename_i h8
                    simp only [h8, if_false]
                    split at h
                    · simp at h
                    · rename_i h9
                      simp only [h9, if_false]
                      simp only [Option.some.injEq, Prod.mk.injEq] at h
                      have hk := hrun _ h.1
                      have hall : ∀ x ∈ b :: S, isRegular x = true := by
                        exact all_of_dropWhile_nil h.2
                      have hbS : b :: S = k := by
                        have := List.takeWhile_append_dropWhile (p := isRegular) (l := b :: S)
                        rw [h.2, List.append_nil] at this
                        rw [← this, hk]
                      rw [← List.cons_append, List.takeWhile_append_of_pos hall, List.dropWhile_append_of_pos hall, hbS]

theorem readItems_nil (fuel : Nat) (st : State) : readItems fuel st [] = none := by
  cases fuel <;> simp [readItems, nextToken_nil]

/-- More input (and more fuel). -/
theorem readItems_ext (fuel : Nat) (st : State) (P : Bytes) (vs : List Val) (k r : Bytes) (h : readItems fuel st P = some (vs, k, r)) (hr : r ≠ [])
    (fuel' : Nat) (hf : fuel ≤ fuel') (Q : Bytes) : readItems fuel' st (P ++ Q) = some (vs, k, r ++ Q) := by
  induction fuel generalizing st P fuel' with
  | zero => simp [readItems] at h
  | succ fuel ih =>
    cases fuel' with
    | zero => omega
    | succ fuel' =>
      simp only [readItems] at h ⊢
      cases ht : nextToken P with
      | none => simp [ht] at h
      | some x =>
        obtain ⟨t, rest⟩ := x
        simp only [ht] at h
        have hrest : rest ≠ [] := by
          rintro rfl
          cases ho : isOperator t with
          | some k' =>
            simp only [ho] at h
            split at h
            · simp only [Option.some.injEq, Prod.mk.injEq] at h; exact hr h.2.2.symm
            · simp at h
          | none =>
            simp only [ho] at h
            split at h
            · rw [readItems_nil] at h; simp at h
            · simp at h
        rw [nextToken_ext ht hrest]
        simp only
        cases ho : isOperator t with
        | some k' =>
          simp only [ho] at h ⊢
          split at h
          · simp only [Option.some.injEq, Prod.mk.injEq] at h; simp [← h.1, ← h.2.1, ← h.2.2]
          · simp at h
        | none =>
          simp only [ho] at h ⊢
          cases hs : step t st with
          | none => simp [hs] at h
          | some st' => simp only [hs] at h ⊢; exact ih _ _ h _ (by omega)

/-- The same if the input ended in the keyword. -/
theorem readItems_ext_end (fuel : Nat) (st : State) (P : Bytes) (vs : List Val) (h : readItems fuel st P = some (vs, b!"endobj", []))
    (fuel' : Nat) (hf : fuel ≤ fuel') (Q : Bytes) :
    readItems fuel' st (P ++ Q) = some (vs, b!"endobj" ++ Q.takeWhile isRegular, Q.dropWhile isRegular) := by
  induction fuel generalizing st P fuel' with
  | zero => simp [readItems] at h
  | succ fuel ih =>
    cases fuel' with
    | zero => omega
    | succ fuel' =>
      simp only [readItems] at h ⊢
      cases ht : nextToken P with
      | none => simp [ht] at h
      | some x =>
        obtain ⟨t, rest⟩ := x
        simp only [ht] at h
        cases ho : isOperator t with
        | some k' =>
          simp only [ho] at h
          split at h
          · simp only [Option.some.injEq, Prod.mk.injEq] at h
            obtain ⟨h1, h2, h3⟩ := h
            subst h2 h3
            have ek : t = .kw b!"endobj" := by
              unfold isOperator at ho
              split at ho
              · split at ho
                · simp at ho
                · simpa using ho
              · simp at ho
            subst ek
            rw [nextToken_kw_end ht]
            have hn : readRun (b!"endobj" ++ Q.takeWhile isRegular) = .kw (b!"endobj" ++ Q.takeWhile isRegular) := by
              simp [readRun, readNumber, readUnsigned, List.takeWhile_cons, List.dropWhile_cons, isDigit]
            rw [hn]
            simp [isOperator, kwTrue, kwFalse, kwNull, kwR, h1]
          · simp at h
        | none =>
          simp only [ho] at h
          cases hs : step t st with
          | none => simp [hs] at h
          | some st' =>
            simp only [hs] at h
            have hrest : rest ≠ [] := by rintro rfl; rw [readItems_nil] at h; simp at h
            rw [nextToken_ext ht hrest]
            simp only [ho, hs]
            exact ih _ _ h _ (by omega)

theorem expectKw_nil (k : Bytes) : expectKw k [] = none := by simp [expectKw, nextToken_nil]

theorem expectKw_inv {k P r : Bytes} (h : expectKw k P = some r) : nextToken P = some (.kw k, r) := by
  unfold expectKw at h
  split at h
  · rename_i k' r' hn
    split at h
    · rename_i hk; simp only [Option.some.injEq] at h; rw [hn, hk, h]
    · simp at h
  · simp at h

theorem expectKw_ext {k P r : Bytes} (h : expectKw k P = some r) (hr : r ≠ []) (Q : Bytes) : expectKw k (P ++ Q) = some (r ++ Q) := by
  have := nextToken_ext (expectKw_inv h) hr Q
  simp [expectKw, this]

theorem endobj_run (s : Bytes) : readRun (b!"endobj" ++ s) = .kw (b!"endobj" ++ s) := by
  simp [readRun, readNumber, readUnsigned, List.takeWhile_cons, List.dropWhile_cons, isDigit]

/-- What was read from the start of the input is also read from the whole input, if an object is read at all. -/
theorem readIndirect_ext {P Q r : Bytes} {i g : Int} {v : IVal} (h : readIndirect P = some (i, g, v, r)) {x : Int × Int × IVal × Bytes}
    (hx : readIndirect (P ++ Q) = some x) : x = (i, g, v, r ++ Q) := by
  unfold readIndirect at h
  split at h
  rotate_left
  · simp at h
  rename_i id r1 t1
  split at h
  rotate_left
  · simp at h
  rename_i gen r2 t2
  split at h
  rotate_left
  · simp at h
  rename_i r3 t3
  split at h
  rotate_left
  · simp at h
  rename_i v' k r4 t4
  have n3 : r3 ≠ [] := by rintro rfl; rw [readItems_nil] at t4; simp at t4
  have n2 : r2 ≠ [] := by rintro rfl; rw [expectKw_nil] at t3; simp at t3
  have n1 : r1 ≠ [] := by rintro rfl; rw [nextToken_nil] at t2; simp at t2
  unfold readIndirect at hx
  simp only [nextToken_ext t1 n1 Q, nextToken_ext t2 n2 Q, expectKw_ext t3 n3 Q] at hx
  have hfuel : r3.length + 1 ≤ (r3 ++ Q).length + 1 := by simp
  split at h
  · rename_i hk
    subst hk
    simp only [Option.some.injEq, Prod.mk.injEq] at h
    obtain ⟨rfl, rfl, rfl, rfl⟩ := h
    by_cases hr : r4 = []
    · subst hr
      rw [readItems_ext_end _ _ _ _ t4 _ hfuel Q] at hx
      simp only at hx
      split at hx
      · rename_i he
        have hq : Q.takeWhile isRegular = [] := by simpa using he
        have := List.takeWhile_append_dropWhile (p := isRegular) (l := Q)
        rw [hq, List.nil_append] at this
        simp only [Option.some.injEq] at hx
        rw [← hx, this]; rfl
      · have hne : ¬ b!"endobj" ++ Q.takeWhile isRegular = b!"stream" := by simp
        simp [hne] at hx
    · rw [readItems_ext _ _ _ _ _ _ t4 hr _ hfuel Q] at hx
      simp only [if_true, Option.some.injEq] at hx
      exact hx.symm
  · rename_i hk
    split at h
    rotate_left
    · simp at h
    rename_i hk2
    subst hk2
    split at h
    rotate_left
    · simp at h
    rename_i es
    split at h
    rotate_left
    · simp at h
    rename_i n r5 hl ha
    split at h
    rotate_left
    · simp at h
    rename_i hn
    split at h
    rotate_left
    · simp at h
    rename_i r6 t6
    split at h
    rotate_left
    · simp at h
    rename_i r7 t7
    simp only [Option.some.injEq, Prod.mk.injEq] at h
    obtain ⟨rfl, rfl, rfl, rfl⟩ := h
    have n4 : r4 ≠ [] := by rintro rfl; simp [afterStream] at ha
    rw [readItems_ext _ _ _ _ _ _ t4 n4 _ hfuel Q] at hx
    have ha' : afterStream (r4 ++ Q) = some (r5 ++ Q) := by
      unfold afterStream at ha
      split at ha
      · simp only [Option.some.injEq] at ha; subst ha; simp [afterStream]
      · simp only [Option.some.injEq] at ha; subst ha; simp [afterStream]
      · simp at ha
    have hn' : 0 ≤ n ∧ n.toNat ≤ (r5 ++ Q).length := ⟨hn.1, by simp; omega⟩
    have n6 : r6 ≠ [] := by rintro rfl; rw [expectKw_nil] at t7; simp at t7
    have hd : (r5 ++ Q).drop n.toNat = r5.drop n.toNat ++ Q := List.drop_append_of_le_length hn.2
    have htk : (r5 ++ Q).take n.toNat = r5.take n.toNat := List.take_append_of_le_length hn.2
    simp only [hk, if_false, if_true, hl, ha', hn', and_self, hd, htk, expectKw_ext t6 n6 Q] at hx
    by_cases hr : r7 = []
    · subst hr
      have t7' := nextToken_kw_end (expectKw_inv t7) Q
      rw [endobj_run] at t7'
      simp only [expectKw, t7'] at hx
      split at hx
      · rename_i z hz
        split at hz
        · rename_i he
          have hq : Q.takeWhile isRegular = [] := by simpa using he
          have := List.takeWhile_append_dropWhile (p := isRegular) (l := Q)
          rw [hq, List.nil_append] at this
          simp only [Option.some.injEq] at hz
          simp only [hn.1, hn'.2, and_self, if_true, Option.some.injEq] at hx
          rw [← hx, ← hz, this]; rfl
        · simp at hz
      · simp at hx
    · rw [expectKw_ext t7 hr Q] at hx
      simp only [Option.some.injEq] at hx
      exact hx.symm

/-! ## White space and comments -/

/-- Skipped as a whole, and nothing but white space and comments however it is cut. -/
def Blank (ws : Bytes) : Prop := (∀ X, skipSpace false (ws ++ X) = skipSpace false X) ∧ ∀ n, skipSpace false (ws.take n) = []

theorem Blank.nil : Blank [] := ⟨fun X => rfl, fun n => by simp [skipSpace]⟩

theorem Blank.append {a b : Bytes} (ha : Blank a) (hb : Blank b) : Blank (a ++ b) := by
  refine ⟨fun X => by rw [List.append_assoc, ha.1, hb.1], fun n => ?_⟩
  rw [List.take_append]
  by_cases hn : n ≤ a.length
  · rw [Nat.sub_eq_zero_of_le hn]; simp [ha.2]
  · rw [List.take_of_length_le (by omega), ha.1, hb.2]

theorem Blank.newline : Blank b!"\n" := by
  refine ⟨fun X => by simp [skipSpace, isWhite], fun n => ?_⟩
  cases n <;> simp [skipSpace, isWhite]

theorem Blank.newlines (nl : Bool) : Blank (b!"\n" ++ if nl then b!"\n" else []) := by
  refine Blank.newline.append ?_
  cases nl
  · exact Blank.nil
  · exact Blank.newline

theorem skipSpace_inside (ds X : Bytes) (h : ∀ b ∈ ds, b ≠ 0x0A ∧ b ≠ 0x0D) : skipSpace true (ds ++ X) = skipSpace true X := by
  induction ds with
  | nil => rfl
  | cons b ds ih =>
    have := h b (by simp)
    simp only [List.cons_append, skipSpace, this.1, this.2, or_self, if_false]
    exact ih (fun b hb => h b (by simp [hb]))

/-- A comment line. -/
theorem Blank.comment (ds : Bytes) (h : ∀ b ∈ ds, b ≠ 0x0A ∧ b ≠ 0x0D) : Blank (ch!"%" :: (ds ++ b!"\n")) := by
  constructor
  · intro X
    have h1 : skipSpace false (ch!"%" :: (ds ++ b!"\n") ++ X) = skipSpace true (ds ++ (b!"\n" ++ X)) := by
      simp [skipSpace, isWhite]
    rw [h1, skipSpace_inside _ _ h]
    simp [skipSpace]
  · intro n
    cases n with
    | zero => simp [skipSpace]
    | succ n =>
      have h1 : skipSpace false ((ch!"%" :: (ds ++ b!"\n")).take (n + 1)) = skipSpace true ((ds ++ b!"\n").take n) := by
        simp [skipSpace, isWhite]
      rw [h1, List.take_append, skipSpace_inside _ _ (fun b hb => h b (List.mem_of_mem_take hb))]
      cases n - ds.length <;> simp [skipSpace]

theorem digit_noBreak : ∀ b : UInt8, isDigit b = true → b ≠ 0x0A ∧ b ≠ 0x0D := forall_byte (by decide +kernel)

theorem Blank.header (a b : UInt8) (m : UInt8 × UInt8 × UInt8 × UInt8) (ha : isDigit a = true) (hb : isDigit b = true) (hm : LineMarker m) :
    Blank (headerBytes a b m) := by
  have e : headerBytes a b m = (ch!"%" :: (b!"PDF-" ++ [a, ch!".", b] ++ b!"\n")) ++ ((ch!"%" :: ([m.1, m.2.1, m.2.2.1, m.2.2.2] ++ b!"\n")) ++ b!"\n") := by
    simp [headerBytes]
  rw [e]
  refine Blank.append (Blank.comment _ ?_) (Blank.append (Blank.comment _ hm) Blank.newline)
  intro x hx
  simp only [List.cons_append, List.nil_append, List.mem_cons, List.not_mem_nil, or_false] at hx
  rcases hx with rfl | rfl | rfl | rfl | rfl | rfl | rfl
  · decide
  · decide
  · decide
  · decide
  · exact digit_noBreak _ ha
  · decide
  · exact digit_noBreak _ hb

theorem nextToken_blank {ws : Bytes} (h : Blank ws) (X : Bytes) : nextToken (ws ++ X) = nextToken X := by
  unfold nextToken; rw [h.1]

theorem readIndirect_blank {ws : Bytes} (h : Blank ws) (X : Bytes) : readIndirect (ws ++ X) = readIndirect X := by
  unfold readIndirect; rw [nextToken_blank h]

theorem recoverFrom_stop (fuel : Nat) (bs : Bytes) (h : readIndirect bs = none) : recoverFrom fuel bs = [] := by
  cases fuel <;> simp [recoverFrom, h]

theorem readIndirect_blanks {ws : Bytes} (h : Blank ws) (n : Nat) : readIndirect (ws.take n) = none := by
  have : nextToken (ws.take n) = none := by unfold nextToken; rw [h.2]; rfl
  unfold readIndirect; rw [this]

/-! ## The objects of a sequence of pieces -/

def Piece.good : Piece → Prop
  | .header a b m => isDigit a = true ∧ isDigit b = true ∧ LineMarker m
  | .item it _ => ItemOk it

/-- What is found for an object. -/
def foundOf (it : Item) : FoundObject := (it.id.get, 0, bodyVal it.body)

/-- Whatever follows the pieces is not an object, also if it is cut. -/
def NoObject (tail : Bytes) : Prop := ∀ n, readIndirect (tail.take n) = none

theorem itemBytes_pos (it : Item) (nl : Bool) : 0 < (itemBytes it nl).length := by
  have : 0 < (headBytes it.id).length := by simp [headBytes]
  simp only [itemBytes, List.length_append]; omega

/-- All pieces are there. -/
theorem recoverFrom_pieces (ps : List Piece) (hps : ∀ p ∈ ps, p.good) (ws X : Bytes) (hws : Blank ws) (fuel : Nat) :
    ∃ ws', Blank ws' ∧
      recoverFrom (fuel + (piecesItems ps).length) (ws ++ (piecesBytes ps ++ X)) = (piecesItems ps).map foundOf ++ recoverFrom fuel (ws' ++ X) := by
  induction ps generalizing ws with
  | nil => exact ⟨ws, hws, by simp [piecesItems, piecesBytes]⟩
  | cons p ps ih =>
    have hp := hps p (by simp)
    have hps' : ∀ p ∈ ps, p.good := fun q hq => hps q (by simp [hq])
    cases p with
    | header a b m =>
      obtain ⟨ws', h1, h2⟩ := ih hps' (ws ++ headerBytes a b m) (hws.append (Blank.header a b m hp.1 hp.2.1 hp.2.2))
      refine ⟨ws', h1, ?_⟩
      simp only [piecesItems, piecesBytes, Piece.bytes]
      rw [← h2]; simp
    | item it nl =>
      obtain ⟨ws', h1, h2⟩ := ih hps' (b!"\n" ++ if nl then b!"\n" else []) (Blank.newlines nl)
      refine ⟨ws', h1, ?_⟩
      simp only [piecesItems, piecesBytes, Piece.bytes, List.length_cons, List.map_cons, List.cons_append]
      rw [show fuel + ((piecesItems ps).length + 1) = (fuel + (piecesItems ps).length) + 1 from by omega]
      simp only [recoverFrom, readIndirect_blank hws, List.append_assoc]
      rw [readIndirect_exact it nl _ hp]
      simp only [foundOf]
      rw [← h2]; simp

theorem piecesItems_le (ps : List Piece) : (piecesItems ps).length ≤ (piecesBytes ps).length := by
  induction ps with
  | nil => simp [piecesItems]
  | cons p ps ih =>
    cases p with
    | header a b m => simp only [piecesItems, piecesBytes, List.length_append]; omega
    | item it nl =>
      have := itemBytes_pos it nl
      simp only [piecesItems, piecesBytes, Piece.bytes, List.length_append, List.length_cons]; omega

/-- Any beginning of the pieces and of what follows them. -/
theorem recoverFrom_cut (ps : List Piece) (hps : ∀ p ∈ ps, p.good) (tail : Bytes) (ht : NoObject tail) (ws : Bytes) (hws : Blank ws) (n : Nat) (fuel : Nat) :
    ∃ k, recoverFrom fuel ((ws ++ (piecesBytes ps ++ tail)).take n) = ((piecesItems ps).take k).map foundOf := by
  induction ps generalizing ws n fuel with
  | nil =>
    refine ⟨0, ?_⟩
    simp only [piecesItems, piecesBytes, List.nil_append, List.take_zero, List.map_nil]
    apply recoverFrom_stop
    rw [List.take_append]
    by_cases hn : n ≤ ws.length
    · rw [Nat.sub_eq_zero_of_le hn]; simp [readIndirect_blanks hws]
    · rw [List.take_of_length_le (by omega), readIndirect_blank hws]; exact ht _
  | cons p ps ih =>
    have hp := hps p (by simp)
    have hps' : ∀ p ∈ ps, p.good := fun q hq => hps q (by simp [hq])
    cases p with
    | header a b m =>
      obtain ⟨k, hk⟩ := ih hps' (ws ++ headerBytes a b m) (hws.append (Blank.header a b m hp.1 hp.2.1 hp.2.2)) n fuel
      refine ⟨k, ?_⟩
      simp only [piecesItems, piecesBytes, Piece.bytes]
      rw [← hk]; simp
    | item it nl =>
      cases fuel with
      | zero => exact ⟨0, by simp [recoverFrom]⟩
      | succ fuel =>
      simp only [piecesItems, piecesBytes, Piece.bytes, List.append_assoc]
      rw [List.take_append]
      by_cases hn : n ≤ ws.length
      · refine ⟨0, ?_⟩
        rw [Nat.sub_eq_zero_of_le hn]
        simp only [List.take_zero, List.append_nil, List.map_nil]
        exact recoverFrom_stop _ _ (readIndirect_blanks hws n)
      · rw [List.take_of_length_le (by omega)]
        simp only [recoverFrom, readIndirect_blank hws]
        generalize n - ws.length = n'
        by_cases hn' : (itemBytes it nl).length ≤ n'
        · rw [List.take_append, List.take_of_length_le hn', readIndirect_exact it nl _ hp]
          obtain ⟨k, hk⟩ := ih hps' (b!"\n" ++ if nl then b!"\n" else []) (Blank.newlines nl)
            ((b!"\n" ++ if nl then b!"\n" else []).length + (n' - (itemBytes it nl).length)) fuel
          refine ⟨k + 1, ?_⟩
          simp only [List.take_succ_cons, List.map_cons]
          rw [← hk]
          rw [List.take_append (l₁ := b!"\n" ++ if nl then b!"\n" else []), List.take_of_length_le (by omega : (b!"\n" ++ if nl then b!"\n" else []).length ≤ _)]
          simp [foundOf]
        · cases hr : readIndirect ((itemBytes it nl ++ (piecesBytes ps ++ tail)).take n') with
          | none => exact ⟨0, by simp⟩
          | some x =>
            obtain ⟨i, g, v, r⟩ := x
            have hfull := readIndirect_exact it nl (piecesBytes ps ++ tail) hp
            rw [← List.take_append_drop n' (itemBytes it nl ++ (piecesBytes ps ++ tail))] at hfull
            have he := readIndirect_ext hr hfull
            simp only [Prod.mk.injEq] at he
            obtain ⟨rfl, rfl, rfl, he⟩ := he
            refine ⟨1, ?_⟩
            have hl : r.length ≤ (b!"\n" ++ if nl then b!"\n" else []).length := by
              have := congrArg List.length he
              simp only [List.length_append, List.length_drop, List.length_cons] at this ⊢
              omega
            have hr' : r = (b!"\n" ++ if nl then b!"\n" else []).take r.length := by
              have := congrArg (List.take r.length) he
              rw [← List.append_assoc, List.take_append_of_le_length hl, List.take_left] at this
              exact this.symm
            simp only [List.take_succ_cons, List.take_zero, List.map_cons, List.map_nil, foundOf]
            rw [recoverFrom_stop]
            rw [hr']
            exact readIndirect_blanks (Blank.newlines nl) _

/-! ## The pieces of a document -/

def Piece.marked : Piece → Prop
  | .header _ _ m => LineMarker m
  | .item _ _ => True

def CallMarked (f : Chunk → Option Chunk) (items : Bool → List Item) : Prop :=
  ∀ c ps, Layout c ps → ∀ c', f c = some c' →
    ∃ qs, Layout c' (ps ++ qs) ∧ piecesItems qs = items c.pretty ∧ c'.pretty = c.pretty ∧ ∀ p ∈ qs, p.marked

def ChunkMarked (r : Option Chunk) (items : List Item) (pretty : Bool) : Prop :=
  ∀ c, r = some c → ∃ ps, Layout c ps ∧ piecesItems ps = items ∧ c.pretty = pretty ∧ ∀ p ∈ ps, p.marked

/-- One more call on a document adds pieces. -/
def StepMarked (h h2 : PdfHist) : Prop :=
  ∀ q p ps, h.run = some q → h2.run = some p → Layout q.chunk (headPiece (version h) (marker h) :: ps) →
    ∃ qs, Layout p.chunk (headPiece (version h2) (marker h2) :: (ps ++ qs)) ∧ pdfItems h2 = pdfItems h ++ piecesItems qs ∧ ∀ x ∈ qs, x.marked

theorem marker_line (h : PdfHist) (hm : PdfMarkers h) : LineMarker (marker h) := by
  match h with
  | .new _ => simp only [marker]; intro b hb; simp at hb; subst hb; decide
  | .call h c => simp only [PdfMarkers] at hm; simp only [marker]; exact marker_line h hm.1
  | .setVersion h _ _ => simp only [PdfMarkers] at hm; simp only [marker]; exact marker_line h hm
  | .setBinaryMarker h m => simp only [PdfMarkers] at hm; simp only [marker]; exact hm.2
  | .setFileId h _ => simp only [PdfMarkers] at hm; simp only [marker]; exact marker_line h hm
  | .catalog h _ _ => simp only [PdfMarkers] at hm; simp only [marker]; exact marker_line h hm
  | .documentInfo h _ _ => simp only [PdfMarkers] at hm; simp only [marker]; exact marker_line h hm
termination_by structural h

theorem step_call {h : PdfHist} {c : ChunkCall} (hc : CallMarked c.run (callItems c)) : StepMarked h (.call h c) := by
  intro q p ps hq hp hl
  obtain ⟨-, -, -, h3, -⟩ := pdf_inv h q hq
  simp only [PdfHist.run, hq] at hp
  cases hr : c.run q.chunk with
  | none => simp [hr] at hp
  | some ch =>
    simp only [hr, Option.some.injEq] at hp
    subst hp
    obtain ⟨qs, k1, k2, k3, k4⟩ := hc q.chunk _ hl ch hr
    exact ⟨qs, by simpa [version, marker] using k1, by simp only [pdfItems, k2, h3], k4⟩

theorem step_setVersion {h : PdfHist} (a b : UInt8) : StepMarked h (.setVersion h a b) := by
  intro q p ps hq hp h1
  obtain ⟨-, -, -, -, -, h5, h6⟩ := pdf_inv h q hq
  simp only [PdfHist.run, hq, Option.some.injEq] at hp
  subst hp
  have hb := h1.bytes
  simp only [piecesBytes, headPiece_bytes] at hb
  have v1 : (version (h.setVersion a b)).1 < 10 := by simp only [version]; split <;> assumption
  have v2 : (version (h.setVersion a b)).2 < 10 := by simp only [version]; split <;> assumption
  refine ⟨[], ?_, by simp [pdfItems, piecesItems], by simp⟩
  rw [List.append_nil]
  refine Layout.reheader h1 _ _ v1 v2 _ _ ?_
  rw [hb]
  by_cases ha : a < 10 <;> by_cases hb' : b < 10 <;> simp [version, marker, ha, hb', header]

theorem step_setBinaryMarker {h : PdfHist} (m : UInt8 × UInt8 × UInt8 × UInt8) : StepMarked h (.setBinaryMarker h m) := by
  intro q p ps hq hp h1
  obtain ⟨-, -, -, -, -, h5, h6⟩ := pdf_inv h q hq
  simp only [PdfHist.run, hq, Option.some.injEq] at hp
  subst hp
  have hb := h1.bytes
  simp only [piecesBytes, headPiece_bytes] at hb
  refine ⟨[], ?_, by simp [pdfItems, piecesItems], by simp⟩
  rw [List.append_nil]
  refine Layout.reheader h1 _ _ h5 h6 _ _ ?_
  rw [hb]
  simp [version, marker, header]

theorem step_setFileId {h : PdfHist} (id : Bytes × Bytes) : StepMarked h (.setFileId h id) := by
  intro q p ps hq hp h1
  simp only [PdfHist.run, hq, Option.some.injEq] at hp
  subst hp
  exact ⟨[], by simpa [version, marker, Pdf.setFileId] using h1, by simp [pdfItems, piecesItems], by simp⟩

theorem step_catalog {h : PdfHist} (id : Ref) (es : List (Bytes × Prog)) : StepMarked h (.catalog h id es) := by
  intro q p ps hq hp h1
  obtain ⟨-, -, -, h3, -⟩ := pdf_inv h q hq
  simp only [PdfHist.run, hq, Option.some.injEq] at hp
  subst hp
  exact ⟨_, by simp only [version, marker]; exact layout_writeIndirect h1 _ _, by simp [pdfItems, piecesItems, h3], by simp [Piece.marked]⟩

theorem step_documentInfo {h : PdfHist} (id : Ref) (es : List (Bytes × Prog)) : StepMarked h (.documentInfo h id es) := by
  intro q p ps hq hp h1
  obtain ⟨-, -, -, h3, -⟩ := pdf_inv h q hq
  simp only [PdfHist.run, hq, Option.some.injEq] at hp
  subst hp
  exact ⟨_, by simp only [version, marker]; exact layout_writeIndirect h1 _ _, by simp [pdfItems, piecesItems, h3], by simp [Piece.marked]⟩

def PdfMarked (h : PdfHist) : Prop :=
  ∀ p, h.run = some p → ∃ ps, Layout p.chunk (headPiece (version h) (marker h) :: ps) ∧ pdfItems h = piecesItems ps ∧ ∀ x ∈ ps, x.marked

theorem PdfMarked.next {h h2 : PdfHist} (hm : PdfMarked h) (hs : StepMarked h h2) (hrun : ∀ p, h2.run = some p → ∃ q, h.run = some q) : PdfMarked h2 := by
  intro p hp
  obtain ⟨q, hq⟩ := hrun p hp
  obtain ⟨ps, h1, h2', h3⟩ := hm q hq
  obtain ⟨qs, k1, k2, k3⟩ := hs q p ps hq hp h1
  refine ⟨_, k1, by rw [k2, h2', piecesItems_append], ?_⟩
  intro x hx
  rcases List.mem_append.mp hx with hx | hx
  · exact h3 x hx
  · exact k3 x hx

/-- The document before the last call. -/
def priorHist : PdfHist → PdfHist
  | .new b => .new b
  | .call h _ | .setVersion h _ _ | .setBinaryMarker h _ | .setFileId h _ | .catalog h _ _ | .documentInfo h _ _ => h

theorem run_prior (h : PdfHist) (p : Pdf) (hp : h.run = some p) : ∃ q, (priorHist h).run = some q := by
  cases h <;> simp only [PdfHist.run, priorHist] at hp ⊢
  · exact ⟨_, rfl⟩
  all_goals
    split at hp
    · rename_i q hq; exact ⟨q, hq⟩
    · simp at hp

mutual
theorem chunk_marked (h : ChunkHist) (hm : ChunkMarkers h) : ChunkMarked h.run (chunkItems h) (chunkPretty h) := by
  match h with
  | .new pretty =>
    intro c hc
    simp only [ChunkHist.run, Option.some.injEq] at hc
    subst hc
    exact ⟨[], ⟨rfl, rfl, by simp⟩, by simp [piecesItems, chunkItems], by simp [chunkPretty, Chunk.withSettings], by simp⟩
  | .ofPdf p =>
    intro c hc
    simp only [ChunkMarkers] at hm
    have hp := pdf_marked p hm
    simp only [ChunkHist.run] at hc
    cases hr : p.run with
    | none => simp [hr] at hc
    | some q =>
      simp only [hr, Option.some.injEq] at hc
      subst hc
      obtain ⟨ps, h1, h2, h3⟩ := hp q hr
      obtain ⟨-, -, -, h4, -⟩ := pdf_inv p q hr
      refine ⟨_, h1, by simp only [chunkItems, headPiece, piecesItems]; exact h2.symm, by simpa [chunkPretty] using h4, ?_⟩
      intro x hx
      rcases List.mem_cons.mp hx with rfl | hx
      · exact marker_line p hm
      · exact h3 x hx
  | .call h c =>
    intro c' hc
    simp only [ChunkMarkers] at hm
    have hh := chunk_marked h hm.1
    have hcall := call_marked c hm.2
    simp only [ChunkHist.run] at hc
    cases hr : h.run with
    | none => simp [hr] at hc
    | some ch =>
      simp only [hr] at hc
      obtain ⟨ps, h1, h2, h3, h4⟩ := hh ch hr
      obtain ⟨qs, k1, k2, k3, k4⟩ := hcall ch ps h1 c' hc
      refine ⟨_, k1, by simp only [piecesItems_append, chunkItems, h2, k2, h3], by simp only [chunkPretty, k3, h3], ?_⟩
      intro x hx
      rcases List.mem_append.mp hx with hx | hx
      · exact h4 x hx
      · exact k4 x hx
termination_by structural h
theorem call_marked (c : ChunkCall) (hm : CallMarkers c) : CallMarked c.run (callItems c) := by
  match c with
  | .indirect id p =>
    intro c ps hl c' hc
    simp only [ChunkCall.run, Option.some.injEq] at hc
    subst hc
    exact ⟨_, layout_writeIndirect hl id p, by simp [piecesItems, callItems], by rw [writeIndirect_eq], by simp [Piece.marked]⟩
  | .stream id es data =>
    intro c ps hl c' hc
    simp only [ChunkCall.run, writeStream_eq] at hc
    split at hc
    · rename_i hlen
      simp only [Option.some.injEq] at hc
      subst hc
      exact ⟨[.item ⟨id, .stream es data, c.pretty⟩ c.pretty], Layout.extend hl (by simp [piecesBytes, Piece.bytes]) (by simp [offs]) (by simpa [Piece.ok, dataOk] using hlen), by
        simp [piecesItems, callItems], rfl, by simp [Piece.marked]⟩
    · simp at hc
  | .extend o =>
    intro c ps hl c' hc
    simp only [CallMarkers] at hm
    have ho := chunk_marked o hm
    simp only [ChunkCall.run] at hc
    cases hr : o.run with
    | none => simp [hr] at hc
    | some oc =>
      simp only [hr, Option.some.injEq] at hc
      subst hc
      obtain ⟨qs, h1, h2, h3, h4⟩ := ho oc hr
      refine ⟨qs, Layout.extend hl ?_ ?_ h1.ok, by simp only [callItems]; exact h2, rfl, h4⟩
      · simp [Buf.extendBuf, h1.bytes]
      · have := offs_shift 0 c.buf.len qs
        simp only [Chunk.len, h1.offsets]
        rw [← this]; simp
  | .mergeLimits l =>
    intro c ps hl c' hc
    simp only [ChunkCall.run, Option.some.injEq] at hc
    subst hc
    exact ⟨[], ⟨by simpa [Chunk.mergeLimits] using hl.bytes, by simpa [Chunk.mergeLimits] using hl.offsets, by simpa using hl.ok⟩,
      by simp [piecesItems, callItems], rfl, by simp⟩
  | .renumberFrom source σ m s =>
    intro c ps hl c' hc
    simp only [ChunkCall.run] at hc
    cases hr : source.run with
    | none => simp [hr] at hc
    | some src =>
      simp only [hr, Option.some.injEq] at hc
      subst hc
      obtain ⟨qs, h1, h2, h3⟩ := chunk_inv source src hr
      obtain ⟨k1, -, -, k4⟩ := layout_renumberInto h1 hl m s
      refine ⟨_, k1, by rw [mappedPieces_items, h2]; simp only [callItems], k4, ?_⟩
      intro x hx
      simp only [mappedPieces, List.mem_map] at hx
      obtain ⟨it, -, rfl⟩ := hx
      trivial
termination_by structural c
theorem pdf_marked (h : PdfHist) (hm : PdfMarkers h) : PdfMarked h := by
  match h with
  | .new pretty =>
    intro p hp
    obtain ⟨ps, h1, h2, -⟩ := pdf_inv _ p hp
    simp only [PdfHist.run, Option.some.injEq] at hp
    have e : ps = [] := by
      have := h1.bytes
      rw [← hp] at this
      have hl := congrArg List.length this
      simp only [piecesBytes, List.length_append, headPiece_bytes] at hl
      cases ps with
      | nil => rfl
      | cons x ps =>
        have : 0 < x.bytes.length := by
          cases x with
          | header a b m => simp [Piece.bytes, headerBytes]
          | item it nl => exact itemBytes_pos it nl
        have h17 : (Pdf.withSettings pretty).chunk.buf.inner.length = (header (version (.new pretty)) (marker (.new pretty))).length := by
          simp only [version, marker]; rfl
        rw [h17] at hl
        simp only [piecesBytes, List.length_append] at hl
        omega
    subst e
    exact ⟨[], h1, by simp [pdfItems, piecesItems], by simp⟩
  | .call h c =>
    simp only [PdfMarkers] at hm
    exact (pdf_marked h hm.1).next (step_call (call_marked c hm.2)) (run_prior _)
  | .setVersion h a b =>
    simp only [PdfMarkers] at hm
    exact (pdf_marked h hm).next (step_setVersion a b) (run_prior _)
  | .setBinaryMarker h m =>
    simp only [PdfMarkers] at hm
    exact (pdf_marked h hm.1).next (step_setBinaryMarker m) (run_prior _)
  | .setFileId h id =>
    simp only [PdfMarkers] at hm
    exact (pdf_marked h hm).next (step_setFileId id) (run_prior _)
  | .catalog h id es =>
    simp only [PdfMarkers] at hm
    exact (pdf_marked h hm).next (step_catalog id es) (run_prior _)
  | .documentInfo h id es =>
    simp only [PdfMarkers] at hm
    exact (pdf_marked h hm).next (step_documentInfo id es) (run_prior _)
termination_by structural h
end

/-- A document in an earlier state: what was written then comes first. -/
theorem continues_marked {h' h : PdfHist} (k : Continues h' h) (hm : PdfMarkers h) (p : Pdf) (hp : h.run = some p) :
    PdfMarkers h' ∧ ∃ p' ps' qs, h'.run = some p' ∧ Layout p'.chunk (headPiece (version h') (marker h') :: ps') ∧
      Layout p.chunk (headPiece (version h) (marker h) :: (ps' ++ qs)) ∧ pdfItems h' = piecesItems ps' ∧ pdfItems h = pdfItems h' ++ piecesItems qs ∧
      ∀ x ∈ ps' ++ qs, x.marked := by
  have next : ∀ {h2 h : PdfHist}, StepMarked h h2 → (∀ p, h2.run = some p → ∃ q, h.run = some q) → ∀ p, h2.run = some p →
      (∀ p, h.run = some p → (PdfMarkers h' ∧ ∃ p' ps' qs, h'.run = some p' ∧ Layout p'.chunk (headPiece (version h') (marker h') :: ps') ∧
        Layout p.chunk (headPiece (version h) (marker h) :: (ps' ++ qs)) ∧ pdfItems h' = piecesItems ps' ∧ pdfItems h = pdfItems h' ++ piecesItems qs ∧
        ∀ x ∈ ps' ++ qs, x.marked)) →
      PdfMarkers h' ∧ ∃ p' ps' qs, h'.run = some p' ∧ Layout p'.chunk (headPiece (version h') (marker h') :: ps') ∧
        Layout p.chunk (headPiece (version h2) (marker h2) :: (ps' ++ qs)) ∧ pdfItems h' = piecesItems ps' ∧ pdfItems h2 = pdfItems h' ++ piecesItems qs ∧
        ∀ x ∈ ps' ++ qs, x.marked := by
    intro h2 h hs hrun p hp ih
    obtain ⟨q, hq⟩ := hrun p hp
    obtain ⟨g0, p', ps', qs, g1, g2, g3, g4, g5, g6⟩ := ih q hq
    obtain ⟨rs, k1, k2, k3⟩ := hs q p _ hq hp g3
    refine ⟨g0, p', ps', qs ++ rs, g1, g2, by rw [← List.append_assoc]; exact k1, g4, by rw [k2, g5, piecesItems_append, List.append_assoc], ?_⟩
    intro x hx
    rw [← List.append_assoc] at hx
    rcases List.mem_append.mp hx with hx | hx
    · exact g6 x hx
    · exact k3 x hx
  induction k generalizing p with
  | refl =>
    obtain ⟨ps, h1, h2, h3⟩ := pdf_marked h' hm p hp
    exact ⟨hm, p, ps, [], hp, h1, by simpa using h1, h2, by simp [piecesItems], by simpa using h3⟩
  | call c k ih =>
    simp only [PdfMarkers] at hm
    exact next (step_call (call_marked c hm.2)) (run_prior _) p hp (fun p hp => ih hm.1 p hp)
  | setVersion a b k ih =>
    simp only [PdfMarkers] at hm
    exact next (step_setVersion a b) (run_prior _) p hp (fun p hp => ih hm p hp)
  | setBinaryMarker m k ih =>
    simp only [PdfMarkers] at hm
    exact next (step_setBinaryMarker m) (run_prior _) p hp (fun p hp => ih hm.1 p hp)
  | setFileId id k ih =>
    simp only [PdfMarkers] at hm
    exact next (step_setFileId id) (run_prior _) p hp (fun p hp => ih hm p hp)
  | catalog id es k ih =>
    simp only [PdfMarkers] at hm
    exact next (step_catalog id es) (run_prior _) p hp (fun p hp => ih hm p hp)
  | documentInfo id es k ih =>
    simp only [PdfMarkers] at hm
    exact next (step_documentInfo id es) (run_prior _) p hp (fun p hp => ih hm p hp)

end PdfW
