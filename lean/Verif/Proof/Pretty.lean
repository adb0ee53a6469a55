import Verif.Proof.Minimal
import Verif.Proof.Layout
import Verif.Spec.Pretty

/-! # Lemmas: the layout of pretty output, and compact content streams -/

set_option linter.unusedSimpArgs false
set_option linter.unusedVariables false

namespace PdfW
open Spec

theorem spell_eq (p : Prim) : spell p = primBytes p := by simp [spell, Prim.write_eq, Buf.new]

theorem joinWith_cons (sep x : Bytes) (xs : List Bytes) (h : xs ≠ []) : joinWith sep (x :: xs) = x ++ (sep ++ joinWith sep xs) := by
  cases xs with
  | nil => exact absurd rfl h
  | cons y ys => rfl

theorem indentAt_succ (d : Nat) : saturatingAdd (indentAt d) 2 = indentAt (d + 1) := by
  simp only [saturatingAdd, indentAt]; omega

theorem layoutItems_ne_nil (d : Nat) (x : Prog) (xs : List Prog) : layoutItems d (x :: xs) ≠ [] := by simp [layoutItems]

mutual
theorem enc_layout (p : Prog) (d : Nat) (last : Option UInt8) : enc true (indentAt d) false last p = layout d p := by
  match p with
  | .prim p => simp [enc, layout, spell_eq, padOf]
  | .array items =>
    simp only [enc, layout, (encItems_layout items d (some ch!"[")).1]; rfl
  | .dict entries =>
    simp only [enc, layout, indentAt_succ, encEntries_layout entries d]
    cases entries <;> simp [lineSep, newLine, spaces]
  | .unused => simp [enc, layout]
termination_by structural p
theorem encItems_layout (xs : List Prog) (d : Nat) (last : Option UInt8) :
    encItems true (indentAt d) true last xs = joinWith b!" " (layoutItems d xs) ∧
    encItems true (indentAt d) false last xs = (if xs.isEmpty then [] else b!" " ++ joinWith b!" " (layoutItems d xs)) := by
  match xs with
  | [] => simp [encItems, layoutItems, joinWith]
  | x :: xs =>
    have hx := enc_layout x d last
    have hi := fun l => (encItems_layout xs d l).2
    simp only [encItems, layoutItems, itemSep, Bool.not_true, Bool.and_false, Bool.not_false, Bool.false_and, Bool.and_true,
      Bool.false_eq_true, if_false, if_true, List.nil_append, hx, hi, List.isEmpty_cons]
    cases xs with
    | nil => simp [layoutItems, joinWith]
    | cons y ys => simp [joinWith_cons _ _ _ (layoutItems_ne_nil d y ys)]
termination_by structural xs
theorem encEntries_layout (es : List (Bytes × Prog)) (d : Nat) : encEntries true (indentAt (d + 1)) es = layoutEntries d es := by
  match es with
  | [] => rfl
  | (k, v) :: es =>
    simp only [encEntries, layoutEntries, Bool.not_true, enc_layout v (d + 1), encEntries_layout es d, spell_eq, primBytes]
    simp [lineSep, newLine, spaces, keySep]
termination_by structural es
end

/-! ## Content streams -/

theorem enc_nopad (l l' : Option UInt8) (i : Nat) (x : Prog) : enc true i false l x = enc true i false l' x := by
  cases x <;> simp [enc, padOf]

theorem joinWith_append (sep : Bytes) (xs : List Bytes) (y : Bytes) :
    joinWith sep (xs ++ [y]) = joinWith sep xs ++ ((if xs.isEmpty then [] else sep) ++ y) := by
  induction xs with
  | nil => simp [joinWith]
  | cons x xs ih =>
    rw [List.cons_append, joinWith_cons _ _ _ (by simp), ih]
    cases xs with
    | nil => simp [joinWith]
    | cons z zs => simp [joinWith_cons sep x (z :: zs) (by simp)]

/-- One operation in pretty mode. -/
theorem opBytes_layout (before name : Bytes) (xs : List Prog) (hu : Prog.unused ∉ xs) :
    opBytes true before name xs = (if before.isEmpty then [] else b!"\n") ++ layoutOp name xs := by
  have h := (encItems_layout xs 0 before.getLast?).1
  have h0 : indentAt 0 = 0 := rfl
  rw [h0] at h
  simp only [opBytes, operandBytes, layoutOp, joinWith_append, h]
  cases xs with
  | nil =>
    cases before with
    | nil => simp [joinWith, layoutItems, dropSep]
    | cons b bs => simp [joinWith, layoutItems, dropSep]
  | cons x xs =>
    have hne : joinWith b!" " (layoutItems 0 (x :: xs)) ≠ [] := by
      rw [← h]; exact encItems_ne_nil _ _ _ _ _ _ (used_of_mem hu (by simp))
    have hd : dropSep true false (before ++ (opSep true before.isEmpty ++ joinWith b!" " (layoutItems 0 (x :: xs)))) = b!" " := by
      unfold dropSep
      rw [if_pos]
      · rfl
      · simp [hne]
    have hie : (layoutItems 0 (x :: xs)).isEmpty = false := by simp [layoutItems]
    simp only [List.isEmpty_cons, Bool.false_eq_true, if_false, hd, hie]
    cases before <;> simp [opSep]

theorem joinWith_snoc_list (sep : Bytes) (xs : List Bytes) (y : Bytes) : joinWith sep (xs ++ [y]) =
    (if xs.isEmpty then y else joinWith sep xs ++ (sep ++ y)) := by
  rw [joinWith_append]; cases xs <;> simp [joinWith]

/-- What follows the given buffer, when `E` is laid out one operation per line. -/
theorem runCalls_layout (cs : List ContentCall) (c c' : Content) (hp : c.pretty = true) (hr : runCalls cs c = some c')
    (hok : ∀ k ∈ cs, OperatorOk (operatorOf k) ∧ Prog.unused ∉ operandsOf k) :
    c'.buf.inner = c.buf.inner ++ ((if c.buf.inner.isEmpty || cs.isEmpty then [] else b!"\n") ++ layoutContent cs) := by
  induction cs generalizing c with
  | nil => simp only [runCalls, Option.some.injEq] at hr; subst hr; simp [layoutContent, joinWith]
  | cons k cs ih =>
    simp only [runCalls] at hr
    cases hk : k.run c with
    | none => simp [hk] at hr
    | some c1 =>
      simp only [hk] at hr
      obtain ⟨hp1, hbuf⟩ := call_eq c c1 k hk
      have hun := (hok k (by simp)).2
      rw [op_eq _ _ _ hun] at hbuf
      have hin : c1.buf.inner = c.buf.inner ++ opBytes true c.buf.inner (operatorOf k) (operandsOf k) := by rw [hbuf, hp]; rfl
      have hne1 : opBytes true c.buf.inner (operatorOf k) (operandsOf k) ≠ [] := by simp [opBytes, (hok k (by simp)).1.1]
      rw [ih c1 (by rw [hp1, hp]) hr (fun k hk => hok k (by simp [hk])), hin, opBytes_layout _ _ _ hun]
      have he : (c.buf.inner ++ opBytes true c.buf.inner (operatorOf k) (operandsOf k)).isEmpty = false := by simp [hne1]
      rw [← opBytes_layout _ _ _ hun, he, opBytes_layout _ _ _ hun]
      simp only [layoutContent, List.map_cons, List.isEmpty_cons, Bool.or_false]
      cases cs with
      | nil => simp [joinWith]
      | cons k2 cs =>
        rw [joinWith_cons _ _ _ (by simp)]
        simp

/-! ## Compact content streams -/

/-- The lexemes of an operation. -/
def opLex (name : Bytes) (xs : List Prog) : List Bytes := itemsLex xs ++ [name]

theorem operator_lexeme (name : Bytes) (hn : OperatorOk name) : IsLexeme name ∧ startsReg name = true := run_isLexeme name hn.2.1 hn.1

theorem opLex_isLexeme (name : Bytes) (xs : List Prog) (hn : OperatorOk name) (hok : OkItems xs) : ∀ l ∈ opLex name xs, IsLexeme l := by
  intro l hl
  simp only [opLex, List.mem_append, List.mem_singleton] at hl
  rcases hl with hl | rfl
  · exact itemsLex_isLexeme xs hok l hl
  · exact (operator_lexeme l hn).1

theorem encItems_last_state (xs : List Prog) (hok : OkItems xs) (first : Bool) (last : Option UInt8) (o : Bool)
    (hne : xs ≠ []) (hl : ∀ y ∈ xs.getLast?, isEmptyName y = false) :
    lastOpen o (itemsLex xs) = !((encItems false 0 first last xs).getLast?.any isDelimiterCharacter) := by
  induction xs generalizing first last o with
  | nil => exact absurd rfl hne
  | cons x xs ih =>
    simp only [OkItems] at hok
    simp only [itemsLex, encItems, lastOpen_append]
    cases xs with
    | nil =>
      simp only [itemsLex, encItems, lastOpen, List.append_nil, itemSep, Bool.and_false, Bool.false_eq_true, if_false, List.nil_append]
      exact after_state 0 _ last o x hok.1 (hl x (by simp))
    | cons y ys =>
      rw [getLast?_append_ne (encItems_ne_nil _ _ _ _ _ _ (used_of_ok y hok.2.1))]
      exact ih hok.2 false _ _ (by simp) (fun z hz => hl z (by simpa [List.getLast?_cons_cons] using hz))

/-- One operation in compact mode, after something that ends with a regular character or, if there are operands, at the start. -/
theorem tight_op (before name : Bytes) (xs : List Prog) (hn : OperatorOk name) (hok : OkItems xs)
    (hc : NoClashItems xs ∧ ∀ y ∈ xs.getLast?, isEmptyName y = false)
    (hb : (before.getLast?.any isDelimiterCharacter) = false) (hs : before ≠ [] ∨ xs ≠ []) :
    Tight true (opBytes false before name xs) (opLex name xs) := by
  simp only [opBytes, opLex]
  cases xs with
  | nil =>
    have hne : before ≠ [] := by simpa using hs
    have : dropSep false true before = b!"\n" := by
      unfold dropSep
      rw [if_pos]
      · rfl
      · cases h : before.getLast? with
        | none => simp at h; exact absurd h hne
        | some x => rw [h] at hb; simp at hb; simp [hb, hne]
    simp only [operandBytes, encItems, itemsLex, List.isEmpty_nil, if_true, List.nil_append, List.append_nil, this]
    have := Tight.cons (gap := b!"\n") (l := name) (rest := []) (o := true) (by simp [(operator_lexeme name hn).2]) (by decide) (.nil _)
    simpa using this
  | cons x xs =>
    have h1 := tight_items (x :: xs) hok hc.1 0 false before.getLast? true (fun y _ _ => by simp [hb])
    have hst := encItems_last_state (x :: xs) hok false before.getLast? true (by simp) hc.2
    have ho : operandBytes false before (x :: xs) = encItems false 0 false before.getLast? (x :: xs) := by simp [operandBytes, opSep]
    rw [ho]
    refine Tight.append h1 ?_
    have hne := encItems_ne_nil false 0 false before.getLast? x xs (used_of_ok x hok.1)
    unfold dropSep
    rw [getLast?_append_ne hne, hst]
    cases hg : (encItems false 0 false before.getLast? (x :: xs)).getLast? with
    | none => simp at hg; exact absurd hg hne
    | some z =>
      simp only [Option.any_some, Bool.false_or, List.isEmpty_cons]
      have he : (before ++ encItems false 0 false before.getLast? (x :: xs)).isEmpty = false := by simp [hne]
      rw [he]
      cases hz : isDelimiterCharacter z with
      | true => simp only [Bool.not_true, Bool.false_and, Bool.false_eq_true, if_false, List.nil_append]; exact Tight.one rfl
      | false =>
        simp only [Bool.not_false, Bool.and_self, if_true, Bool.false_eq_true, if_false]
        have := Tight.space (l := name) (rest := []) (operator_lexeme name hn).2 (.nil _)
        simpa using this

/-- The lexemes of a content stream. -/
def callsLex (cs : List ContentCall) : List Bytes := cs.flatMap fun k => opLex (operatorOf k) (operandsOf k)

theorem callsLex_isLexeme (cs : List ContentCall) (hok : ∀ k ∈ cs, CallOk k) : ∀ l ∈ callsLex cs, IsLexeme l := by
  intro l hl
  simp only [callsLex, List.mem_flatMap] at hl
  obtain ⟨k, hk, hl⟩ := hl
  exact opLex_isLexeme _ _ (operatorOk_of k (hok k hk)) (hok k hk).1 l hl

theorem opLex_lastOpen (o : Bool) (name : Bytes) (xs : List Prog) (hn : OperatorOk name) : lastOpen o (opLex name xs) = true := by
  rw [opLex, lastOpen_append]; exact openEnd_of_reg (operator_lexeme name hn).2

theorem runCalls_tight (cs : List ContentCall) (c c' : Content) (hp : c.pretty = false) (hr : runCalls cs c = some c')
    (hb : BufOk c.buf.inner) (hne : c.buf.inner ≠ []) (hok : ∀ k ∈ cs, CallOk k) (hc : ∀ k ∈ cs, CallNoClash k) :
    ∃ E, c'.buf.inner = c.buf.inner ++ E ∧ Tight true E (callsLex cs) := by
  induction cs generalizing c with
  | nil => simp only [runCalls, Option.some.injEq] at hr; subst hr; exact ⟨[], by simp, .nil _⟩
  | cons k cs ih =>
    simp only [runCalls] at hr
    cases hk : k.run c with
    | none => simp [hk] at hr
    | some c1 =>
      simp only [hk] at hr
      obtain ⟨hp1, hbuf⟩ := call_eq c c1 k hk
      have hn := operatorOk_of k (hok k (by simp))
      rw [op_eq _ _ _ (unused_not_mem (hok k (by simp)).1)] at hbuf
      have hin : c1.buf.inner = c.buf.inner ++ opBytes false c.buf.inner (operatorOf k) (operandsOf k) := by rw [hbuf, hp]; rfl
      have hb1 : BufOk c1.buf.inner := by rw [hin]; exact opBytes_last _ _ _ _ hn
      obtain ⟨E, e1, e2⟩ := ih c1 (by rw [hp1, hp]) hr hb1 (by rw [hin]; simp [hne]) (fun k hk => hok k (by simp [hk]))
        (fun k hk => hc k (by simp [hk]))
      obtain ⟨x, hx, hx'⟩ := hb.resolve_left hne
      have ht := tight_op c.buf.inner (operatorOf k) (operandsOf k) hn (hok k (by simp)).1 (hc k (by simp))
        (regular_last _ x hx hx').2 (Or.inl hne)
      refine ⟨_, by rw [e1, hin, List.append_assoc], ?_⟩
      simp only [callsLex, List.flatMap_cons]
      refine Tight.append ht ?_
      rw [opLex_lastOpen _ _ _ hn]; exact e2

/-- Without the white space in front. -/
theorem Tight.strip {bs l : Bytes} {ls : List Bytes} (h : Tight true bs (l :: ls)) :
    ∃ gap core, bs = gap ++ core ∧ gap.length = (if startsReg l then 1 else 0) ∧ Tight false core (l :: ls) := by
  generalize hq : l :: ls = q at h
  cases h with
  | nil => simp at hq
  | @cons _ gap l' rest ls' hg hw hs =>
    obtain ⟨rfl, rfl⟩ : l = l' ∧ ls = ls' := by simpa using hq
    exact ⟨gap, l ++ rest, rfl, by simpa using hg, Tight.next (by rfl) hs⟩

theorem progLex_starts (x : Prog) (hok : Ok x) : ∃ l ls, progLex x = l :: ls ∧ startsReg l = isBareToken x := by
  cases x with
  | prim p =>
    obtain ⟨l, ls, h1, h2⟩ := prim_starts p (by simpa [Ok] using hok)
    exact ⟨l, ls, h1, by rw [h2, bare_iff]⟩
  | array xs => exact ⟨_, _, rfl, rfl⟩
  | dict es => exact ⟨_, _, rfl, rfl⟩
  | unused => simp [Ok] at hok

end PdfW
