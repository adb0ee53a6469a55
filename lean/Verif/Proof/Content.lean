import Verif.Proof.Read
import Verif.Proof.Limits
import Verif.Spec.Content

/-! # Lemmas: content streams -/

set_option linter.unusedSimpArgs false
set_option linter.unusedVariables false

namespace PdfW
open Spec

theorem encItems_ne_nil (pretty : Bool) (indent : Nat) (first : Bool) (last : Option UInt8) (x : Prog) (xs : List Prog)
    (hx : x.used = true) : encItems pretty indent first last (x :: xs) ≠ [] := by
  simp [encItems, enc_ne_nil _ _ _ _ x hx]

theorem unused_not_mem {xs : List Prog} (h : OkItems xs) : Prog.unused ∉ xs := by
  induction xs with
  | nil => simp
  | cons x xs ih =>
    simp only [OkItems] at h
    rw [List.mem_cons, not_or]
    exact ⟨fun e => by rw [← e] at h; simp [Ok] at h, ih h.2⟩

/-- The last byte is only used for padding. -/
theorem encItems_pretty (indent : Nat) (first : Bool) (last last' : Option UInt8) (xs : List Prog) :
    encItems true indent first last xs = encItems true indent first last' xs := by
  induction xs generalizing first last last' with
  | nil => rfl
  | cons x xs ih =>
    have : enc true indent (!first && !true) last x = enc true indent (!first && !true) last' x := by
      cases x <;> simp [enc, padOf]
    simp only [encItems, this]
    rw [ih]

/-- Bytes before the first operand. -/
def opSep (pretty empty : Bool) : Bytes := if pretty && !empty then b!"\n" else []

theorem writeOperands_rest (pretty : Bool) (xs : List Prog) (op : Bytes) (buf : Buf) (hne : buf.inner ≠ []) (hu : Prog.unused ∉ xs) :
    Operation.writeOperands pretty xs ⟨op, false⟩ buf =
      (⟨buf.inner ++ encItems pretty 0 false buf.inner.getLast? xs, itemsLimits xs buf.limits⟩, ⟨op, false⟩) := by
  induction xs generalizing buf with
  | nil => simp [Operation.writeOperands, encItems, itemsLimits]
  | cons x xs ih =>
    have he : buf.inner.isEmpty = false := by simpa using hne
    have hx : x.used = true := used_of_mem hu (by simp)
    have hu' : Prog.unused ∉ xs := fun h => hu (by simp [h])
    cases pretty with
    | true =>
      simp only [Operation.writeOperands, Operation.obj, he, Bool.not_false, if_true, Bool.false_eq_true, if_false]
      rw [run_eq, ih]
      · simp only [Obj.direct, tailBytes, Bool.false_eq_true, if_false, List.append_nil, encItems, itemSep, Bool.not_false, Bool.and_self,
          if_true, Bool.not_true, Bool.and_false, itemsLimits, Buf.push, Buf.last?]
        have e1 : ∀ l, enc true 0 false l x = enc true 0 false none x := by intro l; cases x <;> simp [enc, padOf]
        have e2 : ∀ l, encItems true 0 false l xs = encItems true 0 false none xs := fun l => encItems_pretty 0 false l none xs
        simp only [e1, e2]
        simp
      · simp
      · exact hu'
    | false =>
      simp only [Operation.writeOperands, Operation.obj, Bool.false_eq_true, if_false]
      rw [run_eq, ih]
      · simp only [Obj.direct, tailBytes, Bool.false_and, Bool.false_eq_true, if_false, List.append_nil, encItems, itemSep, Bool.not_false, Bool.and_self,
          if_true, Bool.not_true, Bool.and_false, itemsLimits, Buf.push, List.nil_append]
        have hl := last_or (pre := []) (pretty := false) (indent := 0) (pad := true) (last := buf.inner.getLast?) (other := buf.inner.getLast?) x hx
        simp only [List.nil_append] at hl
        rw [getLast?_append_ne (enc_ne_nil _ _ _ _ _ hx), hl]
        simp
      · simp [enc_ne_nil _ _ _ _ x hx]
      · exact hu'

theorem writeOperands_first (pretty : Bool) (xs : List Prog) (op : Bytes) (buf : Buf) (hu : Prog.unused ∉ xs) :
    Operation.writeOperands pretty xs ⟨op, true⟩ buf =
      (⟨buf.inner ++ ((if xs.isEmpty then [] else opSep pretty buf.inner.isEmpty) ++ encItems pretty 0 pretty buf.inner.getLast? xs),
        itemsLimits xs buf.limits⟩, ⟨op, xs.isEmpty⟩) := by
  cases xs with
  | nil => simp [Operation.writeOperands, encItems, itemsLimits]
  | cons x xs =>
    have hx : x.used = true := used_of_mem hu (by simp)
    have hu' : Prog.unused ∉ xs := fun h => hu (by simp [h])
    cases pretty with
    | true =>
      simp only [Operation.writeOperands, Operation.obj, if_true]
      rw [run_eq, writeOperands_rest]
      · simp only [Obj.direct, tailBytes, Bool.false_eq_true, if_false, List.append_nil, encItems, itemSep, Bool.not_false, Bool.and_self,
          if_true, Bool.not_true, Bool.and_false, itemsLimits, Bool.false_and, List.nil_append, List.isEmpty_cons, opSep, Bool.true_and]
        have e1 : ∀ l, enc true 0 false l x = enc true 0 false none x := by intro l; cases x <;> simp [enc, padOf]
        have e2 : ∀ l, encItems true 0 false l xs = encItems true 0 false none xs := fun l => encItems_pretty 0 false l none xs
        simp only [e1, e2]
        cases hb : buf.inner.isEmpty with
        | true =>
          simp
        | false =>
          simp [Buf.push]
      · split <;> simp [enc_ne_nil _ _ _ _ x hx]
      · exact hu'
    | false =>
      simp only [Operation.writeOperands, Operation.obj, Bool.false_eq_true, if_false]
      rw [run_eq, writeOperands_rest]
      · simp only [Obj.direct, tailBytes, Bool.false_eq_true, if_false, List.append_nil, encItems, itemSep, Bool.not_false, Bool.and_self,
          if_true, Bool.not_true, Bool.and_false, itemsLimits, List.nil_append, List.isEmpty_cons, opSep, Bool.false_and]
        have hl := last_or (pre := []) (pretty := false) (indent := 0) (pad := true) (last := buf.inner.getLast?) (other := buf.inner.getLast?) x hx
        simp only [List.nil_append] at hl
        rw [getLast?_append_ne (enc_ne_nil _ _ _ _ _ hx), hl]
        simp
      · simp [enc_ne_nil _ _ _ _ x hx]
      · exact hu'

/-- Bytes before the operator. -/
def dropSep (pretty : Bool) (first : Bool) (before : Bytes) : Bytes :=
  if (pretty || before.getLast?.any fun b => !isDelimiterCharacter b) && !before.isEmpty then (if first then b!"\n" else b!" ") else []

theorem drop_eq (op : Bytes) (first pretty : Bool) (buf : Buf) :
    Operation.drop ⟨op, first⟩ pretty buf = ⟨buf.inner ++ (dropSep pretty first buf.inner ++ op), buf.limits⟩ := by
  unfold Operation.drop dropSep
  by_cases h : ((pretty || buf.inner.getLast?.any fun b => !isDelimiterCharacter b) && !buf.inner.isEmpty) = true
  · simp only []
    rw [if_pos h, if_pos (show ((pretty || buf.last?.any fun b => !isDelimiterCharacter b) && !buf.inner.isEmpty) = true from h)]
    cases first <;> simp [Buf.push, Buf.extend]
  · simp only []
    rw [if_neg h, if_neg (show ¬ ((pretty || buf.last?.any fun b => !isDelimiterCharacter b) && !buf.inner.isEmpty) = true from h)]
    simp [Buf.extend]

/-- Bytes of the operands with what precedes them. -/
def operandBytes (pretty : Bool) (before : Bytes) (xs : List Prog) : Bytes :=
  (if xs.isEmpty then [] else opSep pretty before.isEmpty) ++ encItems pretty 0 pretty before.getLast? xs

theorem op_eq (c : Content) (name : Bytes) (xs : List Prog) (hu : Prog.unused ∉ xs) :
    c.op name xs = { c with buf := ⟨c.buf.inner ++ (operandBytes c.pretty c.buf.inner xs ++
        (dropSep c.pretty xs.isEmpty (c.buf.inner ++ operandBytes c.pretty c.buf.inner xs) ++ name)), itemsLimits xs c.buf.limits⟩ } := by
  simp only [Content.op, Operation.start, writeOperands_first _ _ _ _ hu, drop_eq, operandBytes, List.append_assoc]

theorem writeOperands_limits (pretty : Bool) (xs : List Prog) (o : Operation) (buf : Buf) :
    (Operation.writeOperands pretty xs o buf).1.limits = itemsLimits xs buf.limits := by
  induction xs generalizing o buf with
  | nil => rfl
  | cons x xs ih =>
    simp only [Operation.writeOperands, ih, run_eq, itemsLimits]
    obtain ⟨op, first⟩ := o
    congr 2
    simp only [Operation.obj]
    cases first <;> cases pretty <;> simp <;> split <;> rfl

theorem op_limits (c : Content) (name : Bytes) (xs : List Prog) : (c.op name xs).buf.limits = itemsLimits xs c.buf.limits := by
  simp only [Content.op]
  rw [← writeOperands_limits c.pretty xs (Operation.start name) c.buf]
  obtain ⟨op, first⟩ := (Operation.writeOperands c.pretty xs (Operation.start name) c.buf).2
  rw [drop_eq]

/-- A list of objects, where the last decides what may follow. -/
theorem scan_list (pretty : Bool) (xs : List Prog) (hok : OkItems xs) (hc : pretty = true ∨ NoClashItems xs) (indent : Nat)
    (first : Bool) (last : Option UInt8) (rest : Bytes) (hr : ∀ y ∈ xs.getLast?, progNeedsEnd y = true → sepOk rest = true) :
    Scan (encItems pretty indent first last xs ++ rest) (itemsToks xs) rest := by
  induction xs generalizing first last with
  | nil => exact Scan.nil rest
  | cons x xs ih =>
    simp only [OkItems] at hok
    simp only [NoClashItems] at hc
    have hx := scan_enc pretty x hok.1 (hc.imp id (fun h => h.1)) indent (!first && !pretty) last
      (encItems pretty indent false ((itemSep pretty first ++ enc pretty indent (!first && !pretty) last x).getLast?.or last) xs ++ rest) (by
        intro he
        match xs, hr with
        | [], hr => exact hr x (by simp) he
        | y :: ys, _ =>
          cases pretty with
          | true => simp [encItems, itemSep, sepOk]; decide
          | false =>
            simp only [encItems, itemSep, Bool.and_false, Bool.false_eq_true, if_false, List.nil_append, List.append_assoc]
            apply enc_head _ _ _ (used_of_ok y hok.2.1)
            intro hy
            have hx := last_or (pre := itemSep false first) (pretty := false) (indent := indent) (pad := !first && !false) (last := last) (other := last) x (used_of_ok x hok.1)
            simp only [itemSep, Bool.and_false, Bool.false_eq_true, if_false, List.nil_append] at hx
            rw [hx]
            have hc' := hc.resolve_left (by simp)
            apply enc_last _ _ _ _ _ hok.1 he
            cases hen : isEmptyName x
            · rfl
            · have := hc'.2.1 hen y (by simp)
              simp [hy] at this)
    have hi := ih hok.2 (hc.imp id (fun h => h.2.2)) false
      ((itemSep pretty first ++ enc pretty indent (!first && !pretty) last x).getLast?.or last) (by
        intro y hy
        cases xs with
        | nil => simp at hy
        | cons z zs => exact hr y (by rw [List.getLast?_cons_cons]; exact hy))
    simp only [encItems, itemsToks, List.append_assoc]
    refine Scan.whites ?_ (by simp [progToks_ne_nil x hok.1]) (hx.append hi)
    unfold itemSep; split <;> decide

/-- The last byte of a list of objects. -/
theorem encItems_last (pretty : Bool) (indent : Nat) (first : Bool) (last : Option UInt8) (xs : List Prog) (y : Prog)
    (hy : xs.getLast? = some y) : ∃ pre pad l, encItems pretty indent first last xs = pre ++ enc pretty indent pad l y := by
  induction xs generalizing first last with
  | nil => simp at hy
  | cons x xs ih =>
    cases xs with
    | nil =>
      simp at hy; subst hy
      exact ⟨itemSep pretty first, !first && !pretty, last, by simp only [encItems, List.append_nil]⟩
    | cons z zs =>
      rw [List.getLast?_cons_cons] at hy
      obtain ⟨pre, pad, l, h⟩ := ih false ((itemSep pretty first ++ enc pretty indent (!first && !pretty) last x).getLast?.or last) hy
      exact ⟨(itemSep pretty first ++ enc pretty indent (!first && !pretty) last x) ++ pre, pad, l, by
        rw [encItems, h]; simp only [List.append_assoc]⟩

theorem okItems_last (xs : List Prog) (h : OkItems xs) (y : Prog) (hy : y ∈ xs) : Ok y := by
  induction xs with
  | nil => simp at hy
  | cons x xs ih =>
    simp only [OkItems] at h
    rcases List.mem_cons.mp hy with rfl | hy
    · exact h.1
    · exact ih h.2 hy

/-- The buffer between operations. -/
def BufOk (b : Bytes) : Prop := b = [] ∨ ∃ x, b.getLast? = some x ∧ isRegular x = true

theorem regular_last (b : Bytes) (x : UInt8) (h : b.getLast? = some x) (hx : isRegular x = true) : b ≠ [] ∧ b.getLast?.any isDelimiterCharacter = false := by
  refine ⟨by rintro rfl; simp at h, ?_⟩
  rw [h]; simp [regular_not_delimiter x hx]

theorem white_10 : isWhite 10 = true := by decide
theorem white_32 : isWhite 32 = true := by decide

/-- The bytes one operation appends. -/
def opBytes (pretty : Bool) (before : Bytes) (name : Bytes) (xs : List Prog) : Bytes :=
  operandBytes pretty before xs ++ (dropSep pretty xs.isEmpty (before ++ operandBytes pretty before xs) ++ name)

theorem opBytes_head (pretty : Bool) (before name : Bytes) (xs : List Prog) (hb : BufOk before) (hne : before ≠ []) (rest : Bytes)
    (hu : Prog.unused ∉ xs) : sepOk (opBytes pretty before name xs ++ rest) = true := by
  obtain ⟨x, hx, hx'⟩ := hb.resolve_left hne
  have hd := (regular_last before x hx hx').2
  have he : before.isEmpty = false := by simpa using hne
  cases xs with
  | nil =>
    have : (Option.any (fun b => !isDelimiterCharacter b) before.getLast?) = true := by
      rw [hx]; simp [regular_not_delimiter x hx']
    simp [opBytes, operandBytes, encItems, dropSep, this, hne, sepOk]
    decide
  | cons y ys =>
    cases pretty with
    | true =>
      simp [opBytes, operandBytes, opSep, hne, sepOk]
      decide
    | false =>
      simp only [opBytes, operandBytes, List.isEmpty_cons, Bool.false_eq_true, if_false, opSep, Bool.false_and, List.nil_append, encItems,
        itemSep, Bool.and_false, List.append_assoc, Bool.not_false, Bool.and_self]
      apply enc_head _ _ _ (used_of_mem hu (by simp))
      intro _; exact hd

theorem opBytes_last (pretty : Bool) (before name : Bytes) (xs : List Prog) (hn : OperatorOk name) :
    BufOk (before ++ opBytes pretty before name xs) := by
  obtain ⟨h1, h2, -⟩ := hn
  right
  cases hl : name.getLast? with
  | none => simp at hl; exact absurd hl h1
  | some x =>
    refine ⟨x, ?_, ?_⟩
    · rw [getLast?_append_ne (by simp [opBytes, h1]), opBytes, getLast?_append_ne (by simp [h1]), getLast?_append_ne h1, hl]
    · rw [List.all_eq_true] at h2
      exact h2 x (List.mem_of_getLast? hl)

theorem operator_token (name rest : Bytes) (hn : OperatorOk name) (hr : sepOk rest = true) :
    nextToken (name ++ rest) = some (.kw name, rest) ∧ isOperator (.kw name) = some name := by
  obtain ⟨h1, h2, h3, h4, h5, h6, h7⟩ := hn
  refine ⟨?_, ?_⟩
  · rw [nextToken_run _ _ h2 h1 hr, readRun, h3]
  · simp [isOperator, kwTrue, kwFalse, kwNull, kwR, h4, h5, h6, h7]

theorem nextToken_whites (ws bs : Bytes) (h : ws.all isWhite = true) : nextToken (ws ++ bs) = nextToken bs := by
  induction ws with
  | nil => rfl
  | cons w ws ih =>
    simp only [List.all_cons, Bool.and_eq_true] at h
    have : nextToken (w :: (ws ++ bs)) = nextToken (ws ++ bs) := by
      unfold nextToken; simp [skipSpace, h.1]
    rw [List.cons_append, this, ih h.2]

theorem dropSep_white (pretty first : Bool) (before : Bytes) : (dropSep pretty first before).all isWhite = true := by
  unfold dropSep; split
  · cases first <;> decide
  · rfl

/-- One operation is read as its operands and its operator. -/
theorem opBytes_reads (pretty : Bool) (before name : Bytes) (xs : List Prog) (hn : OperatorOk name) (hok : OkItems xs)
    (hc : pretty = true ∨ (NoClashItems xs ∧ ∀ y ∈ xs.getLast?, isEmptyName y = false)) (rest : Bytes) (hr : sepOk rest = true)
    (fuel : Nat) (hf : (opBytes pretty before name xs ++ rest).length < fuel) :
    readItems fuel [(.top, [])] (opBytes pretty before name xs ++ rest) = some (itemsVal xs, name, rest) := by
  have htok := operator_token name rest hn hr
  have hs : Scan (encItems pretty 0 pretty before.getLast? xs ++
      (dropSep pretty xs.isEmpty (before ++ operandBytes pretty before xs) ++ (name ++ rest))) (itemsToks xs)
      (dropSep pretty xs.isEmpty (before ++ operandBytes pretty before xs) ++ (name ++ rest)) := by
    apply scan_list pretty xs hok (hc.imp id (·.1))
    intro y hy hne
    have hxs : xs ≠ [] := by rintro rfl; simp at hy
    have hob : before ++ operandBytes pretty before xs ≠ [] := by
      cases xs with
      | nil => simp at hxs
      | cons a as => simp [operandBytes, encItems_ne_nil _ _ _ _ a as (used_of_ok a hok.1)]
    have hpad : dropSep pretty xs.isEmpty (before ++ operandBytes pretty before xs) = b!" " := by
      unfold dropSep
      have hie : xs.isEmpty = false := by simpa using hxs
      have hbe : (before ++ operandBytes pretty before xs).isEmpty = false := by simpa using hob
      rw [hie, hbe]
      cases hp : pretty with
      | true => rfl
      | false =>
        have hy' := hc.resolve_left (by simp [hp])
        obtain ⟨pre, pad, l, he⟩ := encItems_last false 0 false before.getLast? xs y (by simpa using hy)
        have huy := used_of_ok y (okItems_last xs hok y (List.mem_of_getLast? (by simpa using hy)))
        have hl := enc_last false 0 pad l y (okItems_last xs hok y (List.mem_of_getLast? (by simpa using hy))) hne (hy'.2 y hy)
        have hlast : (before ++ operandBytes false before xs).getLast? = (enc false 0 pad l y).getLast? := by
          simp only [operandBytes]
          rw [he, ← List.append_assoc, ← List.append_assoc, getLast?_append_ne (enc_ne_nil _ _ _ _ _ huy)]
        rw [hlast]
        cases hg : (enc false 0 pad l y).getLast? with
        | none => simp at hg; exact absurd hg (enc_ne_nil _ _ _ _ _ huy)
        | some z => rw [hg] at hl; simp at hl; simp [hl]
    rw [hpad]
    exact white_sepOk 32 _ white_32
  have hbytes : opBytes pretty before name xs ++ rest = (if xs.isEmpty then [] else opSep pretty before.isEmpty) ++
      (encItems pretty 0 pretty before.getLast? xs ++
      (dropSep pretty xs.isEmpty (before ++ operandBytes pretty before xs) ++ (name ++ rest))) := by
    simp only [opBytes, List.append_assoc]
    conv => lhs; rw [show operandBytes pretty before xs = (if xs.isEmpty then [] else opSep pretty before.isEmpty) ++ encItems pretty 0 pretty before.getLast? xs from rfl]
    simp only [List.append_assoc]
    rfl
  have hs' : Scan (opBytes pretty before name xs ++ rest) (itemsToks xs)
      (dropSep pretty xs.isEmpty (before ++ operandBytes pretty before xs) ++ (name ++ rest)) := by
    rw [hbytes]
    cases xs with
    | nil => exact hs
    | cons a as =>
      refine Scan.whites ?_ (by simp [itemsToks, progToks_ne_nil a hok.1]) hs
      simp only [List.isEmpty_cons, Bool.false_eq_true, if_false, opSep]
      split <;> decide
  have hlen := hs'.length
  have := readItems_scan hs' (itemsToks_notOp xs hok) (.kw name) (rest' := rest)
    (by rw [nextToken_whites _ _ (dropSep_white _ _ _)]; exact htok.1) htok.2 fuel (by omega) [(.top, [])] (itemsVal xs).reverse
    (by have := fold_items xs hok .top [] []; simpa using this)
  simpa using this

/-- The operations of a list of calls. -/
def callOps (cs : List ContentCall) : List ReadOp := cs.map fun c => (operatorOf c, itemsVal (operandsOf c))

theorem readItems_some_skip {fuel : Nat} {st : State} {bs : Bytes} {r} (h : readItems fuel st bs = some r) : skipSpace false bs ≠ [] := by
  intro hs
  cases fuel with
  | zero => simp [readItems] at h
  | succ n => simp [readItems, nextToken, hs, tokenAt] at h

/-- What each method does to the content. -/
theorem call_eq (c c' : Content) (k : ContentCall) (h : k.run c = some c') :
    c'.pretty = c.pretty ∧ c'.buf = (c.op (operatorOf k) (operandsOf k)).buf := by
  cases k with
  | setLineCap a => cases a <;> (simp only [ContentCall.run, Option.some.injEq] at h; subst h; exact ⟨rfl, rfl⟩)
  | setLineJoin a => cases a <;> (simp only [ContentCall.run, Option.some.injEq] at h; subst h; exact ⟨rfl, rfl⟩)
  | setRenderingIntent a => cases a <;> (simp only [ContentCall.run, Option.some.injEq] at h; subst h; exact ⟨rfl, rfl⟩)
  | setTextRenderingMode a => cases a <;> (simp only [ContentCall.run, Option.some.injEq] at h; subst h; exact ⟨rfl, rfl⟩)
  | setStrokeColorSpace a => cases a <;> (simp only [ContentCall.run, Option.some.injEq] at h; subst h; exact ⟨rfl, rfl⟩)
  | setFillColorSpace a => cases a <;> (simp only [ContentCall.run, Option.some.injEq] at h; subst h; exact ⟨rfl, rfl⟩)
  | setLineWidth w =>
    simp only [ContentCall.run] at h
    split at h
    · simp only [Option.some.injEq] at h; subst h; exact ⟨rfl, rfl⟩
    · simp at h
  | setFlatness w =>
    simp only [ContentCall.run] at h
    split at h
    · simp only [Option.some.injEq] at h; subst h; exact ⟨rfl, rfl⟩
    · simp at h
  | showPositioned items =>
    simp only [ContentCall.run, Option.some.injEq] at h; subst h
    refine ⟨rfl, ?_⟩
    simp only [operatorOf, operandsOf]
    congr 4
  | markedContentPointWithProperties t p =>
    have he : PropCall.entry = propEntry := by
      funext x
      cases x with
      | kind a => cases a <;> rfl
      | subtype a => cases a <;> rfl
      | attached a => simp only [PropCall.entry, propEntry]; congr 3; funext x; cases x <;> rfl
      | _ => rfl
    simp only [ContentCall.run, Option.some.injEq] at h; subst h
    refine ⟨rfl, ?_⟩
    cases p with
    | dict calls => simp only [operatorOf, operandsOf, MarkProps.operands, he]; rfl
    | _ => rfl
  | beginMarkedContentWithProperties t p =>
    have he : PropCall.entry = propEntry := by
      funext x
      cases x with
      | kind a => cases a <;> rfl
      | subtype a => cases a <;> rfl
      | attached a => simp only [PropCall.entry, propEntry]; congr 3; funext x; cases x <;> rfl
      | _ => rfl
    simp only [ContentCall.run, Option.some.injEq] at h; subst h
    refine ⟨rfl, ?_⟩
    cases p with
    | dict calls => simp only [operatorOf, operandsOf, MarkProps.operands, he]; rfl
    | _ => rfl
  | _ => simp only [ContentCall.run, Option.some.injEq] at h; subst h; exact ⟨rfl, rfl⟩

theorem operatorOk_of (k : ContentCall) (h : CallOk k) : OperatorOk (operatorOf k) := by
  obtain ⟨-, h⟩ := h
  cases k with
  | op n xs => exact h
  | _ => refine ⟨?_, ?_, ?_, ?_, ?_, ?_, ?_⟩ <;> (simp only [operatorOf]; decide)

theorem runCalls_reads (cs : List ContentCall) (c c' : Content) (hr : runCalls cs c = some c') (hb : BufOk c.buf.inner)
    (hok : ∀ k ∈ cs, CallOk k) (hc : c.pretty = true ∨ ∀ k ∈ cs, CallNoClash k) :
    c'.pretty = c.pretty ∧ BufOk c'.buf.inner ∧
    ∃ E, c'.buf.inner = c.buf.inner ++ E ∧ (c.buf.inner ≠ [] → sepOk E = true) ∧ cs.length ≤ E.length ∧
      ∀ fuel, cs.length < fuel → readOps fuel E = some (callOps cs) := by
  induction cs generalizing c with
  | nil =>
    simp only [runCalls, Option.some.injEq] at hr
    subst hr
    refine ⟨rfl, hb, [], by simp, fun _ => rfl, by simp, ?_⟩
    intro fuel hf
    cases fuel with
    | zero => simp at hf
    | succ n => simp [readOps, skipSpace, callOps]
  | cons k cs ih =>
    simp only [runCalls] at hr
    cases hk : k.run c with
    | none => simp [hk] at hr
    | some c1 =>
      simp only [hk] at hr
      obtain ⟨hp, hbuf⟩ := call_eq c c1 k hk
      have hn := operatorOk_of k (hok k (by simp))
      have hun := unused_not_mem (hok k (by simp)).1
      rw [op_eq _ _ _ hun] at hbuf
      have hin : c1.buf.inner = c.buf.inner ++ opBytes c.pretty c.buf.inner (operatorOf k) (operandsOf k) := by rw [hbuf]; rfl
      have hb1 : BufOk c1.buf.inner := by rw [hin]; exact opBytes_last _ _ _ _ hn
      obtain ⟨q1, q2, E, e1, e2, e3, e4⟩ := ih c1 hr hb1 (fun k hk => hok k (by simp [hk])) (by
        rw [hp]; exact hc.imp id (fun h k hk => h k (by simp [hk])))
      have hne1 : opBytes c.pretty c.buf.inner (operatorOf k) (operandsOf k) ≠ [] := by simp [opBytes, hn.1]
      have hsep := e2 (by rw [hin]; simp [hne1])
      have hlen : 0 < (opBytes c.pretty c.buf.inner (operatorOf k) (operandsOf k)).length := List.length_pos_iff.mpr hne1
      refine ⟨by rw [q1, hp], q2, opBytes c.pretty c.buf.inner (operatorOf k) (operandsOf k) ++ E, by rw [e1, hin, List.append_assoc], ?_, ?_, ?_⟩
      · intro hne
        exact opBytes_head _ _ _ _ hb hne E hun
      · simp only [List.length_cons, List.length_append]; omega
      · intro fuel hf
        cases fuel with
        | zero => simp at hf
        | succ n =>
          have hread := opBytes_reads c.pretty c.buf.inner (operatorOf k) (operandsOf k) hn (hok k (by simp)).1
            (hc.imp id (fun h => h k (by simp))) E hsep _ (Nat.lt_succ_self _)
          have hskip := readItems_some_skip hread
          rw [readOps.eq_def]
          simp only
          split
          · rename_i heq; exact absurd heq hskip
          · rw [hread]
            simp only
            rw [e4 n (by simp at hf; omega)]
            rfl

theorem allMean_callOps (cs : List ContentCall) (hok : ∀ k ∈ cs, CallOk k) : AllMean cs (callOps cs) := by
  induction cs with
  | nil => rfl
  | cons k cs ih =>
    exact ⟨_, _, rfl, ⟨rfl, itemsVal_denotes _ (hok k (by simp)).1⟩, ih (fun k hk => hok k (by simp [hk]))⟩

theorem content_finish_eq (c : Content) (h : BufOk c.buf.inner) : c.finish = c.buf := by
  unfold Content.finish
  rw [if_neg]
  intro hl
  rcases h with h | ⟨x, hx, hr⟩
  · simp [Buf.last?, h] at hl
  · rw [Buf.last?, hx] at hl
    simp only [Option.some.injEq] at hl
    subst hl
    exact absurd hr (by decide)

/-- Facts of a list of calls. -/
theorem runCalls_limits (cs : List ContentCall) (c c' : Content) (fs : List Fact) (hr : runCalls cs c = some c') (hf : Exact c.buf.limits fs) :
    Exact c'.buf.limits (fs ++ cs.flatMap fun k => itemsFacts (operandsOf k)) := by
  induction cs generalizing c fs with
  | nil => simp only [runCalls, Option.some.injEq] at hr; subst hr; simpa using hf
  | cons k cs ih =>
    simp only [runCalls] at hr
    cases hk : k.run c with
    | none => simp [hk] at hr
    | some c1 =>
      simp only [hk] at hr
      obtain ⟨hp, hbuf⟩ := call_eq c c1 k hk
      have : Exact c1.buf.limits (fs ++ itemsFacts (operandsOf k)) := by
        rw [hbuf, op_limits, itemsFacts_eq]; exact exact_regs hf _
      have := ih c1 _ hr this
      simpa [List.append_assoc] using this

end PdfW
