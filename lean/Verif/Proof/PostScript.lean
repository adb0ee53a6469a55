import Verif.Proof.Cmap
import Verif.Proof.Read
import Verif.Spec.PostScript

/-! # Lemmas: PostScript calculator programs -/

set_option linter.unusedSimpArgs false
set_option linter.unusedVariables false

namespace PdfW
open Spec

/-- A block around its spelled contents. -/
def wrapBlock (n : Nat) (body : Bytes) : Bytes :=
  ch!"{" :: ((if n > 1 then b!" " else []) ++ ((if n = 1 then body.dropLast else body) ++ b!"}"))

mutual
/-- Spelling of an operation. -/
def psBytes : PostScriptOp → Bytes
  | .real r => r.decimalBytes
  | .integer i => intBytes i
  | .if_ ops => wrapBlock ops.length (psOpsBytes ops) ++ b!" if"
  | .ifElse a b => wrapBlock a.length (psOpsBytes a) ++ (b!" " ++ (wrapBlock b.length (psOpsBytes b) ++ b!" ifelse"))
  | .simple o => o.operator
termination_by structural p => p
/-- Spelling of the contents of a block. -/
def psOpsBytes : List PostScriptOp → Bytes
  | [] => []
  | o :: os => psBytes o ++ ([32] ++ psOpsBytes os)
termination_by structural p => p
end

theorem psOpsBytes_ne (ops : List PostScriptOp) (h : ops.length = 1) : psOpsBytes ops ≠ [] := by
  match ops with
  | [o] => simp [psOpsBytes]

theorem wrap_inner (n : Nat) (ops : List PostScriptOp) (hn : n = ops.length) (buf buf' : Buf)
    (h : buf'.inner = (psOpen n buf).inner ++ psOpsBytes ops) :
    (psClose n buf').inner = buf.inner ++ wrapBlock n (psOpsBytes ops) := by
  unfold psClose wrapBlock
  by_cases h1 : n = 1
  · have hne := psOpsBytes_ne ops (by omega)
    subst h1
    simp only [if_true, Buf.popLast, Buf.push_inner, h, psOpen]
    rw [List.dropLast_append_of_ne_nil hne]
    simp
  · simp only [h1, if_false, Buf.push_inner, h, psOpen]
    by_cases h2 : n > 1
    · simp [h2, Buf.push_inner]
    · simp [PostScriptOp.operator, h2, Buf.push_inner]

mutual
theorem ps_write (op : PostScriptOp) (buf : Buf) : (op.write buf).inner = buf.inner ++ psBytes op := by
  match op with
  | .real r => simp only [PostScriptOp.write, psBytes, pushDecimal_eq]
  | .integer i => simp only [PostScriptOp.write, psBytes, pushInt_eq]
  | .simple o => simp [PostScriptOp.operator, PostScriptOp.write, psBytes]
  | .if_ ops =>
    have h := wrap_inner ops.length ops rfl buf (writeOps ops (psOpen ops.length buf)) (ps_writeOps ops _)
    simp only [PostScriptOp.write, psBytes, Buf.extend_inner, Buf.push_inner, h]
    simp [PostScriptOp.operator]
  | .ifElse a b =>
    have h1 := wrap_inner a.length a rfl buf (writeOps a (psOpen a.length buf)) (ps_writeOps a _)
    have h2 := wrap_inner b.length b rfl ((psClose a.length (writeOps a (psOpen a.length buf))).push ch!" ") _ (ps_writeOps b _)
    simp only [PostScriptOp.write, psBytes, Buf.extend_inner, Buf.push_inner, h2, h1]
    simp [PostScriptOp.operator]
termination_by structural op
theorem ps_writeOps (ops : List PostScriptOp) (buf : Buf) : (writeOps ops buf).inner = buf.inner ++ psOpsBytes ops := by
  match ops with
  | [] => simp [writeOps, psOpsBytes]
  | o :: os =>
    have h1 := ps_write o buf
    have h2 := ps_writeOps os ((o.write buf).push ch!" ")
    simp only [writeOps, psOpsBytes, h2, Buf.push_inner, h1]
    simp
termination_by structural ops
end

theorem encode_inner (ops : List PostScriptOp) :
    (PostScriptOp.encode ops).inner = wrapBlock ops.length (psOpsBytes ops) := by
  have := wrap_inner ops.length ops rfl Buf.new _ (ps_writeOps ops _)
  simpa [PostScriptOp.encode, writeSlice, Buf.new] using this

mutual
/-- Tokens of an operation. -/
def psToks : PostScriptOp → List Tok
  | .real r => [readRun r.decimalBytes]
  | .integer i => [.int i]
  | .if_ ops => .braceOpen :: (psOpsToks ops ++ [.braceClose, .kw b!"if"])
  | .ifElse a b => .braceOpen :: (psOpsToks a ++ ([.braceClose, .braceOpen] ++ (psOpsToks b ++ [.braceClose, .kw b!"ifelse"])))
  | .simple o => [.kw o.operator]
termination_by structural p => p
def psOpsToks : List PostScriptOp → List Tok
  | [] => []
  | o :: os => psToks o ++ psOpsToks os
termination_by structural p => p
end

theorem operator_kw (o : PsSimple) : o.operator.all isRegular = true ∧ o.operator ≠ [] ∧ readNumber o.operator = none := by
  cases o <;> exact ⟨by decide, by decide, by decide⟩

theorem decimal_scan (v : F32) (hf : v.isFinite = true) (rest : Bytes) (hr : sepOk rest = true) :
    Scan (v.decimalBytes ++ rest) [readRun v.decimalBytes] rest := by
  obtain ⟨h1, h2, -⟩ := F32.decimalBytes_spells v hf
  apply Scan.single
  apply nextToken_run _ _ _ h2 hr
  rw [List.all_eq_true] at h1 ⊢
  intro b hb; exact F32.dec_regular b (h1 b hb)

theorem psToks_ne (o : PostScriptOp) : psToks o ≠ [] := by
  cases o <;> simp [psToks]

/-- Scanning a block, given how to scan its contents. -/
theorem wrap_scan (ops : List PostScriptOp) (rest : Bytes)
    (h1 : ∀ o, ops = [o] → ∀ r, sepOk r = true → Scan (psBytes o ++ r) (psToks o) r)
    (h2 : ∀ r ts r', ts ≠ [] → Scan r ts r' → Scan (psOpsBytes ops ++ r) (psOpsToks ops ++ ts) r') :
    Scan (wrapBlock ops.length (psOpsBytes ops) ++ rest) (.braceOpen :: (psOpsToks ops ++ [.braceClose])) rest := by
  have hc : ∀ r : Bytes, Scan (b!"}" ++ r) [.braceClose] r := fun r =>
    Scan.single (by rw [List.cons_append, nextToken_head _ _ (by decide) (by decide)]; rfl)
  have ho : ∀ (x r : Bytes) (ts : List Tok), Scan x ts r → Scan (ch!"{" :: x) (.braceOpen :: ts) r := fun x r ts h =>
    Scan.cons (by rw [nextToken_head _ _ (by decide) (by decide)]; rfl) h
  unfold wrapBlock
  simp only [List.cons_append, List.append_assoc]
  apply ho
  by_cases hn : ops.length = 1
  · obtain ⟨o, rfl⟩ := List.length_eq_one_iff.mp hn
    simp only [List.length_cons, List.length_nil, psOpsBytes, psOpsToks, List.append_nil]
    simp only [Nat.zero_add, Nat.lt_irrefl, gt_iff_lt, if_false, if_true, List.nil_append]
    rw [List.dropLast_append_of_ne_nil (by simp)]
    simp only [List.dropLast_singleton, List.append_nil]
    exact (h1 o rfl _ (by rfl)).append (hc rest)
  · rw [if_neg hn]
    by_cases h3 : ops.length > 1
    · rw [if_pos h3]
      exact Scan.white (w := 32) (by decide) (by simp) (h2 _ _ _ (by simp) (hc rest))
    · rw [if_neg h3]
      exact h2 _ _ _ (by simp) (hc rest)

mutual
theorem ps_scan (op : PostScriptOp) (hf : PsFinite op) (rest : Bytes) (hr : sepOk rest = true) :
    Scan (psBytes op ++ rest) (psToks op) rest := by
  match op with
  | .real r => exact decimal_scan r (by simpa [PsFinite] using hf) rest hr
  | .integer i => exact intBytes_scan i rest hr
  | .simple o =>
    obtain ⟨a, b, c⟩ := operator_kw o
    exact kw_scan _ rest a b c hr
  | .if_ ops =>
    have hf' : AllPsFinite ops := by simpa [PsFinite] using hf
    have h := wrap_scan ops (b!" if" ++ rest) (ps_single ops hf') (ps_scanOps ops hf')
    have h2 : Scan (b!" if" ++ rest) [.kw b!"if"] rest :=
      Scan.white (w := 32) (by decide) (by simp) (kw_scan b!"if" rest (by decide) (by decide) (by decide) hr)
    have := h.append h2
    simpa [psBytes, psToks] using this
  | .ifElse a b =>
    have hf' : AllPsFinite a ∧ AllPsFinite b := by simpa [PsFinite] using hf
    have h := wrap_scan a (b!" " ++ (wrapBlock b.length (psOpsBytes b) ++ (b!" ifelse" ++ rest))) (ps_single a hf'.1) (ps_scanOps a hf'.1)
    have h' := wrap_scan b (b!" ifelse" ++ rest) (ps_single b hf'.2) (ps_scanOps b hf'.2)
    have h2 : Scan (b!" ifelse" ++ rest) [.kw b!"ifelse"] rest :=
      Scan.white (w := 32) (by decide) (by simp) (kw_scan b!"ifelse" rest (by decide) (by decide) (by decide) hr)
    have := h.append (Scan.white (w := 32) (by decide) (by simp) (h'.append h2))
    simpa [psBytes, psToks] using this
termination_by structural op
theorem ps_single (ops : List PostScriptOp) (hf : AllPsFinite ops) :
    ∀ o, ops = [o] → ∀ r, sepOk r = true → Scan (psBytes o ++ r) (psToks o) r := by
  match ops with
  | [] => intro o h; simp at h
  | x :: xs =>
    simp only [AllPsFinite] at hf
    have h1 := ps_scan x hf.1
    intro o h r hr
    simp only [List.cons.injEq] at h
    rw [← h.1]; exact h1 r hr
termination_by structural ops
theorem ps_scanOps (ops : List PostScriptOp) (hf : AllPsFinite ops) (r : Bytes) (ts : List Tok) (r' : Bytes) (hne : ts ≠ [])
    (h : Scan r ts r') : Scan (psOpsBytes ops ++ r) (psOpsToks ops ++ ts) r' := by
  match ops with
  | [] => exact h
  | o :: os =>
    simp only [AllPsFinite] at hf
    have h1 := ps_scan o hf.1 (32 :: (psOpsBytes os ++ r)) (white_sepOk _ _ (by decide))
    have h2 := ps_scanOps os hf.2 r ts r' hne h
    simp only [psOpsBytes, psOpsToks, List.append_assoc]
    exact h1.append (Scan.white (by decide) (by simp [hne]) h2)
termination_by structural ops
end

/-! ## Tokens fold to instructions -/

theorem calcRun_append (a b : List Tok) (st : List (List CalcItem)) :
    calcRun (a ++ b) st = (calcRun a st).bind (calcRun b) := by
  induction a generalizing st with
  | nil => rfl
  | cons t a ih =>
    simp only [List.cons_append, calcRun]
    cases calcStep t st with
    | none => rfl
    | some s => exact ih s

/-- A real number token as an instruction. -/
def tokCalc : Tok → Calc
  | .int n => .int n
  | .real m s => .real m s
  | _ => .int 0

mutual
/-- The instruction of an operation. -/
def psCalc : PostScriptOp → Calc
  | .real r => tokCalc (readRun r.decimalBytes)
  | .integer i => .int i
  | .if_ ops => .cond (psOpsCalc ops)
  | .ifElse a b => .condElse (psOpsCalc a) (psOpsCalc b)
  | .simple o => .op o.operator
termination_by structural p => p
def psOpsCalc : List PostScriptOp → List Calc
  | [] => []
  | o :: os => psCalc o :: psOpsCalc os
termination_by structural p => p
end

theorem closeItems_ins (cs acc : List Calc) : closeItems (cs.reverse.map CalcItem.ins) acc = some (cs ++ acc) := by
  induction cs generalizing acc with
  | nil => rfl
  | cons c cs ih =>
    have h : ∀ (xs : List CalcItem) (ys : List CalcItem) (acc : List Calc),
        closeItems (xs ++ ys) acc = (closeItems xs acc).bind (closeItems ys) := by
      intro xs
      induction xs with
      | nil => intro ys acc; rfl
      | cons x xs ih => intro ys acc; cases x <;> simp [closeItems, ih]
    simp only [List.reverse_cons, List.map_append, h, ih, Option.bind_some, List.map_cons, List.map_nil, closeItems]
    simp

theorem readRun_decimal (v : F32) (hf : v.isFinite = true) :
    ((∃ n, readRun v.decimalBytes = .int n) ∨ (∃ m s, readRun v.decimalBytes = .real m s)) ∧
    NumIs v (F32.tokVal (readRun v.decimalBytes)) := by
  obtain ⟨-, -, t, h3, h4, h5⟩ := F32.decimalBytes_spells v hf
  simp only [readRun, h3]
  exact ⟨h4, h5⟩

theorem simple_step (o : PsSimple) (f : List CalcItem) (st : List (List CalcItem)) :
    calcStep (.kw o.operator) (f :: st) = some ((.ins (.op o.operator) :: f) :: st) := by
  cases o <;> rfl

mutual
theorem ps_run (op : PostScriptOp) (hf : PsFinite op) (f : List CalcItem) (st : List (List CalcItem)) :
    calcRun (psToks op) (f :: st) = some ((.ins (psCalc op) :: f) :: st) := by
  match op with
  | .real r =>
    have hf' : r.isFinite = true := by simpa [PsFinite] using hf
    rcases (readRun_decimal r hf').1 with ⟨n, h⟩ | ⟨m, s, h⟩ <;>
      simp [psToks, psCalc, h, calcRun, calcStep, tokCalc]
  | .integer i => rfl
  | .simple o => simp [psToks, calcRun, simple_step, psCalc]
  | .if_ ops =>
    have hf' : AllPsFinite ops := by simpa [PsFinite] using hf
    have h := ps_runOps ops hf' [] (f :: st)
    simp only [psToks, calcRun, calcStep, calcRun_append, h, Option.bind_some, List.append_nil]
    have := closeItems_ins (psOpsCalc ops) []
    simp only [List.append_nil] at this
    simp only [this, calcStep, if_true, psCalc]
  | .ifElse a b =>
    have hf' : AllPsFinite a ∧ AllPsFinite b := by simpa [PsFinite] using hf
    have h1 := ps_runOps a hf'.1 [] (f :: st)
    have h2 := ps_runOps b hf'.2 [] ((.block (psOpsCalc a) :: f) :: st)
    have e1 := closeItems_ins (psOpsCalc a) []
    have e2 := closeItems_ins (psOpsCalc b) []
    simp only [List.append_nil] at e1 e2 h1 h2
    have hk : ∀ x : List (List CalcItem), calcStep (.kw b!"ifelse") ((.block (psOpsCalc b) :: .block (psOpsCalc a) :: f) :: st) =
      some ((.ins (.condElse (psOpsCalc a) (psOpsCalc b)) :: f) :: st) := fun _ => rfl
    simp only [psToks, calcRun, calcStep, calcRun_append, h1, Option.bind_some, e1, List.cons_append, List.nil_append, h2, e2]
    rw [show (if (b!"ifelse" : Bytes) = b!"if" then _ else _) = _ from if_neg (by decide)]
    simp [psCalc]
termination_by structural op
theorem ps_runOps (ops : List PostScriptOp) (hf : AllPsFinite ops) (f : List CalcItem) (st : List (List CalcItem)) :
    calcRun (psOpsToks ops) (f :: st) = some (((psOpsCalc ops).reverse.map CalcItem.ins ++ f) :: st) := by
  match ops with
  | [] => rfl
  | o :: os =>
    simp only [AllPsFinite] at hf
    have h1 := ps_run o hf.1 f st
    have h2 := ps_runOps os hf.2 (.ins (psCalc o) :: f) st
    simp only [psOpsToks, calcRun_append, h1, Option.bind_some, h2, psOpsCalc]
    simp
termination_by structural ops
end

theorem readCalc_encode (ops : List PostScriptOp) (hf : AllPsFinite ops) :
    readCalc (PostScriptOp.encode ops).inner = some (psOpsCalc ops) := by
  have hs := wrap_scan ops [] (ps_single ops hf) (ps_scanOps ops hf)
  rw [List.append_nil, ← encode_inner] at hs
  have ht := tokens_of_scan hs (by decide) ((PostScriptOp.encode ops).inner.length + 1) (by have := hs.length; omega)
  unfold readCalc
  rw [ht]
  have h := ps_runOps ops hf [] [[]]
  have e := closeItems_ins (psOpsCalc ops) []
  simp only [List.append_nil] at e h
  simp only [calcRun, calcStep, calcRun_append, h, Option.bind_some, e]

/-! ## Real operands stay real -/

theorem scaled_one : F32.scaled 1065353216 = 2 ^ 149 := by decide +kernel

theorem real_stays_real (v : F32) (hf : v.isFinite = true) (hb : BelowTera v) : ∃ m s, readRun v.decimalBytes = .real m s := by
  have hm : v.mag.val < F32.infMag := by simpa [F32.isFinite] using hf
  have hn : v.isNaN = false := by simp [F32.isNaN]; omega
  have hni : v.mag.val ≠ F32.infMag := by omega
  suffices h : ∃ m s, readNumber v.decimalBytes = some (.real m s) by
    obtain ⟨m, s, h⟩ := h
    exact ⟨m, s, by simp [readRun, h]⟩
  unfold F32.decimalBytes
  by_cases h0 : v.mag.val = 0
  · have hz : v.eq F32.zero = true := by
      have hzn : F32.zero.isNaN = false := by decide
      have : v.sval = F32.zero.sval := by
        unfold F32.sval; rw [h0]; cases v.neg <;> decide
      simp [F32.eq, hn, hzn, this]
    rw [hz, Bool.true_or, if_pos rfl]
    unfold F32.ryuFormat
    rw [hn]
    simp only [Bool.false_eq_true, if_false, if_neg hni, if_pos h0]
    cases v.neg
    · exact ⟨0, 1, by decide⟩
    · exact ⟨0, 1, by decide⟩
  · have hpos : 0 < v.mag.val := by omega
    split
    · rename_i hr
      by_cases hz : v.eq F32.zero = true
      · exfalso
        have : v.sval ≠ 0 := by
          have := F32.scaled_lt hpos
          unfold F32.sval; split <;> omega
        have e : F32.zero.sval = 0 := by decide
        simp [F32.eq, e, this] at hz
      · simp only [Bool.not_eq_true] at hz
        rw [hz, Bool.false_or, Bool.and_eq_true] at hr
        have r1 := F32.lt_mag _ _ rfl rfl hr.1
        have r2 := F32.lt_mag _ _ rfl rfl hr.2
        have rr := F32.ryu_range v.mag.val r1 r2
        unfold F32.ryuFormat
        rw [hn]
        simp only [Bool.false_eq_true, if_false, if_neg hni, if_neg h0]
        rw [readNumber_signed _ _ (F32.ryuLayout_head _ _), F32.ryuLayout_read _ _ _ rr.1 rr.2]
        obtain ⟨m, s, e⟩ := F32.layoutTok_num v.neg (F32.shortest v.mag.val).1 (38 - ((F32.shortest v.mag.val).2 : Int))
        exact ⟨m, s, by rw [e]⟩
    · rename_i hr
      unfold F32.displayFormat
      rw [hn]
      simp only [Bool.false_eq_true, if_false, if_neg hni, if_neg h0]
      rw [readNumber_signed _ _ (F32.displayLayout_head _ _), F32.displayLayout_read]
      split
      · rename_i hk
        exfalso
        -- the magnitude is at most 10^-6, no positive integer rounds to it
        simp only [Bool.or_eq_true, Bool.and_eq_true, not_or, not_and] at hr
        have hlt : v.abs.lt F32.c1e12 = true := by
          have hz : F32.c1e12.isNaN = false := by decide
          have hz2 : v.abs.isNaN = false := hn
          have hs : F32.c1e12.sval = ((999999995904 * 2 ^ 149 : Nat) : Int) := by decide +kernel
          have hv : v.abs.sval = (F32.scaled v.mag.val : Int) := by simp [F32.abs, F32.sval]
          unfold BelowTera at hb
          unfold F32.lt
          rw [hz, hz2, hs, hv]
          simp only [Bool.not_false, Bool.and_self, Bool.true_and, decide_eq_true_eq]
          omega
        have h6 : ¬ (F32.c1em6.lt v.abs = true) := fun h => hr.2 h hlt
        have hsc : F32.scaled v.mag.val ≤ F32.scaled 897988541 := by
          have hz : F32.c1em6.isNaN = false := by decide
          have hz2 : v.abs.isNaN = false := hn
          have hv : v.abs.sval = (F32.scaled v.mag.val : Int) := by simp [F32.abs, F32.sval]
          have hs : F32.c1em6.sval = (F32.scaled 897988541 : Int) := rfl
          unfold F32.lt at h6
          rw [hz, hz2, hs, hv] at h6
          simp only [Bool.not_false, Bool.and_self, Bool.true_and, decide_eq_true_eq] at h6
          omega
        have hsmall : F32.scaled 897988541 * 2 < 2 ^ 149 := by decide +kernel
        have hr2 := F32.RoundsTo_shortest v.mag.val hpos hm
        have hsp := F32.scaled_lt hpos
        obtain ⟨-, hall⟩ := hr2
        have h38 : (F32.shortest v.mag.val).2 ≤ 38 := by omega
        unfold F32.decNum F32.decDen at hall
        rw [if_pos h38, if_pos h38] at hall
        generalize (F32.shortest v.mag.val).1 * 10 ^ (38 - (F32.shortest v.mag.val).2) = N at hall
        have a1 := (hall 1065353216 (by decide)).1
        have a0 := (hall 0 (by decide)).1
        unfold dist at a0 a1
        rw [scaled_one] at a1
        rw [F32.scaled_zero] at a0 hsp
        generalize F32.scaled 897988541 = C at *
        generalize F32.scaled v.mag.val = S at *
        rcases Nat.eq_zero_or_pos N with rfl | hN
        · simp at a0; omega
        · have hP : (0 : Nat) < 2 ^ 149 := by decide +kernel
          generalize (2 : Nat) ^ 149 = P at *
          obtain ⟨M, rfl⟩ : ∃ M, N = M + 1 := ⟨N - 1, by omega⟩
          rw [Nat.add_mul] at a1
          generalize M * P = Q at a1
          omega
      · obtain ⟨m, s, e⟩ := F32.layoutTok_num v.neg (F32.shortest v.mag.val).1 (38 - ((F32.shortest v.mag.val).2 : Int))
        exact ⟨m, s, by rw [e]⟩

theorem CalcVal_tokCalc (t : Tok) (h : (∃ n, t = .int n) ∨ (∃ m s, t = .real m s)) : (tokCalc t).val = F32.tokVal t := by
  rcases h with ⟨n, rfl⟩ | ⟨m, s, rfl⟩ <;> rfl

theorem operator_iso (o : PsSimple) : o.operator = isoName o := by cases o <;> rfl

mutual
theorem ps_means (op : PostScriptOp) (hf : PsFinite op) : CalcMeans op (psCalc op) := by
  match op with
  | .real r =>
    have hf' : r.isFinite = true := by simpa [PsFinite] using hf
    obtain ⟨h1, h2⟩ := readRun_decimal r hf'
    simp only [CalcMeans, psCalc, CalcVal_tokCalc _ h1]
    refine ⟨h2, fun hb => ?_⟩
    obtain ⟨m, s, e⟩ := real_stays_real r hf' hb
    exact ⟨m, s, by rw [e]; rfl⟩
  | .integer i => simp [CalcMeans, psCalc]
  | .simple o => simp [CalcMeans, psCalc, operator_iso]
  | .if_ ops =>
    simp only [CalcMeans, psCalc]
    exact ⟨_, rfl, ps_allMean ops (by simpa [PsFinite] using hf)⟩
  | .ifElse a b =>
    have hf' : AllPsFinite a ∧ AllPsFinite b := by simpa [PsFinite] using hf
    simp only [CalcMeans, psCalc]
    exact ⟨_, _, rfl, ps_allMean a hf'.1, ps_allMean b hf'.2⟩
termination_by structural op
theorem ps_allMean (ops : List PostScriptOp) (hf : AllPsFinite ops) : AllCalcMean ops (psOpsCalc ops) := by
  match ops with
  | [] => simp [AllCalcMean, psOpsCalc]
  | o :: os =>
    simp only [AllPsFinite] at hf
    simp only [AllCalcMean, psOpsCalc]
    exact ⟨_, _, rfl, ps_means o hf.1, ps_allMean os hf.2⟩
termination_by structural ops
end

end PdfW
