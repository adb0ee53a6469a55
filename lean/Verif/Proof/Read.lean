import Verif.Proof.Scan

/-! # Lemmas: tokens fold to values; reading back complete objects -/

set_option linter.unusedSimpArgs false
set_option linter.unusedVariables false

namespace PdfW
open Spec

/-- Effect of a list of tokens. -/
def foldToks : List Tok → State → Option State
  | [], st => some st
  | t :: ts, st => (step t st).bind (foldToks ts)

theorem foldToks_append (a b : List Tok) (st : State) : foldToks (a ++ b) st = (foldToks a st).bind (foldToks b) := by
  induction a generalizing st with
  | nil => simp [foldToks]
  | cons t a ih =>
    simp only [List.cons_append, foldToks]
    cases step t st with
    | none => rfl
    | some s => simp [ih]

/-- Value of a primitive. -/
def primVal : Prim → Val
  | .null => .null
  | .bool v => .bool v
  | .int v => .int v
  | .real v => F32.tokVal (readRun v.realBytes)
  | .str s => .str s
  | .textStr t => .str (textContent t)
  | .textStrLang segs => .str (langContent segs)
  | .name n => .name n
  | .ref r => .ref r.id.toNat 0
  | .rect r => .arr [F32.tokVal (readRun r.x1.realBytes), F32.tokVal (readRun r.y1.realBytes),
      F32.tokVal (readRun r.x2.realBytes), F32.tokVal (readRun r.y2.realBytes)]
  | .date d => .str (dateContent d)

mutual
/-- Value of an object. -/
def progVal : Prog → Val
  | .prim p => primVal p
  | .array items => .arr (itemsVal items)
  | .dict entries => .dict (entriesVal entries)
  | .unused => .null
termination_by structural p => p
def itemsVal : List Prog → List Val
  | [] => []
  | x :: xs => progVal x :: itemsVal xs
termination_by structural p => p
def entriesVal : List (Bytes × Prog) → List (Bytes × Val)
  | [] => []
  | (k, v) :: es => (k, progVal v) :: entriesVal es
termination_by structural p => p
end

theorem readRun_real (v : F32) (hf : v.isFinite = true) :
    ((∃ n, readRun v.realBytes = .int n) ∨ (∃ m s, readRun v.realBytes = .real m s)) ∧
    NumIs v (F32.tokVal (readRun v.realBytes)) := by
  obtain ⟨-, -, t, h3, h4, h5⟩ := F32.realBytes_spells v hf
  simp only [readRun, h3]
  exact ⟨h4, h5⟩

theorem step_real (v : F32) (hf : v.isFinite = true) (k : Kind) (vs : List Val) (fs : State) :
    step (readRun v.realBytes) ((k, vs) :: fs) = some ((k, F32.tokVal (readRun v.realBytes) :: vs) :: fs) := by
  rcases (readRun_real v hf).1 with ⟨n, h⟩ | ⟨m, s, h⟩ <;> simp [h, step, State.push, F32.tokVal]

theorem fold_prim (p : Prim) (hok : PrimOk p) (k : Kind) (vs : List Val) (fs : State) :
    foldToks (primToks p) ((k, vs) :: fs) = some ((k, primVal p :: vs) :: fs) := by
  cases p with
  | null => simp [primToks, foldToks, step, State.push, primVal, kwNull, kwTrue, kwFalse]
  | bool v => cases v <;> simp [primToks, foldToks, step, State.push, primVal, kwNull, kwTrue, kwFalse]
  | real v => simp [primToks, foldToks, step_real v hok, primVal]
  | ref r =>
    have := r.pos
    simp [primToks, foldToks, step, State.push, primVal, kwNull, kwTrue, kwFalse, kwR, this]
  | rect r =>
    obtain ⟨o1, o2, o3, o4⟩ := hok
    simp only [primToks, foldToks, primVal]
    have e1 : step .arrOpen ((k, vs) :: fs) = some ((.arr, []) :: (k, vs) :: fs) := rfl
    have e2 : ∀ ws, step .arrClose ((.arr, ws) :: (k, vs) :: fs) = some ((k, .arr ws.reverse :: vs) :: fs) := fun _ => rfl
    simp [e1, e2, step_real _ o1, step_real _ o2, step_real _ o3, step_real _ o4]
  | _ => simp [primToks, foldToks, step, State.push, primVal]

/-- Dictionary contents as a flat list. -/
def flatEntries : List (Bytes × Val) → List Val
  | [] => []
  | (k, v) :: es => .name k :: v :: flatEntries es

theorem pairUp_flat (es : List (Bytes × Val)) : pairUp (flatEntries es) = some es := by
  induction es with
  | nil => rfl
  | cons e es ih => obtain ⟨k, v⟩ := e; simp [flatEntries, pairUp, ih]

mutual
theorem fold_prog (p : Prog) (hok : Ok p) (k : Kind) (vs : List Val) (fs : State) :
    foldToks (progToks p) ((k, vs) :: fs) = some ((k, progVal p :: vs) :: fs) := by
  match p with
  | .prim p => exact fold_prim p (by simpa [Ok] using hok) k vs fs
  | .array items =>
    have := fold_items items (by simpa [Ok] using hok) .arr [] ((k, vs) :: fs)
    simp only [progToks, foldToks, step, foldToks_append, this, Option.bind_some, progVal]
    simp [State.push]
  | .dict entries =>
    have := fold_entries entries (by simpa [Ok] using hok) .dict [] ((k, vs) :: fs)
    simp only [progToks, foldToks, step, foldToks_append, this, Option.bind_some, progVal]
    simp [State.push, pairUp_flat]
  | .unused => simp [Ok] at hok
termination_by structural p
theorem fold_items (xs : List Prog) (hok : OkItems xs) (k : Kind) (vs : List Val) (fs : State) :
    foldToks (itemsToks xs) ((k, vs) :: fs) = some ((k, (itemsVal xs).reverse ++ vs) :: fs) := by
  match xs with
  | [] => simp [itemsToks, foldToks, itemsVal]
  | x :: xs =>
    simp only [OkItems] at hok
    have h1 := fold_prog x hok.1 k vs fs
    have h2 := fold_items xs hok.2 k (progVal x :: vs) fs
    simp [itemsToks, foldToks_append, h1, h2, itemsVal]
termination_by structural xs
theorem fold_entries (es : List (Bytes × Prog)) (hok : OkEntries es) (k : Kind) (vs : List Val) (fs : State) :
    foldToks (entriesToks es) ((k, vs) :: fs) = some ((k, (flatEntries (entriesVal es)).reverse ++ vs) :: fs) := by
  match es with
  | [] => simp [entriesToks, foldToks, entriesVal, flatEntries]
  | (key, v) :: es =>
    simp only [OkEntries] at hok
    have h1 := fold_prog v hok.1 k (.name key :: vs) fs
    have h2 := fold_entries es hok.2 k (progVal v :: .name key :: vs) fs
    simp [entriesToks, foldToks, step, State.push, foldToks_append, h1, h2, entriesVal, flatEntries]
termination_by structural es
end

/-! ## The values denote the tree -/

theorem toSeg_eq : toSeg = expectedSeg := rfl

theorem dateVal_eq (d : Date) : dateVal d = expectedDate d := by
  unfold dateVal expectedDate
  cases d.month <;> cases d.day <;> cases d.hour <;> cases d.minute <;> cases d.second <;> cases d.utcOffsetHour <;> rfl

theorem DateOk_of (d : Date) (h : DateInRange d) : DateOk d := by
  obtain ⟨h1, h2, h3, h4, h5, h6, h7, h8⟩ := h
  exact ⟨h1, fun v hv => h2 v hv, fun v hv => h3 v hv, fun v hv => h4 v hv, fun v hv => h5 v hv, fun v hv => h6 v hv,
    fun v hv => h7 v hv, h8⟩

theorem primVal_denotes (p : Prim) (hok : PrimOk p) : PrimDenotes p (primVal p) := by
  cases p with
  | real v => exact (readRun_real v hok).2
  | textStr t => exact ⟨_, rfl, decodeText_textContent t⟩
  | textStrLang segs =>
    refine ⟨_, rfl, ?_⟩
    rw [← toSeg_eq]
    refine decodeLangText_langContent segs (fun s hs => ?_) (fun s hs => (hok s hs).1)
    obtain ⟨-, h1, h2, h3⟩ := hok s hs
    exact ⟨h1, h2, fun r hr => h3 r hr⟩
  | rect r =>
    obtain ⟨o1, o2, o3, o4⟩ := hok
    exact ⟨_, _, _, _, rfl, (readRun_real _ o1).2, (readRun_real _ o2).2, (readRun_real _ o3).2, (readRun_real _ o4).2⟩
  | date d => exact ⟨_, rfl, by rw [← dateVal_eq]; exact readDate_dateContent d (DateOk_of d hok)⟩
  | _ => simp [PrimDenotes, primVal, Ref.get]

mutual
theorem progVal_denotes (p : Prog) (hok : Ok p) : Denotes p (progVal p) := by
  match p with
  | .prim p => simp only [Denotes]; exact primVal_denotes p (by simpa [Ok] using hok)
  | .array items => simp only [Denotes]; exact ⟨_, rfl, itemsVal_denotes items (by simpa [Ok] using hok)⟩
  | .dict entries => simp only [Denotes]; exact ⟨_, rfl, entriesVal_denotes entries (by simpa [Ok] using hok)⟩
termination_by structural p
theorem itemsVal_denotes (xs : List Prog) (hok : OkItems xs) : DenotesItems xs (itemsVal xs) := by
  match xs with
  | [] => simp [DenotesItems, itemsVal]
  | x :: xs =>
    simp only [OkItems] at hok
    simp only [DenotesItems]
    exact ⟨_, _, rfl, progVal_denotes x hok.1, itemsVal_denotes xs hok.2⟩
termination_by structural xs
theorem entriesVal_denotes (es : List (Bytes × Prog)) (hok : OkEntries es) : DenotesEntries es (entriesVal es) := by
  match es with
  | [] => simp [DenotesEntries, entriesVal]
  | (k, v) :: es =>
    simp only [OkEntries] at hok
    simp only [DenotesEntries]
    exact ⟨_, _, rfl, progVal_denotes v hok.1, entriesVal_denotes es hok.2⟩
termination_by structural es
end

/-! ## Reading complete inputs -/

theorem readToEnd_scan {bs rest : Bytes} {ts : List Tok} (h : Scan bs ts rest) (hrest : skipSpace false rest = [])
    (fuel : Nat) (hf : ts.length < fuel) (st : State) (vs : List Val) (hfold : foldToks ts st = some [(.top, vs)]) :
    readToEnd fuel st bs = some vs.reverse := by
  induction h generalizing fuel st with
  | nil bs =>
    cases fuel with
    | zero => simp at hf
    | succ fuel =>
      simp only [foldToks, Option.some.injEq] at hfold
      subst hfold
      simp [readToEnd, hrest]
  | @cons bs r rest t ts h hs ih =>
    cases fuel with
    | zero => simp at hf
    | succ fuel =>
      simp only [foldToks] at hfold
      cases hst : step t st with
      | none => rw [hst] at hfold; simp at hfold
      | some st' =>
        rw [hst] at hfold
        have hne : skipSpace false bs ≠ [] := by
          intro he; simp [nextToken, he, tokenAt] at h
        have ih' := ih hrest fuel (by simpa using hf) st' hfold
        rw [readToEnd.eq_def]
        simp only
        cases hsk : skipSpace false bs with
        | nil => exact absurd hsk hne
        | cons x l => simp only [h, hst]; exact ih'

theorem readAll_scan {bs rest : Bytes} {ts : List Tok} {vs : List Val} (h : Scan bs ts rest) (hrest : skipSpace false rest = [])
    (hfold : foldToks ts [(.top, [])] = some [(.top, vs)]) : readAll bs = some vs.reverse := by
  have := h.length
  exact readToEnd_scan h hrest _ (by omega) _ _ hfold

theorem tokVal_readRun_notOp (v : F32) (hf : v.isFinite = true) : isOperator (readRun v.realBytes) = none := by
  rcases (readRun_real v hf).1 with ⟨n, h⟩ | ⟨m, s, h⟩ <;> simp [h, isOperator]

theorem primToks_notOp (p : Prim) (hok : PrimOk p) : ∀ t ∈ primToks p, isOperator t = none := by
  cases p with
  | bool v => cases v <;> simp [primToks, isOperator]
  | real v => simpa [primToks] using tokVal_readRun_notOp v hok
  | rect r =>
    obtain ⟨o1, o2, o3, o4⟩ := hok
    have e1 : isOperator .arrOpen = none := rfl
    have e2 : isOperator .arrClose = none := rfl
    simp [primToks, tokVal_readRun_notOp _ o1, tokVal_readRun_notOp _ o2, tokVal_readRun_notOp _ o3, tokVal_readRun_notOp _ o4, e1, e2]
  | _ => simp [primToks, isOperator]

mutual
theorem progToks_notOp (p : Prog) (hok : Ok p) : ∀ t ∈ progToks p, isOperator t = none := by
  match p with
  | .prim p => exact primToks_notOp p (by simpa [Ok] using hok)
  | .array items =>
    have := itemsToks_notOp items (by simpa [Ok] using hok)
    intro t ht
    simp only [progToks, List.mem_cons, List.mem_append, List.not_mem_nil, or_false] at ht
    rcases ht with rfl | ht | rfl
    · rfl
    · exact this t ht
    · rfl
  | .dict entries =>
    have := entriesToks_notOp entries (by simpa [Ok] using hok)
    intro t ht
    simp only [progToks, List.mem_cons, List.mem_append, List.not_mem_nil, or_false] at ht
    rcases ht with rfl | ht | rfl
    · rfl
    · exact this t ht
    · rfl
  | .unused => simp [Ok] at hok
termination_by structural p
theorem itemsToks_notOp (xs : List Prog) (hok : OkItems xs) : ∀ t ∈ itemsToks xs, isOperator t = none := by
  match xs with
  | [] => simp [itemsToks]
  | x :: xs =>
    simp only [OkItems] at hok
    intro t ht
    simp only [itemsToks, List.mem_append] at ht
    exact ht.elim (progToks_notOp x hok.1 t) (itemsToks_notOp xs hok.2 t)
termination_by structural xs
theorem entriesToks_notOp (es : List (Bytes × Prog)) (hok : OkEntries es) : ∀ t ∈ entriesToks es, isOperator t = none := by
  match es with
  | [] => simp [entriesToks]
  | (k, v) :: es =>
    simp only [OkEntries] at hok
    intro t ht
    simp only [entriesToks, List.mem_cons, List.mem_append] at ht
    rcases ht with rfl | ht | ht
    · rfl
    · exact progToks_notOp v hok.1 t ht
    · exact entriesToks_notOp es hok.2 t ht
termination_by structural es
end

theorem readItems_scan {bs rest rest' : Bytes} {ts : List Tok} {k : Bytes} (h : Scan bs ts rest)
    (hop : ∀ t ∈ ts, isOperator t = none) (tok : Tok) (hnext : nextToken rest = some (tok, rest')) (hk : isOperator tok = some k)
    (fuel : Nat) (hf : ts.length < fuel) (st : State) (vs : List Val) (hfold : foldToks ts st = some [(.top, vs)]) :
    readItems fuel st bs = some (vs.reverse, k, rest') := by
  induction h generalizing fuel st with
  | nil bs =>
    cases fuel with
    | zero => simp at hf
    | succ fuel =>
      simp only [foldToks, Option.some.injEq] at hfold
      subst hfold
      simp [readItems, hnext, hk]
  | @cons bs r rest t ts h hs ih =>
    cases fuel with
    | zero => simp at hf
    | succ fuel =>
      simp only [foldToks] at hfold
      cases hst : step t st with
      | none => rw [hst] at hfold; simp at hfold
      | some st' =>
        rw [hst] at hfold
        have ih' := ih (fun t ht => hop t (by simp [ht])) hnext fuel (by simpa using hf) st' hfold
        rw [readItems.eq_def]
        simp only [h, hop t (by simp), hst]; exact ih'

end PdfW
