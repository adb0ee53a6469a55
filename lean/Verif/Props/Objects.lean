import Verif.Proof.Read
import Verif.Proof.Stack

/-!
# Properties C09–C12: object trees
-/

set_option linter.unusedSimpArgs false
set_option linter.unusedVariables false

namespace PdfW.Props
open PdfW PdfW.Spec

theorem reads_enc (pretty : Bool) (p : Prog) (hok : Ok p) (hc : pretty = true ∨ NoClash p) (indent : Nat) (pad : Bool)
    (last : Option UInt8) : readOne (enc pretty indent pad last p) = some (progVal p) := by
  have hs := scan_enc pretty p hok hc indent pad last [] (fun _ => rfl)
  rw [List.append_nil] at hs
  have := readAll_scan hs rfl (fold_prog p hok .top [] [])
  simp [readOne, this]

theorem run_direct (p : Prog) (indent : Nat) (pretty pad : Bool) (buf : Buf) :
    (p.run (Obj.direct indent pretty pad) buf).inner = buf.inner ++ enc pretty indent pad buf.inner.getLast? p := by
  rw [run_eq]; simp [Obj.direct, tailBytes]

/-! ## C09, C10 -/

/-- C09: pretty output of any tree of writer calls reads back as exactly that tree, at any indentation and after
any previous buffer contents. `Ok` only excludes what PDF cannot represent (non-finite numbers, the escape
character inside language-tagged text) and dates not built through the API. -/
theorem C09_pretty_reads_back (p : Prog) (hok : Ok p) (indent : Nat) (pad : Bool) (buf : Buf) :
    ∃ out v, (p.run (Obj.direct indent true pad) buf).inner = buf.inner ++ out ∧
      readOne out = some v ∧ Denotes p v :=
  ⟨_, _, run_direct p indent true pad buf, reads_enc true p hok (Or.inl rfl) indent pad _, progVal_denotes p hok⟩

/-- C10: compact output reads back as exactly the tree when no empty name directly precedes a bare token. -/
theorem C10_compact_reads_back (p : Prog) (hok : Ok p) (hc : NoClash p) (indent : Nat) (pad : Bool) (buf : Buf) :
    ∃ out v, (p.run (Obj.direct indent false pad) buf).inner = buf.inner ++ out ∧
      readOne out = some v ∧ Denotes p v :=
  ⟨_, _, run_direct p indent false pad buf, reads_enc false p hok (Or.inr hc) indent pad _, progVal_denotes p hok⟩

/-- A nested tree with adjacent bare tokens, names and containers. -/
def sample : Prog :=
  .dict [(b!"Type", .prim (.name b!"Font")), (b!"W", .array [.prim (.int 5), .prim (.int (-3)), .prim (.bool true),
    .array [], .prim (.name b!"A"), .prim .null, .prim (.str b!"x")]), (b!"D", .dict [(b!"K", .prim (.ref ⟨7, by decide, by decide⟩))])]

example : Ok sample ∧ NoClash sample := by
  simp [sample, Ok, OkEntries, OkItems, PrimOk, NoClash, NoClashEntries, NoClashItems, isEmptyName, isBareToken]

example : (sample.run (Obj.direct 0 false false) Buf.new).inner
    = b!"<</Type/Font/W[5 -3 true[]/A null(x)]/D<</K 7 0 R>>>>" := by decide +kernel
example : (sample.run (Obj.direct 0 true false) Buf.new).inner
    = b!"<<\n  /Type /Font\n  /W [5 -3 true [] /A null (x)]\n  /D <<\n    /K 7 0 R\n  >>\n>>" := by decide +kernel

/-- The exclusion in C10 is needed: in compact mode an empty name swallows the token after it. -/
theorem C10_empty_name_clash :
    ∃ p : Prog, Ok p ∧ ∃ v, readOne ((p.run (Obj.direct 0 false false) Buf.new).inner) = some v ∧ ¬ Denotes p v := by
  refine ⟨.array [.prim (.name []), .prim (.int 5)], by simp [Ok, OkItems, PrimOk], .arr [.name b!"5"], rfl, ?_⟩
  rintro ⟨vs, h, w, ws, h2, h3, w', ws', h4, h5, h6⟩
  cases h; cases h2; cases h4

/-! ## C11 -/

mutual
theorem enc_shorter (p : Prog) (i i' : Nat) (pad pad' : Bool) (last last' : Option UInt8) :
    (enc false i pad last p).length ≤ (enc true i' pad' last' p).length + (if pad then 1 else 0) := by
  match p with
  | .prim p =>
    simp only [enc, List.length_append, padOf]
    cases pad <;> cases pad' <;> cases p.startsWithDelimiter <;> cases last.any isDelimiterCharacter <;>
      cases last'.any isDelimiterCharacter <;> simp <;> omega
  | .array items =>
    have := items_shorter items i i' true (some ch!"[") (some ch!"[")
    simp only [enc, List.length_cons, List.length_append, List.length_nil]
    omega
  | .dict entries =>
    have := entries_shorter entries (saturatingAdd i 2) (saturatingAdd i' 2)
    simp only [enc, List.length_cons, List.length_append, List.length_nil, lineSep]
    simp only [Bool.and_false, Bool.false_eq_true, if_false, List.length_nil]
    omega
  | .unused => simp [enc]
termination_by structural p
theorem items_shorter (xs : List Prog) (i i' : Nat) (first : Bool) (last last' : Option UInt8) :
    (encItems false i first last xs).length ≤ (encItems true i' first last' xs).length := by
  match xs with
  | [] => simp [encItems]
  | x :: xs =>
    simp only [encItems, List.length_append]
    have h1 := enc_shorter x i i' (!first && !false) (!first && !true) last last'
    have h2 := items_shorter xs i i' false ((itemSep false first ++ enc false i (!first && !false) last x).getLast?.or last)
      ((itemSep true first ++ enc true i' (!first && !true) last' x).getLast?.or last')
    cases first <;> simp [itemSep] at * <;> omega
termination_by structural xs
theorem entries_shorter (es : List (Bytes × Prog)) (i i' : Nat) :
    (encEntries false i es).length ≤ (encEntries true i' es).length := by
  match es with
  | [] => simp [encEntries]
  | (k, v) :: es =>
    simp only [encEntries, List.length_append]
    have h1 := enc_shorter v i i' (!false) (!true) (nameBytes k).getLast? (nameBytes k).getLast?
    have h2 := entries_shorter es i i'
    simp [lineSep, keySep] at *
    omega
termination_by structural es
end

theorem enc_shorter_same (p : Prog) (i : Nat) (pad : Bool) (last : Option UInt8) :
    (enc false i pad last p).length ≤ (enc true i pad last p).length := by
  cases p with
  | prim p => simp [enc]
  | array items =>
    have := enc_shorter (.array items) i i false pad last last
    simpa [enc] using this
  | dict entries =>
    have := enc_shorter (.dict entries) i i false pad last last
    simpa [enc] using this
  | unused => simp [enc]

/-- C11: for the same calls on the same buffer, compact output is never longer than pretty output — for every
tree, representable or not. -/
theorem C11_compact_not_longer (p : Prog) (indent : Nat) (pad : Bool) (buf : Buf) :
    (p.run (Obj.direct indent false pad) buf).inner.length ≤ (p.run (Obj.direct indent true pad) buf).inner.length := by
  rw [run_direct, run_direct]
  have := enc_shorter_same p indent pad buf.inner.getLast?
  simp; exact this

/-- C11: and the two are read as the very same value. -/
theorem C11_same_value (p : Prog) (hok : Ok p) (hc : NoClash p) (indent : Nat) (pad : Bool) (buf : Buf) :
    ∃ compact pretty v, (p.run (Obj.direct indent false pad) buf).inner = buf.inner ++ compact ∧
      (p.run (Obj.direct indent true pad) buf).inner = buf.inner ++ pretty ∧
      readOne compact = some v ∧ readOne pretty = some v :=
  ⟨_, _, _, run_direct p indent false pad buf, run_direct p indent true pad buf,
    reads_enc false p hok (Or.inr hc) indent pad _, reads_enc true p hok (Or.inl rfl) indent pad _⟩

/-! ## C12 -/

mutual
theorem progCalls_inj (p q : Prog) (r s : List Call) (h : progCalls p ++ r = progCalls q ++ s) : p = q ∧ r = s := by
  match p, q with
  | .prim p, .prim q => simp [progCalls] at h; simp [h]
  | .array xs, .array ys =>
    simp only [progCalls, List.cons_append, List.append_assoc, List.cons.injEq, true_and, List.nil_append] at h
    have := itemsCalls_inj xs ys r s h
    exact ⟨by rw [this.1], this.2⟩
  | .dict xs, .dict ys =>
    simp only [progCalls, List.cons_append, List.append_assoc, List.cons.injEq, true_and, List.nil_append] at h
    have := entriesCalls_inj xs ys r s h
    exact ⟨by rw [this.1], this.2⟩
  | .prim _, .array _ => simp [progCalls] at h
  | .prim _, .dict _ => simp [progCalls] at h
  | .array _, .prim _ => simp [progCalls] at h
  | .array _, .dict _ => simp [progCalls] at h
  | .dict _, .prim _ => simp [progCalls] at h
  | .dict _, .array _ => simp [progCalls] at h
  | .unused, .unused => simp [progCalls] at h; simp [h]
  | .unused, .prim _ => simp [progCalls] at h
  | .unused, .array _ => simp [progCalls] at h
  | .unused, .dict _ => simp [progCalls] at h
  | .prim _, .unused => simp [progCalls] at h
  | .array _, .unused => simp [progCalls] at h
  | .dict _, .unused => simp [progCalls] at h
termination_by structural p
theorem itemsCalls_inj (xs ys : List Prog) (r s : List Call)
    (h : itemsCalls xs ++ .finish :: r = itemsCalls ys ++ .finish :: s) : xs = ys ∧ r = s := by
  match xs, ys with
  | [], [] => simp [itemsCalls] at h; simp [h]
  | [], _ :: _ => simp [itemsCalls] at h
  | _ :: _, [] => simp [itemsCalls] at h
  | x :: xs, y :: ys =>
    simp only [itemsCalls, List.cons_append, List.append_assoc, List.cons.injEq, true_and] at h
    have h1 := progCalls_inj x y _ _ h
    have h2 := itemsCalls_inj xs ys r s h1.2
    exact ⟨by rw [h1.1, h2.1], h2.2⟩
termination_by structural xs
theorem entriesCalls_inj (xs ys : List (Bytes × Prog)) (r s : List Call)
    (h : entriesCalls xs ++ .finish :: r = entriesCalls ys ++ .finish :: s) : xs = ys ∧ r = s := by
  match xs, ys with
  | [], [] => simp [entriesCalls] at h; simp [h]
  | [], _ :: _ => simp [entriesCalls] at h
  | _ :: _, [] => simp [entriesCalls] at h
  | (k, x) :: xs, (l, y) :: ys =>
    simp only [entriesCalls, List.cons_append, List.append_assoc, List.cons.injEq, Call.insert.injEq] at h
    have h1 := progCalls_inj x y _ _ h.2
    have h2 := entriesCalls_inj xs ys r s h1.2
    exact ⟨by rw [h1.1, h2.1, h.1], h2.2⟩
termination_by structural xs
end

/-- C12: every admitted call sequence that ends with nothing open is the depth-first call sequence of exactly one
tree, and the bytes written are those of that tree. -/
theorem C12_calls_form_one_tree (cs : List Call) (o : Obj) (buf buf' : Buf)
    (h : WState.calls ⟨[], some o, buf⟩ cs = some ⟨[], none, buf'⟩) :
    ∃ p, cs = progCalls p ∧ buf' = p.run o buf ∧ ∀ q, cs = progCalls q → q = p := by
  obtain ⟨p, h1, h2⟩ := calls_tree cs o buf buf' h
  refine ⟨p, h1, h2, ?_⟩
  intro q hq
  have := progCalls_inj q p [] [] (by rw [← hq, ← h1])
  exact this.1

/-- C12: the calls of every tree are admitted (no legal history is left out). -/
theorem C12_trees_are_admitted (p : Prog) (o : Obj) (buf : Buf) :
    WState.calls ⟨[], some o, buf⟩ (progCalls p) = some ⟨[], none, p.run o buf⟩ := calls_prog p [] o buf

/-- C12, with the reader: every admitted call sequence on a direct object writes one complete object that reads
back as the tree of calls made. -/
theorem C12_calls_read_back (cs : List Call) (indent : Nat) (pretty pad : Bool) (buf buf' : Buf)
    (h : WState.calls ⟨[], some (Obj.direct indent pretty pad), buf⟩ cs = some ⟨[], none, buf'⟩) :
    ∃ p out, cs = progCalls p ∧ buf'.inner = buf.inner ++ out ∧
      (Ok p → pretty = true ∨ NoClash p → ∃ v, readOne out = some v ∧ Denotes p v) := by
  obtain ⟨p, h1, h2⟩ := calls_tree cs _ buf buf' h
  refine ⟨p, enc pretty indent pad buf.inner.getLast? p, h1, by rw [h2, run_direct], ?_⟩
  intro hok hc
  exact ⟨_, reads_enc pretty p hok hc indent pad _, progVal_denotes p hok⟩

theorem call_counts (w w' : WState) (c : Call) (h : w.call c = some w') :
    w'.stack.map Writer.len = openCounts [c] (w.stack.map Writer.len) := by
  obtain ⟨stack, pending, buf⟩ := w
  cases c with
  | primitive p =>
    cases pending <;> simp [WState.call] at h
    subst h; rfl
  | abandon =>
    cases pending <;> simp [WState.call] at h
    subst h; rfl
  | array =>
    cases pending <;> simp [WState.call] at h
    subst h; simp [openCounts, Writer.len, Arr.start]
  | dict =>
    cases pending <;> simp [WState.call] at h
    subst h; simp [openCounts, Writer.len, Dict.start]
  | push =>
    cases pending with
    | some o => simp [WState.call] at h
    | none =>
      match stack with
      | [] => simp [WState.call] at h
      | .arr a :: s =>
        simp [WState.call] at h
        subst h
        simp [openCounts, Writer.len, arrPush_eq]
      | .dict d :: s => simp [WState.call] at h
  | insert k =>
    cases pending with
    | some o => simp [WState.call] at h
    | none =>
      match stack with
      | [] => simp [WState.call] at h
      | .dict a :: s =>
        simp [WState.call] at h
        subst h
        simp [openCounts, Writer.len, insert_eq]
      | .arr d :: s => simp [WState.call] at h
  | finish =>
    cases pending with
    | some o => simp [WState.call] at h
    | none =>
      match stack with
      | [] => simp [WState.call] at h
      | .dict a :: s =>
        simp [WState.call] at h
        subst h
        simp [openCounts, Writer.len]
      | .arr d :: s =>
        simp [WState.call] at h
        subst h
        simp [openCounts, Writer.len]

theorem openCounts_cons (c : Call) (cs : List Call) (ns : List Nat) :
    openCounts (c :: cs) ns = openCounts cs (openCounts [c] ns) := by
  cases c <;> cases ns <;> rfl

/-- C12: at every moment of every admitted history, `len` of each open writer is the number of `push`/`insert`
calls made on it. -/
theorem C12_len_counts_calls (cs : List Call) (o : Obj) (buf : Buf) (w : WState)
    (h : WState.calls ⟨[], some o, buf⟩ cs = some w) :
    w.stack.map Writer.len = openCounts cs [] := by
  suffices hs : ∀ (cs : List Call) (w w' : WState), w.calls cs = some w' →
      w'.stack.map Writer.len = openCounts cs (w.stack.map Writer.len) from hs cs _ w h
  intro cs
  induction cs with
  | nil => intro w w' h; simp [WState.calls] at h; subst h; rfl
  | cons c cs ih =>
    intro w w' h
    simp only [WState.calls] at h
    cases hc : w.call c with
    | none => simp [hc] at h
    | some w1 =>
      simp only [hc] at h
      rw [ih w1 w' h, call_counts w w1 c hc, ← openCounts_cons]

/-- A history in the middle of a nested write. -/
example : ((WState.calls ⟨[], some (Obj.direct 0 true false), Buf.new⟩
      [.dict, .insert b!"A", .array, .push, .primitive (.int 1), .push, .primitive .null]).map
        fun w => w.stack.map Writer.len) = some [2, 1] := by decide +kernel
/-- Using an outer writer while an inner one is open is not admitted. -/
example : (WState.calls ⟨[], some (Obj.direct 0 true false), Buf.new⟩ [.dict, .insert b!"A", .array, .insert b!"B"]).isNone := by
  decide +kernel

end PdfW.Props
