import Verif.Spec.ContentStack
import Verif.Props.Content
import Verif.Props.Unwind

set_option linter.unusedSimpArgs false
set_option linter.unusedVariables false

/-!
# C65: histories of calls on a content stream, and their interruption
-/

namespace PdfW.Props
open PdfW Spec

theorem ccalls_append (s : CState) (a b : List CCall) : s.calls (a ++ b) = (s.calls a).bind (fun s' => s'.calls b) := by
  induction a generalizing s with
  | nil => simp [CState.calls]
  | cons c a ih =>
    simp only [List.cons_append, CState.calls]
    cases s.call c with
    | none => rfl
    | some s' => exact ih s'

theorem runCalls_append (a b : List ContentCall) (c : Content) : runCalls (a ++ b) c = (runCalls a c).bind (runCalls b) := by
  induction a generalizing c with
  | nil => rfl
  | cons k a ih =>
    simp only [List.cons_append, runCalls]
    cases k.run c with
    | none => rfl
    | some c' => exact ih c'

theorem writeOperands_snoc (pretty : Bool) (xs : List Prog) (x : Prog) (o : Operation) (buf : Buf) :
    Operation.writeOperands pretty (xs ++ [x]) o buf =
      ((x.run ((Operation.writeOperands pretty xs o buf).2.obj pretty (Operation.writeOperands pretty xs o buf).1).2.2
          ((Operation.writeOperands pretty xs o buf).2.obj pretty (Operation.writeOperands pretty xs o buf).1).1),
        ((Operation.writeOperands pretty xs o buf).2.obj pretty (Operation.writeOperands pretty xs o buf).1).2.1) := by
  induction xs generalizing o buf with
  | nil => rfl
  | cons y xs ih => simp only [List.cons_append, Operation.writeOperands, ih]

theorem wcalls_map (o : Operation) (c : Content) (S : List Writer) (pd : Option Obj) (ws : List Call) :
    CState.calls ⟨c, some o, S, pd⟩ (ws.map .write) =
      (WState.calls ⟨S, pd, c.buf⟩ ws).map fun w => ⟨{ c with buf := w.buf }, some o, w.stack, w.pending⟩ := by
  induction ws generalizing c S pd with
  | nil => rfl
  | cons k ws ih =>
    simp only [List.map_cons, CState.calls, CState.call, WState.calls]
    cases hk : WState.call ⟨S, pd, c.buf⟩ k with
    | none => rfl
    | some w => simp only [Option.map_some]; rw [ih]

/-- What every reachable state looks like. -/
inductive Shape (c : Content) : List CCall → CState → Prop
  | idle (ks : List ContentCall) (c' : Content) (h : runCalls ks c = some c') : Shape c (opsCalls ks) ⟨c', none, [], none⟩
  | opened (ks : List ContentCall) (c' : Content) (h : runCalls ks c = some c') (name : Bytes) (xs : List Prog) (b : Buf) (o : Operation)
      (hx : Operation.writeOperands c'.pretty xs (Operation.start name) c'.buf = (b, o)) :
      Shape c (opsCalls ks ++ (.start name :: xs.flatMap operandCalls)) ⟨{ c' with buf := b }, some o, [], none⟩
  | within (ks : List ContentCall) (c' : Content) (h : runCalls ks c = some c') (name : Bytes) (xs : List Prog) (b : Buf) (o : Operation)
      (hx : Operation.writeOperands c'.pretty xs (Operation.start name) c'.buf = (b, o)) (ws : List Call) (w : WState)
      (hw : WState.calls ⟨[], some (o.obj c'.pretty b).2.2, (o.obj c'.pretty b).1⟩ ws = some w) (hne : ¬ (w.stack = [] ∧ w.pending = none)) :
      Shape c (opsCalls ks ++ (.start name :: (xs.flatMap operandCalls ++ (.operand :: ws.map .write))))
        ⟨{ c' with buf := w.buf }, some (o.obj c'.pretty b).2.1, w.stack, w.pending⟩

theorem opsCalls_snoc (ks : List ContentCall) (k : ContentCall) : opsCalls (ks ++ [k]) = opsCalls ks ++ opCalls k := by
  simp [opsCalls]

theorem opCalls_method (k : ContentCall) (h : k.isOp = false) : opCalls k = [.method k] := by
  cases k <;> simp [ContentCall.isOp] at h <;> rfl

theorem wcall_idle (buf : Buf) (k : Call) : WState.call ⟨[], none, buf⟩ k = none := by cases k <;> rfl

theorem runCalls_op {ks : List ContentCall} {c c' : Content} (h : runCalls ks c = some c') {name : Bytes} {xs : List Prog} {b : Buf}
    {o : Operation} (hx : Operation.writeOperands c'.pretty xs (Operation.start name) c'.buf = (b, o)) :
    runCalls (ks ++ [.op name xs]) c = some { c' with buf := o.drop c'.pretty b } := by
  rw [runCalls_append, h]
  simp [runCalls, ContentCall.run, Content.op, hx]

theorem shape_step (c : Content) (cs : List CCall) (s s' : CState) (k : CCall) (h : Shape c cs s) (hk : s.call k = some s') :
    Shape c (cs ++ [k]) s' := by
  cases h with
  | idle ks c' h =>
    cases k with
    | method k =>
      cases hop : k.isOp with
      | true => simp [CState.call, hop] at hk
      | false =>
        simp only [CState.call, hop, Option.map_eq_some_iff] at hk
        obtain ⟨c2, h2, rfl⟩ := hk
        rw [← opCalls_method k hop, ← opsCalls_snoc]
        exact .idle _ _ (by rw [runCalls_append, h]; simp [runCalls, h2])
    | start name =>
      simp only [CState.call, Option.some.injEq] at hk
      subst hk
      exact Shape.opened ks c' h name [] c'.buf _ rfl
    | operand => simp [CState.call] at hk
    | write k => simp [CState.call] at hk
    | done => simp [CState.call] at hk
  | opened ks c' h name xs b o hx =>
    cases k with
    | method k => cases hop : k.isOp <;> simp [CState.call, hop] at hk
    | start name => simp [CState.call] at hk
    | operand =>
      simp only [CState.call, Option.some.injEq] at hk
      subst hk
      have := Shape.within ks c' h name xs b o hx [] ⟨[], some (o.obj c'.pretty b).2.2, (o.obj c'.pretty b).1⟩ rfl (by simp)
      simpa using this
    | write k => simp [CState.call, wcall_idle] at hk
    | done =>
      simp only [CState.call, Option.some.injEq] at hk
      subst hk
      have := Shape.idle (c := c) (ks ++ [.op name xs]) _ (runCalls_op h hx)
      rw [opsCalls_snoc] at this
      simpa [opCalls] using this
  | within ks c' h name xs b o hx ws w hw hne =>
    cases k with
    | method k => cases hop : k.isOp <;> simp [CState.call, hop] at hk
    | start name => simp [CState.call] at hk
    | operand =>
      obtain ⟨S, pd, wb⟩ := w
      cases S <;> cases pd <;> simp [CState.call] at hk hne
    | done =>
      obtain ⟨S, pd, wb⟩ := w
      cases S <;> cases pd <;> simp [CState.call] at hk hne
    | write k =>
      simp only [CState.call, Option.map_eq_some_iff] at hk
      obtain ⟨w2, h2, rfl⟩ := hk
      have hw2 : WState.calls ⟨[], some (o.obj c'.pretty b).2.2, (o.obj c'.pretty b).1⟩ (ws ++ [k]) = some w2 := by
        rw [calls_append, hw]
        have : WState.call w k = some w2 := h2
        simp [WState.calls, this]
      by_cases hd : w2.stack = [] ∧ w2.pending = none
      · obtain ⟨S, pd, wb⟩ := w2
        simp only at hd
        obtain ⟨rfl, rfl⟩ := hd
        obtain ⟨p, e1, e2⟩ := calls_tree _ _ _ _ hw2
        have hx2 : Operation.writeOperands c'.pretty (xs ++ [p]) (Operation.start name) c'.buf = (wb, (o.obj c'.pretty b).2.1) := by
          rw [writeOperands_snoc, hx, e2]
        have := Shape.opened ks c' h name (xs ++ [p]) wb _ hx2
        have e3 : operandCalls p = .operand :: (ws.map .write ++ [.write k]) := by rw [operandCalls, ← e1]; simp
        simpa [e3] using this
      · have := Shape.within ks c' h name xs b o hx (ws ++ [k]) w2 hw2 hd
        simpa using this

theorem shape_calls (c : Content) (cs ds : List CCall) (s s' : CState) (h : Shape c cs s) (hk : s.calls ds = some s') :
    Shape c (cs ++ ds) s' := by
  induction ds generalizing cs s with
  | nil => simp [CState.calls] at hk; subst hk; simpa using h
  | cons d ds ih =>
    simp only [CState.calls] at hk
    cases hd : s.call d with
    | none => simp [hd] at hk
    | some s1 =>
      rw [hd] at hk
      have := ih _ _ (shape_step c cs s s1 d h hd) hk
      simpa using this

/-- C65: every admitted sequence of calls on a content stream that ends with nothing open is the sequence of calls of a list of
operations, and has its effect. -/
theorem C65_calls_are_operations (c c' : Content) (cs : List CCall) (h : CState.calls ⟨c, none, [], none⟩ cs = some ⟨c', none, [], none⟩) :
    ∃ ks, cs = opsCalls ks ∧ runCalls ks c = some c' := by
  have := shape_calls c [] cs _ _ (Shape.idle [] c rfl) h
  simp only [List.nil_append] at this
  generalize hs : (⟨c', none, [], none⟩ : CState) = s at this
  cases this with
  | idle ks c2 h2 => cases hs; exact ⟨ks, rfl, h2⟩
  | opened => simp at hs
  | within => simp at hs

/-- C65: an interruption at any point leaves exactly what a list of complete operations writes: the completed operations, and the open
one, if any, with the operands written so far (the last of which may be cut off) and its operator. -/
theorem C65_cut_off (c : Content) (cs : List CCall) (s : CState) (h : CState.calls ⟨c, none, [], none⟩ cs = some s) :
    ∃ ks, CutOffOps cs s.pending.isSome s.stack.length s.op.isSome ks ∧ runCalls ks c = some s.unwind := by
  have := shape_calls c [] cs _ _ (Shape.idle [] c rfl) h
  simp only [List.nil_append] at this
  cases this with
  | idle ks c2 h2 => exact ⟨ks, by simp [CutOffOps], h2⟩
  | opened ks c2 h2 name xs b o hx =>
    refine ⟨ks ++ [.op name xs], ?_, ?_⟩
    · simp [CutOffOps, opsCalls_snoc, opCalls]
    · rw [runCalls_op h2 hx]; rfl
  | within ks c2 h2 name xs b o hx ws w hw hne =>
    obtain ⟨p, e1, e2, -⟩ := C64_cut_off ws _ _ w hw
    have hx2 : Operation.writeOperands c2.pretty (xs ++ [p]) (Operation.start name) c2.buf = (w.unwind, (o.obj c2.pretty b).2.1) := by
      rw [writeOperands_snoc, hx, e2]
    refine ⟨ks ++ [.op name (xs ++ [p])], ?_, ?_⟩
    · have e3 : operandCalls p = .operand :: (ws.map .write ++ ((if w.pending.isSome then [CCall.write .abandon] else []) ++
          List.replicate w.stack.length (.write .finish))) := by
        rw [operandCalls, e1]
        cases w.pending <;> simp
      simp [CutOffOps, opsCalls_snoc, opCalls, e3]
    · rw [runCalls_op h2 hx2]
      rfl

theorem operands_calls (xs : List Prog) (c : Content) (o : Operation) :
    CState.calls ⟨c, some o, [], none⟩ (xs.flatMap operandCalls) =
      some ⟨{ c with buf := (Operation.writeOperands c.pretty xs o c.buf).1 }, some (Operation.writeOperands c.pretty xs o c.buf).2, [], none⟩ := by
  induction xs generalizing c o with
  | nil => rfl
  | cons x xs ih =>
    simp only [List.flatMap_cons, operandCalls, List.cons_append, CState.calls, CState.call]
    rw [ccalls_append, wcalls_map, calls_prog]
    simp only [Option.map_some, Option.bind_some]
    have := ih { c with buf := x.run (o.obj c.pretty c.buf).2.2 (o.obj c.pretty c.buf).1 } (o.obj c.pretty c.buf).2.1
    exact this

/-- C65: no history is left out: the calls of every list of operations that does not panic are admitted. -/
theorem C65_operations_are_admitted (ks : List ContentCall) (c c' : Content) (h : runCalls ks c = some c') :
    CState.calls ⟨c, none, [], none⟩ (opsCalls ks) = some ⟨c', none, [], none⟩ := by
  induction ks generalizing c with
  | nil => simp [runCalls] at h; subst h; rfl
  | cons k ks ih =>
    simp only [runCalls] at h
    cases hk : k.run c with
    | none => simp [hk] at h
    | some c1 =>
      rw [hk] at h
      simp only [opsCalls, List.flatMap_cons]
      rw [ccalls_append]
      have hstep : CState.calls ⟨c, none, [], none⟩ (opCalls k) = some ⟨c1, none, [], none⟩ := by
        cases hop : k.isOp with
        | false => rw [opCalls_method k hop]; simp [CState.calls, CState.call, hop, hk]
        | true =>
          cases k <;> simp [ContentCall.isOp] at hop
          rename_i name xs
          simp only [ContentCall.run, Option.some.injEq] at hk
          simp only [opCalls, CState.calls, CState.call]
          rw [ccalls_append, operands_calls]
          simp only [Option.bind_some, CState.calls, CState.call]
          rw [← hk]; rfl
      rw [hstep]
      exact ih c1 h

theorem operandCalls_ok (p : Prog) (h : CCallsOk (operandCalls p)) : Ok p := by
  obtain ⟨-, -, h3, h4⟩ := h
  refine ok_of_calls p ⟨fun hm => h3 ?_, fun q hq => h4 q ?_⟩
  · simp [operandCalls, hm]
  · simp [operandCalls, hq]

theorem ccallsOk_left {a b : List CCall} (h : CCallsOk (a ++ b)) : CCallsOk a ∧ CCallsOk b := by
  obtain ⟨h1, h2, h3, h4⟩ := h
  simp only [List.mem_append, not_or] at h1 h2 h3 h4
  exact ⟨⟨fun k hk => h1 k (.inl hk), fun k hk => h2 k (.inl hk), h3.1, fun k hk => h4 k (.inl hk)⟩,
    ⟨fun k hk => h1 k (.inr hk), fun k hk => h2 k (.inr hk), h3.2, fun k hk => h4 k (.inr hk)⟩⟩

theorem operands_ok (xs : List Prog) (h : CCallsOk (xs.flatMap operandCalls)) : OkItems xs := by
  induction xs with
  | nil => simp [OkItems]
  | cons x xs ih =>
    simp only [List.flatMap_cons] at h
    simp only [OkItems]
    exact ⟨operandCalls_ok x (ccallsOk_left h).1, ih (ccallsOk_left h).2⟩

theorem opsCalls_ok (ks : List ContentCall) (h : CCallsOk (opsCalls ks)) : ∀ k ∈ ks, CallOk k := by
  induction ks with
  | nil => simp
  | cons k ks ih =>
    simp only [opsCalls, List.flatMap_cons] at h
    obtain ⟨h1, h2⟩ := ccallsOk_left h
    intro k' hk'
    rcases List.mem_cons.mp hk' with rfl | hk'
    · cases hop : k'.isOp with
      | false => rw [opCalls_method k' hop] at h1; exact h1.1 k' (by simp)
      | true =>
        cases k' <;> simp [ContentCall.isOp] at hop
        rename_i name xs
        have hop := h1.2.1 name (by simp [opCalls])
        have h3 : CCallsOk ([.start name] ++ (xs.flatMap operandCalls ++ [.done])) := h1
        exact ⟨operands_ok xs (ccallsOk_left (ccallsOk_left h3).2).1, hop⟩
    · exact ih h2 k' hk'

/-- C65: interrupted with no `Obj` handed out, the content stream is read as the completed operations, followed by the open one with the
operands written so far. -/
theorem C65_reads_back (cs : List CCall) (pretty : Bool) (s : CState) (h : CState.calls ⟨Content.withSettings pretty, none, [], none⟩ cs = some s)
    (hp : s.pending = none) (hok : CCallsOk cs) :
    ∃ ks, CutOffOps cs false s.stack.length s.op.isSome ks ∧
      (pretty = true ∨ (∀ k ∈ ks, CallNoClash k) → ∃ ops, readContent s.unwind.finish.inner = some ops ∧ AllMean ks ops) := by
  obtain ⟨ks, h1, h2⟩ := C65_cut_off _ cs s h
  rw [hp] at h1
  refine ⟨ks, h1, ?_⟩
  have hall : ∀ k ∈ ks, CallOk k := by
    apply opsCalls_ok
    rw [h1]
    obtain ⟨k1, k2, k3, k4⟩ := hok
    cases s.op <;> refine ⟨fun k hk => ?_, fun k hk => ?_, ?_, fun k hk => ?_⟩ <;> simp at * <;> first | exact k1 k hk | exact k2 k hk | exact k4 k hk | exact k3
  intro hc
  rcases hc with rfl | hc
  · exact C29_pretty_reads_back ks _ h2 hall
  · cases pretty with
    | true => exact C29_pretty_reads_back ks _ h2 hall
    | false => exact C29_compact_reads_back ks _ h2 hall hc

/-! ### A case: interrupted inside an array operand -/

/-- `save_state`, then `op("TJ")` with an array operand that has one item when the caller panics. -/
def cutOps : List CCall := [.method .saveState, .start b!"TJ", .operand, .write .array, .write .push, .write (.primitive (.str b!"ab"))]

example : CCallsOk cutOps := by
  refine ⟨?_, ?_, by simp [cutOps], ?_⟩
  · intro k hk; simp [cutOps] at hk; subst hk; exact ⟨by simp [operandsOf, OkItems], trivial⟩
  · intro k hk; simp [cutOps] at hk; subst hk; unfold OperatorOk; decide +kernel
  · intro k hk; simp [cutOps] at hk; subst hk; trivial

example : CutOffOps cutOps false 1 true [.saveState, .op b!"TJ" [.array [.prim (.str b!"ab")]]] := by
  simp [CutOffOps, cutOps, opsCalls, opCalls, operandCalls, progCalls, itemsCalls, List.replicate]

example : (CState.calls ⟨Content.withSettings false, none, [], none⟩ cutOps).map (fun s => (s.pending.isSome, s.stack.length, s.op.isSome, s.unwind.finish.inner))
    = some (false, 1, true, b!"q[(ab)]TJ") := by decide +kernel

end PdfW.Props
