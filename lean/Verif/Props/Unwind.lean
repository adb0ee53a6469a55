import Verif.Spec.Unwind
import Verif.Props.Order
import Verif.Props.Objects
import Verif.Props.Renumber
import Verif.Proof.Unwind

set_option linter.unusedSimpArgs false
set_option linter.unusedVariables false

/-!
# C64: interruption at any point

A panic in the caller's code (or an early return) while writers are open.
-/

namespace PdfW.Props
open PdfW Spec

theorem unwind_calls (S : List Writer) (buf : Buf) :
    WState.calls ⟨S, none, buf⟩ (List.replicate S.length .finish) = some ⟨[], none, dropAll S buf⟩ := by
  induction S generalizing buf with
  | nil => simp [WState.calls, dropAll]
  | cons x S ih =>
    cases x with
    | arr a => simpa [List.replicate_succ, WState.calls, WState.call, dropAll] using ih (a.drop buf)
    | dict a => simpa [List.replicate_succ, WState.calls, WState.call, dropAll] using ih (a.drop buf)

theorem unwind_calls' (w : WState) :
    w.calls ((if w.pending.isSome then [.abandon] else []) ++ List.replicate w.stack.length .finish) = some ⟨[], none, w.unwind⟩ := by
  obtain ⟨S, pending, buf⟩ := w
  cases pending with
  | none => simpa [WState.unwind] using unwind_calls S buf
  | some o =>
    rw [calls_append]
    simpa [WState.calls, WState.call, WState.unwind] using unwind_calls S buf

/-- C64: an interruption after any admitted sequence of calls leaves exactly the bytes of one tree: the one written by the
completed calls with all open writers closed. -/
theorem C64_cut_off (cs : List Call) (o : Obj) (buf : Buf) (w : WState) (h : WState.calls ⟨[], some o, buf⟩ cs = some w) :
    ∃ p, CutOff cs w.pending.isSome w.stack.length p ∧ w.unwind = p.run o buf ∧
      ∀ q, CutOff cs w.pending.isSome w.stack.length q → q = p := by
  have h2 : WState.calls ⟨[], some o, buf⟩ (cs ++ ((if w.pending.isSome then [.abandon] else []) ++ List.replicate w.stack.length .finish))
      = some ⟨[], none, w.unwind⟩ := by rw [calls_append, h]; exact unwind_calls' w
  obtain ⟨p, h3, h4, h5⟩ := C12_calls_form_one_tree _ o buf _ h2
  exact ⟨p, h3.symm, h4, fun q hq => h5 q hq.symm⟩

mutual
theorem ok_of_calls (p : Prog) (h : CallsOk (progCalls p)) : Ok p := by
  match p with
  | .prim p => simp only [Ok]; exact h.2 p (by simp [progCalls])
  | .array items =>
    simp only [Ok]
    exact okItems_of_calls items ⟨fun hm => h.1 (by simp [progCalls, hm]), fun q hq => h.2 q (by simp [progCalls, hq])⟩
  | .dict entries =>
    simp only [Ok]
    exact okEntries_of_calls entries ⟨fun hm => h.1 (by simp [progCalls, hm]), fun q hq => h.2 q (by simp [progCalls, hq])⟩
  | .unused => exact absurd (by simp [progCalls]) h.1
termination_by structural p
theorem okItems_of_calls (xs : List Prog) (h : CallsOk (itemsCalls xs)) : OkItems xs := by
  match xs with
  | [] => simp [OkItems]
  | x :: xs =>
    simp only [OkItems]
    exact ⟨ok_of_calls x ⟨fun hm => h.1 (by simp [itemsCalls, hm]), fun q hq => h.2 q (by simp [itemsCalls, hq])⟩,
      okItems_of_calls xs ⟨fun hm => h.1 (by simp [itemsCalls, hm]), fun q hq => h.2 q (by simp [itemsCalls, hq])⟩⟩
termination_by structural xs
theorem okEntries_of_calls (xs : List (Bytes × Prog)) (h : CallsOk (entriesCalls xs)) : OkEntries xs := by
  match xs with
  | [] => simp [OkEntries]
  | (k, x) :: xs =>
    simp only [OkEntries]
    exact ⟨ok_of_calls x ⟨fun hm => h.1 (by simp [entriesCalls, hm]), fun q hq => h.2 q (by simp [entriesCalls, hq])⟩,
      okEntries_of_calls xs ⟨fun hm => h.1 (by simp [entriesCalls, hm]), fun q hq => h.2 q (by simp [entriesCalls, hq])⟩⟩
termination_by structural xs
end

theorem callsOk_append {a b : List Call} (ha : CallsOk a) (hb : CallsOk b) : CallsOk (a ++ b) :=
  ⟨by simp [ha.1, hb.1], fun p hp => by
    rcases List.mem_append.mp hp with h | h
    · exact ha.2 p h
    · exact hb.2 p h⟩

theorem callsOk_finishes (n : Nat) : CallsOk (List.replicate n .finish) := ⟨by simp, by simp⟩

/-- C64: when the interruption comes between two calls, with no `Obj` handed out, a pretty-printed object still reads back, as the
tree of the completed calls. -/
theorem C64_reads_back (cs : List Call) (indent : Nat) (pretty pad : Bool) (buf : Buf) (w : WState)
    (h : WState.calls ⟨[], some (Obj.direct indent pretty pad), buf⟩ cs = some w) (hn : w.pending = none) (hok : CallsOk cs) :
    ∃ p out, CutOff cs false w.stack.length p ∧ w.unwind.inner = buf.inner ++ out ∧
      (pretty = true ∨ NoClash p → ∃ v, readOne out = some v ∧ Denotes p v) := by
  obtain ⟨p, h1, h2, -⟩ := C64_cut_off cs _ buf w h
  rw [hn] at h1
  have hp : Ok p := ok_of_calls p (by rw [h1]; exact callsOk_append hok (callsOk_append ⟨by simp, by simp⟩ (callsOk_finishes _)))
  refine ⟨p, enc pretty indent pad buf.inner.getLast? p, h1, by rw [h2, run_direct], ?_⟩
  intro hc
  exact ⟨_, reads_enc pretty p hp hc indent pad _, progVal_denotes p hp⟩

/-- C64: interrupted while writing an indirect object: the chunk is the one a completed history would have produced, so all that is
known about histories holds for it. -/
theorem C64_chunk (c : Chunk) (id : Ref) (cs : List Call) (w : WState)
    (h : WState.calls ⟨[], some (c.indirect id).2, (c.indirect id).1.buf⟩ cs = some w) :
    ∃ p, CutOff cs w.pending.isSome w.stack.length p ∧ { (c.indirect id).1 with buf := w.unwind } = c.writeIndirect id p := by
  obtain ⟨p, h1, h2, -⟩ := C64_cut_off cs _ _ w h
  exact ⟨p, h1, by rw [h2]; rfl⟩

theorem unwind_nested (S : List Writer) (x : Writer) (buf : Buf) :
    WState.calls ⟨S ++ [x], none, buf⟩ (List.replicate S.length .finish) = some ⟨[x], none, dropAll S buf⟩ := by
  induction S generalizing buf with
  | nil => simp [WState.calls, dropAll]
  | cons y S ih =>
    cases y with
    | arr a => simpa [List.replicate_succ, WState.calls, WState.call, dropAll] using ih (a.drop buf)
    | dict a => simpa [List.replicate_succ, WState.calls, WState.call, dropAll] using ih (a.drop buf)

/-- C64: interrupted while writing the dictionary of a stream (at any depth): the chunk is the one in which the stream was written
with the entries inserted so far, and all of its data. -/
theorem C64_stream (c : Chunk) (id : Ref) (data : Bytes) (buf : Buf) (d : Dict) (cs : List Call) (w : WState)
    (hs : streamStart (c.indirect id).2 data (c.indirect id).1.buf = some (buf, d))
    (h : WState.calls ⟨[.dict d], none, buf⟩ cs = some w) (hne : w.stack ≠ []) :
    ∃ es b, CutOffEntries cs w.pending.isSome (w.stack.length - 1) es ∧ w.unwindStream data = some b ∧
      c.writeStream id es data = some { (c.indirect id).1 with buf := b } := by
  obtain ⟨S, pending, b0⟩ := w
  simp only at hne
  obtain ⟨T, x, rfl⟩ : ∃ T x, S = T ++ [x] := ⟨S.dropLast, S.getLast hne, (List.dropLast_concat_getLast hne).symm⟩
  have hfin : WState.calls ⟨[.dict d], none, buf⟩ (cs ++ ((if pending.isSome then [.abandon] else []) ++ List.replicate T.length .finish)) =
      some ⟨[x], none, dropAll T b0⟩ := by
    rw [calls_append, h]
    cases pending with
    | none => simpa using unwind_nested T x b0
    | some o =>
      rw [Option.bind_some, calls_append]
      simpa [WState.calls, WState.call] using unwind_nested T x b0
  have hend : ∃ b1, WState.calls ⟨[x], none, dropAll T b0⟩ [.finish] = some ⟨[], none, b1⟩ := by
    cases x <;> exact ⟨_, rfl⟩
  obtain ⟨b1, hend⟩ := hend
  have hall := calls_append ⟨[.dict d], none, buf⟩ (cs ++ ((if pending.isSome then [.abandon] else []) ++ List.replicate T.length .finish)) [.finish]
  rw [hfin, Option.bind_some, hend] at hall
  obtain ⟨es, cs', h1, h2⟩ := (calls_decompose _).2.2 _ (Nat.le_refl _) _ _ _ _ hall
  obtain ⟨rfl, -⟩ := calls_empty _ _ _ h2
  have h3 := List.append_cancel_right h1
  have h4 := calls_entries es [] d buf
  rw [← h3, hfin, Option.some.injEq, WState.mk.injEq] at h4
  obtain ⟨h5, -, h6⟩ := h4
  simp only [List.cons.injEq, and_true] at h5
  refine ⟨es, streamDrop (runEntries es d buf).2 data (runEntries es d buf).1, ?_, ?_, ?_⟩
  · simpa [CutOffEntries] using h3.symm
  · simp [WState.unwindStream, h5, h6]
  · simp [Chunk.writeStream, runStream, hs]

/-- C64: `stream` with more data than PDF allows panics after it has recorded the object and opened its dictionary, which unwinding
closes: the chunk then has an empty dictionary under that id. -/
theorem C64_too_much_data (c : Chunk) (id : Ref) (data : Bytes) (hd : 2147483647 < data.length) :
    streamStart (c.indirect id).2 data (c.indirect id).1.buf = none ∧
    { (c.indirect id).1 with buf := (WState.mk [.dict (Dict.start (c.indirect id).2 (c.indirect id).1.buf).2] none
      (Dict.start (c.indirect id).2 (c.indirect id).1.buf).1).unwind } = c.writeIndirect id (.dict []) := by
  constructor
  · have : ¬ data.length ≤ 2147483647 := by omega
    simp [streamStart, this]
  · rfl

/-- C64: interrupted while writing an indirect object of a document, which is finished nevertheless: all objects written before are
found unharmed; the interrupted one is found as the tree of the completed calls, unless an `Obj` had been handed out; no other object
appears. -/
theorem C64_document (unf : Val → Bytes → Option Bytes) (h : PdfHist) (p : Pdf) (hr : h.run = some p) (id : Ref) (cs : List Call)
    (w : WState) (hc : WState.calls ⟨[], some (p.chunk.indirect id).2, (p.chunk.indirect id).1.buf⟩ cs = some w)
    (p' : Pdf) (hp' : p' = { p with chunk := { (p.chunk.indirect id).1 with buf := w.unwind } })
    (fin : Finishing) (bytes : Bytes) (hf : fin.run p' = some bytes)
    (hids : ∀ r ∈ id :: docIds h ++ fin.ids, r.get < 2147483647) (hlen : fin.Fits p' bytes) (hu : fin.Undone unf) :
    ∃ f t, readFile unf bytes = some f ∧ CutOff cs w.pending.isSome w.stack.length t ∧
      (∀ it ∈ pdfItems h, ItemOk it → ∃ v, f.object bytes it.id.get.toNat = some v ∧ BodyDenotes it.body v) ∧
      (w.pending = none → CallsOk cs → pdfPretty h = true ∨ NoClash t →
        ∃ v, f.object bytes id.get.toNat = some (.val v) ∧ Denotes t v) ∧
      (∀ i : Nat, (∀ r ∈ id :: docIds h ++ fin.ids, r.get ≠ i) → f.object bytes i = none) := by
  obtain ⟨t, h1, h2⟩ := C64_chunk p.chunk id cs w hc
  have hrun : (PdfHist.call h (.indirect id t)).run = some p' := by
    rw [hp', h2]; simp [PdfHist.run, hr, ChunkCall.run]
  have hmem : ∀ r, r ∈ docIds (.call h (.indirect id t)) ++ fin.ids ↔ r ∈ id :: docIds h ++ fin.ids := by
    intro r; simp only [docIds, pdfItems, callItems, List.map_append, List.map_cons, List.map_nil, List.mem_append, List.mem_cons,
      List.not_mem_nil, or_false, List.cons_append]; rw [or_assoc, or_left_comm]
  obtain ⟨f, k1, -, k3, k4⟩ := finishing_exact unf _ p' fin bytes hrun hf (fun r hr => hids r ((hmem r).mp hr)) hlen hu
  refine ⟨f, t, k1, h1, ?_, ?_, ?_⟩
  · intro it hit hok
    exact ⟨_, k3 it (by simp [pdfItems, hit]) hok, bodyVal_denotes it hok⟩
  · intro hn hok hcl
    rw [hn] at h1
    have hp : Ok t := ok_of_calls t (by rw [h1]; exact callsOk_append hok (callsOk_append ⟨by simp, by simp⟩ (callsOk_finishes _)))
    exact ⟨_, k3 ⟨id, .val t, pdfPretty h⟩ (by simp [pdfItems, callItems]) ⟨hp, hcl⟩, progVal_denotes t hp⟩
  · intro i hi
    exact k4 i (fun r hr => hi r ((hmem r).mp hr))

/-! ## A value that is due -/

/-- C64: array items pushed but never written are simply absent, wherever they are: the object reads back as the tree without them. -/
theorem C64_items_absent (p : Prog) (hok : Ok (tidy p)) (indent : Nat) (pretty pad : Bool) (hc : pretty = true ∨ NoClash (tidy p)) (buf : Buf) :
    ∃ out v, (p.run (Obj.direct indent pretty pad) buf).inner = buf.inner ++ out ∧ readOne out = some v ∧ Denotes (tidy p) v := by
  refine ⟨_, _, run_direct p indent pretty pad buf, ?_, progVal_denotes (tidy p) hok⟩
  have hs := scan_tidy pretty p hok hc indent pad buf.inner.getLast? [] (fun _ => rfl)
  rw [List.append_nil] at hs
  have := readAll_scan hs rfl (fold_prog (tidy p) hok .top [] [])
  simp [readOne, this]

/-- C64: a dictionary key whose value was never written makes the object unreadable, whatever was inserted before and after. -/
theorem C64_value_missing (es fs : List (Bytes × Prog)) (k : Bytes) (hes : OkEntries es) (hfs : OkEntries fs) (indent : Nat) (pretty pad : Bool)
    (hc : pretty = true ∨ (NoClashEntries es ∧ NoClashEntries fs)) (buf : Buf) :
    ∃ out, (Prog.run (.dict (es ++ (k, .unused) :: fs)) (Obj.direct indent pretty pad) buf).inner = buf.inner ++ out ∧ readOne out = none := by
  refine ⟨_, run_direct _ indent pretty pad buf, ?_⟩
  have hs := scan_keyAlone pretty es fs k hes hfs (hc.imp id And.left) (hc.imp id And.right) indent pad buf.inner.getLast? []
  rw [List.append_nil] at hs
  simp [readOne, readAll, readToEnd_none hs _ _ (fold_keyAlone es fs k hes hfs _)]

/-- Two items pushed and abandoned, one of them the first. -/
example : ((Prog.array [.unused, .prim (.int 1), .unused, .array [.unused]]).run (Obj.direct 0 true false) Buf.new).inner = b!"[ 1  []]" ∧
    ((Prog.array [.unused, .prim (.int 1), .unused, .array [.unused]]).run (Obj.direct 0 false false) Buf.new).inner = b!"[1[]]" := by
  decide +kernel

example : Ok (tidy (.array [.unused, .prim (.int 1), .unused, .array [.unused]])) ∧
    NoClash (tidy (.array [.unused, .prim (.int 1), .unused, .array [.unused]])) := by
  simp [tidy, tidyItems, Ok, OkItems, PrimOk, NoClash, NoClashItems, isEmptyName]

/-! ### A case: interrupted two levels deep -/

/-- `chunk.indirect(id).dict()`, `insert(A).array()`, two items, then a panic. -/
def cutCalls : List Call := [.dict, .insert b!"A", .array, .push, .primitive (.int 1), .push, .primitive (.ref (rf 4))]

/-- The tree left. -/
def cutTree : Prog := .dict [(b!"A", .array [.prim (.int 1), .prim (.ref (rf 4))])]

/-- A document in which another object was written before. -/
def cutDoc : PdfHist := .call (.new true) (.indirect (rf 2) (.array [.prim (.bool true)]))

/-- The document when the panic happens in object 3. -/
def cutPdf : Option (Pdf × WState) :=
  cutDoc.run.bind fun p => (WState.calls ⟨[], some (p.chunk.indirect (rf 3)).2, (p.chunk.indirect (rf 3)).1.buf⟩ cutCalls).map fun w => (p, w)

example : CallsOk cutCalls ∧ CutOff cutCalls false 2 cutTree := by
  refine ⟨⟨by decide, ?_⟩, by simp [CutOff, cutCalls, cutTree, progCalls, itemsCalls, entriesCalls, List.replicate]⟩
  intro p hp
  simp [cutCalls] at hp
  rcases hp with rfl | rfl <;> trivial

example : cutPdf.map (fun q => (q.2.pending.isSome, q.2.stack.length, ({ q.1 with chunk := { (q.1.chunk.indirect (rf 3)).1 with buf := q.2.unwind } } : Pdf).finish.isSome))
    = some (false, 2, true) := by decide +kernel

/-- With a value due (`insert` was called, the value not written), the key stays without one: a reader cannot read this object. -/
example : (WState.calls ⟨[], some (Obj.direct 0 false false), Buf.new⟩ [.dict, .insert b!"K"]).map (fun w => (w.unwind.inner, w.pending.isSome, (readOne w.unwind.inner).isNone))
    = some (b!"<</K>>", true, true) := by decide +kernel

/-- A stream interrupted after one entry and inside a nested array. -/
example : ((streamStart ((Chunk.withSettings false).indirect (rf 7)).2 b!"data" ((Chunk.withSettings false).indirect (rf 7)).1.buf).bind fun q =>
    (WState.calls ⟨[.dict q.2], none, q.1⟩ [.insert b!"A", .primitive .null, .insert b!"B", .array, .push]).bind fun w =>
      (w.unwindStream b!"data").map Buf.inner)
    = some b!"7 0 obj\n<</Length 4/A null/B[]>>\nstream\ndata\nendstream\nendobj\n" := by decide +kernel

/-! ## Objects never started -/

theorem intBytes_front (n : Int) (r : Bytes) : nextToken (intBytes n ++ b!" 0 obj\n" ++ r) = some (.int n, b!" 0 obj\n" ++ r) := by
  rw [List.append_assoc]
  cases intBytes_scan n (b!" 0 obj\n" ++ r) rfl with
  | cons h hs => cases hs; exact h

theorem obj_toks (r : Bytes) : nextToken (b!" 0 obj\n" ++ r) = some (.int 0, b!" obj\n" ++ r) ∧
    nextToken (b!" obj\n" ++ r) = some (.kw b!"obj", b!"\n" ++ r) := by
  constructor
  · rw [List.cons_append, nextToken_white _ _ (by decide)]
    exact nextToken_run b!"0" (b!" obj\n" ++ r) (by decide) (by decide) rfl
  · rw [List.cons_append, nextToken_white _ _ (by decide)]
    exact nextToken_run b!"obj" (b!"\n" ++ r) (by decide) (by decide) rfl

theorem readItems_obj (fuel : Nat) (n : Int) (r : Bytes) (hf : 3 ≤ fuel) :
    readItems fuel [(.top, [])] (b!"\n" ++ (intBytes n ++ b!" 0 obj\n" ++ r)) = some ([.int n, .int 0], b!"obj", b!"\n" ++ r) := by
  obtain ⟨f, rfl⟩ : ∃ f, fuel = f + 3 := ⟨fuel - 3, by omega⟩
  rw [readItems.eq_def]
  simp only [List.cons_append, List.nil_append]
  rw [nextToken_white _ _ (by decide), intBytes_front]
  simp only [isOperator, step, State.push]
  rw [readItems.eq_def]
  simp only []
  rw [(obj_toks r).1]
  simp only [isOperator, step, State.push]
  rw [readItems.eq_def]
  simp only []
  rw [(obj_toks r).2]
  rfl

/-- What can follow an object in a file: another object, or the cross-reference table. -/
def Follows (post : Bytes) : Prop := (∃ (n : Int) (r : Bytes), post = intBytes n ++ b!" 0 obj\n" ++ r) ∨ ∃ r, post = b!"xref\n" ++ r

/-- C64: an object of which nothing was written is recorded, at the position where its header is; a reader finds no object there. -/
theorem C64_never_started (c : Chunk) (id : Ref) (post : Bytes) (hp : Follows post) :
    (c.writeIndirect id .unused).offsets = c.offsets ++ [(id, c.len)] ∧
    (c.writeIndirect id .unused).asBytes = c.asBytes ++ (intBytes id.get ++ b!" 0 obj\n") ∧
    readIndirect (((c.writeIndirect id .unused).asBytes ++ post).drop c.len) = none := by
  have hb : (c.writeIndirect id .unused).asBytes = c.asBytes ++ (intBytes id.get ++ b!" 0 obj\n") := by
    simp [Chunk.writeIndirect, Chunk.indirect, Prog.run, Chunk.asBytes, Obj.startIndirect, Buf.extend, Buf.pushInt, Ref.get]
  refine ⟨by simp [Chunk.writeIndirect, Chunk.indirect, Chunk.len], hb, ?_⟩
  rw [hb]
  have hd : (c.asBytes ++ (intBytes id.get ++ b!" 0 obj\n") ++ post).drop c.len = intBytes id.get ++ b!" 0 obj\n" ++ post := by
    rw [List.append_assoc, Chunk.asBytes, Chunk.len, Buf.len, List.drop_left]
  rw [hd, readIndirect, intBytes_front]
  simp only []
  rw [(obj_toks post).1]
  simp only [expectKw]
  rw [(obj_toks post).2]
  simp only [if_true]
  rcases hp with ⟨n, r, rfl⟩ | ⟨r, rfl⟩
  · rw [readItems_obj _ _ _ (by simp; omega)]
  · have : nextToken (b!"\n" ++ (b!"xref\n" ++ r)) = some (.kw b!"xref", b!"\n" ++ r) := by
      rw [List.cons_append, nextToken_white _ _ (by decide)]
      exact nextToken_run b!"xref" (b!"\n" ++ r) (by decide) (by decide) rfl
    rw [readItems.eq_def]
    simp only []
    rw [this]
    rfl

theorem mapObjs_unit (m : Mapping Unit) (a b : List Item) (it : Item) (hit : started it.body = false) (s : Unit) :
    mapObjs m (a ++ it :: b) s = mapObjs m (a ++ b) s := by
  induction a generalizing s with
  | nil => simp only [List.nil_append, mapObjs, hit, Bool.false_eq_true, if_false]
  | cons x a ih => simp only [List.cons_append, mapObjs, ih]

/-- C64: renumbering leaves out objects of which nothing was written: the result is the same as if they had never been begun. -/
theorem C64_renumber_leaves_out (h h' : ChunkHist) (c c' target : Chunk) (hr : h.run = some c) (hr' : h'.run = some c') (a b : List Item)
    (id : Ref) (pretty : Bool) (hi : chunkItems h = a ++ ⟨id, .val .unused, pretty⟩ :: b) (hi' : chunkItems h' = a ++ b)
    (m : Ref → Ref) :
    (c.renumberInto target (fun (u : Unit) r => (m r, u)) ()).1.asBytes = (c'.renumberInto target (fun u r => (m r, u)) ()).1.asBytes ∧
    (c.renumberInto target (fun (u : Unit) r => (m r, u)) ()).1.offsets = (c'.renumberInto target (fun u r => (m r, u)) ()).1.offsets := by
  obtain ⟨ps, hl, k, -⟩ := chunk_inv h c hr
  obtain ⟨ps', hl', k', -⟩ := chunk_inv h' c' hr'
  have e1 := renumberLoop_eq (fun (u : Unit) r => (m r, u)) ps hl.ok [] (target.mergeLimits c.limits) ()
  have e2 := renumberLoop_eq (fun (u : Unit) r => (m r, u)) ps' hl'.ok [] (target.mergeLimits c'.limits) ()
  simp only [List.nil_append, List.length_nil] at e1 e2
  rw [renumberInto_layout hl, renumberInto_layout hl', e1, e2, k, k', hi, hi', mapObjs_unit _ _ _ _ rfl]
  exact ⟨rfl, rfl⟩

/-- A chunk in which object 6 was never started. -/
def neverHist : ChunkHist :=
  .call (.call (.call (.new false) (.indirect (rf 5) (.prim (.ref (rf 6))))) (.indirect (rf 6) .unused)) (.indirect (rf 7) (.prim (.ref (rf 5))))

example : neverHist.run.map Chunk.asBytes = some b!"5 0 obj\n6 0 R\nendobj\n6 0 obj\n7 0 obj\n5 0 R\nendobj\n" ∧
    (neverHist.run.map fun c => ((c.renumber shift 0).1.asBytes, (c.renumber shift 0).1.refs, (c.renumber shift 0).2)) =
      some (b!"105 0 obj\n106 0 R\nendobj\n\n107 0 obj\n105 0 R\nendobj\n\n", [rf 105, rf 107], 5) := by decide +kernel

example : ∃ a b, chunkItems neverHist = a ++ ⟨rf 6, .val .unused, false⟩ :: b := ⟨[_], [_], rfl⟩

example (r : Bytes) : Follows (b!"7 0 obj\n" ++ r) := Or.inl ⟨7, r, by rw [show intBytes 7 = b!"7" by decide +kernel]; rfl⟩

end PdfW.Props
