import Verif.Proof.Content

/-!
# Properties C29 and C30: content streams
-/

set_option linter.unusedSimpArgs false
set_option linter.unusedVariables false

namespace PdfW.Props
open PdfW PdfW.Spec

/-! ## C29 -/

/-- C29 (pretty mode). The finished bytes of any sequence of operator calls that does not panic are read as exactly these
operations, in order, each with its operator and its operands. -/
theorem C29_pretty_reads_back (cs : List ContentCall) (c : Content) (hr : runCalls cs (Content.withSettings true) = some c)
    (hok : ∀ k ∈ cs, CallOk k) : ∃ ops, readContent c.finish.inner = some ops ∧ AllMean cs ops := by
  obtain ⟨-, h2, E, e1, -, e3, e4⟩ := runCalls_reads cs _ c hr (Or.inl rfl) hok (Or.inl rfl)
  refine ⟨callOps cs, ?_, allMean_callOps cs hok⟩
  have e1 : c.buf.inner = E := e1
  rw [content_finish_eq c h2, readContent, e1]
  exact e4 _ (by omega)

/-- C29 (compact mode). The same, unless an empty name is directly followed by a bare token or by the operator. -/
theorem C29_compact_reads_back (cs : List ContentCall) (c : Content) (hr : runCalls cs (Content.withSettings false) = some c)
    (hok : ∀ k ∈ cs, CallOk k) (hc : ∀ k ∈ cs, CallNoClash k) : ∃ ops, readContent c.finish.inner = some ops ∧ AllMean cs ops := by
  obtain ⟨-, h2, E, e1, -, e3, e4⟩ := runCalls_reads cs _ c hr (Or.inl rfl) hok (Or.inr hc)
  refine ⟨callOps cs, ?_, allMean_callOps cs hok⟩
  have e1 : c.buf.inner = E := e1
  rw [content_finish_eq c h2, readContent, e1]
  exact e4 _ (by omega)

/-- C29. Both modes are read as the very same operations. -/
theorem C29_same_operations (cs : List ContentCall) (c c' : Content) (hr : runCalls cs (Content.withSettings true) = some c)
    (hr' : runCalls cs (Content.withSettings false) = some c') (hok : ∀ k ∈ cs, CallOk k) (hc : ∀ k ∈ cs, CallNoClash k) :
    readContent c.finish.inner = readContent c'.finish.inner := by
  obtain ⟨-, h2, E, e1, -, e3, e4⟩ := runCalls_reads cs _ c hr (Or.inl rfl) hok (Or.inl rfl)
  obtain ⟨-, h2', E', e1', -, e3', e4'⟩ := runCalls_reads cs _ c' hr' (Or.inl rfl) hok (Or.inr hc)
  have e1 : c.buf.inner = E := e1
  have e1' : c'.buf.inner = E' := e1'
  rw [content_finish_eq c h2, content_finish_eq c' h2', readContent, readContent, e1, e1', e4 _ (by omega), e4' _ (by omega)]

/-- Which method an operation read from a stream belongs to. Only `SCN` and `scn` need a look at the operands: a name at the
end means a pattern. -/
def methodOf (op : ReadOp) : Option Nat :=
  if op.1 = b!"SCN" then (match op.2.getLast? with | some (.name _) => some 52 | _ => some 51)
  else if op.1 = b!"scn" then (match op.2.getLast? with | some (.name _) => some 54 | _ => some 53)
  else (([b!"w", b!"J", b!"j", b!"M", b!"d", b!"ri", b!"i", b!"gs", b!"q", b!"Q", b!"cm", b!"m", b!"l", b!"c", b!"v", b!"y", b!"h",
    b!"re", b!"S", b!"s", b!"f", b!"f*", b!"B", b!"B*", b!"b", b!"b*", b!"n", b!"W", b!"W*", b!"BT", b!"ET", b!"Tc", b!"Tw", b!"Tz",
    b!"TL", b!"Tf", b!"Tr", b!"Ts", b!"Td", b!"TD", b!"Tm", b!"T*", b!"Tj", b!"'", b!"\"", b!"TJ", b!"d0", b!"d1", b!"CS", b!"cs",
    b!"SCN", b!"SCN", b!"scn", b!"scn", b!"G", b!"g", b!"RG", b!"rg", b!"K", b!"k", b!"sh", b!"Do", b!"MP", b!"DP", b!"BMC", b!"BDC",
    b!"EMC", b!"BX", b!"EX"] : List Bytes).idxOf? op.1).map (· + 1)

theorem numIs_notName {x : F32} {v : Val} (h : NumIs x v) (n : Bytes) : v ≠ .name n := by
  rintro rfl; simp [NumIs] at h

theorem nums_last (xs : List F32) (vs : List Val) (h : DenotesItems (xs.map num) vs) (n : Bytes) : vs.getLast? ≠ some (.name n) := by
  induction xs generalizing vs with
  | nil => simp [DenotesItems] at h; simp [h]
  | cons x xs ih =>
    simp only [List.map_cons, DenotesItems] at h
    obtain ⟨w, ws, rfl, h1, h2⟩ := h
    cases ws with
    | nil =>
      simp only [List.getLast?_singleton, ne_eq, Option.some.injEq]
      exact numIs_notName (by simpa [num, Denotes, PrimDenotes] using h1) n
    | cons a as => rw [List.getLast?_cons_cons]; exact ih _ h2

theorem nums_name_last (xs : List F32) (n : Bytes) (vs : List Val) (h : DenotesItems (xs.map num ++ [nam n]) vs) : vs.getLast? = some (.name n) := by
  induction xs generalizing vs with
  | nil =>
    simp only [List.map_nil, List.nil_append, DenotesItems, nam, Denotes, PrimDenotes] at h
    obtain ⟨w, ws, rfl, rfl, rfl⟩ := h
    rfl
  | cons x xs ih =>
    simp only [List.map_cons, List.cons_append, DenotesItems] at h
    obtain ⟨w, ws, rfl, h1, h2⟩ := h
    cases ws with
    | nil => exact absurd (ih _ h2) (by simp)
    | cons a as => rw [List.getLast?_cons_cons]; exact ih _ h2

/-- A typed method (not the generic `op`). -/
def Typed : ContentCall → Prop
  | .op _ _ => False
  | _ => True

theorem methodOf_spec (c : ContentCall) (op : ReadOp) (ht : Typed c) (h : Means c op) : methodOf op = some c.ctorIdx := by
  obtain ⟨k, vs⟩ := op
  obtain ⟨hk, hv⟩ := h
  simp only at hk hv
  cases c with
  | op n xs => exact ht.elim
  | setStrokeColor xs =>
    subst hk
    have := nums_last xs vs hv
    simp only [methodOf, operatorOf, if_true]
    rfl
  | setFillColor xs =>
    subst hk
    have := nums_last xs vs hv
    simp only [methodOf, operatorOf, if_true]
    rw [if_neg (by decide)]
    rfl
  | setStrokePattern xs n =>
    subst hk
    have := nums_name_last xs n vs hv
    simp only [methodOf, operatorOf, if_true, this]
    rfl
  | setFillPattern xs n =>
    subst hk
    have := nums_name_last xs n vs hv
    simp only [methodOf, operatorOf, if_true, this]
    rfl
  | _ => subst hk; rfl

/-- C29. No two typed methods write operations that can be confused: an operation read from a stream belongs to one method
only. -/
theorem C29_methods_distinct (c c' : ContentCall) (op : ReadOp) (ht : Typed c) (ht' : Typed c') (h : Means c op) (h' : Means c' op) :
    c.ctorIdx = c'.ctorIdx := by
  have := methodOf_spec c op ht h
  rw [methodOf_spec c' op ht' h'] at this
  simpa using this.symm

/-- C29, the exclusion in compact mode is needed: `set_font` with an empty name is read as another operation. -/
theorem C29_empty_name_clash :
    ∃ c, runCalls [.setFont [] F32.zero] (Content.withSettings false) = some c ∧ CallOk (.setFont [] F32.zero) ∧
      ∃ ops, readContent c.finish.inner = some ops ∧ ¬ AllMean [.setFont [] F32.zero] ops := by
  refine ⟨_, rfl, ⟨by simp [operandsOf, OkItems, num, nam, Ok, PrimOk]; decide, trivial⟩, [(b!"Tf", [.name b!"0"])], ?_, ?_⟩
  · exact rfl
  · rintro ⟨o, os, h, ⟨-, w, ws, h2, -, w', ws', h3, -⟩, -⟩
    cases h; cases h2; cases h3

/-- The limits of a content stream are exact as well (C27). -/
theorem C27_limits_content (cs : List ContentCall) (pretty : Bool) (c : Content) (hr : runCalls cs (Content.withSettings pretty) = some c) :
    Exact c.finish.limits (cs.flatMap fun k => itemsFacts (operandsOf k)) := by
  have := runCalls_limits cs _ c [] hr exact_new
  have e : c.finish.limits = c.buf.limits := by unfold Content.finish; split <;> rfl
  rw [e]; simpa using this

/-! ## C30 -/

/-- The depth after an operation. -/
def depthStep (d : Nat) (o : ReadOp) : Nat := if o.1 = b!"q" then d + 1 else if o.1 = b!"Q" then d - 1 else d

/-- Calls that change the depth only through `save_state` and `restore_state`. -/
def NoRawSave : ContentCall → Prop
  | .op n _ => n ≠ b!"q" ∧ n ≠ b!"Q"
  | _ => True

theorem run_depth (k : ContentCall) (c c' : Content) (h : k.run c = some c') (hraw : NoRawSave k) (hd : c.qDepth < usizeMax) :
    c'.qDepth = depthStep c.qDepth (operatorOf k, itemsVal (operandsOf k)) := by
  have hop : ∀ n xs, (c.op n xs).qDepth = c.qDepth := fun n xs => rfl
  cases k with
  | op n xs =>
    simp only [ContentCall.run, Option.some.injEq] at h; subst h
    simp only [NoRawSave] at hraw
    simp [hop, depthStep, operatorOf, hraw.1, hraw.2]
  | saveState =>
    simp only [ContentCall.run, Option.some.injEq] at h; subst h
    show Min.min usizeMax (c.qDepth + 1) = c.qDepth + 1
    omega
  | restoreState =>
    simp only [ContentCall.run, Option.some.injEq] at h; subst h
    rfl
  | setLineWidth w =>
    simp only [ContentCall.run] at h
    split at h
    · simp only [Option.some.injEq] at h; subst h; rfl
    · simp at h
  | setFlatness w =>
    simp only [ContentCall.run] at h
    split at h
    · simp only [Option.some.injEq] at h; subst h; rfl
    · simp at h
  | _ => simp only [ContentCall.run, Option.some.injEq] at h; subst h; rfl

theorem depthStep_le (d : Nat) (o : ReadOp) : depthStep d o ≤ d + 1 := by unfold depthStep; split <;> (try split) <;> omega

theorem runCalls_depth (cs : List ContentCall) (c c' : Content) (h : runCalls cs c = some c') (hraw : ∀ k ∈ cs, NoRawSave k)
    (hd : c.qDepth + cs.length ≤ usizeMax) : c'.qDepth = (callOps cs).foldl depthStep c.qDepth := by
  induction cs generalizing c with
  | nil => simp only [runCalls, Option.some.injEq] at h; subst h; rfl
  | cons k cs ih =>
    simp only [runCalls] at h
    cases hk : k.run c with
    | none => simp [hk] at h
    | some c1 =>
      simp only [hk] at h
      simp only [List.length_cons] at hd
      have hs := run_depth k c c1 hk (hraw k (by simp)) (by omega)
      have hle := depthStep_le c.qDepth (operatorOf k, itemsVal (operandsOf k))
      rw [ih c1 h (fun k hk => hraw k (by simp [hk])) (by omega), hs]
      rfl

theorem countOp_cons (k : Bytes) (o : ReadOp) (os : List ReadOp) : countOp k (o :: os) = (if o.1 = k then 1 else 0) + countOp k os := by
  by_cases h : o.1 = k
  · simp [countOp, List.filter_cons, h]; omega
  · simp [countOp, List.filter_cons, h]

theorem depth_open (ops : List ReadOp) (d0 d : Nat) (h : ops.foldl depthStep d0 = d) :
    (∀ pre tail, ops = pre ++ tail → countOp b!"q" tail ≤ countOp b!"Q" tail + d) ∧
    d0 + countOp b!"q" ops ≤ countOp b!"Q" ops + d ∧
    ((∃ pre tail, ops = pre ++ tail ∧ countOp b!"q" tail = countOp b!"Q" tail + d) ∨ d0 + countOp b!"q" ops = countOp b!"Q" ops + d) := by
  induction ops generalizing d0 with
  | nil =>
    simp only [List.foldl_nil] at h
    subst h
    refine ⟨?_, by simp [countOp], Or.inr (by simp [countOp])⟩
    intro pre tail ht
    have : tail = [] := by
      have := congrArg List.length ht
      simp at this; exact List.length_eq_zero_iff.mp (by omega)
    subst this; simp [countOp]
  | cons o os ih =>
    simp only [List.foldl_cons] at h
    obtain ⟨h1, h2, h3⟩ := ih _ h
    have hq := countOp_cons b!"q" o os
    have hQ := countOp_cons b!"Q" o os
    have hne : ¬ ((b!"q" : Bytes) = b!"Q") := by decide
    have hwhole : d0 + countOp b!"q" (o :: os) ≤ countOp b!"Q" (o :: os) + d := by
      rw [hq, hQ]
      unfold depthStep at h2
      by_cases c1 : o.1 = b!"q"
      · have c2 : ¬ o.1 = b!"Q" := by rw [c1]; exact hne
        rw [if_pos c1] at h2; rw [if_pos c1, if_neg c2]; omega
      · by_cases c2 : o.1 = b!"Q"
        · rw [if_neg c1, if_pos c2] at h2; rw [if_neg c1, if_pos c2]; omega
        · rw [if_neg c1, if_neg c2] at h2; rw [if_neg c1, if_neg c2]; omega
    refine ⟨?_, hwhole, ?_⟩
    · intro pre tail ht
      cases pre with
      | nil => simp only [List.nil_append] at ht; rw [← ht]; omega
      | cons p pre =>
        simp only [List.cons_append, List.cons.injEq] at ht
        exact h1 pre tail ht.2
    · rcases h3 with ⟨pre, tail, e, ht⟩ | h3
      · exact Or.inl ⟨o :: pre, tail, by rw [e]; rfl, ht⟩
      · unfold depthStep at h3
        by_cases c1 : o.1 = b!"q"
        · have c2 : ¬ o.1 = b!"Q" := by rw [c1]; exact hne
          rw [if_pos c1] at h3; right; rw [hq, hQ, if_pos c1, if_neg c2]; omega
        · by_cases c2 : o.1 = b!"Q"
          · rw [if_neg c1, if_pos c2] at h3
            rcases Nat.eq_zero_or_pos d0 with hd | hd
            · left; exact ⟨[o], os, rfl, by omega⟩
            · right; rw [hq, hQ, if_neg c1, if_pos c2]; omega
          · rw [if_neg c1, if_neg c2] at h3; right; rw [hq, hQ, if_neg c1, if_neg c2]; omega

/-- C30. `state_nesting_depth` is the number of graphics states a reader of the finished stream has open at its end, for every
sequence of calls that uses `q` and `Q` only through `save_state` and `restore_state` (and has fewer than 2^64 calls). -/
theorem C30_nesting_depth (cs : List ContentCall) (pretty : Bool) (c : Content) (hr : runCalls cs (Content.withSettings pretty) = some c)
    (hok : ∀ k ∈ cs, CallOk k) (hc : pretty = true ∨ ∀ k ∈ cs, CallNoClash k) (hraw : ∀ k ∈ cs, NoRawSave k)
    (hlen : cs.length ≤ usizeMax) : ∃ ops, readContent c.finish.inner = some ops ∧ OpenStates ops c.qDepth := by
  obtain ⟨-, h2, E, e1, -, e3, e4⟩ := runCalls_reads cs _ c hr (Or.inl rfl) hok hc
  have e1 : c.buf.inner = E := e1
  refine ⟨callOps cs, by rw [content_finish_eq c h2, readContent, e1]; exact e4 _ (by omega), ?_⟩
  have hd := runCalls_depth cs _ c hr hraw (by simpa [Content.withSettings] using hlen)
  obtain ⟨g1, g2, g3⟩ := depth_open (callOps cs) 0 c.qDepth hd.symm
  refine ⟨g1, ?_⟩
  rcases g3 with g3 | g3
  · exact g3
  · exact ⟨[], callOps cs, rfl, by omega⟩

/-- C30. `OpenStates` is a function of the stream. -/
theorem C30_depth_unique (ops : List ReadOp) (d d' : Nat) (h : OpenStates ops d) (h' : OpenStates ops d') : d = d' := by
  obtain ⟨a, p, t, e, x⟩ := h
  obtain ⟨a', p', t', e', x'⟩ := h'
  have := a p' t' e'
  have := a' p t e
  omega

/-- C30. `finish` removes one trailing newline and nothing else; after complete operations there is none. -/
theorem C30_finish (c : Content) :
    c.finish.limits = c.buf.limits ∧
    (c.finish.inner ++ [10] = c.buf.inner ∨ (c.finish.inner = c.buf.inner ∧ c.buf.inner.getLast? ≠ some 10)) := by
  unfold Content.finish
  by_cases h : c.buf.last? = some 10
  · rw [if_pos h]
    refine ⟨rfl, Or.inl ?_⟩
    have hne : c.buf.inner ≠ [] := by intro he; simp [Buf.last?, he] at h
    have hl : c.buf.inner.getLast hne = 10 := by
      have := List.getLast?_eq_some_getLast hne
      rw [Buf.last?, this] at h
      simpa using h
    show c.buf.inner.dropLast ++ [10] = c.buf.inner
    rw [← hl, List.dropLast_concat_getLast]
  · rw [if_neg h]
    exact ⟨rfl, Or.inr ⟨rfl, h⟩⟩

/-! ## Cases -/

/-- A page: state, path, text, marked content. -/
def sampleCalls : List ContentCall :=
  [.saveState, .setLineWidth ⟨false, 1065353216⟩, .setDashPattern [⟨false, 1073741824⟩] F32.zero, .moveTo F32.zero ⟨true, 1065353216⟩, .stroke,
   .saveState, .beginText, .setFont b!"F1" ⟨false, 1094713344⟩, .showPositioned [.show b!"a(b", .adjust ⟨false, 1065353216⟩], .endText,
   .restoreState, .beginMarkedContentWithProperties b!"Span" (.dict [.identify 3, .kind .pagination]), .endMarkedContent]

example : (∀ k ∈ sampleCalls, CallOk k) ∧ (∀ k ∈ sampleCalls, CallNoClash k) ∧ (∀ k ∈ sampleCalls, NoRawSave k) := by
  refine ⟨?_, ?_, ?_⟩ <;>
  · simp only [sampleCalls, List.forall_mem_cons, List.not_mem_nil, false_implies, implies_true]
    simp [CallOk, CallNoClash, NoRawSave, operandsOf, OkItems, OkEntries, Ok, PrimOk, num, nam, NoClashItems, NoClashEntries, NoClash,
      isEmptyName, isBareToken, propEntry, F32.isFinite, F32.zero]
    try decide

example : (runCalls sampleCalls (Content.withSettings false)).map (fun c => (c.finish.inner, c.qDepth)) = some
    (b!"q 1 w[2]0 d 0 -1 m
S
q
BT/F1 12 Tf[(a\\(b)1]TJ
ET
Q/Span<</MCID 3/Type/Pagination>>BDC
EMC", 1) := by decide +kernel

example : (runCalls sampleCalls (Content.withSettings true)).map (fun c => (c.finish.inner, c.qDepth)) = some
    (b!"q
1 w
[2] 0 d
0 -1 m
S
q
BT
/F1 12 Tf
[(a\\(b) 1] TJ
ET
Q
/Span <<
  /MCID 3
  /Type /Pagination
>> BDC
EMC", 1) := by
  decide +kernel

/-- A negative or NaN line width and a flatness beyond 100 panic. -/
example : runCalls [.setLineWidth ⟨true, 1065353216⟩] (Content.withSettings true) = none ∧
    runCalls [.setLineWidth ⟨false, 2143289344⟩] (Content.withSettings true) = none ∧
    runCalls [.setFlatness 101] (Content.withSettings true) = none := by decide +kernel

end PdfW.Props
