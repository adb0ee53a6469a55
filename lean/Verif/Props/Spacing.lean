import Verif.Proof.Pretty

/-!
# Property C55: white space

Compact output spells its tokens with as little white space as possible; pretty output is laid out line by line.
-/

set_option linter.unusedSimpArgs false
set_option linter.unusedVariables false

namespace PdfW.Props
open PdfW PdfW.Spec

theorem compact_minimal (p : Prog) (hok : Ok p) (hc : NoClash p) (indent : Nat) (last : Option UInt8) :
    Minimal (enc false indent false last p) :=
  (tight_enc p hok hc indent false last false (fun _ => by rfl)).minimal (progLex_isLexeme p hok)

/-! ## Compact -/

/-- C55: in compact mode no byte of white space can be saved in an object: nothing shorter has the same tokens in the same
spelling. -/
theorem C55_compact_minimal (p : Prog) (hok : Ok p) (hc : NoClash p) (indent : Nat) (buf : Buf) :
    ∃ out, (p.run (Obj.direct indent false false) buf).inner = buf.inner ++ out ∧ Minimal out := by
  refine ⟨_, ?_, compact_minimal p hok hc indent buf.inner.getLast?⟩
  rw [run_eq]; simp [Obj.direct, tailBytes]

/-- C55: the same for an indirect object, between the line `id 0 obj` and the line `endobj`. -/
theorem C55_compact_object (c : Chunk) (hp : c.pretty = false) (id : Ref) (p : Prog) (hok : Ok p) (hc : NoClash p) :
    ∃ body, (c.writeIndirect id p).asBytes = c.asBytes ++ layoutObject id body ∧ Minimal body := by
  refine ⟨_, ?_, compact_minimal p hok hc 0 (some ch!"\n")⟩
  rw [writeIndirect_eq, hp]
  simp [Chunk.asBytes, itemBytes, started_val, used_of_ok p hok, headBytes, bodyBytes, endBytes, layoutObject, spell_eq, primBytes, Ref.get]

/-- C55: and for the dictionary of a stream. The lines `stream` and `endstream` follow, with the data between them. -/
theorem C55_compact_stream (c c' : Chunk) (hp : c.pretty = false) (id : Ref) (es : List (Bytes × Prog)) (data : Bytes)
    (hw : c.writeStream id es data = some c') (hok : OkEntries es) (hc : NoClashEntries es) :
    ∃ dict, c'.asBytes = c.asBytes ++ layoutObject id (layoutStream dict data) ∧ Minimal dict := by
  rw [writeStream_eq] at hw
  split at hw
  · simp only [Option.some.injEq] at hw
    subst hw
    have hm := compact_minimal (.dict (streamEntries es data)) (by simp [streamEntries, Ok, OkEntries, PrimOk, hok])
      (by simp [streamEntries, NoClash, NoClashEntries, hc]) 0 none
    refine ⟨_, ?_, hm⟩
    rw [hp]
    simp [Chunk.asBytes, itemBytes, started, headBytes, bodyBytes, endBytes, layoutObject, layoutStream, spell_eq, primBytes, Ref.get, enc,
      lineSep, saturatingAdd]
  · simp at hw

example : Minimal b!"<</A[1 2(x)/B 3 0 R]/C null>>" := by
  obtain ⟨out, h, hm⟩ := C55_compact_minimal (.dict [(b!"A", .array [.prim (.int 1), .prim (.int 2), .prim (.str b!"x"),
    .prim (.name b!"B"), .prim (.ref ⟨3, by decide, by decide⟩)]), (b!"C", .prim .null)])
    (by simp [Ok, OkEntries, OkItems, PrimOk]) (by simp [NoClash, NoClashEntries, NoClashItems, isEmptyName, isBareToken]) 0 Buf.new
  have : out = b!"<</A[1 2(x)/B 3 0 R]/C null>>" := by
    rw [show (Buf.new.inner ++ out) = out from rfl] at h
    rw [← h]; decide +kernel
  rw [← this]; exact hm

/-- White space in front does not matter to the tokens. -/
theorem lexemes_space {w : UInt8} (hw : isWhite w = true) {bs : Bytes} {ls : List Bytes} (h : Lexemes (w :: bs) ls) : Lexemes bs ls := by
  have hs : skipSpace false (w :: bs) = skipSpace false bs := by simp [skipSpace, hw]
  cases h with
  | nil h => exact .nil (by rw [← hs]; exact h)
  | cons h hl hr => exact .cons (by rw [← nextToken_white w bs hw]; exact h) (by rw [← hs]; exact hl) hr

/-- `Minimal` is not vacuous: one more space is too much. -/
theorem not_minimal_space {w : UInt8} (hw : isWhite w = true) (bs : Bytes) : ¬ Minimal (w :: bs) := by
  rintro ⟨ls, h1, h2⟩
  have := h2 bs (lexemes_space hw h1)
  simp only [List.length_cons] at this; omega

/-! ## Compact content streams -/

/-- Does the content stream start with an operand that is a bare token? -/
def startsBare : List ContentCall → Bool
  | [] => false
  | k :: _ => (operandsOf k).head?.any isBareToken

theorem opBytes_start (name : Bytes) (x : Prog) (xs : List Prog) (h : isBareToken x = true) :
    (opBytes false [] name (x :: xs)).head? = some ch!" " := by
  cases x with
  | prim p =>
    rw [bare_iff] at h
    simp only [opBytes, operandBytes, encItems, enc, padOf, itemSep, opSep]
    simp at h
    simp [h]
  | array _ => simp [isBareToken] at h
  | dict _ => simp [isBareToken] at h
  | unused => simp [isBareToken] at h

/-- C55: in compact mode no byte of white space can be saved in a content stream — except for one space at the very start,
which is written when the first operand is a bare token, although nothing precedes it. -/
theorem C55_compact_content (cs : List ContentCall) (c : Content) (hr : runCalls cs (Content.withSettings false) = some c)
    (hok : ∀ k ∈ cs, CallOk k) (hc : ∀ k ∈ cs, CallNoClash k) :
    ∃ core, c.finish.inner = (if startsBare cs then b!" " else []) ++ core ∧ Minimal core := by
  obtain ⟨-, h2, -⟩ := runCalls_reads cs _ c hr (Or.inl rfl) hok (Or.inr hc)
  rw [content_finish_eq c h2]
  cases cs with
  | nil =>
    simp only [runCalls, Option.some.injEq] at hr
    subst hr
    refine ⟨[], rfl, [], .nil rfl, by simp⟩
  | cons k cs =>
    simp only [runCalls] at hr
    cases hk : k.run (Content.withSettings false) with
    | none => simp [hk] at hr
    | some c1 =>
      simp only [hk] at hr
      obtain ⟨hp1, hbuf⟩ := call_eq _ c1 k hk
      have hok1 := hok k (by simp)
      have hn := operatorOk_of k hok1
      have hun := unused_not_mem (hok k (by simp)).1
      rw [op_eq _ _ _ hun] at hbuf
      have hin : c1.buf.inner = opBytes false [] (operatorOf k) (operandsOf k) := by rw [hbuf]; rfl
      have hne : c1.buf.inner ≠ [] := by rw [hin]; simp [opBytes, hn.1]
      have hb1 : BufOk c1.buf.inner := by
        rw [hin]; exact opBytes_last false [] _ _ hn
      obtain ⟨E, e1, e2⟩ := runCalls_tight cs c1 c hp1 hr hb1 hne (fun k hk => hok k (by simp [hk])) (fun k hk => hc k (by simp [hk]))
      have hlex : ∀ l ∈ callsLex (k :: cs), IsLexeme l := callsLex_isLexeme _ hok
      cases hx : operandsOf k with
      | nil =>
        refine ⟨c.buf.inner, by simp [startsBare, hx], ?_⟩
        have : Tight false (opBytes false [] (operatorOf k) (operandsOf k)) (opLex (operatorOf k) (operandsOf k)) := by
          rw [hx]; simp only [opBytes, operandBytes, encItems, dropSep, opLex, itemsLex]
          exact Tight.one (by rfl)
        refine Tight.minimal (ls := callsLex (k :: cs)) ?_ hlex
        rw [e1, hin]
        simp only [callsLex, List.flatMap_cons]
        refine Tight.append this ?_
        rw [opLex_lastOpen _ _ _ hn]; exact e2
      | cons x xs =>
        have hxok : Ok x := by have := hok1.1; rw [hx] at this; simp only [OkItems] at this; exact this.1
        have ht := tight_op [] (operatorOf k) (operandsOf k) hn hok1.1 (hc k (by simp)) (by rfl) (Or.inr (by simp [hx]))
        have htot : Tight true c.buf.inner (callsLex (k :: cs)) := by
          rw [e1, hin]
          simp only [callsLex, List.flatMap_cons]
          refine Tight.append ht ?_
          rw [opLex_lastOpen _ _ _ hn]; exact e2
        obtain ⟨l, ls, hl1, hl2⟩ := progLex_starts x hxok
        have hq : ∃ ms, callsLex (k :: cs) = l :: ms := by
          simp only [callsLex, List.flatMap_cons, opLex, hx, itemsLex, hl1]
          exact ⟨_, rfl⟩
        obtain ⟨ms, hq⟩ := hq
        rw [hq] at htot hlex
        obtain ⟨gap, core, hg1, hg2, hg3⟩ := htot.strip
        refine ⟨core, ?_, hg3.minimal hlex⟩
        rw [hl2] at hg2
        rw [hg1]
        simp only [startsBare, hx, List.head?_cons, Option.any_some]
        cases hbare : isBareToken x with
        | false => rw [hbare] at hg2; simp at hg2; simp [hg2]
        | true =>
          have hh := opBytes_start (operatorOf k) x xs hbare
          rw [← hx, ← hin] at hh
          rw [hbare] at hg2
          cases gap with
          | nil => simp at hg2
          | cons g gs =>
            have : gs = [] := by simpa using hg2
            subst this
            have hhead : c.buf.inner.head? = some ch!" " := by
              rw [e1]
              cases hcb : c1.buf.inner with
              | nil => exact absurd hcb hne
              | cons a as => rw [hcb] at hh; simpa using hh
            rw [hg1] at hhead
            simp at hhead
            simp [hhead]

/-- C55 (a defect): a compact content stream that starts with a bare operand is one byte longer than it needs to be. -/
theorem C55_leading_space (cs : List ContentCall) (c : Content) (hr : runCalls cs (Content.withSettings false) = some c)
    (hok : ∀ k ∈ cs, CallOk k) (hc : ∀ k ∈ cs, CallNoClash k) : Minimal c.finish.inner ↔ startsBare cs = false := by
  obtain ⟨core, h1, h2⟩ := C55_compact_content cs c hr hok hc
  rw [h1]
  cases hs : startsBare cs with
  | false => simpa using h2
  | true =>
    simp only [if_true, Bool.true_eq_false, iff_false]
    exact not_minimal_space (by decide) core

example : ((runCalls [.setFlatness 7, .saveState, .show b!"a", .restoreState] (Content.withSettings false)).map (·.finish.inner))
    = some b!" 7 i\nq(a)Tj\nQ" := by decide +kernel

/-! ## Pretty -/

/-- C55: the layout of an object in pretty mode, inside any number of dictionaries. -/
theorem C55_pretty_layout (p : Prog) (depth : Nat) (buf : Buf) :
    (p.run (Obj.direct (indentAt depth) true false) buf).inner = buf.inner ++ layout depth p := by
  rw [run_eq]; simp [Obj.direct, tailBytes, enc_layout]

/-- C55: the layout of an indirect object in pretty mode; an empty line follows. -/
theorem C55_pretty_object (c : Chunk) (hp : c.pretty = true) (id : Ref) (p : Prog) (hu : p ≠ .unused) :
    (c.writeIndirect id p).asBytes = c.asBytes ++ (layoutObject id (layout 0 p) ++ b!"\n") := by
  have := enc_layout p 0 (some ch!"\n")
  rw [show indentAt 0 = 0 from rfl] at this
  rw [writeIndirect_eq, hp]
  simp [Chunk.asBytes, itemBytes, started_val, (used_iff p).mpr hu, headBytes, bodyBytes, endBytes, layoutObject, spell_eq, primBytes, Ref.get, this]

/-- C55: the layout of a stream in pretty mode: the dictionary starts with the length of the data. -/
theorem C55_pretty_stream (c c' : Chunk) (hp : c.pretty = true) (id : Ref) (es : List (Bytes × Prog)) (data : Bytes)
    (hw : c.writeStream id es data = some c') :
    c'.asBytes = c.asBytes ++ (layoutObject id
      (layoutStream (layout 0 (.dict ((b!"Length", .prim (.int data.length)) :: es))) data) ++ b!"\n") := by
  rw [writeStream_eq] at hw
  split at hw
  · simp only [Option.some.injEq] at hw
    subst hw
    have h := enc_layout (.dict (streamEntries es data)) 0 none
    rw [show indentAt 0 = 0 from rfl] at h
    rw [show (Prog.dict ((b!"Length", .prim (.int data.length)) :: es)) = .dict (streamEntries es data) from rfl, ← h, hp]
    simp [Chunk.asBytes, itemBytes, started, headBytes, bodyBytes, endBytes, layoutObject, layoutStream, spell_eq, primBytes, Ref.get, enc,
      lineSep, saturatingAdd, streamEntries]
  · simp at hw

/-- C55: the layout of a content stream in pretty mode: one operation per line. -/
theorem C55_pretty_content (cs : List ContentCall) (c : Content) (hr : runCalls cs (Content.withSettings true) = some c)
    (hok : ∀ k ∈ cs, CallOk k) : c.finish.inner = layoutContent cs := by
  obtain ⟨-, h2, -⟩ := runCalls_reads cs _ c hr (Or.inl rfl) hok (Or.inl rfl)
  rw [content_finish_eq c h2]
  have := runCalls_layout cs _ c rfl hr (fun k hk => ⟨operatorOk_of k (hok k hk), unused_not_mem (hok k hk).1⟩)
  rw [this]
  simp [Content.withSettings, Buf.new]

example : layout 0 (.dict [(b!"A", .array [.prim (.int 1), .dict [], .prim (.name b!"B")]), (b!"C", .dict [(b!"D", .prim .null)])])
    = b!"<<\n  /A [1 <<>> /B]\n  /C <<\n    /D null\n  >>\n>>" := by decide +kernel
example : layoutContent [.saveState, .setFlatness 7, .show b!"a"] = b!"q\n7 i\n(a) Tj" := by decide +kernel

end PdfW.Props
