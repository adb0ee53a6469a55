import Verif.Proof.Content
import Verif.Spec.Minimal

/-! # Lemmas: compact output has no superfluous white space -/

set_option linter.unusedSimpArgs false
set_option linter.unusedVariables false

namespace PdfW
open Spec

/-! ## Lexemes and the white space needed between them -/

/-- The lexeme starts with a regular character. -/
def startsReg (l : Bytes) : Bool := l.head?.any isRegular

/-- The lexeme goes on as long as regular characters follow: a name or a run of regular characters. -/
def openEnd (l : Bytes) : Bool := l.head?.any (· == ch!"/") || startsReg l

/-- The least length of a spelling; `o` says whether an open lexeme precedes. -/
def cost : Bool → List Bytes → Nat
  | _, [] => 0
  | o, l :: ls => (if o && startsReg l then 1 else 0) + l.length + cost (openEnd l) ls

theorem dropWhile_sepOk (bs : Bytes) : sepOk (bs.dropWhile isRegular) = true := by
  induction bs with
  | nil => rfl
  | cons b bs ih =>
    simp only [List.dropWhile_cons]
    split
    · exact ih
    · rename_i h; simpa [sepOk] using h

theorem tokenAt_open (bs : Bytes) (t : Tok) (r l : Bytes) (h : tokenAt bs = some (t, r)) (hl : bs = l ++ r) (hne : l ≠ [])
    (ho : openEnd l = true) : sepOk r = true := by
  cases l with
  | nil => exact absurd rfl hne
  | cons b l =>
    subst hl
    simp only [openEnd, startsReg, List.head?_cons, Option.any_some] at ho
    have f : ∀ b : UInt8, (b == ch!"/" || isRegular b) = true → b ≠ ch!"(" ∧ b ≠ ch!"<" ∧ b ≠ ch!">" ∧ b ≠ ch!"[" ∧ b ≠ ch!"]" ∧
        b ≠ ch!"{" ∧ b ≠ ch!"}" ∧ b ≠ ch!")" := forall_byte (by decide +kernel)
    obtain ⟨h1, h2, h3, h4, h5, h6, h7, h8⟩ := f b ho
    simp only [tokenAt, List.cons_append, h1, h2, h3, h4, h5, h6, h7, h8, if_false] at h
    split at h
    · split at h
      · simp only [Option.some.injEq, Prod.mk.injEq] at h
        rw [← h.2]; exact dropWhile_sepOk _
      · simp at h
    · simp only [Option.some.injEq, Prod.mk.injEq] at h
      rw [← h.2]; exact dropWhile_sepOk _

/-- White space is needed after an open lexeme and before a regular character, so nothing is shorter than `cost`. -/
theorem Lexemes.lower {bs : Bytes} {ls : List Bytes} (h : Lexemes bs ls) (o : Bool) (ho : o = true → sepOk bs = true) :
    cost o ls ≤ bs.length := by
  induction h generalizing o with
  | nil h => simp [cost]
  | @cons bs l rest t ls h hl hs ih =>
    have hlt := tokenAt_length _ t rest h (skipSpace_head false bs)
    have hne : l ≠ [] := by
      rintro rfl
      rw [hl] at hlt; simp at hlt
    have h1 := ih (openEnd l) (fun ho => tokenAt_open _ t rest l h hl hne ho)
    have h2 := skipSpace_length false bs
    rw [hl, List.length_append] at h2
    simp only [cost]
    by_cases hc : (o && startsReg l) = true
    · simp only [Bool.and_eq_true] at hc
      have hsep := ho hc.1
      have hne' : skipSpace false bs ≠ bs := by
        intro he
        rw [he] at hl
        subst hl
        cases l with
        | nil => exact hne rfl
        | cons b l =>
          have : isRegular b = true := by simpa [startsReg] using hc.2
          simp [sepOk, this] at hsep
      have h3 : (skipSpace false bs).length < bs.length := by
        cases bs with
        | nil => exact absurd rfl hne'
        | cons b bs =>
          simp only [skipSpace] at hne' ⊢
          split
          · have := skipSpace_length false bs; simp only [List.length_cons]; omega
          · split
            · have := skipSpace_length true bs; simp only [List.length_cons]; omega
            · rename_i a1 a2; simp [a1, a2] at hne'
      rw [hl, List.length_append] at h3
      simp only [hc, Bool.and_self, if_true]; omega
    · simp only [hc, Bool.false_eq_true, if_false]; omega

/-- A spelling with as little white space as possible. -/
inductive Tight : Bool → Bytes → List Bytes → Prop
  | nil (o : Bool) : Tight o [] []
  | cons {o : Bool} {gap l rest : Bytes} {ls : List Bytes} (hg : gap.length = if o && startsReg l then 1 else 0)
      (hw : gap.all isWhite = true) (hs : Tight (openEnd l) rest ls) : Tight o (gap ++ (l ++ rest)) (l :: ls)

theorem Tight.length {o : Bool} {bs : Bytes} {ls : List Bytes} (h : Tight o bs ls) : bs.length = cost o ls := by
  induction h with
  | nil => rfl
  | cons hg hw hs ih => simp only [List.length_append, cost, hg, ih]; omega

/-- Is the last lexeme open? -/
def lastOpen (o : Bool) : List Bytes → Bool
  | [] => o
  | l :: ls => lastOpen (openEnd l) ls

theorem Tight.append {o : Bool} {a b : Bytes} {ls ms : List Bytes} (h1 : Tight o a ls) (h2 : Tight (lastOpen o ls) b ms) :
    Tight o (a ++ b) (ls ++ ms) := by
  induction h1 with
  | nil => exact h2
  | cons hg hw hs ih =>
    have := Tight.cons hg hw (ih h2)
    simpa [List.append_assoc] using this

/-- The lexeme is read as one token. -/
def IsLexeme (l : Bytes) : Prop :=
  (∃ b r, l = b :: r ∧ isWhite b = false ∧ b ≠ 37) ∧
  ∀ rest, (openEnd l = true → sepOk rest = true) → ∃ t, nextToken (l ++ rest) = some (t, rest)

theorem Tight.sep {bs : Bytes} {ls : List Bytes} (h : Tight true bs ls) (hl : ∀ l ∈ ls, IsLexeme l) : sepOk bs = true := by
  cases h with
  | nil => rfl
  | @cons _ gap l rest ls hg hw hs =>
    obtain ⟨⟨b, r, rfl, hb, -⟩, -⟩ := hl l (by simp)
    cases gap with
    | cons w gap => exact white_sepOk w _ (by simp at hw; exact hw.1)
    | nil =>
      simp only [startsReg, List.head?_cons, Option.any_some, Bool.true_and, List.length_nil] at hg
      cases hr : isRegular b with
      | true => simp [hr] at hg
      | false => simp [sepOk, hr]

theorem skipSpace_whites (ws bs : Bytes) (h : ws.all isWhite = true) : skipSpace false (ws ++ bs) = skipSpace false bs := by
  induction ws with
  | nil => rfl
  | cons w ws ih =>
    simp only [List.all_cons, Bool.and_eq_true] at h
    simp [skipSpace, h.1, ih h.2]

theorem Tight.lexemes {o : Bool} {bs : Bytes} {ls : List Bytes} (h : Tight o bs ls) (hl : ∀ l ∈ ls, IsLexeme l) : Lexemes bs ls := by
  induction h with
  | nil => exact .nil rfl
  | @cons o gap l rest ls hg hw hs ih =>
    have hl' := fun m hm => hl m (List.mem_cons_of_mem _ hm)
    obtain ⟨⟨b, r, rfl, hb, h37⟩, ht⟩ := hl l (by simp)
    obtain ⟨t, ht⟩ := ht rest (fun ho => Tight.sep (by rw [← ho]; exact hs) hl')
    refine .cons (t := t) (rest := rest) ?_ ?_ (ih hl')
    · rw [nextToken_whites _ _ hw]; exact ht
    · rw [skipSpace_whites _ _ hw]; simp [skipSpace, hb, h37]

theorem Tight.minimal {bs : Bytes} {ls : List Bytes} (h : Tight false bs ls) (hl : ∀ l ∈ ls, IsLexeme l) : Minimal bs :=
  ⟨ls, h.lexemes hl, fun other ho => by rw [h.length]; exact Lexemes.lower ho false (by simp)⟩

/-! ## The lexemes of trees -/

/-- The lexemes of a primitive. -/
def primLex : Prim → List Bytes
  | .ref r => [intBytes r.id, b!"0", b!"R"]
  | .rect r => [b!"[", r.x1.realBytes, r.y1.realBytes, r.x2.realBytes, r.y2.realBytes, b!"]"]
  | p => [primBytes p]

mutual
/-- The lexemes of a tree. -/
def progLex : Prog → List Bytes
  | .prim p => primLex p
  | .array items => b!"[" :: (itemsLex items ++ [b!"]"])
  | .dict entries => b!"<<" :: (entriesLex entries ++ [b!">>"])
  | .unused => []
termination_by structural p => p
def itemsLex : List Prog → List Bytes
  | [] => []
  | x :: xs => progLex x ++ itemsLex xs
termination_by structural p => p
def entriesLex : List (Bytes × Prog) → List Bytes
  | [] => []
  | (k, v) :: es => nameBytes k :: (progLex v ++ entriesLex es)
termination_by structural p => p
end

theorem run_isLexeme (run : Bytes) (h : run.all isRegular = true) (hne : run ≠ []) : IsLexeme run ∧ startsReg run = true := by
  have f : ∀ b : UInt8, isRegular b = true → isWhite b = false ∧ b ≠ 37 := forall_byte (by decide +kernel)
  cases run with
  | nil => exact absurd rfl hne
  | cons b r =>
    have hb : isRegular b = true := by simp only [List.all_cons, Bool.and_eq_true] at h; exact h.1
    have hs : startsReg (b :: r) = true := by simp [startsReg, hb]
    refine ⟨⟨⟨b, r, rfl, (f b hb).1, (f b hb).2⟩, fun rest hr => ⟨_, nextToken_run (b :: r) rest h (by simp) (hr ?_)⟩⟩, hs⟩
    simp [openEnd, hs]

theorem real_regular (v : F32) (hf : v.isFinite = true) : v.realBytes.all isRegular = true := by
  obtain ⟨h1, -⟩ := F32.realBytes_spells v hf
  rw [List.all_eq_true] at h1 ⊢
  intro b hb; exact F32.dec_regular b (h1 b hb)

theorem real_isLexeme (v : F32) (hf : v.isFinite = true) : IsLexeme v.realBytes ∧ startsReg v.realBytes = true :=
  run_isLexeme _ (real_regular v hf) (F32.realBytes_ne_nil v)

/-- A lexeme that starts with a delimiter and is read as one token. -/
theorem delim_isLexeme (l : Bytes) (t : Tok) (hd : ∃ b r, l = b :: r ∧ isDelim b = true ∧ b ≠ 37)
    (ht : ∀ rest, (openEnd l = true → sepOk rest = true) → tokenAt (l ++ rest) = some (t, rest)) : IsLexeme l ∧ startsReg l = false := by
  obtain ⟨b, r, rfl, hb, h37⟩ := hd
  have f : ∀ b : UInt8, isDelim b = true → isWhite b = false ∧ isRegular b = false := forall_byte (by decide +kernel)
  refine ⟨⟨⟨b, r, rfl, (f b hb).1, h37⟩, fun rest hr => ⟨t, ?_⟩⟩, by simp [startsReg, (f b hb).2]⟩
  rw [List.cons_append, nextToken_head b _ (f b hb).1 h37]
  exact ht rest hr

theorem str_isLexeme (s : Bytes) : IsLexeme (strBytes s) ∧ startsReg (strBytes s) = false :=
  delim_isLexeme _ _ (strBytes_head s) (fun rest _ => tokenAt_strBytes s rest)

theorem name_isLexeme (n : Bytes) : IsLexeme (nameBytes n) ∧ startsReg (nameBytes n) = false :=
  delim_isLexeme _ (.name n) ⟨_, _, rfl, by decide, by decide⟩ (fun rest hr => tokenAt_nameBytes n rest (hr rfl))

theorem bracket_isLexeme : IsLexeme b!"[" ∧ IsLexeme b!"]" ∧ IsLexeme b!"<<" ∧ IsLexeme b!">>" :=
  ⟨(delim_isLexeme _ .arrOpen ⟨_, _, rfl, by decide, by decide⟩ (fun _ _ => rfl)).1,
   (delim_isLexeme _ .arrClose ⟨_, _, rfl, by decide, by decide⟩ (fun _ _ => rfl)).1,
   (delim_isLexeme _ .dictOpen ⟨_, _, rfl, by decide, by decide⟩ (fun _ _ => rfl)).1,
   (delim_isLexeme _ .dictClose ⟨_, _, rfl, by decide, by decide⟩ (fun _ _ => rfl)).1⟩

theorem primLex_isLexeme (p : Prim) (hok : PrimOk p) : ∀ l ∈ primLex p, IsLexeme l := by
  cases p with
  | null => simp only [primLex, List.mem_singleton, forall_eq]; exact (run_isLexeme _ (by decide) (by decide)).1
  | bool v => simp only [primLex, List.mem_singleton, forall_eq]; cases v <;> exact (run_isLexeme _ (by decide) (by decide)).1
  | int v => simp only [primLex, List.mem_singleton, forall_eq]; exact (run_isLexeme _ (intBytes_regular v) (intBytes_ne_nil v)).1
  | real v => simp only [primLex, List.mem_singleton, forall_eq]; exact (real_isLexeme v hok).1
  | str s => simp only [primLex, List.mem_singleton, forall_eq]; exact (str_isLexeme s).1
  | textStr t =>
    simp only [primLex, List.mem_singleton, forall_eq]
    exact (delim_isLexeme _ _ (textBytes_head t) (fun rest _ => tokenAt_textBytes t rest)).1
  | textStrLang segs =>
    simp only [primLex, List.mem_singleton, forall_eq]
    exact (delim_isLexeme _ _ ⟨_, _, rfl, by decide, by decide⟩ (fun rest _ => tokenAt_langBytes segs rest)).1
  | name n => simp only [primLex, List.mem_singleton, forall_eq]; exact (name_isLexeme n).1
  | ref r =>
    simp only [primLex, List.mem_cons, List.not_mem_nil, or_false]
    rintro l (rfl | rfl | rfl)
    · exact (run_isLexeme _ (intBytes_regular _) (intBytes_ne_nil _)).1
    · exact (run_isLexeme _ (by decide) (by decide)).1
    · exact (run_isLexeme _ (by decide) (by decide)).1
  | rect r =>
    obtain ⟨o1, o2, o3, o4⟩ := hok
    simp only [primLex, List.mem_cons, List.not_mem_nil, or_false]
    rintro l (rfl | rfl | rfl | rfl | rfl | rfl)
    · exact bracket_isLexeme.1
    · exact (real_isLexeme _ o1).1
    · exact (real_isLexeme _ o2).1
    · exact (real_isLexeme _ o3).1
    · exact (real_isLexeme _ o4).1
    · exact bracket_isLexeme.2.1
  | date d =>
    simp only [primLex, List.mem_singleton, forall_eq]
    exact (delim_isLexeme _ _ ⟨_, _, rfl, by decide, by decide⟩ (fun rest _ => tokenAt_date d rest)).1

mutual
theorem progLex_isLexeme (p : Prog) (hok : Ok p) : ∀ l ∈ progLex p, IsLexeme l := by
  match p with
  | .prim p => exact primLex_isLexeme p (by simpa [Ok] using hok)
  | .array items =>
    intro l hl
    simp only [progLex, List.mem_cons, List.mem_append, List.not_mem_nil, or_false] at hl
    rcases hl with rfl | hl | rfl
    · exact bracket_isLexeme.1
    · exact itemsLex_isLexeme items (by simpa [Ok] using hok) l hl
    · exact bracket_isLexeme.2.1
  | .dict entries =>
    intro l hl
    simp only [progLex, List.mem_cons, List.mem_append, List.not_mem_nil, or_false] at hl
    rcases hl with rfl | hl | rfl
    · exact bracket_isLexeme.2.2.1
    · exact entriesLex_isLexeme entries (by simpa [Ok] using hok) l hl
    · exact bracket_isLexeme.2.2.2
termination_by structural p
theorem itemsLex_isLexeme (xs : List Prog) (hok : OkItems xs) : ∀ l ∈ itemsLex xs, IsLexeme l := by
  match xs with
  | [] => simp [itemsLex]
  | x :: xs =>
    simp only [OkItems] at hok
    intro l hl
    simp only [itemsLex, List.mem_append] at hl
    rcases hl with hl | hl
    · exact progLex_isLexeme x hok.1 l hl
    · exact itemsLex_isLexeme xs hok.2 l hl
termination_by structural xs
theorem entriesLex_isLexeme (es : List (Bytes × Prog)) (hok : OkEntries es) : ∀ l ∈ entriesLex es, IsLexeme l := by
  match es with
  | [] => simp [entriesLex]
  | (k, v) :: es =>
    simp only [OkEntries] at hok
    intro l hl
    simp only [entriesLex, List.mem_append, List.mem_cons] at hl
    rcases hl with rfl | hl | hl
    · exact (name_isLexeme k).1
    · exact progLex_isLexeme v hok.1 l hl
    · exact entriesLex_isLexeme es hok.2 l hl
termination_by structural es
end

/-! ## Compact output is tight -/

theorem openEnd_of_reg {l : Bytes} (h : startsReg l = true) : openEnd l = true := by simp [openEnd, h]

theorem Tight.one {o : Bool} {l : Bytes} (h : (o && startsReg l) = false) : Tight o l [l] := by
  have := Tight.cons (gap := []) (l := l) (rest := []) (o := o) (by simp [h]) rfl (.nil _)
  simpa using this

/-- Start without white space. -/
theorem Tight.next {o : Bool} {l rest : Bytes} {ls : List Bytes} (h : (o && startsReg l) = false) (hs : Tight (openEnd l) rest ls) :
    Tight o (l ++ rest) (l :: ls) := by
  have := Tight.cons (gap := []) (l := l) (o := o) (by simp [h]) rfl hs
  simpa using this

/-- Start with a space. -/
theorem Tight.space {l rest : Bytes} {ls : List Bytes} (h : startsReg l = true) (hs : Tight (openEnd l) rest ls) :
    Tight true (ch!" " :: (l ++ rest)) (l :: ls) := by
  have := Tight.cons (gap := b!" ") (l := l) (o := true) (by simp [h]) (by decide) hs
  simpa using this

theorem prim_tight (p : Prim) (hok : PrimOk p) : Tight false (primBytes p) (primLex p) := by
  cases p with
  | ref r =>
    simp only [primBytes, primLex]
    have hi := run_isLexeme _ (intBytes_regular r.id) (intBytes_ne_nil r.id)
    refine Tight.next (by rfl) ?_
    rw [openEnd_of_reg hi.2]
    exact Tight.space (l := b!"0") (by decide) (Tight.space (l := b!"R") (rest := []) (by decide) (.nil _))
  | rect r =>
    obtain ⟨o1, o2, o3, o4⟩ := hok
    simp only [primBytes, rectBytes, primLex]
    refine Tight.next (l := b!"[") (by rfl) (Tight.next (by rfl) ?_)
    rw [openEnd_of_reg (real_isLexeme _ o1).2]
    refine Tight.space (real_isLexeme _ o2).2 ?_
    rw [openEnd_of_reg (real_isLexeme _ o2).2]
    refine Tight.space (real_isLexeme _ o3).2 ?_
    rw [openEnd_of_reg (real_isLexeme _ o3).2]
    refine Tight.space (real_isLexeme _ o4).2 ?_
    exact Tight.one (by rw [show startsReg b!"]" = false from by decide]; simp)
  | _ => exact Tight.one (by rfl)

theorem prim_starts (p : Prim) (hok : PrimOk p) : ∃ l ls, primLex p = l :: ls ∧ startsReg l = !p.startsWithDelimiter := by
  cases p with
  | null => exact ⟨_, _, rfl, by decide⟩
  | bool v => cases v <;> exact ⟨_, _, rfl, by decide⟩
  | int v => exact ⟨_, _, rfl, (run_isLexeme _ (intBytes_regular v) (intBytes_ne_nil v)).2⟩
  | real v => exact ⟨_, _, rfl, (real_isLexeme v hok).2⟩
  | str s => exact ⟨_, _, rfl, (str_isLexeme s).2⟩
  | textStr t => exact ⟨_, _, rfl, (delim_isLexeme _ _ (textBytes_head t) (fun rest _ => tokenAt_textBytes t rest)).2⟩
  | textStrLang segs =>
    exact ⟨_, _, rfl, (delim_isLexeme _ _ ⟨_, _, rfl, by decide, by decide⟩ (fun rest _ => tokenAt_langBytes segs rest)).2⟩
  | name n => exact ⟨_, _, rfl, (name_isLexeme n).2⟩
  | ref r => exact ⟨_, _, rfl, (run_isLexeme _ (intBytes_regular r.id) (intBytes_ne_nil r.id)).2⟩
  | rect r => exact ⟨_, _, rfl, by rfl⟩
  | date d => exact ⟨_, _, rfl, (delim_isLexeme _ _ ⟨_, _, rfl, by decide, by decide⟩ (fun rest _ => tokenAt_date d rest)).2⟩

/-- A tight spelling after a lexeme that is not open, put after one that may be. -/
theorem Tight.after {o : Bool} {bs : Bytes} {l : Bytes} {ls : List Bytes} (h : Tight false bs (l :: ls)) :
    Tight o ((if o && startsReg l then b!" " else []) ++ bs) (l :: ls) := by
  generalize hq : l :: ls = q at h
  cases h with
  | nil => simp at hq
  | @cons _ gap l' rest ls' hg hw hs =>
    obtain ⟨rfl, rfl⟩ : l = l' ∧ ls = ls' := by simpa using hq
    have : gap = [] := by simpa using hg
    subst this
    refine Tight.cons ?_ ?_ hs
    · split <;> simp
    · split <;> decide

theorem lastOpen_append (o : Bool) (a b : List Bytes) : lastOpen o (a ++ b) = lastOpen (lastOpen o a) b := by
  induction a generalizing o with
  | nil => rfl
  | cons l ls ih => exact ih _

theorem progLex_lastOpen (o : Bool) (x : Prog) (hok : Ok x) : lastOpen o (progLex x) = progNeedsEnd x := by
  cases x with
  | array xs => simp only [progLex, lastOpen, lastOpen_append]; rfl
  | dict es => simp only [progLex, lastOpen, lastOpen_append]; rfl
  | unused => simp [Ok] at hok
  | prim p =>
    simp only [Ok] at hok
    obtain ⟨l, ls, h1, h2⟩ := prim_starts p hok
    cases p with
    | rect r => rfl
    | ref r => rfl
    | name n => rfl
    | textStr t =>
      obtain ⟨b, l, hb, hd, -⟩ := textBytes_head t
      simp only [progLex, primLex, lastOpen, progNeedsEnd, needsEnd, openEnd, startsReg, primBytes]
      unfold textBytes strBytes
      split
      · split <;> rfl
      · rfl
    | str s => simp only [progLex, primLex, lastOpen, progNeedsEnd, needsEnd, primBytes]; unfold strBytes; split <;> rfl
    | textStrLang segs => rfl
    | date d => rfl
    | _ =>
      simp only [primLex, List.cons.injEq] at h1
      simp only [progLex, primLex, lastOpen, progNeedsEnd, needsEnd]
      rw [h1.1]; exact openEnd_of_reg (by rw [h2]; rfl)

/-- What does not need white space after it ends with a delimiter. -/
theorem enc_closed (indent : Nat) (pad : Bool) (last : Option UInt8) (x : Prog) (hu : x.used = true) (he : progNeedsEnd x = false) :
    (enc false indent pad last x).getLast?.any isDelimiterCharacter = true := by
  cases x with
  | array xs =>
    simp only [enc]
    rw [← List.cons_append, getLast?_append_ne (by simp)]; decide
  | dict es =>
    simp only [enc]
    rw [← List.append_assoc, ← List.append_assoc, getLast?_append_ne (by simp)]; decide
  | unused => simp [Prog.used] at hu
  | prim p =>
    have hs : ∀ s : Bytes, (strBytes s).getLast?.any isDelimiterCharacter = true := by
      intro s; unfold strBytes; split
      · rw [← List.cons_append, getLast?_append_ne (by simp)]; decide
      · rw [← List.cons_append, getLast?_append_ne (by simp)]; decide
    simp only [enc]
    rw [getLast?_append_ne (primBytes_ne_nil p)]
    cases p with
    | str s => exact hs s
    | textStr t =>
      simp only [primBytes]; unfold textBytes; split
      · exact hs _
      · rw [← List.cons_append, getLast?_append_ne (by simp)]; decide
    | textStrLang segs =>
      simp only [primBytes]; unfold langBytes
      rw [← List.cons_append, getLast?_append_ne (by simp)]; decide
    | rect r =>
      simp only [primBytes, rectBytes, ← List.cons_append, ← List.append_assoc]
      rw [getLast?_append_ne (by simp)]; decide
    | date d =>
      simp only [primBytes]
      rw [← List.cons_append, getLast?_append_ne (by simp)]; decide
    | _ => simp [progNeedsEnd, needsEnd] at he

theorem NoClashItems_head {x : Prog} {xs : List Prog} (h : NoClashItems (x :: xs)) :
    ∀ y ∈ xs.head?, isBareToken y = true → isEmptyName x = false := by
  simp only [NoClashItems] at h
  intro y hy hb
  cases he : isEmptyName x with
  | false => rfl
  | true => have := h.2.1 he y hy; simp [hb] at this

/-- The state after an object agrees with the last byte when that matters. -/
theorem after_state (indent : Nat) (pad : Bool) (last : Option UInt8) (o : Bool) (x : Prog) (hok : Ok x) (he : isEmptyName x = false) :
    lastOpen o (progLex x) = !((enc false indent pad last x).getLast?.any isDelimiterCharacter) := by
  rw [progLex_lastOpen o x hok]
  cases hn : progNeedsEnd x with
  | true => rw [enc_last false indent pad last x hok hn he]; rfl
  | false => rw [enc_closed indent pad last x (used_of_ok x hok) hn]; rfl

mutual
theorem tight_enc (p : Prog) (hok : Ok p) (hc : NoClash p) (indent : Nat) (pad : Bool) (last : Option UInt8) (o : Bool)
    (ho : isBareToken p = true → o = (pad && !last.any isDelimiterCharacter)) :
    Tight o (enc false indent pad last p) (progLex p) := by
  match p with
  | .prim p =>
    simp only [Ok] at hok
    obtain ⟨l, ls, h1, h2⟩ := prim_starts p hok
    have ht := prim_tight p hok
    simp only [enc, progLex]
    rw [h1] at ht ⊢
    have := ht.after (o := o)
    rw [h2] at this
    rw [bare_iff] at ho
    unfold padOf
    cases hd : p.startsWithDelimiter with
    | true => simpa [hd] using this
    | false =>
      rw [hd] at ho
      have ho' := ho rfl
      rw [hd] at this
      simp only [Bool.not_false, Bool.and_true] at this ⊢
      rw [← ho']; exact this
  | .array items =>
    have hi := tight_items items (by simpa [Ok] using hok) (by simpa [NoClash] using hc) indent true (some ch!"[") false
      (fun x _ _ => by rfl)
    simp only [enc, progLex]
    refine Tight.next (l := b!"[") (by rw [show startsReg b!"[" = false from by decide]; simp) ?_
    refine Tight.append hi (Tight.one ?_)
    rw [show startsReg b!"]" = false from by decide]; simp
  | .dict entries =>
    have hi := tight_entries entries (by simpa [Ok] using hok) (by simpa [NoClash] using hc) (saturatingAdd indent 2) false
    simp only [enc, progLex, Bool.and_false]
    refine Tight.next (l := b!"<<") (by rw [show startsReg b!"<<" = false from by decide]; simp) ?_
    refine Tight.append hi ?_
    refine Tight.one (l := b!">>") ?_
    rw [show startsReg b!">>" = false from by decide]; simp
termination_by structural p
theorem tight_items (xs : List Prog) (hok : OkItems xs) (hc : NoClashItems xs) (indent : Nat) (first : Bool) (last : Option UInt8)
    (o : Bool) (ho : ∀ x ∈ xs.head?, isBareToken x = true → o = (!first && !last.any isDelimiterCharacter)) :
    Tight o (encItems false indent first last xs) (itemsLex xs) := by
  match xs with
  | [] => exact .nil o
  | x :: xs =>
    have hc2 := NoClashItems_head hc
    simp only [OkItems] at hok
    simp only [NoClashItems] at hc
    have hx := tight_enc x hok.1 hc.1 indent (!first && !false) last o (by simpa using ho x (by simp))
    have hi := tight_items xs hok.2 hc.2.2 indent false
      ((itemSep false first ++ enc false indent (!first && !false) last x).getLast?.or last) (lastOpen o (progLex x)) (by
        intro y hy hb
        rw [last_or x (used_of_ok x hok.1)]
        rw [after_state indent (!first && !false) last o x hok.1 (hc2 y hy hb)]
        simp [itemSep])
    simp only [encItems, itemsLex]
    refine Tight.append ?_ hi
    simpa [itemSep] using hx
termination_by structural xs
theorem tight_entries (es : List (Bytes × Prog)) (hok : OkEntries es) (hc : NoClashEntries es) (indent : Nat) (o : Bool) :
    Tight o (encEntries false indent es) (entriesLex es) := by
  match es with
  | [] => exact .nil o
  | (k, v) :: es =>
    simp only [OkEntries] at hok
    simp only [NoClashEntries] at hc
    have hi := tight_entries es hok.2 hc.2.2 indent (lastOpen true (progLex v))
    have hv := tight_enc v hok.1 hc.2.1 indent (!false) (nameBytes k).getLast? true (by
      intro hb
      have : k ≠ [] := by
        intro hk; have := hc.1 hk; simp [hb] at this
      have := prim_last (.name k) trivial rfl (by simpa using this)
      simp only [primBytes] at this
      simp [this])
    simp only [encEntries, entriesLex, lineSep, keySep, Bool.false_eq_true, if_false, List.nil_append]
    exact Tight.next (by rw [(name_isLexeme k).2]; simp) (Tight.append hv hi)
termination_by structural es
end

end PdfW
