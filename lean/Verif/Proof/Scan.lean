import Verif.Proof.Enc

/-! # Lemmas: spelled trees are scanned to tokens and read back as values -/

set_option linter.unusedSimpArgs false
set_option linter.unusedVariables false

namespace PdfW
open Spec

/-! ## Every token consumes input -/

theorem skipSpace_length (c : Bool) (bs : Bytes) : (skipSpace c bs).length ≤ bs.length := by
  induction bs generalizing c with
  | nil => cases c <;> simp [skipSpace]
  | cons b bs ih =>
    cases c <;> simp only [skipSpace]
    · split
      · have := ih false; simp only [List.length_cons]; omega
      · split
        · have := ih true; simp only [List.length_cons]; omega
        · simp
    · split
      · have := ih false; simp only [List.length_cons]; omega
      · have := ih true; simp only [List.length_cons]; omega

theorem consFst_some {b : UInt8} {o : Option (Bytes × Bytes)} {s r : Bytes} (h : consFst b o = some (s, r)) :
    ∃ s', o = some (s', r) := by
  cases o with
  | none => simp [consFst] at h
  | some p => obtain ⟨a, c⟩ := p; simp [consFst] at h; exact ⟨a, by rw [h.2]⟩

theorem readLit_length (d : Nat) (bs s r : Bytes) (h : readLit d bs = some (s, r)) : r.length < bs.length := by
  fun_induction readLit d bs generalizing s <;>
    first
    | (simp at h; done)
    | (simp at h; obtain ⟨_, rfl⟩ := h; simp; done)
    | (rename_i ih; have h2 := ih _ h; simp only [List.length_cons] at *; omega)
    | (rename_i ih; obtain ⟨s', h'⟩ := consFst_some h; have := ih _ h'; simp only [List.length_cons] at *; omega)

theorem readHexDigits_length (bs s r : Bytes) (h : readHexDigits bs = some (s, r)) : r.length < bs.length := by
  induction bs generalizing s with
  | nil => simp [readHexDigits] at h
  | cons b bs ih =>
    simp only [readHexDigits] at h
    split at h
    · simp at h; obtain ⟨_, rfl⟩ := h; simp
    · split at h
      · have := ih s h; simp only [List.length_cons]; omega
      · split at h
        · obtain ⟨s', h'⟩ := consFst_some h
          have := ih s' h'; simp only [List.length_cons]; omega
        · simp at h

theorem dropWhile_length (p : UInt8 → Bool) (bs : Bytes) : (bs.dropWhile p).length ≤ bs.length :=
  (List.dropWhile_suffix p).sublist.length_le

theorem tokenAt_length (bs : Bytes) (t : Tok) (r : Bytes) (h : tokenAt bs = some (t, r))
    (hw : ∀ b l, bs = b :: l → isWhite b = false ∧ b ≠ 37) : r.length < bs.length := by
  unfold tokenAt at h
  cases bs with
  | nil => simp at h
  | cons b bs =>
    simp only at h
    split at h
    · split at h
      · rename_i s r' he
        simp only [Option.some.injEq, Prod.mk.injEq] at h
        rw [← h.2]
        have := readLit_length _ bs _ _ he
        simp only [List.length_cons]; omega
      · simp at h
    split at h
    · split at h
      · simp at h
      · split at h
        · simp only [Option.some.injEq, Prod.mk.injEq] at h
          rw [← h.2]; simp only [List.length_cons]; omega
        · split at h
          · rename_i c r' _ s r'' he
            simp only [Option.some.injEq, Prod.mk.injEq] at h
            rw [← h.2]
            unfold readHex at he
            split at he
            · rename_i hd
              simp only [Option.some.injEq, Prod.mk.injEq] at he
              have := readHexDigits_length _ _ _ hd
              rw [← he.2]; simp only [List.length_cons] at *; omega
            · simp at he
          · simp at h
    split at h
    · split at h
      · simp at h
      · split at h
        · simp only [Option.some.injEq, Prod.mk.injEq] at h
          rw [← h.2]; simp only [List.length_cons]; omega
        · simp at h
    split at h
    · simp only [Option.some.injEq, Prod.mk.injEq] at h; rw [← h.2]; simp
    split at h
    · simp only [Option.some.injEq, Prod.mk.injEq] at h; rw [← h.2]; simp
    split at h
    · simp only [Option.some.injEq, Prod.mk.injEq] at h; rw [← h.2]; simp
    split at h
    · simp only [Option.some.injEq, Prod.mk.injEq] at h; rw [← h.2]; simp
    split at h
    · split at h
      · simp only [Option.some.injEq, Prod.mk.injEq] at h
        rw [← h.2]
        have := dropWhile_length isRegular bs
        simp only [List.length_cons]; omega
      · simp at h
    split at h
    · simp at h
    · rename_i h1 h2 h3 h4 h5 h6 h7 h8 h9
      simp only [Option.some.injEq, Prod.mk.injEq] at h
      rw [← h.2]
      obtain ⟨w1, w2⟩ := hw b bs rfl
      have hreg : isRegular b = true := by
        simp only [isRegular, w1, isDelim]
        simp [h1, h2, h3, h4, h5, h6, h7, h8, h9, w2]
      rw [List.dropWhile_cons_of_pos hreg]
      have := dropWhile_length isRegular bs
      simp only [List.length_cons]; omega

theorem skipSpace_head (c : Bool) (bs : Bytes) (b : UInt8) (l : Bytes) (h : skipSpace c bs = b :: l) :
    isWhite b = false ∧ b ≠ 37 := by
  induction bs generalizing c with
  | nil => cases c <;> simp [skipSpace] at h
  | cons x bs ih =>
    cases c <;> simp only [skipSpace] at h
    · split at h
      · exact ih _ h
      · split at h
        · exact ih _ h
        · rename_i h1 h2
          simp only [List.cons.injEq] at h
          rw [← h.1]
          exact ⟨by simpa using h1, h2⟩
    · split at h
      · exact ih _ h
      · exact ih _ h

theorem nextToken_length (bs : Bytes) (t : Tok) (r : Bytes) (h : nextToken bs = some (t, r)) : r.length < bs.length := by
  have h1 := tokenAt_length _ t r h (skipSpace_head false bs)
  have h2 := skipSpace_length false bs
  omega

/-! ## Scanning -/

/-- `bs` starts with the tokens `ts`, followed by `rest`. -/
inductive Scan : Bytes → List Tok → Bytes → Prop
  | nil (bs : Bytes) : Scan bs [] bs
  | cons {bs r rest : Bytes} {t : Tok} {ts : List Tok} (h : nextToken bs = some (t, r)) (hs : Scan r ts rest) :
      Scan bs (t :: ts) rest

theorem Scan.append {a b c : Bytes} {s t : List Tok} (h1 : Scan a s b) (h2 : Scan b t c) : Scan a (s ++ t) c := by
  induction h1 with
  | nil => exact h2
  | cons h _ ih => exact .cons h (ih h2)

theorem Scan.single {bs r : Bytes} {t : Tok} (h : nextToken bs = some (t, r)) : Scan bs [t] r := .cons h (.nil r)

theorem Scan.length {a b : Bytes} {s : List Tok} (h : Scan a s b) : s.length + b.length ≤ a.length := by
  induction h with
  | nil => simp
  | cons h _ ih =>
    have := nextToken_length _ _ _ h
    simp only [List.length_cons]; omega

theorem nextToken_white (w : UInt8) (bs : Bytes) (h : isWhite w = true) : nextToken (w :: bs) = nextToken bs := by
  simp [nextToken, skipSpace, h]

theorem Scan.white {w : UInt8} {bs rest : Bytes} {ts : List Tok} (hw : isWhite w = true) (hne : ts ≠ [])
    (h : Scan bs ts rest) : Scan (w :: bs) ts rest := by
  cases h with
  | nil => simp at hne
  | cons h hs => exact .cons (by rw [nextToken_white _ _ hw]; exact h) hs

theorem Scan.whites {ws bs rest : Bytes} {ts : List Tok} (hw : ws.all isWhite = true) (hne : ts ≠ [])
    (h : Scan bs ts rest) : Scan (ws ++ bs) ts rest := by
  induction ws with
  | nil => exact h
  | cons w ws ih =>
    simp only [List.all_cons, Bool.and_eq_true] at hw
    exact Scan.white hw.1 hne (ih hw.2)

theorem nextToken_head (b : UInt8) (l : Bytes) (h1 : isWhite b = false) (h2 : b ≠ 37) :
    nextToken (b :: l) = tokenAt (b :: l) := by
  simp [nextToken, skipSpace, h1, h2]

theorem nextToken_run (run rest : Bytes) (hreg : run.all isRegular = true) (hne : run ≠ []) (hr : sepOk rest = true) :
    nextToken (run ++ rest) = some (readRun run, rest) := by
  rw [← tokenAt_run run rest hreg hne hr]
  cases run with
  | nil => simp at hne
  | cons b r =>
    have hb : isRegular b = true := by simp at hreg; exact hreg.1
    have f : ∀ b : UInt8, isRegular b = true → isWhite b = false ∧ b ≠ 37 := forall_byte (by decide +kernel)
    exact nextToken_head b _ (f b hb).1 (f b hb).2

/-! ## Tokens of trees -/

/-- Tokens of a primitive. -/
def primToks : Prim → List Tok
  | .null => [.kw kwNull]
  | .bool v => [.kw (if v then kwTrue else kwFalse)]
  | .int v => [.int v]
  | .real v => [readRun v.realBytes]
  | .str s => [.str s]
  | .textStr t => [.str (textContent t)]
  | .textStrLang segs => [.str (langContent segs)]
  | .name n => [.name n]
  | .ref r => [.int r.id, .int 0, .kw kwR]
  | .rect r => [.arrOpen, readRun r.x1.realBytes, readRun r.y1.realBytes, readRun r.x2.realBytes, readRun r.y2.realBytes, .arrClose]
  | .date d => [.str (dateContent d)]

mutual
/-- Tokens of an object. -/
def progToks : Prog → List Tok
  | .prim p => primToks p
  | .array items => .arrOpen :: (itemsToks items ++ [.arrClose])
  | .dict entries => .dictOpen :: (entriesToks entries ++ [.dictClose])
  | .unused => []
termination_by structural p => p
def itemsToks : List Prog → List Tok
  | [] => []
  | x :: xs => progToks x ++ itemsToks xs
termination_by structural p => p
def entriesToks : List (Bytes × Prog) → List Tok
  | [] => []
  | (k, v) :: es => .name k :: (progToks v ++ entriesToks es)
termination_by structural p => p
end

/-- Does the spelling end with a regular character or a bare slash, so that a boundary is needed after it? -/
def needsEnd : Prim → Bool
  | .null | .bool _ | .int _ | .real _ | .name _ | .ref _ => true
  | _ => false

def progNeedsEnd : Prog → Bool
  | .prim p => needsEnd p
  | _ => false

theorem realBytes_scan (v : F32) (hf : v.isFinite = true) (rest : Bytes) (hr : sepOk rest = true) :
    Scan (v.realBytes ++ rest) [readRun v.realBytes] rest := by
  obtain ⟨h1, h2, -⟩ := F32.realBytes_spells v hf
  apply Scan.single
  apply nextToken_run _ _ _ h2 hr
  rw [List.all_eq_true] at h1 ⊢
  intro b hb; exact F32.dec_regular b (h1 b hb)

theorem intBytes_scan (i : Int) (rest : Bytes) (hr : sepOk rest = true) : Scan (intBytes i ++ rest) [.int i] rest := by
  apply Scan.single
  rw [nextToken_run _ _ (intBytes_regular i) (intBytes_ne_nil i) hr, readRun, readNumber_intBytes]

theorem kw_scan (k rest : Bytes) (hk : k.all isRegular = true) (hne : k ≠ []) (hn : readNumber k = none) (hr : sepOk rest = true) :
    Scan (k ++ rest) [.kw k] rest := by
  apply Scan.single
  rw [nextToken_run _ _ hk hne hr, readRun, hn]

theorem white_sepOk (w : UInt8) (r : Bytes) (h : isWhite w = true) : sepOk (w :: r) = true := by
  simp [sepOk, isRegular, h]

theorem delim_head (bs : Bytes) (t : Tok) (r : Bytes) (h : tokenAt bs = some (t, r))
    (hd : ∃ b l, bs = b :: l ∧ isDelim b = true ∧ b ≠ 37) : Scan bs [t] r := by
  obtain ⟨b, l, rfl, hb, h37⟩ := hd
  have f : ∀ b : UInt8, isDelim b = true → isWhite b = false := forall_byte (by decide +kernel)
  exact Scan.single (by rw [nextToken_head b l (f b hb) h37]; exact h)

theorem strBytes_head (s : Bytes) : ∃ b l, strBytes s = b :: l ∧ isDelim b = true ∧ b ≠ 37 := by
  unfold strBytes; split
  · exact ⟨_, _, rfl, by decide, by decide⟩
  · exact ⟨_, _, rfl, by decide, by decide⟩

theorem textBytes_head (t : List Char) : ∃ b l, textBytes t = b :: l ∧ isDelim b = true ∧ b ≠ 37 := by
  unfold textBytes; split
  · exact strBytes_head _
  · exact ⟨_, _, rfl, by decide, by decide⟩

theorem append_head {bs rest : Bytes} (h : ∃ b l, bs = b :: l ∧ isDelim b = true ∧ b ≠ 37) :
    ∃ b l, bs ++ rest = b :: l ∧ isDelim b = true ∧ b ≠ 37 := by
  obtain ⟨b, l, rfl, hb⟩ := h
  exact ⟨b, l ++ rest, rfl, hb⟩

theorem scan_prim (p : Prim) (hok : PrimOk p) (rest : Bytes) (hr : needsEnd p = true → sepOk rest = true) :
    Scan (primBytes p ++ rest) (primToks p) rest := by
  cases p with
  | null => exact kw_scan b!"null" rest (by decide) (by decide) (by decide) (hr rfl)
  | bool v =>
    cases v
    · exact kw_scan b!"false" rest (by decide) (by decide) (by decide) (hr rfl)
    · exact kw_scan b!"true" rest (by decide) (by decide) (by decide) (hr rfl)
  | int v => exact intBytes_scan v rest (hr rfl)
  | real v => exact realBytes_scan v hok rest (hr rfl)
  | str s => exact delim_head _ _ _ (tokenAt_strBytes s rest) (append_head (strBytes_head s))
  | textStr t => exact delim_head _ _ _ (tokenAt_textBytes t rest) (append_head (textBytes_head t))
  | textStrLang segs =>
    exact delim_head _ _ _ (tokenAt_langBytes segs rest) ⟨_, _, rfl, by decide, by decide⟩
  | name n => exact delim_head _ _ _ (tokenAt_nameBytes n rest (hr rfl)) ⟨_, _, rfl, by decide, by decide⟩
  | ref r =>
    simp only [primBytes, primToks, List.append_assoc]
    have h3 : Scan (b!"R" ++ rest) [.kw kwR] rest := kw_scan b!"R" rest (by decide) (by decide) (by decide) (hr rfl)
    have h2 : Scan (intBytes 0 ++ (b!" " ++ (b!"R" ++ rest))) [.int 0, .kw kwR] rest :=
      (intBytes_scan 0 _ (by rfl)).append (Scan.white (by decide) (by simp) h3)
    exact (intBytes_scan r.id _ (by rfl)).append (Scan.white (by decide) (by simp) h2)
  | rect r =>
    obtain ⟨o1, o2, o3, o4⟩ := hok
    simp only [primBytes, primToks, rectBytes, List.cons_append, List.append_assoc, List.nil_append]
    have h5 : Scan (ch!"]" :: rest) [.arrClose] rest := Scan.single (by rw [nextToken_head _ _ (by decide) (by decide)]; rfl)
    have h4 := (realBytes_scan r.y2 o4 (ch!"]" :: rest) (by rfl)).append h5
    have h3 := (realBytes_scan r.x2 o3 _ (by exact white_sepOk 32 _ (by decide))).append (Scan.white (w := 32) (by decide) (by simp) h4)
    have h2 := (realBytes_scan r.y1 o2 _ (by exact white_sepOk 32 _ (by decide))).append (Scan.white (w := 32) (by decide) (by simp) h3)
    have h1 := (realBytes_scan r.x1 o1 _ (by exact white_sepOk 32 _ (by decide))).append (Scan.white (w := 32) (by decide) (by simp) h2)
    exact Scan.cons (by rw [nextToken_head _ _ (by decide) (by decide)]; rfl) h1
  | date d => exact delim_head _ _ _ (tokenAt_date d rest) ⟨_, _, rfl, by decide, by decide⟩

theorem primToks_ne_nil (p : Prim) : primToks p ≠ [] := by cases p <;> simp [primToks]
theorem progToks_ne_nil (p : Prog) (hok : Ok p) : progToks p ≠ [] := by
  cases p <;> simp [progToks, primToks_ne_nil, Ok] at hok ⊢

/-! ## Boundaries -/

theorem regular_not_delimiter : ∀ b : UInt8, isRegular b = true → isDelimiterCharacter b = false :=
  forall_byte (by decide +kernel)

theorem last_regular (xs : Bytes) (h : xs.all isRegular = true) : xs.getLast?.any isDelimiterCharacter = false := by
  cases hl : xs.getLast? with
  | none => rfl
  | some b =>
    have := List.mem_of_getLast? hl
    rw [List.all_eq_true] at h
    exact regular_not_delimiter b (h b this)

theorem prim_last (p : Prim) (hok : PrimOk p) (he : needsEnd p = true) (hn : p ≠ .name []) :
    (primBytes p).getLast?.any isDelimiterCharacter = false := by
  cases p with
  | null => decide
  | bool v => cases v <;> decide
  | int v => exact last_regular _ (intBytes_regular v)
  | real v =>
    apply last_regular
    obtain ⟨h1, -⟩ := F32.realBytes_spells v hok
    rw [List.all_eq_true] at h1 ⊢
    intro b hb; exact F32.dec_regular b (h1 b hb)
  | name n =>
    cases n with
    | nil => simp at hn
    | cons b n =>
      have hr := nameBytes_regular (b :: n)
      have hne : (b :: n).flatMap nameByte ≠ [] := by
        rcases (nameByte_facts b).2 with ⟨-, h⟩ | h <;> simp [h]
      simp only [primBytes, nameBytes]
      rw [← List.singleton_append, getLast?_append_ne hne]
      exact last_regular _ hr
  | ref r =>
    simp only [primBytes]
    rw [getLast?_append_ne (by simp)]
    decide
  | _ => simp [needsEnd] at he

theorem prim_head (p : Prim) (h : p.startsWithDelimiter = true) (rest : Bytes) : sepOk (primBytes p ++ rest) = true := by
  have f : ∀ b : UInt8, isDelim b = true → isRegular b = false := forall_byte (by decide +kernel)
  have g : ∀ bs : Bytes, (∃ b l, bs = b :: l ∧ isDelim b = true ∧ b ≠ 37) → sepOk (bs ++ rest) = true := by
    rintro _ ⟨b, l, rfl, hb, -⟩
    simp [sepOk, f b hb]
  cases p with
  | str s => exact g _ (strBytes_head s)
  | textStr t => exact g _ (textBytes_head t)
  | textStrLang segs => exact g _ ⟨_, _, rfl, by decide, by decide⟩
  | name n => exact g _ ⟨_, _, rfl, by decide, by decide⟩
  | rect r => exact g _ ⟨_, _, rfl, by decide, by decide⟩
  | date d => exact g _ ⟨_, _, rfl, by decide, by decide⟩
  | _ => simp [Prim.startsWithDelimiter] at h

theorem bare_iff (p : Prim) : isBareToken (.prim p) = !p.startsWithDelimiter := by
  cases p <;> rfl

/-- A padded compact object starts with a boundary. -/
theorem enc_head (indent : Nat) (last : Option UInt8) (x : Prog) (hu : x.used = true) (rest : Bytes)
    (h : isBareToken x = true → last.any isDelimiterCharacter = false) :
    sepOk (enc false indent true last x ++ rest) = true := by
  cases x with
  | prim p =>
    simp only [enc, padOf, List.append_assoc]
    cases hd : p.startsWithDelimiter
    · have := h (by rw [bare_iff, hd]; rfl)
      simp [this, sepOk]; decide
    · simp only [Bool.not_true, Bool.and_false, Bool.false_and, Bool.false_eq_true, if_false, List.nil_append]
      exact prim_head p hd rest
  | array xs => rfl
  | dict es => rfl
  | unused => simp [Prog.used] at hu

theorem enc_last (pretty : Bool) (indent : Nat) (pad : Bool) (last : Option UInt8) (x : Prog) (hok : Ok x)
    (he : progNeedsEnd x = true) (hn : isEmptyName x = false) :
    (enc pretty indent pad last x).getLast?.any isDelimiterCharacter = false := by
  cases x with
  | prim p =>
    simp only [enc]
    rw [getLast?_append_ne (primBytes_ne_nil p)]
    refine prim_last p (by simpa [Ok] using hok) he ?_
    rintro rfl
    simp [isEmptyName] at hn
  | array xs => simp [progNeedsEnd] at he
  | dict es => simp [progNeedsEnd] at he
  | unused => simp [Ok] at hok

theorem spaces_white (n : Nat) : (spaces n).all isWhite = true := by
  simp [spaces, List.all_replicate]; right; decide

theorem lineSep_white (p : Bool) (n : Nat) : (lineSep p n).all isWhite = true := by
  cases p
  · rfl
  · simp only [lineSep, if_true, List.all_cons, spaces_white]; decide

theorem encEntries_head (pretty : Bool) (indent : Nat) (es : List (Bytes × Prog)) (rest : Bytes) (hr : sepOk rest = true) :
    sepOk (encEntries pretty indent es ++ rest) = true := by
  cases es with
  | nil => exact hr
  | cons e es =>
    obtain ⟨k, v⟩ := e
    cases pretty <;> simp [encEntries, lineSep, nameBytes, sepOk] <;> decide

mutual
theorem scan_enc (pretty : Bool) (p : Prog) (hok : Ok p) (hc : pretty = true ∨ NoClash p) (indent : Nat) (pad : Bool)
    (last : Option UInt8) (rest : Bytes) (hr : progNeedsEnd p = true → sepOk rest = true) :
    Scan (enc pretty indent pad last p ++ rest) (progToks p) rest := by
  match p with
  | .prim p =>
    have h := scan_prim p (by simpa [Ok] using hok) rest hr
    simp only [enc, progToks, List.append_assoc]
    refine Scan.whites ?_ (primToks_ne_nil p) h
    unfold padOf; split <;> decide
  | .array items =>
    have hi := scan_items pretty items (by simpa [Ok] using hok) (by simpa [NoClash] using hc) indent true (some ch!"[")
      (ch!"]" :: rest) (by rfl)
    simp only [enc, progToks, List.cons_append, List.append_assoc, List.nil_append]
    refine Scan.cons (by rw [nextToken_head _ _ (by decide) (by decide)]; rfl) (hi.append ?_)
    exact Scan.single (by rw [nextToken_head _ _ (by decide) (by decide)]; rfl)
  | .dict entries =>
    have hs : Scan (lineSep (!entries.isEmpty && pretty) (saturatingAdd indent 2 - 2) ++ (b!">>" ++ rest)) [.dictClose] rest :=
      Scan.whites (lineSep_white _ _) (by simp)
        (Scan.single (by rw [List.cons_append, nextToken_head _ _ (by decide) (by decide)]; rfl))
    have hi := scan_entries pretty entries (by simpa [Ok] using hok) (by simpa [NoClash] using hc) (saturatingAdd indent 2)
      (lineSep (!entries.isEmpty && pretty) (saturatingAdd indent 2 - 2) ++ (b!">>" ++ rest)) (by
        unfold lineSep; split
        · rfl
        · rfl)
    simp only [enc, progToks, List.append_assoc]
    refine Scan.cons (r := encEntries pretty (saturatingAdd indent 2) entries ++
      (lineSep (!entries.isEmpty && pretty) (saturatingAdd indent 2 - 2) ++ (b!">>" ++ rest))) ?_ (hi.append hs)
    rw [List.cons_append, nextToken_head _ _ (by decide) (by decide)]; rfl
  | .unused => simp [Ok] at hok
termination_by structural p
theorem scan_items (pretty : Bool) (xs : List Prog) (hok : OkItems xs) (hc : pretty = true ∨ NoClashItems xs) (indent : Nat)
    (first : Bool) (last : Option UInt8) (rest : Bytes) (hr : sepOk rest = true) :
    Scan (encItems pretty indent first last xs ++ rest) (itemsToks xs) rest := by
  match xs with
  | [] => exact Scan.nil rest
  | x :: xs =>
    simp only [OkItems] at hok
    simp only [NoClashItems] at hc
    have hx := scan_enc pretty x hok.1 (hc.imp id (fun h => h.1)) indent (!first && !pretty) last
      (encItems pretty indent false ((itemSep pretty first ++ enc pretty indent (!first && !pretty) last x).getLast?.or last) xs ++ rest) (by
        intro he
        rw [last_or x (used_of_ok x hok.1)]
        match xs with
        | [] => exact hr
        | y :: ys =>
          cases pretty with
          | true => simp [encItems, itemSep, sepOk]; decide
          | false =>
            simp only [encItems, itemSep, Bool.and_false, Bool.false_eq_true, if_false, List.nil_append, List.append_assoc]
            apply enc_head _ _ _ (used_of_ok y hok.2.1)
            intro hy
            have hc' := hc.resolve_left (by simp)
            apply enc_last _ _ _ _ _ hok.1 he
            cases hen : isEmptyName x
            · rfl
            · have := hc'.2.1 hen y (by simp)
              simp [hy] at this)
    have hi := scan_items pretty xs hok.2 (hc.imp id (fun h => h.2.2)) indent false
      ((itemSep pretty first ++ enc pretty indent (!first && !pretty) last x).getLast?.or last) rest hr
    simp only [encItems, itemsToks, List.append_assoc]
    refine Scan.whites ?_ (by simp [progToks_ne_nil x hok.1]) (hx.append hi)
    unfold itemSep; split <;> decide
termination_by structural xs
theorem scan_entries (pretty : Bool) (es : List (Bytes × Prog)) (hok : OkEntries es) (hc : pretty = true ∨ NoClashEntries es)
    (indent : Nat) (rest : Bytes) (hr : sepOk rest = true) :
    Scan (encEntries pretty indent es ++ rest) (entriesToks es) rest := by
  match es with
  | [] => exact Scan.nil rest
  | (k, v) :: es =>
    simp only [OkEntries] at hok
    simp only [NoClashEntries] at hc
    have hi := scan_entries pretty es hok.2 (hc.imp id (fun h => h.2.2)) indent rest hr
    have hv := scan_enc pretty v hok.1 (hc.imp id (fun h => h.2.1)) indent (!pretty) (nameBytes k).getLast?
      (encEntries pretty indent es ++ rest) (fun _ => encEntries_head pretty indent es rest hr)
    have hk : Scan (nameBytes k ++ (keySep pretty ++ (enc pretty indent (!pretty) (nameBytes k).getLast? v ++
        (encEntries pretty indent es ++ rest)))) [.name k]
        (keySep pretty ++ (enc pretty indent (!pretty) (nameBytes k).getLast? v ++ (encEntries pretty indent es ++ rest))) := by
      refine scan_prim (.name k) trivial _ (fun _ => ?_)
      cases pretty with
      | true => simp [keySep, sepOk]; decide
      | false =>
        simp only [keySep, Bool.false_eq_true, if_false, List.nil_append]
        apply enc_head _ _ _ (used_of_ok v hok.1)
        intro hb
        have hc' := hc.resolve_left (by simp)
        refine prim_last (.name k) trivial rfl ?_
        rintro h
        simp only [Prim.name.injEq] at h
        have := hc'.1 h
        simp [hb] at this
    simp only [encEntries, entriesToks, List.append_assoc]
    refine Scan.whites (lineSep_white _ _) (by simp) (hk.append (Scan.whites ?_ (by simp [progToks_ne_nil v hok.1]) (hv.append hi)))
    unfold keySep; split <;> decide
termination_by structural es
end

end PdfW
