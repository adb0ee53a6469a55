import Verif.Proof.Read
import Verif.Proof.Visible

/-!
# Properties C01–C08: primitive objects

Each theorem speaks about the bytes appended to an arbitrary buffer by the model's write function
(`Prim.write`, `Buf.pushFloat`, …) and about the ISO 32000 reader in `Verif/Spec`.
-/

set_option linter.unusedSimpArgs false
set_option linter.unusedVariables false

namespace PdfW.Props
open PdfW PdfW.Spec

/-- What follows a token must not extend it: white space, a delimiter, or nothing. -/
def Separated (rest : Bytes) : Prop := ∀ b ∈ rest.head?, isWhite b = true ∨ isDelim b = true

theorem sepOk_of_separated (rest : Bytes) (h : Separated rest) : sepOk rest = true := by
  cases rest with
  | nil => rfl
  | cons b r =>
    have := h b (by simp)
    simp only [sepOk, isRegular]
    rcases this with h | h <;> simp [h]

theorem nextToken_of_tokenAt {bs rest : Bytes} {t : Tok} (h : tokenAt bs = some (t, rest))
    (hd : ∃ b l, bs = b :: l ∧ isDelim b = true ∧ b ≠ 37) : nextToken bs = some (t, rest) := by
  obtain ⟨b, l, rfl, h1, h2⟩ := hd
  rw [nextToken_head b l _ h2, h]
  have : ∀ b : UInt8, isDelim b = true → isWhite b = false := forall_byte (by decide +kernel)
  exact this b h1

/-! ## C01 -/

/-- C01: whatever bytes `s` contains and whatever is written afterwards, a reader recovers exactly `s` and
stops exactly at the end of what was written. -/
theorem C01_str_reads_back (s rest : Bytes) (buf : Buf) :
    ∃ out, ((Prim.str s).write buf).inner = buf.inner ++ out ∧
      nextToken (out ++ rest) = some (.str s, rest) := by
  refine ⟨strBytes s, by simp [Prim.write, writeStr_eq], ?_⟩
  exact nextToken_of_tokenAt (tokenAt_strBytes s rest) (append_head (strBytes_head s))

/-- The literal form is exercised with unbalanced parentheses, backslashes and control bytes … -/
example : ((Prim.str b!"a)(\\\n\x01").write Buf.new).inner = b!"(a\\)\\(\\\\\\n\\001)" := by decide +kernel
/-- … balanced parentheses stay unescaped … -/
example : ((Prim.str b!"f(x)").write Buf.new).inner = b!"(f(x))" := by decide +kernel
/-- … and non-ASCII bytes give the hexadecimal form. -/
example : ((Prim.str [0xFF, 0x28]).write Buf.new).inner = b!"<FF28>" := by decide +kernel

/-! ## C02 -/

/-- C02: no primitive, whatever its value (non-finite numbers included), is spelled with a byte outside
`0x20 … 0x7E`. -/
theorem C02_primitives_visible_ascii (p : Prim) (buf : Buf) :
    ∃ out, (p.write buf).inner = buf.inner ++ out ∧ ∀ b ∈ out, 0x20 ≤ b ∧ b ≤ 0x7E := by
  refine ⟨primBytes p, by simp [Prim.write_eq], ?_⟩
  have h := primBytes_visible p
  rw [List.all_eq_true] at h
  intro b hb
  simpa [isVisible] using h b hb

example : ((Prim.name [0x00, 0xC3, 0x7F]).write Buf.new).inner = b!"/#00#C3#7F" := by decide +kernel

/-! ## C03 -/

/-- C03: a reader recovers exactly the bytes of the name when what follows is separated. -/
theorem C03_name_reads_back (n rest : Bytes) (hr : Separated rest) (buf : Buf) :
    ∃ out, ((Prim.name n).write buf).inner = buf.inner ++ out ∧
      nextToken (out ++ rest) = some (.name n, rest) := by
  refine ⟨nameBytes n, by simp [Prim.write, writeName_eq], ?_⟩
  exact nextToken_of_tokenAt (tokenAt_nameBytes n rest (sepOk_of_separated _ hr)) ⟨_, _, rfl, by decide, by decide⟩

example : Separated b!" 5" := by simp [Separated]; decide
example : ((Prim.name b!"A B#/(").write Buf.new).inner = b!"/A#20B#23#2F#28" := by decide +kernel

/-! ## C04 -/

/-- C04: the text-string decoding of what is written is the text, for every list of Unicode scalar values. -/
theorem C04_textstr_reads_back (t : List Char) (rest : Bytes) (buf : Buf) :
    ∃ out s, ((Prim.textStr t).write buf).inner = buf.inner ++ out ∧
      nextToken (out ++ rest) = some (.str s, rest) ∧ decodeText s = some t := by
  refine ⟨textBytes t, textContent t, by simp [Prim.write, writeTextStr_eq], ?_, decodeText_textContent t⟩
  exact nextToken_of_tokenAt (tokenAt_textBytes t rest) (append_head (textBytes_head t))

/-- A character outside the Basic Multilingual Plane (U+1F642) is written as a surrogate pair. -/
example : ((Prim.textStr [Char.ofNat 0x1F642]).write Buf.new).inner = b!"<FEFFD83DDE42>" := by decide +kernel

/-! ## C05 -/

/-- An ASCII letter or digit. -/
def IsAlnum (c : Char) : Prop :=
  (48 ≤ c.toNat ∧ c.toNat ≤ 57) ∨ (65 ≤ c.toNat ∧ c.toNat ≤ 90) ∨ (97 ≤ c.toNat ∧ c.toNat ≤ 122)

theorem isAsciiAlnum_iff (c : Char) : isAsciiAlnum c = true ↔ IsAlnum c := by
  simp [isAsciiAlnum, IsAlnum, or_assoc]

theorem utf8Char_alnum (c : Char) (h : IsAlnum c) : utf8Char c = [UInt8.ofNat c.toNat] := by
  have : c.toNat < 128 := by unfold IsAlnum at h; omega
  simp [utf8Char, this]

theorem utf8_alnum (s : List Char) (h : ∀ c ∈ s, IsAlnum c) : utf8 s = s.map (fun c => UInt8.ofNat c.toNat) := by
  induction s with
  | nil => rfl
  | cons c s ih =>
    have h1 := utf8Char_alnum c (h c (by simp))
    have h2 := ih (fun c hc => h c (by simp [hc]))
    simp only [utf8] at h2 ⊢
    rw [List.flatMap_cons, h1, h2]; rfl

theorem strToCode_iff (s : List Char) (x : UInt8 × UInt8) :
    strToCode s = some x ↔ ∃ a b, s = [a, b] ∧ IsAlnum a ∧ IsAlnum b ∧ x = (UInt8.ofNat a.toNat, UInt8.ofNat b.toNat) := by
  unfold strToCode
  constructor
  · intro h
    split at h
    · rename_i hall
      have hal : ∀ c ∈ s, IsAlnum c := by
        intro c hc; rw [List.all_eq_true] at hall; exact (isAsciiAlnum_iff c).1 (hall c hc)
      rw [utf8_alnum s hal] at h
      match s, hal, h with
      | [], _, h => simp at h
      | [_], _, h => simp at h
      | [a, b], hal, h =>
        refine ⟨a, b, rfl, hal a (by simp), hal b (by simp), ?_⟩
        simp at h; rw [← h]
      | _ :: _ :: _ :: _, _, h => simp at h
    · cases h
  · rintro ⟨a, b, rfl, ha, hb, rfl⟩
    have h1 := (isAsciiAlnum_iff a).2 ha
    have h2 := (isAsciiAlnum_iff b).2 hb
    have : utf8 [a, b] = [UInt8.ofNat a.toNat, UInt8.ofNat b.toNat] := utf8_alnum _ (by simp [ha, hb])
    simp [h1, h2, this]

/-- C05: `from_lang` accepts exactly two ASCII letters or digits and keeps them. -/
theorem C05_from_lang_exact (l : List Char) (id : LangId) :
    LangId.fromLang l = some id ↔
      ∃ a b, l = [a, b] ∧ IsAlnum a ∧ IsAlnum b ∧ id.region = none ∧
        id.lang = (UInt8.ofNat a.toNat, UInt8.ofNat b.toNat) := by
  constructor
  · intro h
    unfold LangId.fromLang at h
    cases hc : strToCode l with
    | none => simp [hc] at h
    | some x =>
      rw [hc] at h; simp at h; subst h
      obtain ⟨a, b, h1, h2, h3, h4⟩ := (strToCode_iff l x).1 hc
      exact ⟨a, b, h1, h2, h3, rfl, h4⟩
  · rintro ⟨a, b, h1, h2, h3, h4, h5⟩
    have := (strToCode_iff l id.lang).2 ⟨a, b, h1, h2, h3, h5⟩
    simp [LangId.fromLang, this]
    cases id; simp_all

/-- C05: `from_lang_region` likewise, for both codes. -/
theorem C05_from_lang_region_exact (l r : List Char) (id : LangId) :
    LangId.fromLangRegion l r = some id ↔
      ∃ a b c d, l = [a, b] ∧ r = [c, d] ∧ IsAlnum a ∧ IsAlnum b ∧ IsAlnum c ∧ IsAlnum d ∧
        id.lang = (UInt8.ofNat a.toNat, UInt8.ofNat b.toNat) ∧
        id.region = some (UInt8.ofNat c.toNat, UInt8.ofNat d.toNat) := by
  constructor
  · intro h
    unfold LangId.fromLangRegion at h
    cases hc : strToCode l with
    | none => simp [hc] at h
    | some x =>
      cases hd : strToCode r with
      | none => simp [hc, hd] at h
      | some y =>
        rw [hc, hd] at h; simp at h; subst h
        obtain ⟨a, b, h1, h2, h3, h4⟩ := (strToCode_iff l x).1 hc
        obtain ⟨c, d, g1, g2, g3, g4⟩ := (strToCode_iff r y).1 hd
        exact ⟨a, b, c, d, h1, g1, h2, h3, g2, g3, h4, by rw [g4]⟩
  · rintro ⟨a, b, c, d, h1, g1, h2, h3, g2, g3, h4, h5⟩
    have e1 := (strToCode_iff l id.lang).2 ⟨a, b, h1, h2, h3, h4⟩
    have e2 := (strToCode_iff r _).2 ⟨c, d, g1, g2, g3, rfl⟩
    simp [LangId.fromLangRegion, e1, e2]
    cases id; simp_all

/-- A segment as the user gives it: codes and text. -/
structure Segment where
  lang : List Char
  region : Option (List Char)
  text : List Char

/-- The API value of a segment, if the constructors accept the codes. -/
def Segment.build (s : Segment) : Option (LangId × List Char) :=
  match s.region with
  | none => (LangId.fromLang s.lang).map fun id => (id, s.text)
  | some r => (LangId.fromLangRegion s.lang r).map fun id => (id, s.text)

/-- The reader's segment has the same codes and text. -/
def SameSegment (s : Segment) (v : LangSeg) : Prop :=
  s.lang = [v.lang.1, v.lang.2] ∧ s.region = v.country.map (fun r => [r.1, r.2]) ∧ s.text = v.text

/-- Segment by segment. -/
def SameSegments : List Segment → List LangSeg → Prop
  | [], vs => vs = []
  | s :: ss, vs => ∃ w ws, vs = w :: ws ∧ SameSegment s w ∧ SameSegments ss ws

theorem char_of_alnum (a : Char) (h : IsAlnum a) : asciiChar (UInt8.ofNat a.toNat) = a ∧ UInt8.ofNat a.toNat ≠ 0x1B := by
  have hlt : a.toNat < 256 := by unfold IsAlnum at h; omega
  have hv : (UInt8.ofNat a.toNat).toNat = a.toNat := by simp [Nat.mod_eq_of_lt hlt]
  constructor
  · rw [asciiChar, hv, Char.ofNat_toNat]
  · intro he
    have := congrArg UInt8.toNat he
    rw [hv] at this
    have h27 : (0x1B : UInt8).toNat = 27 := rfl
    rw [h27] at this
    unfold IsAlnum at h; omega

theorem segment_ok (s : Segment) (x : LangId × List Char) (hb : s.build = some x) (ht : ∀ c ∈ s.text, c ≠ escChar) :
    SegOk x ∧ SameSegment s (expectedSeg x) := by
  obtain ⟨lang, region, text⟩ := s
  cases region with
  | none =>
    simp only [Segment.build, Option.map_eq_some_iff] at hb
    obtain ⟨id, h, rfl⟩ := hb
    obtain ⟨a, b, rfl, ha, hb, hr, hl⟩ := (C05_from_lang_exact lang id).1 h
    obtain ⟨a1, a2⟩ := char_of_alnum a ha
    obtain ⟨b1, b2⟩ := char_of_alnum b hb
    exact ⟨⟨ht, by simp [hl, a2], by simp [hl, b2], by simp [hr]⟩, by simp [SameSegment, expectedSeg, hl, hr, a1, b1]⟩
  | some r =>
    simp only [Segment.build, Option.map_eq_some_iff] at hb
    obtain ⟨id, h, rfl⟩ := hb
    obtain ⟨a, b, c, d, rfl, rfl, ha, hb, hc, hd, hl, hr⟩ := (C05_from_lang_region_exact lang r id).1 h
    obtain ⟨a1, a2⟩ := char_of_alnum a ha
    obtain ⟨b1, b2⟩ := char_of_alnum b hb
    obtain ⟨c1, c2⟩ := char_of_alnum c hc
    obtain ⟨d1, d2⟩ := char_of_alnum d hd
    exact ⟨⟨ht, by simp [hl, a2], by simp [hl, b2], by simp [hr, c2, d2]⟩,
      by simp [SameSegment, expectedSeg, hl, hr, a1, b1, c1, d1]⟩

/-- C05: segments accepted by the constructors and without the escape character in their text are read back,
one by one, with the same language, region and text. -/
theorem C05_text_with_lang_reads_back (segs : List Segment) (xs : List (LangId × List Char))
    (hb : segs.mapM Segment.build = some xs) (ht : ∀ s ∈ segs, ∀ c ∈ s.text, c ≠ escChar) (rest : Bytes) (buf : Buf) :
    ∃ out s vs, ((Prim.textStrLang xs).write buf).inner = buf.inner ++ out ∧
      nextToken (out ++ rest) = some (.str s, rest) ∧ decodeLangText s = some vs ∧
      SameSegments segs vs := by
  have hpair : ∀ (segs : List Segment) (xs : List (LangId × List Char)), segs.mapM Segment.build = some xs →
      (∀ s ∈ segs, ∀ c ∈ s.text, c ≠ escChar) →
      (∀ x ∈ xs, SegOk x) ∧ SameSegments segs (xs.map expectedSeg) := by
    intro segs
    induction segs with
    | nil => intro xs h _; simp at h; subst h; simp [SameSegments]
    | cons s segs ih =>
      intro xs h ht
      rw [List.mapM_cons] at h
      cases h1 : s.build with
      | none => simp [h1] at h
      | some x =>
        cases h2 : segs.mapM Segment.build with
        | none => simp [h1, h2] at h
        | some ys =>
          simp [h1, h2] at h
          subst h
          obtain ⟨i1, i2⟩ := ih ys h2 (fun s hs => ht s (by simp [hs]))
          obtain ⟨j1, j2⟩ := segment_ok s x h1 (ht s (by simp))
          refine ⟨?_, ⟨_, _, rfl, j2, i2⟩⟩
          intro y hy
          rcases List.mem_cons.1 hy with rfl | hy
          · exact j1
          · exact i1 y hy
  obtain ⟨h1, h2⟩ := hpair segs xs hb ht
  have hden := primVal_denotes (.textStrLang xs) h1
  obtain ⟨s, hs, hdec⟩ := hden
  refine ⟨langBytes xs, langContent xs, xs.map expectedSeg, by simp [Prim.write, writeTextStrLang_eq], ?_, ?_, h2⟩
  · exact nextToken_of_tokenAt (tokenAt_langBytes xs rest) ⟨_, _, rfl, by decide, by decide⟩
  · simp only [primVal, Val.str.injEq] at hs
    rw [hs]; exact hdec

/-- Two segments meet the hypotheses: `en-US` "Hi" and `de` "Ü". -/
example : ([⟨['e', 'n'], some ['U', 'S'], ['H', 'i']⟩, ⟨['d', 'e'], none, ['Ü']⟩] : List Segment).mapM Segment.build
    = some [(⟨(101, 110), some (85, 83)⟩, ['H', 'i']), (⟨(100, 101), none⟩, ['Ü'])] := by decide +kernel

/-- A three-letter code is refused. -/
example : LangId.fromLang ['d', 'e', 'u'] = none := by decide +kernel

/-! ## C06 -/

/-- C06: an integer is read back as itself. -/
theorem C06_int_reads_back (i : Int) (rest : Bytes) (hr : Separated rest) (buf : Buf) :
    ∃ out, ((Prim.int i).write buf).inner = buf.inner ++ out ∧ nextToken (out ++ rest) = some (.int i, rest) := by
  refine ⟨intBytes i, by simp [Prim.write, pushInt_eq], ?_⟩
  have h := nextToken_run (intBytes i) rest (intBytes_regular i) (intBytes_ne_nil i) (sepOk_of_separated _ hr)
  rw [h, readRun, readNumber_intBytes]

/-- C06: a reference is written as `id 0 R` and read back as the reference to that id, generation 0. -/
theorem C06_ref_reads_back (r : Ref) (buf : Buf) :
    ∃ out, ((Prim.ref r).write buf).inner = buf.inner ++ out ∧
      (∃ digits, out = digits ++ b!" 0 R" ∧ readNumber digits = some (.int r.get)) ∧
      readOne out = some (.ref r.get.toNat 0) := by
  refine ⟨primBytes (.ref r), by simp [Prim.write_eq], ⟨intBytes r.get, rfl, readNumber_intBytes _⟩, ?_⟩
  have hs := scan_prim (.ref r) trivial [] (fun _ => rfl)
  rw [List.append_nil] at hs
  have hf := fold_prim (.ref r) trivial .top [] []
  have := readAll_scan hs rfl hf
  simp only [readOne, this, List.reverse_cons, List.reverse_nil, List.nil_append]
  rfl

/-- C06: `Ref::new` succeeds exactly for positive ids (of type `i32`) and keeps the id. -/
theorem C06_ref_new_exact (id : Int) (hid : -2147483648 ≤ id ∧ id ≤ 2147483647) :
    (0 < id → ∃ r, Ref.new id = some r ∧ r.get = id) ∧ (id ≤ 0 → Ref.new id = none) := by
  constructor
  · intro h
    exact ⟨⟨id, h, hid.2⟩, by simp [Ref.new, h, hid.2], rfl⟩
  · intro h
    have : ¬ (0 < id ∧ id ≤ 2147483647) := by omega
    simp [Ref.new, this]

/-- Call `bump` `n` times, collecting the refs handed out; `none` if a call panics. -/
def bumps : Nat → Ref → Option (List Ref × Ref)
  | 0, r => some ([], r)
  | n + 1, r =>
    match r.bump with
    | none => none
    | some (out, r') =>
      match bumps n r' with
      | none => none
      | some (outs, r'') => some (out :: outs, r'')

theorem next_some (r r' : Ref) (h : r.next = some r') : r'.get = r.get + 1 := by
  unfold Ref.next Ref.new wrapSucc at h
  by_cases hm : r.get = 2147483647
  · simp [hm] at h
  · simp only [if_neg hm] at h
    by_cases h2 : 0 < r.get + 1 ∧ r.get + 1 ≤ 2147483647
    · simp only [dif_pos h2, Option.some.injEq] at h
      subst h; rfl
    · simp only [dif_neg h2] at h; cases h

/-- C06: a bump allocator hands out consecutive, strictly increasing ids, so it never repeats one. -/
theorem C06_bump_never_repeats (n : Nat) (r : Ref) (outs : List Ref) (r' : Ref) (h : bumps n r = some (outs, r')) :
    outs.map Ref.get = (List.range n).map (fun i : Nat => r.get + (i : Int)) ∧ (outs.map Ref.get).Pairwise (· < ·) ∧
    r'.get = r.get + n ∧ ∀ x ∈ outs, x.get < r'.get := by
  induction n generalizing r outs r' with
  | zero => simp [bumps] at h; obtain ⟨rfl, rfl⟩ := h; simp
  | succ n ih =>
    simp only [bumps] at h
    cases hb : r.next with
    | none => simp [Ref.bump, hb] at h
    | some r1 =>
      simp only [Ref.bump, hb] at h
      simp at h
      cases hs : bumps n r1 with
      | none => simp [hs] at h
      | some p =>
        obtain ⟨os, r2⟩ := p
        simp [hs] at h
        obtain ⟨rfl, rfl⟩ := h
        obtain ⟨i1, i2, i3, i4⟩ := ih r1 os r2 hs
        have hn := next_some r r1 hb
        refine ⟨?_, ?_, by omega, ?_⟩
        · rw [List.map_cons, i1, List.range_succ_eq_map, List.map_cons, List.map_map]
          simp
          intro a ha; omega
        · rw [List.map_cons, List.pairwise_cons]
          refine ⟨?_, i2⟩
          intro a ha
          rw [i1] at ha
          simp at ha
          obtain ⟨j, hj, rfl⟩ := ha
          omega
        · intro x hx
          rcases List.mem_cons.1 hx with rfl | hx
          · omega
          · exact i4 x hx

/-- C06: the allocator panics only when the ids of `i32` are used up. -/
theorem C06_bump_total (n : Nat) (r : Ref) (h : r.get + n ≤ 2147483647) : ∃ x, bumps n r = some x := by
  induction n generalizing r with
  | zero => exact ⟨_, rfl⟩
  | succ n ih =>
    have hne : r.get ≠ 2147483647 := by omega
    have hp : 0 < r.get := r.pos
    have hn : r.next = some ⟨r.get + 1, by omega, by omega⟩ := by
      have e : wrapSucc r.get = r.get + 1 := if_neg hne
      have h1 : 0 < r.get + 1 ∧ r.get + 1 ≤ 2147483647 := by omega
      simp only [Ref.next, Ref.new, e, dif_pos h1]
    obtain ⟨x, hx⟩ := ih ⟨r.get + 1, by omega, by omega⟩ (by simp only [Ref.get]; unfold Ref.get at h; omega)
    simp [bumps, Ref.bump, hn, hx]

example : (bumps 3 ⟨7, by decide, by decide⟩).map (fun x => x.1.map Ref.get) = some [7, 8, 9] := by decide +kernel

/-! ## C07 -/

/-- The value a number token stands for. -/
def numberOf : Tok → Val
  | .int n => .int n
  | .real m s => .real m s
  | _ => .null

theorem spells_number (x : F32) (bs : Bytes) (h : F32.Spells x bs) (rest : Bytes) (hr : Separated rest) :
    ∃ tok, readNumber bs = some tok ∧ nextToken (bs ++ rest) = some (tok, rest) ∧ NumIs x (numberOf tok) := by
  obtain ⟨h1, h2, t, h3, h4, h5⟩ := h
  refine ⟨t, h3, ?_, ?_⟩
  · have hreg : bs.all isRegular = true := by
      rw [List.all_eq_true] at h1 ⊢
      intro b hb; exact F32.dec_regular b (h1 b hb)
    rw [nextToken_run bs rest hreg h2 (sepOk_of_separated _ hr), readRun, h3]
  · rcases h4 with ⟨n, rfl⟩ | ⟨m, s, rfl⟩ <;> exact h5

/-- C07: every finite `f32` is written by `push_float` as a PDF number (`readNumber` admits only an optional
sign, digits and at most one point) that rounds back to the same `f32` (up to the sign of zero). -/
theorem C07_push_float_reads_back (x : F32) (hx : x.isFinite = true) (rest : Bytes) (hr : Separated rest) (buf : Buf) :
    ∃ out tok, (buf.pushFloat x).inner = buf.inner ++ out ∧ readNumber out = some tok ∧
      nextToken (out ++ rest) = some (tok, rest) ∧ NumIs x (numberOf tok) := by
  obtain ⟨tok, h1, h2, h3⟩ := spells_number x _ (F32.realBytes_spells x hx) rest hr
  exact ⟨x.realBytes, tok, by simp [pushFloat_eq], h1, h2, h3⟩

/-- C07: the same for `push_decimal` (used by PostScript functions). -/
theorem C07_push_decimal_reads_back (x : F32) (hx : x.isFinite = true) (rest : Bytes) (hr : Separated rest) (buf : Buf) :
    ∃ out tok, (buf.pushDecimal x).inner = buf.inner ++ out ∧ readNumber out = some tok ∧
      nextToken (out ++ rest) = some (tok, rest) ∧ NumIs x (numberOf tok) := by
  obtain ⟨tok, h1, h2, h3⟩ := spells_number x _ (F32.decimalBytes_spells x hx) rest hr
  exact ⟨x.decimalBytes, tok, by simp [pushDecimal_eq], h1, h2, h3⟩

/-- C07: a number rounds to exactly one finite magnitude, so what is read back is determined. -/
theorem C07_rounding_unique (N D m m' : Nat) (hD : 0 < D) (h : RoundsTo N D m) (h' : RoundsTo N D m') : m = m' := by
  suffices hlt : ∀ m m', RoundsTo N D m → RoundsTo N D m' → ¬ m < m' by
    rcases Nat.lt_trichotomy m m' with h1 | h1 | h1
    · exact absurd h1 (hlt _ _ h h')
    · exact h1
    · exact absurd h1 (hlt _ _ h' h)
  intro m m' h h' hl
  have a := h.2 m' (Nat.le_of_lt h'.1)
  have b := h'.2 m (Nat.le_of_lt h.1)
  have e : dist N D m = dist N D m' := Nat.le_antisymm a.1 b.1
  have e1 := a.2 (by omega) e
  have e2 := b.2 (by omega) e.symm
  have c := (h.2 (m + 1) (by have := h.1; omega)).1
  have s1 : F32.scaled m < F32.scaled (m + 1) := F32.scaled_lt (by omega)
  have s2 : F32.scaled (m + 1) < F32.scaled m' := F32.scaled_lt (by omega)
  have t1 := Nat.mul_lt_mul_of_pos_right s1 hD
  have t2 := Nat.mul_lt_mul_of_pos_right s2 hD
  unfold dist at e c
  generalize F32.scaled m * D = x at *
  generalize F32.scaled m' * D = y at *
  generalize F32.scaled (m + 1) * D = z at *
  generalize N * 2 ^ 149 = q at *
  omega

/-- C07: a value that is not finite is written, by both functions, as one of the words `NaN`, `inf` and `-inf`, and these are not
PDF numbers: the condition that values are finite cannot be dropped for a single value. -/
theorem C07_non_finite (x : F32) (hx : x.isFinite = false) (buf : Buf) :
    ∃ word, (buf.pushFloat x).inner = buf.inner ++ word ∧ (buf.pushDecimal x).inner = buf.inner ++ word ∧
      word = (if x.isNaN then b!"NaN" else if x.neg then b!"-inf" else b!"inf") ∧ readNumber word = none := by
  have hd : x.eq F32.zero = false ∧ (F32.c1em6.lt x.abs && x.abs.lt F32.c1e12) = false ∧ (F32.ofI32 x.toI32).eq x = false ∧
      x.displayFormat = (if x.isNaN then b!"NaN" else if x.neg then b!"-inf" else b!"inf") := by
    cases hn : x.isNaN with
    | true =>
      have ha : x.abs.isNaN = true := hn
      simp [F32.eq, F32.lt, hn, ha, F32.displayFormat]
    | false =>
      have hm : x.mag.val = F32.infMag := by
        simp only [F32.isNaN, F32.isFinite, decide_eq_false_iff_not] at hn hx; omega
      obtain ⟨neg, mag⟩ := x
      have : mag = ⟨F32.infMag, by decide⟩ := Fin.ext hm
      subst this
      cases neg <;> decide +kernel
  obtain ⟨h1, h2, h3, h4⟩ := hd
  refine ⟨x.displayFormat, ?_, ?_, h4, ?_⟩
  · simp [Buf.pushFloat, h3, Buf.pushDecimal, h1, h2, Buf.extend]
  · simp [Buf.pushDecimal, h1, h2, Buf.extend]
  · rw [h4]
    split
    · decide
    · split <;> decide

/-- `0.1_f32` (bits 0x3DCCCCCD) is finite and written `0.1`. -/
example : (⟨false, ⟨0x3DCCCCCD, by decide⟩⟩ : F32).isFinite = true ∧
    (Buf.new.pushFloat ⟨false, ⟨0x3DCCCCCD, by decide⟩⟩).inner = b!"0.1" := by decide +kernel
/-- The smallest subnormal is written without an exponent. -/
example : (Buf.new.pushFloat ⟨true, ⟨1, by decide⟩⟩).inner
    = b!"-0.000000000000000000000000000000000000000000001" := by decide +kernel
/-- Quirk: `2147483648.0` is written as `2147483647`, which still rounds back. -/
example : (Buf.new.pushFloat ⟨false, ⟨0x4F000000, by decide⟩⟩).inner = b!"2147483647" := by decide +kernel
/-- The hypothesis is needed: infinities and NaN are written as words, which are not numbers. -/
example : (Buf.new.pushFloat ⟨true, ⟨F32.infMag, by decide⟩⟩).inner = b!"-inf" ∧ readNumber b!"-inf" = none := by
  decide +kernel
/-- Quirk: `push_decimal(1e12)` has no decimal point. -/
example : (Buf.new.pushDecimal F32.c1e12).inner = b!"1000000000000" := by decide +kernel

/-! ## C08 -/

/-- The setters of `Date`. -/
inductive DateCall where
  | month (v : UInt8) | day (v : UInt8) | hour (v : UInt8) | minute (v : UInt8) | second (v : UInt8)
  | utcOffsetHour (v : Int8) | utcOffsetMinute (v : UInt8)

def DateCall.apply (d : Date) : DateCall → Date
  | month v => d.setMonth v
  | day v => d.setDay v
  | hour v => d.setHour v
  | minute v => d.setMinute v
  | second v => d.setSecond v
  | utcOffsetHour v => d.setUtcOffsetHour v
  | utcOffsetMinute v => d.setUtcOffsetMinute v

/-- The last argument that `f` selects from a history. -/
def lastArg {α : Type} (f : DateCall → Option α) (cs : List DateCall) : Option α := (cs.filterMap f).getLast?

def monthArg : DateCall → Option Nat | .month v => some v.toNat | _ => none
def dayArg : DateCall → Option Nat | .day v => some v.toNat | _ => none
def hourArg : DateCall → Option Nat | .hour v => some v.toNat | _ => none
def minuteArg : DateCall → Option Nat | .minute v => some v.toNat | _ => none
def secondArg : DateCall → Option Nat | .second v => some v.toNat | _ => none
def offsetHourArg : DateCall → Option Int | .utcOffsetHour v => some v.toInt | _ => none
def offsetMinuteArg : DateCall → Option Nat | .utcOffsetMinute v => some v.toNat | _ => none

/-- The value nearest to `v` within `lo … hi`. -/
def nearest (lo hi v : Int) : Int := max lo (min hi v)

/-- The date that a history of setter calls stands for: each field is the last value given, moved into its
ISO range; fields after the first missing one cannot be represented. The minutes of the offset count in the
direction of the hours. -/
def historyDate (year : UInt16) (cs : List DateCall) : DateVal :=
  let field (f : DateCall → Option Nat) (lo hi : Int) : Option Nat :=
    (lastArg f cs).map fun v : Nat => (nearest lo hi (v : Int)).toNat
  let month := field monthArg 1 12
  let day := month.bind fun _ => field dayArg 1 31
  let hour := day.bind fun _ => field hourArg 0 23
  let minute := hour.bind fun _ => field minuteArg 0 59
  let second := minute.bind fun _ => field secondArg 0 59
  let offMin := ((field offsetMinuteArg 0 59).getD 0 : Nat)
  let offset := second.bind fun _ => (lastArg offsetHourArg cs).map fun h =>
    let h := nearest (-23) 23 h
    if h < 0 then h * 60 - offMin else h * 60 + offMin
  { year := (nearest 0 9999 year.toNat).toNat, month, day, hour, minute, second, offset }

/-- Relates the fields of a `Date` to the history. -/
structure Tracks (year : UInt16) (cs : List DateCall) (d : Date) : Prop where
  year : d.year = (nearest 0 9999 year.toNat).toNat
  month : d.month = (lastArg monthArg cs).map fun v : Nat => (nearest 1 12 (v : Int)).toNat
  day : d.day = (lastArg dayArg cs).map fun v : Nat => (nearest 1 31 (v : Int)).toNat
  hour : d.hour = (lastArg hourArg cs).map fun v : Nat => (nearest 0 23 (v : Int)).toNat
  minute : d.minute = (lastArg minuteArg cs).map fun v : Nat => (nearest 0 59 (v : Int)).toNat
  second : d.second = (lastArg secondArg cs).map fun v : Nat => (nearest 0 59 (v : Int)).toNat
  offh : d.utcOffsetHour = (lastArg offsetHourArg cs).map fun h => nearest (-23) 23 h
  offm : d.utcOffsetMinute = ((lastArg offsetMinuteArg cs).map fun v : Nat => (nearest 0 59 (v : Int)).toNat).getD 0

theorem lastArg_snoc {α : Type} (f : DateCall → Option α) (cs : List DateCall) (c : DateCall) :
    lastArg f (cs ++ [c]) = (f c).or (lastArg f cs) := by
  unfold lastArg
  rw [List.filterMap_append]
  cases h : f c <;> simp [h]

theorem clamp_eq (v lo hi : Nat) (h : lo ≤ hi) : Date.clamp v lo hi = (nearest lo hi v).toNat := by
  unfold Date.clamp nearest
  split
  · omega
  · split <;> omega

theorem min_eq (v hi : Nat) : Min.min v hi = (nearest 0 hi v).toNat := by unfold nearest; omega

theorem tracks (year : UInt16) (cs : List DateCall) : Tracks year cs (cs.foldl DateCall.apply (Date.new year)) := by
  suffices h : ∀ (ds : List DateCall) (cs : List DateCall) (d : Date), Tracks year cs d →
      Tracks year (cs ++ ds) (ds.foldl DateCall.apply d) by
    have := h cs [] (Date.new year) ⟨by unfold Date.new nearest; simp; omega, rfl, rfl, rfl, rfl, rfl, rfl, rfl⟩
    simpa using this
  intro ds
  induction ds with
  | nil => intro cs d h; simpa using h
  | cons c ds ih =>
    intro cs d h
    have := ih (cs ++ [c]) (DateCall.apply d c) ?_
    · simpa using this
    · obtain ⟨h1, h2, h3, h4, h5, h6, h7, h8⟩ := h
      cases c <;> constructor <;>
        simp only [DateCall.apply, Date.setMonth, Date.setDay, Date.setHour, Date.setMinute, Date.setSecond,
          Date.setUtcOffsetHour, Date.setUtcOffsetMinute, lastArg_snoc, monthArg, dayArg, hourArg, minuteArg,
          secondArg, offsetHourArg, offsetMinuteArg, Option.none_or, Option.some_or, Option.map_some, *] <;>
        first
        | rfl
        | (rw [clamp_eq _ _ _ (by decide)]; rfl)
        | (rw [min_eq]; rfl)
        | (congr 1; unfold nearest; omega)

/-- C08: whatever the setters are called with and in whatever order, a valid PDF date (in the ISO ranges, which
`readDate` checks) is written, and it is the date the history stands for. -/
theorem C08_date_reads_back (year : UInt16) (cs : List DateCall) (rest : Bytes) (buf : Buf) :
    ∃ out s, ((Prim.date (cs.foldl DateCall.apply (Date.new year))).write buf).inner = buf.inner ++ out ∧
      nextToken (out ++ rest) = some (.str s, rest) ∧ readDate s = some (historyDate year cs) := by
  have ht := tracks year cs
  generalize cs.foldl DateCall.apply (Date.new year) = d at ht
  have hn : ∀ lo hi v : Int, lo ≤ hi → lo ≤ nearest lo hi v ∧ nearest lo hi v ≤ hi := by
    intro lo hi v h; unfold nearest; omega
  have hr : DateInRange d := by
    obtain ⟨h1, h2, h3, h4, h5, h6, h7, h8⟩ := ht
    refine ⟨?_, ?_, ?_, ?_, ?_, ?_, ?_, ?_⟩
    · rw [h1]; have := hn 0 9999 year.toNat (by decide); omega
    · rw [h2]; intro m hm; simp at hm; obtain ⟨a, _, rfl⟩ := hm; have := hn 1 12 a (by decide); omega
    · rw [h3]; intro m hm; simp at hm; obtain ⟨a, _, rfl⟩ := hm; have := hn 1 31 a (by decide); omega
    · rw [h4]; intro m hm; simp at hm; obtain ⟨a, _, rfl⟩ := hm; have := hn 0 23 a (by decide); omega
    · rw [h5]; intro m hm; simp at hm; obtain ⟨a, _, rfl⟩ := hm; have := hn 0 59 a (by decide); omega
    · rw [h6]; intro m hm; simp at hm; obtain ⟨a, _, rfl⟩ := hm; have := hn 0 59 a (by decide); omega
    · rw [h7]; intro m hm; simp at hm; obtain ⟨a, _, rfl⟩ := hm; exact hn (-23) 23 a (by decide)
    · rw [h8]; cases lastArg offsetMinuteArg cs with
      | none => simp
      | some a => have := hn 0 59 a (by decide); simp; omega
  have he : expectedDate d = historyDate year cs := by
    obtain ⟨h1, h2, h3, h4, h5, h6, h7, h8⟩ := ht
    simp only [expectedDate, historyDate, h1, h2, h3, h4, h5, h6, h7, h8]
    congr 1
    cases lastArg monthArg cs <;> cases lastArg dayArg cs <;> cases lastArg hourArg cs <;>
      cases lastArg minuteArg cs <;> cases lastArg secondArg cs <;> cases lastArg offsetHourArg cs <;> rfl
  refine ⟨ch!"(" :: (dateContent d ++ [ch!")"]), dateContent d, by simp [Prim.write, writeDate_eq], ?_, ?_⟩
  · exact nextToken_of_tokenAt (tokenAt_date d rest) ⟨_, _, rfl, by decide, by decide⟩
  · rw [readDate_dateContent d (DateOk_of d hr), dateVal_eq, he]

/-- A history with out-of-range arguments and a field set twice. -/
example : ((Prim.date ([.month 99, .day 0, .hour 5, .hour 30, .minute 7, .second 70, .utcOffsetHour (-30),
      .utcOffsetMinute 15].foldl DateCall.apply (Date.new 20240))).write Buf.new).inner
    = b!"(D:99991201230759-23'15)" := by decide +kernel
/-- Fields after the first missing one are dropped. -/
example : ((Prim.date ([.month 3, .hour 5].foldl DateCall.apply (Date.new 7))).write Buf.new).inner
    = b!"(D:000703)" := by decide +kernel

end PdfW.Props
