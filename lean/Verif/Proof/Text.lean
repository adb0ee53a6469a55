import Verif.Proof.Num
import Verif.Spec.Text

/-! # Lemmas: text strings, language tags, dates -/

set_option linter.unusedSimpArgs false
set_option linter.unusedVariables false

namespace PdfW
open Spec

/-! ## UTF-8 in the ASCII range -/

theorem utf8Char_ascii (c : Char) (h : (utf8Char c).all (fun b => 32 ≤ b && b ≤ 126) = true) :
    utf8Char c = [UInt8.ofNat c.toNat] ∧ 32 ≤ c.toNat ∧ c.toNat ≤ 126 := by
  have hv : c.toNat < 0x110000 := by
    have := c.valid
    have h2 : c.toNat = c.val.toNat := rfl
    rcases this with h | ⟨_, h⟩ <;> omega
  unfold utf8Char at h ⊢
  have big : ∀ n : Nat, 127 ≤ n → n < 256 → ¬ (UInt8.ofNat n ≤ 126) := by
    intro n h1 h2 h3
    rw [UInt8.le_iff_toNat_le] at h3
    simp [Nat.mod_eq_of_lt h2] at h3
    omega
  simp only at h ⊢
  split
  · rename_i h1
    simp only [h1, if_true, List.all_cons, List.all_nil, Bool.and_true, Bool.and_eq_true, decide_eq_true_eq] at h
    obtain ⟨ha, hb⟩ := h
    refine ⟨rfl, ?_, ?_⟩
    · rw [UInt8.le_iff_toNat_le] at ha
      simp [Nat.mod_eq_of_lt (show c.toNat < 256 by omega)] at ha; omega
    · rw [UInt8.le_iff_toNat_le] at hb
      simp [Nat.mod_eq_of_lt (show c.toNat < 256 by omega)] at hb; omega
  · rename_i h1
    exfalso
    simp only [h1, if_false] at h
    split at h
    · simp only [List.all_cons, Bool.and_eq_true, decide_eq_true_eq] at h
      exact big _ (by omega) (by omega) h.1.2
    · split at h
      · simp only [List.all_cons, Bool.and_eq_true, decide_eq_true_eq] at h
        exact big _ (by omega) (by omega) h.1.2
      · simp only [List.all_cons, Bool.and_eq_true, decide_eq_true_eq] at h
        exact big _ (by omega) (by omega) h.1.2

theorem decodePdfDoc_utf8 (t : List Char) (h : (utf8 t).all (fun b => 32 ≤ b && b ≤ 126) = true) :
    decodePdfDoc (utf8 t) = some t := by
  unfold decodePdfDoc
  rw [if_pos h]
  congr 1
  induction t with
  | nil => rfl
  | cons c t ih =>
    simp only [utf8, List.flatMap_cons, List.all_append, Bool.and_eq_true] at h
    obtain ⟨h1, h2, h3⟩ := utf8Char_ascii c h.1
    have := ih h.2
    simp only [utf8, List.flatMap_cons, h1, List.map_append, List.map_cons, List.map_nil, List.singleton_append] at *
    rw [this]
    congr 1
    simp [Nat.mod_eq_of_lt (show c.toNat < 256 by omega)]

theorem decodeText_ascii (t : List Char) (h : (utf8 t).all (fun b => 32 ≤ b && b ≤ 126) = true) :
    decodeText (utf8 t) = some t := by
  rw [← decodePdfDoc_utf8 t h]
  unfold decodeText
  split
  · rename_i r heq
    rw [heq] at h
    simp at h
  · rfl

/-! ## UTF-16 -/

/-- The bytes of a list of 16-bit units. -/
def unitBytes (us : List UInt16) : Bytes := us.flatMap (fun u : UInt16 => [(u >>> 8).toUInt8, u.toUInt8])

theorem pushHexU16_eq (b : Buf) (v : UInt16) :
    b.pushHexU16 v = b.extend ([(v >>> 8).toUInt8, v.toUInt8].flatMap hex2) := by
  simp [Buf.pushHexU16, pushHex_eq]

theorem foldl_pushHexU16 (us : List UInt16) (b : Buf) :
    us.foldl Buf.pushHexU16 b = b.extend ((unitBytes us).flatMap hex2) := by
  induction us generalizing b with
  | nil => simp [unitBytes]
  | cons u us ih => simp [ih, pushHexU16_eq, unitBytes]

theorem u16_split (u : UInt16) : (u >>> 8).toUInt8.toNat * 256 + u.toUInt8.toNat = u.toNat := by
  have h : u.toNat < 65536 := u.toNat_lt
  simp [UInt16.toNat_shiftRight, Nat.shiftRight_eq_div_pow]
  omega

theorem units_unitBytes (us : List UInt16) : units (unitBytes us) = some (us.map UInt16.toNat) := by
  induction us with
  | nil => rfl
  | cons u us ih =>
    simp only [unitBytes, List.flatMap_cons, List.cons_append, List.nil_append, units] at ih ⊢
    rw [ih]
    simp only [Option.map_some, List.map_cons, u16_split]

theorem scalar_toNat (c : Char) : scalar c.toNat = some c := by
  unfold scalar
  have hv : c.toNat.isValidChar := c.valid
  rw [dif_pos hv]
  rfl

theorem decodeUtf16_one (n : Nat) (c : Char) (us : List Nat) (t : List Char) (hs : scalar n = some c)
    (hn : isHigh n = false) (ih : decodeUtf16 us = some t) :
    decodeUtf16 (n :: us) = some (c :: t) := by
  cases us with
  | nil => simp only [decodeUtf16] at ih ⊢; simp [hn, hs, consChar]; simpa using ih
  | cons v r => simp only [decodeUtf16, hn, hs, ih, consChar]; simp

theorem decodeUtf16_two (u v : Nat) (c : Char) (us : List Nat) (t : List Char)
    (hs : scalar (pairCode u v) = some c)
    (hu : isHigh u = true) (hv : isLow v = true) (ih : decodeUtf16 us = some t) :
    decodeUtf16 (u :: v :: us) = some (c :: t) := by
  simp [decodeUtf16, hu, hv, hs, ih, consChar]

theorem decodeUtf16_char (c : Char) (us : List UInt16) (t : List Char)
    (ih : decodeUtf16 (us.map UInt16.toNat) = some t) :
    decodeUtf16 ((utf16Char c ++ us).map UInt16.toNat) = some (c :: t) := by
  have hv : c.toNat < 0xD800 ∨ (0xDFFF < c.toNat ∧ c.toNat < 0x110000) := c.valid
  have hs := scalar_toNat c
  unfold utf16Char
  generalize c.toNat = n at hv hs
  by_cases h : n < 0x10000
  · have hm : (UInt16.ofNat n).toNat = n := by rw [UInt16.toNat_ofNat']; omega
    rw [if_pos h, List.map_append, List.map_cons, hm, List.map_nil]
    exact decodeUtf16_one n c _ t hs (by simp [isHigh]; omega) ih
  · have h1 : (UInt16.ofNat (0xD800 + (n - 0x10000) / 1024)).toNat = 0xD800 + (n - 0x10000) / 1024 := by
      rw [UInt16.toNat_ofNat']; omega
    have h2 : (UInt16.ofNat (0xDC00 + (n - 0x10000) % 1024)).toNat = 0xDC00 + (n - 0x10000) % 1024 := by
      rw [UInt16.toNat_ofNat']; omega
    rw [if_neg h, List.map_append, List.map_cons, h1, List.map_cons, h2, List.map_nil]
    refine decodeUtf16_two _ _ c _ t ?_ (by simp [isHigh]; omega) (by simp [isLow]; omega) ih
    have hc : pairCode (0xD800 + (n - 0x10000) / 1024) (0xDC00 + (n - 0x10000) % 1024) = n := by
      unfold pairCode; omega
    rw [hc]; exact hs

theorem decodeUtf16_utf16 (t : List Char) : decodeUtf16 ((utf16 t).map UInt16.toNat) = some t := by
  induction t with
  | nil => simp [utf16, decodeUtf16]
  | cons c t ih => simpa [utf16] using decodeUtf16_char c (utf16 t) t ih

/-- The content bytes of the string object written for a text string. -/
def textContent (t : List Char) : Bytes :=
  if (utf8 t).all (fun b => 32 ≤ b && b ≤ 126) then utf8 t else 0xFE :: 0xFF :: unitBytes (utf16 t)

theorem decodeText_textContent (t : List Char) : decodeText (textContent t) = some t := by
  unfold textContent
  split
  · rename_i h; exact decodeText_ascii t h
  · simp [decodeText, units_unitBytes, decodeUtf16_utf16]

/-- Spelling of a text string. -/
def textBytes (t : List Char) : Bytes :=
  if (utf8 t).all (fun b => 32 ≤ b && b ≤ 126) then strBytes (utf8 t)
  else ch!"<" :: ((textContent t).flatMap hex2 ++ [ch!">"])

theorem writeTextStr_eq (t : List Char) (buf : Buf) :
    writeTextStr t buf = { inner := buf.inner ++ textBytes t, limits := buf.limits.registerStrLen (utf8 t).length } := by
  unfold writeTextStr textBytes
  by_cases h : (utf8 t).all (fun b => 32 ≤ b && b ≤ 126) = true
  · simp only [h, if_true, writeStr_eq]
    simp [Limits.registerStrLen, Nat.max_assoc]
  · simp only [h, if_false, textContent, writeUtf16Header, writeUtf16Footer, foldl_pushHexU16, pushHex_eq]
    simp [Buf.push, Buf.extend]

theorem tokenAt_textBytes (t : List Char) (r : Bytes) : tokenAt (textBytes t ++ r) = some (.str (textContent t), r) := by
  unfold textBytes
  split
  · rename_i h
    rw [tokenAt_strBytes]
    simp [textContent, h]
  · simp only [List.cons_append, List.append_assoc]
    exact tokenAt_hexString _ r (Or.inr trivial)

/-! ## Language tags -/

/-- Units of a language escape. -/
def langUnits (l : LangId) : List UInt16 :=
  [0x001B, l.lang.1.toUInt16, l.lang.2.toUInt16] ++
  (match l.region with
   | some r => [r.1.toUInt16, r.2.toUInt16]
   | none => []) ++ [0x001B]

theorem writeLangCode_eq (l : LangId) (buf : Buf) :
    writeLangCode l buf = buf.extend ((unitBytes (langUnits l)).flatMap hex2) := by
  unfold writeLangCode langUnits
  cases l.region <;> simp [pushHexU16_eq, unitBytes]

def segUnits (s : LangId × List Char) : List UInt16 := langUnits s.1 ++ utf16 s.2

def langContent (segs : List (LangId × List Char)) : Bytes :=
  0xFE :: 0xFF :: unitBytes (segs.flatMap segUnits)

def langBytes (segs : List (LangId × List Char)) : Bytes :=
  ch!"<" :: ((langContent segs).flatMap hex2 ++ [ch!">"])

/-- The length that `TextStrWithLang::write` registers. -/
def langLen (segs : List (LangId × List Char)) : Nat :=
  segs.foldl (fun acc s => acc + ((utf8 s.2).length + s.1.len + 2)) 0

theorem unitBytes_append (a b : List UInt16) : unitBytes (a ++ b) = unitBytes a ++ unitBytes b := by
  simp [unitBytes]

theorem foldl_segs (segs : List (LangId × List Char)) (buf : Buf) :
    segs.foldl (fun b s => (utf16 s.2).foldl Buf.pushHexU16 (writeLangCode s.1 b)) buf
      = buf.extend ((unitBytes (segs.flatMap segUnits)).flatMap hex2) := by
  induction segs generalizing buf with
  | nil => simp [unitBytes]
  | cons s segs ih =>
    rw [List.foldl_cons, ih]
    simp only [List.flatMap_cons, unitBytes_append, List.flatMap_append, segUnits,
      foldl_pushHexU16, writeLangCode_eq, Buf.extend_extend, List.append_assoc]

theorem writeTextStrLang_eq (segs : List (LangId × List Char)) (buf : Buf) :
    writeTextStrLang segs buf
      = { inner := buf.inner ++ langBytes segs, limits := buf.limits.registerStrLen (langLen segs) } := by
  unfold writeTextStrLang langBytes langContent langLen
  simp only [foldl_segs, writeUtf16Header, writeUtf16Footer, pushHex_eq]
  simp [Buf.push, Buf.extend]

theorem tokenAt_langBytes (segs : List (LangId × List Char)) (r : Bytes) :
    tokenAt (langBytes segs ++ r) = some (.str (langContent segs), r) := by
  simp only [langBytes, List.cons_append, List.append_assoc]
  exact tokenAt_hexString _ r (Or.inr trivial)

/-- The character U+00XX of a code byte. -/
def codeChar (b : UInt8) : Char := Char.ofNat b.toNat

theorem codeChar_units : ∀ b : UInt8, utf16Char (codeChar b) = [b.toUInt16] :=
  forall_byte (by decide +kernel)

/-- The characters of a language escape. -/
def langChars (l : LangId) : List Char :=
  [escChar, codeChar l.lang.1, codeChar l.lang.2] ++
  (match l.region with
   | some r => [codeChar r.1, codeChar r.2]
   | none => []) ++ [escChar]

theorem langUnits_utf16 (l : LangId) : langUnits l = utf16 (langChars l) := by
  have he : utf16Char escChar = [0x001B] := by decide
  unfold langUnits langChars utf16
  cases l.region <;> simp [codeChar_units, he]

theorem segs_utf16 (segs : List (LangId × List Char)) :
    segs.flatMap segUnits = utf16 (segs.flatMap (fun s => langChars s.1 ++ s.2)) := by
  induction segs with
  | nil => rfl
  | cons s segs ih =>
    have : ∀ a b : List Char, utf16 (a ++ b) = utf16 a ++ utf16 b := by intro a b; simp [utf16]
    simp only [List.flatMap_cons, ih, segUnits, langUnits_utf16, this, List.append_assoc]

theorem span_ne_esc (xs rest : List Char) (h : ∀ c ∈ xs, c ≠ escChar)
    (hr : rest = [] ∨ ∃ r, rest = escChar :: r) :
    (xs ++ rest).takeWhile (· ≠ escChar) = xs ∧ (xs ++ rest).dropWhile (· ≠ escChar) = rest := by
  induction xs with
  | nil =>
    rcases hr with rfl | ⟨r, rfl⟩ <;> simp
  | cons x xs ih =>
    have hx := h x (by simp)
    obtain ⟨h1, h2⟩ := ih (fun c hc => h c (by simp [hc]))
    simp [hx]
    exact ⟨by simpa using h1, by simpa using h2⟩

theorem takeWhile_code (xs rest : List Char) (h : ∀ c ∈ xs, c ≠ escChar) :
    (xs ++ escChar :: rest).takeWhile (· ≠ escChar) = xs ∧
    (xs ++ escChar :: rest).dropWhile (· ≠ escChar) = escChar :: rest :=
  span_ne_esc xs _ h (Or.inr ⟨rest, rfl⟩)

/-- The segment as a reader sees it. -/
def toSeg (s : LangId × List Char) : LangSeg :=
  ⟨(codeChar s.1.lang.1, codeChar s.1.lang.2), s.1.region.map (fun r => (codeChar r.1, codeChar r.2)), s.2⟩

/-- No code byte is the escape character. -/
def codeOk (l : LangId) : Prop :=
  l.lang.1 ≠ 0x1B ∧ l.lang.2 ≠ 0x1B ∧ ∀ r, l.region = some r → r.1 ≠ 0x1B ∧ r.2 ≠ 0x1B

theorem codeChar_ne_esc : ∀ b : UInt8, b ≠ 0x1B → codeChar b ≠ escChar :=
  forall_byte (by decide +kernel)

theorem langSegments_segs (segs : List (LangId × List Char))
    (h1 : ∀ s ∈ segs, codeOk s.1) (h2 : ∀ s ∈ segs, ∀ c ∈ s.2, c ≠ escChar) (fuel : Nat)
    (hf : segs.length ≤ fuel) :
    langSegments fuel (segs.flatMap (fun s => langChars s.1 ++ s.2)) = some (segs.map toSeg) := by
  induction segs generalizing fuel with
  | nil => cases fuel <;> simp [langSegments]
  | cons s segs ih =>
    cases fuel with
    | zero => simp at hf
    | succ fuel =>
      obtain ⟨⟨l, reg⟩, t⟩ := s
      have ih' := ih (fun x hx => h1 x (by simp [hx])) (fun x hx => h2 x (by simp [hx])) fuel (by simpa using hf)
      have hok := h1 (⟨l, reg⟩, t) (by simp)
      have ht := h2 (⟨l, reg⟩, t) (by simp)
      have hrest : segs.flatMap (fun s => langChars s.1 ++ s.2) = [] ∨
          ∃ r, segs.flatMap (fun s => langChars s.1 ++ s.2) = escChar :: r := by
        cases segs with
        | nil => simp
        | cons s' segs' => right; simp [langChars]
      obtain ⟨t1, t2⟩ := span_ne_esc t _ ht hrest
      have e1 := codeChar_ne_esc _ hok.1
      have e2 := codeChar_ne_esc _ hok.2.1
      cases reg with
      | none =>
        obtain ⟨c1, c2⟩ := takeWhile_code [codeChar l.1, codeChar l.2]
          (t ++ segs.flatMap (fun s => langChars s.1 ++ s.2)) (by simp; exact ⟨e1, e2⟩)
        simp only [List.cons_append, List.nil_append] at c1 c2
        simp only [List.flatMap_cons, langChars, List.cons_append, List.nil_append, List.append_assoc, langSegments,
          if_true]
        simp only [langChars, List.cons_append, List.nil_append, List.append_assoc] at c1 c2 t1 t2 ih'
        rw [c1, c2]
        simp only [t1, t2, ih']
        simp [toSeg]
      | some r =>
        have e3 := codeChar_ne_esc _ (hok.2.2 r rfl).1
        have e4 := codeChar_ne_esc _ (hok.2.2 r rfl).2
        obtain ⟨c1, c2⟩ := takeWhile_code [codeChar l.1, codeChar l.2, codeChar r.1, codeChar r.2]
          (t ++ segs.flatMap (fun s => langChars s.1 ++ s.2)) (by simp; exact ⟨e1, e2, e3, e4⟩)
        simp only [List.cons_append, List.nil_append] at c1 c2
        simp only [List.flatMap_cons, langChars, List.cons_append, List.nil_append, List.append_assoc, langSegments,
          if_true]
        simp only [langChars, List.cons_append, List.nil_append, List.append_assoc] at c1 c2 t1 t2 ih'
        rw [c1, c2]
        simp only [t1, t2, ih']
        simp [toSeg]

theorem decodeLangText_langContent (segs : List (LangId × List Char))
    (h1 : ∀ s ∈ segs, codeOk s.1) (h2 : ∀ s ∈ segs, ∀ c ∈ s.2, c ≠ escChar) :
    decodeLangText (langContent segs) = some (segs.map toSeg) := by
  have hd : decodeText (langContent segs) = some (segs.flatMap (fun s => langChars s.1 ++ s.2)) := by
    simp [decodeText, langContent, units_unitBytes, segs_utf16, decodeUtf16_utf16]
  have hl : segs.length ≤ (segs.flatMap (fun s => langChars s.1 ++ s.2)).length := by
    clear hd h1 h2
    induction segs with
    | nil => simp
    | cons s segs ih =>
      have : 1 ≤ (langChars s.1).length := by simp [langChars]
      simp only [List.flatMap_cons, List.length_append, List.length_cons]; omega
  have he := langSegments_segs segs h1 h2 _ hl
  have : decodeLangText (langContent segs)
      = (decodeText (langContent segs)).bind (fun t => langSegments t.length t) := by
    simp [decodeLangText, langContent]
  rw [this, hd]
  simpa using he

/-! ## Dates -/

theorem padNat_four (y : Nat) (h : y ≤ 9999) : ∃ a b c d, Date.padNat 4 y = [a, b, c, d] ∧
    [a, b, c, d].all isDigit = true ∧ digitsVal [a, b, c, d] = y := by
  have h1 := padNat_length 4 y (by omega) (by omega)
  have h2 := padNat_digits 4 y
  have h3 := digitsVal_padNat 4 y
  match hp : Date.padNat 4 y, h1 with
  | [a, b, c, d], _ =>
    rw [hp] at h2 h3
    exact ⟨a, b, c, d, rfl, h2, h3⟩

theorem padNat_two (y : Nat) (h : y ≤ 99) : ∃ a b, Date.padNat 2 y = [a, b] ∧
    isDigit a = true ∧ isDigit b = true ∧ digitsVal [a, b] = y := by
  have h1 := padNat_length 2 y (by omega) (by omega)
  have h2 := padNat_digits 2 y
  have h3 := digitsVal_padNat 2 y
  match hp : Date.padNat 2 y, h1 with
  | [a, b], _ =>
    rw [hp] at h2 h3
    simp at h2
    exact ⟨a, b, rfl, h2.1, h2.2, h3⟩

theorem twoDigits_pad (lo hi v : Nat) (r : Bytes) (h1 : lo ≤ v) (h2 : v ≤ hi) (h3 : v ≤ 99) :
    twoDigits lo hi (Date.padNat 2 v ++ r) = some (v, r) := by
  obtain ⟨a, b, e, d1, d2, d3⟩ := padNat_two v h3
  simp [e, twoDigits, d1, d2, d3, h1, h2]

theorem padNat_two_ne_nil (v : Nat) (h : v ≤ 99) (r : Bytes) : Date.padNat 2 v ++ r ≠ [] := by
  obtain ⟨a, b, e, -⟩ := padNat_two v h; simp [e]

/-- Text of a date after `D:`. -/
def dateText (d : Date) : Bytes :=
  Date.padNat 4 d.year ++
  match d.month with
  | none => []
  | some month => Date.padNat 2 month ++
  match d.day with
  | none => []
  | some day => Date.padNat 2 day ++
  match d.hour with
  | none => []
  | some hour => Date.padNat 2 hour ++
  match d.minute with
  | none => []
  | some minute => Date.padNat 2 minute ++
  match d.second with
  | none => []
  | some second => Date.padNat 2 second ++
  match d.utcOffsetHour with
  | none => []
  | some off =>
    if off = 0 ∧ d.utcOffsetMinute = 0 then b!"Z"
    else Date.padSigned off ++ b!"'" ++ Date.padNat 2 d.utcOffsetMinute

/-- The content bytes of the date string. -/
def dateContent (d : Date) : Bytes := b!"D:" ++ dateText d

theorem writeFields_eq (d : Date) (buf : Buf) : d.writeFields buf = buf.extend (dateText d) := by
  unfold Date.writeFields dateText
  cases d.month with
  | none => simp
  | some mo =>
  cases d.day with
  | none => simp
  | some da =>
  cases d.hour with
  | none => simp
  | some ho =>
  cases d.minute with
  | none => simp
  | some mi =>
  cases d.second with
  | none => simp
  | some se =>
  cases d.utcOffsetHour with
  | none => simp
  | some off =>
    simp only
    split <;> simp [Buf.push_eq]

theorem writeDate_eq (d : Date) (buf : Buf) :
    writeDate d buf = { inner := buf.inner ++ (ch!"(" :: (dateContent d ++ [ch!")"])), limits := buf.limits } := by
  simp [writeDate, writeFields_eq, dateContent, Buf.push, Buf.extend]

/-- Fields within the ranges that the setters enforce. -/
structure DateOk (d : Date) : Prop where
  year : d.year ≤ 9999
  month : ∀ v, d.month = some v → 1 ≤ v ∧ v ≤ 12
  day : ∀ v, d.day = some v → 1 ≤ v ∧ v ≤ 31
  hour : ∀ v, d.hour = some v → v ≤ 23
  minute : ∀ v, d.minute = some v → v ≤ 59
  second : ∀ v, d.second = some v → v ≤ 59
  offh : ∀ v, d.utcOffsetHour = some v → -23 ≤ v ∧ v ≤ 23
  offm : d.utcOffsetMinute ≤ 59

/-- The value a date denotes: fields up to the first missing one; the minutes of the offset carry the sign of the
hours. -/
def dateVal (d : Date) : DateVal :=
  match d.month with
  | none => ⟨d.year, none, none, none, none, none, none⟩
  | some mo =>
  match d.day with
  | none => ⟨d.year, some mo, none, none, none, none, none⟩
  | some da =>
  match d.hour with
  | none => ⟨d.year, some mo, some da, none, none, none, none⟩
  | some ho =>
  match d.minute with
  | none => ⟨d.year, some mo, some da, some ho, none, none, none⟩
  | some mi =>
  match d.second with
  | none => ⟨d.year, some mo, some da, some ho, some mi, none, none⟩
  | some se =>
  match d.utcOffsetHour with
  | none => ⟨d.year, some mo, some da, some ho, some mi, some se, none⟩
  | some off => ⟨d.year, some mo, some da, some ho, some mi, some se,
      some (if off < 0 then off * 60 - d.utcOffsetMinute else off * 60 + d.utcOffsetMinute)⟩

theorem readOffset_signed (off : Int) (m : Nat) (h1 : -23 ≤ off) (h2 : off ≤ 23) (h3 : m ≤ 59) :
    readOffset (Date.padSigned off ++ b!"'" ++ Date.padNat 2 m)
      = some (if off < 0 then off * 60 - m else off * 60 + m) := by
  have hn : off.natAbs ≤ 23 := by omega
  have t1 := twoDigits_pad 0 23 off.natAbs (b!"'" ++ Date.padNat 2 m) (by omega) hn (by omega)
  have t2 := twoDigits_pad 0 59 m [] (by omega) h3 (by omega)
  simp only [List.append_nil] at t2
  unfold Date.padSigned
  by_cases hneg : off < 0
  · simp only [hneg, if_true, List.cons_append, List.nil_append, List.append_assoc, readOffset]
    simp only [List.cons_append, List.nil_append] at t1
    rw [t1]
    simp [t2]
    omega
  · simp only [hneg, if_false, List.cons_append, List.nil_append, List.append_assoc, readOffset]
    simp only [List.cons_append, List.nil_append] at t1
    rw [t1]
    simp [t2]
    omega

theorem readDate_dateContent (d : Date) (h : DateOk d) : readDate (dateContent d) = some (dateVal d) := by
  obtain ⟨hy, hmo, hda, hho, hmi, hse, hoh, hom⟩ := h
  obtain ⟨a, b, c, e, hp, hd, hv⟩ := padNat_four d.year hy
  have step : ∀ r, readDate (b!"D:" ++ (Date.padNat 4 d.year ++ r)) =
      if r = [] then some ⟨d.year, none, none, none, none, none, none⟩ else
      match twoDigits 1 12 r with
      | none => none
      | some (mo, r) =>
      if r = [] then some ⟨d.year, some mo, none, none, none, none, none⟩ else
      match twoDigits 1 31 r with
      | none => none
      | some (da, r) =>
      if r = [] then some ⟨d.year, some mo, some da, none, none, none, none⟩ else
      match twoDigits 0 23 r with
      | none => none
      | some (ho, r) =>
      if r = [] then some ⟨d.year, some mo, some da, some ho, none, none, none⟩ else
      match twoDigits 0 59 r with
      | none => none
      | some (mi, r) =>
      if r = [] then some ⟨d.year, some mo, some da, some ho, some mi, none, none⟩ else
      match twoDigits 0 59 r with
      | none => none
      | some (se, r) =>
      if r = [] then some ⟨d.year, some mo, some da, some ho, some mi, some se, none⟩ else
      match readOffset r with
      | none => none
      | some o => some ⟨d.year, some mo, some da, some ho, some mi, some se, some o⟩ := by
    intro r
    rw [hp]
    simp only [List.cons_append, List.nil_append, readDate]
    rw [if_pos ⟨trivial, trivial, hd⟩, hv]
    rfl
  unfold dateContent dateText
  rw [step]
  clear step
  unfold dateVal
  cases hmo' : d.month with
  | none => simp
  | some mo =>
  have b1 := hmo mo hmo'
  simp only
  rw [if_neg (padNat_two_ne_nil mo (by omega) _), twoDigits_pad 1 12 mo _ b1.1 b1.2 (by omega)]
  cases hda' : d.day with
  | none => simp
  | some da =>
  have b2 := hda da hda'
  simp only
  rw [if_neg (padNat_two_ne_nil da (by omega) _), twoDigits_pad 1 31 da _ b2.1 b2.2 (by omega)]
  cases hho' : d.hour with
  | none => simp
  | some ho =>
  have b3 := hho ho hho'
  simp only
  rw [if_neg (padNat_two_ne_nil ho (by omega) _), twoDigits_pad 0 23 ho _ (by omega) b3 (by omega)]
  cases hmi' : d.minute with
  | none => simp
  | some mi =>
  have b4 := hmi mi hmi'
  simp only
  rw [if_neg (padNat_two_ne_nil mi (by omega) _), twoDigits_pad 0 59 mi _ (by omega) b4 (by omega)]
  cases hse' : d.second with
  | none => simp
  | some se =>
  have b5 := hse se hse'
  simp only
  rw [if_neg (padNat_two_ne_nil se (by omega) _), twoDigits_pad 0 59 se _ (by omega) b5 (by omega)]
  cases hoh' : d.utcOffsetHour with
  | none => simp
  | some off =>
  have b6 := hoh off hoh'
  simp only
  split
  · rename_i hz
    simp [readOffset, hz]
  · rw [if_neg (by simp [Date.padSigned]), readOffset_signed off _ b6.1 b6.2 hom]

/-- Date contents only use digits and the characters `D:Z'+-`, which need no escape in a literal string. -/
theorem dateText_chars (d : Date) : (dateText d).all (fun b => isDigit b || b == ch!"Z" || b == ch!"'" || b == ch!"+" || b == ch!"-") = true := by
  have dg : ∀ ds : Bytes, ds.all isDigit = true →
      ds.all (fun b => isDigit b || b == ch!"Z" || b == ch!"'" || b == ch!"+" || b == ch!"-") = true := by
    intro ds h
    rw [List.all_eq_true] at h ⊢
    intro b hb; simp [h b hb]
  have pd : ∀ w n, (Date.padNat w n).all (fun b => isDigit b || b == ch!"Z" || b == ch!"'" || b == ch!"+" || b == ch!"-") = true := by
    intro w n
    apply dg
    unfold Date.padNat
    simp only [List.all_append, natBytes_digits, Bool.and_true]
    simp [List.all_replicate]
    right; decide
  have ps : ∀ i, (Date.padSigned i).all (fun b => isDigit b || b == ch!"Z" || b == ch!"'" || b == ch!"+" || b == ch!"-") = true := by
    intro i
    unfold Date.padSigned
    simp only [List.all_cons, pd, Bool.and_true]
    split <;> decide
  unfold dateText
  repeat' split
  all_goals simp only [List.all_append, pd, ps, Bool.true_and, Bool.and_true, List.all_nil]
  all_goals decide

theorem readLit_plain (xs rest : Bytes) (h : ∀ b ∈ xs, b ≠ 40 ∧ b ≠ 41 ∧ b ≠ 92 ∧ b ≠ 13) :
    readLit 0 (xs ++ ch!")" :: rest) = some (xs, rest) := by
  induction xs with
  | nil => simp; rw [readLit.eq_def]; simp
  | cons x xs ih =>
    obtain ⟨h1, h2, h3, h4⟩ := h x (by simp)
    simp only [List.cons_append]
    rw [readLit.eq_def]
    simp [h1, h2, h3, h4, ih (fun b hb => h b (by simp [hb])), consFst]

theorem tokenAt_date (d : Date) (rest : Bytes) :
    tokenAt ((ch!"(" :: (dateContent d ++ [ch!")"])) ++ rest) = some (.str (dateContent d), rest) := by
  have hall := dateText_chars d
  rw [List.all_eq_true] at hall
  have : readLit 0 (dateContent d ++ ch!")" :: rest) = some (dateContent d, rest) := by
    apply readLit_plain
    intro b hb
    have cf : ∀ b : UInt8, (isDigit b || b == ch!"Z" || b == ch!"'" || b == ch!"+" || b == ch!"-") = true →
        b ≠ 40 ∧ b ≠ 41 ∧ b ≠ 92 ∧ b ≠ 13 := forall_byte (by decide +kernel)
    simp only [dateContent, List.cons_append, List.nil_append, List.mem_cons] at hb
    rcases hb with rfl | rfl | hb
    · decide
    · decide
    · exact cf b (hall b hb)
  simp only [List.cons_append, List.append_assoc, List.nil_append, tokenAt, if_true, this]

end PdfW
