import Verif.Proof.Patch
import Verif.Proof.Read
import Verif.Spec.History

/-! # Lemmas: the bytes of chunks and documents are a sequence of headers and objects -/

set_option linter.unusedSimpArgs false
set_option linter.unusedVariables false

namespace PdfW
open Spec

/-! ## Spelling of indirect objects -/

/-- Entries of a stream dictionary. -/
def streamEntries (es : List (Bytes × Prog)) (data : Bytes) : List (Bytes × Prog) :=
  (b!"Length", .prim (.int data.length)) :: es

def bodyBytes (pretty : Bool) : Body → Bytes
  | .val p => enc pretty 0 false (some ch!"\n") p
  | .stream es data => b!"<<" ++ (encEntries pretty 2 (streamEntries es data) ++ (lineSep pretty 0 ++ (b!">>" ++
      (b!"\nstream\n" ++ (data ++ b!"\nendstream")))))

def headBytes (id : Ref) : Bytes := intBytes id.id ++ b!" 0 obj\n"

def endBytes (nl : Bool) : Bytes := b!"\nendobj\n" ++ (if nl then b!"\n" else [])

def itemBytes (it : Item) (nl : Bool) : Bytes :=
  headBytes it.id ++ (bodyBytes it.pretty it.body ++ (if started it.body then endBytes nl else []))

theorem itemBytes_started {it : Item} (h : started it.body = true) (nl : Bool) :
    itemBytes it nl = headBytes it.id ++ (bodyBytes it.pretty it.body ++ endBytes nl) := by simp [itemBytes, h]

theorem itemBytes_unstarted {it : Item} (h : started it.body = false) (nl : Bool) : itemBytes it nl = headBytes it.id := by
  obtain ⟨id, body, pretty⟩ := it
  match body with
  | .val .unused => simp [itemBytes, started, bodyBytes, enc]
  | .val (.prim _) | .val (.array _) | .val (.dict _) | .stream _ _ => simp [started] at h

theorem started_val (p : Prog) : started (.val p) = p.used := by cases p <;> rfl

def bodyLimits : Body → Limits → Limits
  | .val p, l => progLimits p l
  | .stream es data, l => (entriesLimits (streamEntries es data) l).registerDictEntries (streamEntries es data).length

theorem writeIndirect_eq (c : Chunk) (id : Ref) (p : Prog) :
    c.writeIndirect id p =
      { buf := ⟨c.buf.inner ++ itemBytes ⟨id, .val p, c.pretty⟩ c.pretty, bodyLimits (.val p) (c.buf.limits.registerInt id.id)⟩
        offsets := c.offsets ++ [(id, c.buf.len)]
        pretty := c.pretty } := by
  simp only [Chunk.writeIndirect, Chunk.indirect, Obj.startIndirect, run_eq, pushInt_eq, Buf.extend, Ref.get]
  have e : enc c.pretty 0 false (c.buf.inner ++ intBytes id.id ++ b!" 0 obj\n").getLast? p = enc c.pretty 0 false (some ch!"\n") p := by
    rw [getLast?_append_ne (by simp)]; rfl
  rw [e]
  simp only [itemBytes, started_val]
  cases p.used <;> simp [headBytes, bodyBytes, endBytes, tailBytes, bodyLimits]

theorem writeStream_eq (c : Chunk) (id : Ref) (es : List (Bytes × Prog)) (data : Bytes) :
    c.writeStream id es data = if data.length ≤ 2147483647 then some
      { buf := ⟨c.buf.inner ++ itemBytes ⟨id, .stream es data, c.pretty⟩ c.pretty,
          bodyLimits (.stream es data) (c.buf.limits.registerInt id.id)⟩
        offsets := c.offsets ++ [(id, c.buf.len)]
        pretty := c.pretty } else none := by
  simp only [Chunk.writeStream, Chunk.indirect, Obj.startIndirect, runStream, streamStart, if_true, pushInt_eq, Buf.extend, Ref.get,
    Dict.start]
  by_cases hl : data.length ≤ 2147483647
  · simp only [hl, if_true, insert_eq]
    have hpad : ∀ (b : Buf) (i : Int), (Obj.direct 2 c.pretty (!c.pretty)).primitive (.int i) b =
        ⟨b.inner ++ enc c.pretty 2 (!c.pretty) b.inner.getLast? (.prim (.int i)), b.limits.registerInt i⟩ := by
      intro b i
      have := run_eq (.prim (.int i)) (Obj.direct 2 c.pretty (!c.pretty)) b
      simpa [Prog.run, Obj.direct, tailBytes, progLimits, primLimits] using this
    have e0 : saturatingAdd 0 2 = 2 := by decide
    simp only [e0, hpad, runEntries_eq, streamDrop, Buf.extend]
    have e1 : ∀ x : Bytes, enc c.pretty 2 (!c.pretty) (x ++ (lineSep c.pretty 2 ++ (nameBytes b!"Length" ++ keySep c.pretty))).getLast?
        (.prim (.int data.length)) = enc c.pretty 2 (!c.pretty) (nameBytes b!"Length").getLast? (.prim (.int data.length)) := by
      intro x
      cases hp : c.pretty
      · simp only [lineSep, keySep, Bool.false_eq_true, if_false, List.nil_append, List.append_nil]
        rw [getLast?_append_ne (by simp [nameBytes])]
      · simp [enc, padOf]
    simp only [e1]
    cases hp : c.pretty <;>
    simp [itemBytes, started, headBytes, bodyBytes, endBytes, bodyLimits, streamEntries, encEntries, entriesLimits, progLimits, primLimits,
      lineSep, spaces, Nat.add_comm]
  · simp only [hl, if_false]

/-! ## Pieces -/

/-- A document header or an indirect object (with or without a blank line after it). -/
inductive Piece where
  | header (major minor : UInt8) (m : UInt8 × UInt8 × UInt8 × UInt8)
  | item (it : Item) (nl : Bool)

def headerBytes (major minor : UInt8) (m : UInt8 × UInt8 × UInt8 × UInt8) : Bytes :=
  b!"%PDF-" ++ [major, ch!".", minor, ch!"\n", ch!"%", m.1, m.2.1, m.2.2.1, m.2.2.2, ch!"\n", ch!"\n"]

def Piece.bytes : Piece → Bytes
  | .header a b m => headerBytes a b m
  | .item it nl => itemBytes it nl

/-- Stream data fits the `/Length` entry. -/
def dataOk : Body → Prop
  | .val _ => True
  | .stream _ data => data.length ≤ 2147483647

def Piece.ok : Piece → Prop
  | .header a b _ => isDigit a = true ∧ isDigit b = true
  | .item it _ => dataOk it.body

def piecesBytes : List Piece → Bytes
  | [] => []
  | p :: ps => p.bytes ++ piecesBytes ps

def piecesItems : List Piece → List Item
  | [] => []
  | .header _ _ _ :: ps => piecesItems ps
  | .item it _ :: ps => it :: piecesItems ps

/-- Offsets of the objects when the first piece starts at `base`. -/
def offs (base : Nat) : List Piece → List (Ref × Nat)
  | [] => []
  | .header a b m :: ps => offs (base + (Piece.header a b m).bytes.length) ps
  | .item it nl :: ps => (it.id, base) :: offs (base + (Piece.item it nl).bytes.length) ps

theorem piecesBytes_append (a b : List Piece) : piecesBytes (a ++ b) = piecesBytes a ++ piecesBytes b := by
  induction a with
  | nil => rfl
  | cons p a ih => simp [piecesBytes, ih]

theorem piecesItems_append (a b : List Piece) : piecesItems (a ++ b) = piecesItems a ++ piecesItems b := by
  induction a with
  | nil => rfl
  | cons p a ih => cases p <;> simp [piecesItems, ih]

theorem offs_append (base : Nat) (a b : List Piece) :
    offs base (a ++ b) = offs base a ++ offs (base + (piecesBytes a).length) b := by
  induction a generalizing base with
  | nil => simp [offs, piecesBytes]
  | cons p a ih => cases p <;> simp [offs, piecesBytes, ih, Nat.add_assoc]

theorem offs_shift (base k : Nat) (a : List Piece) : offs (k + base) a = (offs base a).map (fun p => (p.1, k + p.2)) := by
  induction a generalizing base with
  | nil => rfl
  | cons p a ih =>
    cases p <;> simp only [offs, List.map_cons, Nat.add_assoc, ih]

theorem offs_refs (base : Nat) (a : List Piece) : (offs base a).map (·.1) = (piecesItems a).map (·.id) := by
  induction a generalizing base with
  | nil => rfl
  | cons p a ih => cases p <;> simp [offs, piecesItems, ih]

/-- A chunk consists of these pieces. -/
structure Layout (c : Chunk) (ps : List Piece) : Prop where
  bytes : c.buf.inner = piecesBytes ps
  offsets : c.offsets = offs 0 ps
  ok : ∀ p ∈ ps, p.ok

/-! ## Searching -/

theorem findSub_none_cons (n : Bytes) (b : UInt8) (r : Bytes) (h1 : n.isPrefixOf (b :: r) = false) (h2 : findSub n r = none) :
    findSub n (b :: r) = none := by simp [findSub, h1, h2]

theorem prefix_endobj_ne (b : UInt8) (r : Bytes) (h : b ≠ ch!"e") : (b!"endobj").isPrefixOf (b :: r) = false := by
  simp only [List.isPrefixOf]
  have : ((101 : UInt8) == b) = false := beq_eq_false_iff_ne.mpr (Ne.symm h)
  rw [this]; rfl

theorem digit_ne_e : ∀ b : UInt8, isDigit b = true → b ≠ ch!"e" := forall_byte (by decide +kernel)

theorem noEnd_header (a b : UInt8) (m : UInt8 × UInt8 × UInt8 × UInt8) (r : Bytes) (ha : isDigit a = true) (hb : isDigit b = true)
    (hr : findSub b!"endobj" r = none) : findSub b!"endobj" (headerBytes a b m ++ r) = none := by
  obtain ⟨m1, m2, m3, m4⟩ := m
  simp only [headerBytes, List.cons_append, List.nil_append]
  have hcomma : ∀ (x : UInt8) (r : Bytes), x ≠ ch!"e" → findSub b!"endobj" r = none → findSub b!"endobj" (x :: r) = none :=
    fun x r hx h => findSub_none_cons _ _ _ (prefix_endobj_ne x r hx) h
  apply hcomma _ _ (by decide); apply hcomma _ _ (by decide); apply hcomma _ _ (by decide); apply hcomma _ _ (by decide)
  apply hcomma _ _ (by decide); apply hcomma _ _ (digit_ne_e a ha); apply hcomma _ _ (by decide); apply hcomma _ _ (digit_ne_e b hb)
  apply hcomma _ _ (by decide); apply hcomma _ _ (by decide)
  apply findSub_none_cons
  · simp [List.isPrefixOf]
  apply findSub_none_cons
  · simp [List.isPrefixOf]
  apply findSub_none_cons
  · simp [List.isPrefixOf]
  apply findSub_none_cons
  · simp [List.isPrefixOf]
  apply hcomma _ _ (by decide); apply hcomma _ _ (by decide)
  exact hr

theorem rfindSub_none_of_findSub (n : Bytes) (hn : n ≠ []) (t : Bytes) (h : findSub n t = none) : rfindSub n t = none := by
  induction t with
  | nil => rfl
  | cons b t ih =>
    simp only [findSub] at h
    split at h
    · simp at h
    · rename_i hp
      have : findSub n t = none := by simpa using h
      simp [rfindSub, ih this, hp]

theorem rfindSub_append_some (n : Bytes) (x t : Bytes) (i : Nat) (h : rfindSub n t = some i) :
    rfindSub n (x ++ t) = some (x.length + i) := by
  induction x with
  | nil => simpa using h
  | cons b x ih => simp [rfindSub, ih]; omega

/-- The last `endobj` in an object followed by headers. -/
theorem rfind_end (x t : Bytes) (ht : findSub b!"endobj" t = none) : rfindSub b!"endobj" (x ++ (b!"endobj" ++ t)) = some x.length := by
  have h0 : rfindSub b!"endobj" (b!"endobj" ++ t) = some 0 := by
    have h := rfindSub_none_of_findSub _ (by simp) t ht
    simp [rfindSub, h, List.isPrefixOf]
  have := rfindSub_append_some b!"endobj" x _ 0 h0
  simpa using this

theorem findSub_skip (n : Bytes) (c : UInt8) (n' : Bytes) (hn : n = c :: n') (x t : Bytes) (hx : ∀ b ∈ x, b ≠ c) (i : Nat)
    (h : findSub n t = some i) : findSub n (x ++ t) = some (x.length + i) := by
  subst hn
  induction x with
  | nil => simpa using h
  | cons b x ih =>
    have hb : (c :: n').isPrefixOf (b :: (x ++ t)) = false := by
      simp only [List.isPrefixOf]
      have : (c == b) = false := beq_eq_false_iff_ne.mpr (Ne.symm (hx b (by simp)))
      rw [this]; rfl
    simp [findSub, hb, ih (fun b hb => hx b (by simp [hb]))]; omega

/-! ## Last bytes -/

theorem isDelim_notwhite : ∀ b : UInt8, isDelim b = true → isWhite b = false := forall_byte (by decide +kernel)
theorem isRegular_notwhite : ∀ b : UInt8, isRegular b = true → isWhite b = false := forall_byte (by decide +kernel)

def lastNW (x : Bytes) : Prop := ∀ b ∈ x.getLast?, isWhite b = false

theorem lastNW_append {a b : Bytes} (hb : b ≠ []) (h : lastNW b) : lastNW (a ++ b) := by
  unfold lastNW; rw [getLast?_append_ne hb]; exact h

theorem lastNW_all {p : UInt8 → Bool} {x : Bytes} (h : x.all p = true) (hp : ∀ b, p b = true → isWhite b = false) : lastNW x := by
  intro b hb
  have hm := List.mem_of_getLast? hb
  rw [List.all_eq_true] at h
  exact hp b (h b hm)

theorem lastNW_cons {a : UInt8} {b : Bytes} (hb : b ≠ []) (h : lastNW b) : lastNW (a :: b) := lastNW_append (a := [a]) hb h

theorem realBytes_nonwhite (v : F32) : v.realBytes.all (fun b => !isWhite b) = true := by
  have hd : ∀ b : UInt8, (F32.isDec b || b == 45) = true → (!isWhite b) = true := forall_byte (by decide +kernel)
  by_cases hf : v.isFinite = true
  · have h := (F32.realBytes_spells v hf).1
    rw [List.all_eq_true] at h ⊢
    intro b hb; exact hd b (h b hb)
  · unfold F32.realBytes
    split
    · have h := F32.intBytes_dec v.toI32
      rw [List.all_eq_true] at h ⊢
      intro b hb; exact hd b (h b hb)
    · unfold F32.decimalBytes F32.ryuFormat F32.displayFormat
      have hinf : ¬ v.mag.val < F32.infMag := by simpa [F32.isFinite] using hf
      have h0 : v.mag.val = F32.infMag ∨ v.isNaN = true := by
        simp only [F32.isNaN, decide_eq_true_eq]; omega
      rcases h0 with h0 | h0
      · have hn : v.isNaN = false := by simp [F32.isNaN, h0]
        simp only [hn, h0, if_true, Bool.false_eq_true, if_false]
        cases v.neg <;> split <;> decide
      · simp only [h0, if_true]
        split <;> decide

theorem intBytes_nonwhite (i : Int) : (intBytes i).all (fun b => !isWhite b) = true := by
  have hd : ∀ b : UInt8, (F32.isDec b || b == 45) = true → (!isWhite b) = true := forall_byte (by decide +kernel)
  have h := F32.intBytes_dec i
  rw [List.all_eq_true] at h ⊢
  intro b hb; exact hd b (h b hb)

theorem strBytes_edges (s : Bytes) : lastNW (strBytes s) ∧ ∀ b ∈ (strBytes s).head?, isWhite b = false := by
  unfold strBytes; split
  · exact ⟨lastNW_cons (by simp) (lastNW_append (by simp) (by intro b hb; simp at hb; rw [← hb]; decide)),
      by intro b hb; simp at hb; rw [← hb]; decide⟩
  · exact ⟨lastNW_cons (by simp) (lastNW_append (by simp) (by intro b hb; simp at hb; rw [← hb]; decide)),
      by intro b hb; simp at hb; rw [← hb]; decide⟩

theorem headNW_all {x : Bytes} (h : x.all (fun b => !isWhite b) = true) : ∀ b ∈ x.head?, isWhite b = false := by
  intro b hb
  have hm := List.mem_of_mem_head? hb
  rw [List.all_eq_true] at h
  simpa using h b hm

theorem lastNW_all' {x : Bytes} (h : x.all (fun b => !isWhite b) = true) : lastNW x :=
  lastNW_all h (by intro b hb; simpa using hb)

theorem head_append_ne {a b : Bytes} (h : a ≠ []) : (a ++ b).head? = a.head? := by cases a <;> simp_all

/-- A primitive neither starts nor ends with white space. -/
theorem primBytes_edges (p : Prim) : lastNW (primBytes p) ∧ ∀ b ∈ (primBytes p).head?, isWhite b = false := by
  have lit : ∀ x : Bytes, x.all (fun b => !isWhite b) = true → lastNW x ∧ ∀ b ∈ x.head?, isWhite b = false :=
    fun x h => ⟨lastNW_all' h, headNW_all h⟩
  have closed : ∀ (a c : UInt8) (x : Bytes), isWhite a = false → isWhite c = false →
      lastNW (a :: (x ++ [c])) ∧ ∀ b ∈ (a :: (x ++ [c])).head?, isWhite b = false := by
    intro a c x ha hc
    exact ⟨lastNW_cons (by simp) (lastNW_append (by simp) (by intro b hb; simp at hb; rw [← hb]; exact hc)),
      by intro b hb; simp at hb; rw [← hb]; exact ha⟩
  cases p with
  | null => exact lit _ (by decide)
  | bool v => cases v <;> exact lit _ (by decide)
  | int v => exact lit _ (intBytes_nonwhite v)
  | real v => exact lit _ (realBytes_nonwhite v)
  | str s => exact strBytes_edges s
  | textStr t =>
    simp only [primBytes, textBytes]; split
    · exact strBytes_edges _
    · exact closed _ _ _ (by decide) (by decide)
  | textStrLang segs => exact closed _ _ _ (by decide) (by decide)
  | name n =>
    simp only [primBytes, nameBytes]
    refine lit _ ?_
    have := nameBytes_regular n
    rw [List.all_eq_true] at this
    simp only [List.all_cons, List.all_eq_true, Bool.and_eq_true]
    exact ⟨by decide, fun b hb => by simp [isRegular_notwhite b (this b hb)]⟩
  | ref r =>
    refine ⟨lastNW_append (by simp) (by intro b hb; simp at hb; rw [← hb]; decide), ?_⟩
    simp only [primBytes]
    rw [head_append_ne (intBytes_ne_nil _)]
    exact headNW_all (intBytes_nonwhite _)
  | rect r =>
    have : rectBytes r = ch!"[" :: ((r.x1.realBytes ++ ch!" " :: (r.y1.realBytes ++ ch!" " :: (r.x2.realBytes ++ ch!" " :: (r.y2.realBytes)))) ++ [ch!"]"]) := by
      simp [rectBytes]
    simp only [primBytes, this]
    exact closed _ _ _ (by decide) (by decide)
  | date d => exact closed _ _ _ (by decide) (by decide)

theorem bodyBytes_edges (pretty : Bool) (b : Body) (hst : started b = true) :
    bodyBytes pretty b ≠ [] ∧ lastNW (bodyBytes pretty b) ∧ ∀ x ∈ (bodyBytes pretty b).head?, isWhite x = false := by
  cases b with
  | val p =>
    refine ⟨enc_ne_nil _ _ _ _ _ (by rw [← started_val]; exact hst), ?_⟩
    cases p with
    | unused => simp [started] at hst
    | prim p => simpa [bodyBytes, enc, padOf] using primBytes_edges p
    | array items =>
      simp only [bodyBytes, enc]
      exact ⟨lastNW_cons (by simp) (lastNW_append (by simp) (by intro b hb; simp at hb; rw [← hb]; decide)),
        by intro b hb; simp at hb; rw [← hb]; decide⟩
    | dict entries =>
      simp only [bodyBytes, enc]
      exact ⟨lastNW_append (by simp) (lastNW_append (by simp) (lastNW_append (by simp) (by intro b hb; simp at hb; rw [← hb]; decide))),
        by intro b hb; simp at hb; rw [← hb]; decide⟩
  | stream es data =>
    refine ⟨by simp [bodyBytes], ?_, by intro b hb; simp [bodyBytes] at hb; rw [← hb]; decide⟩
    simp only [bodyBytes]
    refine lastNW_append (by simp) (lastNW_append (by simp) (lastNW_append (by simp) (lastNW_append (by simp)
      (lastNW_append (by simp) (lastNW_append (by simp) (by intro b hb; simp at hb; rw [← hb]; decide))))))

/-! ## Extracting an object -/

theorem takeWhile_white_body (x : Bytes) (hne : x ≠ []) (h : ∀ b ∈ x.head?, isWhite b = false) (t : Bytes) :
    (x ++ t).takeWhile isWhitespace = [] := by
  cases x with
  | nil => exact absurd rfl hne
  | cons b x =>
    have := h b (by simp)
    simp [List.takeWhile_cons, isWhitespace_eq, this]

theorem extractObject_item (it : Item) (hst : started it.body = true) (nl : Bool) (t : Bytes) (ht : findSub b!"endobj" t = none) :
    extractObject (itemBytes it nl ++ t) = some (0, bodyBytes it.pretty it.body) := by
  obtain ⟨hne, hlast, hhead⟩ := bodyBytes_edges it.pretty it.body hst
  generalize hB : bodyBytes it.pretty it.body = B at *
  have hp := it.id.pos
  have hdig : (natBytes it.id.id.toNat).all isDigit = true := natBytes_digits _
  have hid := intBytes_pos _ hp
  -- the whole slice
  have hs : itemBytes it nl ++ t = (intBytes it.id.id ++ b!" 0 ") ++ (b!"obj" ++ (b!"\n" ++ (B ++ (b!"\n" ++ (b!"endobj" ++
      (b!"\n" ++ ((if nl then b!"\n" else []) ++ t))))))) := by
    simp [itemBytes_started hst, headBytes, hB, endBytes]
  have hf : findSub b!"obj" (itemBytes it nl ++ t) = some ((intBytes it.id.id).length + 3) := by
    rw [hs]
    have h0 : ∀ r, findSub b!"obj" (b!"obj" ++ r) = some 0 := by intro r; simp [findSub, List.isPrefixOf]
    have := findSub_skip b!"obj" ch!"o" b!"bj" rfl (intBytes it.id.id ++ b!" 0 ") _ (by
      intro b hb
      simp only [List.mem_append] at hb
      rcases hb with hb | hb
      · rw [hid] at hb
        rw [List.all_eq_true] at hdig
        have f : ∀ b : UInt8, isDigit b = true → b ≠ ch!"o" := forall_byte (by decide +kernel)
        exact f b (hdig b hb)
      · have f : ∀ b ∈ b!" 0 ", b ≠ ch!"o" := by decide
        exact f b hb) 0 (h0 (b!"\n" ++ (B ++ (b!"\n" ++ (b!"endobj" ++ (b!"\n" ++ ((if nl then b!"\n" else []) ++ t)))))))
    simpa using this
  have hr : rfindSub b!"endobj" (itemBytes it nl ++ t) = some ((intBytes it.id.id).length + 3 + 3 + 1 + B.length + 1) := by
    have h2 : findSub b!"endobj" (b!"\n" ++ ((if nl then b!"\n" else []) ++ t)) = none := by
      have hc : ∀ r, findSub b!"endobj" r = none → findSub b!"endobj" (b!"\n" ++ r) = none :=
        fun r h => findSub_none_cons _ _ _ (prefix_endobj_ne _ _ (by decide)) h
      apply hc
      cases nl
      · simpa using ht
      · exact hc t ht
    have := rfind_end ((intBytes it.id.id ++ b!" 0 ") ++ (b!"obj" ++ (b!"\n" ++ (B ++ b!"\n")))) _ h2
    rw [hs]
    simp only [List.append_assoc] at this ⊢
    rw [this]
    simp; omega
  have htake1 : (itemBytes it nl ++ t).take ((intBytes it.id.id).length + 3) = intBytes it.id.id ++ b!" 0 " := by
    rw [hs]
    have : (intBytes it.id.id).length + 3 = (intBytes it.id.id ++ b!" 0 ").length := by simp
    rw [this, List.take_left]
  have e1 : eatSuffix (intBytes it.id.id ++ b!" 0 ") isWhitespace = (intBytes it.id.id ++ b!" 0", b!" ") := by
    have := eatSuffix_append (intBytes it.id.id ++ b!" 0") b!" " isWhitespace (by decide)
      (by intro x hx; rw [getLast?_append_ne (by simp)] at hx; simp at hx; rw [← hx]; decide)
    simpa using this
  have e2 : eatSuffix (intBytes it.id.id ++ b!" 0") isAsciiDigit = (intBytes it.id.id ++ b!" ", b!"0") := by
    have := eatSuffix_append (intBytes it.id.id ++ b!" ") b!"0" isAsciiDigit (by decide)
      (by intro x hx; rw [getLast?_append_ne (by simp)] at hx; simp at hx; rw [← hx]; decide)
    simpa using this
  have e3 : eatNumberRev (intBytes it.id.id ++ b!" 0") = some (0, intBytes it.id.id ++ b!" ") := by
    have e6 : parseI32 b!"0" = some 0 := by decide
    simp [eatNumberRev, e2, e6]
  have hdrop : (itemBytes it nl ++ t).drop ((intBytes it.id.id).length + 3 + 3) =
      b!"\n" ++ (B ++ (b!"\n" ++ (b!"endobj" ++ (b!"\n" ++ ((if nl then b!"\n" else []) ++ t))))) := by
    rw [hs, ← List.append_assoc]
    have : (intBytes it.id.id).length + 3 + 3 = ((intBytes it.id.id ++ b!" 0 ") ++ b!"obj").length := by simp
    rw [this, List.drop_left]
  have htw : ((itemBytes it nl ++ t).drop ((intBytes it.id.id).length + 3 + 3)).takeWhile isWhitespace = b!"\n" := by
    rw [hdrop]
    have : isWhitespace 10 = true := by decide
    simp only [List.cons_append, List.nil_append, List.takeWhile_cons, this, if_true]
    rw [takeWhile_white_body B hne hhead]
  have htake2 : (itemBytes it nl ++ t).take ((intBytes it.id.id).length + 3 + 3 + 1 + B.length + 1) =
      (((intBytes it.id.id ++ b!" 0 ") ++ b!"obj\n") ++ B) ++ b!"\n" := by
    rw [hs]
    have hl : (intBytes it.id.id).length + 3 + 3 + 1 + B.length + 1 = ((((intBytes it.id.id ++ b!" 0 ") ++ b!"obj\n") ++ B) ++ b!"\n").length := by
      simp; omega
    rw [hl]
    have : (intBytes it.id.id ++ b!" 0 ") ++ (b!"obj" ++ (b!"\n" ++ (B ++ (b!"\n" ++ (b!"endobj" ++
      (b!"\n" ++ ((if nl then b!"\n" else []) ++ t))))))) = ((((intBytes it.id.id ++ b!" 0 ") ++ b!"obj\n") ++ B) ++ b!"\n") ++ ((b!"endobj" ++
      (b!"\n" ++ ((if nl then b!"\n" else []) ++ t)))) := by simp
    rw [this, List.take_left]
  have e4 : eatSuffix ((((intBytes it.id.id ++ b!" 0 ") ++ b!"obj\n") ++ B) ++ b!"\n") isWhitespace =
      (((intBytes it.id.id ++ b!" 0 ") ++ b!"obj\n") ++ B, b!"\n") := by
    apply eatSuffix_append
    · decide
    · intro x hx
      rw [getLast?_append_ne hne] at hx
      exact hlast x hx
  have htake3 : (itemBytes it nl ++ t).take (((intBytes it.id.id ++ b!" 0 ") ++ b!"obj\n") ++ B).length =
      ((intBytes it.id.id ++ b!" 0 ") ++ b!"obj\n") ++ B := by
    rw [hs]
    have : (intBytes it.id.id ++ b!" 0 ") ++ (b!"obj" ++ (b!"\n" ++ (B ++ (b!"\n" ++ (b!"endobj" ++
      (b!"\n" ++ ((if nl then b!"\n" else []) ++ t))))))) = (((intBytes it.id.id ++ b!" 0 ") ++ b!"obj\n") ++ B) ++ (b!"\n" ++ (b!"endobj" ++
      (b!"\n" ++ ((if nl then b!"\n" else []) ++ t)))) := by simp
    rw [this, List.take_left]
  have hd3 : (((intBytes it.id.id ++ b!" 0 ") ++ b!"obj\n") ++ B).drop ((intBytes it.id.id).length + 3 + 3 + 1) = B := by
    have : (intBytes it.id.id).length + 3 + 3 + 1 = ((intBytes it.id.id ++ b!" 0 ") ++ b!"obj\n").length := by simp
    rw [this, List.drop_left]
  have hle : (intBytes it.id.id).length + 3 + 3 + 1 ≤ (((intBytes it.id.id ++ b!" 0 ") ++ b!"obj\n") ++ B).length := by
    simp; omega
  unfold extractObject
  simp only [hf, htake1, e1, e3, hr, htw, htake2, e4, htake3]
  simp only [List.length_cons, List.length_nil, Nat.zero_add, hd3, hle, if_true]

/-- Nothing can be extracted when nothing was written. -/
theorem extractObject_unstarted (it : Item) (hst : started it.body = false) (nl : Bool) (t : Bytes)
    (ht : findSub b!"endobj" t = none) : extractObject (itemBytes it nl ++ t) = none := by
  rw [itemBytes_unstarted hst]
  have hp := it.id.pos
  have hdig : (natBytes it.id.id.toNat).all isDigit = true := natBytes_digits _
  have hid := intBytes_pos _ hp
  have hskip : ∀ (x r : Bytes), (∀ b ∈ x, b ≠ ch!"e") → findSub b!"endobj" r = none → findSub b!"endobj" (x ++ r) = none := by
    intro x r hx hr
    induction x with
    | nil => exact hr
    | cons b x ih =>
      exact findSub_none_cons _ _ _ (prefix_endobj_ne b _ (hx b (by simp))) (ih fun b hb => hx b (by simp [hb]))
  have hno : findSub b!"endobj" (headBytes it.id ++ t) = none := by
    apply hskip _ _ _ ht
    intro b hb
    simp only [headBytes, List.mem_append] at hb
    rcases hb with hb | hb
    · rw [hid] at hb
      rw [List.all_eq_true] at hdig
      exact digit_ne_e b (hdig b hb)
    · have f : ∀ b ∈ b!" 0 obj\n", b ≠ ch!"e" := by decide
      exact f b hb
  have hr := rfindSub_none_of_findSub _ (by simp) _ hno
  unfold extractObject
  rw [hr]
  cases findSub b!"obj" (headBytes it.id ++ t) with
  | none => rfl
  | some o =>
    simp only
    cases eatNumberRev (eatSuffix (List.take o (headBytes it.id ++ t)) isWhitespace).1 <;> rfl

/-! ## Patching an object -/

variable {σ : Type} (m : Mapping σ)

def patchBodyLimits : Body → σ → Limits → Limits
  | .val p, s, l => patchLimits m p s l
  | .stream es _, s, l => patchEntriesLimits m es s l

theorem mapEntries_stream (es : List (Bytes × Prog)) (data : Bytes) (s : σ) :
    mapEntries m (streamEntries es data) s = (streamEntries (mapEntries m es s).1 data, (mapEntries m es s).2) := by
  simp [streamEntries, mapEntries, mapProg, mapPrim]

theorem patchEntriesLimits_stream (es : List (Bytes × Prog)) (data : Bytes) (s : σ) (l : Limits) :
    patchEntriesLimits m (streamEntries es data) s l = patchEntriesLimits m es s l := by
  simp [streamEntries, patchEntriesLimits, mapProg, mapPrim, patchLimits]

theorem patchObject_body (pretty : Bool) (b : Body) (buf : Buf) (s : σ) :
    patchObject m (bodyBytes pretty b) buf s =
      (⟨buf.inner ++ bodyBytes pretty (mapBody m b s).1, patchBodyLimits m b s buf.limits⟩, (mapBody m b s).2) := by
  cases b with
  | val p =>
    have h := patch_enc (m := m) pretty p [] 0 false (some ch!"\n") s (by simp [BeforeOk])
    obtain ⟨w', buf', h1, h2, h3, h4⟩ := h 0 [] buf (Nat.zero_le _)
    simp only [List.append_nil, List.nil_append, List.drop_nil] at h2 h3
    simp only [patchObject, bodyBytes, h2, patchScan, Buf.extend, mapBody, patchBodyLimits]
    rw [h3, h4]
  | stream es data =>
    have ha : Patch m [] b!"<<" b!"<<" s s id := Patch.skip (skip_dulls _ _ (by decide))
    have hb := patch_entries (m := m) pretty (streamEntries es data) ([] ++ b!"<<") 2 s
    have hc : ∀ q s', Patch m q (lineSep pretty 0 ++ (b!">>" ++ b!"\n")) (lineSep pretty 0 ++ (b!">>" ++ b!"\n")) s' s' id := by
      intro q s'
      apply Patch.skip; apply skip_dulls
      simp only [List.all_append, lineSep_dull]; decide
    have h := Patch.append ha (Patch.append hb (hc _ _))
    obtain ⟨w', buf', h1, h2, h3, h4⟩ := h 0 (b!"stream\n" ++ (data ++ b!"\nendstream")) buf (Nat.zero_le _)
    simp only [mapEntries_stream] at h2 h3 h4
    have e : bodyBytes pretty (.stream es data) = (b!"<<" ++ (encEntries pretty 2 (streamEntries es data) ++ (lineSep pretty 0 ++ (b!">>" ++ b!"\n")))) ++
        (b!"stream\n" ++ (data ++ b!"\nendstream")) := by simp [bodyBytes]
    have e' : bodyBytes pretty (.stream (mapEntries m es s).1 data) = (b!"<<" ++ (encEntries pretty 2 (streamEntries (mapEntries m es s).1 data) ++ (lineSep pretty 0 ++ (b!">>" ++ b!"\n")))) ++
        (b!"stream\n" ++ (data ++ b!"\nendstream")) := by simp [bodyBytes]
    rw [List.nil_append] at h1 h2 h3
    simp only [patchObject, mapBody, e, e']
    rw [h2]
    generalize hpre : b!"<<" ++ (encEntries pretty 2 (streamEntries es data) ++ (lineSep pretty 0 ++ (b!">>" ++ b!"\n"))) = pre at *
    have hv : validateStream pre = true := by
      have hp : pre = (b!"<<" ++ (encEntries pretty 2 (streamEntries es data) ++ (lineSep pretty 0 ++ b!">>"))) ++ b!"\n" := by
        rw [← hpre]; simp
      unfold validateStream
      rw [hp, eatSuffix_append _ _ _ (by decide) (by
        intro x hx
        rw [getLast?_append_ne (by simp), getLast?_append_ne (by simp), getLast?_append_ne (by simp)] at hx
        simp at hx; rw [← hx]; decide)]
      rw [List.isSuffixOf_iff_suffix]
      exact ⟨b!"<<" ++ (encEntries pretty 2 (streamEntries es data) ++ lineSep pretty 0), by simp⟩
    have hscan : ∀ r, patchScan m .normal w' pre (b!"stream\n" ++ r) buf' (mapEntries m es s).2 =
        (buf'.extend ((pre ++ (b!"stream\n" ++ r)).drop w'), (mapEntries m es s).2) := by
      intro r
      simp only [List.cons_append, List.nil_append]
      unfold patchScan
      simp [List.isPrefixOf, hv]
    rw [hscan]
    simp only [Buf.extend, patchBodyLimits]
    rw [List.drop_append_of_le_length h1, ← List.append_assoc, h3, h4]
    simp only [id, List.drop_nil, List.nil_append, List.append_assoc, patchEntriesLimits_stream]

/-! ## Renumbering a chunk -/

/-- The headers in front of the first object. -/
def leadBytes : List Piece → Bytes
  | .header a b m :: ps => headerBytes a b m ++ leadBytes ps
  | _ => []

theorem leadBytes_noEnd (ps : List Piece) (h : ∀ p ∈ ps, p.ok) : findSub b!"endobj" (leadBytes ps) = none := by
  induction ps with
  | nil => rfl
  | cons p ps ih =>
    cases p with
    | item it nl => rfl
    | header a b m =>
      have := h _ (List.mem_cons_self)
      exact noEnd_header a b m _ this.1 this.2 (ih fun p hp => h p (by simp [hp]))

theorem lead_split (ps : List Piece) : ∃ r, piecesBytes ps = leadBytes ps ++ r := by
  induction ps with
  | nil => exact ⟨[], rfl⟩
  | cons p ps ih =>
    cases p with
    | item it nl => exact ⟨_, rfl⟩
    | header a b m =>
      obtain ⟨r, hr⟩ := ih
      exact ⟨r, by simp [piecesBytes, leadBytes, hr, Piece.bytes]⟩

theorem stop_eq (base total : Nat) (ps : List Piece) (ht : total = base + (piecesBytes ps).length) :
    stopOffset total (offs base ps) = base + (leadBytes ps).length := by
  induction ps generalizing base with
  | nil => simp [offs, leadBytes, piecesBytes, stopOffset] at *; exact ht
  | cons p ps ih =>
    cases p with
    | item it nl => simp [offs, leadBytes, stopOffset]
    | header a b m =>
      simp only [offs, leadBytes, List.length_append]
      have := ih (base + (Piece.header a b m).bytes.length) (by simp [piecesBytes] at ht; omega)
      simp only [Piece.bytes] at this ⊢
      rw [this]; omega

/-- The objects with new numbers, as written into a chunk with the given settings. -/
def mappedPieces (its : List Item) (nl : Bool) : List Piece := its.map (fun it => .item it nl)

theorem mappedPieces_items (its : List Item) (nl : Bool) : piecesItems (mappedPieces its nl) = its := by
  induction its with
  | nil => rfl
  | cons it its ih => simp only [mappedPieces, List.map_cons, piecesItems] at *; rw [ih]

theorem started_map (b : Body) (s : σ) : started (mapBody m b s).1 = started b := by
  match b with
  | .val .unused => simp [mapBody, mapProg, started]
  | .val (.prim _) | .val (.array _) | .val (.dict _) | .stream _ _ => simp [mapBody, mapProg, started]

/-- Limits while copying one object under its new number. -/
def patchItemLimits (it : Item) (s : σ) (l : Limits) : Limits :=
  patchBodyLimits m it.body (m s it.id).2 ((l.registerInt (m s it.id).1.id).registerInt 0)

def patchObjsLimits : List Item → σ → Limits → Limits
  | [], _, l => l
  | it :: its, s, l =>
    if started it.body then patchObjsLimits its (mapItem m it s).2 (patchItemLimits m it s l)
    else patchObjsLimits its (m s it.id).2 l

theorem renumberLoop_eq (ps : List Piece) (hok : ∀ p ∈ ps, p.ok) (pre : Bytes) (target : Chunk) (s : σ) :
    renumberLoop m (pre ++ piecesBytes ps) (offs pre.length ps) target s =
      ({ buf := ⟨target.buf.inner ++ piecesBytes (mappedPieces (mapObjs m (piecesItems ps) s).1 target.pretty),
           patchObjsLimits m (piecesItems ps) s target.buf.limits⟩
         offsets := target.offsets ++ offs target.buf.len (mappedPieces (mapObjs m (piecesItems ps) s).1 target.pretty)
         pretty := target.pretty }, (mapObjs m (piecesItems ps) s).2) := by
  induction ps generalizing pre target s with
  | nil => simp [offs, renumberLoop, piecesItems, mapObjs, mappedPieces, piecesBytes, patchObjsLimits]
  | cons p ps ih =>
    have hok' : ∀ p ∈ ps, p.ok := fun p hp => hok p (by simp [hp])
    cases p with
    | header a b mm =>
      have := ih hok' (pre ++ headerBytes a b mm) target s
      simp only [List.length_append, List.append_assoc] at this
      simpa [offs, piecesBytes, piecesItems, Piece.bytes] using this
    | item it nl =>
      simp only [offs]
      rw [renumberLoop.eq_def]
      simp only
      have hstop := stop_eq (pre.length + (Piece.item it nl).bytes.length) (pre ++ piecesBytes (Piece.item it nl :: ps)).length ps
        (by simp [piecesBytes]; omega)
      rw [hstop]
      obtain ⟨r, hr⟩ := lead_split ps
      have hslice : ((pre ++ piecesBytes (Piece.item it nl :: ps)).take
          (pre.length + (Piece.item it nl).bytes.length + (leadBytes ps).length)).drop pre.length = itemBytes it nl ++ leadBytes ps := by
        have e1 : pre ++ piecesBytes (Piece.item it nl :: ps) = (pre ++ (itemBytes it nl ++ leadBytes ps)) ++ r := by
          simp [piecesBytes, Piece.bytes, hr]
        have e2 : pre.length + (Piece.item it nl).bytes.length + (leadBytes ps).length = (pre ++ (itemBytes it nl ++ leadBytes ps)).length := by
          simp [Piece.bytes]; omega
        rw [e1, e2, List.take_left, List.drop_left]
      have hpre : pre ++ piecesBytes (Piece.item it nl :: ps) = (pre ++ itemBytes it nl) ++ piecesBytes ps := by
        simp [piecesBytes, Piece.bytes]
      have hlen : pre.length + (Piece.item it nl).bytes.length = (pre ++ itemBytes it nl).length := by simp [Piece.bytes]
      cases hst : started it.body with
      | false =>
        rw [hslice, extractObject_unstarted it hst nl _ (leadBytes_noEnd ps hok')]
        simp only
        rw [hpre, hlen, ih hok']
        simp [piecesItems, mapObjs, patchObjsLimits, hst]
      | true =>
      rw [hslice, extractObject_item it hst nl _ (leadBytes_noEnd ps hok')]
      simp only [pushInt_eq, Buf.push, Buf.extend, patchObject_body]
      have i0 : intBytes 0 = b!"0" := by decide
      rw [hpre, hlen, ih hok']
      have hst' : started (mapItem m it s).1.body = true := by rw [mapItem, started_map]; exact hst
      simp only [piecesItems, mapObjs, hst, if_true, mappedPieces, List.map_cons, piecesBytes, offs, patchObjsLimits, patchItemLimits,
        Piece.bytes, itemBytes_started hst']
      simp only [mapItem, headBytes, endBytes, i0, Ref.get, Buf.len]
      cases target.pretty <;> simp [Nat.add_assoc]

end PdfW

