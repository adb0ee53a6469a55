import Verif.Proof.Layout

/-! # Lemmas: reading back chunks built by any history -/

set_option linter.unusedSimpArgs false
set_option linter.unusedVariables false

namespace PdfW
open Spec

/-! ## Reading one indirect object -/

theorem expectKw_of_scan {bs k rest : Bytes} (h : Scan bs [.kw k] rest) : expectKw k bs = some rest := by
  cases h with
  | cons h hs => cases hs; simp [expectKw, h]

theorem nextToken_of_scan {bs rest : Bytes} {t : Tok} (h : Scan bs [t] rest) : nextToken bs = some (t, rest) := by
  cases h with
  | cons h hs => cases hs; exact h

/-- A keyword after a line break, followed by a line break. -/
theorem kw_line (k rest : Bytes) (hk : k.all isRegular = true) (hne : k ≠ []) (hn : readNumber k = none) :
    Scan (b!"\n" ++ (k ++ (b!"\n" ++ rest))) [.kw k] (b!"\n" ++ rest) :=
  Scan.whites (by decide) (by simp) (kw_scan k _ hk hne hn (white_sepOk _ _ (by decide)))

theorem lookup_length (n : Int) (es : List (Bytes × Prog)) (h : ∀ e ∈ es, e.1 ≠ b!"Length") :
    lookup b!"Length" ((b!"Length", .int n) :: entriesVal es) = some (.int n) := by
  have : ∀ es : List (Bytes × Prog), (∀ e ∈ es, e.1 ≠ b!"Length") →
      (entriesVal es).filter (fun e => e.1 == b!"Length") = [] := by
    intro es
    induction es with
    | nil => intro _; simp [entriesVal]
    | cons e es ih =>
      obtain ⟨k, v⟩ := e
      intro h
      have h1 := h (k, v) (by simp)
      have h2 : (k == b!"Length") = false := beq_eq_false_iff_ne.mpr h1
      simp only [entriesVal, List.filter_cons]
      simp only [h2, Bool.false_eq_true, if_false]
      exact ih (fun e he => h e (by simp [he]))
  unfold lookup
  rw [List.filter_cons, this es h]
  simp

/-- Value of the contents. -/
def bodyVal : Body → IVal
  | .val p => .val (progVal p)
  | .stream es data => .stream ((b!"Length", .int data.length) :: entriesVal es) data

theorem readIndirect_exact (it : Item) (nl : Bool) (t : Bytes) (h : ItemOk it) :
    readIndirect (itemBytes it nl ++ t) = some (it.id.get, 0, bodyVal it.body, b!"\n" ++ ((if nl then b!"\n" else []) ++ t)) := by
  obtain ⟨id, body, pretty⟩ := it
  have i0 : intBytes 0 = b!"0" := by decide
  have head : ∀ r, nextToken (headBytes id ++ r) = some (.int id.id, b!" 0 obj\n" ++ r) := by
    intro r
    rw [headBytes, List.append_assoc]
    exact nextToken_of_scan (intBytes_scan id.id _ (white_sepOk _ _ (by decide)))
  have gen : ∀ r, nextToken (b!" 0 obj\n" ++ r) = some (.int 0, b!" obj\n" ++ r) := by
    intro r
    have := intBytes_scan 0 (b!" obj\n" ++ r) (white_sepOk _ _ (by decide))
    rw [i0] at this
    exact nextToken_of_scan (Scan.white (w := 32) (by decide) (by simp) this)
  have kwobj : ∀ r, expectKw b!"obj" (b!" obj\n" ++ r) = some (b!"\n" ++ r) := by
    intro r
    exact expectKw_of_scan (Scan.white (w := 32) (by decide) (by simp)
      (kw_scan b!"obj" (b!"\n" ++ r) (by decide) (by decide) (by decide) (white_sepOk _ _ (by decide))))
  cases body with
  | val p =>
    simp only [ItemOk] at h
    obtain ⟨hok, hc⟩ := h
    have hscan := scan_enc pretty p hok hc 0 false (some ch!"\n") (endBytes nl ++ t) (fun _ => by
      simp only [endBytes, List.append_assoc, List.cons_append]; exact white_sepOk _ _ (by decide))
    have hscan := Scan.white (w := 10) (by decide) (progToks_ne_nil p hok) hscan
    have hend : nextToken (endBytes nl ++ t) = some (.kw b!"endobj", b!"\n" ++ ((if nl then b!"\n" else []) ++ t)) := by
      have := kw_line b!"endobj" ((if nl then b!"\n" else []) ++ t) (by decide) (by decide) (by decide)
      have := nextToken_of_scan this
      simpa [endBytes] using this
    have hlen := hscan.length
    have hr := readItems_scan hscan (progToks_notOp p hok) _ hend (k := b!"endobj") (by decide)
      ((b!"\n" ++ (enc pretty 0 false (some ch!"\n") p ++ (endBytes nl ++ t))).length + 1)
      (by simp only [List.cons_append, List.nil_append] at hlen ⊢; omega) [(.top, [])] [progVal p] (fold_prog p hok .top [] [])
    unfold readIndirect
    simp only [itemBytes, started_val, used_of_ok p hok, if_true, bodyBytes, List.append_assoc, head, gen, kwobj]
    rw [List.cons_append, List.nil_append] at hr ⊢
    rw [hr]
    simp [bodyVal, Ref.get]
  | stream es data =>
    simp only [ItemOk] at h
    obtain ⟨hok, hc, hl⟩ := h
    have hok' : OkEntries (streamEntries es data) := by
      simp only [streamEntries, OkEntries, Ok, PrimOk, true_and]; exact hok
    have hc' : pretty = true ∨ NoClashEntries (streamEntries es data) := by
      refine hc.imp (fun h => h) ?_
      intro hc
      simp only [streamEntries, NoClashEntries, NoClash, true_and]
      exact ⟨by simp, hc⟩
    -- tail after the dictionary
    generalize htl : b!"\nstream\n" ++ (data ++ (b!"\nendstream" ++ (endBytes nl ++ t))) = tl
    have hclose : Scan (lineSep pretty 0 ++ (b!">>" ++ tl)) [.dictClose] tl := by
      refine Scan.whites (lineSep_white _ _) (by simp) ?_
      exact delim_head _ _ _ rfl ⟨ch!">", ch!">" :: tl, rfl, by decide, by decide⟩
    have hent := scan_entries pretty _ hok' hc' 2 (lineSep pretty 0 ++ (b!">>" ++ tl)) (by
      cases pretty
      · rfl
      · rfl)
    have hopen : Scan (b!"<<" ++ (encEntries pretty 2 (streamEntries es data) ++ (lineSep pretty 0 ++ (b!">>" ++ tl)))) [.dictOpen]
        (encEntries pretty 2 (streamEntries es data) ++ (lineSep pretty 0 ++ (b!">>" ++ tl))) :=
      delim_head _ _ _ rfl ⟨ch!"<", _, rfl, by decide, by decide⟩
    have hscan := Scan.append hopen (Scan.append hent hclose)
    have etoks : [Tok.dictOpen] ++ (entriesToks (streamEntries es data) ++ [.dictClose]) = progToks (.dict (streamEntries es data)) := by
      simp [progToks]
    rw [etoks] at hscan
    have hscan := Scan.white (w := 10) (by decide) (progToks_ne_nil _ (by simpa [Ok] using hok')) hscan
    have hstream : nextToken tl = some (.kw b!"stream", b!"\n" ++ (data ++ (b!"\nendstream" ++ (endBytes nl ++ t)))) := by
      have := nextToken_of_scan (kw_line b!"stream" (data ++ (b!"\nendstream" ++ (endBytes nl ++ t))) (by decide) (by decide) (by decide))
      rw [← htl]; simpa using this
    have hlen := hscan.length
    have hokp : Ok (.dict (streamEntries es data)) := by simpa [Ok] using hok'
    have hr := readItems_scan hscan (progToks_notOp _ hokp) _ hstream (k := b!"stream") (by decide)
      ((b!"\n" ++ (b!"<<" ++ (encEntries pretty 2 (streamEntries es data) ++ (lineSep pretty 0 ++ (b!">>" ++ tl))))).length + 1)
      (by simp only [List.cons_append, List.nil_append] at hlen ⊢; omega) [(.top, [])] [progVal (.dict (streamEntries es data))]
      (fold_prog _ hokp .top [] [])
    have hval : progVal (.dict (streamEntries es data)) = .dict ((b!"Length", .int data.length) :: entriesVal es) := by
      simp [progVal, streamEntries, entriesVal, primVal]
    have hlook := lookup_length data.length es hl
    have hes : expectKw b!"endstream" (b!"\nendstream" ++ (endBytes nl ++ t)) = some (endBytes nl ++ t) := by
      have := expectKw_of_scan (kw_line b!"endstream" (b!"endobj\n" ++ ((if nl then b!"\n" else []) ++ t)) (by decide) (by decide) (by decide))
      simpa [endBytes] using this
    have heo : expectKw b!"endobj" (endBytes nl ++ t) = some (b!"\n" ++ ((if nl then b!"\n" else []) ++ t)) := by
      have := expectKw_of_scan (kw_line b!"endobj" ((if nl then b!"\n" else []) ++ t) (by decide) (by decide) (by decide))
      simpa [endBytes] using this
    unfold readIndirect
    simp only [itemBytes, started, if_true, bodyBytes, List.append_assoc, head, gen, kwobj, htl]
    have hr' : readItems _ _ (b!"\n" ++ (b!"<<" ++ (encEntries pretty 2 (streamEntries es data) ++ (lineSep pretty 0 ++ (b!">>" ++ tl))))) = _ := hr
    rw [hr']
    have hkw : (b!"stream" = b!"endobj") = False := by decide
    simp only [hval, List.reverse_cons, List.reverse_nil, List.nil_append, hkw, if_false, if_true]
    simp only [hlook, List.cons_append, List.nil_append, afterStream]
    have h1 : (0 : Int) ≤ (data.length : Int) ∧ ((data.length : Int)).toNat ≤ (data ++ (b!"\nendstream" ++ (endBytes nl ++ t))).length := by
      simp
    simp only [List.cons_append, List.nil_append] at h1 hes
    simp only [h1, and_self, if_true, Int.toNat_natCast, List.drop_left, List.take_left, hes, heo, bodyVal, Ref.get]
    have h2 := h1.2
    rw [Int.toNat_natCast] at h2
    simp [h2]

theorem readIndirect_item (it : Item) (nl : Bool) (t : Bytes) (h : ItemOk it) :
    ∃ rest, readIndirect (itemBytes it nl ++ t) = some (it.id.get, 0, bodyVal it.body, rest) :=
  ⟨_, readIndirect_exact it nl t h⟩

theorem bodyVal_denotes (it : Item) (h : ItemOk it) : BodyDenotes it.body (bodyVal it.body) := by
  obtain ⟨id, body, pretty⟩ := it
  cases body with
  | val p => exact progVal_denotes p h.1
  | stream es data => exact ⟨rfl, _, rfl, entriesVal_denotes es h.1⟩

/-! ## Objects in a sequence of pieces -/

/-- The exact value read. -/
def ExactAt (bytes : Bytes) (off : Nat) (it : Item) : Prop :=
  ∃ rest, readIndirect (bytes.drop off) = some (it.id.get, 0, bodyVal it.body, rest)

theorem ExactAt.reads {bytes : Bytes} {off : Nat} {it : Item} (h : ExactAt bytes off it) (hok : ItemOk it) : ReadsAt bytes off it := by
  obtain ⟨rest, h⟩ := h
  exact ⟨_, rest, h, bodyVal_denotes it hok⟩

theorem exactAt_offs (pre post : Bytes) (ps : List Piece) (n : Nat) (it : Item) (hit : (piecesItems ps)[n]? = some it) (hok : ItemOk it) :
    ∃ off, (offs pre.length ps)[n]? = some (it.id, off) ∧ ExactAt (pre ++ (piecesBytes ps ++ post)) off it := by
  induction ps generalizing pre n with
  | nil => simp [piecesItems] at hit
  | cons p ps ih =>
    cases p with
    | header a b m =>
      obtain ⟨off, h1, h2⟩ := ih (pre ++ headerBytes a b m) n (by simpa [piecesItems] using hit)
      refine ⟨off, ?_, ?_⟩
      · simpa [offs, Piece.bytes] using h1
      · simpa [piecesBytes, Piece.bytes] using h2
    | item it' nl =>
      cases n with
      | zero =>
        simp [piecesItems] at hit
        subst hit
        refine ⟨pre.length, by simp [offs], ?_⟩
        obtain ⟨rest, hr⟩ := readIndirect_item it' nl (piecesBytes ps ++ post) hok
        refine ⟨rest, ?_⟩
        rw [List.drop_left]
        simpa [piecesBytes, Piece.bytes] using hr
      | succ n =>
        obtain ⟨off, h1, h2⟩ := ih (pre ++ itemBytes it' nl) n (by simpa [piecesItems] using hit)
        refine ⟨off, ?_, ?_⟩
        · simpa [offs, Piece.bytes] using h1
        · simpa [piecesBytes, Piece.bytes] using h2

theorem readsAt_offs (pre post : Bytes) (ps : List Piece) (n : Nat) (it : Item) (hit : (piecesItems ps)[n]? = some it) (hok : ItemOk it) :
    ∃ off, (offs pre.length ps)[n]? = some (it.id, off) ∧ ReadsAt (pre ++ (piecesBytes ps ++ post)) off it := by
  obtain ⟨off, h1, h2⟩ := exactAt_offs pre post ps n it hit hok
  exact ⟨off, h1, h2.reads hok⟩

/-! ## Histories -/

theorem Layout.extend {c : Chunk} {ps qs : List Piece} {buf : Buf} {offsets : List (Ref × Nat)} (h : Layout c ps)
    (hb : buf.inner = c.buf.inner ++ piecesBytes qs) (ho : offsets = c.offsets ++ offs c.buf.len qs) (hok : ∀ p ∈ qs, p.ok) :
    Layout ⟨buf, offsets, c.pretty⟩ (ps ++ qs) := by
  constructor
  · simp [hb, h.bytes, piecesBytes_append]
  · simp [ho, h.offsets, offs_append, Buf.len, h.bytes]
  · intro p hp
    rcases List.mem_append.mp hp with hp | hp
    · exact h.ok p hp
    · exact hok p hp

theorem layout_writeIndirect {c : Chunk} {ps : List Piece} (h : Layout c ps) (id : Ref) (p : Prog) :
    Layout (c.writeIndirect id p) (ps ++ [.item ⟨id, .val p, c.pretty⟩ c.pretty]) := by
  rw [writeIndirect_eq]
  exact Layout.extend h (by simp [piecesBytes, Piece.bytes]) (by simp [offs]) (by simp [Piece.ok, dataOk])

theorem mapObjs_dataOk {σ : Type} (m : Mapping σ) (its : List Item) (s : σ) (h : ∀ it ∈ its, dataOk it.body) :
    ∀ it ∈ (mapObjs m its s).1, dataOk it.body := by
  induction its generalizing s with
  | nil => simp [mapObjs]
  | cons it its ih =>
    intro x hx
    simp only [mapObjs] at hx
    cases hst : started it.body with
    | false =>
      simp only [hst, Bool.false_eq_true, if_false] at hx
      exact ih _ (fun it hit => h it (by simp [hit])) x hx
    | true =>
    simp only [hst, if_true, List.mem_cons] at hx
    rcases hx with rfl | hx
    · have := h it (by simp)
      obtain ⟨id, body, pretty⟩ := it
      cases body <;> simpa [mapItem, mapBody, dataOk] using this
    · exact ih _ (fun it hit => h it (by simp [hit])) x hx

theorem piecesItems_ok {ps : List Piece} (h : ∀ p ∈ ps, p.ok) : ∀ it ∈ piecesItems ps, dataOk it.body := by
  induction ps with
  | nil => simp [piecesItems]
  | cons p ps ih =>
    have h' : ∀ p ∈ ps, p.ok := fun p hp => h p (by simp [hp])
    cases p with
    | header a b m => simpa [piecesItems] using ih h'
    | item it nl =>
      intro x hx
      simp only [piecesItems, List.mem_cons] at hx
      rcases hx with rfl | hx
      · exact h _ List.mem_cons_self
      · exact ih h' x hx

theorem layout_renumberInto {src c : Chunk} {ps qs : List Piece} (hs : Layout src qs) (h : Layout c ps) {σ : Type} (m : Mapping σ) (s : σ) :
    Layout (src.renumberInto c m s).1 (ps ++ mappedPieces (mapObjs m (piecesItems qs) s).1 c.pretty) ∧
    (src.renumberInto c m s).2 = (mapObjs m (piecesItems qs) s).2 ∧
    (src.renumberInto c m s).1.buf.limits = patchObjsLimits m (piecesItems qs) s (c.buf.limits.merge src.buf.limits) ∧
    (src.renumberInto c m s).1.pretty = c.pretty := by
  have := renumberLoop_eq m qs hs.ok [] (c.mergeLimits src.limits) s
  simp only [List.nil_append, List.length_nil] at this
  rw [Chunk.renumberInto, hs.bytes, hs.offsets, this]
  refine ⟨?_, rfl, rfl, rfl⟩
  have h' : Layout (c.mergeLimits src.limits) ps := ⟨h.bytes, h.offsets, h.ok⟩
  exact Layout.extend h' rfl rfl (by
    intro p hp
    simp only [mappedPieces, List.mem_map] at hp
    obtain ⟨it, hit, rfl⟩ := hp
    exact mapObjs_dataOk m _ s (piecesItems_ok hs.ok) it hit)

/-- The invariant of chunks and of calls. -/
def CallInv (f : Chunk → Option Chunk) (items : Bool → List Item) : Prop :=
  ∀ c ps, Layout c ps → ∀ c', f c = some c' →
    ∃ qs, Layout c' (ps ++ qs) ∧ piecesItems qs = items c.pretty ∧ c'.pretty = c.pretty

def ChunkInv (r : Option Chunk) (items : List Item) (pretty : Bool) : Prop :=
  ∀ c, r = some c → ∃ ps, Layout c ps ∧ piecesItems ps = items ∧ c.pretty = pretty

/-- The header piece of a document. -/
def headPiece (v : UInt8 × UInt8) (m : UInt8 × UInt8 × UInt8 × UInt8) : Piece := .header (48 + v.1) (48 + v.2) m

theorem headPiece_bytes (v : UInt8 × UInt8) (m : UInt8 × UInt8 × UInt8 × UInt8) : (headPiece v m).bytes = header v m := by
  simp [headPiece, Piece.bytes, headerBytes, header]

def PdfInv (r : Option Pdf) (h : PdfHist) : Prop :=
  ∀ p, r = some p → ∃ ps, Layout p.chunk (headPiece (version h) (marker h) :: ps) ∧ piecesItems ps = pdfItems h ∧
    p.chunk.pretty = pdfPretty h ∧ p.trailer = ⟨catalogId h, infoId h, fileId h⟩ ∧ (version h).1 < 10 ∧ (version h).2 < 10

theorem digit_add : ∀ b : UInt8, b < 10 → isDigit (48 + b) = true := forall_byte (by decide +kernel)

theorem headPiece_ok (v : UInt8 × UInt8) (m : UInt8 × UInt8 × UInt8 × UInt8) (h1 : v.1 < 10) (h2 : v.2 < 10) : (headPiece v m).ok :=
  ⟨digit_add _ h1, digit_add _ h2⟩

theorem Layout.reheader {c : Chunk} {v : UInt8 × UInt8} {m : UInt8 × UInt8 × UInt8 × UInt8} {ps : List Piece}
    (h : Layout c (headPiece v m :: ps)) (v' : UInt8 × UInt8) (m' : UInt8 × UInt8 × UInt8 × UInt8) (h1 : v'.1 < 10) (h2 : v'.2 < 10)
    (inner : Bytes) (l : Limits) (hi : inner = header v' m' ++ piecesBytes ps) :
    Layout ⟨⟨inner, l⟩, c.offsets, c.pretty⟩ (headPiece v' m' :: ps) := by
  constructor
  · simp [piecesBytes, headPiece_bytes, hi]
  · rw [h.offsets]; simp [offs, headPiece, headerBytes, Piece.bytes]
  · intro p hp
    rcases List.mem_cons.mp hp with rfl | hp
    · exact headPiece_ok _ _ h1 h2
    · exact h.ok p (by simp [hp])

mutual
theorem chunk_inv (h : ChunkHist) : ChunkInv h.run (chunkItems h) (chunkPretty h) := by
  match h with
  | .new pretty =>
    intro c hc
    simp only [ChunkHist.run, Option.some.injEq] at hc
    subst hc
    exact ⟨[], ⟨rfl, rfl, by simp⟩, by simp [piecesItems, chunkItems], by simp [chunkPretty, Chunk.withSettings]⟩
  | .ofPdf p =>
    intro c hc
    have hp := pdf_inv p
    simp only [ChunkHist.run] at hc
    cases hr : p.run with
    | none => simp [hr] at hc
    | some q =>
      simp only [hr, Option.some.injEq] at hc
      subst hc
      obtain ⟨ps, h1, h2, h3, -⟩ := hp q hr
      exact ⟨_, h1, by simp only [chunkItems, headPiece, piecesItems]; exact h2, by simpa [chunkPretty] using h3⟩
  | .call h c =>
    intro c' hc
    have hh := chunk_inv h
    have hcall := call_inv c
    simp only [ChunkHist.run] at hc
    cases hr : h.run with
    | none => simp [hr] at hc
    | some ch =>
      simp only [hr] at hc
      obtain ⟨ps, h1, h2, h3⟩ := hh ch hr
      obtain ⟨qs, k1, k2, k3⟩ := hcall ch ps h1 c' hc
      exact ⟨_, k1, by simp only [piecesItems_append, chunkItems, h2, k2, h3], by simp only [chunkPretty, k3, h3]⟩
termination_by structural h
theorem call_inv (c : ChunkCall) : CallInv c.run (callItems c) := by
  match c with
  | .indirect id p =>
    intro c ps hl c' hc
    simp only [ChunkCall.run, Option.some.injEq] at hc
    subst hc
    exact ⟨_, layout_writeIndirect hl id p, by simp [piecesItems, callItems], by rw [writeIndirect_eq]⟩
  | .stream id es data =>
    intro c ps hl c' hc
    simp only [ChunkCall.run, writeStream_eq] at hc
    split at hc
    · rename_i hlen
      simp only [Option.some.injEq] at hc
      subst hc
      exact ⟨[.item ⟨id, .stream es data, c.pretty⟩ c.pretty], Layout.extend hl (by simp [piecesBytes, Piece.bytes]) (by simp [offs]) (by simpa [Piece.ok, dataOk] using hlen), by
        simp [piecesItems, callItems], rfl⟩
    · simp at hc
  | .extend o =>
    intro c ps hl c' hc
    have ho := chunk_inv o
    simp only [ChunkCall.run] at hc
    cases hr : o.run with
    | none => simp [hr] at hc
    | some oc =>
      simp only [hr, Option.some.injEq] at hc
      subst hc
      obtain ⟨qs, h1, h2, h3⟩ := ho oc hr
      refine ⟨qs, Layout.extend hl ?_ ?_ h1.ok, by simp only [callItems]; exact h2, rfl⟩
      · simp [Buf.extendBuf, h1.bytes]
      · have := offs_shift 0 c.buf.len qs
        simp only [Chunk.len, h1.offsets]
        rw [← this]; simp
  | .mergeLimits l =>
    intro c ps hl c' hc
    simp only [ChunkCall.run, Option.some.injEq] at hc
    subst hc
    exact ⟨[], ⟨by simpa [Chunk.mergeLimits] using hl.bytes, by simpa [Chunk.mergeLimits] using hl.offsets, by simpa using hl.ok⟩,
      by simp [piecesItems, callItems], rfl⟩
  | .renumberFrom source σ m s =>
    intro c ps hl c' hc
    have ho := chunk_inv source
    simp only [ChunkCall.run] at hc
    cases hr : source.run with
    | none => simp [hr] at hc
    | some src =>
      simp only [hr, Option.some.injEq] at hc
      subst hc
      obtain ⟨qs, h1, h2, h3⟩ := ho src hr
      obtain ⟨k1, -, -, k4⟩ := layout_renumberInto h1 hl m s
      exact ⟨_, k1, by rw [mappedPieces_items, h2]; simp only [callItems], k4⟩
termination_by structural c
theorem pdf_inv (h : PdfHist) : PdfInv h.run h := by
  match h with
  | .new pretty =>
    intro p hp
    simp only [PdfHist.run, Option.some.injEq] at hp
    subst hp
    refine ⟨[], ⟨?_, ?_, ?_⟩, by simp [piecesItems, pdfItems], by simp [pdfPretty, Pdf.withSettings, Chunk.withSettings], rfl, by simp only [version]; decide, by simp only [version]; decide⟩
    · simp only [version, marker]; rfl
    · rfl
    · intro p hp
      simp only [List.mem_singleton] at hp
      subst hp
      exact headPiece_ok _ _ (by simp only [version]; decide) (by simp only [version]; decide)
  | .call h c =>
    intro p hp
    have hh := pdf_inv h
    have hcall := call_inv c
    simp only [PdfHist.run] at hp
    cases hr : h.run with
    | none => simp [hr] at hp
    | some q =>
      simp only [hr] at hp
      obtain ⟨ps, h1, h2, h3, h4, h5⟩ := hh q hr
      cases hc : c.run q.chunk with
      | none => simp [hc] at hp
      | some ch =>
        simp only [hc, Option.some.injEq] at hp
        subst hp
        obtain ⟨qs, k1, k2, k3⟩ := hcall q.chunk _ h1 ch hc
        exact ⟨ps ++ qs, k1, by simp only [piecesItems_append, pdfItems, h2, k2, h3], by simp only [pdfPretty, k3, h3], h4, h5⟩
  | .setVersion h a b =>
    intro p hp
    have hh := pdf_inv h
    simp only [PdfHist.run] at hp
    cases hr : h.run with
    | none => simp [hr] at hp
    | some q =>
      simp only [hr, Option.some.injEq] at hp
      obtain ⟨ps, h1, h2, h3, h4, h5, h6⟩ := hh q hr
      subst hp
      have hb := h1.bytes
      simp only [piecesBytes, headPiece_bytes] at hb
      have v1 : (version (h.setVersion a b)).1 < 10 := by simp only [version]; split <;> assumption
      have v2 : (version (h.setVersion a b)).2 < 10 := by simp only [version]; split <;> assumption
      refine ⟨ps, ?_, by simpa [pdfItems] using h2, by simpa [pdfPretty, Pdf.setVersion] using h3, h4, v1, v2⟩
      refine Layout.reheader h1 _ _ v1 v2 _ _ ?_
      rw [hb]
      by_cases ha : a < 10 <;> by_cases hb' : b < 10 <;> simp [version, marker, ha, hb', header]
  | .setBinaryMarker h m =>
    intro p hp
    have hh := pdf_inv h
    simp only [PdfHist.run] at hp
    cases hr : h.run with
    | none => simp [hr] at hp
    | some q =>
      simp only [hr, Option.some.injEq] at hp
      obtain ⟨ps, h1, h2, h3, h4, h5, h6⟩ := hh q hr
      subst hp
      have hb := h1.bytes
      simp only [piecesBytes, headPiece_bytes] at hb
      refine ⟨ps, ?_, by simpa [pdfItems] using h2, by simpa [pdfPretty, Pdf.setBinaryMarker] using h3, h4, h5, h6⟩
      refine Layout.reheader h1 _ _ h5 h6 _ _ ?_
      rw [hb]
      simp [version, marker, header]
  | .setFileId h id =>
    intro p hp
    have hh := pdf_inv h
    simp only [PdfHist.run] at hp
    cases hr : h.run with
    | none => simp [hr] at hp
    | some q =>
      simp only [hr, Option.some.injEq] at hp
      obtain ⟨ps, h1, h2, h3, h4, h5, h6⟩ := hh q hr
      subst hp
      exact ⟨ps, h1, by simpa [pdfItems] using h2, by simpa [pdfPretty, Pdf.setFileId] using h3, by simp [Pdf.setFileId, h4, catalogId, infoId, fileId], h5, h6⟩
  | .catalog h id es =>
    intro p hp
    have hh := pdf_inv h
    simp only [PdfHist.run] at hp
    cases hr : h.run with
    | none => simp [hr] at hp
    | some q =>
      simp only [hr, Option.some.injEq] at hp
      obtain ⟨ps, h1, h2, h3, h4, h5, h6⟩ := hh q hr
      subst hp
      exact ⟨_, layout_writeIndirect h1 _ _, by simp [piecesItems_append, pdfItems, h2, piecesItems, h3],
        by simp [Pdf.catalog, writeIndirect_eq, pdfPretty, h3], by simp [Pdf.catalog, h4, catalogId, infoId, fileId], h5, h6⟩
  | .documentInfo h id es =>
    intro p hp
    have hh := pdf_inv h
    simp only [PdfHist.run] at hp
    cases hr : h.run with
    | none => simp [hr] at hp
    | some q =>
      simp only [hr, Option.some.injEq] at hp
      obtain ⟨ps, h1, h2, h3, h4, h5, h6⟩ := hh q hr
      subst hp
      exact ⟨_, layout_writeIndirect h1 _ _, by simp [piecesItems_append, pdfItems, h2, piecesItems, h3],
        by simp [Pdf.documentInfo, writeIndirect_eq, pdfPretty, h3], by simp [Pdf.documentInfo, h4, catalogId, infoId, fileId], h5, h6⟩
termination_by structural h
end

end PdfW
