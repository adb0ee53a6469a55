import Verif.Proof.History
import Verif.Proof.FileEnd
import Verif.Proof.Visible
import Verif.Spec.Ascii

/-! # Lemmas: the only bytes above 0x7F come from the user -/

set_option linter.unusedSimpArgs false
set_option linter.unusedVariables false

namespace PdfW
open Spec

theorem ascii_append (a b : Bytes) : Ascii (a ++ b) ↔ Ascii a ∧ Ascii b := by
  simp only [Ascii, List.mem_append]
  exact ⟨fun h => ⟨fun x hx => h x (.inl hx), fun x hx => h x (.inr hx)⟩, fun h x hx => hx.elim (h.1 x) (h.2 x)⟩

theorem ascii_cons (a : UInt8) (b : Bytes) : Ascii (a :: b) ↔ a < 0x80 ∧ Ascii b := by simp [Ascii]

theorem ascii_nil : Ascii [] := by simp [Ascii]

instance (bs : Bytes) : Decidable (Ascii bs) := by unfold Ascii; infer_instance

theorem ascii_of_visible {bs : Bytes} (h : bs.all isVisible = true) : Ascii bs := by
  have f : ∀ b : UInt8, isVisible b = true → b < 0x80 := forall_byte (by decide +kernel)
  rw [List.all_eq_true] at h
  intro b hb; exact f b (h b hb)

theorem ascii_digits {bs : Bytes} (h : bs.all isDigit = true) : Ascii bs := ascii_of_visible (digits_visible _ h)

theorem ascii_int (i : Int) : Ascii (intBytes i) := ascii_of_visible (intBytes_visible i)

theorem ascii_replicate (n : Nat) : Ascii (List.replicate n 32) := by
  intro b hb
  rw [List.eq_of_mem_replicate hb]; decide

theorem ascii_lineSep (p : Bool) (n : Nat) : Ascii (lineSep p n) := by
  unfold lineSep; split
  · simp only [ascii_cons]; exact ⟨by decide, by unfold spaces; exact ascii_replicate _⟩
  · exact ascii_nil

theorem ascii_name (n : Bytes) : Ascii (nameBytes n) := ascii_of_visible (primBytes_visible (.name n))

theorem ascii_pad (pad : Bool) (last : Option UInt8) (p : Prim) : Ascii (padOf pad last p) := by
  unfold padOf; split <;> decide

theorem ascii_itemSep (p f : Bool) : Ascii (itemSep p f) := by cases p <;> cases f <;> decide
theorem ascii_keySep (p : Bool) : Ascii (keySep p) := by cases p <;> decide

mutual
theorem ascii_enc (pretty : Bool) (indent : Nat) (pad : Bool) (last : Option UInt8) (p : Prog) : Ascii (enc pretty indent pad last p) := by
  match p with
  | .prim p =>
    simp only [enc, ascii_append]
    exact ⟨ascii_pad _ _ _, ascii_of_visible (primBytes_visible p)⟩
  | .array items =>
    simp only [enc, ascii_cons, ascii_append]
    exact ⟨by decide, ascii_encItems _ _ _ _ items, by decide, ascii_nil⟩
  | .dict es =>
    simp only [enc, ascii_append]
    exact ⟨by decide, ascii_encEntries _ _ es, ascii_lineSep _ _, by decide⟩
  | .unused => simp only [enc]; exact ascii_nil
termination_by structural p
theorem ascii_encItems (pretty : Bool) (indent : Nat) (first : Bool) (last : Option UInt8) (ps : List Prog) :
    Ascii (encItems pretty indent first last ps) := by
  match ps with
  | [] => simp only [encItems]; exact ascii_nil
  | x :: xs =>
    simp only [encItems, ascii_append]
    exact ⟨⟨ascii_itemSep _ _, ascii_enc _ _ _ _ x⟩, ascii_encItems _ _ _ _ xs⟩
termination_by structural ps
theorem ascii_encEntries (pretty : Bool) (indent : Nat) (es : List (Bytes × Prog)) : Ascii (encEntries pretty indent es) := by
  match es with
  | [] => simp only [encEntries]; exact ascii_nil
  | (k, v) :: es =>
    simp only [encEntries, ascii_append]
    exact ⟨ascii_lineSep _ _, ascii_name _, ascii_keySep _, ascii_enc _ _ _ _ v, ascii_encEntries _ _ es⟩
termination_by structural es
end

def AllAscii (l : List Bytes) : Prop := ∀ x ∈ l, Ascii x

theorem allAscii_append (a b : List Bytes) : AllAscii (a ++ b) ↔ AllAscii a ∧ AllAscii b := by
  simp only [AllAscii, List.mem_append]
  exact ⟨fun h => ⟨fun x hx => h x (.inl hx), fun x hx => h x (.inr hx)⟩, fun h x hx => hx.elim (h.1 x) (h.2 x)⟩

theorem allAscii_cons (a : Bytes) (b : List Bytes) : AllAscii (a :: b) ↔ Ascii a ∧ AllAscii b := by simp [AllAscii]

theorem allAscii_nil : AllAscii [] := by simp [AllAscii]

theorem ascii_head (r : Ref) : Ascii (headBytes r) := by
  simp only [headBytes, ascii_append]; exact ⟨ascii_int _, by decide⟩

theorem ascii_end (nl : Bool) : Ascii (endBytes nl) := by cases nl <;> decide

theorem ascii_itemVal (id : Ref) (p : Prog) (pretty nl : Bool) : Ascii (itemBytes ⟨id, .val p, pretty⟩ nl) := by
  simp only [itemBytes, bodyBytes, ascii_append]
  refine ⟨ascii_head _, ascii_enc _ _ _ _ _, ?_⟩
  split
  · exact ascii_end _
  · exact ascii_nil

theorem ascii_itemStream (id : Ref) (es : List (Bytes × Prog)) (data : Bytes) (pretty nl : Bool) :
    Ascii (itemBytes ⟨id, .stream es data, pretty⟩ nl) ↔ Ascii data := by
  simp only [itemBytes, started, if_true, bodyBytes, ascii_append]
  constructor
  · intro h; exact h.2.1.2.2.2.2.2.1
  · intro h; exact ⟨ascii_head _, ⟨by decide, ascii_encEntries _ _ _, ascii_lineSep _ _, by decide, by decide, h, by decide⟩, ascii_end _⟩

theorem ascii_items (its : List Item) (nl : Bool) : Ascii (piecesBytes (mappedPieces its nl)) ↔ AllAscii (streamData its) := by
  induction its with
  | nil => simp [mappedPieces, piecesBytes, streamData, ascii_nil, allAscii_nil]
  | cons it its ih =>
    obtain ⟨id, body, pretty⟩ := it
    simp only [mappedPieces] at ih
    cases body with
    | val p =>
      simp only [mappedPieces, List.map_cons, piecesBytes, Piece.bytes, ascii_append, streamData, ih, ascii_itemVal, true_and]
    | stream es data =>
      simp only [mappedPieces, List.map_cons, piecesBytes, Piece.bytes, ascii_append, streamData, ih, ascii_itemStream, allAscii_cons]

theorem streamData_mapObjs {σ : Type} (m : Mapping σ) (its : List Item) (s : σ) : streamData (mapObjs m its s).1 = streamData its := by
  induction its generalizing s with
  | nil => rfl
  | cons it its ih =>
    obtain ⟨id, body, pretty⟩ := it
    match body with
    | .val .unused => simp [mapObjs, started, streamData, ih]
    | .val (.prim _) | .val (.array _) | .val (.dict _) | .stream _ _ => simp [mapObjs, started, mapItem, mapBody, streamData, ih]

theorem ascii_header (v : UInt8 × UInt8) (m : UInt8 × UInt8 × UInt8 × UInt8) (h1 : v.1 < 10) (h2 : v.2 < 10) :
    Ascii (header v m) ↔ Ascii (markerBytes m) := by
  have f : ∀ b : UInt8, isDigit b = true → b < 0x80 := forall_byte (by decide +kernel)
  simp only [header, ascii_append, ascii_cons, markerBytes]
  constructor
  · intro h; exact h.1.2
  · intro h; exact ⟨⟨⟨⟨⟨⟨by decide, f _ (digit_add _ h1), ascii_nil⟩, by decide⟩, f _ (digit_add _ h2), ascii_nil⟩, by decide⟩, h⟩, by decide⟩

def CallAsc (f : Chunk → Option Chunk) (parts : List Bytes) : Prop :=
  ∀ c ps, Layout c ps → ∀ c', f c = some c' → ∃ extra, c'.buf.inner = c.buf.inner ++ extra ∧ (Ascii extra ↔ AllAscii parts)

def ChunkAsc (r : Option Chunk) (parts : List Bytes) : Prop := ∀ c, r = some c → (Ascii c.buf.inner ↔ AllAscii parts)

def PdfAsc (r : Option Pdf) (h : PdfHist) : Prop :=
  ∀ p, r = some p → ∃ tail, p.chunk.buf.inner = header (version h) (marker h) ++ tail ∧ (Ascii tail ↔ AllAscii (pdfParts h))

mutual
theorem chunk_asc (h : ChunkHist) : ChunkAsc h.run (chunkParts h) := by
  match h with
  | .new pretty =>
    intro c hc
    simp only [ChunkHist.run, Option.some.injEq] at hc
    subst hc
    simp [Chunk.withSettings, Buf.new, chunkParts, ascii_nil, allAscii_nil]
  | .ofPdf p =>
    intro c hc
    have hp := pdf_asc p
    have hi := pdf_inv p
    simp only [ChunkHist.run] at hc
    cases hr : p.run with
    | none => simp [hr] at hc
    | some q =>
      simp only [hr, Option.some.injEq] at hc
      subst hc
      obtain ⟨tail, h1, h2⟩ := hp q hr
      obtain ⟨-, -, -, -, -, h3, h4⟩ := hi q hr
      rw [h1, ascii_append, ascii_header _ _ h3 h4, h2, chunkParts, allAscii_cons]
  | .call h c =>
    intro c' hc
    have hh := chunk_asc h
    have hi := chunk_inv h
    have hcall := call_asc c
    simp only [ChunkHist.run] at hc
    cases hr : h.run with
    | none => simp [hr] at hc
    | some ch =>
      simp only [hr] at hc
      obtain ⟨ps, h1, -, -⟩ := hi ch hr
      obtain ⟨extra, k1, k2⟩ := hcall ch ps h1 c' hc
      rw [k1, ascii_append, hh ch hr, k2, chunkParts, allAscii_append]
termination_by structural h
theorem call_asc (c : ChunkCall) : CallAsc c.run (callParts c) := by
  match c with
  | .indirect id p =>
    intro c ps hl c' hc
    simp only [ChunkCall.run, Option.some.injEq] at hc
    subst hc
    refine ⟨itemBytes ⟨id, .val p, c.pretty⟩ c.pretty, by rw [writeIndirect_eq], ?_⟩
    simp [ascii_itemVal, callParts, allAscii_nil]
  | .stream id es data =>
    intro c ps hl c' hc
    simp only [ChunkCall.run, writeStream_eq] at hc
    split at hc
    · simp only [Option.some.injEq] at hc
      subst hc
      refine ⟨_, rfl, ?_⟩
      simp [ascii_itemStream, callParts, allAscii_nil, allAscii_cons]
    · simp at hc
  | .extend o =>
    intro c ps hl c' hc
    have ho := chunk_asc o
    simp only [ChunkCall.run] at hc
    cases hr : o.run with
    | none => simp [hr] at hc
    | some oc =>
      simp only [hr, Option.some.injEq] at hc
      subst hc
      exact ⟨oc.buf.inner, by simp [Chunk.extend, Buf.extendBuf], by rw [ho oc hr, callParts]⟩
  | .mergeLimits l =>
    intro c ps hl c' hc
    simp only [ChunkCall.run, Option.some.injEq] at hc
    subst hc
    exact ⟨[], by simp [Chunk.mergeLimits], by simp [callParts, ascii_nil, allAscii_nil]⟩
  | .renumberFrom source σ m s =>
    intro c ps hl c' hc
    have ho := chunk_inv source
    simp only [ChunkCall.run] at hc
    cases hr : source.run with
    | none => simp [hr] at hc
    | some src =>
      simp only [hr, Option.some.injEq] at hc
      subst hc
      obtain ⟨qs, h1, h2, h3⟩ := ho src hr
      obtain ⟨k1, -, -, k4⟩ := layout_renumberInto h1 hl m s
      refine ⟨_, by rw [k1.bytes, piecesBytes_append, ← hl.bytes], ?_⟩
      rw [ascii_items, streamData_mapObjs, h2, callParts]
termination_by structural c
theorem pdf_asc (h : PdfHist) : PdfAsc h.run h := by
  match h with
  | .new pretty =>
    intro p hp
    simp only [PdfHist.run, Option.some.injEq] at hp
    subst hp
    refine ⟨[], ?_, by simp [pdfParts, ascii_nil, allAscii_nil]⟩
    simp only [version, marker]; rfl
  | .call h c =>
    intro p hp
    have hh := pdf_asc h
    have hi := pdf_inv h
    have hcall := call_asc c
    simp only [PdfHist.run] at hp
    cases hr : h.run with
    | none => simp [hr] at hp
    | some q =>
      simp only [hr] at hp
      obtain ⟨tail, h1, h2⟩ := hh q hr
      obtain ⟨ps, hl, -⟩ := hi q hr
      cases hc : c.run q.chunk with
      | none => simp [hc] at hp
      | some ch =>
        simp only [hc, Option.some.injEq] at hp
        subst hp
        obtain ⟨extra, k1, k2⟩ := hcall q.chunk _ hl ch hc
        refine ⟨tail ++ extra, by simp only [k1, h1, List.append_assoc, version, marker], ?_⟩
        rw [ascii_append, h2, k2, pdfParts, allAscii_append]
  | .setVersion h a b =>
    intro p hp
    have hh := pdf_asc h
    simp only [PdfHist.run] at hp
    cases hr : h.run with
    | none => simp [hr] at hp
    | some q =>
      simp only [hr, Option.some.injEq] at hp
      obtain ⟨tail, hb, h2⟩ := hh q hr
      subst hp
      refine ⟨tail, ?_, by rw [h2, pdfParts]⟩
      simp only [Pdf.setVersion, hb]
      by_cases ha : a < 10 <;> by_cases hb' : b < 10 <;> simp [version, marker, ha, hb', header]
  | .setBinaryMarker h m =>
    intro p hp
    have hh := pdf_asc h
    simp only [PdfHist.run] at hp
    cases hr : h.run with
    | none => simp [hr] at hp
    | some q =>
      simp only [hr, Option.some.injEq] at hp
      obtain ⟨tail, hb, h2⟩ := hh q hr
      subst hp
      refine ⟨tail, ?_, by rw [h2, pdfParts]⟩
      simp only [Pdf.setBinaryMarker, hb]
      simp [version, marker, header]
  | .setFileId h id =>
    intro p hp
    have hh := pdf_asc h
    simp only [PdfHist.run] at hp
    cases hr : h.run with
    | none => simp [hr] at hp
    | some q =>
      simp only [hr, Option.some.injEq] at hp
      obtain ⟨tail, h1, h2⟩ := hh q hr
      subst hp
      exact ⟨tail, by simpa [version, marker, Pdf.setFileId] using h1, by rw [h2, pdfParts]⟩
  | .catalog h id es =>
    intro p hp
    have hh := pdf_asc h
    simp only [PdfHist.run] at hp
    cases hr : h.run with
    | none => simp [hr] at hp
    | some q =>
      simp only [hr, Option.some.injEq] at hp
      obtain ⟨tail, h1, h2⟩ := hh q hr
      subst hp
      refine ⟨tail ++ itemBytes ⟨id, .val (.dict ((b!"Type", .prim (.name b!"Catalog")) :: es)), q.chunk.pretty⟩ q.chunk.pretty, by simp only [Pdf.catalog, writeIndirect_eq, h1, List.append_assoc, version, marker], ?_⟩
      rw [ascii_append, h2, pdfParts]
      simp only [ascii_itemVal, and_true]
  | .documentInfo h id es =>
    intro p hp
    have hh := pdf_asc h
    simp only [PdfHist.run] at hp
    cases hr : h.run with
    | none => simp [hr] at hp
    | some q =>
      simp only [hr, Option.some.injEq] at hp
      obtain ⟨tail, h1, h2⟩ := hh q hr
      subst hp
      refine ⟨tail ++ itemBytes ⟨id, .val (.dict es), q.chunk.pretty⟩ q.chunk.pretty, by simp only [Pdf.documentInfo, writeIndirect_eq, h1, List.append_assoc, version, marker], ?_⟩
      rw [ascii_append, h2, pdfParts]
      simp only [ascii_itemVal, and_true]
termination_by structural h
end

theorem ascii_doc {h : PdfHist} {p : Pdf} (hr : h.run = some p) : Ascii p.chunk.buf.inner ↔ AllAscii (verbatim h) := by
  obtain ⟨tail, h1, h2⟩ := pdf_asc h p hr
  obtain ⟨-, -, -, -, -, h3, h4⟩ := pdf_inv h p hr
  rw [h1, ascii_append, ascii_header _ _ h3 h4, h2, verbatim, allAscii_cons]

theorem ascii_plainEntry (e : XEntry) : Ascii (plainEntry e) := by
  cases e with
  | free a b => simp only [plainEntry, ascii_append]; exact ⟨⟨⟨ascii_digits (padNat_digits _ _), by decide⟩, ascii_digits (padNat_digits _ _)⟩, by decide⟩
  | used a b => simp only [plainEntry, ascii_append]; exact ⟨⟨⟨ascii_digits (padNat_digits _ _), by decide⟩, ascii_digits (padNat_digits _ _)⟩, by decide⟩
  | packed a b => exact ascii_nil

theorem ascii_plainEnd (p : Pdf) : Ascii (plainEnd p) := by
  simp only [plainEnd, ascii_append]
  refine ⟨by decide, ascii_int _, by decide, ?_, by decide, ascii_enc _ _ _ _ _, by decide⟩
  intro b hb
  obtain ⟨e, -, h2⟩ := List.mem_flatMap.mp hb
  exact ascii_plainEntry e b h2

theorem ascii_startxref (n : Nat) : Ascii (b!"startxref\n" ++ (natBytes n ++ b!"\n%%EOF")) := by
  simp only [ascii_append]
  exact ⟨by decide, ascii_digits (natBytes_digits n), by decide⟩

end PdfW
