import Verif.Proof.XRef
import Verif.Spec.Finish

/-! # Lemmas: finished files -/

set_option linter.unusedSimpArgs false
set_option linter.unusedVariables false

namespace PdfW
open Spec

/-! ## `startxref` -/

theorem takeWhile_append_stop {α : Type} (p : α → Bool) (xs : List α) (y : α) (ys : List α) (h : xs.all p = true) (hy : p y = false) :
    (xs ++ y :: ys).takeWhile p = xs := by
  induction xs with
  | nil => simp [hy]
  | cons x xs ih =>
    simp only [List.all_cons, Bool.and_eq_true] at h
    simp [h.1, ih h.2]

theorem dropWhile_append_stop {α : Type} (p : α → Bool) (xs : List α) (y : α) (ys : List α) (h : xs.all p = true) (hy : p y = false) :
    (xs ++ y :: ys).dropWhile p = y :: ys := by
  induction xs with
  | nil => simp [hy]
  | cons x xs ih =>
    simp only [List.all_cons, Bool.and_eq_true] at h
    simp [h.1, ih h.2]

theorem digit_notEol : ∀ b : UInt8, isDigit b = true → isEol b = false := forall_byte (by decide +kernel)
theorem digit_notWhite : ∀ b : UInt8, isDigit b = true → isWhite b = false := forall_byte (by decide +kernel)

theorem readStartxref_eq (pre : Bytes) (n : Nat) :
    readStartxref (pre ++ (b!"startxref\n" ++ (natBytes n ++ b!"\n%%EOF"))) = some n := by
  have hd : (natBytes n).reverse.all isDigit = true := by rw [List.all_reverse]; exact natBytes_digits n
  have hne : (natBytes n).reverse ≠ [] := by simpa using natBytes_ne_nil n
  have hv : digitsVal (natBytes n).reverse.reverse = n := by rw [List.reverse_reverse, digitsVal_natBytes]
  have hrev : (pre ++ (b!"startxref\n" ++ (natBytes n ++ b!"\n%%EOF"))).reverse =
      b!"FOE%%\n" ++ ((natBytes n).reverse ++ (b!"\n" ++ (b!"ferxtrats" ++ pre.reverse))) := by simp
  unfold readStartxref
  rw [hrev]
  generalize (natBytes n).reverse = ds at *
  have h1 : (b!"FOE%%\n" ++ (ds ++ (b!"\n" ++ (b!"ferxtrats" ++ pre.reverse)))).dropWhile isWhite =
      b!"FOE%%\n" ++ (ds ++ (b!"\n" ++ (b!"ferxtrats" ++ pre.reverse))) := by
    rw [List.cons_append, List.dropWhile_cons]; simp [show isWhite 70 = false from by decide]
  rw [h1]
  have h2 : stripPrefix (b!"%%EOF").reverse (b!"FOE%%\n" ++ (ds ++ (b!"\n" ++ (b!"ferxtrats" ++ pre.reverse)))) =
      some (b!"\n" ++ (ds ++ (b!"\n" ++ (b!"ferxtrats" ++ pre.reverse)))) := by
    simp [stripPrefix]
  rw [h2]
  have h3 : (b!"\n" ++ (ds ++ (b!"\n" ++ (b!"ferxtrats" ++ pre.reverse)))).dropWhile isEol = ds ++ (b!"\n" ++ (b!"ferxtrats" ++ pre.reverse)) := by
    cases ds with
    | nil => simp at hne
    | cons d ds =>
      simp only [List.all_cons, Bool.and_eq_true] at hd
      simp [show isEol 10 = true from by decide, digit_notEol d hd.1]
  have h4 : (ds ++ (b!"\n" ++ (b!"ferxtrats" ++ pre.reverse))).takeWhile isDigit = ds :=
    takeWhile_append_stop _ ds 10 _ hd (by decide)
  have h5 : (ds ++ (b!"\n" ++ (b!"ferxtrats" ++ pre.reverse))).dropWhile isDigit = b!"\n" ++ (b!"ferxtrats" ++ pre.reverse) :=
    dropWhile_append_stop _ ds 10 _ hd (by decide)
  have h6 : (b!"\n" ++ (b!"ferxtrats" ++ pre.reverse)).dropWhile isEol = b!"ferxtrats" ++ pre.reverse := by
    simp [show isEol 10 = true from by decide, show isEol 102 = false from by decide]
  simp only [h3, h4, h5, h6]
  have h7 : stripPrefix (b!"startxref").reverse (b!"ferxtrats" ++ pre.reverse) = some pre.reverse := by simp [stripPrefix]
  rw [h7, hv]
  simp [hne]

/-! ## Plain tables -/

def plainEntry : XEntry → Bytes
  | .free next gen => Date.padNat 10 next ++ b!" " ++ Date.padNat 5 gen ++ b!" f\x0D\n"
  | .used off gen => Date.padNat 10 off ++ b!" " ++ Date.padNat 5 gen ++ b!" n\x0D\n"
  | .packed _ _ => []

theorem foldl_emit_plain (es : List XEntry) (buf : Buf) :
    es.foldl (emit plainXRefWriter) buf = ⟨buf.inner ++ es.flatMap plainEntry, buf.limits⟩ := by
  induction es generalizing buf with
  | nil => simp
  | cons e es ih =>
    rw [List.foldl_cons, ih]
    cases e <;> simp [emit, plainXRefWriter, Buf.extend, plainEntry]

/-- Entries that fit into 20 bytes. -/
def EntryFits : XEntry → Prop
  | .free next gen => next < 10 ^ 10 ∧ gen < 10 ^ 5
  | .used off gen => off < 10 ^ 10 ∧ gen < 10 ^ 5
  | .packed _ _ => False

theorem plainEntry_length (e : XEntry) (h : EntryFits e) : (plainEntry e).length = 20 := by
  cases e with
  | free a b => simp only [EntryFits] at h; simp [plainEntry, padNat_length 10 a (by omega) h.1, padNat_length 5 b (by omega) h.2]
  | used a b => simp only [EntryFits] at h; simp [plainEntry, padNat_length 10 a (by omega) h.1, padNat_length 5 b (by omega) h.2]
  | packed a b => simp [EntryFits] at h

theorem readEntry_of_parts (off gen : Bytes) (k : UInt8) (r : Bytes) (x : XEntry) (h1 : off.length = 10) (h2 : gen.length = 5)
    (h3 : off.all isDigit = true) (h4 : gen.all isDigit = true) (hx : entryOf k (digitsVal off) (digitsVal gen) = some x) :
    readEntry (off ++ b!" " ++ gen ++ [ch!" ", k, 0x0D, 0x0A] ++ r) = some (x, r) := by
  match off, h1 with
  | [a0, a1, a2, a3, a4, a5, a6, a7, a8, a9], _ =>
    match gen, h2 with
    | [b0, b1, b2, b3, b4], _ =>
      simp only [readEntry, List.cons_append, List.nil_append, List.take, List.drop, List.length_cons, List.length_nil, h3, h4]
      simp [hx]

theorem readEntry_plain (e : XEntry) (h : EntryFits e) (r : Bytes) : readEntry (plainEntry e ++ r) = some (e, r) := by
  cases e with
  | free a b =>
    exact readEntry_of_parts _ _ ch!"f" r _ (padNat_length 10 a (by omega) h.1) (padNat_length 5 b (by omega) h.2) (padNat_digits _ _)
      (padNat_digits _ _) (by rw [digitsVal_padNat, digitsVal_padNat]; rfl)
  | used a b =>
    exact readEntry_of_parts _ _ ch!"n" r _ (padNat_length 10 a (by omega) h.1) (padNat_length 5 b (by omega) h.2) (padNat_digits _ _)
      (padNat_digits _ _) (by rw [digitsVal_padNat, digitsVal_padNat]; rfl)
  | packed a b => simp [EntryFits] at h

theorem readEntries_plain (es : List XEntry) (h : ∀ e ∈ es, EntryFits e) (r : Bytes) :
    readEntries es.length (es.flatMap plainEntry ++ r) = some (es, r) := by
  induction es with
  | nil => simp [readEntries]
  | cons e es ih =>
    simp only [List.length_cons, readEntries, List.flatMap_cons, List.append_assoc]
    simp only [readEntry_plain e (h e (by simp)), ih (fun e he => h e (by simp [he]))]

/-! ## Numbered tables -/

theorem numbered_filter (a i : Nat) (es : List XEntry) :
    (numbered a es).filter (fun e => e.1 == i) = if a ≤ i then (es[i - a]?.toList.map fun e => (i, e)) else [] := by
  induction es generalizing a with
  | nil => simp [numbered]
  | cons e es ih =>
    rw [numbered, List.filter_cons, ih]
    by_cases h : a = i
    · subst h
      have : ¬ a + 1 ≤ a := by omega
      simp [this]
    · have hne : (a == i) = false := by simpa using h
      simp only [hne, Bool.false_eq_true, if_false]
      by_cases h2 : a ≤ i
      · have e1 : i - a = (i - (a + 1)) + 1 := by omega
        have h3 : a + 1 ≤ i := by omega
        simp [h2, h3, e1]
      · have h3 : ¬ a + 1 ≤ i := by omega
        simp [h2, h3]

theorem entry_numbered (pos : Nat) (es : List XEntry) (d : List (Bytes × Val)) (i : Nat) :
    (FileEnd.mk pos (numbered 0 es) d).entry i = es[i]? := by
  simp only [FileEnd.entry, numbered_filter, Nat.zero_le, if_true, Nat.sub_zero]
  cases es[i]? <;> simp

/-! ## The trailer -/

/-- The trailer entries of a document. -/
def trailerVals (t : TrailerData) (size : Nat) : List (Bytes × Val) :=
  [(b!"Size", .int size)] ++ t.catalogId.toList.map (fun r => (b!"Root", Val.ref r.get.toNat 0)) ++
    t.infoId.toList.map (fun r => (b!"Info", Val.ref r.get.toNat 0)) ++
    t.fileId.toList.map (fun i => (b!"ID", Val.arr [.str i.1, .str i.2]))

theorem entriesVal_trailer (t : TrailerData) (size : Nat) : entriesVal (t.entries size) = trailerVals t size := by
  obtain ⟨c, i, f⟩ := t
  cases c <;> cases i <;> cases f <;>
    simp [TrailerData.entries, trailerVals, entriesVal, progVal, itemsVal, primVal, Ref.get]

theorem trailer_ok (t : TrailerData) (n : Int) : OkEntries (t.entries n) := by
  obtain ⟨c, i, f⟩ := t
  cases c <;> cases i <;> cases f <;> simp [TrailerData.entries, OkEntries, Ok, PrimOk, OkItems]

theorem trailer_noClash (t : TrailerData) (n : Int) : NoClashEntries (t.entries n) := by
  obtain ⟨c, i, f⟩ := t
  cases c <;> cases i <;> cases f <;> simp [TrailerData.entries, NoClashEntries, NoClash, NoClashItems, isEmptyName]

/-! ## `finish` -/

/-- Entries of the cross-reference section for these offsets. -/
def xrefEntries (l : List (Ref × Nat)) : List XEntry := (List.range (xrefSize l)).map (wantedEntry (natOffs l) (xrefSize l))

theorem xrefEntries_length (l : List (Ref × Nat)) : (xrefEntries l).length = xrefSize l := by simp [xrefEntries]

/-- The cross-reference table and trailer. -/
def plainEnd (p : Pdf) : Bytes :=
  b!"xref\n0 " ++ (intBytes (xrefSize p.chunk.offsets) ++ (b!"\n" ++ ((xrefEntries p.chunk.offsets).flatMap plainEntry ++
    (b!"trailer\n" ++ (enc p.chunk.pretty 0 false (some ch!"\n") (.dict (p.trailer.entries (xrefSize p.chunk.offsets))) ++ b!"\n")))))

theorem finish_eq (p : Pdf) (hmax : ∀ q ∈ p.chunk.offsets, q.1.get < 2147483647) (h : (p.chunk.offsets.map (·.1)).Nodup) :
    p.finish = some (p.chunk.buf.inner ++ plainEnd p ++ (b!"startxref\n" ++ (natBytes p.chunk.buf.len ++ b!"\n%%EOF"))) := by
  simp only [Pdf.finish, writeOffsets_eq _ hmax _ _ h, foldl_emit_plain, Obj.direct]
  simp only [run_eq, Buf.extend]
  have e : ∀ x : Bytes, (x ++ b!"trailer\n").getLast? = some ch!"\n" := by
    intro x; rw [getLast?_append_ne (by simp)]; rfl
  simp only [e]
  simp [finishTrailer, plainXRefWriter, Buf.extend, Buf.push, pushInt_eq, plainEnd, xrefEntries, tailBytes]

theorem finish_none (p : Pdf) (hmax : ∀ q ∈ p.chunk.offsets, q.1.get < 2147483647) (h : ¬ (p.chunk.offsets.map (·.1)).Nodup) : p.finish = none := by
  have := writeOffsets_isSome p.chunk.offsets hmax plainXRefWriter p.chunk.buf
  simp only [h, iff_false, Bool.not_eq_true, Option.isSome_eq_false_iff, Option.isNone_iff_eq_none] at this
  simp [Pdf.finish, this]

/-- Reading the cross-reference table. -/
theorem readXref_plain (unf : Val → Bytes → Option Bytes) (pos : Nat) (p : Pdf) (rest : Bytes)
    (hfit : ∀ e ∈ xrefEntries p.chunk.offsets, EntryFits e) :
    readXref unf pos (plainEnd p ++ (b!"startxref\n" ++ rest)) =
      some ⟨pos, numbered 0 (xrefEntries p.chunk.offsets), trailerVals p.trailer (xrefSize p.chunk.offsets)⟩ := by
  generalize hN : xrefSize p.chunk.offsets = N
  have hlen : (xrefEntries p.chunk.offsets).length = N := by rw [xrefEntries_length, hN]
  have hNpos : 0 < N := by rw [← hN]; simp [xrefSize]; omega
  generalize hE : xrefEntries p.chunk.offsets = E at *
  -- the trailer and what follows
  generalize htr : enc p.chunk.pretty 0 false (some ch!"\n") (.dict (p.trailer.entries N)) ++ (b!"\n" ++ (b!"startxref\n" ++ rest)) = tr
  have hok : Ok (.dict (p.trailer.entries N)) := by simpa [Ok] using trailer_ok _ _
  have hscan := scan_enc p.chunk.pretty (.dict (p.trailer.entries N)) hok (Or.inr (by simpa [NoClash] using trailer_noClash _ _)) 0 false
    (some ch!"\n") (b!"\n" ++ (b!"startxref\n" ++ rest)) (by simp [progNeedsEnd])
  rw [htr] at hscan
  have hscan := Scan.white (w := 10) (by decide) (progToks_ne_nil _ hok) hscan
  have hend : nextToken (b!"\n" ++ (b!"startxref\n" ++ rest)) = some (.kw b!"startxref", b!"\n" ++ rest) := by
    have := nextToken_of_scan (kw_line b!"startxref" rest (by decide) (by decide) (by decide))
    simpa using this
  have hl2 := hscan.length
  have hitems := readItems_scan hscan (progToks_notOp _ hok) _ hend (k := b!"startxref") (by decide) ((10 :: tr).length + 1)
    (by omega) [(.top, [])] [progVal (.dict (p.trailer.entries N))] (fold_prog _ hok .top [] [])
  -- the keyword
  have hx : plainEnd p ++ (b!"startxref\n" ++ rest) =
      b!"xref" ++ (b!"\n0 " ++ (intBytes N ++ (b!"\n" ++ (E.flatMap plainEntry ++ (b!"trailer" ++ (b!"\n" ++ tr)))))) := by
    rw [← htr]; simp [plainEnd, hN, hE]
  rw [hx]
  have hkw : expectKw b!"xref" (b!"xref" ++ (b!"\n0 " ++ (intBytes N ++ (b!"\n" ++ (E.flatMap plainEntry ++ (b!"trailer" ++ (b!"\n" ++ tr)))))))
      = some (b!"\n0 " ++ (intBytes N ++ (b!"\n" ++ (E.flatMap plainEntry ++ (b!"trailer" ++ (b!"\n" ++ tr)))))) :=
    expectKw_of_scan (kw_scan b!"xref" _ (by decide) (by decide) (by decide) (white_sepOk _ _ (by decide)))
  unfold readXref
  rw [hkw]
  simp only []
  generalize hr : b!"\n0 " ++ (intBytes N ++ (b!"\n" ++ (E.flatMap plainEntry ++ (b!"trailer" ++ (b!"\n" ++ tr))))) = r
  have hrl : 2 ≤ r.length := by rw [← hr]; simp
  obtain ⟨f, hf⟩ : ∃ f, r.length + 1 = f + 1 + 1 := ⟨r.length - 1, by omega⟩
  rw [hf]
  have hz : nextToken r = some (.int 0, b!" " ++ (intBytes N ++ (b!"\n" ++ (E.flatMap plainEntry ++ (b!"trailer" ++ (b!"\n" ++ tr)))))) := by
    rw [← hr]
    have := intBytes_scan 0 (b!" " ++ (intBytes N ++ (b!"\n" ++ (E.flatMap plainEntry ++ (b!"trailer" ++ (b!"\n" ++ tr)))))) (white_sepOk _ _ (by decide))
    rw [show intBytes 0 = b!"0" from by decide] at this
    exact nextToken_of_scan (Scan.white (w := 10) (by decide) (by simp) this)
  have hn : nextToken (b!" " ++ (intBytes N ++ (b!"\n" ++ (E.flatMap plainEntry ++ (b!"trailer" ++ (b!"\n" ++ tr)))))) =
      some (.int N, b!"\n" ++ (E.flatMap plainEntry ++ (b!"trailer" ++ (b!"\n" ++ tr)))) := by
    have := intBytes_scan N (b!"\n" ++ (E.flatMap plainEntry ++ (b!"trailer" ++ (b!"\n" ++ tr)))) (white_sepOk _ _ (by decide))
    exact nextToken_of_scan (Scan.white (w := 32) (by decide) (by simp) this)
  have hdrop : (b!"\n" ++ (E.flatMap plainEntry ++ (b!"trailer" ++ (b!"\n" ++ tr)))).dropWhile isWhite =
      E.flatMap plainEntry ++ (b!"trailer" ++ (b!"\n" ++ tr)) := by
    cases E with
    | nil => simp at hlen; omega
    | cons e es =>
      have hfe := hfit e (by simp)
      have hdig : ∃ d l, plainEntry e = d :: l ∧ isDigit d = true := by
        have key : ∀ n, n < 10 ^ 10 → ∀ t, ∃ d l, Date.padNat 10 n ++ t = d :: l ∧ isDigit d = true := by
          intro n hn t
          have h1 := padNat_length 10 n (by omega) hn
          have h2 := padNat_digits 10 n
          cases hp : Date.padNat 10 n with
          | nil => rw [hp] at h1; simp at h1
          | cons d l =>
            rw [hp] at h2
            simp only [List.all_cons, Bool.and_eq_true] at h2
            exact ⟨d, l ++ t, rfl, h2.1⟩
        cases e with
        | free a b => simpa [plainEntry] using key a hfe.1 _
        | used a b => simpa [plainEntry] using key a hfe.1 _
        | packed a b => simp [EntryFits] at hfe
      obtain ⟨d, l, e1, e2⟩ := hdig
      simp only [List.flatMap_cons, e1, List.cons_append, List.nil_append, List.append_assoc]
      rw [List.dropWhile_cons, List.dropWhile_cons]
      simp [show isWhite 10 = true from by decide, digit_notWhite d e2]
  have hent := readEntries_plain E hfit (b!"trailer" ++ (b!"\n" ++ tr))
  rw [hlen] at hent
  have htrl : nextToken (b!"trailer" ++ (b!"\n" ++ tr)) = some (.kw b!"trailer", b!"\n" ++ tr) :=
    nextToken_of_scan (kw_scan b!"trailer" _ (by decide) (by decide) (by decide) (white_sepOk _ _ (by decide)))
  have hsec : readSections (f + 1 + 1) r = some (numbered 0 E, b!"\n" ++ tr) := by
    have h1 : (0 : Int) ≤ 0 ∧ (0 : Int) ≤ (N : Int) := by omega
    rw [readSections]
    simp only [hz, hn, h1, and_self, if_true, Int.toNat_natCast, hdrop, hent]
    rw [readSections]
    simp only [htrl, if_true, List.append_nil]
    rfl
  rw [hsec]
  have hitems' : readItems ((b!"\n" ++ tr).length + 1) [(.top, [])] (b!"\n" ++ tr) = _ := hitems
  simp only []
  rw [hitems']
  simp only [List.reverse_cons, List.reverse_nil, List.nil_append, progVal, entriesVal_trailer, if_true]

/-! ## Cross-reference streams -/

theorem beBytes_length (w n : Nat) : (beBytes w n).length = w := by
  induction w generalizing n with
  | zero => rfl
  | succ w ih => simp [beBytes, ih]

theorem beVal_append (a : Bytes) (b : UInt8) : beVal (a ++ [b]) = beVal a * 256 + b.toNat := by
  simp [beVal, List.foldl_append]

theorem beVal_beBytes (w n : Nat) : beVal (beBytes w n) = n % 256 ^ w := by
  induction w generalizing n with
  | zero => simp [beBytes, beVal, Nat.mod_one]
  | succ w ih =>
    rw [beBytes, beVal_append, ih]
    have : (UInt8.ofNat (n % 256)).toNat = n % 256 := by
      simp [UInt8.toNat_ofNat']
    rw [this, Nat.pow_succ', Nat.mod_mul]
    omega

theorem beBytes_drop (k w n : Nat) : (beBytes (w + k) n).drop k = beBytes w n := by
  induction w generalizing n with
  | zero =>
    have : (beBytes (0 + k) n).length = k := by rw [beBytes_length]; omega
    rw [List.drop_of_length_le (by omega)]; rfl
  | succ w ih =>
    have e : w + 1 + k = (w + k) + 1 := by omega
    rw [e, beBytes, List.drop_append_of_le_length (by rw [beBytes_length]; omega), ih, beBytes]

def strmEntry (w : Nat) : XEntry → Bytes
  | .free next gen => [0] ++ beBytes w next ++ beBytes 2 gen
  | .used off gen => [1] ++ beBytes w off ++ beBytes 2 gen
  | .packed _ _ => []

theorem foldl_emit_stream (w : Nat) (hw : w ≤ 8) (es : List XEntry) (s : Bytes) :
    es.foldl (emit (xrefStreamWriter w)) s = s ++ es.flatMap (strmEntry w) := by
  have hd : ∀ n, (beBytes 8 n).drop ((beBytes 8 n).length - w) = beBytes w n := by
    intro n
    rw [beBytes_length]
    have := beBytes_drop (8 - w) w n
    rwa [show w + (8 - w) = 8 from by omega] at this
  induction es generalizing s with
  | nil => simp
  | cons e es ih =>
    rw [List.foldl_cons, ih]
    cases e <;> simp [emit, xrefStreamWriter, xrefStreamWrite, hd, strmEntry]

/-- What is left of an entry in a stream with field width `w`. -/
def truncEntry (w : Nat) : XEntry → XEntry
  | .free next gen => .free (next % 256 ^ w) gen
  | .used off gen => .used (off % 256 ^ w) gen
  | .packed a b => .packed a b

/-- Generations fit two bytes. -/
def GenFits : XEntry → Prop
  | .free _ gen => gen < 65536
  | .used _ gen => gen < 65536
  | .packed _ _ => False

theorem readStream_parts (w : Nat) (t : UInt8) (f2 f3 r : Bytes) (h2 : f2.length = w) (h3 : f3.length = 2) :
    let bs := [t] ++ f2 ++ f3 ++ r
    beVal (bs.take 1) = t.toNat ∧ ¬ bs.length < 1 + w + 2 ∧ (bs.drop 1).take w = f2 ∧ (bs.drop (1 + w)).take 2 = f3 ∧ bs.drop (1 + w + 2) = r := by
  intro bs
  have e1 : bs.drop 1 = f2 ++ (f3 ++ r) := by simp [bs]
  have e2 : bs.drop (1 + w) = f3 ++ r := by rw [← List.drop_drop, e1, ← h2, List.drop_left]
  refine ⟨by simp [bs, beVal], by simp [bs, h2, h3]; omega, ?_, ?_, ?_⟩
  · rw [e1, ← h2, List.take_left]
  · rw [e2, ← h3, List.take_left]
  · rw [← List.drop_drop, e2, ← h3, List.drop_left]

theorem readStreamEntries_eq (w : Nat) (es : List XEntry) (h : ∀ e ∈ es, GenFits e) :
    readStreamEntries 1 w 2 es.length (es.flatMap (strmEntry w)) = some (es.map (truncEntry w)) := by
  induction es with
  | nil => simp [readStreamEntries]
  | cons e es ih =>
    have ih' := ih (fun e he => h e (by simp [he]))
    have he := h e (by simp)
    cases e with
    | packed a b => simp [GenFits] at he
    | free a b =>
      simp only [GenFits] at he
      obtain ⟨h1, h2, h3, h4, h5⟩ := readStream_parts w 0 (beBytes w a) (beBytes 2 b) (es.flatMap (strmEntry w)) (beBytes_length _ _) (beBytes_length _ _)
      simp only [List.length_cons, readStreamEntries, List.flatMap_cons, strmEntry]
      simp only [h1, h2, h3, h4, h5, beVal_beBytes, if_false, ih', List.map_cons, truncEntry]
      have : b % 256 ^ 2 = b := Nat.mod_eq_of_lt (by omega)
      simp [this, streamEntry]
    | used a b =>
      simp only [GenFits] at he
      obtain ⟨h1, h2, h3, h4, h5⟩ := readStream_parts w 1 (beBytes w a) (beBytes 2 b) (es.flatMap (strmEntry w)) (beBytes_length _ _) (beBytes_length _ _)
      simp only [List.length_cons, readStreamEntries, List.flatMap_cons, strmEntry]
      simp only [h1, h2, h3, h4, h5, beVal_beBytes, if_false, ih', List.map_cons, truncEntry]
      have : b % 256 ^ 2 = b := Nat.mod_eq_of_lt (by omega)
      simp [this, streamEntry]

theorem pow256 (k : Nat) : 256 ^ k = 2 ^ (8 * k) := by
  rw [Nat.pow_mul]

theorem bitLength_le_iff (n k : Nat) : bitLength n ≤ k ↔ n < 2 ^ k := by
  unfold bitLength
  split
  · rename_i h; subst h; simp; exact Nat.two_pow_pos k
  · rename_i h; rw [Nat.succ_le_iff, Nat.log2_lt h]

/-- The field width is the least that holds the offset. -/
theorem fieldWidth_le_iff (n k : Nat) : determineFieldWidth n ≤ k ↔ n < 256 ^ k := by
  rw [pow256, ← bitLength_le_iff, determineFieldWidth]
  omega

theorem genFits_xref (l : List (Ref × Nat)) : ∀ e ∈ xrefEntries l, GenFits e := by
  intro e he
  obtain ⟨i, -, rfl⟩ := List.mem_map.mp he
  unfold wantedEntry
  split
  · simp [GenFits]
  · simp only [GenFits]; split <;> omega

/-- The entries of the cross-reference stream, besides `/Length`. -/
def xrefStreamEntries (t : TrailerData) (f : Option XRefFilter) (size w : Nat) : List (Bytes × Prog) :=
  (b!"Type", .prim (.name b!"XRef")) :: (xrefFilterEntries f ++ t.entries size ++
    [(b!"W", .array [.prim (.int 1), .prim (.int w), .prim (.int 2)])])

/-- The raw data of the cross-reference stream. -/
def xrefRaw (p : Pdf) (id : Ref) : Bytes :=
  (xrefEntries (p.chunk.offsets ++ [(id, p.chunk.buf.len)])).flatMap (strmEntry (determineFieldWidth p.chunk.buf.len))

/-- The stream object. -/
def xrefItem (p : Pdf) (id : Ref) (r : Bytes × Option XRefFilter) : Item :=
  ⟨id, .stream (xrefStreamEntries p.trailer r.2 (xrefSize (p.chunk.offsets ++ [(id, p.chunk.buf.len)]))
    (determineFieldWidth p.chunk.buf.len)) r.1, p.chunk.pretty⟩

theorem finishStream_eq (p : Pdf) (id : Ref) (filter : Bytes → Bytes × Option XRefFilter) (hlen : p.chunk.buf.len < 2 ^ 64)
    (hmax : ∀ q ∈ p.chunk.offsets ++ [(id, p.chunk.buf.len)], q.1.get < 2147483647)
    (h : ((p.chunk.offsets ++ [(id, p.chunk.buf.len)]).map (·.1)).Nodup) :
    p.finishXRefStreamInner id filter = if (filter (xrefRaw p id)).1.length ≤ 2147483647 then
      some (p.chunk.buf.inner ++ itemBytes (xrefItem p id (filter (xrefRaw p id))) p.chunk.pretty ++
        (b!"startxref\n" ++ (natBytes p.chunk.buf.len ++ b!"\n%%EOF"))) else none := by
  have hw : determineFieldWidth p.chunk.buf.len ≤ 8 := by rw [fieldWidth_le_iff]; exact hlen
  simp only [Pdf.finishXRefStreamInner]
  rw [writeOffsets_eq _ hmax _ _ h]
  simp only []
  have eraw : ((List.range (xrefSize (p.chunk.offsets ++ [(id, p.chunk.buf.len)]))).map
      (wantedEntry (natOffs (p.chunk.offsets ++ [(id, p.chunk.buf.len)])) (xrefSize (p.chunk.offsets ++ [(id, p.chunk.buf.len)])))).foldl
      (emit (xrefStreamWriter (determineFieldWidth p.chunk.buf.len)))
      ((xrefStreamWriter (determineFieldWidth p.chunk.buf.len)).prologue (xrefSize (p.chunk.offsets ++ [(id, p.chunk.buf.len)])) []) = xrefRaw p id := by
    rw [foldl_emit_stream _ hw]; rfl
  rw [eraw]
  generalize hf : filter (xrefRaw p id) = r
  obtain ⟨data, f⟩ := r
  have hs := writeStream_eq p.chunk id (xrefStreamEntries p.trailer f (xrefSize (p.chunk.offsets ++ [(id, p.chunk.buf.len)]))
    (determineFieldWidth p.chunk.buf.len)) data
  simp only [Chunk.writeStream, Chunk.indirect] at hs
  simp only [xrefStreamEntries] at hs
  cases hrun : runStream (Obj.startIndirect id p.chunk.pretty p.chunk.buf).2 (xrefStreamEntries p.trailer f (xrefSize (p.chunk.offsets ++ [(id, p.chunk.buf.len)]))
    (determineFieldWidth p.chunk.buf.len)) data (Obj.startIndirect id p.chunk.pretty p.chunk.buf).1 with
  | none =>
    simp only [xrefStreamEntries] at hrun
    simp only [hrun] at hs ⊢
    split at hs
    · simp at hs
    · rename_i hgt; simp only [hgt, if_false]
  | some buf =>
    simp only [xrefStreamEntries] at hrun
    simp only [hrun] at hs ⊢
    split at hs
    · rename_i hle
      simp only [Option.some.injEq, Chunk.mk.injEq] at hs
      simp only [hle, if_true, Option.some.injEq, finishTrailer, Buf.extend, hs.1]
      simp [xrefItem, xrefStreamEntries]
    · simp at hs

theorem finishStream_none (p : Pdf) (id : Ref) (filter : Bytes → Bytes × Option XRefFilter)
    (hmax : ∀ q ∈ p.chunk.offsets ++ [(id, p.chunk.buf.len)], q.1.get < 2147483647)
    (h : ¬ ((p.chunk.offsets ++ [(id, p.chunk.buf.len)]).map (·.1)).Nodup) : p.finishXRefStreamInner id filter = none := by
  have := writeOffsets_isSome (p.chunk.offsets ++ [(id, p.chunk.buf.len)]) hmax (xrefStreamWriter (determineFieldWidth p.chunk.buf.len)) []
  simp only [h, iff_false, Bool.not_eq_true, Option.isSome_eq_false_iff, Option.isNone_iff_eq_none] at this
  simp [Pdf.finishXRefStreamInner, this]

theorem filterName_ne (f : Filter) : f.toName ≠ [] := by cases f <;> decide

theorem filters_ok (fs : List Filter) : OkItems (fs.map fun f => .prim (.name f.toName)) ∧
    NoClashItems (fs.map fun f => .prim (.name f.toName)) ∧
    itemsVal (fs.map fun f => .prim (.name f.toName)) = fs.map (fun f => Val.name f.toName) := by
  induction fs with
  | nil => simp [OkItems, NoClashItems, itemsVal]
  | cons f fs ih =>
    have : f.toName.isEmpty = false := by simpa [List.isEmpty_eq_false_iff] using filterName_ne f
    simp [OkItems, NoClashItems, itemsVal, ih, Ok, PrimOk, NoClash, isEmptyName, this, progVal, primVal]

theorem toName_eq (f : Filter) : f.toName = filterName f := by cases f <;> rfl

theorem xrefStream_ok (t : TrailerData) (f : Option XRefFilter) (size w : Nat) :
    OkEntries (xrefStreamEntries t f size w) ∧ NoClashEntries (xrefStreamEntries t f size w) ∧
    (∀ e ∈ xrefStreamEntries t f size w, e.1 ≠ b!"Length") ∧
    entriesVal (xrefStreamEntries t f size w) = (b!"Type", .name b!"XRef") :: (f.toList.map (fun f => (b!"Filter", filterVal f)) ++
      trailerVals t size ++ [(b!"W", .arr [.int 1, .int w, .int 2])]) := by
  obtain ⟨c, i, g⟩ := t
  cases f with
  | none =>
    cases c <;> cases i <;> cases g <;>
      simp [xrefStreamEntries, xrefFilterEntries, TrailerData.entries, trailerVals, OkEntries, NoClashEntries, Ok, NoClash, PrimOk, OkItems, NoClashItems,
        isEmptyName, entriesVal, itemsVal, progVal, primVal, Ref.get]
  | some f =>
    cases f with
    | single f =>
      cases c <;> cases i <;> cases g <;>
        simp [xrefStreamEntries, xrefFilterEntries, XRefFilter.entries, filterVal, toName_eq, TrailerData.entries, trailerVals, OkEntries, NoClashEntries, Ok, NoClash, PrimOk, OkItems, NoClashItems,
          isEmptyName, entriesVal, itemsVal, progVal, primVal, Ref.get]
    | multiple fs =>
      obtain ⟨h1, h2, h3⟩ := filters_ok fs
      simp only [toName_eq] at h1 h2 h3
      cases c <;> cases i <;> cases g <;>
        simp [xrefStreamEntries, xrefFilterEntries, XRefFilter.entries, filterVal, toName_eq, TrailerData.entries, trailerVals, OkEntries, NoClashEntries, Ok, NoClash, PrimOk, OkItems, NoClashItems,
          isEmptyName, entriesVal, itemsVal, progVal, primVal, Ref.get, h1, h2, h3]

/-- The dictionary of the cross-reference stream as read. -/
def xrefDict (t : TrailerData) (f : Option XRefFilter) (size w len : Nat) : List (Bytes × Val) :=
  (b!"Length", .int len) :: (b!"Type", .name b!"XRef") :: (f.toList.map (fun f => (b!"Filter", filterVal f)) ++
      trailerVals t size ++ [(b!"W", .arr [.int 1, .int w, .int 2])])

theorem xrefDict_lookups (t : TrailerData) (f : Option XRefFilter) (size w len : Nat) :
    lookup b!"Type" (xrefDict t f size w len) = some (.name b!"XRef") ∧
    lookup b!"Size" (xrefDict t f size w len) = some (.int size) ∧
    lookup b!"W" (xrefDict t f size w len) = some (.arr [.int 1, .int w, .int 2]) ∧
    ((xrefDict t f size w len).all fun e => e.1 != b!"Index") = true ∧
    ((xrefDict t f size w len).all fun e => e.1 != b!"Filter") = f.isNone ∧
    (∀ g ∈ f, lookup b!"Filter" (xrefDict t f size w len) = some (filterVal g)) ∧
    (xrefDict t f size w len).filter (fun e => e.1 ∈ [b!"Size", b!"Root", b!"Info", b!"ID"]) = trailerVals t size := by
  obtain ⟨c, i, g⟩ := t
  cases f <;> cases c <;> cases i <;> cases g <;> simp [xrefDict, trailerVals, lookup]

/-- Reading the cross-reference stream. -/
theorem readXref_stream (unf : Val → Bytes → Option Bytes) (pos : Nat) (p : Pdf) (id : Ref) (r : Bytes × Option XRefFilter) (rest : Bytes)
    (hunf : match r.2 with | none => r.1 = xrefRaw p id | some f => unf (filterVal f) r.1 = some (xrefRaw p id)) :
    readXref unf pos (itemBytes (xrefItem p id r) p.chunk.pretty ++ rest) =
      some ⟨pos, numbered 0 ((xrefEntries (p.chunk.offsets ++ [(id, p.chunk.buf.len)])).map (truncEntry (determineFieldWidth p.chunk.buf.len))),
        xrefDict p.trailer r.2 (xrefSize (p.chunk.offsets ++ [(id, p.chunk.buf.len)])) (determineFieldWidth p.chunk.buf.len) r.1.length⟩ := by
  obtain ⟨data, f⟩ := r
  generalize hL : p.chunk.offsets ++ [(id, p.chunk.buf.len)] = L at *
  generalize hw : determineFieldWidth p.chunk.buf.len = w at *
  obtain ⟨o1, o2, o3, o4⟩ := xrefStream_ok p.trailer f (xrefSize L) w
  have hit : xrefItem p id (data, f) = ⟨id, .stream (xrefStreamEntries p.trailer f (xrefSize L) w) data, p.chunk.pretty⟩ := by
    simp [xrefItem, hL, hw]
  obtain ⟨rest', hr⟩ := readIndirect_item (xrefItem p id (data, f)) p.chunk.pretty rest (by rw [hit]; exact ⟨o1, Or.inr o2, o3⟩)
  have hno : expectKw b!"xref" (itemBytes (xrefItem p id (data, f)) p.chunk.pretty ++ rest) = none := by
    have : nextToken (itemBytes (xrefItem p id (data, f)) p.chunk.pretty ++ rest) = some (.int id.id,
        b!" 0 obj\n" ++ (bodyBytes (xrefItem p id (data, f)).pretty (xrefItem p id (data, f)).body ++ (endBytes p.chunk.pretty ++ rest))) := by
      rw [itemBytes, headBytes, List.append_assoc, List.append_assoc, List.append_assoc]
      exact nextToken_of_scan (intBytes_scan id.id _ (white_sepOk _ _ (by decide)))
    simp [expectKw, this]
  have hb : bodyVal (xrefItem p id (data, f)).body = .stream (xrefDict p.trailer f (xrefSize L) w data.length) data := by
    rw [hit]; simp only [bodyVal, o4, xrefDict]
  obtain ⟨l1, l2, l3, l4, l5, l6, -⟩ := xrefDict_lookups p.trailer f (xrefSize L) w data.length
  have hraw : unfiltered unf (xrefDict p.trailer f (xrefSize L) w data.length) data = some (xrefRaw p id) := by
    unfold unfiltered
    rw [l5]
    cases f with
    | none => simp only at hunf; simp [hunf]
    | some g =>
      simp only at hunf
      simp [l6 g (by simp), hunf]
  have htab : readStreamTable (xrefDict p.trailer f (xrefSize L) w data.length) (xrefRaw p id) =
      some (numbered 0 ((xrefEntries L).map (truncEntry w))) := by
    have := readStreamEntries_eq w (xrefEntries L) (genFits_xref L)
    rw [xrefEntries_length] at this
    simp only [readStreamTable, l1, l2, l3, l4]
    simp [xrefRaw, hL, hw, this]
  unfold readXref
  rw [hno]
  simp only [hr, hb, hraw, htab]

end PdfW
