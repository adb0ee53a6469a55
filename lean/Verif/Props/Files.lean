import Verif.Proof.FileEnd
import Verif.Spec.Finish
import Verif.Props.Chunks

/-!
# Properties C17–C22 and C36: finished files
-/

set_option linter.unusedSimpArgs false
set_option linter.unusedVariables false

namespace PdfW.Props
open PdfW PdfW.Spec

/-! ## Lemmas -/

theorem offs_lt (base : Nat) (ps : List Piece) : ∀ q ∈ offs base ps, q.2 < base + (piecesBytes ps).length := by
  induction ps generalizing base with
  | nil => simp [offs]
  | cons p ps ih =>
    cases p with
    | header a b m =>
      intro q hq
      have := ih _ q (by simpa [offs] using hq)
      simp only [piecesBytes, List.length_append]; omega
    | item it nl =>
      intro q hq
      simp only [offs, List.mem_cons] at hq
      rcases hq with rfl | hq
      · have : 0 < (itemBytes it nl).length := by simp [itemBytes, headBytes]; omega
        simp only [piecesBytes, Piece.bytes, List.length_append]; omega
      · have := ih _ q hq
        simp only [piecesBytes, List.length_append]; omega

structure DocFacts (h : PdfHist) (p : Pdf) : Prop where
  ids : p.chunk.offsets.map (·.1) = docIds h
  lt : ∀ q ∈ p.chunk.offsets, q.2 < p.chunk.buf.len
  get : ∀ (n : Nat) (it : Item), (pdfItems h)[n]? = some it → ∃ off, p.chunk.offsets[n]? = some (it.id, off) ∧
    ∀ post, (intBytes it.id.get ++ b!" 0 obj\n") <+: (p.chunk.buf.inner ++ post).drop off ∧
      (ItemOk it → ExactAt (p.chunk.buf.inner ++ post) off it)
  trailer : p.trailer = ⟨catalogId h, infoId h, fileId h⟩

theorem docFacts (h : PdfHist) (p : Pdf) (hr : h.run = some p) : DocFacts h p := by
  obtain ⟨ps, hl, hi, -, ht, -, -⟩ := pdf_inv h p hr
  have hi' : piecesItems (headPiece (version h) (marker h) :: ps) = pdfItems h := by rw [← hi]; rfl
  refine ⟨?_, ?_, ?_, ht⟩
  · rw [hl.offsets, offs_refs, hi']; rfl
  · rw [hl.offsets, Buf.len, hl.bytes]
    intro q hq
    have := offs_lt 0 _ q hq
    omega
  · intro n it hit
    have hlen : (p.chunk.offsets.map (·.1))[n]? = some it.id := by
      rw [hl.offsets, offs_refs, hi', List.getElem?_map, hit]; rfl
    rw [List.getElem?_map, Option.map_eq_some_iff] at hlen
    obtain ⟨⟨id, off⟩, h1, h2⟩ := hlen
    simp only at h2
    subst h2
    refine ⟨off, h1, ?_⟩
    intro post
    constructor
    · have := header_at [] _ n it.id off (by simpa [hl.offsets] using h1)
      rw [List.nil_append, ← hl.bytes] at this
      have hle : off ≤ p.chunk.buf.inner.length := by
        have := offs_lt 0 (headPiece (version h) (marker h) :: ps) (it.id, off) (by
          rw [← hl.offsets]; exact List.mem_of_getElem? h1)
        rw [← hl.bytes] at this
        simp only at this; omega
      rw [List.drop_append_of_le_length hle]
      exact this.trans (List.prefix_append _ _)
    · intro hok
      obtain ⟨off', k1, k2⟩ := exactAt_offs [] post _ n it (by rw [hi']; exact hit) hok
      rw [List.length_nil, ← hl.offsets, h1] at k1
      simp only [Option.some.injEq, Prod.mk.injEq, true_and] at k1
      subst k1
      simpa [hl.bytes] using k2

theorem sizeFor_eq (l : List (Ref × Nat)) : sizeFor (l.map (·.1)) = xrefSize l := by
  simp [sizeFor, xrefSize, List.map_map, Function.comp_def]

theorem placed_eq (c : Chunk) : placed c = natOffs c.offsets := rfl

theorem max_of_ids {h : PdfHist} {p : Pdf} (f : DocFacts h p) (hids : ∀ r ∈ docIds h, r.get < 2147483647) :
    ∀ q ∈ p.chunk.offsets, q.1.get < 2147483647 := fun q hq => hids _ (by rw [← f.ids]; exact List.mem_map_of_mem hq)

theorem nextUnused_lt (objs : List (Nat × Nat)) (size i : Nat) (hs : 0 < size) : nextUnused objs size i < size := by
  unfold nextUnused
  split
  · rename_i j hj
    have := List.mem_of_find?_eq_some hj
    simpa using this
  · exact hs

theorem sizeFor_le (ids : List Ref) (h : ∀ r ∈ ids, r.get < 2147483647) : sizeFor ids ≤ 2147483647 := by
  obtain ⟨-, -, h3⟩ := foldl_max_spec (ids.map fun r => r.get.toNat) 0
  unfold sizeFor
  rcases h3 with h3 | h3
  · omega
  · obtain ⟨r, hr, e⟩ := List.mem_map.mp h3
    have := h r hr
    have := r.pos
    simp only [Ref.get] at *; omega

theorem find_placed (l : List (Ref × Nat)) (hnd : (l.map (·.1)).Nodup) (n : Nat) (id : Ref) (off : Nat) (h : l[n]? = some (id, off)) (size : Nat) :
    wantedEntry (natOffs l) size id.get.toNat = .used off 0 := by
  have hnd' : ((natOffs l).map (·.1)).Nodup := by
    have e : (natOffs l).map (·.1) = (l.map (·.1)).map (fun r : Ref => r.get.toNat) := by
      simp [natOffs, List.map_map, Function.comp_def]
    rw [e, List.Nodup, List.pairwise_map]
    exact hnd.imp (fun hab he => hab (ref_ext (by
      rename_i a b
      have h1 := a.pos; have h2 := b.pos; simp only [Ref.get] at *; omega)))
  have hm : (id.get.toNat, off) ∈ natOffs l :=
    List.mem_map_of_mem (f := fun p : Ref × Nat => (p.1.get.toNat, p.2)) (List.mem_of_getElem? h)
  have := find_objs _ _ hnd' hm
  rw [wantedEntry, this]

theorem wanted_free (objs : List (Nat × Nat)) (size i : Nat) (h : ∀ o ∈ objs, o.1 ≠ i) :
    wantedEntry objs size i = .free (nextUnused objs size i) (if i = 0 then 65535 else 0) := by
  have : objs.find? (fun o => o.1 == i) = none := by
    rw [List.find?_eq_none]; intro o ho; simpa using h o ho
  rw [wantedEntry, this]

theorem natOffs_ne (l : List (Ref × Nat)) (i : Nat) (h : ∀ r ∈ l.map (·.1), r.get ≠ (i : Int)) : ∀ o ∈ natOffs l, o.1 ≠ i := by
  intro o ho he
  obtain ⟨q, hq, rfl⟩ := List.mem_map.mp ho
  refine h q.1 (List.mem_map_of_mem hq) ?_
  have := q.1.pos
  simp only [Ref.get] at *; omega

theorem fits_of {h : PdfHist} {p : Pdf} (f : DocFacts h p) (hids : ∀ r ∈ docIds h, r.get < 2147483647) (hlen : p.chunk.buf.len < 10 ^ 10) :
    ∀ e ∈ xrefEntries p.chunk.offsets, EntryFits e := by
  intro e he
  obtain ⟨i, -, rfl⟩ := List.mem_map.mp he
  unfold wantedEntry
  split
  · rename_i o ho
    obtain ⟨q, hq, rfl⟩ := List.mem_map.mp (List.mem_of_find?_eq_some ho)
    have := f.lt q hq
    simp only [EntryFits]; omega
  · have h1 := nextUnused_lt (natOffs p.chunk.offsets) (xrefSize p.chunk.offsets) i (by simp [xrefSize]; omega)
    have h2 := sizeFor_le _ hids
    rw [← f.ids, sizeFor_eq] at h2
    simp only [EntryFits]
    constructor
    · omega
    · split <;> omega

theorem finish_bytes {h : PdfHist} {p : Pdf} {bytes : Bytes} (hr : h.run = some p) (hf : p.finish = some bytes)
    (hids : ∀ r ∈ docIds h, r.get < 2147483647) :
    (docIds h).Nodup ∧ bytes = p.chunk.buf.inner ++ plainEnd p ++ (b!"startxref\n" ++ (natBytes p.chunk.buf.len ++ b!"\n%%EOF")) := by
  have f := docFacts h p hr
  by_cases hn : (p.chunk.offsets.map (·.1)).Nodup
  · rw [finish_eq p (max_of_ids f hids) hn, Option.some.injEq] at hf
    exact ⟨by rw [← f.ids]; exact hn, hf.symm⟩
  · rw [finish_none p (max_of_ids f hids) hn] at hf; simp at hf

/-! ## C17 -/

/-- C17: after the bytes written so far, `finish` writes the line `xref`, the line `0 N` with N one more than the largest
id, and N entries of exactly 20 bytes each, followed by the trailer. Entry `i` is the one required for object
number `i`. -/
theorem C17_table (h : PdfHist) (p : Pdf) (bytes : Bytes) (hr : h.run = some p) (hf : p.finish = some bytes)
    (hids : ∀ r ∈ docIds h, r.get < 2147483647) (hlen : bytes.length < 10 ^ 10) :
    ∃ digits table rest, bytes = p.chunk.asBytes ++ (b!"xref\n0 " ++ (digits ++ (b!"\n" ++ (table ++ (b!"trailer\n" ++ rest))))) ∧
      digits.all isDigit = true ∧ digitsVal digits = sizeFor (docIds h) ∧ table.length = 20 * sizeFor (docIds h) ∧
      ∀ i, i < sizeFor (docIds h) → ∃ more,
        readEntry (table.drop (20 * i)) = some (wantedEntry (placed p.chunk) (sizeFor (docIds h)) i, more) := by
  have f := docFacts h p hr
  obtain ⟨-, rfl⟩ := finish_bytes hr hf hids
  have hl : p.chunk.buf.len < 10 ^ 10 := by simp only [List.length_append] at hlen; simp only [Buf.len]; omega
  have hfit := fits_of f hids hl
  have hsz : sizeFor (docIds h) = xrefSize p.chunk.offsets := by rw [← f.ids, sizeFor_eq]
  have hN : 0 < xrefSize p.chunk.offsets := by simp [xrefSize]; omega
  refine ⟨natBytes (xrefSize p.chunk.offsets), (xrefEntries p.chunk.offsets).flatMap plainEntry,
    enc p.chunk.pretty 0 false (some ch!"\n") (.dict (p.trailer.entries (xrefSize p.chunk.offsets))) ++ (b!"\n" ++
      (b!"startxref\n" ++ (natBytes p.chunk.buf.len ++ b!"\n%%EOF"))), ?_, natBytes_digits _, ?_, ?_, ?_⟩
  rotate_left
  · rw [digitsVal_natBytes, hsz]
  · rw [hsz, ← xrefEntries_length]
    generalize xrefEntries p.chunk.offsets = es at hfit
    induction es with
    | nil => rfl
    | cons e es ih =>
      have := plainEntry_length e (hfit e (by simp))
      simp only [List.flatMap_cons, List.length_append, List.length_cons, this, ih (fun e he => hfit e (by simp [he]))]; omega
  · intro i hi
    rw [hsz] at hi
    have key : ∀ (es : List XEntry) (i : Nat) (e : XEntry), (∀ e ∈ es, EntryFits e) → es[i]? = some e →
        ∃ more, readEntry ((es.flatMap plainEntry).drop (20 * i)) = some (e, more) := by
      intro es
      induction es with
      | nil => intro i e _ h; simp at h
      | cons x es ih =>
        intro i e hfit he
        cases i with
        | zero =>
          simp at he; subst he
          exact ⟨_, readEntry_plain x (hfit x (by simp)) _⟩
        | succ i =>
          have hx := plainEntry_length x (hfit x (by simp))
          obtain ⟨m, hm⟩ := ih i e (fun e he => hfit e (by simp [he])) (by simpa using he)
          refine ⟨m, ?_⟩
          rw [show 20 * (i + 1) = 20 + 20 * i from by omega, ← List.drop_drop, List.flatMap_cons, List.drop_left' hx, hm]
    refine key _ i _ hfit ?_
    simp [xrefEntries, hi, placed_eq, hsz]
  · have e : intBytes (xrefSize p.chunk.offsets : Int) = natBytes (xrefSize p.chunk.offsets) := by
      rw [intBytes_pos _ (by omega), Int.toNat_natCast]
    rw [plainEnd, e]
    simp only [List.append_assoc, Chunk.asBytes]

/-- C17, what "the entry required" means: for each object written, a reference to the position where its header
starts and where it is read back; for every other number, a free entry. -/
theorem C17_entry_meaning (h : PdfHist) (p : Pdf) (bytes : Bytes) (hr : h.run = some p) (hf : p.finish = some bytes)
    (hids : ∀ r ∈ docIds h, r.get < 2147483647) (size : Nat) :
    (∀ it ∈ pdfItems h, ∃ off, wantedEntry (placed p.chunk) size it.id.get.toNat = .used off 0 ∧
      (intBytes it.id.get ++ b!" 0 obj\n") <+: bytes.drop off ∧ (ItemOk it → ReadsAt bytes off it)) ∧
    (∀ i : Nat, (∀ r ∈ docIds h, r.get ≠ i) → ∃ next gen, wantedEntry (placed p.chunk) size i = .free next gen) := by
  have f := docFacts h p hr
  obtain ⟨hn, rfl⟩ := finish_bytes hr hf hids
  constructor
  · intro it hit
    obtain ⟨n, hn'⟩ := List.getElem?_of_mem hit
    obtain ⟨off, h1, h2⟩ := f.get n it hn'
    refine ⟨off, find_placed _ (by rw [f.ids]; exact hn) n _ _ h1 size, ?_⟩
    rw [List.append_assoc]
    exact ⟨(h2 _).1, fun hok => ((h2 _).2 hok).reads hok⟩
  · intro i hi
    exact ⟨_, _, wanted_free _ _ _ (natOffs_ne _ i (by rw [f.ids]; exact hi))⟩

/-! ## C18 -/

/-- C18, for the required entries of any set of used numbers: the links starting at entry 0 visit exactly the unused
numbers, in increasing order. -/
theorem follow_wanted (objs : List (Nat × Nat)) (size : Nat) :
    ∀ fuel i, i < size → size - i ≤ fuel → (∀ o ∈ objs, o.1 ≠ i) →
      follow ((List.range size).map (wantedEntry objs size)) fuel i =
        some ((List.range' i (size - i)).filter fun j => !(objs.any fun o => o.1 == j)) := by
  intro fuel
  induction fuel with
  | zero => intro i h1 h2; omega
  | succ fuel ih =>
    intro i hi hfu hfree
    have hget : ((List.range size).map (wantedEntry objs size))[i]? = some (wantedEntry objs size i) := by simp [hi]
    rw [follow, hget, wanted_free _ _ _ hfree]
    have hun : (objs.any fun o => o.1 == i) = false := by
      rw [List.any_eq_false]; intro o ho; simpa using hfree o ho
    simp only []
    have hsplit : size - i = (size - (i + 1)) + 1 := by omega
    unfold nextUnused
    cases hfd : (List.range size).find? (fun j => i < j && !(objs.any fun o => o.1 == j)) with
    | none =>
      simp only [if_true]
      rw [List.find?_eq_none] at hfd
      rw [hsplit, List.range'_succ, List.filter_cons]
      simp only [hun, Bool.not_false, if_true]
      have : (List.range' (i + 1) (size - (i + 1))).filter (fun j => !(objs.any fun o => o.1 == j)) = [] := by
        rw [List.filter_eq_nil_iff]
        intro j hj
        simp only [List.mem_range'_1] at hj
        have := hfd j (by simp; omega)
        simp only [show i < j from by omega, decide_true, Bool.true_and] at this
        exact this
      rw [this]
    | some l =>
      rw [List.find?_range_eq_some] at hfd
      obtain ⟨p1, p2, p3⟩ := hfd
      simp only [Bool.and_eq_true, decide_eq_true_eq, Bool.not_eq_true', List.mem_range] at p1 p2
      have hl0 : ¬ l = 0 := by omega
      simp only [hl0, if_false]
      rw [ih l p2 (by omega) (by
        intro o ho he
        have := p1.2
        rw [List.any_eq_false] at this
        exact this o ho (by simpa using he))]
      simp only [Option.some.injEq]
      rw [hsplit, List.range'_succ, List.filter_cons]
      simp only [hun, Bool.not_false, if_true]
      congr 1
      have e : size - (i + 1) = (l - (i + 1)) + (size - l) := by omega
      rw [e, ← List.range'_append_1, List.filter_append, show i + 1 + (l - (i + 1)) = l from by omega]
      have : (List.range' (i + 1) (l - (i + 1))).filter (fun j => !(objs.any fun o => o.1 == j)) = [] := by
        rw [List.filter_eq_nil_iff]
        intro j hj
        simp only [List.mem_range'_1] at hj
        have := p3 j (by omega)
        simpa [show i < j from by omega] using this
      rw [this, List.nil_append]

/-- A well-formed free list for the ids in use: following the links from entry 0 visits exactly the unused numbers
below the size, each once and in increasing order, and then returns to 0; entry 0 has generation 65535, every other
free entry generation 0. -/
def GoodFreeList (es : List XEntry) (ids : List Ref) : Prop :=
  follow es es.length 0 = some ((List.range es.length).filter fun j : Nat => ids.all fun r => decide (r.get ≠ (j : Int))) ∧
  (∃ next, es[0]? = some (.free next 65535)) ∧
  ∀ i next gen, 0 < i → es[i]? = some (.free next gen) → gen = 0

theorem any_natOffs (l : List (Ref × Nat)) (j : Nat) :
    (!(natOffs l).any fun o => o.1 == j) = (l.map (·.1)).all fun r => r.get ≠ (j : Int) := by
  simp only [natOffs, List.any_map, List.all_map, Function.comp_def]
  induction l with
  | nil => rfl
  | cons q l ih =>
    simp only [List.any_cons, List.all_cons, Bool.not_or, ih]
    congr 1
    have := q.1.pos
    by_cases hq : q.1.get = (j : Int)
    · simp [hq]
    · have : ¬ q.1.get.toNat = j := by simp only [Ref.get] at *; omega
      simp [hq, this]

theorem good_wanted (l : List (Ref × Nat)) : GoodFreeList (xrefEntries l) (l.map (·.1)) := by
  have hlen := xrefEntries_length l
  have hN : 0 < xrefSize l := by simp [xrefSize]; omega
  have h0 : ∀ o ∈ natOffs l, o.1 ≠ 0 := natOffs_ne l 0 (by
    intro r hr; have := r.pos; simp only [Ref.get]; omega)
  refine ⟨?_, ?_, ?_⟩
  · rw [hlen]
    have := follow_wanted (natOffs l) (xrefSize l) (xrefSize l) 0 hN (by omega) h0
    rw [show follow (xrefEntries l) = follow ((List.range (xrefSize l)).map (wantedEntry (natOffs l) (xrefSize l))) from rfl, this]
    congr 1
    rw [Nat.sub_zero, ← List.range_eq_range']
    apply List.filter_congr
    intro j _
    exact any_natOffs l j
  · exact ⟨nextUnused (natOffs l) (xrefSize l) 0, by rw [xrefEntries, List.getElem?_map]; simp [hN, wanted_free _ _ _ h0]⟩
  · intro i next gen hi he
    rw [xrefEntries, List.getElem?_map, Option.map_eq_some_iff] at he
    obtain ⟨j, hj, hw⟩ := he
    have : j = i := by
      rw [List.getElem?_range] at hj
      · simpa using hj.symm
      · rcases Nat.lt_or_ge i (xrefSize l) with h | h
        · exact h
        · rw [List.getElem?_eq_none (by simpa using h)] at hj; simp at hj
    subst this
    unfold wantedEntry at hw
    split at hw
    · simp at hw
    · simp only [XEntry.free.injEq] at hw
      rw [← hw.2]
      have : ¬ j = 0 := by omega
      simp [this]


/-- Reading a file made by `finish`. -/
theorem readFile_plain (unf : Val → Bytes → Option Bytes) {h : PdfHist} {p : Pdf} {bytes : Bytes} (hr : h.run = some p)
    (hf : p.finish = some bytes) (hids : ∀ r ∈ docIds h, r.get < 2147483647) (hlen : bytes.length < 10 ^ 10) :
    readFile unf bytes = some ⟨p.chunk.buf.len, numbered 0 (xrefEntries p.chunk.offsets),
      trailerVals p.trailer (xrefSize p.chunk.offsets)⟩ := by
  have f := docFacts h p hr
  obtain ⟨-, rfl⟩ := finish_bytes hr hf hids
  have hl : p.chunk.buf.len < 10 ^ 10 := by simp only [List.length_append] at hlen; simp only [Buf.len]; omega
  have h1 := readStartxref_eq (p.chunk.buf.inner ++ plainEnd p) p.chunk.buf.len
  have h2 : (p.chunk.buf.inner ++ plainEnd p ++ (b!"startxref\n" ++ (natBytes p.chunk.buf.len ++ b!"\n%%EOF"))).drop p.chunk.buf.len =
      plainEnd p ++ (b!"startxref\n" ++ (natBytes p.chunk.buf.len ++ b!"\n%%EOF")) := by
    rw [List.append_assoc]; exact List.drop_left' rfl
  unfold readFile
  rw [h1]
  simp only [h2]
  exact readXref_plain unf _ p _ (fits_of f hids hl)

/-- C18, cross-reference tables: the entries read from the end of the file are one for each number below the size,
and form a well-formed free list. -/
theorem C18_free_list_table (unf : Val → Bytes → Option Bytes) (h : PdfHist) (p : Pdf) (bytes : Bytes) (hr : h.run = some p)
    (hf : p.finish = some bytes) (hids : ∀ r ∈ docIds h, r.get < 2147483647) (hlen : bytes.length < 10 ^ 10) :
    ∃ f es, readFile unf bytes = some f ∧ f.table = numbered 0 es ∧ es.length = sizeFor (docIds h) ∧ GoodFreeList es (docIds h) := by
  have g := docFacts h p hr
  refine ⟨_, _, readFile_plain unf hr hf hids hlen, rfl, ?_, ?_⟩
  · rw [xrefEntries_length, ← g.ids, sizeFor_eq]
  · rw [← g.ids]; exact good_wanted _

/-! ## C19 -/

/-- C19: `finish` panics if and only if two objects were written with the same id. -/
theorem C19_finish (h : PdfHist) (p : Pdf) (hr : h.run = some p) (hids : ∀ r ∈ docIds h, r.get < 2147483647) :
    p.finish = none ↔ ¬ (docIds h).Nodup := by
  have g := docFacts h p hr
  rw [← g.ids]
  constructor
  · intro hn hnd
    rw [finish_eq p (max_of_ids g hids) hnd] at hn; simp at hn
  · exact finish_none p (max_of_ids g hids)

theorem max_of_ids' {h : PdfHist} {p : Pdf} (g : DocFacts h p) {xid : Ref} (hids : ∀ r ∈ docIds h ++ [xid], r.get < 2147483647) :
    ∀ q ∈ p.chunk.offsets ++ [(xid, p.chunk.buf.len)], q.1.get < 2147483647 := by
  intro q hq
  rcases List.mem_append.mp hq with h1 | h1
  · exact max_of_ids g (fun r hr => hids r (by simp [hr])) q h1
  · simp only [List.mem_singleton] at h1; subst h1; exact hids xid (by simp)

theorem ids_append {h : PdfHist} {p : Pdf} (g : DocFacts h p) (xid : Ref) :
    (p.chunk.offsets ++ [(xid, p.chunk.buf.len)]).map (·.1) = docIds h ++ [xid] := by
  rw [List.map_append, g.ids]; rfl

theorem stream_finish_none {h : PdfHist} {p : Pdf} (hr : h.run = some p) (xid : Ref) (filter : Bytes → Bytes × Option XRefFilter)
    (hids : ∀ r ∈ docIds h ++ [xid], r.get < 2147483647) (hlen : p.chunk.buf.len < 2 ^ 64) :
    p.finishXRefStreamInner xid filter = none ↔
      ¬ (docIds h ++ [xid]).Nodup ∨ 2147483647 < (filter (xrefRaw p xid)).1.length := by
  have g := docFacts h p hr
  rw [← ids_append g]
  by_cases hnd : ((p.chunk.offsets ++ [(xid, p.chunk.buf.len)]).map (·.1)).Nodup
  · rw [finishStream_eq p xid filter hlen (max_of_ids' g hids) hnd]
    split
    · rename_i hle
      constructor
      · intro h; simp at h
      · rintro (h | h)
        · exact absurd hnd h
        · omega
    · rename_i hle
      exact ⟨fun _ => Or.inr (by omega), fun _ => rfl⟩
  · rw [finishStream_none p xid filter (max_of_ids' g hids) hnd]
    exact ⟨fun _ => Or.inl hnd, fun _ => rfl⟩

theorem xrefRaw_length {h : PdfHist} {p : Pdf} (g : DocFacts h p) (xid : Ref) :
    (xrefRaw p xid).length = sizeFor (docIds h ++ [xid]) * (1 + determineFieldWidth p.chunk.buf.len + 2) := by
  rw [← ids_append g, sizeFor_eq, ← xrefEntries_length, xrefRaw]
  have hg := genFits_xref (p.chunk.offsets ++ [(xid, p.chunk.buf.len)])
  generalize xrefEntries (p.chunk.offsets ++ [(xid, p.chunk.buf.len)]) = es at hg
  induction es with
  | nil => simp
  | cons e es ih =>
    have he := hg e (by simp)
    rw [List.flatMap_cons, List.length_append, ih (fun e he => hg e (by simp [he])), List.length_cons, Nat.add_mul, Nat.one_mul,
      Nat.add_comm]
    congr 1
    cases e with
    | free a b => simp [strmEntry, beBytes_length]; omega
    | used a b => simp [strmEntry, beBytes_length]; omega
    | packed a b => simp [GenFits] at he

/-- C19 for cross-reference streams: `finish_with_xref_stream` panics if and only if two objects, including the stream
itself, have the same id, or the table has more than `i32::MAX` bytes. (Entries have `w + 3` bytes each, where `w` is
the least width that holds the position of the stream.) -/
theorem C19_finish_with_xref_stream (h : PdfHist) (p : Pdf) (xid : Ref) (hr : h.run = some p)
    (hids : ∀ r ∈ docIds h ++ [xid], r.get < 2147483647) (hlen : p.chunk.asBytes.length < 2 ^ 64) :
    ∃ w, (∀ k, w ≤ k ↔ p.chunk.asBytes.length < 256 ^ k) ∧
    (p.finishWithXRefStream xid = none ↔
      ¬ (docIds h ++ [xid]).Nodup ∨ 2147483647 < sizeFor (docIds h ++ [xid]) * (w + 3)) := by
  refine ⟨determineFieldWidth p.chunk.buf.len, fieldWidth_le_iff _, ?_⟩
  rw [Pdf.finishWithXRefStream, stream_finish_none hr xid _ hids hlen]
  simp only [xrefRaw_length (docFacts h p hr) xid]
  rw [show 1 + determineFieldWidth p.chunk.buf.len + 2 = determineFieldWidth p.chunk.buf.len + 3 from by omega]

/-- C19 for filtered cross-reference streams: the second reason for a panic is that the filter returns more than
`i32::MAX` bytes. -/
theorem C19_finish_with_filter (h : PdfHist) (p : Pdf) (xid : Ref) (filter : Bytes → Bytes × XRefFilter) (hr : h.run = some p)
    (hids : ∀ r ∈ docIds h ++ [xid], r.get < 2147483647) (hlen : p.chunk.asBytes.length < 2 ^ 64)
    (hsmall : ∀ raw, (filter raw).1.length ≤ 2147483647) :
    p.finishWithXRefStreamAndFilter xid filter = none ↔ ¬ (docIds h ++ [xid]).Nodup := by
  rw [Pdf.finishWithXRefStreamAndFilter, stream_finish_none hr xid _ hids hlen]
  have := hsmall (xrefRaw p xid)
  simp only
  constructor
  · rintro (h | h)
    · exact h
    · omega
  · exact Or.inl

/-! ## C20 -/

theorem mem_docIds {h : PdfHist} {it : Item} (hit : it ∈ pdfItems h) : it.id ∈ docIds h := List.mem_map_of_mem hit

theorem sizeFor_gt {ids : List Ref} {r : Ref} (hr : r ∈ ids) : r.get.toNat < sizeFor ids := by
  obtain ⟨-, h2, -⟩ := foldl_max_spec (ids.map fun r => r.get.toNat) 0
  have := h2 r.get.toNat (List.mem_map_of_mem (f := fun r : Ref => r.get.toNat) hr)
  unfold sizeFor; omega

theorem object_of_entry {f : FileEnd} {bytes : Bytes} {it : Item} {off : Nat} (he : f.entry it.id.get.toNat = some (.used off 0))
    (hrd : ReadsAt bytes off it) : ∃ v, f.object bytes it.id.get.toNat = some v ∧ BodyDenotes it.body v := by
  obtain ⟨v, rest, h1, h2⟩ := hrd
  refine ⟨v, ?_, h2⟩
  unfold FileEnd.object
  rw [he]
  simp only [h1]
  have : it.id.get = (it.id.get.toNat : Int) := by have := it.id.pos; simp only [Ref.get]; omega
  simp [← this]

theorem object_exact {f : FileEnd} {bytes : Bytes} {it : Item} {off : Nat} (he : f.entry it.id.get.toNat = some (.used off 0))
    (hrd : ExactAt bytes off it) : f.object bytes it.id.get.toNat = some (bodyVal it.body) := by
  obtain ⟨rest, h1⟩ := hrd
  unfold FileEnd.object
  rw [he]
  simp only [h1]
  have : it.id.get = (it.id.get.toNat : Int) := by have := it.id.pos; simp only [Ref.get]; omega
  simp [← this]

theorem object_free {f : FileEnd} {bytes : Bytes} {i a b : Nat} (he : f.entry i = some (.free a b)) : f.object bytes i = none := by
  unfold FileEnd.object; rw [he]

theorem object_none {f : FileEnd} {bytes : Bytes} {i : Nat} (he : f.entry i = none) : f.object bytes i = none := by
  unfold FileEnd.object; rw [he]

theorem entry_of (l : List (Ref × Nat)) (pos : Nat) (d : List (Bytes × Val)) (i : Nat) :
    (FileEnd.mk pos (numbered 0 (xrefEntries l)) d).entry i =
      if i < xrefSize l then some (wantedEntry (natOffs l) (xrefSize l) i) else none := by
  rw [entry_numbered]
  split
  · rename_i h; simp [xrefEntries, h]
  · rename_i h; rw [List.getElem?_eq_none]; rw [xrefEntries_length]; omega

/-- C20: a file made by `finish` is read from its end (`%%EOF`, `startxref`, the cross-reference table, the trailer);
looking up objects through the table yields every object that was written, under its number and with its value, and
no other object; and the trailer is the one required. -/
theorem C20_read_back (unf : Val → Bytes → Option Bytes) (h : PdfHist) (p : Pdf) (bytes : Bytes) (hr : h.run = some p)
    (hf : p.finish = some bytes) (hids : ∀ r ∈ docIds h, r.get < 2147483647) (hlen : bytes.length < 10 ^ 10) :
    ∃ f, readFile unf bytes = some f ∧ f.trailer = wantedTrailer h (sizeFor (docIds h)) ∧
      (∀ it ∈ pdfItems h, ItemOk it → ∃ v, f.object bytes it.id.get.toNat = some v ∧ BodyDenotes it.body v) ∧
      (∀ i : Nat, (∀ r ∈ docIds h, r.get ≠ i) → f.object bytes i = none) := by
  have g := docFacts h p hr
  have hsz : sizeFor (docIds h) = xrefSize p.chunk.offsets := by rw [← g.ids, sizeFor_eq]
  obtain ⟨k1, k2⟩ := C17_entry_meaning h p bytes hr hf hids (xrefSize p.chunk.offsets)
  refine ⟨_, readFile_plain unf hr hf hids hlen, ?_, ?_, ?_⟩
  · simp only [hsz, g.trailer]; rfl
  · intro it hit hok
    obtain ⟨off, e1, -, e3⟩ := k1 it hit
    refine object_of_entry (off := off) ?_ (e3 hok)
    rw [entry_of, if_pos (by rw [← hsz]; exact sizeFor_gt (mem_docIds hit))]
    exact congrArg some e1
  · intro i hi
    by_cases hs : i < xrefSize p.chunk.offsets
    · obtain ⟨a, b, e⟩ := k2 i hi
      apply object_free (a := a) (b := b)
      rw [entry_of, if_pos hs]
      exact congrArg some e
    · apply object_none
      rw [entry_of, if_neg hs]

/-! ## C21 -/

/-- An entry whose second field is stored in `w` bytes. -/
def inField (w : Nat) : XEntry → XEntry
  | .free next gen => .free (next % 256 ^ w) gen
  | .used off gen => .used (off % 256 ^ w) gen
  | .packed a b => .packed a b

theorem inField_eq : inField = truncEntry := rfl

/-- What a file that ends with a cross-reference stream must say: `f` is read from its end, the cross-reference
stream is the object `xid` at the position `f.pos`, with fields of 1, `w` and 2 bytes where `w` is the least width
that holds this position; in-use entries carry the position of each object including the stream itself; the other
numbers are free, and their links are those of the free list, as far as they fit `w` bytes. -/
def StreamFile (h : PdfHist) (p : Pdf) (xid : Ref) (bytes : Bytes) (f : FileEnd) : Prop :=
  ∃ w : Nat, (∀ k, w ≤ k ↔ p.chunk.asBytes.length < 256 ^ k) ∧
  f.pos = p.chunk.asBytes.length ∧ (intBytes xid.get ++ b!" 0 obj\n") <+: bytes.drop f.pos ∧
  (p.chunk.asBytes <+: bytes) ∧
  lookup b!"Type" f.trailer = some (.name b!"XRef") ∧
  lookup b!"W" f.trailer = some (.arr [.int 1, .int w, .int 2]) ∧
  f.entry xid.get.toNat = some (.used f.pos 0) ∧
  (∃ data, f.object bytes xid.get.toNat = some (.stream f.trailer data)) ∧
  (∀ it ∈ pdfItems h, ∃ off, f.entry it.id.get.toNat = some (.used off 0) ∧
      (intBytes it.id.get ++ b!" 0 obj\n") <+: bytes.drop off ∧ (ItemOk it → ReadsAt bytes off it)) ∧
  (∀ it ∈ pdfItems h, ItemOk it → ∃ v, f.object bytes it.id.get.toNat = some v ∧ BodyDenotes it.body v) ∧
  (∀ i : Nat, (∀ r ∈ docIds h ++ [xid], r.get ≠ i) → f.object bytes i = none ∧
    (i < sizeFor (docIds h ++ [xid]) → f.entry i = some (inField w
      (.free (nextUnused ((docIds h ++ [xid]).map fun r => (r.get.toNat, 0)) (sizeFor (docIds h ++ [xid])) i) (if i = 0 then 65535 else 0)))) ∧
    (sizeFor (docIds h ++ [xid]) ≤ i → f.entry i = none))

theorem nextUnused_congr (a b : List (Nat × Nat)) (size i : Nat) (h : a.map (·.1) = b.map (·.1)) : nextUnused a size i = nextUnused b size i := by
  have : ∀ j, (a.any fun o => o.1 == j) = (b.any fun o => o.1 == j) := by
    intro j
    have := congrArg (fun l => l.any fun x => x == j) h
    simpa [List.any_map, Function.comp_def] using this
  unfold nextUnused
  simp only [this]

/-- What is known about a file with a cross-reference stream. -/
theorem stream_file (unf : Val → Bytes → Option Bytes) {h : PdfHist} {p : Pdf} {bytes : Bytes} (xid : Ref)
    (filter : Bytes → Bytes × Option XRefFilter) (hr : h.run = some p)
    (hf : p.finishXRefStreamInner xid filter = some bytes) (hids : ∀ r ∈ docIds h ++ [xid], r.get < 2147483647)
    (hlen : p.chunk.buf.len < 2 ^ 64)
    (hunf : match (filter (xrefRaw p xid)).2 with
      | none => (filter (xrefRaw p xid)).1 = xrefRaw p xid
      | some f => unf (filterVal f) (filter (xrefRaw p xid)).1 = some (xrefRaw p xid)) :
    let f : FileEnd := ⟨p.chunk.buf.len, numbered 0 ((xrefEntries (p.chunk.offsets ++ [(xid, p.chunk.buf.len)])).map (truncEntry (determineFieldWidth p.chunk.buf.len))),
        xrefDict p.trailer (filter (xrefRaw p xid)).2 (xrefSize (p.chunk.offsets ++ [(xid, p.chunk.buf.len)])) (determineFieldWidth p.chunk.buf.len) (filter (xrefRaw p xid)).1.length⟩
    readFile unf bytes = some f ∧ (docIds h ++ [xid]).Nodup ∧
    bytes = p.chunk.buf.inner ++ itemBytes (xrefItem p xid (filter (xrefRaw p xid))) p.chunk.pretty ++
        (b!"startxref\n" ++ (natBytes p.chunk.buf.len ++ b!"\n%%EOF")) := by
  have g := docFacts h p hr
  have hnd : (docIds h ++ [xid]).Nodup := by
    apply Classical.byContradiction
    intro hn
    rw [← ids_append g] at hn
    rw [finishStream_none p xid filter (max_of_ids' g hids) hn] at hf
    simp at hf
  rw [finishStream_eq p xid filter hlen (max_of_ids' g hids) (by rw [ids_append g]; exact hnd)] at hf
  split at hf
  · rw [Option.some.injEq] at hf
    subst hf
    intro f
    refine ⟨?_, hnd, rfl⟩
    have h1 := readStartxref_eq (p.chunk.buf.inner ++ itemBytes (xrefItem p xid (filter (xrefRaw p xid))) p.chunk.pretty) p.chunk.buf.len
    have h2 := fun x : Bytes => List.drop_left' (l₁ := p.chunk.buf.inner) (l₂ := x) (i := p.chunk.buf.len) rfl
    unfold readFile
    rw [h1]
    simp only [List.append_assoc, h2]
    exact readXref_stream unf _ p xid (filter (xrefRaw p xid)) _ hunf
  · simp at hf

theorem entry_trunc (l : List (Ref × Nat)) (w pos : Nat) (d : List (Bytes × Val)) (i : Nat) :
    (FileEnd.mk pos (numbered 0 ((xrefEntries l).map (truncEntry w))) d).entry i =
      if i < xrefSize l then some (truncEntry w (wantedEntry (natOffs l) (xrefSize l) i)) else none := by
  rw [entry_numbered]
  split
  · rename_i h; simp [xrefEntries, h]
  · rename_i h; rw [List.getElem?_eq_none]; rw [List.length_map, xrefEntries_length]; omega

theorem streamFile_ok (unf : Val → Bytes → Option Bytes) {h : PdfHist} {p : Pdf} {bytes : Bytes} (xid : Ref)
    (filter : Bytes → Bytes × Option XRefFilter) (hr : h.run = some p)
    (hf : p.finishXRefStreamInner xid filter = some bytes) (hids : ∀ r ∈ docIds h ++ [xid], r.get < 2147483647)
    (hlen : p.chunk.buf.len < 2 ^ 64)
    (hunf : match (filter (xrefRaw p xid)).2 with
      | none => (filter (xrefRaw p xid)).1 = xrefRaw p xid
      | some f => unf (filterVal f) (filter (xrefRaw p xid)).1 = some (xrefRaw p xid)) :
    ∃ f, readFile unf bytes = some f ∧ StreamFile h p xid bytes f ∧
      f.object bytes xid.get.toNat = some (.stream f.trailer (filter (xrefRaw p xid)).1) ∧
      ∀ it ∈ pdfItems h, ItemOk it → f.object bytes it.id.get.toNat = some (bodyVal it.body) := by
  have g := docFacts h p hr
  obtain ⟨h1, hnd, hb⟩ := stream_file unf xid filter hr hf hids hlen hunf
  have hsz : sizeFor (docIds h ++ [xid]) = xrefSize (p.chunk.offsets ++ [(xid, p.chunk.buf.len)]) := by rw [← ids_append g, sizeFor_eq]
  have hwl := fieldWidth_le_iff p.chunk.buf.len
  obtain ⟨l1, -, l3, -, -, -, -⟩ := xrefDict_lookups p.trailer (filter (xrefRaw p xid)).2
    (xrefSize (p.chunk.offsets ++ [(xid, p.chunk.buf.len)])) (determineFieldWidth p.chunk.buf.len) (filter (xrefRaw p xid)).1.length
  have hnd' : ((p.chunk.offsets ++ [(xid, p.chunk.buf.len)]).map (·.1)).Nodup := by rw [ids_append g]; exact hnd
  have hlw : p.chunk.buf.len < 256 ^ determineFieldWidth p.chunk.buf.len := (hwl _).mp (Nat.le_refl _)
  -- the stream object itself
  have hrd : ∃ rest, readIndirect (bytes.drop p.chunk.buf.len) = some (xid.get, 0, .stream
      (xrefDict p.trailer (filter (xrefRaw p xid)).2 (xrefSize (p.chunk.offsets ++ [(xid, p.chunk.buf.len)])) (determineFieldWidth p.chunk.buf.len) (filter (xrefRaw p xid)).1.length)
      (filter (xrefRaw p xid)).1, rest) := by
    rw [hb, List.append_assoc, show p.chunk.buf.len = p.chunk.buf.inner.length from rfl, List.drop_left]
    generalize hL : p.chunk.offsets ++ [(xid, p.chunk.buf.inner.length)] = L at *
    obtain ⟨o1, o2, o3, o4⟩ := xrefStream_ok p.trailer (filter (xrefRaw p xid)).2 (xrefSize (p.chunk.offsets ++ [(xid, p.chunk.buf.len)]))
      (determineFieldWidth p.chunk.buf.len)
    obtain ⟨rest', hr⟩ := readIndirect_item (xrefItem p xid (filter (xrefRaw p xid))) p.chunk.pretty
      (b!"startxref\n" ++ (natBytes p.chunk.buf.inner.length ++ b!"\n%%EOF")) ⟨o1, Or.inr o2, o3⟩
    refine ⟨rest', ?_⟩
    rw [hr]
    simp only [xrefItem, bodyVal, o4, xrefDict]
    rw [show p.chunk.buf.len = p.chunk.buf.inner.length from rfl, hL]
  have he : ∀ (n : Nat) (r : Ref) (off : Nat), (p.chunk.offsets ++ [(xid, p.chunk.buf.len)])[n]? = some (r, off) → off ≤ p.chunk.buf.len →
      (FileEnd.mk p.chunk.buf.len (numbered 0 ((xrefEntries (p.chunk.offsets ++ [(xid, p.chunk.buf.len)])).map (truncEntry (determineFieldWidth p.chunk.buf.len))))
        (xrefDict p.trailer (filter (xrefRaw p xid)).2 (xrefSize (p.chunk.offsets ++ [(xid, p.chunk.buf.len)])) (determineFieldWidth p.chunk.buf.len) (filter (xrefRaw p xid)).1.length)).entry r.get.toNat =
        some (.used off 0) := by
    intro n r off hn ho
    have hmem : r ∈ docIds h ++ [xid] := by
      rw [← ids_append g]; exact List.mem_map_of_mem (f := Prod.fst) (List.mem_of_getElem? hn)
    rw [entry_trunc, if_pos (by rw [← hsz]; exact sizeFor_gt hmem), find_placed _ hnd' n _ _ hn]
    simp only [truncEntry, Nat.mod_eq_of_lt (show off < 256 ^ determineFieldWidth p.chunk.buf.len by omega)]
  have hx := he p.chunk.offsets.length xid p.chunk.buf.len (by simp) (Nat.le_refl _)
  have hitem : ∀ it ∈ pdfItems h, ∃ off, (FileEnd.mk p.chunk.buf.len (numbered 0 ((xrefEntries (p.chunk.offsets ++ [(xid, p.chunk.buf.len)])).map (truncEntry (determineFieldWidth p.chunk.buf.len))))
        (xrefDict p.trailer (filter (xrefRaw p xid)).2 (xrefSize (p.chunk.offsets ++ [(xid, p.chunk.buf.len)])) (determineFieldWidth p.chunk.buf.len) (filter (xrefRaw p xid)).1.length)).entry it.id.get.toNat = some (.used off 0) ∧
      (intBytes it.id.get ++ b!" 0 obj\n") <+: bytes.drop off ∧ (ItemOk it → ExactAt bytes off it) := by
    intro it hit
    obtain ⟨n, hn'⟩ := List.getElem?_of_mem hit
    obtain ⟨off, k1, k2⟩ := g.get n it hn'
    have hlt := g.lt _ (List.mem_of_getElem? k1)
    have hn2 : n < p.chunk.offsets.length := by
      rcases Nat.lt_or_ge n p.chunk.offsets.length with h | h
      · exact h
      · rw [List.getElem?_eq_none h] at k1; simp at k1
    refine ⟨off, he n it.id off (by rw [List.getElem?_append_left hn2]; exact k1) (by simp only at hlt; omega), ?_⟩
    rw [hb, List.append_assoc]
    exact k2 _
  have hobj : (FileEnd.mk p.chunk.buf.len (numbered 0 ((xrefEntries (p.chunk.offsets ++ [(xid, p.chunk.buf.len)])).map (truncEntry (determineFieldWidth p.chunk.buf.len))))
        (xrefDict p.trailer (filter (xrefRaw p xid)).2 (xrefSize (p.chunk.offsets ++ [(xid, p.chunk.buf.len)])) (determineFieldWidth p.chunk.buf.len) (filter (xrefRaw p xid)).1.length)).object bytes xid.get.toNat =
      some (.stream (xrefDict p.trailer (filter (xrefRaw p xid)).2 (xrefSize (p.chunk.offsets ++ [(xid, p.chunk.buf.len)])) (determineFieldWidth p.chunk.buf.len) (filter (xrefRaw p xid)).1.length) (filter (xrefRaw p xid)).1) := by
    obtain ⟨rest, hrd⟩ := hrd
    unfold FileEnd.object
    rw [hx]
    simp only [hrd]
    have : xid.get = (xid.get.toNat : Int) := by have := xid.pos; simp only [Ref.get]; omega
    simp [← this]
  refine ⟨_, h1, ⟨determineFieldWidth p.chunk.buf.len, hwl, rfl, ?_, ?_, l1, l3, hx, ⟨_, hobj⟩, ?_, ?_, ?_⟩, hobj, ?_⟩
  · simp only []
    rw [hb, List.append_assoc, show p.chunk.buf.len = p.chunk.buf.inner.length from rfl, List.drop_left, itemBytes, headBytes]
    simp only [List.append_assoc]
    rw [← List.append_assoc]
    exact List.prefix_append _ _
  · rw [hb, List.append_assoc]; exact List.prefix_append _ _
  · intro it hit
    obtain ⟨off, e1, e2, e3⟩ := hitem it hit
    exact ⟨off, e1, e2, fun hok => (e3 hok).reads hok⟩
  · intro it hit hok
    obtain ⟨off, e1, -, e3⟩ := hitem it hit
    exact object_of_entry e1 ((e3 hok).reads hok)
  · intro i hi
    have hfree := wanted_free (natOffs (p.chunk.offsets ++ [(xid, p.chunk.buf.len)])) (xrefSize (p.chunk.offsets ++ [(xid, p.chunk.buf.len)])) i
      (natOffs_ne _ i (by rw [ids_append g]; exact hi))
    have hent : i < sizeFor (docIds h ++ [xid]) → (FileEnd.mk p.chunk.buf.len (numbered 0 ((xrefEntries (p.chunk.offsets ++ [(xid, p.chunk.buf.len)])).map (truncEntry (determineFieldWidth p.chunk.buf.len))))
        (xrefDict p.trailer (filter (xrefRaw p xid)).2 (xrefSize (p.chunk.offsets ++ [(xid, p.chunk.buf.len)])) (determineFieldWidth p.chunk.buf.len) (filter (xrefRaw p xid)).1.length)).entry i =
        some (inField (determineFieldWidth p.chunk.buf.len)
      (.free (nextUnused ((docIds h ++ [xid]).map fun r => (r.get.toNat, 0)) (sizeFor (docIds h ++ [xid])) i) (if i = 0 then 65535 else 0))) := by
      intro hs
      rw [entry_trunc, if_pos (by rw [← hsz]; exact hs), hfree, inField_eq, hsz]
      congr 3
      apply nextUnused_congr
      rw [← ids_append g]
      simp [natOffs, List.map_map, Function.comp_def]
    refine ⟨?_, hent, ?_⟩
    · by_cases hs : i < sizeFor (docIds h ++ [xid])
      · have := hent hs
        rw [inField] at this
        exact object_free this
      · apply object_none
        rw [entry_trunc, if_neg (by rw [← hsz]; exact hs)]
    · intro hs
      rw [entry_trunc, if_neg (by rw [← hsz]; omega)]
  · intro it hit hok
    obtain ⟨off, e1, -, e3⟩ := hitem it hit
    exact object_exact e1 (e3 hok)

/-- C21: a file made by `finish_with_xref_stream`. -/
theorem C21_xref_stream (unf : Val → Bytes → Option Bytes) (h : PdfHist) (p : Pdf) (xid : Ref) (bytes : Bytes) (hr : h.run = some p)
    (hf : p.finishWithXRefStream xid = some bytes) (hids : ∀ r ∈ docIds h ++ [xid], r.get < 2147483647)
    (hlen : p.chunk.asBytes.length < 2 ^ 64) :
    ∃ f, readFile unf bytes = some f ∧ StreamFile h p xid bytes f :=
  have ⟨f, h1, h2, _⟩ := streamFile_ok unf xid _ hr hf hids hlen rfl
  ⟨f, h1, h2⟩

/-- C21: a file made by `finish_with_xref_stream_and_filter`, for every filter function, read with a decoder that
undoes it. -/
theorem C21_xref_stream_filtered (unf : Val → Bytes → Option Bytes) (filter : Bytes → Bytes × XRefFilter)
    (hunf : ∀ raw, unf (filterVal (filter raw).2) (filter raw).1 = some raw)
    (h : PdfHist) (p : Pdf) (xid : Ref) (bytes : Bytes) (hr : h.run = some p)
    (hf : p.finishWithXRefStreamAndFilter xid filter = some bytes) (hids : ∀ r ∈ docIds h ++ [xid], r.get < 2147483647)
    (hlen : p.chunk.asBytes.length < 2 ^ 64) :
    ∃ f, readFile unf bytes = some f ∧ StreamFile h p xid bytes f ∧
      ∃ raw, lookup b!"Filter" f.trailer = some (filterVal (filter raw).2) ∧
        f.object bytes xid.get.toNat = some (.stream f.trailer (filter raw).1) := by
  obtain ⟨f, h1, h2⟩ := streamFile_ok unf xid _ hr hf hids hlen (hunf _)
  obtain ⟨h3, -, -⟩ := stream_file unf xid _ hr hf hids hlen (hunf _)
  refine ⟨f, h1, h2.1, xrefRaw p xid, ?_, h2.2.1⟩
  rw [h1, Option.some.injEq] at h3
  subst h3
  exact (xrefDict_lookups _ _ _ _ _).2.2.2.2.2.1 _ rfl

/-- C18, cross-reference streams: if the largest number fits the field (in particular if it is not larger than the
position of the stream), the entries form a well-formed free list. -/
theorem C18_free_list_stream (unf : Val → Bytes → Option Bytes) (h : PdfHist) (p : Pdf) (xid : Ref) (bytes : Bytes) (hr : h.run = some p)
    (hf : p.finishWithXRefStream xid = some bytes) (hids : ∀ r ∈ docIds h ++ [xid], r.get < 2147483647)
    (hlen : p.chunk.asBytes.length < 2 ^ 64)
    (hfit : ∀ k, p.chunk.asBytes.length < 256 ^ k → ∀ r ∈ docIds h ++ [xid], r.get < 256 ^ k) :
    ∃ f es, readFile unf bytes = some f ∧ f.table = numbered 0 es ∧ es.length = sizeFor (docIds h ++ [xid]) ∧
      GoodFreeList es (docIds h ++ [xid]) := by
  have g := docFacts h p hr
  obtain ⟨h1, -, -⟩ := stream_file unf xid _ hr hf hids hlen rfl
  have hw : p.chunk.buf.len < 256 ^ determineFieldWidth p.chunk.buf.len := (fieldWidth_le_iff _ _).mp (Nat.le_refl _)
  have hsize : sizeFor (docIds h ++ [xid]) ≤ 256 ^ determineFieldWidth p.chunk.buf.len := by
    obtain ⟨-, -, h3⟩ := foldl_max_spec ((docIds h ++ [xid]).map fun r => r.get.toNat) 0
    unfold sizeFor
    rcases h3 with h3 | h3
    · omega
    · obtain ⟨r, hr, e⟩ := List.mem_map.mp h3
      have h5 := hfit _ hw r hr
      rw [← e]
      generalize determineFieldWidth p.chunk.buf.len = w at *
      have h6 : ((256 ^ w : Nat) : Int) = (256 : Int) ^ w := by simp
      rw [← h6] at h5
      generalize 256 ^ w = W at *
      omega
  have hes : (xrefEntries (p.chunk.offsets ++ [(xid, p.chunk.buf.len)])).map (truncEntry (determineFieldWidth p.chunk.buf.len)) =
      xrefEntries (p.chunk.offsets ++ [(xid, p.chunk.buf.len)]) := by
    conv => rhs; rw [← List.map_id (xrefEntries (p.chunk.offsets ++ [(xid, p.chunk.buf.len)]))]
    apply List.map_congr_left
    intro e he
    obtain ⟨i, -, rfl⟩ := List.mem_map.mp he
    unfold wantedEntry
    split
    · rename_i o ho
      obtain ⟨q, hq, rfl⟩ := List.mem_map.mp (List.mem_of_find?_eq_some ho)
      have : q.2 ≤ p.chunk.buf.len := by
        rcases List.mem_append.mp hq with h | h
        · have := g.lt q h; omega
        · simp only [List.mem_singleton] at h; subst h; exact Nat.le_refl _
      simp only [truncEntry, id, Nat.mod_eq_of_lt (show q.2 < 256 ^ determineFieldWidth p.chunk.buf.len by omega)]
    · have h1 := nextUnused_lt (natOffs (p.chunk.offsets ++ [(xid, p.chunk.buf.len)])) (xrefSize (p.chunk.offsets ++ [(xid, p.chunk.buf.len)])) i
        (by simp [xrefSize]; omega)
      rw [← sizeFor_eq, ids_append g] at h1
      rw [← sizeFor_eq, ids_append g]
      simp only [truncEntry, id, Nat.mod_eq_of_lt (Nat.lt_of_lt_of_le h1 hsize)]
  refine ⟨_, _, h1, rfl, ?_, ?_⟩
  · rw [hes, xrefEntries_length, ← ids_append g, sizeFor_eq]
  · rw [hes, ← ids_append g]; exact good_wanted _

/-! ## C22 -/

/-- C22, `finish`. -/
theorem C22_trailer (unf : Val → Bytes → Option Bytes) (h : PdfHist) (p : Pdf) (bytes : Bytes) (hr : h.run = some p)
    (hf : p.finish = some bytes) (hids : ∀ r ∈ docIds h, r.get < 2147483647) (hlen : bytes.length < 10 ^ 10) :
    ∃ f, readFile unf bytes = some f ∧ f.trailer = wantedTrailer h (sizeFor (docIds h)) := by
  obtain ⟨f, h1, h2, -⟩ := C20_read_back unf h p bytes hr hf hids hlen
  exact ⟨f, h1, h2⟩

/-- C22, `finish_with_xref_stream`: among the entries of the stream dictionary those with the keys of the trailer. -/
theorem C22_trailer_stream (unf : Val → Bytes → Option Bytes) (h : PdfHist) (p : Pdf) (xid : Ref) (bytes : Bytes) (hr : h.run = some p)
    (hf : p.finishWithXRefStream xid = some bytes) (hids : ∀ r ∈ docIds h ++ [xid], r.get < 2147483647)
    (hlen : p.chunk.asBytes.length < 2 ^ 64) :
    ∃ f, readFile unf bytes = some f ∧
      only [b!"Size", b!"Root", b!"Info", b!"ID"] f.trailer = wantedTrailer h (sizeFor (docIds h ++ [xid])) := by
  have g := docFacts h p hr
  obtain ⟨h1, -, -⟩ := stream_file unf xid _ hr hf hids hlen rfl
  refine ⟨_, h1, ?_⟩
  have := (xrefDict_lookups p.trailer none (xrefSize (p.chunk.offsets ++ [(xid, p.chunk.buf.len)])) (determineFieldWidth p.chunk.buf.len) (xrefRaw p xid).length).2.2.2.2.2.2
  rw [← sizeFor_eq, ids_append g] at this
  simp only [← sizeFor_eq, ids_append g]
  refine this.trans ?_
  rw [g.trailer]; rfl

/-- C22, `finish_with_xref_stream_and_filter`. -/
theorem C22_trailer_filtered (unf : Val → Bytes → Option Bytes) (filter : Bytes → Bytes × XRefFilter)
    (hunf : ∀ raw, unf (filterVal (filter raw).2) (filter raw).1 = some raw)
    (h : PdfHist) (p : Pdf) (xid : Ref) (bytes : Bytes) (hr : h.run = some p)
    (hf : p.finishWithXRefStreamAndFilter xid filter = some bytes) (hids : ∀ r ∈ docIds h ++ [xid], r.get < 2147483647)
    (hlen : p.chunk.asBytes.length < 2 ^ 64) :
    ∃ f, readFile unf bytes = some f ∧
      only [b!"Size", b!"Root", b!"Info", b!"ID"] f.trailer = wantedTrailer h (sizeFor (docIds h ++ [xid])) := by
  have g := docFacts h p hr
  obtain ⟨h1, -, -⟩ := stream_file unf xid _ hr hf hids hlen (hunf _)
  refine ⟨_, h1, ?_⟩
  have := (xrefDict_lookups p.trailer (some (filter (xrefRaw p xid)).2) (xrefSize (p.chunk.offsets ++ [(xid, p.chunk.buf.len)])) (determineFieldWidth p.chunk.buf.len) (filter (xrefRaw p xid)).1.length).2.2.2.2.2.2
  rw [← sizeFor_eq, ids_append g] at this
  simp only [← sizeFor_eq, ids_append g]
  refine this.trans ?_
  rw [g.trailer]; rfl

/-! ## C36 -/

/-- The file ends with `startxref`, a position in decimal, and `%%EOF`; and this is the position where `what`
starts. -/
def EndsAt (bytes : Bytes) (pos : Nat) (what : Bytes) : Prop :=
  ∃ front digits, bytes = front ++ (b!"startxref\n" ++ digits ++ b!"\n%%EOF") ∧ digits.all isDigit = true ∧ digits ≠ [] ∧
    digitsVal digits = pos ∧ pos < front.length ∧ what <+: bytes.drop pos

/-- C36, `finish`: the position is that of the keyword `xref`, directly after everything written before. -/
theorem C36_finish (h : PdfHist) (p : Pdf) (bytes : Bytes) (hr : h.run = some p) (hf : p.finish = some bytes)
    (hids : ∀ r ∈ docIds h, r.get < 2147483647) : EndsAt bytes p.chunk.asBytes.length b!"xref\n" := by
  obtain ⟨-, rfl⟩ := finish_bytes hr hf hids
  refine ⟨p.chunk.buf.inner ++ plainEnd p, natBytes p.chunk.buf.len, by simp, natBytes_digits _, natBytes_ne_nil _, digitsVal_natBytes _, ?_, ?_⟩
  · simp [plainEnd, Chunk.asBytes]
  · rw [List.append_assoc, Chunk.asBytes, List.drop_left, plainEnd]
    exact ⟨_, rfl⟩

/-- C36, cross-reference streams, filtered or not. -/
theorem C36_finish_with_xref_stream (h : PdfHist) (p : Pdf) (xid : Ref) (bytes : Bytes) (hr : h.run = some p)
    (hf : p.finishWithXRefStream xid = some bytes ∨ ∃ filter, p.finishWithXRefStreamAndFilter xid filter = some bytes)
    (hids : ∀ r ∈ docIds h ++ [xid], r.get < 2147483647) (hlen : p.chunk.asBytes.length < 2 ^ 64) :
    EndsAt bytes p.chunk.asBytes.length (intBytes xid.get ++ b!" 0 obj\n") := by
  have g := docFacts h p hr
  have hf' : ∃ filter, p.finishXRefStreamInner xid filter = some bytes := by
    rcases hf with h | ⟨filter, h⟩
    · exact ⟨_, h⟩
    · exact ⟨_, h⟩
  obtain ⟨filter, hf⟩ := hf'
  have hnd : ((p.chunk.offsets ++ [(xid, p.chunk.buf.len)]).map (·.1)).Nodup := by
    apply Classical.byContradiction
    intro hn
    rw [finishStream_none p xid filter (max_of_ids' g hids) hn] at hf
    simp at hf
  rw [finishStream_eq p xid filter hlen (max_of_ids' g hids) hnd] at hf
  split at hf
  · rw [Option.some.injEq] at hf
    subst hf
    refine ⟨p.chunk.buf.inner ++ itemBytes (xrefItem p xid (filter (xrefRaw p xid))) p.chunk.pretty, natBytes p.chunk.buf.len, by simp,
      natBytes_digits _, natBytes_ne_nil _, digitsVal_natBytes _, ?_, ?_⟩
    · simp [itemBytes, headBytes, Chunk.asBytes]; omega
    · rw [List.append_assoc, Chunk.asBytes, List.drop_left, itemBytes, headBytes]
      simp only [List.append_assoc]
      rw [← List.append_assoc]
      exact List.prefix_append _ _
  · simp at hf

/-! ## A concrete document -/

/-- A document with gaps between the ids, written out of order. -/
def sampleDoc : PdfHist :=
  .setFileId (.documentInfo (.call (.catalog (.new false) (rf 6) [(b!"Pages", .prim (.ref (rf 2)))])
    (.stream (rf 3) [] b!"endobj 6 0 obj")) (rf 4) [(b!"Title", .prim (.str b!"xref"))]) (b!"a)", b!"b")

example : docIds sampleDoc = [rf 6, rf 3, rf 4] := by
  simp [docIds, sampleDoc, pdfItems, callItems]

example : ∀ it ∈ pdfItems sampleDoc, ItemOk it := by
  simp [sampleDoc, pdfItems, callItems, ItemOk, Ok, OkItems, OkEntries, PrimOk, pdfPretty, NoClash, NoClashItems, isEmptyName, NoClashEntries]

example : (sampleDoc.run.bind fun p => p.finish) = some (b!"%PDF-1.7\n%\x80\x80\x80\x80\n\n6 0 obj\n<</Type/Catalog/Pages 2 0 R>>\nendobj\n3 0 obj\n<</Length 14>>\nstream\nendobj 6 0 obj\nendstream\nendobj\n4 0 obj\n<</Title(xref)>>\nendobj\nxref\n0 7\n0000000001 65535 f\x0D\n0000000002 00000 f\x0D\n0000000005 00000 f\x0D\n0000000061 00000 n\x0D\n0000000123 00000 n\x0D\n0000000000 00000 f\x0D\n0000000016 00000 n\x0D\ntrailer\n<</Size 7/Root 6 0 R/Info 4 0 R/ID[(a\\))(b)]>>\nstartxref\n155\n%%EOF") := by
  decide +kernel

example : ((sampleDoc.run.bind fun p => p.finishWithXRefStream (rf 1)).bind fun bytes =>
    (readFile (fun _ _ => none) bytes).map fun f => (f.pos, f.table)) = some (155, numbered 0 [.free 2 65535, .used 155 0, .free 5 0,
      .used 61 0, .used 123 0, .free 0 0, .used 16 0]) := by decide +kernel

/-- Using an id twice. -/
example : ((PdfHist.catalog sampleDoc (rf 3) []).run.bind fun p => p.finish) = none := by decide +kernel
example : (sampleDoc.run.bind fun p => p.finishWithXRefStream (rf 3)) = none := by decide +kernel

/-- The free links of a cross-reference stream are truncated to the width of the offsets: here the link from entry
255 to entry 256 is stored as 0 (a defect of the program; see DESIGN.md). -/
example : ((PdfHist.new false).run.bind fun p => (p.finishWithXRefStream (rf 258)).bind fun bytes =>
    (readFile (fun _ _ => none) bytes).bind fun f => f.entry 255) = some (.free 0 0) := by decide +kernel

end PdfW.Props
