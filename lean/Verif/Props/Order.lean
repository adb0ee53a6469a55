import Verif.Props.Files
import Mathlib.Tactic.Tauto

set_option linter.unusedSimpArgs false
set_option linter.unusedVariables false

/-!
# C49: order, chunks, pretty-printing and the kind of cross-reference section do not matter

Two documents into which the same objects were written read the same, whatever the order of the calls, however the objects were
spread over chunks, extended, renumbered into place, whatever the settings, and however the two files were finished.
-/

namespace PdfW.Props
open PdfW Spec

/-- The ways to finish a document. -/
inductive Finishing where
  | table
  | stream (xid : Ref)
  | filtered (xid : Ref) (filter : Bytes → Bytes × XRefFilter)

/-- The method. -/
def Finishing.run : Finishing → Pdf → Option Bytes
  | .table, p => p.finish
  | .stream xid, p => p.finishWithXRefStream xid
  | .filtered xid filter, p => p.finishWithXRefStreamAndFilter xid filter

/-- The id of the cross-reference stream. -/
def Finishing.ids : Finishing → List Ref
  | .table => []
  | .stream xid | .filtered xid _ => [xid]

/-- The file is not too large: positions have ten digits in a table and eight bytes in a stream. -/
def Finishing.Fits (p : Pdf) (bytes : Bytes) : Finishing → Prop
  | .table => bytes.length < 10 ^ 10
  | .stream _ | .filtered _ _ => p.chunk.asBytes.length < 2 ^ 64

/-- The reader can undo the filter. -/
def Finishing.Undone (unf : Val → Bytes → Option Bytes) : Finishing → Prop
  | .table | .stream _ => True
  | .filtered _ filter => ∀ raw, unf (filterVal (filter raw).2) (filter raw).1 = some raw

/-- The same objects were written, and the same catalog, document information and file identifier set. -/
structure SameDocument (h h' : PdfHist) : Prop where
  objects : ∀ id body, (∃ it ∈ pdfItems h, it.id = id ∧ it.body = body) ↔ (∃ it ∈ pdfItems h', it.id = id ∧ it.body = body)
  catalog : catalogId h = catalogId h'
  info : infoId h = infoId h'
  fileId : fileId h = fileId h'

/-- What a file contains, exactly. -/
theorem finishing_exact (unf : Val → Bytes → Option Bytes) (h : PdfHist) (p : Pdf) (w : Finishing) (bytes : Bytes) (hr : h.run = some p)
    (hf : w.run p = some bytes) (hids : ∀ r ∈ docIds h ++ w.ids, r.get < 2147483647) (hlen : w.Fits p bytes) (hu : w.Undone unf) :
    ∃ f, readFile unf bytes = some f ∧
      only [b!"Size", b!"Root", b!"Info", b!"ID"] f.trailer = wantedTrailer h (sizeFor (docIds h ++ w.ids)) ∧
      (∀ it ∈ pdfItems h, ItemOk it → f.object bytes it.id.get.toNat = some (bodyVal it.body)) ∧
      (∀ i : Nat, (∀ r ∈ docIds h ++ w.ids, r.get ≠ i) → f.object bytes i = none) := by
  cases w with
  | table =>
    simp only [Finishing.ids, List.append_nil] at hids ⊢
    have g := docFacts h p hr
    have hsz : sizeFor (docIds h) = xrefSize p.chunk.offsets := by rw [← g.ids, sizeFor_eq]
    obtain ⟨f, q1, q2, -, q4⟩ := C20_read_back unf h p bytes hr hf hids hlen
    refine ⟨f, q1, ?_, ?_, q4⟩
    · rw [q2]
      unfold only
      rw [List.filter_eq_self]
      intro e he
      simp only [wantedTrailer, List.mem_append, List.mem_map, Option.mem_toList, List.mem_singleton] at he
      rcases he with ((rfl | ⟨r, -, rfl⟩) | ⟨r, -, rfl⟩) | ⟨r, -, rfl⟩ <;> simp
    · intro it hit hok
      obtain ⟨hn, hb⟩ := finish_bytes hr hf hids
      obtain ⟨n, hn'⟩ := List.getElem?_of_mem hit
      obtain ⟨off, k1, k2⟩ := g.get n it hn'
      rw [readFile_plain unf hr hf hids hlen, Option.some.injEq] at q1
      subst q1
      refine object_exact (off := off) ?_ ?_
      · rw [entry_of, if_pos (by rw [← hsz]; exact sizeFor_gt (mem_docIds hit))]
        exact congrArg some (find_placed _ (by rw [g.ids]; exact hn) n _ _ k1 _)
      · rw [hb, List.append_assoc]; exact (k2 _).2 hok
  | stream xid =>
    have hf : p.finishWithXRefStream xid = some bytes := hf
    obtain ⟨f, q1, q2, -, q4⟩ := streamFile_ok unf xid _ hr hf hids hlen rfl
    obtain ⟨f', q1', q3⟩ := C22_trailer_stream unf h p xid bytes hr hf hids hlen
    rw [q1, Option.some.injEq] at q1'
    subst q1'
    obtain ⟨w, -, -, -, -, -, -, -, -, -, -, q5⟩ := q2
    exact ⟨f, q1, q3, q4, fun i hi => (q5 i hi).1⟩
  | filtered xid filter =>
    have hf : p.finishWithXRefStreamAndFilter xid filter = some bytes := hf
    obtain ⟨f, q1, q2, -, q4⟩ := streamFile_ok unf xid _ hr hf hids hlen (hu _)
    obtain ⟨f', q1', q3⟩ := C22_trailer_filtered unf filter hu h p xid bytes hr hf hids hlen
    rw [q1, Option.some.injEq] at q1'
    subst q1'
    obtain ⟨w, -, -, -, -, -, -, -, -, -, -, q5⟩ := q2
    exact ⟨f, q1, q3, q4, fun i hi => (q5 i hi).1⟩

theorem lookup_only' {keys : List Bytes} {k : Bytes} (hk : k ∈ keys) (d : List (Bytes × Val)) : lookup k (only keys d) = lookup k d := by
  unfold lookup only
  rw [List.filter_filter]
  congr 1
  apply List.filter_congr
  intro e _
  by_cases h : (e.1 == k) = true
  · have : e.1 = k := by simpa using h
    simp [this, hk]
  · simp [h]

theorem same_ids {h h' : PdfHist} (hs : SameDocument h h') (r : Ref) : r ∈ docIds h ↔ r ∈ docIds h' := by
  constructor <;> intro hr
  · obtain ⟨it, hit, rfl⟩ := List.mem_map.mp hr
    obtain ⟨it', hit', e, -⟩ := (hs.objects it.id it.body).mp ⟨it, hit, rfl, rfl⟩
    rw [← e]; exact List.mem_map_of_mem hit'
  · obtain ⟨it, hit, rfl⟩ := List.mem_map.mp hr
    obtain ⟨it', hit', e, -⟩ := (hs.objects it.id it.body).mpr ⟨it, hit, rfl, rfl⟩
    rw [← e]; exact List.mem_map_of_mem hit'

/-- C49: the same number is in both files the same object, or in both none, except for the cross-reference streams; and
`Root`, `Info` and `ID` agree. -/
theorem C49_same_objects (unf : Val → Bytes → Option Bytes) (h h' : PdfHist) (p p' : Pdf) (w w' : Finishing) (bytes bytes' : Bytes)
    (hr : h.run = some p) (hr' : h'.run = some p') (hf : w.run p = some bytes) (hf' : w'.run p' = some bytes')
    (hids : ∀ r ∈ docIds h ++ w.ids, r.get < 2147483647) (hids' : ∀ r ∈ docIds h' ++ w'.ids, r.get < 2147483647)
    (hlen : w.Fits p bytes) (hlen' : w'.Fits p' bytes') (hu : w.Undone unf) (hu' : w'.Undone unf)
    (hs : SameDocument h h') (hok : ∀ it ∈ pdfItems h, ItemOk it) (hok' : ∀ it ∈ pdfItems h', ItemOk it) :
    ∃ f f', readFile unf bytes = some f ∧ readFile unf bytes' = some f' ∧
      (∀ i : Nat, (∀ r ∈ w.ids ++ w'.ids, r.get ≠ i) → f.object bytes i = f'.object bytes' i) ∧
      (∀ k ∈ [b!"Root", b!"Info", b!"ID"], lookup k f.trailer = lookup k f'.trailer) := by
  obtain ⟨f, q1, q2, q3, q4⟩ := finishing_exact unf h p w bytes hr hf hids hlen hu
  obtain ⟨f', q1', q2', q3', q4'⟩ := finishing_exact unf h' p' w' bytes' hr' hf' hids' hlen' hu'
  refine ⟨f, f', q1, q1', ?_, ?_⟩
  · intro i hi
    by_cases he : ∃ r ∈ docIds h, r.get = i
    · obtain ⟨r, hr, hri⟩ := he
      obtain ⟨it, hit, rfl⟩ := List.mem_map.mp hr
      obtain ⟨it', hit', e1, e2⟩ := (hs.objects it.id it.body).mp ⟨it, hit, rfl, rfl⟩
      have hi' : it.id.get.toNat = i := by omega
      rw [← hi', q3 it hit (hok it hit), ← e1, q3' it' hit' (hok' it' hit'), e2]
    · have hne : ∀ r ∈ docIds h, r.get ≠ i := fun r hr e => he ⟨r, hr, e⟩
      rw [q4 i, q4' i]
      · intro r hr
        rcases List.mem_append.mp hr with hr | hr
        · exact hne r ((same_ids hs r).mpr hr)
        · exact hi r (by simp [hr])
      · intro r hr
        rcases List.mem_append.mp hr with hr | hr
        · exact hne r hr
        · exact hi r (by simp [hr])
  · intro k hk
    have hk' : k ∈ [b!"Size", b!"Root", b!"Info", b!"ID"] := List.mem_cons_of_mem _ hk
    rw [← lookup_only' hk' f.trailer, ← lookup_only' hk' f'.trailer, q2, q2']
    simp only [wantedTrailer, hs.catalog, hs.info, hs.fileId, lookup, List.append_assoc, List.filter_append]
    have : ∀ n : Nat, List.filter (fun e : Bytes × Val => e.1 == k) [(b!"Size", Val.int (n : Int))] = [] := by
      intro n
      simp only [List.mem_cons, List.not_mem_nil, or_false] at hk
      rcases hk with rfl | rfl | rfl <;> rfl
    rw [this, this]

/-! ## Two documents that meet the hypotheses -/

/-- Pretty, in one go. -/
def orderDoc1 : PdfHist :=
  .call (.call (.catalog (.setFileId (.new true) (b!"a", b!"b")) (rf 1) [(b!"Pages", .prim (.ref (rf 2)))])
    (.stream (rf 5) [] b!"q Q")) (.indirect (rf 2) (.array [.prim (.ref (rf 5)), .prim (.int 3)]))

/-- Compact; the array comes from another chunk in which it has other numbers. -/
def orderDoc2 : PdfHist :=
  .setFileId (.call (.call (.catalog (.new false) (rf 1) [(b!"Pages", .prim (.ref (rf 2)))])
    (.renumberFrom (.call (.new false) (.indirect (rf 1) (.array [.prim (.ref (rf 9)), .prim (.int 3)]))) Unit
      (fun s r => (if r = rf 1 then rf 2 else rf 5, s)) ()))
    (.extend (.call (.new true) (.stream (rf 5) [] b!"q Q")))) (b!"a", b!"b")

example : SameDocument orderDoc1 orderDoc2 where
  objects := by
    have h1 : pdfItems orderDoc1 = [⟨rf 1, .val (.dict [(b!"Type", .prim (.name b!"Catalog")), (b!"Pages", .prim (.ref (rf 2)))]), true⟩,
      ⟨rf 5, .stream [] b!"q Q", true⟩, ⟨rf 2, .val (.array [.prim (.ref (rf 5)), .prim (.int 3)]), true⟩] := rfl
    have h2 : pdfItems orderDoc2 = [⟨rf 1, .val (.dict [(b!"Type", .prim (.name b!"Catalog")), (b!"Pages", .prim (.ref (rf 2)))]), false⟩,
      ⟨rf 2, .val (.array [.prim (.ref (rf 5)), .prim (.int 3)]), false⟩, ⟨rf 5, .stream [] b!"q Q", true⟩] := rfl
    intro id body
    rw [h1, h2]
    simp only [List.mem_cons, List.not_mem_nil, or_false, exists_eq_or_imp, exists_eq_left]
    tauto
  catalog := rfl
  info := rfl
  fileId := rfl

example : (∀ it ∈ pdfItems orderDoc1, ItemOk it) ∧ (∀ it ∈ pdfItems orderDoc2, ItemOk it) := by
  simp [orderDoc1, orderDoc2, pdfItems, callItems, chunkItems, chunkPretty, pdfPretty, mapObjs, started, mapItem, mapBody, mapProg, mapItems, mapEntries, mapPrim, ItemOk, Ok, OkItems,
    OkEntries, PrimOk, NoClash, NoClashItems, NoClashEntries, isEmptyName, isBareToken]

example : ((orderDoc1.run.bind Finishing.table.run).isSome && (orderDoc2.run.bind (Finishing.stream (rf 7)).run).isSome) = true := by decide +kernel

end PdfW.Props
