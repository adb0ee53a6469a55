import Verif.Proof.Document
import Verif.Proof.Fast
import Verif.Props.Files

set_option linter.unusedSimpArgs false
set_option linter.unusedVariables false

/-!
# C48: documents read back page by page

End to end: whatever page tree with whatever contents was written, in whatever order and among whatever other objects, a reader
that is given only the bytes of the file, starts at its end and follows the trailer to the catalog, the page tree and the
content streams finds the pages in order, each with the dictionary and the operations that were asked for.
-/

namespace PdfW.Props
open PdfW Spec

/-- What was asked for: a catalog (the last one set) that points to the root of a page tree, and the tree. -/
structure DocumentWritten (unf : Val → Bytes → Option Bytes) (h : PdfHist) (cid : Ref) (cat : List CatalogCall) (t : PageTree) : Prop where
  root : catalogId h = some cid
  catalog : HasObject (pdfItems h) cid (.val (Catalog.prog cat))
  noType : NoCall (CatalogMeans .code) b!"Type" cat
  pages : OnlyCall (CatalogMeans .code) b!"Pages" cat (.pages t.id)
  tree : t.Written unf (pdfItems h)

/-- `Root` of the trailer. -/
theorem root_lookup {h : PdfHist} {cid : Ref} (hc : catalogId h = some cid) (n : Nat) :
    lookup b!"Root" (wantedTrailer h n) = some (.ref cid.get.toNat 0) := by
  simp only [wantedTrailer, hc, lookup, List.filter_append, Option.toList_some, List.map_cons, List.map_nil]
  have h1 : List.filter (fun e : Bytes × Val => e.1 == b!"Root") ((infoId h).toList.map fun r => (b!"Info", Val.ref r.get.toNat 0)) = [] := by
    cases infoId h <;> rfl
  have h2 : List.filter (fun e : Bytes × Val => e.1 == b!"Root") ((fileId h).toList.map fun i => (b!"ID", Val.arr [.str i.1, .str i.2])) = [] := by
    cases fileId h <;> rfl
  rw [h1, h2]
  rfl

theorem lookup_only {keys : List Bytes} {k : Bytes} (hk : k ∈ keys) (d : List (Bytes × Val)) : lookup k (only keys d) = lookup k d := by
  unfold lookup only
  rw [List.filter_filter]
  congr 1
  apply List.filter_congr
  intro e _
  by_cases h : (e.1 == k) = true
  · have : e.1 = k := by simpa using h
    simp [this, hk]
  · simp [h]

/-- C48: a file made by `finish`. -/
theorem C48_pages (rd : Reading) (unf : Val → Bytes → Option Bytes) (h : PdfHist) (p : Pdf) (bytes : Bytes) (hr : h.run = some p)
    (hf : p.finish = some bytes) (hids : ∀ r ∈ docIds h, r.get < 2147483647) (hlen : bytes.length < 10 ^ 10)
    (cid : Ref) (cat : List CatalogCall) (t : PageTree) (hw : DocumentWritten unf h cid cat t)
    (hc : rd = .code ∨ ∀ w ∈ t.pages, w.1.all PageCall.conforming = true) (depth : Nat) (hd : t.depth ≤ depth) :
    ∃ ps, readDocument unf bytes depth = some ps ∧ PagesMean rd t.pages ps := by
  obtain ⟨f, h1, h2, h3, -⟩ := C20_read_back unf h p bytes hr hf hids hlen
  obtain ⟨ps, q1, q2⟩ := document_reads (unf := unf) rd h3 (by rw [h2]; exact root_lookup hw.root _) hw.catalog hw.noType hw.pages depth hd hw.tree hc
  exact ⟨ps, by simp only [readDocument, h1, Option.bind_some, q1], q2⟩

/-- C48: a file made by `finish_with_xref_stream`. -/
theorem C48_pages_xref_stream (rd : Reading) (unf : Val → Bytes → Option Bytes) (h : PdfHist) (p : Pdf) (xid : Ref) (bytes : Bytes)
    (hr : h.run = some p) (hf : p.finishWithXRefStream xid = some bytes) (hids : ∀ r ∈ docIds h ++ [xid], r.get < 2147483647)
    (hlen : p.chunk.asBytes.length < 2 ^ 64)
    (cid : Ref) (cat : List CatalogCall) (t : PageTree) (hw : DocumentWritten unf h cid cat t)
    (hc : rd = .code ∨ ∀ w ∈ t.pages, w.1.all PageCall.conforming = true) (depth : Nat) (hd : t.depth ≤ depth) :
    ∃ ps, readDocument unf bytes depth = some ps ∧ PagesMean rd t.pages ps := by
  obtain ⟨f, h1, h2⟩ := C21_xref_stream unf h p xid bytes hr hf hids hlen
  obtain ⟨f', h1', h3⟩ := C22_trailer_stream unf h p xid bytes hr hf hids hlen
  rw [h1, Option.some.injEq] at h1'
  subst h1'
  obtain ⟨w, -, -, -, -, -, -, -, -, -, h4, -⟩ := h2
  obtain ⟨ps, q1, q2⟩ := document_reads (unf := unf) rd h4
    (by rw [← lookup_only (keys := [b!"Size", b!"Root", b!"Info", b!"ID"]) (by decide), h3]; exact root_lookup hw.root _)
    hw.catalog hw.noType hw.pages depth hd hw.tree hc
  exact ⟨ps, by simp only [readDocument, h1, Option.bind_some, q1], q2⟩

/-- C48: a file made by `finish_with_xref_stream_and_filter`, for every filter function that the decoder undoes. -/
theorem C48_pages_filtered (rd : Reading) (unf : Val → Bytes → Option Bytes) (filter : Bytes → Bytes × XRefFilter)
    (hunf : ∀ raw, unf (filterVal (filter raw).2) (filter raw).1 = some raw) (h : PdfHist) (p : Pdf) (xid : Ref) (bytes : Bytes)
    (hr : h.run = some p) (hf : p.finishWithXRefStreamAndFilter xid filter = some bytes)
    (hids : ∀ r ∈ docIds h ++ [xid], r.get < 2147483647) (hlen : p.chunk.asBytes.length < 2 ^ 64)
    (cid : Ref) (cat : List CatalogCall) (t : PageTree) (hw : DocumentWritten unf h cid cat t)
    (hc : rd = .code ∨ ∀ w ∈ t.pages, w.1.all PageCall.conforming = true) (depth : Nat) (hd : t.depth ≤ depth) :
    ∃ ps, readDocument unf bytes depth = some ps ∧ PagesMean rd t.pages ps := by
  obtain ⟨f, h1, h2, -⟩ := C21_xref_stream_filtered unf filter hunf h p xid bytes hr hf hids hlen
  obtain ⟨f', h1', h3⟩ := C22_trailer_filtered unf filter hunf h p xid bytes hr hf hids hlen
  rw [h1, Option.some.injEq] at h1'
  subst h1'
  obtain ⟨w, -, -, -, -, -, -, -, -, -, h4, -⟩ := h2
  obtain ⟨ps, q1, q2⟩ := document_reads (unf := unf) rd h4
    (by rw [← lookup_only (keys := [b!"Size", b!"Root", b!"Info", b!"ID"]) (by decide), h3]; exact root_lookup hw.root _)
    hw.catalog hw.noType hw.pages depth hd hw.tree hc
  exact ⟨ps, by simp only [readDocument, h1, Option.bind_some, q1], q2⟩

/-! ## A document that meets the hypotheses -/

/-- Three content streams; the third is compressed. -/
def samplePart1 : ContentPart := ⟨rf 4, [], b!"q\nBT(Hi)Tj\nET\nQ", false, [.saveState, .beginText, .show b!"Hi", .endText, .restoreState]⟩
def samplePart2 : ContentPart := ⟨rf 7, [], b!"q", true, [.saveState]⟩
def samplePart3 : ContentPart := ⟨rf 8, [.filter .flateDecode], b!"??", false, [.setParameters b!"G0", .restoreState]⟩

/-- A page without contents, a page with one stream, and a node with a page with two streams. -/
def sampleTree : PageTree :=
  .node (rf 2) [.count 3, .kids [rf 9, rf 3, rf 5]]
    [.page (rf 9) [.parent (rf 2)] [],
     .page (rf 3) [.parent (rf 2), .contents (rf 4), .rotate 90] [samplePart1],
     .node (rf 5) [.parent (rf 2), .kids [rf 6], .count 1] [.page (rf 6) [.contentsArray [rf 7, rf 8]] [samplePart2, samplePart3]]]

/-- Written in no particular order, in part through another chunk, with another object in between. -/
def samplePages : PdfHist :=
  .call (.call (.call (.call (.catalog (.call (.call (.new false) (.stream (rf 8) (Stream.entries [.filter .flateDecode]) b!"??"))
    (.indirect (rf 6) (Page.prog [.contentsArray [rf 7, rf 8]]))) (rf 1) ([.lang ['e', 'n'], .pages (rf 2)].flatMap CatalogCall.entries))
    (.indirect (rf 11) (.prim .null)))
    (.indirect (rf 2) (Pages.prog [.count 3, .kids [rf 9, rf 3, rf 5]])))
    (.stream (rf 7) [] b!"q"))
    (.extend (.call (.call (.call (.call (.new true) (.indirect (rf 3) (Page.prog [.parent (rf 2), .contents (rf 4), .rotate 90])))
      (.indirect (rf 9) (Page.prog [.parent (rf 2)])))
      (.indirect (rf 5) (Pages.prog [.parent (rf 2), .kids [rf 6], .count 1])))
      (.stream (rf 4) [] b!"q\nBT(Hi)Tj\nET\nQ")))

/-- Undoes the compression of the third stream. -/
def sampleUnf : Val → Bytes → Option Bytes
  | .name n, d => if n = b!"FlateDecode" ∧ d = b!"??" then some b!"/G0 gs\nQ" else none
  | _, _ => none

macro "sample_mem" : tactic => `(tactic| simp [samplePages, pdfItems, callItems, chunkItems, chunkPretty, pdfPretty])
macro "sample_ok" : tactic => `(tactic| simp [ItemOk, Page.prog, Page.entries, PageCall.entries, Pages.prog, Pages.entries, PagesCall.entries,
  Catalog.prog, Catalog.entries, CatalogCall.entries, pName, pRef, pText, pInt, Ok, OkItems, OkEntries, PrimOk, NoClash, NoClashItems, NoClashEntries, isEmptyName])

theorem samplePart1_ok : PartWritten sampleUnf (pdfItems samplePages) samplePart1 := by
  refine ⟨⟨⟨rf 4, .stream [] b!"q\nBT(Hi)Tj\nET\nQ", true⟩, ?_, rfl, rfl, ?_⟩, ⟨(runCalls samplePart1.calls (Content.withSettings false)).get (by decide +kernel), ?_, Or.inl ⟨?_, ?_⟩⟩, ?_, Or.inr ?_⟩
  · simp [samplePages, pdfItems, callItems, chunkItems, chunkPretty, pdfPretty]
  · simp [ItemOk, OkEntries, NoClashEntries]
  · simp [samplePart1]
  · simp [NoCall, samplePart1]
  · decide +kernel
  · simp [samplePart1, CallOk, operandsOf, OkItems, Ok, PrimOk]
  · simp [samplePart1, CallNoClash, operandsOf, NoClashItems, NoClash, isEmptyName]

theorem samplePart2_ok : PartWritten sampleUnf (pdfItems samplePages) samplePart2 := by
  refine ⟨⟨⟨rf 7, .stream [] b!"q", false⟩, ?_, rfl, rfl, ?_⟩, ⟨(runCalls samplePart2.calls (Content.withSettings true)).get (by decide +kernel), ?_, Or.inl ⟨?_, ?_⟩⟩, ?_, Or.inl rfl⟩
  · simp [samplePages, pdfItems, callItems, chunkItems, chunkPretty, pdfPretty]
  · simp [ItemOk, OkEntries, NoClashEntries]
  · simp [samplePart2]
  · simp [NoCall, samplePart2]
  · decide +kernel
  · simp [samplePart2, CallOk, operandsOf, OkItems, Ok, PrimOk]

theorem samplePart3_ok : PartWritten sampleUnf (pdfItems samplePages) samplePart3 := by
  refine ⟨⟨⟨rf 8, .stream (Stream.entries [.filter .flateDecode]) b!"??", false⟩, ?_, rfl, rfl, ?_⟩,
    ⟨(runCalls samplePart3.calls (Content.withSettings false)).get (by decide +kernel), ?_, Or.inr ⟨.flateDecode, ?_, ?_⟩⟩, ?_, Or.inr ?_⟩
  · simp [samplePages, pdfItems, callItems, chunkItems, chunkPretty, pdfPretty]
  · simp [ItemOk, Stream.entries, StreamCall.entries, pName, OkEntries, Ok, PrimOk, NoClashEntries, NoClash]
  · simp [samplePart3]
  · rfl
  · decide +kernel
  · simp [samplePart3, CallOk, operandsOf, OkItems, Ok, PrimOk, nam]
  · simp [samplePart3, CallNoClash, operandsOf, NoClashItems, NoClash, isEmptyName, nam]

/-- All hypotheses of the theorems about the document and its tree. -/
theorem samplePages_ok : DocumentWritten sampleUnf samplePages (rf 1) [.lang ['e', 'n'], .pages (rf 2)] sampleTree where
  root := rfl
  catalog := by
    refine ⟨⟨rf 1, .val (Catalog.prog [.lang ['e', 'n'], .pages (rf 2)]), false⟩, ?_, rfl, rfl, ?_⟩
    · simp only [samplePages, pdfItems, callItems, chunkItems, chunkPretty, pdfPretty, Catalog.prog, Catalog.entries]
      simp [pName]
    · sample_ok
  noType := by simp [NoCall, CatalogMeans]
  pages := rfl
  tree := by
    simp only [sampleTree, PageTree.Written, writtenList]
    refine ⟨⟨⟨rf 2, _, false⟩, ?_, rfl, rfl, ?_⟩, ?_, rfl, ⟨⟨⟨rf 9, _, true⟩, ?_, rfl, rfl, ?_⟩, ?_, Or.inl ⟨rfl, ?_⟩, ?_⟩,
      ⟨⟨⟨rf 3, _, true⟩, ?_, rfl, rfl, ?_⟩, ?_, Or.inr (Or.inl ⟨_, rfl, rfl⟩), ?_⟩,
      ⟨⟨⟨rf 5, _, true⟩, ?_, rfl, rfl, ?_⟩, ?_, rfl, ⟨⟨⟨rf 6, _, false⟩, ?_, rfl, rfl, ?_⟩, ?_, Or.inr (Or.inr rfl), ?_⟩, trivial⟩, trivial⟩
    · sample_mem
    · sample_ok
    · simp [NoCall, PagesMeans]
    · sample_mem
    · sample_ok
    · simp [NoCall, PageMeans]
    · simp [NoCall, PageMeans]
    · simp
    · sample_mem
    · sample_ok
    · simp [NoCall, PageMeans]
    · simp only [List.mem_singleton, forall_eq]; exact samplePart1_ok
    · sample_mem
    · sample_ok
    · simp [NoCall, PagesMeans]
    · sample_mem
    · sample_ok
    · simp [NoCall, PageMeans]
    · intro c hc
      simp only [List.mem_cons, List.not_mem_nil, or_false] at hc
      rcases hc with rfl | rfl
      · exact samplePart2_ok
      · exact samplePart3_ok

/-- The file, and what is read from it. -/
example : ∃ p bytes, samplePages.run = some p ∧ p.finish = some bytes ∧ (∀ r ∈ docIds samplePages, r.get < 2147483647) ∧ bytes.length < 10 ^ 10 := by
  refine ⟨samplePages.run.get (by decide +kernel), (samplePages.run.bind fun p => p.finish).get (by decide +kernel), by simp, ?_, ?_, by decide +kernel⟩
  · decide +kernel
  · decide +kernel
example : sampleTree.depth = 3 := rfl
example : ((samplePages.run.bind fun p => p.finish).bind fun b => readDocument sampleUnf b 3).map (·.map fun p => p.ops.map (·.1)) =
    some [[], [b!"q", b!"BT", b!"Tj", b!"ET", b!"Q"], [b!"q", b!"gs", b!"Q"]] := by
  rw [← fastRun_eq]
  decide +kernel

end PdfW.Props
