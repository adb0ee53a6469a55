import Verif.Proof.Attach
import Verif.Proof.Fast
import Verif.Props.Navigate

set_option linter.unusedSimpArgs false
set_option linter.unusedVariables false

/-!
# C57: attached files

End to end: typed writers for the catalog, name dictionaries, name trees, file specifications and embedded files, streams, object
layout, cross-reference section and trailer together. Whatever document was written, a reader that is given only the bytes of the
finished file obtains the attached files in order, with their names, descriptions, types and data.

Also: all pairs of a name tree or number tree over several nodes can be listed in order. Unlike looking up a name (C50), this is not
affected by the limits that `NameTree::limits` writes as names.
-/

namespace PdfW.Props
open PdfW Spec

section
variable (unf : Val → Bytes → Option Bytes) (h : PdfHist) (p : Pdf) (w : Finishing) (bytes : Bytes) (hr : h.run = some p)
  (hf : w.run p = some bytes) (hids : ∀ r ∈ docIds h ++ w.ids, r.get < 2147483647) (hlen : w.Fits p bytes) (hu : w.Undone unf)
include hr hf hids hlen hu

/-- C57: listing a number tree. -/
theorem C57_number_tree_list (t : Tree NumberTreeCall Int) (hroot : HasObject (pdfItems h) t.id (.val (NumberTree.prog t.calls)))
    (hw : t.Linked numberApi b!"Nums" (pdfItems h)) (depth : Nat) (hd : t.depth ≤ depth) :
    ∃ f d rs, readFile unf bytes = some f ∧ f.object bytes t.id.get.toNat = some (.val (.dict d)) ∧
      listTree b!"Nums" intOf f bytes depth d = some rs ∧ PairsMean t.pairs rs := by
  obtain ⟨f, h1, hfi, -⟩ := finds_of hr hf hids hlen hu
  obtain ⟨v, ho, hv⟩ := finds_val hfi hroot
  obtain ⟨d, rfl, he⟩ := numberTree_denotes t.calls v hv
  obtain ⟨rs, h2, h3⟩ := tree_list numberTree_ok hfi t hw depth hd d he
  exact ⟨f, d, rs, h1, ho, h2, h3⟩

/-- C57: listing a name tree. -/
theorem C57_name_tree_list (t : Tree NameTreeCall Bytes) (hroot : HasObject (pdfItems h) t.id (.val (NameTree.prog t.calls)))
    (hw : t.Linked nameApi b!"Names" (pdfItems h)) (depth : Nat) (hd : t.depth ≤ depth) :
    ∃ f d rs, readFile unf bytes = some f ∧ f.object bytes t.id.get.toNat = some (.val (.dict d)) ∧
      listTree b!"Names" strOf f bytes depth d = some rs ∧ PairsMean t.pairs rs := by
  obtain ⟨f, h1, hfi, -⟩ := finds_of hr hf hids hlen hu
  obtain ⟨v, ho, hv⟩ := finds_val hfi hroot
  obtain ⟨d, rfl, he⟩ := nameTree_denotes .code t.calls (Or.inl rfl) v hv
  obtain ⟨rs, h2, h3⟩ := tree_list nameTree_ok hfi t hw depth hd d he
  exact ⟨f, d, rs, h1, ho, h2, h3⟩

/-- C57: the attached files. -/
theorem C57_attachments (cid : Ref) (hc : catalogId h = some cid) (cat : List CatalogCall)
    (hcat : HasObject (pdfItems h) cid (.val (Catalog.prog cat))) (hn : NoCall (CatalogMeans .code) b!"Type" cat)
    (names : List NamesCall) (h1 : OnlyCall (CatalogMeans .code) b!"Names" cat (.names names))
    (t : Tree NameTreeCall Bytes) (h2 : OnlyCall (NamesMeans .code) b!"EmbeddedFiles" names (.embeddedFiles t.calls))
    (hw : t.Linked nameApi b!"Names" (pdfItems h)) (depth : Nat) (hd : t.depth ≤ depth)
    (gs : List GivenFile) (hg : ∀ g ∈ gs, g.Written unf (pdfItems h)) (hp : t.pairs = gs.map fun g => (g.key, .ref g.id)) :
    fileAttachments unf bytes depth = some (gs.map GivenFile.wanted) := by
  obtain ⟨f, q1, hfi, hrt⟩ := finds_of hr hf hids hlen hu
  obtain ⟨d, q2, he⟩ := catalog_read hfi (hrt cid hc) hcat hn
  obtain ⟨v, q3, nd, rfl, hnd⟩ := lookup_of he (k := b!"Names") (P := IsNames .code names) (by
    simp only [CatalogEntries, List.filter_append, onlyCall_filter h1]; rfl)
  obtain ⟨v, q4, td, rfl, htd⟩ := lookup_of hnd (k := b!"EmbeddedFiles") (P := IsNameTree .code t.calls) (by
    simp only [NamesEntries, onlyCall_filter h2]; rfl)
  obtain ⟨rs, q5, q6⟩ := tree_list nameTree_ok hfi t hw depth hd td htd
  have q5 : listTree b!"Names" strOf f bytes depth td = some rs := q5
  rw [hp] at q6
  simp only [fileAttachments, q1, q2, q3, q4, followDict, followRef, Option.bind_some, q5]
  exact attachments_read hfi gs hg rs q6

end

/-! ## A document that meets the hypotheses -/

/-- A name tree: the root is part of the catalog, with two leaves below it. -/
def attachTree : Tree NameTreeCall Bytes :=
  .node (rf 99) [.kids [rf 5, rf 6]] [] []
    [.leaf (rf 5) [.limits b!"a" b!"b", .names [(b!"a", .ref (rf 10)), (b!"b", .ref (rf 11))]] b!"a" b!"b" [(b!"a", .ref (rf 10)), (b!"b", .ref (rf 11))],
     .leaf (rf 6) [.names [(b!"c", .ref (rf 12))], .limits b!"c" b!"c"] b!"c" b!"c" [(b!"c", .ref (rf 12))]]
def attachNames : List NamesCall := [.embeddedFiles attachTree.calls]
def attachCat : List CatalogCall := [.pages (rf 2), .names attachNames]

def attachFiles : List GivenFile :=
  [⟨b!"a", rf 10, [.path b!"a.txt", .unicFile ['ä'], .embeddedFileWithUnicode (rf 20), .associationKind .data], some ['ä'], some b!"a.txt", none,
     some .data, rf 20, true, [.subtype b!"text/plain"], some b!"text/plain", b!"endstream", b!"endstream"⟩,
   ⟨b!"b", rf 11, [.embeddedFile (rf 21), .description (.plain ['d'])], none, none, some ['d'], none, rf 21, false,
     [.stream (.filter .flateDecode), .params [.size 3]], none, b!"??", b!"xyz"⟩,
   ⟨b!"c", rf 12, [.path b!"", .embeddedFile (rf 20)], none, some b!"", none, none, rf 20, false, [.subtype b!"text/plain"],
     some b!"text/plain", b!"endstream", b!"endstream"⟩]

def attachDoc : PdfHist :=
  .call (.call (.call (.call (.call (.call (.call (.catalog (.new false) (rf 1) (attachCat.flatMap CatalogCall.entries))
    (.indirect (rf 5) (NameTree.prog [.limits b!"a" b!"b", .names [(b!"a", .ref (rf 10)), (b!"b", .ref (rf 11))]])))
    (.indirect (rf 6) (NameTree.prog [.names [(b!"c", .ref (rf 12))], .limits b!"c" b!"c"])))
    (.indirect (rf 10) (FileSpec.prog [.path b!"a.txt", .unicFile ['ä'], .embeddedFileWithUnicode (rf 20), .associationKind .data])))
    (.indirect (rf 11) (FileSpec.prog [.embeddedFile (rf 21), .description (.plain ['d'])])))
    (.indirect (rf 12) (FileSpec.prog [.path b!"", .embeddedFile (rf 20)])))
    (.stream (rf 20) (EmbeddedFile.entries [.subtype b!"text/plain"]) b!"endstream"))
    (.stream (rf 21) (EmbeddedFile.entries [.stream (.filter .flateDecode), .params [.size 3]]) b!"??")

/-- Undoes the compression of the second file. -/
def attachUnf : Val → Bytes → Option Bytes
  | .name n, d => if n = b!"FlateDecode" ∧ d = b!"??" then some b!"xyz" else none
  | _, _ => none

/-- An object of the sample document. -/
macro "attach_has" b:term : tactic => `(tactic| refine ⟨⟨_, $b, false⟩,
  by simp [attachDoc, pdfItems, callItems, chunkItems, chunkPretty, pdfPretty], rfl, rfl,
  by
    simp [ItemOk, NameTree.prog, NameTree.entries, NameTreeCall.entries, FileSpec.prog, FileSpec.entries, FileSpecCall.entries, EmbeddedFile.entries,
      EmbeddedFileCall.entries, EmbeddingParams.prog, EmbeddingParams.entries, EmbeddingParamsCall.entries, StreamCall.entries, TextLike.prog,
      pStr, pName, pRef, pText, pInt, pReal, Ok, OkItems, OkEntries, PrimOk, NoClash, NoClashItems, NoClashEntries, isEmptyName] <;> decide⟩)

theorem attachTree_ok : attachTree.Linked nameApi b!"Names" (pdfItems attachDoc) := by
  simp only [attachTree, Tree.Linked, treesLinked]
  refine ⟨?_, rfl, ?_, rfl, ?_, rfl, trivial⟩
  · simp [NoCall, nameApi, NameTreeMeans]
  · attach_has (.val (NameTree.prog [.limits b!"a" b!"b", .names [(b!"a", .ref (rf 10)), (b!"b", .ref (rf 11))]]))
  · attach_has (.val (NameTree.prog [.names [(b!"c", .ref (rf 12))], .limits b!"c" b!"c"]))

theorem attachCat_ok : HasObject (pdfItems attachDoc) (rf 1) (.val (Catalog.prog attachCat)) := by
  refine ⟨⟨rf 1, .val (Catalog.prog attachCat), false⟩, ?_, rfl, rfl, ?_⟩
  · simp only [attachDoc, pdfItems, callItems, chunkItems, chunkPretty, pdfPretty, Catalog.prog, Catalog.entries]
    simp [pName]
  · simp only [attachCat, attachNames, attachTree, Tree.calls]
    simp [ItemOk, Catalog.prog, Catalog.entries, CatalogCall.entries, Names.prog, Names.entries, NamesCall.entries, NameTree.prog, NameTree.entries,
      NameTreeCall.entries, pName, pRef, Ok, OkItems, OkEntries, PrimOk, NoClash, NoClashItems, NoClashEntries, isEmptyName]

theorem attachFiles_ok : ∀ g ∈ attachFiles, g.Written attachUnf (pdfItems attachDoc) := by
  intro g hg
  simp only [attachFiles, List.mem_cons, List.not_mem_nil, or_false] at hg
  rcases hg with rfl | rfl | rfl
  · exact ⟨by attach_has (.val (FileSpec.prog [.path b!"a.txt", .unicFile ['ä'], .embeddedFileWithUnicode (rf 20), .associationKind .data])),
      rfl, rfl, by simp [MaybeCall, NoCall, FileSpecMeans], rfl, rfl,
      by attach_has (.stream (EmbeddedFile.entries [.subtype b!"text/plain"]) b!"endstream"), rfl, Or.inl ⟨by simp [NoCall, EmbeddedFileMeans], rfl⟩⟩
  · exact ⟨by attach_has (.val (FileSpec.prog [.embeddedFile (rf 21), .description (.plain ['d'])])),
      by simp [MaybeCall, NoCall, FileSpecMeans], by simp [MaybeCall, NoCall, FileSpecMeans], rfl, by simp [MaybeCall, NoCall, FileSpecMeans], rfl,
      by attach_has (.stream (EmbeddedFile.entries [.stream (.filter .flateDecode), .params [.size 3]]) b!"??"),
      by simp [MaybeCall, NoCall, EmbeddedFileMeans, StreamMeans], Or.inr ⟨.flateDecode, rfl, rfl⟩⟩
  · exact ⟨by attach_has (.val (FileSpec.prog [.path b!"", .embeddedFile (rf 20)])),
      by simp [MaybeCall, NoCall, FileSpecMeans], rfl, by simp [MaybeCall, NoCall, FileSpecMeans], by simp [MaybeCall, NoCall, FileSpecMeans], rfl,
      by attach_has (.stream (EmbeddedFile.entries [.subtype b!"text/plain"]) b!"endstream"), rfl, Or.inl ⟨by simp [NoCall, EmbeddedFileMeans], rfl⟩⟩

/-- Trees with limits (see C50) meet the hypothesis, too. -/
example : sampleNums.Linked numberApi b!"Nums" (pdfItems sampleNumsDoc) := linked_of_written _ sampleNums_ok

/-- A number tree whose root is an object. -/
def listNums : Tree NumberTreeCall Int :=
  .node (rf 3) [.kids [rf 4]] 0 0 [.leaf (rf 4) [.nums [(7, .int 70), (-2, .null), (7, .int 71)]] 0 0 [(7, .int 70), (-2, .null), (7, .int 71)]]
def listDoc : PdfHist := .call (.call (.new true) (.indirect (rf 3) (NumberTree.prog [.kids [rf 4]])))
  (.indirect (rf 4) (NumberTree.prog [.nums [(7, .int 70), (-2, .null), (7, .int 71)]]))
macro "list_has" b:term : tactic => `(tactic| refine ⟨⟨_, $b, true⟩,
  by simp [listDoc, pdfItems, callItems, chunkItems, chunkPretty, pdfPretty], rfl, rfl,
  by
    simp [ItemOk, NumberTree.prog, NumberTree.entries, NumberTreeCall.entries,
      pStr, pName, pRef, pText, pInt, pReal, Ok, OkItems, OkEntries, PrimOk, NoClash, NoClashItems, NoClashEntries, isEmptyName] <;> decide⟩)
example : HasObject (pdfItems listDoc) listNums.id (.val (NumberTree.prog listNums.calls)) ∧ listNums.Linked numberApi b!"Nums" (pdfItems listDoc) := by
  simp only [listNums, Tree.Linked, treesLinked, Tree.id, Tree.calls]
  refine ⟨?_, ?_, rfl, ?_, rfl, trivial⟩
  · list_has (.val (NumberTree.prog [.kids [rf 4]]))
  · simp [NoCall, numberApi, NumberTreeMeans]
  · list_has (.val (NumberTree.prog [.nums [(7, .int 70), (-2, .null), (7, .int 71)]]))

/-- The remaining hypotheses. -/
example : catalogId attachDoc = some (rf 1) ∧ attachTree.depth = 2 ∧ (attachTree.pairs = attachFiles.map fun g => (g.key, .ref g.id)) := ⟨rfl, rfl, rfl⟩
example : OnlyCall (CatalogMeans .code) b!"Names" attachCat (.names attachNames) ∧
    OnlyCall (NamesMeans .code) b!"EmbeddedFiles" attachNames (.embeddedFiles attachTree.calls) := ⟨rfl, rfl⟩
example : NoCall (CatalogMeans .code) b!"Type" attachCat := by simp [NoCall, CatalogMeans, attachCat]
example : ∀ r ∈ docIds attachDoc, r.get < 2147483647 := by decide +kernel

/-- The file can be finished and is short enough, and this is read from it. -/
example : ((attachDoc.run.bind fun p => p.finish).bind fun b => if b.length < 10 ^ 10 then fileAttachments attachUnf b 2 else none) =
    some [⟨b!"a", some ['ä'], some b!"a.txt", none, some b!"Data", some b!"text/plain", b!"endstream"⟩,
      ⟨b!"b", none, none, some ['d'], none, none, b!"xyz"⟩, ⟨b!"c", none, some b!"", none, none, some b!"text/plain", b!"endstream"⟩] := by
  rw [← fastRun_eq]
  decide +kernel

end PdfW.Props
