import Verif.Proof.Labels
import Verif.Proof.Fast
import Verif.Props.Attach

set_option linter.unusedSimpArgs false
set_option linter.unusedVariables false

/-!
# C58: page labels

End to end: from the bytes of the finished file a reader obtains for every page the label that the calls ask for, as text.
-/

namespace PdfW.Props
open PdfW Spec

/-- C58. -/
theorem C58_page_labels (unf : Val → Bytes → Option Bytes) (h : PdfHist) (p : Pdf) (w : Finishing) (bytes : Bytes) (hr : h.run = some p)
    (hf : w.run p = some bytes) (hids : ∀ r ∈ docIds h ++ w.ids, r.get < 2147483647) (hlen : w.Fits p bytes) (hu : w.Undone unf)
    (cid : Ref) (cat : List CatalogCall) (t : PageTree) (hw : DocumentWritten unf h cid cat t) (depth : Nat) (hd : t.depth ≤ depth)
    (tree : Tree NumberTreeCall Int) (ho : OnlyCall (CatalogMeans .code) b!"PageLabels" cat (.pageLabels tree.calls))
    (ht : tree.Linked numberApi b!"Nums" (pdfItems h)) (treeDepth : Nat) (htd : tree.depth ≤ treeDepth)
    (gs : List GivenRange) (hg : ∀ g ∈ gs, g.Written (pdfItems h)) (hp : tree.pairs = gs.map fun g => (g.first, .ref g.id))
    (labels : List (List Char)) (hn : labels.length = t.ids.length) (hl : ∀ i, (hi : i < labels.length) → HasLabel gs i labels[i]) :
    fileLabels unf bytes depth treeDepth = some labels := by
  obtain ⟨f, q1, hfi, hrt⟩ := finds_of hr hf hids hlen hu
  obtain ⟨d, q2, he⟩ := catalog_read hfi (hrt cid hw.root) hw.catalog hw.noType
  obtain ⟨v, q3, hv⟩ := lookup_of he (k := b!"Pages") (P := IsRef t.id) (by
    simp only [CatalogEntries, List.filter_append, onlyCall_filter hw.pages]; rfl)
  simp only [IsRef] at hv
  subst hv
  obtain ⟨v, q4, td, rfl, htd'⟩ := lookup_of he (k := b!"PageLabels") (P := IsNumberTree tree.calls) (by
    simp only [CatalogEntries, List.filter_append, onlyCall_filter ho]; rfl)
  have q5 := tree_numbers (unf := unf) hfi t depth hd hw.tree
  obtain ⟨rs, q6, q7⟩ := tree_list numberTree_ok hfi tree ht treeDepth htd td htd'
  have q6 : listTree b!"Nums" intOf f bytes treeDepth td = some rs := q6
  rw [hp] at q7
  have q8 := ranges_read hfi gs hg rs q7
  have q9 := labels_read gs labels 0 (t.leaves.map fun e => e.1.get.toNat).length (by simpa [PageTree.ids] using hn)
    (fun i hi => by simpa using hl i hi)
  simp only [fileLabels, q1, q2, q3, q4, q5, q6, q8, followDict, followRef, Option.bind_some]
  rw [List.range_eq_range', q9]

/-! ## A document that meets the hypotheses -/

def labelTree : Tree NumberTreeCall Int :=
  .node (rf 99) [.kids [rf 10, rf 11]] 0 0
    [.leaf (rf 10) [.limits 0 2, .nums [(0, .ref (rf 20)), (2, .ref (rf 21))]] 0 2 [(0, .ref (rf 20)), (2, .ref (rf 21))],
     .leaf (rf 11) [.nums [(4, .ref (rf 22))], .limits 4 4] 4 4 [(4, .ref (rf 22))]]
def labelCat : List CatalogCall := [.pageLabels labelTree.calls, .pages (rf 2)]
def labelPages : PageTree := .node (rf 2) [.kids [rf 3, rf 4, rf 5, rf 6, rf 7], .count 5]
  [.page (rf 3) [] [], .page (rf 4) [] [], .page (rf 5) [] [], .page (rf 6) [] [], .page (rf 7) [] []]
/-- Lower-case roman numerals, then decimal numbers from 9 on with a prefix, then only a prefix. -/
def labelRanges : List GivenRange :=
  [⟨0, rf 20, [.style .lowerRoman], some .lowerRoman, none, none⟩,
   ⟨2, rf 21, [.prefix (.plain ['A', '-']), .offset 9, .style .arabic], some .arabic, some ['A', '-'], some 9⟩,
   ⟨4, rf 22, [.prefix (.plain ['ä'])], none, some ['ä'], none⟩]

def labelDoc : PdfHist :=
  .call (.call (.call (.call (.call (.call (.call (.call (.call (.call (.call (.catalog (.new true) (rf 1) (labelCat.flatMap CatalogCall.entries))
    (.indirect (rf 2) (Pages.prog [.kids [rf 3, rf 4, rf 5, rf 6, rf 7], .count 5])))
    (.indirect (rf 3) (Page.prog [])))
    (.indirect (rf 4) (Page.prog [])))
    (.indirect (rf 5) (Page.prog [])))
    (.indirect (rf 6) (Page.prog [])))
    (.indirect (rf 7) (Page.prog [])))
    (.indirect (rf 10) (NumberTree.prog [.limits 0 2, .nums [(0, .ref (rf 20)), (2, .ref (rf 21))]])))
    (.indirect (rf 11) (NumberTree.prog [.nums [(4, .ref (rf 22))], .limits 4 4])))
    (.indirect (rf 20) (PageLabel.prog [.style .lowerRoman])))
    (.indirect (rf 21) (PageLabel.prog [.prefix (.plain ['A', '-']), .offset 9, .style .arabic])))
    (.indirect (rf 22) (PageLabel.prog [.prefix (.plain ['ä'])]))

/-- An object of the sample document. -/
macro "label_has" b:term : tactic => `(tactic| refine ⟨⟨_, $b, true⟩,
  by simp [labelDoc, pdfItems, callItems, chunkItems, chunkPretty, pdfPretty], rfl, rfl,
  by
    simp [ItemOk, NumberTree.prog, NumberTree.entries, NumberTreeCall.entries, Page.prog, Page.entries, PageCall.entries, Pages.prog, Pages.entries,
      PagesCall.entries, PageLabel.prog, PageLabel.entries, PageLabelCall.entries, TextLike.prog,
      pStr, pName, pRef, pText, pInt, pReal, Ok, OkItems, OkEntries, PrimOk, NoClash, NoClashItems, NoClashEntries, isEmptyName] <;> decide⟩)

theorem labelDoc_ok : DocumentWritten (fun _ _ => none) labelDoc (rf 1) labelCat labelPages where
  root := rfl
  catalog := by
    refine ⟨⟨rf 1, .val (Catalog.prog labelCat), true⟩, ?_, rfl, rfl, ?_⟩
    · simp only [labelDoc, pdfItems, callItems, chunkItems, chunkPretty, pdfPretty, Catalog.prog, Catalog.entries]
      simp [pName]
    · simp only [labelCat, labelTree, Tree.calls]
      simp [ItemOk, Catalog.prog, Catalog.entries, CatalogCall.entries, NumberTree.prog, NumberTree.entries, NumberTreeCall.entries, pName, pRef,
        Ok, OkItems, OkEntries, PrimOk, NoClash, NoClashItems, NoClashEntries, isEmptyName]
  noType := by simp [NoCall, CatalogMeans, labelCat]
  pages := rfl
  tree := by
    simp only [labelPages, PageTree.Written, writtenList]
    refine ⟨?_, ?_, rfl, ⟨?_, ?_, Or.inl ⟨rfl, ?_⟩, by simp⟩, ⟨?_, ?_, Or.inl ⟨rfl, ?_⟩, by simp⟩, ⟨?_, ?_, Or.inl ⟨rfl, ?_⟩, by simp⟩,
      ⟨?_, ?_, Or.inl ⟨rfl, ?_⟩, by simp⟩, ⟨?_, ?_, Or.inl ⟨rfl, ?_⟩, by simp⟩, trivial⟩
    · label_has (.val (Pages.prog [.kids [rf 3, rf 4, rf 5, rf 6, rf 7], .count 5]))
    · simp [NoCall, PagesMeans]
    all_goals first | label_has (.val (Page.prog [])) | simp [NoCall, PageMeans]

theorem labelTree_ok : labelTree.Linked numberApi b!"Nums" (pdfItems labelDoc) := by
  simp only [labelTree, Tree.Linked, treesLinked]
  refine ⟨?_, rfl, ?_, rfl, ?_, rfl, trivial⟩
  · simp [NoCall, numberApi, NumberTreeMeans]
  · label_has (.val (NumberTree.prog [.limits 0 2, .nums [(0, .ref (rf 20)), (2, .ref (rf 21))]]))
  · label_has (.val (NumberTree.prog [.nums [(4, .ref (rf 22))], .limits 4 4]))

theorem labelRanges_ok : ∀ g ∈ labelRanges, g.Written (pdfItems labelDoc) := by
  intro g hg
  simp only [labelRanges, List.mem_cons, List.not_mem_nil, or_false] at hg
  rcases hg with rfl | rfl | rfl
  · exact ⟨by label_has (.val (PageLabel.prog [.style .lowerRoman])), rfl, by simp [MaybeCall, NoCall, PageLabelMeans],
      by simp [MaybeCall, NoCall, PageLabelMeans]⟩
  · exact ⟨by label_has (.val (PageLabel.prog [.prefix (.plain ['A', '-']), .offset 9, .style .arabic])), rfl, rfl, rfl⟩
  · exact ⟨by label_has (.val (PageLabel.prog [.prefix (.plain ['ä'])])), by simp [MaybeCall, NoCall, PageLabelMeans], rfl,
      by simp [MaybeCall, NoCall, PageLabelMeans]⟩

def labelTexts : List (List Char) := [['i'], ['i', 'i'], ['A', '-', '9'], ['A', '-', '1', '0'], ['ä']]

theorem labelTexts_ok : ∀ i, (hi : i < labelTexts.length) → HasLabel labelRanges i labelTexts[i] := by
  intro i hi
  have : i = 0 ∨ i = 1 ∨ i = 2 ∨ i = 3 ∨ i = 4 := by simp only [labelTexts, List.length_cons, List.length_nil] at hi; omega
  rcases this with rfl | rfl | rfl | rfl | rfl
  · exact ⟨[], _, _, rfl, by decide, by decide, by decide +revert⟩
  · exact ⟨[], _, _, rfl, by decide, by decide, by decide +revert⟩
  · exact ⟨[_], _, _, rfl, by decide, by decide, by decide +revert⟩
  · exact ⟨[_], _, _, rfl, by decide, by decide, by decide +revert⟩
  · exact ⟨[_, _], _, _, rfl, by decide, by decide, by decide +revert⟩

/-- The remaining hypotheses. -/
example : labelPages.depth = 2 ∧ labelTree.depth = 2 ∧ labelTexts.length = labelPages.ids.length ∧
    labelTree.pairs = labelRanges.map (fun g => (g.first, .ref g.id)) := ⟨rfl, rfl, rfl, rfl⟩
example : OnlyCall (CatalogMeans .code) b!"PageLabels" labelCat (.pageLabels labelTree.calls) := rfl
example : ∀ r ∈ docIds labelDoc, r.get < 2147483647 := by decide +kernel

/-- The file can be finished and is short enough, and this is read from it. -/
example : ((labelDoc.run.bind fun p => p.finish).bind fun b => if b.length < 10 ^ 10 then fileLabels (fun _ _ => none) b 2 2 else none) =
    some labelTexts := by
  rw [← fastRun_eq]
  decide +kernel

end PdfW.Props
