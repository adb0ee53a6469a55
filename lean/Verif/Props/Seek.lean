import Verif.Proof.Seek
import Verif.Props.Tree
import Verif.Props.Document
import Verif.Proof.ItemOk
import Verif.Props.Annots

set_option linter.unusedSimpArgs false
set_option linter.unusedVariables false

/-!
# C87: a page is found by its number

If every node of the page tree got the number of pages below it with `count`, and every node and page its parent with `parent`,
a reader that uses the counts to enter only one kid of every node finds the same pages under the same numbers as one that goes
through the whole tree, and the parents lead from every page to the root.
-/

namespace PdfW.Props
open PdfW Spec

section
variable (unf : Val → Bytes → Option Bytes) (h : PdfHist) (p : Pdf) (w : Finishing) (bytes : Bytes) (hr : h.run = some p)
  (hf : w.run p = some bytes) (hids : ∀ r ∈ docIds h ++ w.ids, r.get < 2147483647) (hlen : w.Fits p bytes) (hu : w.Undone unf)
  (cid : Ref) (cat : List CatalogCall) (t : PageTree) (hw : DocumentWritten unf h cid cat t) (hc : t.Counted none)
include hr hf hids hlen hu hw hc

theorem pageRoot_read : ∃ f, readFile unf bytes = some f ∧ Finds f bytes (pdfItems h) ∧ pageRoot unf bytes = some (f, t.id.get.toNat) := by
  obtain ⟨f, h1, hfi, hrt⟩ := finds_of hr hf hids hlen hu
  obtain ⟨d, hd, he⟩ := catalog_read hfi (hrt cid hw.root) hw.catalog hw.noType
  refine ⟨f, h1, hfi, ?_⟩
  simp only [pageRoot, h1, hd, Option.bind_some]
  rw [required_eq (IsRef t.id) _ he rfl hw.pages rfl (ref_refNumber _)]
  rfl

/-- C87: the number of pages. -/
theorem C87_page_count : pageCount unf bytes = some t.pages.length := by
  obtain ⟨f, -, hfi, hq⟩ := pageRoot_read unf h p w bytes hr hf hids hlen hu cid cat t hw hc
  simp only [pageCount, hq, Option.bind_some]
  exact pagesBelow_tree hfi t none hw.tree hc

/-- C87: every page is found under its number, with its dictionary, and with its parents. -/
theorem C87_page_by_number (rd : Reading) (hrd : rd = .code ∨ ∀ w ∈ t.pages, w.1.all PageCall.conforming = true) (depth : Nat)
    (hd : t.depth ≤ depth) (k : Nat) (r : Ref × List PageCall × List Ref) (hk : t.routes[k]? = some r) :
    ∃ x, findPage unf bytes depth k = some x ∧ x.number = r.1.get.toNat ∧ IsPage rd r.2.1 (.dict x.dict) ∧
      x.above = r.2.2.map fun r => r.get.toNat := by
  obtain ⟨f, -, hfi, hq⟩ := pageRoot_read unf h p w bytes hr hf hids hlen hu cid cat t hw hc
  have hmem : r ∈ t.routes := List.mem_of_getElem? hk
  obtain ⟨g1, d, g2, g3⟩ := above_tree (m := 0) (up := []) hfi t none rfl hw.tree hc r hmem
  refine ⟨⟨r.1.get.toNat, d, r.2.2.map fun r => r.get.toNat⟩, ?_, rfl, g3 rd ?_, rfl⟩
  · simp only [findPage, hq, Option.bind_some, seek_tree hfi t none depth hd hw.tree hc k, hk, Option.map_some, g2,
      g1 depth (by omega), List.append_nil]
  · refine hrd.imp (fun h => h) (fun h => ?_)
    have : r.2.1 ∈ t.pages.map (·.1) := by rw [← routes_calls]; exact List.mem_map.mpr ⟨r, hmem, rfl⟩
    obtain ⟨q, hq, he⟩ := List.mem_map.mp this
    rw [← he]
    exact h q hq

/-- C87: there is no page with another number. -/
theorem C87_no_other_page (depth : Nat) (hd : t.depth ≤ depth) (k : Nat) (hk : t.pages.length ≤ k) : findPage unf bytes depth k = none := by
  obtain ⟨f, -, hfi, hq⟩ := pageRoot_read unf h p w bytes hr hf hids hlen hu cid cat t hw hc
  simp only [findPage, hq, Option.bind_some, seek_tree hfi t none depth hd hw.tree hc k]
  rw [List.getElem?_eq_none (by rw [routes_length]; exact hk)]
  rfl

/-- C87: the `k`th page found in this way is the `k`th page that a reader of the whole tree finds. -/
theorem C87_same_page (depth : Nat) (hd : t.depth ≤ depth) :
    ∃ ps, readDocument unf bytes depth = some ps ∧ ∀ k, (findPage unf bytes depth k).map (fun x => Val.dict x.dict) = ps[k]?.map ReadPage.dict := by
  obtain ⟨f, h1, hfi, hrt⟩ := finds_of hr hf hids hlen hu
  obtain ⟨f', h1', -, hq⟩ := pageRoot_read unf h p w bytes hr hf hids hlen hu cid cat t hw hc
  rw [h1, Option.some.injEq] at h1'
  subst h1'
  obtain ⟨ps, q1, -⟩ := document_reads (unf := unf) .code hfi (hrt cid hw.root) hw.catalog hw.noType hw.pages depth hd hw.tree (Or.inl rfl)
  obtain ⟨ps', q2, -⟩ := tree_reads (unf := unf) .code hfi t depth hd hw.tree (Or.inl rfl)
  have hsame : ps' = ps := by
    obtain ⟨d, hd, he⟩ := catalog_read hfi (hrt cid hw.root) hw.catalog hw.noType
    have := pages_of_tree hfi (hrt cid hw.root) hw.catalog hw.noType hw.pages depth (unf := unf)
    rw [this, q2, Option.some.injEq] at q1
    exact q1
  subst hsame
  refine ⟨ps', by simp only [readDocument, h1, Option.bind_some, q1], fun k => ?_⟩
  have hs := same_tree hfi t none depth hd hw.tree hc ps' q2
  have hk : (ps'.map (fun x => some x.dict))[k]? = (t.routes.map fun r => (nodeDict f bytes r.1.get.toNat).map Val.dict)[k]? := by rw [hs]
  rw [List.getElem?_map, List.getElem?_map] at hk
  simp only [findPage, hq, Option.bind_some, seek_tree hfi t none depth hd hw.tree hc k]
  cases hr : t.routes[k]? with
  | none =>
    rw [hr] at hk
    cases hp : ps'[k]? with
    | none => rfl
    | some x => rw [hp] at hk; cases hk
  | some r =>
    rw [hr] at hk
    obtain ⟨g1, d, g2, g3⟩ := above_tree (m := 0) (up := []) hfi t none rfl hw.tree hc r (List.mem_of_getElem? hr)
    cases hp : ps'[k]? with
    | none => rw [hp] at hk; cases hk
    | some x =>
      rw [hp] at hk
      simp only [Option.map_some, g2, Option.some.injEq] at hk
      simp only [Option.map_some, Option.bind_some, g2, g1 depth (by omega), hk]
end

/-! ## A document that meets the hypotheses -/

/-- No filters are used. -/
def seekUnf : Val → Bytes → Option Bytes := fun _ _ => none
/-- A page, a node with two pages, and a page. -/
def seekTree : PageTree :=
  .node (rf 2) [.count 4, .kids [rf 3, rf 4, rf 7]]
    [.page (rf 3) [.parent (rf 2), .rotate 90] [],
     .node (rf 4) [.parent (rf 2), .kids [rf 5, rf 6], .count 2] [.page (rf 5) [.parent (rf 4)] [], .page (rf 6) [.rotate 180, .parent (rf 4)] []],
     .page (rf 7) [.parent (rf 2), .rotate 270] []]
def seekCat : List CatalogCall := [.pages (rf 2)]
def seekDoc : PdfHist :=
  .call (.call (.call (.call (.call (.call (.catalog (.new true) (rf 1) (seekCat.flatMap CatalogCall.entries))
    (.indirect (rf 7) (Page.prog [.parent (rf 2), .rotate 270])))
    (.indirect (rf 5) (Page.prog [.parent (rf 4)])))
    (.indirect (rf 6) (Page.prog [.rotate 180, .parent (rf 4)])))
    (.indirect (rf 2) (Pages.prog [.count 4, .kids [rf 3, rf 4, rf 7]])))
    (.indirect (rf 4) (Pages.prog [.parent (rf 2), .kids [rf 5, rf 6], .count 2])))
    (.indirect (rf 3) (Page.prog [.parent (rf 2), .rotate 90]))

/-- An object of the sample document. -/
macro "seek_has" b:term : tactic => `(tactic| refine ⟨⟨_, $b, true⟩,
  by simp [seekDoc, seekCat, pdfItems, callItems, chunkItems, chunkPretty, pdfPretty, Catalog.prog, Catalog.entries, pName], rfl, rfl, itemOkB_sound _ (by decide +kernel)⟩)

theorem seekDoc_ok : DocumentWritten seekUnf seekDoc (rf 1) seekCat seekTree where
  root := rfl
  catalog := by seek_has (.val (Catalog.prog seekCat))
  noType := noCall_keys (calls := seekCat) rfl
  pages := rfl
  tree := by
    simp only [seekTree, PageTree.Written, writtenList]
    refine ⟨by seek_has (.val (Pages.prog [.count 4, .kids [rf 3, rf 4, rf 7]])), by simp [NoCall, PagesMeans], rfl,
      ⟨by seek_has (.val (Page.prog [.parent (rf 2), .rotate 90])), by simp [NoCall, PageMeans], Or.inl ⟨rfl, by simp [NoCall, PageMeans]⟩, by simp⟩,
      ⟨by seek_has (.val (Pages.prog [.parent (rf 2), .kids [rf 5, rf 6], .count 2])), by simp [NoCall, PagesMeans], rfl,
        ⟨by seek_has (.val (Page.prog [.parent (rf 4)])), by simp [NoCall, PageMeans], Or.inl ⟨rfl, by simp [NoCall, PageMeans]⟩, by simp⟩,
        ⟨by seek_has (.val (Page.prog [.rotate 180, .parent (rf 4)])), by simp [NoCall, PageMeans], Or.inl ⟨rfl, by simp [NoCall, PageMeans]⟩, by simp⟩, trivial⟩,
      ⟨by seek_has (.val (Page.prog [.parent (rf 2), .rotate 270])), by simp [NoCall, PageMeans], Or.inl ⟨rfl, by simp [NoCall, PageMeans]⟩, by simp⟩, trivial⟩

theorem seekTree_counted : seekTree.Counted none := by
  simp only [seekTree, PageTree.Counted, countedList, pagesList, PageTree.pages]
  exact ⟨by simp [MaybeCall, NoCall, PagesMeans], rfl, rfl, ⟨rfl, rfl, rfl, rfl, trivial⟩, rfl, trivial⟩

/-- All hypotheses are met, and what the theorems say. -/
example (p : Pdf) (w : Finishing) (bytes : Bytes) (hr : seekDoc.run = some p) (hf : w.run p = some bytes) (hids : ∀ r ∈ docIds seekDoc ++ w.ids, r.get < 2147483647)
    (hlen : w.Fits p bytes) (hu : w.Undone seekUnf) :
    pageCount seekUnf bytes = some 4 ∧ (∃ x, findPage seekUnf bytes 3 2 = some x ∧ x.number = 6 ∧ x.above = [4, 2]) ∧ findPage seekUnf bytes 3 4 = none := by
  refine ⟨C87_page_count seekUnf seekDoc p w bytes hr hf hids hlen hu (rf 1) seekCat seekTree seekDoc_ok seekTree_counted, ?_,
    C87_no_other_page seekUnf seekDoc p w bytes hr hf hids hlen hu (rf 1) seekCat seekTree seekDoc_ok seekTree_counted 3 (by decide +kernel) 4 (by decide +kernel)⟩
  obtain ⟨x, h1, h2, -, h3⟩ := C87_page_by_number seekUnf seekDoc p w bytes hr hf hids hlen hu (rf 1) seekCat seekTree seekDoc_ok seekTree_counted .code (Or.inl rfl) 3
    (by decide +kernel) 2 (rf 6, [.rotate 180, .parent (rf 4)], [rf 4, rf 2]) rfl
  exact ⟨x, h1, h2, h3⟩

/-- The file is short enough, and the reader finds the pages in it. -/
example : (seekDoc.run.bind fun p => p.finish.bind fun b => if b.length < 10 ^ 10 then
    (pageCount seekUnf b).map fun n => (n, (List.range 5).map fun k => (findPage seekUnf b 3 k).map fun x => (x.number, x.above)) else none) =
    some (4, [some (3, [2]), some (5, [4, 2]), some (6, [4, 2]), some (7, [2]), none]) := by
  rw [← fastRun_eq]
  decide +kernel

end PdfW.Props
