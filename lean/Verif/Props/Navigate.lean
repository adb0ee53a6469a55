import Verif.Proof.Navigate
import Verif.Proof.Fast
import Verif.Props.Tree
import Verif.Props.Document

set_option linter.unusedSimpArgs false
set_option linter.unusedVariables false

/-!
# C56: the outline and the links of a document

End to end: typed writers for the catalog, pages, outlines, outline items, destinations, annotations and actions, object layout,
cross-reference section and trailer together. Whatever document was written, a reader that is given only the bytes of the finished
file obtains the outline as a tree of titles with the numbers and views of the pages they lead to, and the links of every page.
-/

namespace PdfW.Props
open PdfW Spec

section
variable (unf : Val → Bytes → Option Bytes) (h : PdfHist) (p : Pdf) (w : Finishing) (bytes : Bytes) (hr : h.run = some p)
  (hf : w.run p = some bytes) (hids : ∀ r ∈ docIds h ++ w.ids, r.get < 2147483647) (hlen : w.Fits p bytes) (hu : w.Undone unf)
  (cid : Ref) (cat : List CatalogCall) (t : PageTree) (hw : DocumentWritten unf h cid cat t) (hdests : DestsSet (pdfItems h) cat)
  (depth : Nat) (hd : t.depth ≤ depth)
include hr hf hids hlen hu hw hdests hd

/-- C56: the outline. -/
theorem C56_outline (oid : Ref) (calls : List OutlineCall) (ts : List OutlineTree) (ho : OutlineWritten (pdfItems h) cat t.ids oid calls ts)
    (fuel : Nat) (hs : outlinesSize ts ≤ fuel) : ∃ rs, fileOutline unf bytes depth fuel = some rs ∧ outlinesMean t.ids ts rs := by
  obtain ⟨f, h1, hfi, hrt⟩ := finds_of hr hf hids hlen hu
  obtain ⟨d, h2, he⟩ := catalog_read hfi (hrt cid hw.root) hw.catalog hw.noType
  obtain ⟨nav, h3, hnav⟩ := navigator_read (unf := unf) hfi he hw.pages depth hd hw.tree hdests
  obtain ⟨rs, h4, h5⟩ := outlines_read hfi hnav he ho fuel hs
  exact ⟨rs, by simp only [fileOutline, h1, h2, h3, h4, Option.bind_some], h5⟩

/-- C56: a document without an outline. -/
theorem C56_no_outline (ho : NoCall (CatalogMeans .code) b!"Outlines" cat) (fuel : Nat) : fileOutline unf bytes depth fuel = some [] := by
  obtain ⟨f, h1, hfi, hrt⟩ := finds_of hr hf hids hlen hu
  obtain ⟨d, h2, he⟩ := catalog_read hfi (hrt cid hw.root) hw.catalog hw.noType
  obtain ⟨nav, h3, hnav⟩ := navigator_read (unf := unf) hfi he hw.pages depth hd hw.tree hdests
  have : optionalEntry b!"Outlines" d refNumber = some none := optional_absent he (by
    simp only [CatalogEntries, List.filter_append, noCall_filter ho]
    rfl)
  simp only [fileOutline, h1, h2, h3, readOutlines, this, Option.bind_some]

/-- C56: the links, page by page and in order. -/
theorem C56_links (parts : List (List AnnotPart)) (ha : Pairwise (fun e as => PageAnnots (pdfItems h) cat t.ids e.2 as) t.leaves parts) :
    ∃ rs, fileLinks unf bytes depth = some rs ∧ Pairwise (fun as rs => Pairwise (LinkMeans t.ids) (linksOf as) rs) parts rs := by
  obtain ⟨f, h1, hfi, hrt⟩ := finds_of hr hf hids hlen hu
  obtain ⟨d, h2, he⟩ := catalog_read hfi (hrt cid hw.root) hw.catalog hw.noType
  obtain ⟨nav, h3, hnav⟩ := navigator_read (unf := unf) hfi he hw.pages depth hd hw.tree hdests
  obtain ⟨rs, h4, h5⟩ := allLinks_read hfi hnav t.leaves parts (leaves_written (unf := unf) t hw.tree) ha
  refine ⟨rs, ?_, h5⟩
  have : nav.pages = t.leaves.map fun e => e.1.get.toNat := by rw [hnav.pages]; simp [PageTree.ids, List.map_map, Function.comp_def]
  simp only [fileLinks, h1, h2, h3, this, h4, Option.bind_some]

end

/-! ## A document that meets the hypotheses -/

def navCat : List CatalogCall := [.outlines (rf 20), .pages (rf 2), .destinations (rf 30)]
def navPage1 : List PageCall := [.parent (rf 2), .annotations [rf 10, rf 11, rf 12]]
def navTree : PageTree := .node (rf 2) [.kids [rf 3, rf 4], .count 2] [.page (rf 3) navPage1 [], .page (rf 4) [.parent (rf 2)] []]

/-- A named destination: the second page. -/
def navChap : List DestinationCall := [.page (rf 4), .xyz F32.zero F32.zero none]
def navDests : List (Bytes × Prog) := [(b!"intro", Destination.prog [.page (rf 3), .fit]), (b!"chap", Destination.prog navChap)]

def navItem1 : List OutlineItemCall :=
  [.title (.plain ['A']), .parent (rf 20), .next (rf 22), .first (rf 23), .last (rf 23), .count (-1), .dest [.page (rf 3), .fitHorizontal F32.zero]]
def navItem2 : List OutlineItemCall := [.title (.plain [Char.ofNat 0x1F600]), .parent (rf 20), .prev (rf 21), .flags [.bold]]
def navItem3 : List OutlineItemCall := [.title (.plain []), .parent (rf 21), .colorRgb F32.zero F32.zero F32.zero, .destName b!"chap"]
def navOutline : List OutlineTree :=
  [.item (rf 21) navItem1 ['A'] (some (-1)) (some ⟨rf 3, [.fitHorizontal F32.zero], none⟩) ⟨none, none⟩
     [.item (rf 23) navItem3 [] none (some ⟨rf 4, [.xyz F32.zero F32.zero none], some b!"chap"⟩) ⟨some (F32.zero, F32.zero, F32.zero), none⟩ []],
   .item (rf 22) navItem2 [Char.ofNat 0x1F600] none none ⟨none, some [.bold]⟩ []]
def navOutlineCalls : List OutlineCall := [.first (rf 21), .last (rf 22), .count 2]

def navRect : Rect := ⟨F32.zero, F32.zero, F32.zero, F32.zero⟩
def navAct1 : List ActionCall := [.actionType .goTo, .destinationNamed b!"chap"]
def navAct2 : List ActionCall := [.uri b!"https://typst.app", .actionType .uri]
def navAnnot1 : List AnnotationCall := [.subtype .link, .rect navRect, .action navAct1]
def navAnnot2 : List AnnotationCall := [.subtype .text, .rect navRect]
def navAnnot3 : List AnnotationCall := [.action navAct2, .subtype .link, .rect navRect]
def navParts : List (List AnnotPart) :=
  [[.link (rf 10) navAnnot1 navRect navAct1 (.dest ⟨rf 4, [.xyz F32.zero F32.zero none], some b!"chap"⟩), .other (rf 11) navAnnot2 .text,
    .link (rf 12) navAnnot3 navRect navAct2 (.uri b!"https://typst.app")], []]

def navDoc : PdfHist :=
  .call (.call (.call (.call (.call (.call (.call (.call (.call (.call (.call (.catalog (.new false) (rf 1) (navCat.flatMap CatalogCall.entries))
    (.indirect (rf 2) (Pages.prog [.kids [rf 3, rf 4], .count 2])))
    (.indirect (rf 3) (Page.prog navPage1)))
    (.indirect (rf 4) (Page.prog [.parent (rf 2)])))
    (.indirect (rf 20) (Outline.prog navOutlineCalls)))
    (.indirect (rf 21) (OutlineItem.prog navItem1)))
    (.indirect (rf 22) (OutlineItem.prog navItem2)))
    (.indirect (rf 23) (OutlineItem.prog navItem3)))
    (.indirect (rf 30) (.dict navDests)))
    (.indirect (rf 10) (Annotation.prog navAnnot1)))
    (.indirect (rf 11) (Annotation.prog navAnnot2)))
    (.indirect (rf 12) (Annotation.prog navAnnot3))

/-- An object of the sample document. -/
macro "nav_has" b:term : tactic => `(tactic| refine ⟨⟨_, $b, false⟩,
  by simp [navDoc, pdfItems, callItems, chunkItems, chunkPretty, pdfPretty], rfl, rfl,
  by
    simp [ItemOk, Page.prog, Page.entries, PageCall.entries, Pages.prog, Pages.entries, PagesCall.entries, navPage1, navDests, navItem1, navItem2,
      navItem3, navOutlineCalls, navChap, navAct1, navAct2, navAnnot1, navAnnot2, navAnnot3, navRect, Destination.prog, Destination.items,
      DestinationCall.items, OutlineItem.prog, OutlineItem.entries, OutlineItemCall.entries, Outline.prog, Outline.entries, OutlineCall.entries,
      Annotation.prog, Annotation.entries, AnnotationCall.entries, Action.prog, Action.entries, ActionCall.entries, TextLike.prog, pFlags,
      pStr, pRect, pName, pRef, pText, pInt, pReal, Ok, OkItems, OkEntries, PrimOk, NoClash, NoClashItems, NoClashEntries, isEmptyName] <;> decide⟩)

theorem navDoc_ok : DocumentWritten (fun _ _ => none) navDoc (rf 1) navCat navTree where
  root := rfl
  catalog := by
    refine ⟨⟨rf 1, .val (Catalog.prog navCat), false⟩, ?_, rfl, rfl, ?_⟩
    · simp only [navDoc, pdfItems, callItems, chunkItems, chunkPretty, pdfPretty, Catalog.prog, Catalog.entries]
      simp [pName]
    · simp only [navCat]; sample_ok
  noType := by simp [NoCall, CatalogMeans, navCat]
  pages := rfl
  tree := by
    simp only [navTree, PageTree.Written, writtenList]
    refine ⟨?_, ?_, rfl, ⟨?_, ?_, Or.inl ⟨rfl, ?_⟩, by simp⟩, ⟨?_, ?_, Or.inl ⟨rfl, ?_⟩, by simp⟩, trivial⟩
    · nav_has (.val (Pages.prog [.kids [rf 3, rf 4], .count 2]))
    · simp [NoCall, PagesMeans]
    · nav_has (.val (Page.prog navPage1))
    · simp [NoCall, PageMeans, navPage1]
    · simp [NoCall, PageMeans, navPage1]
    · nav_has (.val (Page.prog [.parent (rf 2)]))
    · simp [NoCall, PageMeans]
    · simp [NoCall, PageMeans]

theorem navDests_ok : DestsSet (pdfItems navDoc) navCat := Or.inr ⟨rf 30, navDests, rfl, by nav_has (.val (.dict navDests))⟩

theorem navChap_ok : DestOk (pdfItems navDoc) navCat navTree.ids ⟨rf 4, [.xyz F32.zero F32.zero none], some b!"chap"⟩ := by
  refine ⟨by decide, fun n hn => ?_⟩
  simp only [Option.some.injEq] at hn
  subst hn
  exact ⟨rf 30, navDests, rfl, by nav_has (.val (.dict navDests)), rfl⟩

/-- The outline. -/
theorem navOutline_ok : OutlineWritten (pdfItems navDoc) navCat navTree.ids (rf 20) navOutlineCalls navOutline where
  catalog := rfl
  object := by nav_has (.val (Outline.prog navOutlineCalls))
  first := rfl
  last := rfl
  tree := by
    simp only [navOutline, outlinesWritten, OutlineTree.Written]
    refine ⟨⟨?_, rfl, rfl, ?_, rfl, rfl, rfl, rfl, rfl, ?_, ?_, ?_, ⟨?_, rfl, rfl, ?_, ?_, ?_, ?_, ?_, rfl, ?_, rfl, ?_, trivial⟩, trivial⟩,
      ⟨?_, rfl, rfl, rfl, ?_, ?_, ?_, ?_, ?_, ?_, ?_, rfl, trivial⟩, trivial⟩
    · nav_has (.val (OutlineItem.prog navItem1))
    · simp [MaybeCall, NoCall, OutlineItemMeans, navItem1]
    · intro g hg
      simp only [Option.some.injEq] at hg
      subst hg
      exact ⟨by decide, by simp⟩
    · simp [MaybeCall, NoCall, OutlineItemMeans, navItem1]
    · simp [MaybeCall, NoCall, OutlineItemMeans, navItem1]
    · nav_has (.val (OutlineItem.prog navItem3))
    · simp [MaybeCall, NoCall, OutlineItemMeans, navItem3]
    · simp [MaybeCall, NoCall, OutlineItemMeans, navItem3]
    · simp [MaybeCall, NoCall, OutlineItemMeans, navItem3]
    · simp [MaybeCall, NoCall, OutlineItemMeans, navItem3]
    · simp [MaybeCall, NoCall, OutlineItemMeans, navItem3]
    · intro g hg
      simp only [Option.some.injEq] at hg
      subst hg
      exact navChap_ok
    · simp [MaybeCall, NoCall, OutlineItemMeans, navItem3]
    · nav_has (.val (OutlineItem.prog navItem2))
    · simp [MaybeCall, NoCall, OutlineItemMeans, navItem2]
    · simp [MaybeCall, NoCall, OutlineItemMeans, navItem2]
    · simp [MaybeCall, NoCall, OutlineItemMeans, navItem2]
    · simp [MaybeCall, NoCall, OutlineItemMeans, navItem2]
    · simp [MaybeCall, NoCall, OutlineItemMeans, navItem2]
    · simp
    · simp [MaybeCall, NoCall, OutlineItemMeans, navItem2]

/-- The links. -/
theorem navParts_ok : Pairwise (fun e as => PageAnnots (pdfItems navDoc) navCat navTree.ids e.2 as) navTree.leaves navParts := by
  refine .cons ⟨Or.inr rfl, ?_⟩ (.cons ⟨Or.inl ⟨rfl, by simp [NoCall, PageMeans]⟩, by simp⟩ .nil)
  intro a ha
  simp only [List.mem_cons, List.not_mem_nil, or_false] at ha
  rcases ha with rfl | rfl | rfl
  · exact ⟨by nav_has (.val (Annotation.prog navAnnot1)), rfl, rfl, rfl, rfl, rfl, navChap_ok⟩
  · exact ⟨by nav_has (.val (Annotation.prog navAnnot2)), rfl, by decide⟩
  · exact ⟨by nav_has (.val (Annotation.prog navAnnot3)), rfl, rfl, rfl, rfl, rfl⟩

/-- The remaining hypotheses. -/
example : ∀ r ∈ docIds navDoc, r.get < 2147483647 := by decide +kernel
example : navTree.depth = 2 ∧ outlinesSize navOutline = 3 := by decide

/-- Titles and page numbers, for the example. -/
def showOutline : Nat → List ReadOutline → List (List Char × Option Int × Option Nat × Bool)
  | 0, _ => []
  | _, [] => []
  | n + 1, .item t c d s ks :: r => (t, c, d.map (·.1), s.bold) :: (showOutline n ks ++ showOutline n r)

/-- The file can be finished and is short enough, and this is read from it. -/
example : ((navDoc.run.bind fun p => p.finish).bind fun b => if b.length < 10 ^ 10 then fileOutline (fun _ _ => none) b 2 3 else none).map
    (showOutline 10) = some [(['A'], some (-1), some 0, false), ([], none, some 1, false), ([Char.ofNat 0x1F600], none, none, true)] := by
  rw [← fastRun_eq]
  decide +kernel
example : ((navDoc.run.bind fun p => p.finish).bind fun b => fileLinks (fun _ _ => none) b 2).map
    (·.map (·.map fun l => match l.target with | .page i _ => (some i, []) | .uri u => (none, u))) =
    some [[(some 1, []), (none, b!"https://typst.app")], []] := by
  rw [← fastRun_eq]
  decide +kernel

end PdfW.Props
