import Verif.Proof.Fast
import Verif.Proof.Geometry
import Verif.Proof.ItemOk
import Verif.Props.Annots

set_option linter.unusedSimpArgs false

/-!
# C71: boundaries, orientation and presentation of pages

End to end: whichever way the file is finished, every page is found again with its boundaries in effect (its own, inherited, or the default),
its rotation and unit, and with how it is presented.
-/

namespace PdfW.Props
open PdfW Spec

/-- C71. -/
theorem C71_page_setups (unf : Val → Bytes → Option Bytes) (h : PdfHist) (p : Pdf) (w : Finishing) (bytes : Bytes) (hr : h.run = some p)
    (hf : w.run p = some bytes) (hids : ∀ r ∈ docIds h ++ w.ids, r.get < 2147483647) (hlen : w.Fits p bytes) (hu : w.Undone unf)
    (cid : Ref) (cat : List CatalogCall) (t : PageTree) (hw : DocumentWritten unf h cid cat t)
    (pages : List GivenSetup) (hg : t.Setups ⟨none, none, none⟩ pages) (depth : Nat) (hd : t.depth ≤ depth) :
    ∃ read, fileSetups unf bytes depth = some read ∧ Pairwise SetupReads pages read := by
  obtain ⟨f, h1, hfinds, hroot⟩ := finds_of hr hf hids hlen hu
  obtain ⟨d, hcat, he⟩ := catalog_read hfinds (hroot cid hw.root) hw.catalog hw.noType
  have hpg : (CatalogEntries .code cat).filter (fun e => e.1 == b!"Pages") = [(b!"Pages", IsRef t.id)] := by
    simp only [CatalogEntries, List.filter_append, onlyCall_filter hw.pages]
    rfl
  obtain ⟨w', hl, hw'⟩ := lookup_of he hpg
  simp only [IsRef] at hw'
  subst hw'
  obtain ⟨rs, h2, h3⟩ := tree_setups hfinds t depth hd hw.tree ⟨none, none, none⟩ ⟨none, none, none⟩ ⟨trivial, trivial, rfl⟩ pages hg
  exact ⟨rs, by simp only [fileSetups, h1, Option.bind_some, hcat, hl, refNumber, h2], h3⟩

/-! ## A document that meets the hypotheses

Three pages below two nodes: the root sets a media box and a rotation, the inner node a crop box. The first page inherits everything, the second
overrides some of it, the third (below the root) has its own media box, a group and a transition. -/

def geoOne : F32 := ⟨false, 0x3F800000⟩
def geoTwo : F32 := ⟨false, 0x40000000⟩
def geoMedia : Rect := ⟨F32.zero, F32.zero, ⟨false, 0x44000000⟩, ⟨false, 0x44400000⟩⟩
def geoCrop : Rect := ⟨geoOne, geoOne, ⟨false, 0x43800000⟩, ⟨false, 0x43000000⟩⟩
def geoTrim : Rect := ⟨geoTwo, geoOne, ⟨false, 0x43000000⟩, ⟨false, 0x42800000⟩⟩
def geoDate : Date := ⟨2024, some 5, some 17, none, none, none, none, 0⟩

def geoRoot : List PagesCall := [.kids [rf 3, rf 7], .count 3, .mediaBox geoMedia, .raw b!"Rotate" (.prim (.int 90))]
def geoNode : List PagesCall := [.parent (rf 2), .kids [rf 4, rf 5], .count 2, .raw b!"CropBox" (.prim (.rect geoCrop))]
def geoPage1 : List PageCall := [.parent (rf 3), .tabOrder .structureOrder]
def geoPage2 : List PageCall := [.parent (rf 3), .rotate 180, .trimBox geoTrim, .lastModified geoDate, .userUnit geoTwo, .structParents 4]
def geoTransCalls : List TransitionCall := [.style .split, .duration geoTwo, .dimension true, .direction false, .angle .topToBottom]
def geoGroupCalls : List GroupCall := [.transparency, .colorSpace (.prim (.name b!"DeviceRGB")), .isolated true]
def geoPage3 : List PageCall :=
  [.parent (rf 2), .mediaBox geoCrop, .bleedBox geoTrim, .duration geoOne, .transition geoTransCalls, .group geoGroupCalls, .thumbnail (rf 9), .metadata (rf 8)]

def geoTree : PageTree := .node (rf 2) geoRoot [.node (rf 3) geoNode [.page (rf 4) geoPage1 [], .page (rf 5) geoPage2 []], .page (rf 7) geoPage3 []]

def geoDoc : PdfHist :=
  .call (.call (.call (.call (.call (.catalog (.new false) (rf 1) ([.pages (rf 2)].flatMap CatalogCall.entries))
    (.indirect (rf 2) (Pages.prog geoRoot)))
    (.indirect (rf 3) (Pages.prog geoNode)))
    (.indirect (rf 4) (Page.prog geoPage1)))
    (.indirect (rf 5) (Page.prog geoPage2)))
    (.indirect (rf 7) (Page.prog geoPage3))

def geoUnf : Val → Bytes → Option Bytes := fun _ _ => none

/-- An object of the sample document. -/
macro "geo_has" b:term : tactic => `(tactic| refine ⟨⟨_, $b, false⟩,
  by simp [geoDoc, pdfItems, callItems, chunkItems, chunkPretty, pdfPretty], rfl, rfl, itemOkB_sound _ (by decide +kernel)⟩)

theorem geoPage2_item : ItemOk ⟨rf 5, .val (Page.prog geoPage2), false⟩ := by
  refine ⟨?_, Or.inr (noClashB_sound _ (by decide +kernel))⟩
  simp [geoPage2, Page.prog, Page.entries, PageCall.entries, pName, pRect, pDate, pReal, pRef, pInt, Ok, OkItems, OkEntries, PrimOk, geoTrim, geoDate,
    DateInRange, geoOne, geoTwo]
  decide

theorem geoDoc_ok : DocumentWritten geoUnf geoDoc (rf 1) [.pages (rf 2)] geoTree where
  root := rfl
  catalog := by
    refine ⟨⟨rf 1, .val (Catalog.prog [.pages (rf 2)]), false⟩, ?_, rfl, rfl, ?_⟩
    · simp only [geoDoc, pdfItems, callItems, chunkItems, chunkPretty, pdfPretty, Catalog.prog, Catalog.entries]
      simp [pName]
    · sample_ok
  noType := by simp [NoCall, CatalogMeans]
  pages := rfl
  tree := by
    simp only [geoTree, PageTree.Written, writtenList]
    refine ⟨?_, noCall_keys rfl, rfl, ⟨?_, noCall_keys rfl, rfl, ⟨?_, noCall_keys rfl, Or.inl ⟨rfl, noCall_keys rfl⟩, by simp⟩,
      ⟨?_, noCall_keys rfl, Or.inl ⟨rfl, noCall_keys rfl⟩, by simp⟩, trivial⟩, ⟨?_, noCall_keys rfl, Or.inl ⟨rfl, noCall_keys rfl⟩, by simp⟩, trivial⟩
    · geo_has (.val (Pages.prog geoRoot))
    · geo_has (.val (Pages.prog geoNode))
    · geo_has (.val (Page.prog geoPage1))
    · exact ⟨_, by simp [geoDoc, pdfItems, callItems, chunkItems, chunkPretty, pdfPretty], rfl, rfl, geoPage2_item⟩
    · geo_has (.val (Page.prog geoPage3))

def geoTrans : GivenTransition := ⟨geoTransCalls, some .split, some geoTwo, some true, some false, some .topToBottom, none⟩
def geoGroup : GivenGroup := ⟨geoGroupCalls, true, some (.prim (.name b!"DeviceRGB")), some true, none⟩

def geoFirst : GivenSetup where
  id := rf 4
  inherited := ⟨some geoMedia, some geoCrop, some 90⟩
  media := none
  crop := none
  bleed := none
  trim := none
  art := none
  rotate := none
  unit := none
  modified := none
  structParents := none
  tabs := some .structureOrder
  thumbnail := none
  metadata := none
  duration := none
  transition := none
  group := none

def geoSecond : GivenSetup where
  id := rf 5
  inherited := ⟨some geoMedia, some geoCrop, some 90⟩
  media := none
  crop := none
  bleed := none
  trim := some geoTrim
  art := none
  rotate := some 180
  unit := some geoTwo
  modified := some geoDate
  structParents := some 4
  tabs := none
  thumbnail := none
  metadata := none
  duration := none
  transition := none
  group := none

def geoThird : GivenSetup where
  id := rf 7
  inherited := ⟨some geoMedia, none, some 90⟩
  media := some geoCrop
  crop := none
  bleed := some geoTrim
  trim := none
  art := none
  rotate := none
  unit := none
  modified := none
  structParents := none
  tabs := none
  thumbnail := some (rf 9)
  metadata := some (rf 8)
  duration := some geoOne
  transition := some geoTrans
  group := some geoGroup

theorem geoTrans_ok : geoTrans.Set where
  style := rfl
  duration := rfl
  vertical := rfl
  outward := rfl
  angle := rfl
  scale := noCall_keys rfl

theorem geoGroup_ok : geoGroup.Set where
  transparency := rfl
  space := rfl
  isolated := rfl
  knockout := noCall_keys rfl

theorem geoFirst_ok : geoFirst.Set geoPage1 where
  hasMedia := rfl
  media := noCall_keys rfl
  crop := noCall_keys rfl
  bleed := noCall_keys rfl
  trim := noCall_keys rfl
  art := noCall_keys rfl
  rotate := noCall_keys rfl
  unit := noCall_keys rfl
  modified := noCall_keys rfl
  structParents := noCall_keys rfl
  tabs := rfl
  thumbnail := noCall_keys rfl
  metadata := noCall_keys rfl
  duration := noCall_keys rfl
  transition := noCall_keys rfl
  transitionSet := by simp [geoFirst]
  group := noCall_keys rfl
  groupSet := by simp [geoFirst]

theorem geoSecond_ok : geoSecond.Set geoPage2 where
  hasMedia := rfl
  media := noCall_keys rfl
  crop := noCall_keys rfl
  bleed := noCall_keys rfl
  trim := rfl
  art := noCall_keys rfl
  rotate := rfl
  unit := rfl
  modified := rfl
  structParents := rfl
  tabs := noCall_keys rfl
  thumbnail := noCall_keys rfl
  metadata := noCall_keys rfl
  duration := noCall_keys rfl
  transition := noCall_keys rfl
  transitionSet := by simp [geoSecond]
  group := noCall_keys rfl
  groupSet := by simp [geoSecond]

theorem geoThird_ok : geoThird.Set geoPage3 where
  hasMedia := rfl
  media := rfl
  crop := noCall_keys rfl
  bleed := rfl
  trim := noCall_keys rfl
  art := noCall_keys rfl
  rotate := noCall_keys rfl
  unit := noCall_keys rfl
  modified := noCall_keys rfl
  structParents := noCall_keys rfl
  tabs := noCall_keys rfl
  thumbnail := rfl
  metadata := rfl
  duration := rfl
  transition := rfl
  transitionSet := by intro t h; cases h; exact geoTrans_ok
  group := rfl
  groupSet := by intro t h; cases h; exact geoGroup_ok

theorem geoSetups_ok : geoTree.Setups ⟨none, none, none⟩ [geoFirst, geoSecond, geoThird] := by
  simp only [geoTree, PageTree.Setups, setupsList]
  exact ⟨some geoMedia, none, some 90, rfl, noCall_keys rfl, rfl, [geoFirst, geoSecond], [geoThird], rfl,
    ⟨none, some geoCrop, none, noCall_keys rfl, rfl, noCall_keys rfl, [geoFirst], [geoSecond], rfl, ⟨_, rfl, rfl, rfl, geoFirst_ok⟩,
      [geoSecond], [], rfl, ⟨_, rfl, rfl, rfl, geoSecond_ok⟩, rfl⟩,
    [geoThird], [], rfl, ⟨_, rfl, rfl, rfl, geoThird_ok⟩, rfl⟩

/-- The remaining hypotheses. -/
example : ∀ r ∈ docIds geoDoc, r.get < 2147483647 := by decide +kernel
example : geoTree.depth = 3 := rfl

set_option synthInstance.maxHeartbeats 400000 in
set_option synthInstance.maxSize 2000 in
/-- The file can be finished and is short enough, and this is read from it. -/
example : ((geoDoc.run.bind fun p => p.finish).bind fun b => if b.length < 10 ^ 10 then
      (fileSetups geoUnf b 3).map fun ps => ps.map fun a => (a.number, a.rotate, integers a.media, integers a.crop, integers a.trim) else none) =
    some [(4, 90, some [0, 0, 512, 768], some [1, 1, 256, 128], some [1, 1, 256, 128]),
      (5, 180, some [0, 0, 512, 768], some [1, 1, 256, 128], some [2, 1, 128, 64]),
      (7, 90, some [1, 1, 256, 128], some [1, 1, 256, 128], some [1, 1, 256, 128])] := by
  rw [← fastRun_eq]
  decide +kernel

end PdfW.Props
