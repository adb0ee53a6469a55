import Verif.Proof.Images
import Verif.Proof.Fast
import Verif.Props.Interpret

set_option linter.unusedSimpArgs false
set_option linter.unusedVariables false

/-!
# C66: images, and the transformations under which they are painted

End to end, as C60: pages with their own or inherited resources, forms to any depth with their own matrix and their own or inherited
resources, stored as they are or filtered, images with masks, whichever way the file is finished.
-/

namespace PdfW.Props
open PdfW Spec

/-- C66. -/
theorem C66_images (unf : Val → Bytes → Option Bytes) (h : PdfHist) (p : Pdf) (w : Finishing) (bytes : Bytes) (hr : h.run = some p)
    (hf : w.run p = some bytes) (hids : ∀ r ∈ docIds h ++ w.ids, r.get < 2147483647) (hlen : w.Fits p bytes) (hu : w.Undone unf)
    (cid : Ref) (cat : List CatalogCall) (t : PageTree) (hw : DocumentWritten unf h cid cat t)
    (forms : Nat) (images : List (List Placed)) (ht : t.Paint unf (pdfItems h) forms images) (depth : Nat) (hd : t.depth ≤ depth)
    (n : Nat) (hn : forms ≤ n) :
    ∃ read, fileImages unf bytes depth n = some read ∧ Pairwise (Pairwise Placed.Means) images read := by
  obtain ⟨f, h1, hfinds, hroot⟩ := finds_of hr hf hids hlen hu
  obtain ⟨d, hcat, he⟩ := catalog_read hfinds (hroot cid hw.root) hw.catalog hw.noType
  have hpg : (CatalogEntries .code cat).filter (fun e => e.1 == b!"Pages") = [(b!"Pages", IsRef t.id)] := by
    simp only [CatalogEntries, List.filter_append, onlyCall_filter hw.pages]
    rfl
  obtain ⟨w', hl, hw'⟩ := lookup_of he hpg
  simp only [IsRef] at hw'
  subst hw'
  obtain ⟨ys, hy, hym⟩ := tree_means (unf := unf) (R := Pairwise Placed.Means) hfinds (pageImages_read hfinds n forms hn)
    t depth hd hw.tree none none rfl images ht
  exact ⟨ys, by simp only [fileImages, h1, Option.bind_some, readImages, hcat, hl, refNumber, hy], hym⟩

/-! ## A document that meets the hypotheses -/

def imgTwo : F32 := ⟨false, 0x40000000⟩
def imgOne : F32 := ⟨false, 0x3F800000⟩

/-- The resources, given for the root of the page tree. -/
def imgRes : List ResourcesCall := [.xObjects [(b!"A", .prim (.ref (rf 6))), (b!"X", .prim (.ref (rf 5))), (b!"B", .prim (.ref (rf 8)))]]

/-- A picture inside saved states, then a form, then the picture again with nothing but the first transformation in effect. -/
def imgCalls : List ContentCall :=
  [.transform imgTwo F32.zero F32.zero imgTwo F32.zero F32.zero, .saveState, .transform imgOne F32.zero F32.zero imgTwo imgOne imgOne, .xObject b!"A",
   .restoreState, .setFillGray F32.zero, .saveState, .restoreState, .xObject b!"X", .xObject b!"A"]
/-- The form changes the state and does not restore it. -/
def imgFormCalls : List ContentCall := [.transform imgOne imgOne imgOne imgOne imgOne imgOne, .xObject b!"B"]

def imgPart : ContentPart := ⟨rf 4, [], ((runCalls imgCalls (Content.withSettings true)).get (by decide +kernel)).finish.inner, true, imgCalls⟩
def imgForm : FormPart := ⟨rf 5, [.matrix [imgTwo, F32.zero, F32.zero, imgTwo, imgOne, F32.zero]],
  ((runCalls imgFormCalls (Content.withSettings false)).get (by decide +kernel)).finish.inner, false, imgFormCalls⟩

/-- Compressed samples. -/
def imgA : RasterPart where
  id := rf 6
  calls := [.stream (.filter .flateDecode), .width 2, .height 1, .colorSpaceName b!"DeviceRGB", .bitsPerComponent 8, .sMask (rf 7),
    .decode [F32.zero, imgOne, F32.zero, imgOne, F32.zero, imgOne]]
  stored := b!"??"
  width := 2
  height := 1
  bits := some 8
  space := some (.prim (.name b!"DeviceRGB"))
  stencil := none
  decode := some [F32.zero, imgOne, F32.zero, imgOne, F32.zero, imgOne]
  data := [1, 2, 3, 4, 5, 6]
/-- Its soft mask. -/
def imgSoft : RasterPart := ⟨rf 7, [.width 1, .height 1, .colorSpaceName b!"DeviceGray", .bitsPerComponent 8], [128], 1, 1, some 8,
  some (.prim (.name b!"DeviceGray")), none, none, [128]⟩
/-- An image with an indexed color space and a stencil mask. -/
def imgSpace : Prog := .array [.prim (.name b!"Indexed"), .prim (.name b!"DeviceGray"), .prim (.int 1), .prim (.str [0, 255])]
def imgB : RasterPart := ⟨rf 8, [.height 1, .width 8, .stencilMask (rf 9), .colorSpace imgSpace, .bitsPerComponent 1], [0xAA], 8, 1, some 1, some imgSpace, none, none, [0xAA]⟩
def imgStencil : RasterPart := ⟨rf 9, [.imageMask true, .width 8, .height 1], [0xF0], 8, 1, none, none, some true, none, [0xF0]⟩

def imgPartA : ImagePart := ⟨imgA, .none, some imgSoft⟩
def imgPartB : ImagePart := ⟨imgB, .stencil imgStencil, none⟩

def imgTree : PageTree :=
  .node (rf 2) [.kids [rf 3], .count 1, .resources imgRes] [.page (rf 3) [.parent (rf 2), .contents (rf 4)] [imgPart]]

def imgDoc : PdfHist :=
  .call (.call (.call (.call (.call (.call (.call (.call (.catalog (.new false) (rf 1) ([.pages (rf 2)].flatMap CatalogCall.entries))
    (.indirect (rf 2) (Pages.prog [.kids [rf 3], .count 1, .resources imgRes])))
    (.indirect (rf 3) (Page.prog [.parent (rf 2), .contents (rf 4)])))
    (.stream (rf 4) [] imgPart.data))
    (.stream (rf 5) (FormXObject.entries imgForm.calls) imgForm.data))
    (.stream (rf 6) (ImageXObject.entries imgA.calls) imgA.stored))
    (.stream (rf 7) (ImageXObject.entries imgSoft.calls) imgSoft.stored))
    (.stream (rf 8) (ImageXObject.entries imgB.calls) imgB.stored))
    (.stream (rf 9) (ImageXObject.entries imgStencil.calls) imgStencil.stored)

def imgUnf : Val → Bytes → Option Bytes
  | .name n, d => if n = b!"FlateDecode" ∧ d = b!"??" then some [1, 2, 3, 4, 5, 6] else none
  | _, _ => none

/-- What is asked for. -/
def imgPlaced : List (List Placed) :=
  [[([[imgOne, F32.zero, F32.zero, imgTwo, imgOne, imgOne], [imgTwo, F32.zero, F32.zero, imgTwo, F32.zero, F32.zero]], imgPartA),
    ([[imgOne, imgOne, imgOne, imgOne, imgOne, imgOne], [imgTwo, F32.zero, F32.zero, imgTwo, imgOne, F32.zero],
      [imgTwo, F32.zero, F32.zero, imgTwo, F32.zero, F32.zero]], imgPartB),
    ([[imgTwo, F32.zero, F32.zero, imgTwo, F32.zero, F32.zero]], imgPartA)]]

/-- An object of the sample document. -/
macro "img_has" b:term : tactic => `(tactic| refine ⟨⟨_, $b, false⟩,
  by simp [imgDoc, pdfItems, callItems, chunkItems, chunkPretty, pdfPretty, imgPart, imgForm, imgA, imgB, imgSoft, imgStencil], rfl, rfl,
  by
    simp [ItemOk, Page.prog, Page.entries, PageCall.entries, Pages.prog, Pages.entries, PagesCall.entries, Resources.prog, Resources.entries,
      ResourcesCall.entries, FormXObject.entries, FormXObjectCall.entries, ImageXObject.entries, ImageXObjectCall.entries, imgForm, imgA, imgB, imgSoft,
      imgStencil, StreamCall.entries, imgRes, imgSpace, imgOne, imgTwo, pName, pRef, pText, pInt, pReal, pBool, Ok, OkItems, OkEntries, PrimOk, NoClash,
      NoClashItems, NoClashEntries, isEmptyName] <;> decide⟩)

theorem imgPart_ok : PartWritten imgUnf (pdfItems imgDoc) imgPart := by
  refine ⟨?_, ⟨(runCalls imgCalls (Content.withSettings true)).get (by decide +kernel), ?_, Or.inl ⟨?_, ?_⟩⟩, ?_, Or.inl rfl⟩
  · img_has (.stream [] imgPart.data)
  · simp [imgPart]
  · simp [NoCall, imgPart]
  · simp only [imgPart]
  · simp [imgPart, imgCalls, CallOk, operandsOf, OkItems, Ok, PrimOk, nam, num, imgOne, imgTwo]; decide

theorem imgForm_ok : imgForm.Written imgUnf (pdfItems imgDoc) where
  object := by img_has (.stream (FormXObject.entries imgForm.calls) imgForm.data)
  subtype := by simp [NoCall, imgForm, FormXObjectMeans]
  stored := ⟨(runCalls imgFormCalls (Content.withSettings false)).get (by decide +kernel), by simp [imgForm], Or.inl ⟨by simp [NoCall, imgForm, FormXObjectMeans], by simp only [imgForm]⟩⟩
  ok := by simp [imgForm, imgFormCalls, CallOk, operandsOf, OkItems, Ok, PrimOk, nam, num, imgOne]; decide
  clash := Or.inr (by simp [imgForm, imgFormCalls, CallNoClash, operandsOf, NoClashItems, NoClash, isEmptyName, nam, num])

/-- All hypotheses about the document and its tree. -/
theorem imgDoc_ok : DocumentWritten imgUnf imgDoc (rf 1) [.pages (rf 2)] imgTree where
  root := rfl
  catalog := by
    refine ⟨⟨rf 1, .val (Catalog.prog [.pages (rf 2)]), false⟩, ?_, rfl, rfl, ?_⟩
    · simp only [imgDoc, pdfItems, callItems, chunkItems, chunkPretty, pdfPretty, Catalog.prog, Catalog.entries]
      simp [pName]
    · sample_ok
  noType := by simp [NoCall, CatalogMeans]
  pages := rfl
  tree := by
    simp only [imgTree, PageTree.Written, writtenList]
    refine ⟨?_, ?_, rfl, ⟨?_, ?_, Or.inr (Or.inl ⟨_, rfl, rfl⟩), ?_⟩, trivial⟩
    · img_has (.val (Pages.prog [.kids [rf 3], .count 1, .resources imgRes]))
    · simp [NoCall, PagesMeans]
    · img_has (.val (Page.prog [.parent (rf 2), .contents (rf 4)]))
    · simp [NoCall, PageMeans]
    · simp only [List.mem_singleton, forall_eq]; exact imgPart_ok

theorem imgA_ok : imgA.Written imgUnf (pdfItems imgDoc) where
  object := by img_has (.stream (ImageXObject.entries imgA.calls) imgA.stored)
  subtype := by simp [NoCall, imgA, ImageXObjectMeans, StreamMeans]
  width := rfl
  height := rfl
  bits := rfl
  space := Or.inr ⟨_, rfl, rfl⟩
  stencil := by simp [MaybeCall, NoCall, imgA, ImageXObjectMeans, StreamMeans]
  decode := rfl
  data := Or.inr ⟨.flateDecode, rfl, by decide⟩

theorem imgSoft_ok : imgSoft.Written imgUnf (pdfItems imgDoc) where
  object := by img_has (.stream (ImageXObject.entries imgSoft.calls) imgSoft.stored)
  subtype := by simp [NoCall, imgSoft, ImageXObjectMeans]
  width := rfl
  height := rfl
  bits := rfl
  space := Or.inr ⟨_, rfl, rfl⟩
  stencil := by simp [MaybeCall, NoCall, imgSoft, ImageXObjectMeans]
  decode := by simp [MaybeCall, NoCall, imgSoft, ImageXObjectMeans]
  data := Or.inl ⟨by simp [NoCall, imgSoft, ImageXObjectMeans], rfl⟩

theorem imgB_ok : imgB.Written imgUnf (pdfItems imgDoc) where
  object := by img_has (.stream (ImageXObject.entries imgB.calls) imgB.stored)
  subtype := by simp [NoCall, imgB, ImageXObjectMeans]
  width := rfl
  height := rfl
  bits := rfl
  space := Or.inl rfl
  stencil := by simp [MaybeCall, NoCall, imgB, ImageXObjectMeans]
  decode := by simp [MaybeCall, NoCall, imgB, ImageXObjectMeans]
  data := Or.inl ⟨by simp [NoCall, imgB, ImageXObjectMeans], rfl⟩

theorem imgStencil_ok : imgStencil.Written imgUnf (pdfItems imgDoc) where
  object := by img_has (.stream (ImageXObject.entries imgStencil.calls) imgStencil.stored)
  subtype := by simp [NoCall, imgStencil, ImageXObjectMeans]
  width := rfl
  height := rfl
  bits := by simp [MaybeCall, NoCall, imgStencil, ImageXObjectMeans]
  space := Or.inl (by simp [MaybeCall, NoCall, imgStencil, ImageXObjectMeans])
  stencil := rfl
  decode := by simp [MaybeCall, NoCall, imgStencil, ImageXObjectMeans]
  data := Or.inl ⟨by simp [NoCall, imgStencil, ImageXObjectMeans], rfl⟩

theorem imgPartA_ok : imgPartA.Written imgUnf (pdfItems imgDoc) where
  raster := imgA_ok
  mask := by simp [MaskSet, NoCall, imgPartA, imgA, ImageXObjectMeans, StreamMeans]
  soft := rfl
  softWritten := by intro m hm; cases hm; exact imgSoft_ok

theorem imgPartB_ok : imgPartB.Written imgUnf (pdfItems imgDoc) where
  raster := imgB_ok
  mask := ⟨rfl, imgStencil_ok⟩
  soft := by simp [MaybeCall, NoCall, imgPartB, imgB, ImageXObjectMeans]
  softWritten := by intro m hm; cases hm

/-- What the calls ask for. -/
theorem imgTree_paint : imgTree.Paint imgUnf (pdfItems imgDoc) 1 imgPlaced := by
  simp only [imgTree, PageTree.Paint, PageTree.Each, eachList]
  refine ⟨some imgRes, Or.inr ⟨_, rfl, Or.inl rfl⟩, [imgPlaced[0]], [], rfl, ⟨some imgRes, _, rfl, Or.inl ⟨?_, rfl⟩, ?_⟩, rfl⟩
  · simp [NoCall, PageMeans]
  · simp only [List.flatMap_cons, List.flatMap_nil, imgPart, imgCalls, List.append_nil]
    have a : XObjectNamed (pdfItems imgDoc) (some imgRes) b!"A" (rf 6) := ⟨imgRes, _, rfl, Or.inl rfl, rfl⟩
    exact .transform (.save (.transform (.image imgPartA a imgPartA_ok (.restore (.steady trivial (.save (.restore
      (.form imgForm (some imgRes) (some _) ⟨imgRes, _, rfl, Or.inl rfl, rfl⟩ imgForm_ok
        (Or.inl ⟨by simp [NoCall, imgForm, FormXObjectMeans], rfl⟩) rfl
        (.transform (.image imgPartB ⟨imgRes, _, rfl, Or.inl rfl, rfl⟩ imgPartB_ok .done))
        (.image imgPartA a imgPartA_ok .done)))))))))

/-- The remaining hypotheses. -/
example : ∀ r ∈ docIds imgDoc, r.get < 2147483647 := by decide +kernel
example : imgTree.depth = 2 := rfl

set_option synthInstance.maxHeartbeats 400000 in
set_option synthInstance.maxSize 2000 in
/-- The file can be finished and is short enough, and this is read from it. -/
example : ((imgDoc.run.bind fun p => p.finish).bind fun b => if b.length < 10 ^ 10 then
      (fileImages imgUnf b 2 1).map fun ps => ps.map fun p => p.map fun x =>
        (x.1.length, x.2.number, (x.2.raster.width, x.2.raster.height, x.2.raster.data), x.2.mask.isSome, x.2.soft.map fun s => s.data) else none) =
    some [[(2, 6, (2, 1, [1, 2, 3, 4, 5, 6]), false, some [128]), (3, 8, (8, 1, [0xAA]), true, none),
      (1, 6, (2, 1, [1, 2, 3, 4, 5, 6]), false, some [128])]] := by
  rw [← fastRun_eq]
  decide +kernel

end PdfW.Props
