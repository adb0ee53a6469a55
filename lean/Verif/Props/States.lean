import Verif.Proof.States
import Verif.Proof.ItemOk
import Verif.Proof.Fast
import Verif.Props.Colors

set_option linter.unusedSimpArgs false
set_option linter.unusedVariables false

/-!
# C76: graphics state parameters and transparency

End to end, as C60: the graphics state parameter dictionaries in the resources of each page, given on the page or inherited, in place or as
objects of their own, with the functions and soft masks they refer to, whichever way the file is finished.
-/

namespace PdfW.Props
open PdfW Spec Imaging

/-- C76. -/
theorem C76_states (unf : Val → Bytes → Option Bytes) (h : PdfHist) (p : Pdf) (w : Finishing) (bytes : Bytes) (hr : h.run = some p)
    (hf : w.run p = some bytes) (hids : ∀ r ∈ docIds h ++ w.ids, r.get < 2147483647) (hlen : w.Fits p bytes) (hu : w.Undone unf)
    (cid : Ref) (cat : List CatalogCall) (t : PageTree) (hw : DocumentWritten unf h cid cat t) (depth forms : Nat)
    (pages : List (List (Bytes × GivenParams))) (ht : t.States unf (pdfItems h) depth forms pages) (tree n m : Nat) (hd : t.depth ≤ tree)
    (hn : depth ≤ n) (hm : forms ≤ m) : ∃ read, fileStates unf bytes tree n m = some read ∧ Pairwise StatesRead pages read := by
  obtain ⟨f, h1, hfinds, hroot⟩ := finds_of hr hf hids hlen hu
  obtain ⟨d, hcat, he⟩ := catalog_read hfinds (hroot cid hw.root) hw.catalog hw.noType
  have hpg : (CatalogEntries .code cat).filter (fun e => e.1 == b!"Pages") = [(b!"Pages", IsRef t.id)] := by
    simp only [CatalogEntries, List.filter_append, onlyCall_filter hw.pages]
    rfl
  obtain ⟨w', hl, hw'⟩ := lookup_of he hpg
  simp only [IsRef] at hw'
  subst hw'
  obtain ⟨ys, hy, hym⟩ := tree_means (unf := unf) (R := StatesRead) hfinds (pageStates_read hfinds hn hm) t tree hd hw.tree none none rfl pages ht
  exact ⟨ys, by simp only [fileStates, h1, Option.bind_some, hcat, hl, refNumber, hy], hym⟩

/-! ## A document that meets the hypotheses

Two pages. The first inherits two sets of parameters: one in place, with lines, a black generation function that is overridden by the default,
a transfer function and a luminosity mask whose group is isolated and is blended in a calibrated space; and one that is an object of its own. The
second page has resources of its own without any. -/

def gstFormContent : List ContentCall := [.setFillGray colHalf, .rect F32.zero F32.zero colOne colOne, .fillNonzero]
def gstGroup : List GroupCall := [.transparency, .colorSpace colGray, .isolated true]
def gstForm : FormPart := ⟨rf 6, [.bbox colRect, .group gstGroup],
  ((runCalls gstFormContent (Content.withSettings true)).get (by decide +kernel)).finish.inner, true, gstFormContent⟩
def gstMask : List SoftMaskCall := [.subtype .luminosity, .group (rf 6), .backdrop [F32.zero], .transferFunction (rf 5)]
def gstOne : List ExtGraphicsStateCall :=
  [.lineWidth colTwo, .lineCap .roundCap, .dashPattern [colOne, colTwo] colHalf, .overprint true, .overprintMode .ignoreZeroChannel,
   .blackGeneration (rf 5), .blackGenerationDefault, .transfer (rf 5), .halftoneDefault, .smoothness colHalf, .blendMode .multiply, .softMask gstMask,
   .strokingAlpha colHalf, .textKnockout false]
def gstTwo : List ExtGraphicsStateCall :=
  [.renderingIntent .perceptual, .softMaskName b!"None", .nonStrokingAlpha colOne, .alphaSource true, .halftone (rf 8), .strokeAdjustment true]
def gstRes : List ResourcesCall := [.extGStates [(b!"G0", ExtGraphicsState.prog gstOne), (b!"G1", .prim (.ref (rf 7)))]]

def gstPage1 : List PageCall := [.parent (rf 2)]
def gstPage2 : List PageCall := [.parent (rf 2), .resources [.procSetsAll]]
def gstTree : PageTree := .node (rf 2) [.kids [rf 3, rf 4], .count 2, .resources gstRes] [.page (rf 3) gstPage1 [], .page (rf 4) gstPage2 []]

def gstDoc : PdfHist :=
  .call (.call (.call (.call (.call (.call (.catalog (.new false) (rf 1) ([.pages (rf 2)].flatMap CatalogCall.entries))
    (.indirect (rf 2) (Pages.prog [.kids [rf 3, rf 4], .count 2, .resources gstRes])))
    (.indirect (rf 3) (Page.prog gstPage1)))
    (.indirect (rf 4) (Page.prog gstPage2)))
    (.indirect (rf 5) (exponentialFunction colExpCalls)))
    (.stream (rf 6) (FormXObject.entries gstForm.calls) gstForm.data))
    (.indirect (rf 7) (ExtGraphicsState.prog gstTwo))

def gstUnf : Val → Bytes → Option Bytes := fun _ _ => none

/-- An object of the sample document. -/
macro "gst_has" b:term : tactic => `(tactic| refine ⟨⟨_, $b, false⟩,
  by simp [gstDoc, pdfItems, callItems, chunkItems, chunkPretty, pdfPretty, gstForm], rfl, rfl, itemOkB_sound _ (by decide +kernel)⟩)

theorem gstDoc_ok : DocumentWritten gstUnf gstDoc (rf 1) [.pages (rf 2)] gstTree where
  root := rfl
  catalog := by
    refine ⟨⟨rf 1, .val (Catalog.prog [.pages (rf 2)]), false⟩, ?_, rfl, rfl, ?_⟩
    · simp only [gstDoc, pdfItems, callItems, chunkItems, chunkPretty, pdfPretty, Catalog.prog, Catalog.entries]
      simp [pName]
    · sample_ok
  noType := by simp [NoCall, CatalogMeans]
  pages := rfl
  tree := by
    simp only [gstTree, PageTree.Written, writtenList]
    refine ⟨?_, ?_, rfl, ⟨?_, ?_, Or.inl ⟨rfl, ?_⟩, by simp⟩, ⟨?_, ?_, Or.inl ⟨rfl, ?_⟩, by simp⟩, trivial⟩
    · gst_has (.val (Pages.prog [.kids [rf 3, rf 4], .count 2, .resources gstRes]))
    · simp [NoCall, PagesMeans]
    · gst_has (.val (Page.prog gstPage1))
    · simp [NoCall, PageMeans, gstPage1]
    · simp [NoCall, PageMeans, gstPage1]
    · gst_has (.val (Page.prog gstPage2))
    · simp [NoCall, PageMeans, gstPage2]
    · simp [NoCall, PageMeans, gstPage2]

/-! What is asked for. -/

def gstLooks : List (Element F32 Prog) :=
  [.path [⟨.rectangle, [F32.zero, F32.zero, colOne, colOne]⟩] (some .nonzero) false
    ⟨[], [.box [F32.zero, F32.zero, colTwo, colOne] []], colBlack, ⟨.prim (.name b!"DeviceGray"), [colHalf], none⟩, []⟩]
def gstSource : Source GivenSpace (Element F32 Prog) := ⟨6, some ⟨some b!"Transparency", some colGrayIs, true, false⟩, gstLooks⟩
def gstOneIs : GivenParams where
  lines := ⟨some colTwo, some 1, none, none, some ([colOne, colTwo], colHalf)⟩
  rendering := ⟨none, some true, none, some 1, some .default, none, some (.function colExp), some .default, none, some colHalf, none⟩
  blending := ⟨some b!"Multiply", some (.mask b!"Luminosity" gstSource (some [F32.zero]) (some colExp)), some colHalf, none, none, some false⟩
def gstTwoIs : GivenParams where
  lines := ⟨none, none, none, none, none⟩
  rendering := ⟨some b!"Perceptual", none, none, none, none, none, none, some (.function 8), none, none, some true⟩
  blending := ⟨none, some (.named b!"None"), none, some colOne, some true, none⟩
def gstPages : List (List (Bytes × GivenParams)) := [[(b!"G0", gstOneIs), (b!"G1", gstTwoIs)], []]

theorem gstFn_ok : FnWritten gstUnf (pdfItems gstDoc) 1 (.prim (.ref (rf 5))) colExp :=
  Or.inl ⟨_, Or.inr ⟨rf 5, rfl, by gst_has (.val (exponentialFunction colExpCalls))⟩, .exponential (calls := colExpCalls) (noCall_keys rfl) rfl (noCall_keys rfl) rfl rfl rfl⟩

theorem gstGray_ok : SpaceWritten gstUnf (pdfItems gstDoc) 1 colGray colGrayIs := by
  rw [SpaceWritten.eq_def]
  exact Or.inr ⟨colGray, Or.inl rfl, .calGray (w := colWhite) (b := some colWhite) rfl⟩

theorem gstForm_ok : gstForm.Written gstUnf (pdfItems gstDoc) where
  object := by show HasObject (pdfItems gstDoc) (rf 6) (.stream (FormXObject.entries gstForm.calls) gstForm.data); gst_has (.stream (FormXObject.entries gstForm.calls) gstForm.data)
  subtype := noCall_keys rfl
  stored := ⟨(runCalls gstFormContent (Content.withSettings true)).get (by decide +kernel), by simp [gstForm],
    Or.inl ⟨noCall_keys rfl, by simp only [gstForm]⟩⟩
  ok := by simp [gstForm, gstFormContent, CallOk, operandsOf, OkItems, Ok, PrimOk, nam, num, colOne, colHalf]; decide
  clash := Or.inl rfl

theorem gstSource_ok : SourceSet gstUnf (pdfItems gstDoc) 1 0 gstForm gstSource where
  number := rfl
  attrs := ⟨some gstGroup, rfl,
    { kind := Or.inr ⟨rfl, rfl⟩
      space := ⟨some colGray, rfl, gstGray_ok⟩
      isolated := ⟨some true, rfl, rfl⟩
      knockout := ⟨none, rfl, noCall_keys rfl⟩ }⟩
  written := by
    refine ⟨gstForm_ok, none, none, colRect, Or.inl ⟨noCall_keys rfl, rfl⟩, noCall_keys rfl, rfl, ?_⟩
    exact ⟨⟨fun n => .prim (.name n), fun _ _ => none, fun _ _ => none⟩, fun _ => rfl, (by intro _ _ _ h; cases h), (by intro _ _ _ h; cases h),
      by simp [gstForm, gstFormContent, Unrelated], rfl⟩

theorem gstOne_ok : ParamsWritten gstUnf (pdfItems gstDoc) 1 0 (ExtGraphicsState.prog gstOne) gstOneIs := by
  refine ⟨gstOne, Or.inl rfl, ⟨rfl, ⟨some .roundCap, rfl, rfl⟩, ⟨none, rfl, noCall_keys rfl⟩, noCall_keys rfl, rfl⟩, ?_, ?_⟩
  · exact ⟨⟨none, rfl, noCall_keys rfl⟩, rfl, noCall_keys rfl, ⟨some .ignoreZeroChannel, rfl, rfl⟩, .default rfl, .none (noCall_keys rfl) (noCall_keys rfl),
      .function (noCall_keys rfl) rfl gstFn_ok, ⟨some none, rfl, rfl⟩, noCall_keys rfl, rfl, noCall_keys rfl⟩
  · exact ⟨⟨some .multiply, rfl, rfl⟩, ⟨some (.softMask gstMask), rfl,
      .mask (calls := gstMask) (kind := .luminosity) (form := gstForm) (fn := some (rf 5)) rfl rfl gstSource_ok rfl rfl gstFn_ok⟩, rfl, noCall_keys rfl, noCall_keys rfl, rfl⟩

theorem gstTwo_ok : ParamsWritten gstUnf (pdfItems gstDoc) 1 0 (.prim (.ref (rf 7))) gstTwoIs := by
  refine ⟨gstTwo, Or.inr ⟨rf 7, rfl, by gst_has (.val (ExtGraphicsState.prog gstTwo))⟩,
    ⟨noCall_keys rfl, ⟨none, rfl, noCall_keys rfl⟩, ⟨none, rfl, noCall_keys rfl⟩, noCall_keys rfl, noCall_keys rfl⟩, ?_, ?_⟩
  · exact ⟨⟨some .perceptual, rfl, rfl⟩, noCall_keys rfl, noCall_keys rfl, ⟨none, rfl, noCall_keys rfl⟩, .none (noCall_keys rfl) (noCall_keys rfl),
      .none (noCall_keys rfl) (noCall_keys rfl), .none (noCall_keys rfl) (noCall_keys rfl), ⟨some (some (rf 8)), rfl, rfl⟩, noCall_keys rfl, noCall_keys rfl, rfl⟩
  · exact ⟨⟨none, rfl, noCall_keys rfl⟩, ⟨some (.softMaskName b!"None"), rfl, .named⟩, noCall_keys rfl, rfl, rfl, noCall_keys rfl⟩

/-- What the calls ask for. -/
theorem gstTree_states : gstTree.States gstUnf (pdfItems gstDoc) 1 0 gstPages := by
  simp only [gstTree, PageTree.States, PageTree.Each, eachList]
  refine ⟨some gstRes, Or.inr ⟨_, rfl, Or.inl rfl⟩, [gstPages[0]], [[]], rfl, ⟨some gstRes, _, rfl, Or.inl ⟨noCall_keys rfl, rfl⟩, ?_⟩,
    [[]], [], rfl, ⟨some [.procSetsAll], [], rfl, Or.inr ⟨_, rfl, Or.inl rfl⟩, ?_⟩, rfl⟩
  · exact Or.inr ⟨_, Or.inl rfl, .cons ⟨rfl, gstOne_ok⟩ (.cons ⟨rfl, gstTwo_ok⟩ .nil)⟩
  · exact Or.inl ⟨noCall_keys rfl, rfl⟩

/-- The remaining hypotheses. -/
example : ∀ r ∈ docIds gstDoc, r.get < 2147483647 := by decide +kernel
example : gstTree.depth = 2 := rfl

/-- What a reader of the sample sees of a soft mask. -/
def gstShowSoft : Soft Val ReadFn ReadSpace (Element Val Val) → Bytes × List Nat × List Bool
  | .named n => (n, [], [])
  | .mask k s b t => (k, [s.number, s.elements.length, (b.map List.length).getD 0], s.attrs.toList.flatMap fun a => [a.space.isSome, a.isolated, a.knockout, t.isSome])
def gstDevice {φ : Type} : Option (Device φ) → Nat
  | none => 0
  | some .default => 1
  | some (.function _) => 2

/-- What a reader of the finished file sees, if it is short enough. -/
def gstReads {α : Type} (show_ : Bytes × ReadParams → α) : Option (List (List α)) := (fastRun gstDoc).bind fun p => p.finish.bind fun b =>
  if b.length < 10 ^ 10 then (fileStates gstUnf b 2 1 0).map fun ps => ps.map fun l => l.map show_ else none
example {α : Type} (show_ : Bytes × ReadParams → α) : gstReads show_ = gstDoc.run.bind fun p => p.finish.bind fun b =>
    if b.length < 10 ^ 10 then (fileStates gstUnf b 2 1 0).map fun ps => ps.map fun l => l.map show_ else none := by rw [gstReads, fastRun_eq]

set_option synthInstance.maxHeartbeats 400000 in
set_option synthInstance.maxSize 2000 in
example : gstReads (fun e => (e.1, e.2.lines.cap, e.2.rendering.intent)) = some [[(b!"G0", some 1, none), (b!"G1", none, some b!"Perceptual")], []] := by
  decide +kernel
example : gstReads (fun e => [gstDevice e.2.rendering.black, gstDevice e.2.rendering.undercolor, gstDevice e.2.rendering.transfer, gstDevice e.2.rendering.halftone]) =
    some [[[1, 0, 2, 1], [0, 0, 0, 2]], []] := by decide +kernel
set_option synthInstance.maxHeartbeats 400000 in
set_option synthInstance.maxSize 2000 in
example : gstReads (fun e => e.2.blending.soft.map gstShowSoft) =
    some [[some (b!"Luminosity", [6, 1, 1], [true, true, false, true]), some (b!"None", [], [])], []] := by decide +kernel

end PdfW.Props
