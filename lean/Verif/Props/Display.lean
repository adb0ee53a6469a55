import Verif.Proof.Display
import Verif.Proof.Fast
import Verif.Proof.ItemOk
import Verif.Props.Interpret

set_option linter.unusedSimpArgs false
set_option linter.unusedVariables false

/-!
# C68: what is painted

End to end, as C60: pages with their own or inherited resources, forms to any depth with their own matrix, bounding box and resources, stored
as they are or filtered, whichever way the file is finished. For every page the same elements in the same order, and for each of them the
whole graphics state: transformations, clipping, colors, and all parameters.
-/

namespace PdfW.Props
open PdfW Spec Imaging

/-- C68. -/
theorem C68_display (unf : Val → Bytes → Option Bytes) (h : PdfHist) (p : Pdf) (w : Finishing) (bytes : Bytes) (hr : h.run = some p)
    (hf : w.run p = some bytes) (hids : ∀ r ∈ docIds h ++ w.ids, r.get < 2147483647) (hlen : w.Fits p bytes) (hu : w.Undone unf)
    (cid : Ref) (cat : List CatalogCall) (t : PageTree) (hw : DocumentWritten unf h cid cat t)
    (forms : Nat) (pages : List (List (Element F32 Prog))) (ht : t.Display unf (pdfItems h) forms pages) (depth : Nat) (hd : t.depth ≤ depth)
    (n : Nat) (hn : forms ≤ n) :
    ∃ read, fileDisplay unf bytes depth n = some read ∧ Pairwise (Pairwise (SameElement NumIs Denotes)) pages read := by
  obtain ⟨f, h1, hfinds, hroot⟩ := finds_of hr hf hids hlen hu
  obtain ⟨d, hcat, he⟩ := catalog_read hfinds (hroot cid hw.root) hw.catalog hw.noType
  have hpg : (CatalogEntries .code cat).filter (fun e => e.1 == b!"Pages") = [(b!"Pages", IsRef t.id)] := by
    simp only [CatalogEntries, List.filter_append, onlyCall_filter hw.pages]
    rfl
  obtain ⟨w', hl, hw'⟩ := lookup_of he hpg
  simp only [IsRef] at hw'
  subst hw'
  obtain ⟨ys, hy, hym⟩ := tree_means (unf := unf) (R := Pairwise (SameElement NumIs Denotes)) hfinds (pageDisplay_read hfinds n forms hn)
    t depth hd hw.tree none none rfl pages ht
  exact ⟨ys, by simp only [fileDisplay, h1, Option.bind_some, readDisplay, hcat, hl, refNumber, hy], hym⟩

/-! ## A document that meets the hypotheses -/

def dspOne : F32 := ⟨false, 0x3F800000⟩
def dspTwo : F32 := ⟨false, 0x40000000⟩

def dspSep : Prog := .array [.prim (.name b!"Separation"), .prim (.name b!"Spot"), .prim (.name b!"DeviceCMYK"), .prim (.ref (rf 9))]
def dspGs : Prog := .dict [(b!"ca", .prim (.real dspOne))]

/-- The resources, given for the root of the page tree. -/
def dspRes : List ResourcesCall :=
  [.xObjects [(b!"X", .prim (.ref (rf 5))), (b!"I", .prim (.ref (rf 6)))], .colorSpaces [(b!"Sep", dspSep)], .extGStates [(b!"G", dspGs)],
   .fonts [(b!"F", .prim (.ref (rf 7)))], .shadings [(b!"S", .prim (.ref (rf 8)))], .patterns [(b!"P", .prim (.ref (rf 10)))]]

/-- A clip, a spot color, transparency and text, all inside saved states; then a shading, a form, an image, and a line. -/
def dspCalls : List ContentCall :=
  [.transform dspTwo F32.zero F32.zero dspTwo F32.zero F32.zero, .saveState, .rect F32.zero F32.zero dspOne dspTwo, .clipEvenOdd, .endPath,
   .setFillColorSpace (.named b!"Sep"), .setFillColor [dspOne], .setParameters b!"G",
   .beginText, .setFont b!"F" dspTwo, .nextLineAndSetLeading dspOne dspTwo, .show b!"ab", .nextLineShow b!"c", .endText, .restoreState,
   .shading b!"S", .xObject b!"X", .setLineWidth dspOne, .setLineWidth dspTwo, .setStrokeRgb dspOne F32.zero F32.zero, .xObject b!"I",
   .moveTo F32.zero F32.zero, .lineTo dspOne dspTwo, .closeAndStroke]
/-- The form is filled with a pattern. -/
def dspFormCalls : List ContentCall :=
  [.setFillColorSpace .pattern, .setFillPattern [] b!"P", .rect F32.zero F32.zero dspTwo dspTwo, .fillEvenOddAndStroke, .setLineCap .roundCap]

def dspPart : ContentPart := ⟨rf 4, [], ((runCalls dspCalls (Content.withSettings true)).get (by decide +kernel)).finish.inner, true, dspCalls⟩
def dspForm : FormPart := ⟨rf 5, [.bbox ⟨F32.zero, F32.zero, dspOne, dspOne⟩, .matrix [dspOne, F32.zero, F32.zero, dspTwo, dspOne, F32.zero]],
  ((runCalls dspFormCalls (Content.withSettings false)).get (by decide +kernel)).finish.inner, false, dspFormCalls⟩
def dspImage : List ImageXObjectCall := [.width 1, .height 1, .colorSpaceName b!"DeviceGray", .bitsPerComponent 8]

def dspTree : PageTree :=
  .node (rf 2) [.kids [rf 3], .count 1, .resources dspRes] [.page (rf 3) [.parent (rf 2), .contents (rf 4)] [dspPart]]

def dspDoc : PdfHist :=
  .call (.call (.call (.call (.call (.catalog (.new false) (rf 1) ([.pages (rf 2)].flatMap CatalogCall.entries))
    (.indirect (rf 2) (Pages.prog [.kids [rf 3], .count 1, .resources dspRes])))
    (.indirect (rf 3) (Page.prog [.parent (rf 2), .contents (rf 4)])))
    (.stream (rf 4) [] dspPart.data))
    (.stream (rf 5) (FormXObject.entries dspForm.calls) dspForm.data))
    (.stream (rf 6) (ImageXObject.entries dspImage) [0])

def dspUnf : Val → Bytes → Option Bytes := fun _ _ => none

/-- An object of the sample document. -/
macro "dsp_has" b:term : tactic => `(tactic| refine ⟨⟨_, $b, false⟩,
  by simp [dspDoc, pdfItems, callItems, chunkItems, chunkPretty, pdfPretty, dspPart, dspForm], rfl, rfl, itemOkB_sound _ (by decide +kernel)⟩)

theorem dspPart_ok : PartWritten dspUnf (pdfItems dspDoc) dspPart := by
  refine ⟨?_, ⟨(runCalls dspCalls (Content.withSettings true)).get (by decide +kernel), ?_, Or.inl ⟨?_, ?_⟩⟩, ?_, Or.inl rfl⟩
  · dsp_has (.stream [] dspPart.data)
  · simp [dspPart]
  · simp [NoCall, dspPart]
  · simp only [dspPart]
  · simp [dspPart, dspCalls, CallOk, operandsOf, OkItems, Ok, PrimOk, nam, num, dspOne, dspTwo]; decide

theorem dspForm_ok : dspForm.Written dspUnf (pdfItems dspDoc) where
  object := by dsp_has (.stream (FormXObject.entries dspForm.calls) dspForm.data)
  subtype := by simp [NoCall, dspForm, FormXObjectMeans]
  stored := ⟨(runCalls dspFormCalls (Content.withSettings false)).get (by decide +kernel), by simp [dspForm],
    Or.inl ⟨by simp [NoCall, dspForm, FormXObjectMeans], by simp only [dspForm]⟩⟩
  ok := by simp [dspForm, dspFormCalls, CallOk, operandsOf, OkItems, Ok, PrimOk, nam, num, dspTwo]; decide
  clash := Or.inr (by simp [dspForm, dspFormCalls, CallNoClash, operandsOf, NoClashItems, NoClash, isEmptyName, nam, num])

/-- All hypotheses about the document and its tree. -/
theorem dspDoc_ok : DocumentWritten dspUnf dspDoc (rf 1) [.pages (rf 2)] dspTree where
  root := rfl
  catalog := by
    refine ⟨⟨rf 1, .val (Catalog.prog [.pages (rf 2)]), false⟩, ?_, rfl, rfl, ?_⟩
    · simp only [dspDoc, pdfItems, callItems, chunkItems, chunkPretty, pdfPretty, Catalog.prog, Catalog.entries]
      simp [pName]
    · sample_ok
  noType := by simp [NoCall, CatalogMeans]
  pages := rfl
  tree := by
    simp only [dspTree, PageTree.Written, writtenList]
    refine ⟨?_, ?_, rfl, ⟨?_, ?_, Or.inr (Or.inl ⟨_, rfl, rfl⟩), ?_⟩, trivial⟩
    · dsp_has (.val (Pages.prog [.kids [rf 3], .count 1, .resources dspRes]))
    · simp [NoCall, PagesMeans]
    · dsp_has (.val (Page.prog [.parent (rf 2), .contents (rf 4)]))
    · simp [NoCall, PageMeans]
    · simp only [List.mem_singleton, forall_eq]; exact dspPart_ok

/-! What is asked for. -/

def dspGray : Color F32 Prog := ⟨.prim (.name b!"DeviceGray"), [], none⟩
def dspM : List F32 := [dspTwo, F32.zero, F32.zero, dspTwo, F32.zero, F32.zero]
/-- At the beginning, after the transformation. -/
def dspBase : GState F32 Prog := ⟨[dspM], [], dspGray, dspGray, []⟩
/-- While text is shown. -/
def dspText : GState F32 Prog where
  ctm := [dspM]
  clips := [.path [⟨.rectangle, [F32.zero, F32.zero, dspOne, dspTwo]⟩] .evenOdd [dspM]]
  stroking := dspGray
  filling := ⟨dspSep, [dspOne], none⟩
  settings := [⟨.leading, .negated dspTwo⟩, ⟨.font, .font (.prim (.ref (rf 7))) dspTwo⟩, ⟨.dictionary, .dictionary dspGs⟩]
/-- In the form. -/
def dspIn : GState F32 Prog where
  ctm := [[dspOne, F32.zero, F32.zero, dspTwo, dspOne, F32.zero], dspM]
  clips := [.box [F32.zero, F32.zero, dspOne, dspOne] [[dspOne, F32.zero, F32.zero, dspTwo, dspOne, F32.zero], dspM]]
  stroking := dspGray
  filling := ⟨.prim (.name b!"Pattern"), [], some (.prim (.ref (rf 10)))⟩
  settings := []
/-- After the form. -/
def dspAfter : GState F32 Prog :=
  ⟨[dspM], [], ⟨.prim (.name b!"DeviceRGB"), [dspOne, F32.zero, F32.zero], none⟩, dspGray, [⟨.lineWidth, .number dspTwo⟩]⟩

def dspInner : List (Element F32 Prog) := [.path [⟨.rectangle, [F32.zero, F32.zero, dspTwo, dspTwo]⟩] (some .evenOdd) true dspIn]
def dspElements : List (Element F32 Prog) :=
  [.text ⟨[.by dspOne dspTwo], 0, [.codes b!"ab"], dspText.ctm, dspText.settings⟩ dspText,
   .text ⟨[.next (some (.negated dspTwo)), .by dspOne dspTwo], 0, [.codes b!"c"], dspText.ctm, dspText.settings⟩ dspText,
   .shading (.prim (.ref (rf 8))) dspBase,
   .enter 5 dspBase] ++ dspInner ++ [.leave 5,
   .image 6 dspAfter,
   .path [⟨.move, [F32.zero, F32.zero]⟩, ⟨.line, [dspOne, dspTwo]⟩, ⟨.close, []⟩] none true dspAfter]

/-- What names refer to. -/
def dspResource (c n : Bytes) : Option Prog :=
  if c = b!"ColorSpace" ∧ n = b!"Sep" then some dspSep
  else if c = b!"ExtGState" ∧ n = b!"G" then some dspGs
  else if c = b!"Font" ∧ n = b!"F" then some (.prim (.ref (rf 7)))
  else if c = b!"Shading" ∧ n = b!"S" then some (.prim (.ref (rf 8)))
  else if c = b!"Pattern" ∧ n = b!"P" then some (.prim (.ref (rf 10)))
  else none

theorem dspResource_ok (c n : Bytes) (v : Prog) (h : dspResource c n = some v) :
    ResourceGiven (pdfItems dspDoc) (some dspRes) c n v := by
  unfold dspResource at h
  split at h
  · rename_i hc; obtain ⟨rfl, rfl⟩ := hc; cases h
    exact ⟨.colorSpaces, dspRes, _, by simp [categoryMethods], rfl, Or.inl rfl, rfl⟩
  split at h
  · rename_i hc; obtain ⟨rfl, rfl⟩ := hc; cases h
    exact ⟨.extGStates, dspRes, _, by simp [categoryMethods], rfl, Or.inl rfl, rfl⟩
  split at h
  · rename_i hc; obtain ⟨rfl, rfl⟩ := hc; cases h
    exact ⟨.fonts, dspRes, _, by simp [categoryMethods], rfl, Or.inl rfl, rfl⟩
  split at h
  · rename_i hc; obtain ⟨rfl, rfl⟩ := hc; cases h
    exact ⟨.shadings, dspRes, _, by simp [categoryMethods], rfl, Or.inl rfl, rfl⟩
  split at h
  · rename_i hc; obtain ⟨rfl, rfl⟩ := hc; cases h
    exact ⟨.patterns, dspRes, _, by simp [categoryMethods], rfl, Or.inl rfl, rfl⟩
  · cases h

/-- What the form paints, in any graphics state. -/
def dspInside (g : GState F32 Prog) : List (Element F32 Prog) :=
  [.path [⟨.rectangle, [F32.zero, F32.zero, dspTwo, dspTwo]⟩] (some .evenOdd) true
    { inside (some [dspOne, F32.zero, F32.zero, dspTwo, dspOne, F32.zero]) [F32.zero, F32.zero, dspOne, dspOne] g with
      filling := ⟨.prim (.name b!"Pattern"), [], some (.prim (.ref (rf 10)))⟩ }]

/-- What painting XObjects paints. -/
def dspObject (n : Bytes) (g : GState F32 Prog) : Option (List (Element F32 Prog)) :=
  if n = b!"X" then some ([.enter 5 g] ++ dspInside g ++ [.leave 5])
  else if n = b!"I" then some [.image 6 g]
  else none

theorem dspForm_displays (g : GState F32 Prog) : Displays dspUnf (pdfItems dspDoc) 0 (some dspRes)
    (inside (some [dspOne, F32.zero, F32.zero, dspTwo, dspOne, F32.zero]) [F32.zero, F32.zero, dspOne, dspOne] g) dspForm.content (dspInside g) :=
  ⟨⟨fun n => .prim (.name n), dspResource, fun _ _ => none⟩, fun _ => rfl, dspResource_ok, (by intro n g es h; cases h),
    by simp [dspForm, dspFormCalls, Unrelated], rfl⟩

/-- What the calls ask for. -/
theorem dspTree_display : dspTree.Display dspUnf (pdfItems dspDoc) 1 [dspElements] := by
  simp only [dspTree, PageTree.Display, PageTree.Each, eachList]
  refine ⟨some dspRes, Or.inr ⟨_, rfl, Or.inl rfl⟩, [dspElements], [], rfl, ⟨some dspRes, _, rfl, Or.inl ⟨?_, rfl⟩, ?_⟩, rfl⟩
  · simp [NoCall, PageMeans]
  · refine ⟨⟨fun n => .prim (.name n), dspResource, dspObject⟩, fun _ => rfl, dspResource_ok, ?_, ?_, rfl⟩
    · intro n g es h
      replace h : dspObject n g = some es := h
      unfold dspObject at h
      split at h
      · rename_i hn; subst hn; cases h
        exact Or.inr ⟨dspForm, some dspRes, some _, ⟨F32.zero, F32.zero, dspOne, dspOne⟩, dspInside g, ⟨dspRes, _, rfl, Or.inl rfl, rfl⟩, dspForm_ok,
          Or.inl ⟨by simp [NoCall, dspForm, FormXObjectMeans], rfl⟩, rfl, rfl, dspForm_displays g, rfl⟩
      split at h
      · rename_i hn; subst hn; cases h
        exact Or.inl ⟨rf 6, dspImage, [0], ⟨dspRes, _, rfl, Or.inl rfl, rfl⟩, by dsp_has (.stream (ImageXObject.entries dspImage) [0]),
          by simp [NoCall, dspImage, ImageXObjectMeans], rfl⟩
      · cases h
    · simp [dspPart, dspCalls, Unrelated]

/-- The remaining hypotheses. -/
example : ∀ r ∈ docIds dspDoc, r.get < 2147483647 := by decide +kernel
example : dspTree.depth = 2 := rfl

/-- What a reader of the sample sees of an element: what it is, and how many transformations, restrictions and settings are in effect. -/
def dspShow : Element Val Val → Nat × Bytes × Nat × Nat × Nat
  | .path p f s g => (1, [p.length.toUInt8, (if f.isSome then 1 else 0), (if s then 1 else 0)], g.ctm.length, g.clips.length, g.settings.length)
  | .text r g => (2, r.shown.flatMap fun | .codes s => s | .adjust _ => [], g.ctm.length, g.clips.length, g.settings.length)
  | .shading _ g => (3, [], g.ctm.length, g.clips.length, g.settings.length)
  | .image n g => (4, [n.toUInt8], g.ctm.length, g.clips.length, g.settings.length)
  | .enter n g => (5, [n.toUInt8], g.ctm.length, g.clips.length, g.settings.length)
  | .leave n => (6, [n.toUInt8], 0, 0, 0)

set_option synthInstance.maxHeartbeats 400000 in
set_option synthInstance.maxSize 2000 in
/-- The file can be finished and is short enough, and this is read from it. -/
example : ((dspDoc.run.bind fun p => p.finish).bind fun b => if b.length < 10 ^ 10 then
      (fileDisplay dspUnf b 2 1).map fun ps => ps.map fun p => p.map dspShow else none) =
    some [[(2, b!"ab", 1, 1, 3), (2, b!"c", 1, 1, 3), (3, [], 1, 0, 0), (5, [5], 1, 0, 0), (1, [1, 1, 1], 2, 1, 0), (6, [5], 0, 0, 0),
      (4, [6], 1, 0, 1), (1, [3, 0, 1], 1, 0, 1)]] := by
  rw [← fastRun_eq]
  decide +kernel

end PdfW.Props
