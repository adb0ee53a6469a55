import Verif.Proof.Glyphs
import Verif.Proof.Associated
import Verif.Proof.ItemOk
import Verif.Proof.Fast
import Verif.Props.Annots
import Verif.Props.Display

set_option linter.unusedSimpArgs false
set_option linter.unusedVariables false

/-!
# C91: characters of Type 3 fonts

End to end, as C67 and C68: for every Type 3 font in the resources of each page and every code of its encoding, what the glyph description paints,
whichever way the file is finished.
-/

namespace PdfW.Props
open PdfW Spec Imaging

/-- C91. -/
theorem C91_characters (unf : Val → Bytes → Option Bytes) (h : PdfHist) (p : Pdf) (w : Finishing) (bytes : Bytes) (hr : h.run = some p)
    (hf : w.run p = some bytes) (hids : ∀ r ∈ docIds h ++ w.ids, r.get < 2147483647) (hlen : w.Fits p bytes) (hu : w.Undone unf)
    (cid : Ref) (cat : List CatalogCall) (t : PageTree) (hw : DocumentWritten unf h cid cat t) (forms : Nat)
    (chars : List (List (Bytes × List (Character F32 Prog)))) (ht : t.Characters unf (pdfItems h) forms chars)
    (depth m : Nat) (hd : t.depth ≤ depth) (hm : forms ≤ m) :
    ∃ read, fileCharacters unf bytes depth m = some read ∧ Pairwise SameCharacters chars read := by
  obtain ⟨f, h1, hfinds, hroot⟩ := finds_of hr hf hids hlen hu
  obtain ⟨d, hcat, he⟩ := catalog_read hfinds (hroot cid hw.root) hw.catalog hw.noType
  have hpg : (CatalogEntries .code cat).filter (fun e => e.1 == b!"Pages") = [(b!"Pages", IsRef t.id)] := by
    simp only [CatalogEntries, List.filter_append, onlyCall_filter hw.pages]
    rfl
  obtain ⟨w', hl, hw'⟩ := lookup_of he hpg
  simp only [IsRef] at hw'
  subst hw'
  obtain ⟨ys, hy, hym⟩ := tree_means (unf := unf) (R := SameCharacters) hfinds (pageCharacters_read hfinds hm) t depth hd hw.tree none none rfl chars ht
  exact ⟨ys, by simp only [fileCharacters, h1, Option.bind_some, hcat, hl, refNumber, hy], hym⟩

/-- C91: where a page, or a form on it, shows text in a Type 3 font, every code paints the character asked for. -/
theorem C91_shown (unf : Val → Bytes → Option Bytes) (h : PdfHist) (p : Pdf) (w : Finishing) (bytes : Bytes) (hr : h.run = some p)
    (hf : w.run p = some bytes) (hids : ∀ r ∈ docIds h ++ w.ids, r.get < 2147483647) (hlen : w.Fits p bytes) (hu : w.Undone unf)
    (cid : Ref) (cat : List CatalogCall) (t : PageTree) (hw : DocumentWritten unf h cid cat t) (forms : Nat)
    (pages : List (List (Element F32 Prog))) (ht : t.Display unf (pdfItems h) forms pages) (depth n : Nat) (hd : t.depth ≤ depth) (hn : forms ≤ n) :
    ∃ f read, readFile unf bytes = some f ∧ fileDisplay unf bytes depth n = some read ∧
      Pairwise (Pairwise fun e e' => SameElement NumIs Denotes e e' ∧ ∀ k m, k ≤ m → RunsAsAsked unf (pdfItems h) f bytes k m e e') pages read := by
  obtain ⟨f, h1, hfinds, -⟩ := finds_of hr hf hids hlen hu
  obtain ⟨read, h2, h3⟩ := C68_display unf h p w bytes hr hf hids hlen hu cid cat t hw forms pages ht depth hd n hn
  exact ⟨f, read, h1, h2, pairwise_mono (fun _ _ hp => pairwise_mono (fun _ _ he => ⟨he, fun k m hkm => run_read hfinds hkm he⟩) hp) h3⟩

/-! ## A document that meets the hypotheses

A Type 3 font with a colored glyph that uses a color space of the font, a shape, and a name without a glyph; and a Type 1 font. -/

def gphOne : F32 := ⟨false, 0x3F800000⟩
def gphHalf : F32 := ⟨false, 0x3F000000⟩

def gphBoxCalls : List ContentCall :=
  [.startColorGlyph gphOne, .setFillColorSpace (.named b!"C"), .setFillColor [gphHalf], .rect F32.zero F32.zero gphOne gphHalf, .fillNonzero]
def gphBox : ContentPart := ⟨rf 6, [], ((runCalls gphBoxCalls (Content.withSettings true)).get (by decide +kernel)).finish.inner, true, gphBoxCalls⟩
def gphDotCalls : List ContentCall := [.startShapeGlyph gphHalf F32.zero F32.zero gphHalf gphOne, .moveTo gphOne gphHalf, .closePath, .fillEvenOdd]
def gphDot : ContentPart := ⟨rf 7, [], ((runCalls gphDotCalls (Content.withSettings false)).get (by decide +kernel)).finish.inner, false, gphDotCalls⟩

def gphSpace : Prog := .array [.prim (.name b!"Pattern")]
def gphFontRes : List ResourcesCall := [.colorSpaces [(b!"C", gphSpace)]]
def gphDiffs : List DifferencesCall := [.consecutive 65 [b!"box", b!"dot"], .consecutive 70 [b!"lost", b!"box"]]
def gphEncoding : List EncodingCall := [.differences gphDiffs]
def gphFontCalls : List Type3FontCall :=
  [.bbox ⟨F32.zero, F32.zero, gphOne, gphOne⟩, .matrix [gphOne, F32.zero, F32.zero, gphOne, F32.zero, F32.zero],
   .charProcs [(b!"box", rf 6), (b!"dot", rf 7)], .encodingCustom gphEncoding, .resources gphFontRes]
def gphSimpleCalls : List Type1FontCall := [.baseFont b!"Helvetica"]
def gphRes : List ResourcesCall := [.fonts [(b!"F1", Type1Font.prog gphSimpleCalls), (b!"F2", .prim (.ref (rf 5)))]]

def gphCalls : List ContentCall := [.beginText, .setFont b!"F2" gphOne, .show b!"ABFG", .endText]
def gphPart : ContentPart := ⟨rf 4, [], ((runCalls gphCalls (Content.withSettings true)).get (by decide +kernel)).finish.inner, true, gphCalls⟩

def gphTree : PageTree :=
  .node (rf 2) [.kids [rf 3], .count 1, .resources gphRes] [.page (rf 3) [.parent (rf 2), .contents (rf 4)] [gphPart]]

def gphDoc : PdfHist :=
  .call (.call (.call (.call (.call (.call (.catalog (.new false) (rf 1) ([.pages (rf 2)].flatMap CatalogCall.entries))
    (.indirect (rf 2) (Pages.prog [.kids [rf 3], .count 1, .resources gphRes])))
    (.indirect (rf 3) (Page.prog [.parent (rf 2), .contents (rf 4)])))
    (.stream (rf 4) [] gphPart.data))
    (.indirect (rf 5) (Type3Font.prog gphFontCalls)))
    (.stream (rf 6) [] gphBox.data))
    (.stream (rf 7) [] gphDot.data)

/-- No filters. -/
def gphUnf : Val → Bytes → Option Bytes := fun _ _ => none

/-- An object of the sample document. -/
macro "gph_has" b:term : tactic => `(tactic| refine ⟨⟨_, $b, false⟩,
  by simp [gphDoc, pdfItems, callItems, chunkItems, chunkPretty, pdfPretty, gphPart, gphBox, gphDot, Stream.entries], rfl, rfl,
  itemOkB_sound _ (by decide +kernel)⟩)

theorem gphPart_ok : PartWritten gphUnf (pdfItems gphDoc) gphPart := by
  refine ⟨?_, ⟨(runCalls gphCalls (Content.withSettings true)).get (by decide +kernel), ?_, Or.inl ⟨?_, ?_⟩⟩, ?_, Or.inl rfl⟩
  · gph_has (.stream [] gphPart.data)
  · simp [gphPart]
  · exact noCall_keys rfl
  · simp only [gphPart]
  · simp [gphPart, gphCalls, CallOk, operandsOf, OkItems, Ok, PrimOk, nam, num, gphOne]; decide

theorem gphBox_ok : PartWritten gphUnf (pdfItems gphDoc) gphBox := by
  refine ⟨?_, ⟨(runCalls gphBoxCalls (Content.withSettings true)).get (by decide +kernel), ?_, Or.inl ⟨?_, ?_⟩⟩, ?_, Or.inl rfl⟩
  · gph_has (.stream [] gphBox.data)
  · simp [gphBox]
  · exact noCall_keys rfl
  · simp only [gphBox]
  · simp [gphBox, gphBoxCalls, CallOk, operandsOf, OkItems, Ok, PrimOk, nam, num, gphOne, gphHalf]; decide

theorem gphDot_ok : PartWritten gphUnf (pdfItems gphDoc) gphDot := by
  refine ⟨?_, ⟨(runCalls gphDotCalls (Content.withSettings false)).get (by decide +kernel), ?_, Or.inl ⟨?_, ?_⟩⟩, ?_, Or.inr ?_⟩
  · gph_has (.stream [] gphDot.data)
  · simp [gphDot]
  · exact noCall_keys rfl
  · simp only [gphDot]
  · simp [gphDot, gphDotCalls, CallOk, operandsOf, OkItems, Ok, PrimOk, nam, num, gphOne, gphHalf]; decide
  · simp [gphDot, gphDotCalls, CallNoClash, operandsOf, NoClashItems, NoClash, isEmptyName, nam, num]

/-- All hypotheses about the document and its tree. -/
theorem gphDoc_ok : DocumentWritten gphUnf gphDoc (rf 1) [.pages (rf 2)] gphTree where
  root := rfl
  catalog := by
    refine ⟨⟨rf 1, .val (Catalog.prog [.pages (rf 2)]), false⟩, ?_, rfl, rfl, ?_⟩
    · simp only [gphDoc, pdfItems, callItems, chunkItems, chunkPretty, pdfPretty, Catalog.prog, Catalog.entries]
      simp [pName]
    · sample_ok
  noType := by simp [NoCall, CatalogMeans]
  pages := rfl
  tree := by
    simp only [gphTree, PageTree.Written, writtenList]
    refine ⟨?_, noCall_keys rfl, rfl, ⟨?_, noCall_keys rfl, Or.inr (Or.inl ⟨_, rfl, rfl⟩), ?_⟩, trivial⟩
    · gph_has (.val (Pages.prog [.kids [rf 3], .count 1, .resources gphRes]))
    · gph_has (.val (Page.prog [.parent (rf 2), .contents (rf 4)]))
    · simp only [List.mem_singleton, forall_eq]; exact gphPart_ok

/-- What is asked for: the elements of the glyphs. -/
def gphState : GState F32 Prog := initial fun n => .prim (.name n)
def gphBoxLooks : GlyphStart F32 × List (Element F32 Prog) :=
  (.colored [gphOne, F32.zero],
    [.path [⟨.rectangle, [F32.zero, F32.zero, gphOne, gphHalf]⟩] (some .nonzero) false { gphState with filling := ⟨gphSpace, [gphHalf], none⟩ }])
def gphDotLooks : GlyphStart F32 × List (Element F32 Prog) :=
  (.shape [gphHalf, F32.zero] [F32.zero, F32.zero, gphHalf, gphOne], [.path [⟨.move, [gphOne, gphHalf]⟩, ⟨.close, []⟩] (some .evenOdd) false gphState])
def gphChars : List (List (Bytes × List (Character F32 Prog))) :=
  [[(b!"F1", []), (b!"F2", [(65, b!"box", some gphBoxLooks), (66, b!"dot", some gphDotLooks), (70, b!"lost", none), (71, b!"box", some gphBoxLooks)])]]

def gphNamed (cat n : Bytes) : Option Prog := if cat = b!"ColorSpace" ∧ n = b!"C" then some gphSpace else none

def gphGlyphs : List (Bytes × ContentPart) := [(b!"box", gphBox), (b!"dot", gphDot)]

theorem gphBox_given : GlyphGiven gphUnf (pdfItems gphDoc) 0 (some gphFontRes) gphGlyphs b!"box" (some gphBoxLooks) := by
  refine ⟨gphBox, _, _, rfl, gphBox_ok, rfl, .colored, ⟨fun n => .prim (.name n), gphNamed, fun _ _ => none⟩, fun _ => rfl, ?_, (by intro _ _ _ h; cases h),
    by simp [Unrelated], rfl⟩
  intro c n v h
  replace h : gphNamed c n = some v := h
  unfold gphNamed at h
  split at h
  · rename_i hc; obtain ⟨rfl, rfl⟩ := hc; cases h
    exact ⟨.colorSpaces, gphFontRes, _, by simp [categoryMethods], rfl, Or.inl rfl, rfl⟩
  · cases h

theorem gphDot_given : GlyphGiven gphUnf (pdfItems gphDoc) 0 (some gphFontRes) gphGlyphs b!"dot" (some gphDotLooks) :=
  ⟨gphDot, _, _, rfl, gphDot_ok, rfl, .shape, ⟨fun n => .prim (.name n), fun _ _ => none, fun _ _ => none⟩, fun _ => rfl, (by intro _ _ _ h; cases h),
    (by intro _ _ _ h; cases h), by simp [Unrelated], rfl⟩

theorem gphFont_ok (page : Option (List ResourcesCall)) : CharactersGiven gphUnf (pdfItems gphDoc) 0 page (.prim (.ref (rf 5)))
    [(65, b!"box", some gphBoxLooks), (66, b!"dot", some gphDotLooks), (70, b!"lost", none), (71, b!"box", some gphBoxLooks)] := by
  refine Or.inr (Or.inr ⟨gphFontCalls, gphEncoding, none, gphDiffs, gphGlyphs, some gphFontRes, Or.inr ⟨_, rfl, ?_⟩, noCall_keys rfl, rfl,
    ⟨noCall_keys rfl, rfl, ?_⟩, rfl, Or.inr ⟨_, rfl, Or.inl rfl⟩, ?_⟩)
  · gph_has (.val (Type3Font.prog gphFontCalls))
  · intro x hx; cases hx; simp [gphDiffs, DifferencesCall.typed]
  · exact .cons ⟨rfl, rfl, gphBox_given⟩ (.cons ⟨rfl, rfl, gphDot_given⟩ (.cons ⟨rfl, rfl, rfl⟩ (.cons ⟨rfl, rfl, gphBox_given⟩ .nil)))

/-- What the calls ask for. -/
theorem gphTree_chars : gphTree.Characters gphUnf (pdfItems gphDoc) 0 gphChars := by
  simp only [gphTree, PageTree.Characters, PageTree.Each, eachList]
  refine ⟨some gphRes, Or.inr ⟨_, rfl, Or.inl rfl⟩, [gphChars[0]], [], rfl, ⟨some gphRes, _, rfl, Or.inl ⟨noCall_keys rfl, rfl⟩, ?_⟩, rfl⟩
  exact Or.inr ⟨_, Or.inl rfl, .cons ⟨rfl, Or.inl ⟨gphSimpleCalls, Or.inl rfl, noCall_keys rfl, rfl⟩⟩ (.cons ⟨rfl, gphFont_ok _⟩ .nil)⟩

/-- The text on the page: four codes in the Type 3 font. -/
def gphRun : Run F32 Prog := ⟨[], 0, [.codes b!"ABFG"], [], [⟨.font, .font (.prim (.ref (rf 5))) gphOne⟩]⟩
def gphPages : List (List (Element F32 Prog)) := [[.text gphRun { gphState with settings := gphRun.settings }]]

theorem gphTree_display : gphTree.Display gphUnf (pdfItems gphDoc) 0 gphPages := by
  simp only [gphTree, PageTree.Display, PageTree.Each, eachList]
  refine ⟨some gphRes, Or.inr ⟨_, rfl, Or.inl rfl⟩, [gphPages[0]], [], rfl, ⟨some gphRes, _, rfl, Or.inl ⟨noCall_keys rfl, rfl⟩, ?_⟩, rfl⟩
  refine ⟨⟨fun n => .prim (.name n), fun c n => if c = b!"Font" ∧ n = b!"F2" then some (.prim (.ref (rf 5))) else none, fun _ _ => none⟩, fun _ => rfl, ?_,
    (by intro _ _ _ h; cases h), by simp [gphPart, gphCalls, Unrelated], rfl⟩
  intro c n v h
  dsimp only at h
  split at h
  · rename_i hc; obtain ⟨rfl, rfl⟩ := hc; cases h
    exact ⟨.fonts, gphRes, _, by simp [categoryMethods], rfl, Or.inl rfl, rfl⟩
  · cases h

/-- The font says how this text looks, also without the resources of the page; the characters shown are these. -/
example : CharactersGiven gphUnf (pdfItems gphDoc) 0 none (.prim (.ref (rf 5)))
    [(65, b!"box", some gphBoxLooks), (66, b!"dot", some gphDotLooks), (70, b!"lost", none), (71, b!"box", some gphBoxLooks)] := gphFont_ok none
example : valueOf .font gphRun.settings = some (.font (.prim (.ref (rf 5))) gphOne) ∧
    (codesShown gphRun.shown).map (fun c => characterAt c (gphChars.head!.getLast!.2)) =
      [some (65, b!"box", some gphBoxLooks), some (66, b!"dot", some gphDotLooks), some (70, b!"lost", none), some (71, b!"box", some gphBoxLooks)] := ⟨rfl, rfl⟩

/-- The remaining hypotheses. -/
example : ∀ r ∈ docIds gphDoc, r.get < 2147483647 := by decide +kernel
example : gphTree.depth = 2 := rfl

/-- What a reader of the sample sees of a character: code, name, how many operands the first operator has, and how many segments the paths have. -/
def gphShow (x : Character Val Val) : Int × Bytes × List Nat :=
  (x.1, x.2.1, match x.2.2 with
    | none => []
    | some (s, es) => (match s with | .colored a => a.length | .shape a b => a.length + b.length) ::
        es.map fun | .path p _ _ g => p.length + 10 * g.filling.components.length | _ => 99)

set_option synthInstance.maxHeartbeats 400000 in
set_option synthInstance.maxSize 2000 in
/-- The file can be finished and is short enough, and this is read from it. -/
example : ((gphDoc.run.bind fun p => p.finish).bind fun b => if b.length < 10 ^ 10 then
      (fileCharacters gphUnf b 2 0).map fun ps => ps.map fun p => p.map fun x => (x.1, x.2.map gphShow) else none) =
    some [[(b!"F1", []), (b!"F2", [(65, b!"box", [2, 11]), (66, b!"dot", [6, 2]), (70, b!"lost", []), (71, b!"box", [2, 11])])]] := by
  rw [← fastRun_eq]
  decide +kernel

end PdfW.Props
