import Verif.Proof.Fonts
import Verif.Proof.ItemOk
import Verif.Proof.Fast
import Verif.Props.Interpret

set_option linter.unusedSimpArgs false
set_option linter.unusedVariables false

/-!
# C67: fonts

End to end, as C60: the fonts in the resources of each page, given on the page or inherited, in place or as objects of their own, with
everything that a processor needs to draw text with them, whichever way the file is finished.
-/

namespace PdfW.Props
open PdfW Spec

/-- C67. -/
theorem C67_fonts (unf : Val → Bytes → Option Bytes) (h : PdfHist) (p : Pdf) (w : Finishing) (bytes : Bytes) (hr : h.run = some p)
    (hf : w.run p = some bytes) (hids : ∀ r ∈ docIds h ++ w.ids, r.get < 2147483647) (hlen : w.Fits p bytes) (hu : w.Undone unf)
    (cid : Ref) (cat : List CatalogCall) (t : PageTree) (hw : DocumentWritten unf h cid cat t)
    (fonts : List (List (Bytes × FontGiven))) (ht : t.Fonts unf (pdfItems h) fonts) (depth : Nat) (hd : t.depth ≤ depth) :
    ∃ read, fileFonts unf bytes depth = some read ∧ Pairwise FontsMean fonts read := by
  obtain ⟨f, h1, hfinds, hroot⟩ := finds_of hr hf hids hlen hu
  obtain ⟨d, hcat, he⟩ := catalog_read hfinds (hroot cid hw.root) hw.catalog hw.noType
  have hpg : (CatalogEntries .code cat).filter (fun e => e.1 == b!"Pages") = [(b!"Pages", IsRef t.id)] := by
    simp only [CatalogEntries, List.filter_append, onlyCall_filter hw.pages]
    rfl
  obtain ⟨w', hl, hw'⟩ := lookup_of he hpg
  simp only [IsRef] at hw'
  subst hw'
  obtain ⟨ys, hy, hym⟩ := tree_means (unf := unf) (R := FontsMean) hfinds (pageFonts_read hfinds) t depth hd hw.tree none none rfl fonts ht
  exact ⟨ys, by simp only [fileFonts, h1, Option.bind_some, readFonts, hcat, hl, refNumber, hy], hym⟩

/-! ## A document that meets the hypotheses -/

def fntHalf : F32 := ⟨false, 0x3F000000⟩
def fntOne : F32 := ⟨false, 0x3F800000⟩

/-- A simple font with its own encoding, widths and an embedded program, in place in the resources. -/
def fntSimpleCalls : List Type1FontCall :=
  [.baseFont b!"ABCDEF+Foo", .firstChar 65, .lastChar 67, .widths [fntHalf, fntOne, fntHalf], .fontDescriptor (rf 5),
   .encodingCustom [.baseEncoding b!"WinAnsiEncoding", .differences [.consecutive 65 [b!"alpha", b!"beta"], .consecutive 70 [b!"gamma"]]]]
def fntProgram : ProgramGiven := ⟨.fontFile3, rf 6, [.filter .flateDecode, .raw b!"Subtype" (.prim (.name b!"Type1C"))], b!"??", some b!"Type1C", b!"program"⟩
def fntDescriptor : DescriptorGiven where
  id := rf 5
  calls := [.name b!"ABCDEF+Foo", .flags [.serif, .symbolic], .bbox ⟨F32.zero, F32.zero, fntOne, fntOne⟩, .italicAngle F32.zero, .ascent fntOne,
    .descent fntHalf, .stemV fntHalf, .fontFile3 (rf 6), .xHeight fntHalf]
  name := some b!"ABCDEF+Foo"
  flags := some [.serif, .symbolic]
  bbox := some ⟨F32.zero, F32.zero, fntOne, fntOne⟩
  italicAngle := some F32.zero
  ascent := some fntOne
  descent := some fntHalf
  capHeight := none
  stemV := some fntHalf
  program := some fntProgram
def fntSimple : FontGiven := .type1 fntSimpleCalls (some b!"ABCDEF+Foo")
  (some (.custom [.baseEncoding b!"WinAnsiEncoding", .differences [.consecutive 65 [b!"alpha", b!"beta"], .consecutive 70 [b!"gamma"]]]
    (some b!"WinAnsiEncoding") (some [.consecutive 65 [b!"alpha", b!"beta"], .consecutive 70 [b!"gamma"]])))
  [(65, fntHalf), (66, fntOne), (67, fntHalf)] (some fntDescriptor)

/-- A font whose glyphs are content streams. -/
def fntGlyphCalls : List ContentCall := [.startColorGlyph fntOne, .rect F32.zero F32.zero fntOne fntHalf, .fillNonzero]
def fntGlyph : ContentPart := ⟨rf 8, [], ((runCalls fntGlyphCalls (Content.withSettings false)).get (by decide +kernel)).finish.inner, false, fntGlyphCalls⟩
def fntDrawnCalls : List Type3FontCall :=
  [.bbox ⟨F32.zero, F32.zero, fntOne, fntOne⟩, .matrix [fntOne, F32.zero, F32.zero, fntOne, F32.zero, F32.zero], .charProcs [(b!"box", rf 8)],
   .encodingPredefined b!"MacRomanEncoding"]
def fntDrawn : FontGiven := .type3 fntDrawnCalls (some [fntOne, F32.zero, F32.zero, fntOne, F32.zero, F32.zero]) (some (.predefined b!"MacRomanEncoding")) []
  [(b!"box", fntGlyph)]

/-- A composite font. -/
def fntCompositeCalls : List Type0FontCall := [.baseFont b!"Bar", .encodingPredefined b!"Identity-H", .descendantFont (rf 10)]
def fntCid : CidFontGiven where
  id := rf 10
  calls := [.subtype .type2, .systemInfo ⟨b!"Adobe", b!"Identity", 0⟩, .defaultWidth fntOne,
    .widths [.consecutive 1 [fntHalf, fntOne], .same 7 9 fntHalf], .cidToGidMapStream (rf 11)]
  subtype := .type2
  base := none
  info := ⟨b!"Adobe", b!"Identity", 0⟩
  defaultWidth := some fntOne
  widths := some [.consecutive 1 [fntHalf, fntOne], .same 7 9 fntHalf]
  gids := some (.map (rf 11) [] [0, 0, 1, 2] [0, 258])
  descriptor := none
def fntComposite : FontGiven := .type0 fntCompositeCalls (some b!"Bar") b!"Identity-H" fntCid

def fntRes : List ResourcesCall :=
  [.fonts [(b!"F1", Type1Font.prog fntSimpleCalls), (b!"F2", .prim (.ref (rf 7))), (b!"F3", .prim (.ref (rf 9)))]]

def fntCalls : List ContentCall := [.beginText, .setFont b!"F1" fntOne, .endText]
def fntPart : ContentPart := ⟨rf 4, [], ((runCalls fntCalls (Content.withSettings true)).get (by decide +kernel)).finish.inner, true, fntCalls⟩

def fntTree : PageTree :=
  .node (rf 2) [.kids [rf 3], .count 1, .resources fntRes] [.page (rf 3) [.parent (rf 2), .contents (rf 4)] [fntPart]]

def fntDoc : PdfHist :=
  .call (.call (.call (.call (.call (.call (.call (.call (.call (.call (.catalog (.new false) (rf 1) ([.pages (rf 2)].flatMap CatalogCall.entries))
    (.indirect (rf 2) (Pages.prog [.kids [rf 3], .count 1, .resources fntRes])))
    (.indirect (rf 3) (Page.prog [.parent (rf 2), .contents (rf 4)])))
    (.stream (rf 4) [] fntPart.data))
    (.indirect (rf 5) (FontDescriptor.prog fntDescriptor.calls)))
    (.stream (rf 6) (Stream.entries fntProgram.calls) fntProgram.stored))
    (.indirect (rf 7) (Type3Font.prog fntDrawnCalls)))
    (.stream (rf 8) [] fntGlyph.data))
    (.indirect (rf 9) (Type0Font.prog fntCompositeCalls)))
    (.indirect (rf 10) (CidFont.prog fntCid.calls)))
    (.stream (rf 11) [] [0, 0, 1, 2])

def fntUnf : Val → Bytes → Option Bytes
  | .name n, d => if n = b!"FlateDecode" ∧ d = b!"??" then some b!"program" else none
  | _, _ => none

/-- What is asked for. -/
def fntFonts : List (List (Bytes × FontGiven)) := [[(b!"F1", fntSimple), (b!"F2", fntDrawn), (b!"F3", fntComposite)]]

/-- An object of the sample document. -/
macro "fnt_has" b:term : tactic => `(tactic| refine ⟨⟨_, $b, false⟩,
  by simp [fntDoc, pdfItems, callItems, chunkItems, chunkPretty, pdfPretty, fntPart, fntGlyph, fntProgram, fntDescriptor, fntCid, Stream.entries], rfl, rfl,
  itemOkB_sound _ (by decide +kernel)⟩)

theorem fntPart_ok : PartWritten fntUnf (pdfItems fntDoc) fntPart := by
  refine ⟨?_, ⟨(runCalls fntCalls (Content.withSettings true)).get (by decide +kernel), ?_, Or.inl ⟨?_, ?_⟩⟩, ?_, Or.inl rfl⟩
  · fnt_has (.stream [] fntPart.data)
  · simp [fntPart]
  · simp [NoCall, fntPart]
  · simp only [fntPart]
  · simp [fntPart, fntCalls, CallOk, operandsOf, OkItems, Ok, PrimOk, nam, num, fntOne]; decide

theorem fntGlyph_ok : PartWritten fntUnf (pdfItems fntDoc) fntGlyph := by
  refine ⟨?_, ⟨(runCalls fntGlyphCalls (Content.withSettings false)).get (by decide +kernel), ?_, Or.inl ⟨?_, ?_⟩⟩, ?_, Or.inr ?_⟩
  · fnt_has (.stream [] fntGlyph.data)
  · simp [fntGlyph]
  · simp [NoCall, fntGlyph]
  · simp only [fntGlyph]
  · simp [fntGlyph, fntGlyphCalls, CallOk, operandsOf, OkItems, Ok, PrimOk, nam, num, fntOne, fntHalf]; decide
  · simp [fntGlyph, fntGlyphCalls, CallNoClash, operandsOf, NoClashItems, NoClash, isEmptyName, nam, num]

/-- All hypotheses about the document and its tree. -/
theorem fntDoc_ok : DocumentWritten fntUnf fntDoc (rf 1) [.pages (rf 2)] fntTree where
  root := rfl
  catalog := by
    refine ⟨⟨rf 1, .val (Catalog.prog [.pages (rf 2)]), false⟩, ?_, rfl, rfl, ?_⟩
    · simp only [fntDoc, pdfItems, callItems, chunkItems, chunkPretty, pdfPretty, Catalog.prog, Catalog.entries]
      simp [pName]
    · sample_ok
  noType := by simp [NoCall, CatalogMeans]
  pages := rfl
  tree := by
    simp only [fntTree, PageTree.Written, writtenList]
    refine ⟨?_, ?_, rfl, ⟨?_, ?_, Or.inr (Or.inl ⟨_, rfl, rfl⟩), ?_⟩, trivial⟩
    · fnt_has (.val (Pages.prog [.kids [rf 3], .count 1, .resources fntRes]))
    · simp [NoCall, PagesMeans]
    · fnt_has (.val (Page.prog [.parent (rf 2), .contents (rf 4)]))
    · simp [NoCall, PageMeans]
    · simp only [List.mem_singleton, forall_eq]; exact fntPart_ok

theorem fntProgram_ok : fntProgram.Written fntUnf (pdfItems fntDoc) where
  object := by fnt_has (.stream (Stream.entries fntProgram.calls) fntProgram.stored)
  subtype := rfl
  data := Or.inr ⟨.flateDecode, rfl, by decide⟩

theorem fntDescriptor_ok : fntDescriptor.Written fntUnf (pdfItems fntDoc) where
  object := by fnt_has (.val (FontDescriptor.prog fntDescriptor.calls))
  name := rfl
  flags := rfl
  bbox := rfl
  italicAngle := rfl
  ascent := rfl
  descent := rfl
  capHeight := by simp [MaybeCall, NoCall, fntDescriptor, FontDescriptorMeans]
  stemV := rfl
  program := by
    intro k
    cases k
    · simp [MaybeCall, NoCall, fntDescriptor, fntProgram, FontDescriptorMeans, Option.filter, ProgramKind.key]
    · simp [MaybeCall, NoCall, fntDescriptor, fntProgram, FontDescriptorMeans, Option.filter, ProgramKind.key]
    · rfl
  programWritten := by intro p hp; cases hp; exact fntProgram_ok

theorem fntSimple_ok : fntSimple.Written fntUnf (pdfItems fntDoc) := by
  refine ⟨by simp [NoCall, fntSimpleCalls, Type1FontMeans], rfl, ⟨rfl, ?_⟩, Or.inr ⟨65, 67, [fntHalf, fntOne, fntHalf], rfl, rfl, rfl, rfl, rfl⟩, rfl, ?_⟩
  · intro x hx
    cases hx
    refine ⟨rfl, rfl, ?_⟩
    intro x hx
    cases hx
    simp [DifferencesCall.typed]
  · intro x hx; cases hx; exact fntDescriptor_ok

theorem fntDrawn_ok : fntDrawn.Written fntUnf (pdfItems fntDoc) := by
  refine ⟨by simp [NoCall, fntDrawnCalls, Type3FontMeans], rfl, ⟨rfl, ?_⟩, Or.inl ⟨by simp [NoCall, fntDrawnCalls, Type3FontMeans], rfl⟩, rfl, ?_⟩
  · intro x hx; cases hx; trivial
  · simp only [List.mem_singleton, forall_eq]; exact fntGlyph_ok

theorem fntCid_ok : fntCid.Written fntUnf (pdfItems fntDoc) where
  object := by fnt_has (.val (CidFont.prog fntCid.calls))
  subtype := rfl
  base := by simp [MaybeCall, NoCall, fntCid, CidFontMeans]
  info := rfl
  defaultWidth := rfl
  widths := rfl
  widthsTyped := by intro x hx; cases hx; simp [WidthsCall.typed]
  gids := ⟨rfl, by fnt_has (.stream [] [0, 0, 1, 2]), Or.inl ⟨by simp [NoCall], by decide⟩⟩
  descriptor := ⟨by simp [MaybeCall, NoCall, fntCid, CidFontMeans], by intro x hx; cases hx⟩

theorem fntComposite_ok : fntComposite.Written fntUnf (pdfItems fntDoc) :=
  ⟨by simp [NoCall, fntCompositeCalls, Type0FontMeans], rfl, rfl, rfl, fntCid_ok⟩

/-- What the calls ask for. -/
theorem fntTree_fonts : fntTree.Fonts fntUnf (pdfItems fntDoc) fntFonts := by
  simp only [fntTree, PageTree.Fonts, PageTree.Each, eachList]
  refine ⟨some fntRes, Or.inr ⟨_, rfl, Or.inl rfl⟩, [fntFonts[0]], [], rfl, ⟨some fntRes, _, rfl, Or.inl ⟨?_, rfl⟩, ?_⟩, rfl⟩
  · simp [NoCall, PageMeans]
  · refine Or.inr ⟨_, Or.inl rfl, .cons ⟨rfl, Or.inl rfl, fntSimple_ok⟩ (.cons ⟨rfl, Or.inr ⟨rf 7, rfl, ?_⟩, fntDrawn_ok⟩
      (.cons ⟨rfl, Or.inr ⟨rf 9, rfl, ?_⟩, fntComposite_ok⟩ .nil))⟩
    · fnt_has (.val (Type3Font.prog fntDrawnCalls))
    · fnt_has (.val (Type0Font.prog fntCompositeCalls))

/-- The remaining hypotheses. -/
example : ∀ r ∈ docIds fntDoc, r.get < 2147483647 := by decide +kernel
example : fntTree.depth = 2 := rfl

/-- What a reader of the sample sees of a font. -/
def fntShow : ReadFont → List Bytes × List Int × Bytes
  | .type1 _ e ws d => ((match e with | some (.custom b ds) => b.toList ++ ds.map Prod.snd | _ => []), ws.map Prod.fst, ((d.bind ReadDescriptor.program).map ReadProgram.data).getD [])
  | .type3 _ e ws gs => ((match e with | some (.predefined n) => [n] | _ => []) ++ gs.map Prod.fst, gs.flatMap fun g => g.2.map fun o => o.2.length, [])
  | .type0 _ e c => ([e, c.subtype, c.registry, c.ordering], c.widths.map Prod.fst, (match c.gids with | some (.map g) => g.map fun n => UInt8.ofNat (n % 256) | _ => []))

set_option synthInstance.maxHeartbeats 400000 in
set_option synthInstance.maxSize 2000 in
/-- The file can be finished and is short enough, and this is read from it. -/
example : ((fntDoc.run.bind fun p => p.finish).bind fun b => if b.length < 10 ^ 10 then
      (fileFonts fntUnf b 2).map fun ps => ps.map fun p => p.map fun x => (x.1, fntShow x.2) else none) =
    some [[(b!"F1", [b!"WinAnsiEncoding", b!"alpha", b!"beta", b!"gamma"], [65, 66, 67], b!"program"),
      (b!"F2", [b!"MacRomanEncoding", b!"box"], [2, 4, 0], []),
      (b!"F3", [b!"Identity-H", b!"CIDFontType2", b!"Adobe", b!"Identity"], [1, 2, 7, 8, 9], [0, 2])]] := by
  rw [← fastRun_eq]
  decide +kernel

end PdfW.Props
