import Verif.Proof.Extract
import Verif.Proof.Fast
import Verif.Props.Tree
import Verif.Props.Document

set_option linter.unusedSimpArgs false
set_option linter.unusedVariables false

/-!
# C54: the text of a document can be extracted

End to end: typed writers for pages, resources, fonts and graphics states, `UnicodeCmap`, `Content`, object layout,
cross-reference section and trailer together. Whatever document was written, a reader that is given only the bytes of the
finished file obtains, page by page and code by code, the text that the calls of `pair` and `pair_with_multiple` give to the glyphs
that the calls on the `Content` show in the fonts selected.
-/

namespace PdfW.Props
open PdfW Spec

/-- C54. -/
theorem C54_text (unf : Val → Bytes → Option Bytes) (h : PdfHist) (p : Pdf) (w : Finishing) (bytes : Bytes) (hr : h.run = some p)
    (hf : w.run p = some bytes) (hids : ∀ r ∈ docIds h ++ w.ids, r.get < 2147483647) (hlen : w.Fits p bytes) (hu : w.Undone unf)
    (cid : Ref) (cat : List CatalogCall) (t : PageTree) (hw : DocumentWritten unf h cid cat t)
    (texts : List PageText) (ht : t.Texts unf (pdfItems h) none texts) (depth : Nat) (hd : t.depth ≤ depth) :
    extractText unf bytes depth = some texts := by
  obtain ⟨f, h1, h2, h3, -⟩ := finishing_exact unf h p w bytes hr hf hids hlen hu
  have hfinds : Finds f bytes (pdfItems h) := fun it hit hok => ⟨_, h3 it hit hok, bodyVal_denotes it hok⟩
  have := document_texts (unf := unf) hfinds
    (by rw [← lookup_only (keys := [b!"Size", b!"Root", b!"Info", b!"ID"]) (by decide), h2]; exact root_lookup hw.root _)
    hw.catalog hw.noType hw.pages depth hd hw.tree texts ht
  simp only [extractText, h1, Option.bind_some, this]

/-- C54: so there is only one text that the calls can be said to ask for, and none of the ways to finish the document changes it. -/
theorem C54_text_unique (unf : Val → Bytes → Option Bytes) (h : PdfHist) (p : Pdf) (bytes : Bytes) (hr : h.run = some p)
    (hf : p.finish = some bytes) (hids : ∀ r ∈ docIds h, r.get < 2147483647) (hlen : bytes.length < 10 ^ 10)
    (cid : Ref) (cat : List CatalogCall) (t : PageTree) (hw : DocumentWritten unf h cid cat t) (texts texts' : List PageText)
    (ht : t.Texts unf (pdfItems h) none texts) (ht' : t.Texts unf (pdfItems h) none texts') : texts = texts' := by
  have a := C54_text unf h p .table bytes hr hf (by simpa [Finishing.ids] using hids) hlen trivial cid cat t hw texts ht t.depth (Nat.le_refl _)
  have b := C54_text unf h p .table bytes hr hf (by simpa [Finishing.ids] using hids) hlen trivial cid cat t hw texts' ht' t.depth (Nat.le_refl _)
  rw [a] at b
  exact Option.some.inj b

/-! ## A document that meets the hypotheses -/

/-- A composite font: a plain character, an astral one, a ligature, and a glyph that is mapped twice. -/
def extractKind1 : FontKind := .type0 [.baseFont b!"Abc", .encodingPredefined b!"Identity-H", .descendantFont (rf 20), .toUnicode (rf 11)]
  [.pair 3 'a', .pair 300 (Char.ofNat 0x1F600), .pairWithMultiple 7 ['f', 'i'], .pair 9 'x', .pair 9 'y']
/-- A Type 3 font. -/
def extractKind2 : FontKind := .type3 [.toUnicode (rf 13), .firstChar 65] [.pair 65 'Z']
def extractFont1 : FontPart := ⟨b!"F1", extractKind1, rf 11, [.name b!"Custom", .writingMode .horizontal],
  extractKind1.cmapData b!"Custom" adobeIdentity .horizontal, b!"Custom", adobeIdentity, .horizontal⟩
/-- Its CMap is compressed. -/
def extractFont2 : FontPart := ⟨b!"F1", extractKind2, rf 13, [.stream (.filter .flateDecode)], b!"??", b!"Custom", adobeIdentity, .vertical⟩
def extractGState : GStatePart := ⟨b!"G0", [.nonStrokingAlpha F32.zero]⟩

/-- Resources of the root node, inherited by the first page. -/
def extractRes1 : List ResourcesCall := [.fonts [(b!"F0", .prim (.ref (rf 21))), (b!"F1", .prim (.ref (rf 10)))],
  .extGStates [(b!"G0", ExtGraphicsState.prog [.nonStrokingAlpha F32.zero])]]
/-- Resources of the second page, an object of its own; its fonts are another object. -/
def extractRes2 : List ResourcesCall := [.raw b!"Font" (.prim (.ref (rf 15)))]

def extractCalls1 : List ContentCall :=
  [.saveState, .setParameters b!"G0", .beginText, .setFont b!"F1" F32.zero, .show [0, 3, 1, 44], .saveState, .nextLineShow [0, 7], .restoreState,
   .showPositioned [.adjust F32.zero, .show [0, 9], .show [], .show [0, 8]], .endText, .restoreState]
def extractCalls2 : List ContentCall := [.setFont b!"F1" F32.zero, .nextLineShowAndSetWordAndCharSpacing F32.zero F32.zero [65, 66]]

def extractPart1 : ContentPart := ⟨rf 4, [], ((runCalls extractCalls1 (Content.withSettings true)).get (by decide +kernel)).finish.inner, true, extractCalls1⟩
def extractPart2 : ContentPart := ⟨rf 6, [], ((runCalls extractCalls2 (Content.withSettings true)).get (by decide +kernel)).finish.inner, true, extractCalls2⟩

def extractTree : PageTree :=
  .node (rf 2) [.resources extractRes1, .kids [rf 3, rf 5], .count 2]
    [.page (rf 3) [.parent (rf 2), .contents (rf 4)] [extractPart1],
     .page (rf 5) [.parent (rf 2), .raw b!"Resources" (.prim (.ref (rf 14))), .contents (rf 6)] [extractPart2]]

def extractDoc : PdfHist :=
  .call (.call (.call (.call (.call (.call (.call (.call (.call (.call (.call (.catalog (.new false) (rf 1) ([.pages (rf 2)].flatMap CatalogCall.entries))
    (.indirect (rf 2) (Pages.prog [.resources extractRes1, .kids [rf 3, rf 5], .count 2])))
    (.indirect (rf 3) (Page.prog [.parent (rf 2), .contents (rf 4)])))
    (.indirect (rf 5) (Page.prog [.parent (rf 2), .raw b!"Resources" (.prim (.ref (rf 14))), .contents (rf 6)])))
    (.stream (rf 4) [] extractPart1.data))
    (.stream (rf 6) [] extractPart2.data))
    (.indirect (rf 10) extractKind1.prog))
    (.stream (rf 11) (CmapStream.entries extractFont1.stream) extractFont1.data))
    (.indirect (rf 12) extractKind2.prog))
    (.stream (rf 13) (CmapStream.entries extractFont2.stream) extractFont2.data))
    (.indirect (rf 14) (Resources.prog extractRes2)))
    (.indirect (rf 15) (.dict [(b!"F1", .prim (.ref (rf 12)))]))

/-- Undoes the compression of the second CMap. -/
def extractUnf : Val → Bytes → Option Bytes
  | .name n, d => if n = b!"FlateDecode" ∧ d = b!"??" then some (extractKind2.cmapData b!"Custom" adobeIdentity .vertical) else none
  | _, _ => none

/-- The text of the two pages; code 8 of the first font and code 66 of the second have no mapping. -/
def extractTexts : List PageText :=
  [[some ['a'], some [Char.ofNat 0x1F600], some ['f', 'i'], some ['y'], none], [some ['Z'], none]]

/-- An object of the sample document. -/
macro "extract_has" b:term : tactic => `(tactic| refine ⟨⟨_, $b, false⟩,
  by simp [extractDoc, pdfItems, callItems, chunkItems, chunkPretty, pdfPretty, extractFont1, extractFont2, extractPart1, extractPart2], rfl, rfl,
  by
    simp [ItemOk, Page.prog, Page.entries, PageCall.entries, Pages.prog, Pages.entries, PagesCall.entries, Resources.prog, Resources.entries,
      ResourcesCall.entries, ExtGraphicsState.prog, ExtGraphicsState.entries, ExtGraphicsStateCall.entries, FontKind.prog, Type0Font.prog,
      Type0Font.entries, Type0FontCall.entries, Type3Font.prog, Type3Font.entries, Type3FontCall.entries, extractKind1, extractKind2,
      CmapStream.entries, CmapStreamCall.entries, StreamCall.entries, extractFont1, extractFont2, extractRes1, extractRes2,
      Catalog.prog, Catalog.entries, CatalogCall.entries, pName, pRef, pText, pInt, pReal, Ok, OkItems, OkEntries, PrimOk, NoClash, NoClashItems,
      NoClashEntries, isEmptyName] <;> decide⟩)

theorem extractPart1_ok : PartWritten extractUnf (pdfItems extractDoc) extractPart1 := by
  refine ⟨?_, ⟨(runCalls extractCalls1 (Content.withSettings true)).get (by decide +kernel), ?_, Or.inl ⟨?_, ?_⟩⟩, ?_, Or.inl rfl⟩
  · extract_has (.stream [] extractPart1.data)
  · simp [extractPart1]
  · simp [NoCall, extractPart1]
  · simp only [extractPart1]
  · simp [extractPart1, extractCalls1, CallOk, operandsOf, OkItems, Ok, PrimOk, nam, num]; decide

theorem extractPart2_ok : PartWritten extractUnf (pdfItems extractDoc) extractPart2 := by
  refine ⟨?_, ⟨(runCalls extractCalls2 (Content.withSettings true)).get (by decide +kernel), ?_, Or.inl ⟨?_, ?_⟩⟩, ?_, Or.inl rfl⟩
  · extract_has (.stream [] extractPart2.data)
  · simp [extractPart2]
  · simp [NoCall, extractPart2]
  · simp only [extractPart2]
  · simp [extractPart2, extractCalls2, CallOk, operandsOf, OkItems, Ok, PrimOk, nam, num]; decide

/-- All hypotheses about the document and its tree. -/
theorem extractDoc_ok : DocumentWritten extractUnf extractDoc (rf 1) [.pages (rf 2)] extractTree where
  root := rfl
  catalog := by
    refine ⟨⟨rf 1, .val (Catalog.prog [.pages (rf 2)]), false⟩, ?_, rfl, rfl, ?_⟩
    · simp only [extractDoc, pdfItems, callItems, chunkItems, chunkPretty, pdfPretty, Catalog.prog, Catalog.entries]
      simp [pName]
    · sample_ok
  noType := by simp [NoCall, CatalogMeans]
  pages := rfl
  tree := by
    simp only [extractTree, PageTree.Written, writtenList]
    refine ⟨?_, ?_, rfl, ⟨?_, ?_, Or.inr (Or.inl ⟨_, rfl, rfl⟩), ?_⟩, ⟨?_, ?_, Or.inr (Or.inl ⟨_, rfl, rfl⟩), ?_⟩, trivial⟩
    · extract_has (.val (Pages.prog [.resources extractRes1, .kids [rf 3, rf 5], .count 2]))
    · simp [NoCall, PagesMeans]
    · extract_has (.val (Page.prog [.parent (rf 2), .contents (rf 4)]))
    · simp [NoCall, PageMeans]
    · simp only [List.mem_singleton, forall_eq]; exact extractPart1_ok
    · extract_has (.val (Page.prog [.parent (rf 2), .raw b!"Resources" (.prim (.ref (rf 14))), .contents (rf 6)]))
    · simp [NoCall, PageMeans]
    · simp only [List.mem_singleton, forall_eq]; exact extractPart2_ok

theorem extractFont1_ok : FontWritten extractUnf (pdfItems extractDoc) (some extractRes1) extractFont1 := by
  refine ⟨⟨extractRes1, _, .prim (.ref (rf 10)), rfl, Or.inl rfl, rfl, Or.inr ⟨rf 10, rfl, ?_⟩⟩, ⟨?_, rfl, Or.inl rfl⟩, ?_, Or.inl ⟨?_, rfl⟩, ?_⟩
  · extract_has (.val extractKind1.prog)
  · simp [NoCall, Type0FontMeans]
  · extract_has (.stream (CmapStream.entries extractFont1.stream) extractFont1.data)
  · simp [NoCall, extractFont1, CmapStreamMeans]
  · refine ⟨?_, ?_, ?_⟩ <;> (unfold OneLine; decide)

theorem extractFont2_ok : FontWritten extractUnf (pdfItems extractDoc) (some extractRes2) extractFont2 := by
  refine ⟨⟨extractRes2, [(b!"F1", .prim (.ref (rf 12)))], .prim (.ref (rf 12)), rfl, Or.inr ⟨rf 15, rfl, ?_⟩, rfl, Or.inr ⟨rf 12, rfl, ?_⟩⟩, ⟨?_, rfl⟩, ?_, Or.inr ⟨.flateDecode, rfl, ?_⟩, ?_⟩
  · extract_has (.val (.dict [(b!"F1", .prim (.ref (rf 12)))]))
  · extract_has (.val extractKind2.prog)
  · simp [NoCall, Type3FontMeans]
  · extract_has (.stream (CmapStream.entries extractFont2.stream) extractFont2.data)
  · rfl
  · refine ⟨?_, ?_, ?_⟩ <;> (unfold OneLine; decide)

theorem extractGState_ok : GStateWritten (pdfItems extractDoc) (some extractRes1) extractGState :=
  ⟨⟨extractRes1, _, _, rfl, Or.inl rfl, rfl, Or.inl rfl⟩, by simp [NoCall, extractGState, ExtGraphicsStateMeans]⟩

/-- The text the calls ask for. -/
theorem extractTree_texts : extractTree.Texts extractUnf (pdfItems extractDoc) none extractTexts := by
  simp only [extractTree, PageTree.Texts, textsList]
  refine ⟨some extractRes1, Or.inr ⟨_, rfl, Or.inl rfl⟩, [extractTexts[0]], _, rfl,
    ⟨some extractRes1, [extractFont1], [extractGState], _, rfl, Or.inl ⟨?_, rfl⟩, ?_, ?_, ?_⟩, [extractTexts[1]], [], rfl,
    ⟨some extractRes2, [extractFont2], [], _, rfl, Or.inr ⟨_, rfl, Or.inr ⟨rf 14, rfl, ?_⟩⟩, ?_, ?_, ?_⟩, rfl⟩
  · simp [NoCall, PageMeans]
  · simp only [List.mem_singleton, forall_eq]; exact extractFont1_ok
  · simp only [List.mem_singleton, forall_eq]; exact extractGState_ok
  · simp only [List.flatMap_cons, List.flatMap_nil, extractPart1, extractCalls1, List.append_nil, Shows]
    refine ⟨⟨extractGState, by simp, rfl⟩, extractFont1, by simp, rfl, [some ['a'], some [Char.ofNat 0x1F600]], _, rfl,
      ⟨_, rfl, [3, 300], by decide, by decide⟩, [some ['f', 'i']], _, rfl, ⟨_, rfl, [7], by decide, by decide⟩, [some ['y'], none], [], rfl, ?_, rfl⟩
    exact ⟨[some ['y']], [none], rfl, ⟨_, rfl, [9], by decide, by decide⟩, [], _, rfl, ⟨_, rfl, [], rfl, rfl⟩, [none], [], rfl,
      ⟨_, rfl, [8], by decide, by decide⟩, rfl⟩
  · extract_has (.val (Resources.prog extractRes2))
  · simp only [List.mem_singleton, forall_eq]; exact extractFont2_ok
  · simp
  · simp only [List.flatMap_cons, List.flatMap_nil, extractPart2, extractCalls2, List.append_nil, Shows]
    exact ⟨extractFont2, by simp, rfl, [some ['Z'], none], [], rfl, ⟨_, rfl, [65, 66], by decide, by decide⟩, rfl⟩

/-- The remaining hypotheses. -/
example : ∀ r ∈ docIds extractDoc, r.get < 2147483647 := by decide +kernel
example : extractTree.depth = 2 := rfl

/-- The file can be finished and is short enough, and this is read from it. -/
example : ((extractDoc.run.bind fun p => p.finish).bind fun b => if b.length < 10 ^ 10 then extractText extractUnf b 2 else none) =
    some extractTexts := by
  rw [← fastRun_eq]
  decide +kernel

end PdfW.Props
