import Verif.Proof.Borders
import Verif.Props.Annots

set_option linter.unusedSimpArgs false
set_option linter.unusedVariables false

/-!
# C78: borders and appearance characteristics of annotations

End to end, as C70: the border style and the appearance characteristics of the annotations of every page, with what their icons paint.
-/

namespace PdfW.Props
open PdfW Spec Imaging

/-- C78 (borders and appearance characteristics): a reader of the finished file finds, page by page and annotation by annotation, the border style
and the appearance characteristics that were set, with what the icons paint. -/
theorem C78_borders (unf : Val → Bytes → Option Bytes) (h : PdfHist) (p : Pdf) (w : Finishing) (bytes : Bytes) (hr : h.run = some p)
    (hf : w.run p = some bytes) (hids : ∀ r ∈ docIds h ++ w.ids, r.get < 2147483647) (hlen : w.Fits p bytes) (hu : w.Undone unf)
    (cid : Ref) (cat : List CatalogCall) (t : PageTree) (hw : DocumentWritten unf h cid cat t)
    (forms : Nat) (pages : List (List GivenTrim)) (ha : Pairwise (fun e xs => TrimsSet unf (pdfItems h) forms e.2 xs) t.leaves pages)
    (depth : Nat) (hd : t.depth ≤ depth) (n : Nat) (hn : forms ≤ n) :
    ∃ read, fileTrims unf bytes depth n = some read ∧ Pairwise (Pairwise SameTrim) pages read := by
  obtain ⟨f, h1, hfinds, hroot⟩ := finds_of hr hf hids hlen hu
  obtain ⟨d, hcat, he⟩ := catalog_read hfinds (hroot cid hw.root) hw.catalog hw.noType
  have hpg : (CatalogEntries .code cat).filter (fun e => e.1 == b!"Pages") = [(b!"Pages", IsRef t.id)] := by
    simp only [CatalogEntries, List.filter_append, onlyCall_filter hw.pages]
    rfl
  obtain ⟨w', hl, hw'⟩ := lookup_of he hpg
  simp only [IsRef] at hw'
  subst hw'
  obtain ⟨rs, h2, h3⟩ := eachAnnot_read hfinds (R := SameTrim) (read := readTrim unf f bytes n) (fun _ _ k => trim_read hfinds hn k) t.leaves pages
    (leaves_written (unf := unf) t hw.tree) ha
  exact ⟨rs, by simp only [fileTrims, h1, Option.bind_some, hcat, hl, refNumber, tree_numbers hfinds t depth hd hw.tree, h2], h3⟩

/-! ## A document that meets the hypotheses

A link with a dashed border on the first page; a button with captions and two icons on the second, one of which paints the other. -/

def brdStyle : List BorderStyleCall := [.width annTwo, .style .dashed, .dashes [annOne, annTwo]]
def brdFit : List IconFitCall := [.scale .always, .scaleType .proportional, .leftoverSpace F32.zero annOne]
def brdLook : List AppearanceCharacteristicsCall :=
  [.rotate 90, .borderColorRgb annOne F32.zero F32.zero, .backgroundColorTransparent, .normalCaption (.plain ['O', 'k']), .alternateCaption (.plain ['ü']),
   .normalIcon (rf 10), .alternateIcon (rf 12), .iconFit brdFit, .textPosition .below]
def brdLink : List AnnotationCall := [.subtype .link, .rect annRect, .borderStyle brdStyle]
def brdWidget : List AnnotationCall := [.rect annRect, .appearanceCharacteristics brdLook]
def brdField : List FieldCall := [.partialName ['d'], .fieldType .button, .intoAnnotation brdWidget]
def brdPage1 : List PageCall := [.parent (rf 2), .annotations [rf 5]]
def brdPage2 : List PageCall := [.parent (rf 2), .annotations [rf 7]]
def brdTree : PageTree := .node (rf 2) [.kids [rf 3, rf 4], .count 2] [.page (rf 3) brdPage1 [], .page (rf 4) brdPage2 []]

def brdDoc : PdfHist :=
  .call (.call (.call (.call (.call (.call (.call (.call (.catalog (.new false) (rf 1) ([.pages (rf 2)].flatMap CatalogCall.entries))
    (.indirect (rf 2) (Pages.prog [.kids [rf 3, rf 4], .count 2])))
    (.indirect (rf 3) (Page.prog brdPage1)))
    (.indirect (rf 4) (Page.prog brdPage2)))
    (.indirect (rf 5) (Annotation.prog brdLink)))
    (.indirect (rf 7) (Field.prog brdField)))
    (.stream (rf 10) (FormXObject.entries annForm10.calls) annForm10.data))
    (.stream (rf 11) (FormXObject.entries annForm11.calls) annForm11.data))
    (.stream (rf 12) (FormXObject.entries annForm12.calls) annForm12.data)

/-- An object of the sample document. -/
macro "brd_has" b:term : tactic => `(tactic| refine ⟨⟨_, $b, false⟩,
  by simp [brdDoc, pdfItems, callItems, chunkItems, chunkPretty, pdfPretty, AnnotSource.body, annForm10, annForm11, annForm12, annForm], rfl, rfl,
    itemOkB_sound _ (by decide +kernel)⟩)

theorem brdDoc_ok : DocumentWritten annUnf brdDoc (rf 1) [.pages (rf 2)] brdTree where
  root := rfl
  catalog := by
    refine ⟨⟨rf 1, .val (Catalog.prog [.pages (rf 2)]), false⟩, ?_, rfl, rfl, ?_⟩
    · simp only [brdDoc, pdfItems, callItems, chunkItems, chunkPretty, pdfPretty, Catalog.prog, Catalog.entries]
      simp [pName]
    · sample_ok
  noType := by simp [NoCall, CatalogMeans]
  pages := rfl
  tree := by
    simp only [brdTree, PageTree.Written, writtenList]
    refine ⟨?_, ?_, rfl, ⟨?_, ?_, Or.inl ⟨rfl, ?_⟩, by simp⟩, ⟨?_, ?_, Or.inl ⟨rfl, ?_⟩, by simp⟩, trivial⟩
    · brd_has (.val (Pages.prog [.kids [rf 3, rf 4], .count 2]))
    · simp [NoCall, PagesMeans]
    · brd_has (.val (Page.prog brdPage1))
    · simp [NoCall, PageMeans, brdPage1]
    · simp [NoCall, PageMeans, brdPage1]
    · brd_has (.val (Page.prog brdPage2))
    · simp [NoCall, PageMeans, brdPage2]
    · simp [NoCall, PageMeans, brdPage2]

theorem brdForm10_ok : annForm10.Written annUnf (pdfItems brdDoc) where
  object := by brd_has (.stream (FormXObject.entries annForm10.calls) annForm10.data)
  subtype := annForm10_ok.subtype
  stored := annForm10_ok.stored
  ok := annForm10_ok.ok
  clash := annForm10_ok.clash

theorem brdForm11_ok : annForm11.Written annUnf (pdfItems brdDoc) where
  object := by brd_has (.stream (FormXObject.entries annForm11.calls) annForm11.data)
  subtype := annForm11_ok.subtype
  stored := annForm11_ok.stored
  ok := annForm11_ok.ok
  clash := annForm11_ok.clash

theorem brdForm12_ok : annForm12.Written annUnf (pdfItems brdDoc) where
  object := by brd_has (.stream (FormXObject.entries annForm12.calls) annForm12.data)
  subtype := annForm12_ok.subtype
  stored := annForm12_ok.stored
  ok := annForm12_ok.ok
  clash := annForm12_ok.clash

theorem brdIcon10 : IconSet annUnf (pdfItems brdDoc) 1 (rf 10) ⟨10, annLooks10⟩ := by
  refine ⟨annForm10, rfl, rfl, brdForm10_ok, none, some annM, annRect, Or.inl ⟨by simp [NoCall, annForm10, annForm, FormXObjectMeans], rfl⟩, rfl, rfl, ?_⟩
  exact ⟨⟨fun n => .prim (.name n), fun _ _ => none, fun _ _ => none⟩, fun _ => rfl, (by intro _ _ _ h; cases h), (by intro _ _ _ h; cases h),
    by simp [annForm10, annForm, annFill, Unrelated], rfl⟩

theorem brdDisplays11 (forms : Nat) (res : Option (List ResourcesCall)) (g : GState F32 Prog) :
    Displays annUnf (pdfItems brdDoc) forms res (inside none annBox g) annForm11.content (annLooks11 g) := by
  cases forms <;> exact ⟨⟨fun n => .prim (.name n), fun _ _ => none, fun _ _ => none⟩, fun _ => rfl, (by intro _ _ _ h; cases h),
    (by intro _ _ _ h; cases h), by simp [annForm11, annForm, annLine, Unrelated], rfl⟩

theorem brdIcon12 : IconSet annUnf (pdfItems brdDoc) 1 (rf 12) ⟨12, annLooks12⟩ := by
  refine ⟨annForm12, rfl, rfl, brdForm12_ok, some [.xObjects [(b!"X", .prim (.ref (rf 11)))]], none, annRect, Or.inr ⟨_, rfl, Or.inl rfl⟩, ?_, rfl, ?_⟩
  · simp [MaybeCall, NoCall, annForm12, annForm, FormXObjectMeans]
  refine ⟨⟨fun n => .prim (.name n), fun _ _ => none, annObject⟩, fun _ => rfl, (by intro _ _ _ h; cases h), ?_,
    by simp [annForm12, annForm, annNest, Unrelated], rfl⟩
  intro n g es h
  replace h : annObject n g = some es := h
  unfold annObject at h
  split at h
  · rename_i hn; subst hn; cases h
    exact Or.inr ⟨annForm11, some [.xObjects [(b!"X", .prim (.ref (rf 11)))]], none, annRect, annLooks11 g, ⟨_, _, rfl, Or.inl rfl, rfl⟩, brdForm11_ok,
      Or.inl ⟨by simp [NoCall, annForm11, annForm, FormXObjectMeans], rfl⟩, by simp [MaybeCall, NoCall, annForm11, annForm, FormXObjectMeans], rfl,
      brdDisplays11 .., rfl⟩
  · cases h

/-! What is asked for. -/

def brdLookIs : GivenCharacteristics :=
  ⟨some 90, some [annOne, F32.zero, F32.zero], some [], some ['O', 'k'], none, some ['ü'], some ⟨10, annLooks10⟩, none, some ⟨12, annLooks12⟩,
    some ⟨some b!"A", some b!"P", some [F32.zero, annOne], false⟩, some 2⟩
def brdPages : List (List GivenTrim) := [[⟨5, some ⟨some annTwo, some b!"D", some [annOne, annTwo]⟩, none⟩], [⟨7, none, some brdLookIs⟩]]

theorem brdLook_ok : CharacteristicsSet annUnf (pdfItems brdDoc) 1 brdLook brdLookIs where
  rotate := rfl
  border := ⟨some (.borderColorRgb annOne F32.zero F32.zero), rfl, .rgb⟩
  background := ⟨some .backgroundColorTransparent, rfl, .transparent⟩
  caption := rfl
  rolloverCaption := noCall_keys (calls := brdLook) rfl
  downCaption := rfl
  icon := ⟨some (rf 10), rfl, brdIcon10⟩
  rolloverIcon := ⟨none, noCall_keys (calls := brdLook) rfl, trivial⟩
  downIcon := ⟨some (rf 12), rfl, brdIcon12⟩
  placement := ⟨some brdFit, rfl, ⟨some .always, rfl, rfl⟩, ⟨some .proportional, rfl, rfl⟩, ⟨some (F32.zero, annOne), rfl, rfl⟩,
    ⟨none, rfl, noCall_keys (calls := brdFit) rfl⟩⟩
  position := ⟨some .below, rfl, rfl⟩

theorem brdPages_ok : Pairwise (fun e xs => TrimsSet annUnf (pdfItems brdDoc) 1 e.2 xs) brdTree.leaves brdPages := by
  refine .cons ⟨[rf 5], Or.inr rfl, .cons ⟨rfl, .annotation brdLink, ?_, ⟨some brdStyle, rfl, rfl, ⟨some .dashed, rfl, rfl⟩, rfl⟩,
      none, noCall_keys (calls := brdLink) rfl, trivial⟩ .nil⟩
    (.cons ⟨[rf 7], Or.inr rfl, .cons ⟨rfl, .widget brdField brdWidget, ?_, ⟨none, noCall_keys (calls := brdField) rfl, trivial⟩,
      some brdLook, ⟨rfl, rfl⟩, brdLook_ok⟩ .nil⟩ .nil)
  · brd_has (.val (Annotation.prog brdLink))
  · brd_has (.val (Field.prog brdField))

/-- C78 applies to the document. -/
example (p : Pdf) (w : Finishing) (bytes : Bytes) (hr : brdDoc.run = some p) (hf : w.run p = some bytes) (hids : ∀ r ∈ docIds brdDoc ++ w.ids, r.get < 2147483647)
    (hlen : w.Fits p bytes) (hu : w.Undone annUnf) :
    ∃ read, fileTrims annUnf bytes 2 1 = some read ∧ Pairwise (Pairwise SameTrim) brdPages read :=
  C78_borders annUnf brdDoc p w bytes hr hf hids hlen hu (rf 1) _ brdTree brdDoc_ok 1 brdPages brdPages_ok 2 (by decide) 1 (Nat.le_refl _)

/-- What a reader of the finished file sees, if it is short enough. -/
def brdReads {α : Type} (show_ : Trim Val (Element Val Val) → α) : Option (List (List α)) := (fastRun brdDoc).bind fun p => p.finish.bind fun b =>
  if b.length < 10 ^ 10 then (fileTrims annUnf b 2 1).map fun ps => ps.map fun l => l.map show_ else none
example {α : Type} (show_ : Trim Val (Element Val Val) → α) : brdReads show_ = brdDoc.run.bind fun p => p.finish.bind fun b =>
    if b.length < 10 ^ 10 then (fileTrims annUnf b 2 1).map fun ps => ps.map fun l => l.map show_ else none := by rw [brdReads, fastRun_eq]

example : brdReads (fun t => (t.number, t.outline.bind fun o => o.style)) = some [[(5, some b!"D")], [(7, none)]] := by decide +kernel
example : brdReads (fun t => t.characteristics.bind fun c => c.caption) = some [[none], [some ['O', 'k']]] := by decide +kernel
example : brdReads (fun t => t.characteristics.bind fun c => c.downIcon.map fun i => (i.number, i.elements.length)) =
    some [[none], [some (12, 3)]] := by decide +kernel

end PdfW.Props
