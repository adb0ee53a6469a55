import Verif.Proof.Annots
import Verif.Proof.Fast
import Verif.Proof.ItemOk
import Verif.Props.Interpret

set_option linter.unusedSimpArgs false
set_option linter.unusedVariables false

/-!
# C70: annotations

End to end, as C68: whichever way the file is finished, the annotations of every page are found again, with their data and with what each of
their appearance streams paints.
-/

namespace PdfW.Props
open PdfW Spec Imaging

/-- C70. -/
theorem C70_annotations (unf : Val → Bytes → Option Bytes) (h : PdfHist) (p : Pdf) (w : Finishing) (bytes : Bytes) (hr : h.run = some p)
    (hf : w.run p = some bytes) (hids : ∀ r ∈ docIds h ++ w.ids, r.get < 2147483647) (hlen : w.Fits p bytes) (hu : w.Undone unf)
    (cid : Ref) (cat : List CatalogCall) (t : PageTree) (hw : DocumentWritten unf h cid cat t)
    (forms : Nat) (pages : List (List GivenAnnot)) (ha : Pairwise (fun e gs => AnnotsGiven unf (pdfItems h) forms e.2 gs) t.leaves pages)
    (depth : Nat) (hd : t.depth ≤ depth) (n : Nat) (hn : forms ≤ n) :
    ∃ read, fileAnnots unf bytes depth n = some read ∧ Pairwise (Pairwise AnnotReads) pages read := by
  obtain ⟨f, h1, hfinds, hroot⟩ := finds_of hr hf hids hlen hu
  obtain ⟨d, hcat, he⟩ := catalog_read hfinds (hroot cid hw.root) hw.catalog hw.noType
  have hpg : (CatalogEntries .code cat).filter (fun e => e.1 == b!"Pages") = [(b!"Pages", IsRef t.id)] := by
    simp only [CatalogEntries, List.filter_append, onlyCall_filter hw.pages]
    rfl
  obtain ⟨w', hl, hw'⟩ := lookup_of he hpg
  simp only [IsRef] at hw'
  subst hw'
  obtain ⟨rs, h2, h3⟩ := allAnnots_read hfinds forms n hn t.leaves pages (leaves_written (unf := unf) t hw.tree) ha
  exact ⟨rs, by simp only [fileAnnots, h1, Option.bind_some, hcat, hl, refNumber, tree_numbers hfinds t depth hd hw.tree, h2], h3⟩

/-! ## A document that meets the hypotheses

A note and a line on the first page, a check box on the second: the note has one appearance, the check box one for each state, and a pressed
one; the latter paints another form. -/

def annOne : F32 := ⟨false, 0x3F800000⟩
def annTwo : F32 := ⟨false, 0x40000000⟩
def annRect : Rect := ⟨F32.zero, F32.zero, annTwo, annOne⟩

def annFill : List ContentCall := [.setFillRgb annOne F32.zero F32.zero, .rect F32.zero F32.zero annTwo annTwo, .fillNonzero]
def annLine : List ContentCall := [.setLineWidth annTwo, .moveTo F32.zero F32.zero, .lineTo annOne annTwo, .stroke]
def annNest : List ContentCall := [.xObject b!"X"]

def annForm (id : Ref) (calls : List FormXObjectCall) (content : List ContentCall)
    (ok : (runCalls content (Content.withSettings true)).isSome) : FormPart :=
  ⟨id, [.bbox annRect] ++ calls, ((runCalls content (Content.withSettings true)).get ok).finish.inner, true, content⟩

/-- Appearance streams; the last one paints the one before. -/
def annForm10 : FormPart := annForm (rf 10) [.matrix [annOne, F32.zero, F32.zero, annTwo, annOne, F32.zero]] annFill (by decide +kernel)
def annForm11 : FormPart := annForm (rf 11) [] annLine (by decide +kernel)
def annForm12 : FormPart := annForm (rf 12) [.resources [.xObjects [(b!"X", .prim (.ref (rf 11)))]]] annNest (by decide +kernel)

def annDate : Date := ⟨2020, some 2, none, none, none, none, none, 0⟩

def annNoteAp : List AppearanceCall := [.normal (.stream (rf 10))]
def annNoteCalls : List AnnotationCall :=
  [.subtype .text, .rect annRect, .contents (.plain ['ü', 'b']), .author (.plain ['m', 'e']), .modified annDate, .flags [.print, .noZoom], .icon .help,
   .colorRgb annOne F32.zero annTwo, .page (rf 3), .border F32.zero annOne annTwo (some [annOne]), .appearance annNoteAp]
def annLineCalls : List AnnotationCall := [.subtype .line, .rect annRect, .lineTo F32.zero annOne annTwo annOne, .name (.plain ['n'])]
def annBoxAp : List AppearanceCall := [.normal (.streams [(b!"Yes", rf 10), (b!"Off", rf 11)]), .alternate (.stream (rf 12))]
def annBoxCalls : List AnnotationCall := [.rect annRect, .appearance annBoxAp, .appearanceState b!"Yes", .highlight .push]
def annBoxField : List FieldCall := [.partialName ['d'], .fieldType .button, .checkboxValue .yes, .intoAnnotation annBoxCalls]

def annPage1 : List PageCall := [.parent (rf 2), .annotations [rf 5, rf 6]]
def annPage2 : List PageCall := [.parent (rf 2), .annotations [rf 7]]
def annTree : PageTree := .node (rf 2) [.kids [rf 3, rf 4], .count 2] [.page (rf 3) annPage1 [], .page (rf 4) annPage2 []]

def annDoc : PdfHist :=
  .call (.call (.call (.call (.call (.call (.call (.call (.call (.catalog (.new false) (rf 1) ([.pages (rf 2)].flatMap CatalogCall.entries))
    (.indirect (rf 2) (Pages.prog [.kids [rf 3, rf 4], .count 2])))
    (.indirect (rf 3) (Page.prog annPage1)))
    (.indirect (rf 4) (Page.prog annPage2)))
    (.indirect (rf 5) (Annotation.prog annNoteCalls)))
    (.indirect (rf 6) (Annotation.prog annLineCalls)))
    (.indirect (rf 7) (Field.prog annBoxField)))
    (.stream (rf 10) (FormXObject.entries annForm10.calls) annForm10.data))
    (.stream (rf 11) (FormXObject.entries annForm11.calls) annForm11.data))
    (.stream (rf 12) (FormXObject.entries annForm12.calls) annForm12.data)

def annUnf : Val → Bytes → Option Bytes := fun _ _ => none

/-- An object of the sample document. -/
macro "ann_has" b:term : tactic => `(tactic| refine ⟨⟨_, $b, false⟩,
  by simp [annDoc, pdfItems, callItems, chunkItems, chunkPretty, pdfPretty, AnnotSource.body, annForm10, annForm11, annForm12, annForm], rfl, rfl, itemOkB_sound _ (by decide +kernel)⟩)

theorem annDoc_ok : DocumentWritten annUnf annDoc (rf 1) [.pages (rf 2)] annTree where
  root := rfl
  catalog := by
    refine ⟨⟨rf 1, .val (Catalog.prog [.pages (rf 2)]), false⟩, ?_, rfl, rfl, ?_⟩
    · simp only [annDoc, pdfItems, callItems, chunkItems, chunkPretty, pdfPretty, Catalog.prog, Catalog.entries]
      simp [pName]
    · sample_ok
  noType := by simp [NoCall, CatalogMeans]
  pages := rfl
  tree := by
    simp only [annTree, PageTree.Written, writtenList]
    refine ⟨?_, ?_, rfl, ⟨?_, ?_, Or.inl ⟨rfl, ?_⟩, by simp⟩, ⟨?_, ?_, Or.inl ⟨rfl, ?_⟩, by simp⟩, trivial⟩
    · ann_has (.val (Pages.prog [.kids [rf 3, rf 4], .count 2]))
    · simp [NoCall, PagesMeans]
    · ann_has (.val (Page.prog annPage1))
    · simp [NoCall, PageMeans, annPage1]
    · simp [NoCall, PageMeans, annPage1]
    · ann_has (.val (Page.prog annPage2))
    · simp [NoCall, PageMeans, annPage2]
    · simp [NoCall, PageMeans, annPage2]

theorem annForm10_ok : annForm10.Written annUnf (pdfItems annDoc) where
  object := by ann_has (.stream (FormXObject.entries annForm10.calls) annForm10.data)
  subtype := by simp [NoCall, annForm10, annForm, FormXObjectMeans]
  stored := ⟨(runCalls annFill (Content.withSettings true)).get (by decide +kernel), by simp [annForm10, annForm],
    Or.inl ⟨by simp [NoCall, annForm10, annForm, FormXObjectMeans], by simp only [annForm10, annForm]⟩⟩
  ok := by simp [annForm10, annForm, annFill, CallOk, operandsOf, OkItems, Ok, PrimOk, nam, num, annOne, annTwo]; decide
  clash := Or.inl rfl

theorem annForm11_ok : annForm11.Written annUnf (pdfItems annDoc) where
  object := by ann_has (.stream (FormXObject.entries annForm11.calls) annForm11.data)
  subtype := by simp [NoCall, annForm11, annForm, FormXObjectMeans]
  stored := ⟨(runCalls annLine (Content.withSettings true)).get (by decide +kernel), by simp [annForm11, annForm],
    Or.inl ⟨by simp [NoCall, annForm11, annForm, FormXObjectMeans], by simp only [annForm11, annForm]⟩⟩
  ok := by simp [annForm11, annForm, annLine, CallOk, operandsOf, OkItems, Ok, PrimOk, nam, num, annOne, annTwo]; decide
  clash := Or.inl rfl

theorem annForm12_ok : annForm12.Written annUnf (pdfItems annDoc) where
  object := by ann_has (.stream (FormXObject.entries annForm12.calls) annForm12.data)
  subtype := by simp [NoCall, annForm12, annForm, FormXObjectMeans]
  stored := ⟨(runCalls annNest (Content.withSettings true)).get (by decide +kernel), by simp [annForm12, annForm],
    Or.inl ⟨by simp [NoCall, annForm12, annForm, FormXObjectMeans], by simp only [annForm12, annForm]⟩⟩
  ok := by simp [annForm12, annForm, annNest, CallOk, operandsOf, OkItems, Ok, PrimOk, nam, num]
  clash := Or.inl rfl

/-! What is asked for. -/

def annGray : Color F32 Prog := ⟨.prim (.name b!"DeviceGray"), [], none⟩
def annBox : List F32 := [F32.zero, F32.zero, annTwo, annOne]
def annM : List F32 := [annOne, F32.zero, F32.zero, annTwo, annOne, F32.zero]
/-- The graphics state of all of them at the beginning. -/
def annStart : GState F32 Prog := ⟨[], [.box annBox []], annGray, annGray, []⟩

def annLooks10 : List (Element F32 Prog) :=
  [.path [⟨.rectangle, [F32.zero, F32.zero, annTwo, annTwo]⟩] (some .nonzero) false
    ⟨[annM], [.box annBox [annM]], annGray, ⟨.prim (.name b!"DeviceRGB"), [annOne, F32.zero, F32.zero], none⟩, []⟩]
def annLooks11 (g : GState F32 Prog) : List (Element F32 Prog) :=
  [.path [⟨.move, [F32.zero, F32.zero]⟩, ⟨.line, [annOne, annTwo]⟩] none true (inside none annBox g |>.put .lineWidth (.number annTwo))]
def annLooks12 : List (Element F32 Prog) := [.enter 11 annStart] ++ annLooks11 annStart ++ [.leave 11]

theorem annStream10 : GivenStream.Written annUnf (pdfItems annDoc) 1 ⟨annForm10, annLooks10⟩ := by
  refine ⟨annForm10_ok, none, some annM, annRect, Or.inl ⟨by simp [NoCall, annForm10, annForm, FormXObjectMeans], rfl⟩, rfl, rfl, ?_⟩
  exact ⟨⟨fun n => .prim (.name n), fun _ _ => none, fun _ _ => none⟩, fun _ => rfl, (by intro _ _ _ h; cases h), (by intro _ _ _ h; cases h),
    by simp [annForm10, annForm, annFill, Unrelated], rfl⟩

theorem annDisplays11 (forms : Nat) (res : Option (List ResourcesCall)) (g : GState F32 Prog) :
    Displays annUnf (pdfItems annDoc) forms res (inside none annBox g) annForm11.content (annLooks11 g) := by
  cases forms <;> exact ⟨⟨fun n => .prim (.name n), fun _ _ => none, fun _ _ => none⟩, fun _ => rfl, (by intro _ _ _ h; cases h),
    (by intro _ _ _ h; cases h), by simp [annForm11, annForm, annLine, Unrelated], rfl⟩

theorem annStream11 : GivenStream.Written annUnf (pdfItems annDoc) 1 ⟨annForm11, annLooks11 (initial fun n => .prim (.name n))⟩ := by
  refine ⟨annForm11_ok, none, none, annRect, Or.inl ⟨by simp [NoCall, annForm11, annForm, FormXObjectMeans], rfl⟩, ?_, rfl, annDisplays11 ..⟩
  simp [MaybeCall, NoCall, annForm11, annForm, FormXObjectMeans]

def annObject (n : Bytes) (g : GState F32 Prog) : Option (List (Element F32 Prog)) :=
  if n = b!"X" then some ([.enter 11 g] ++ annLooks11 g ++ [.leave 11]) else none

theorem annStream12 : GivenStream.Written annUnf (pdfItems annDoc) 1 ⟨annForm12, annLooks12⟩ := by
  refine ⟨annForm12_ok, some [.xObjects [(b!"X", .prim (.ref (rf 11)))]], none, annRect, Or.inr ⟨_, rfl, Or.inl rfl⟩, ?_, rfl, ?_⟩
  · simp [MaybeCall, NoCall, annForm12, annForm, FormXObjectMeans]
  refine ⟨⟨fun n => .prim (.name n), fun _ _ => none, annObject⟩, fun _ => rfl, (by intro _ _ _ h; cases h), ?_,
    by simp [annForm12, annForm, annNest, Unrelated], rfl⟩
  intro n g es h
  replace h : annObject n g = some es := h
  unfold annObject at h
  split at h
  · rename_i hn; subst hn; cases h
    exact Or.inr ⟨annForm11, some [.xObjects [(b!"X", .prim (.ref (rf 11)))]], none, annRect, annLooks11 g, ⟨_, _, rfl, Or.inl rfl, rfl⟩, annForm11_ok,
      Or.inl ⟨by simp [NoCall, annForm11, annForm, FormXObjectMeans], rfl⟩, by simp [MaybeCall, NoCall, annForm11, annForm, FormXObjectMeans], rfl,
      annDisplays11 .., rfl⟩
  · cases h

def annNote : GivenAnnot where
  id := rf 5
  source := .annotation annNoteCalls
  kind := .text
  rect := annRect
  flags := some [.print, .noZoom]
  contents := some ['ü', 'b']
  author := some ['m', 'e']
  subject := none
  name := none
  modified := some annDate
  page := some (rf 3)
  structParent := none
  icon := some .help
  highlight := none
  color := some (.rgb annOne F32.zero annTwo)
  quads := none
  line := none
  border := some ⟨F32.zero, annOne, annTwo, some [annOne]⟩
  state := none
  appearance := some annNoteAp
  normal := some (.single ⟨annForm10, annLooks10⟩)
  rollover := none
  down := none

def annStroke : GivenAnnot where
  id := rf 6
  source := .annotation annLineCalls
  kind := .line
  rect := annRect
  flags := none
  contents := none
  author := none
  subject := none
  name := some ['n']
  modified := none
  page := none
  structParent := none
  icon := none
  highlight := none
  color := none
  quads := none
  line := some ⟨F32.zero, annOne, annTwo, annOne⟩
  border := none
  state := none
  appearance := none
  normal := none
  rollover := none
  down := none

def annCheck : GivenAnnot where
  id := rf 7
  source := .widget annBoxField annBoxCalls
  kind := .widget
  rect := annRect
  flags := none
  contents := none
  author := none
  subject := none
  name := none
  modified := none
  page := none
  structParent := none
  icon := none
  highlight := some .push
  color := none
  quads := none
  line := none
  border := none
  state := some b!"Yes"
  appearance := some annBoxAp
  normal := some (.states [(b!"Yes", ⟨annForm10, annLooks10⟩), (b!"Off", ⟨annForm11, annLooks11 (initial fun n => .prim (.name n))⟩)])
  rollover := none
  down := some (.single ⟨annForm12, annLooks12⟩)

theorem noCall_keys {α : Type} {means : α → List (Bytes × (Val → Prop))} {k : Bytes} {calls : List α}
    (h : ((calls.flatMap means).map Prod.fst).contains k = false) : NoCall means k calls := by
  intro c hc e he hk
  subst hk
  rw [← Bool.not_eq_true, List.contains_iff_mem] at h
  exact h (List.mem_map.mpr ⟨e, List.mem_flatMap.mpr ⟨c, hc, he⟩, rfl⟩)

macro "ann_sets" : tactic => `(tactic| exact noCall_keys rfl)

/-- The note with all its entries is representable. -/
theorem annNote_item : ItemOk ⟨rf 5, .val (Annotation.prog annNoteCalls), false⟩ := by
  refine ⟨?_, Or.inr (noClashB_sound _ (by decide +kernel))⟩
  simp [annNoteCalls, Annotation.prog, Annotation.entries, AnnotationCall.entries, annNoteAp, Appearance.prog, Appearance.entries, AppearanceCall.entries,
    AppearanceEntry.prog, TextLike.prog, pName, pRect, pDate, pFlags, pReal, pRef, pText, pInt, Ok, OkItems, OkEntries, PrimOk, annRect, annDate, DateInRange, annOne, annTwo]
  decide

theorem annNote_ok : annNote.Written annUnf (pdfItems annDoc) 1 where
  object := ⟨⟨rf 5, .val (Annotation.prog annNoteCalls), false⟩,
    by simp [annDoc, pdfItems, callItems, chunkItems, chunkPretty, pdfPretty], rfl, rfl, annNote_item⟩
  kind := rfl
  rect := rfl
  flags := rfl
  contents := rfl
  author := rfl
  subject := by ann_sets
  name := by ann_sets
  modified := rfl
  page := rfl
  structParent := by ann_sets
  icon := rfl
  highlight := by ann_sets
  color := rfl
  quads := by ann_sets
  line := by ann_sets
  border := rfl
  state := by ann_sets
  appearance := rfl
  normal := rfl
  rollover := by ann_sets
  down := by ann_sets
  looks := by
    simp only [annNote, Option.toList, List.append_nil, List.mem_singleton, forall_eq, GivenLook.streams]
    exact annStream10

theorem annStroke_ok : annStroke.Written annUnf (pdfItems annDoc) 1 where
  object := by show HasObject (pdfItems annDoc) (rf 6) (.val (Annotation.prog annLineCalls)); ann_has (.val (Annotation.prog annLineCalls))
  kind := rfl
  rect := rfl
  flags := by ann_sets
  contents := by ann_sets
  author := by ann_sets
  subject := by ann_sets
  name := rfl
  modified := by ann_sets
  page := by ann_sets
  structParent := by ann_sets
  icon := by ann_sets
  highlight := by ann_sets
  color := by ann_sets
  quads := by ann_sets
  line := rfl
  border := by ann_sets
  state := by ann_sets
  appearance := by ann_sets
  normal := by ann_sets
  rollover := by ann_sets
  down := by ann_sets
  looks := by simp [annStroke]

theorem annCheck_ok : annCheck.Written annUnf (pdfItems annDoc) 1 where
  object := by show HasObject (pdfItems annDoc) (rf 7) (.val (Field.prog annBoxField)); ann_has (.val (Field.prog annBoxField))
  kind := ⟨rfl, rfl, by ann_sets⟩
  rect := ⟨rfl, rfl⟩
  flags := by ann_sets
  contents := by ann_sets
  author := rfl
  subject := by ann_sets
  name := by ann_sets
  modified := by ann_sets
  page := by ann_sets
  structParent := by ann_sets
  icon := by ann_sets
  highlight := ⟨rfl, rfl⟩
  color := by ann_sets
  quads := by ann_sets
  line := by ann_sets
  border := by ann_sets
  state := ⟨rfl, rfl⟩
  appearance := ⟨rfl, rfl⟩
  normal := rfl
  rollover := by ann_sets
  down := rfl
  looks := by
    intro l hl s hs
    simp only [annCheck, Option.toList, List.append_nil, List.cons_append, List.nil_append, List.mem_cons, List.not_mem_nil, or_false] at hl
    rcases hl with rfl | rfl
    · simp only [GivenLook.streams, List.map_cons, List.map_nil, List.mem_cons, List.not_mem_nil, or_false] at hs
      rcases hs with rfl | rfl
      · exact annStream10
      · exact annStream11
    · simp only [GivenLook.streams, List.mem_singleton] at hs
      subst hs
      exact annStream12

theorem annPages_ok : Pairwise (fun e gs => AnnotsGiven annUnf (pdfItems annDoc) 1 e.2 gs) annTree.leaves [[annNote, annStroke], [annCheck]] := by
  refine .cons ⟨Or.inr rfl, ?_⟩ (.cons ⟨Or.inr rfl, ?_⟩ .nil)
  · simp only [List.mem_cons, List.not_mem_nil, or_false, forall_eq_or_imp, forall_eq]
    exact ⟨annNote_ok, annStroke_ok⟩
  · simp only [List.mem_singleton, forall_eq]
    exact annCheck_ok

/-- The remaining hypotheses. -/
example : ∀ r ∈ docIds annDoc, r.get < 2147483647 := by decide +kernel
example : annTree.depth = 2 := rfl

/-- What a reader of the sample sees of an appearance: the numbers of its streams, their states, and how many elements they paint. -/
def annShow : ReadLook → List (Bytes × Nat × Nat)
  | .single n es => [([], n, es.length)]
  | .states l => l.map fun e => (e.1, e.2.1, e.2.2.length)

set_option synthInstance.maxHeartbeats 400000 in
set_option synthInstance.maxSize 2000 in
/-- The file can be finished and is short enough, and this is read from it. -/
example : ((annDoc.run.bind fun p => p.finish).bind fun b => if b.length < 10 ^ 10 then
      (fileAnnots annUnf b 2 1).map fun ps => ps.map fun p => p.map fun a => (a.number, a.subtype, a.flags, a.contents) else none) =
    some [[(5, b!"Text", 12, some ['ü', 'b']), (6, b!"Line", 0, none)], [(7, b!"Widget", 0, none)]] := by
  rw [← fastRun_eq]
  decide +kernel

set_option synthInstance.maxHeartbeats 400000 in
set_option synthInstance.maxSize 2000 in
/-- Its appearances. -/
example : ((annDoc.run.bind fun p => p.finish).bind fun b =>
      (fileAnnots annUnf b 2 1).map fun ps => ps.map fun p => p.map fun a => (a.state, a.normal.map annShow, a.down.map annShow)) =
    some [[(none, some [([], 10, 1)], none), (none, none, none)], [(some b!"Yes", some [(b!"Yes", 10, 1), (b!"Off", 11, 1)], some [([], 12, 3)])]] := by
  rw [← fastRun_eq]
  decide +kernel

end PdfW.Props
