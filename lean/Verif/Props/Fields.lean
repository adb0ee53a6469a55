import Verif.Proof.Fields
import Verif.Proof.Fast
import Verif.Props.Tagged

set_option linter.unusedSimpArgs false
set_option linter.unusedVariables false

/-!
# C63: interactive forms

End to end: from the bytes of a file alone a reader obtains the terminal fields of the interactive form that was written, with what they inherit,
and their widgets with the pages on which they are.
-/

namespace PdfW.Props
open PdfW Spec

/-- C63. -/
theorem C63_fields (unf : Val → Bytes → Option Bytes) (h : PdfHist) (p : Pdf) (w : Finishing) (bytes : Bytes) (hr : h.run = some p)
    (hf : w.run p = some bytes) (hids : ∀ r ∈ docIds h ++ w.ids, r.get < 2147483647) (hlen : w.Fits p bytes) (hu : w.Undone unf)
    (cid : Ref) (cat : List CatalogCall) (t : PageTree) (hw : DocumentWritten unf h cid cat t)
    (annots : List (List Ref)) (ha : Pairwise (fun e l => AnnotsSet e.2 l) t.leaves annots)
    (tops : List FieldTree) (hform : FormWritten (pdfItems h) cat tops) (htops : ∀ x ∈ tops, x.Written (pdfItems h) none)
    (depth : Nat) (hd : t.depth ≤ depth) (fieldDepth : Nat) (hfd : fieldsDepth tops ≤ fieldDepth) :
    ∃ rs, fileFields unf bytes depth fieldDepth = some rs ∧ Pairwise (FieldReads annots) (wantedFields ⟨[], none, none, none, none⟩ tops) rs := by
  obtain ⟨f, q1, hfi, hrt⟩ := finds_of hr hf hids hlen hu
  obtain ⟨d, q2, he⟩ := catalog_read hfi (hrt cid hw.root) hw.catalog hw.noType
  obtain ⟨v, q3, hv⟩ := lookup_of he (k := b!"Pages") (P := IsRef t.id) (by
    simp only [CatalogEntries, List.filter_append, onlyCall_filter hw.pages]; rfl)
  simp only [IsRef] at hv
  subst hv
  have q4 := tree_numbers (unf := unf) hfi t depth hd hw.tree
  have q5 := page_annots_read hfi t.leaves annots (leaves_written (unf := unf) t hw.tree) ha
  have q6 := form_tops_read hfi hform he
  obtain ⟨rs, q7, q8⟩ := tops_read hfi annots tops fieldDepth hfd htops ⟨[], none, none, none, none⟩ ReadState.top ⟨rfl, rfl, trivial, rfl, rfl⟩
  refine ⟨rs, ?_, q8⟩
  simp only [fileFields, q1, q2, q3, q4, q5, q6, q7, refNumber, Option.bind_some]

/-! ## A document that meets the hypotheses -/

def fldRect : Rect := ⟨F32.zero, F32.zero, F32.zero, F32.zero⟩
def fldAnnot : List AnnotationCall := [.rect fldRect, .flags [.print]]
/-- A field with two fields below it: one is its own widget, the other has two widgets on different pages. -/
def fld8 : List FieldCall := [.partialName ['a'], .fieldType .text, .fieldFlags [.required], .children [rf 9, rf 10]]
def fld9 : List FieldCall := [.parent (rf 8), .partialName ['b'], .textValue (.plain ['ü']), .textMaxLen 3, .intoAnnotation fldAnnot]
def fld10 : List FieldCall :=
  [.parent (rf 8), .partialName ['c'], .fieldType .button, .fieldFlags [], .checkboxValue .yes, .checkboxDefaultValue .off, .children [rf 11, rf 12]]
def fldWidget : List FieldCall := [.parent (rf 10), .intoAnnotation fldAnnot]
/-- A field without widgets. -/
def fld13 : List FieldCall := [.partialName ['d'], .fieldType .choice, .choiceValue none]
def fldOwn8 : OwnField := ⟨some ['a'], some .text, some [.required], none, none⟩
def fldOwn9 : OwnField := ⟨some ['b'], none, none, some (.text ['ü']), none⟩
def fldOwn10 : OwnField := ⟨some ['c'], some .button, some [], some (.checkbox .yes), some (.checkbox .off)⟩
def fldOwn13 : OwnField := ⟨some ['d'], some .choice, none, some (.choice none), none⟩
def fldTops : List FieldTree :=
  [.node (rf 8) fld8 fldOwn8
    [.merged (rf 9) fld9 fldOwn9 fldAnnot fldRect,
     .widgets (rf 10) fld10 fldOwn10 [⟨rf 11, fldWidget, fldAnnot, fldRect⟩, ⟨rf 12, fldWidget, fldAnnot, fldRect⟩]],
   .invisible (rf 13) fld13 fldOwn13]
def fldForm : List FormCall := [.fields [rf 8, rf 13]]
def fldCat : List CatalogCall := [.form fldForm, .pages (rf 2)]
def fldPage1 : List PageCall := [.parent (rf 2), .annotations [rf 12]]
def fldPage2 : List PageCall := [.parent (rf 2), .annotations [rf 9, rf 11]]
def fldPages : PageTree := .node (rf 2) [.kids [rf 3, rf 4], .count 2] [.page (rf 3) fldPage1 [], .page (rf 4) fldPage2 []]

def fldDoc : PdfHist :=
  .call (.call (.call (.call (.call (.call (.call (.call (.call (.catalog (.new false) (rf 1) (fldCat.flatMap CatalogCall.entries))
    (.indirect (rf 2) (Pages.prog [.kids [rf 3, rf 4], .count 2])))
    (.indirect (rf 3) (Page.prog fldPage1)))
    (.indirect (rf 4) (Page.prog fldPage2)))
    (.indirect (rf 8) (Field.prog fld8)))
    (.indirect (rf 9) (Field.prog fld9)))
    (.indirect (rf 10) (Field.prog fld10)))
    (.indirect (rf 11) (Field.prog fldWidget)))
    (.indirect (rf 12) (Field.prog fldWidget)))
    (.indirect (rf 13) (Field.prog fld13))

macro "fld_clash" : tactic => `(tactic| simp [Page.prog, Page.entries, PageCall.entries, Pages.prog, Pages.entries, PagesCall.entries, Field.prog,
  Field.entries, FieldCall.entries, Annotation.prog, Annotation.entries, AnnotationCall.entries, Catalog.prog, Catalog.entries, CatalogCall.entries,
  Form.prog, Form.entries, FormCall.entries, fld8, fld9, fld10, fld13, fldWidget, fldAnnot, fldCat, fldForm, fldPage1, fldPage2, fldRect, TextLike.prog,
  optText, pFlags, pStr, pRect, pName, pRef, pText, pInt, pReal, NoClash, NoClashItems, NoClashEntries, isEmptyName])

/-- An object of the sample document. -/
macro "fld_has" i:term:max b:term : tactic => `(tactic| exact ⟨⟨$i, .val $b, false⟩,
  by simp [fldDoc, pdfItems, callItems, chunkItems, chunkPretty, pdfPretty], rfl, rfl, okB_sound _ (by decide +kernel), Or.inr (by fld_clash)⟩)

theorem fldDoc_ok : DocumentWritten (fun _ _ => none) fldDoc (rf 1) fldCat fldPages where
  root := rfl
  catalog := by
    refine ⟨⟨rf 1, .val (Catalog.prog fldCat), false⟩, ?_, rfl, rfl, okB_sound _ (by decide +kernel), Or.inr (by fld_clash)⟩
    simp only [fldDoc, pdfItems, callItems, chunkItems, chunkPretty, pdfPretty, Catalog.prog, Catalog.entries]
    simp [pName]
  noType := by simp [NoCall, CatalogMeans, fldCat]
  pages := rfl
  tree := by
    simp only [fldPages, PageTree.Written, writtenList]
    refine ⟨?_, ?_, rfl, ⟨?_, ?_, Or.inl ⟨rfl, ?_⟩, by simp⟩, ⟨?_, ?_, Or.inl ⟨rfl, ?_⟩, by simp⟩, trivial⟩
    · fld_has (rf 2) (Pages.prog [.kids [rf 3, rf 4], .count 2])
    · simp [NoCall, PagesMeans]
    · fld_has (rf 3) (Page.prog fldPage1)
    · simp [NoCall, PageMeans, fldPage1]
    · simp [NoCall, PageMeans, fldPage1]
    · fld_has (rf 4) (Page.prog fldPage2)
    · simp [NoCall, PageMeans, fldPage2]
    · simp [NoCall, PageMeans, fldPage2]

theorem fldAnnots_ok : Pairwise (fun e l => AnnotsSet e.2 l) fldPages.leaves [[rf 12], [rf 9, rf 11]] :=
  .cons (Or.inr rfl) (.cons (Or.inr rfl) .nil)

theorem fldForm_ok : FormWritten (pdfItems fldDoc) fldCat fldTops := Or.inr ⟨fldForm, rfl, Or.inl rfl⟩

theorem fldWidget_set : WidgetSet fldWidget fldAnnot fldRect := ⟨rfl, by simp [NoCall, fldAnnot, AnnotationMeans], rfl, rfl⟩

/-- The fields. -/
theorem fldTops_ok : ∀ x ∈ fldTops, x.Written (pdfItems fldDoc) none := by
  simp only [fldTops, List.mem_cons, List.not_mem_nil, or_false, forall_eq_or_imp, forall_eq, FieldTree.Written, fieldsWritten, FieldWritten,
    WidgetPart.Written]
  refine ⟨⟨⟨?_, ⟨rfl, rfl, rfl, ?_, ?_⟩, ?_⟩, by simp, by simp [FieldTree.own, fldOwn9, fldOwn10], rfl,
      ⟨⟨?_, ⟨rfl, ?_, ?_, rfl, ?_⟩, rfl⟩, ?_, ⟨rfl, ?_, rfl, rfl⟩⟩,
      ⟨⟨?_, ⟨rfl, rfl, rfl, rfl, rfl⟩, rfl⟩, rfl, ⟨?_, ?_, rfl, fldWidget_set⟩, ⟨?_, ?_, rfl, fldWidget_set⟩⟩, trivial⟩,
    ⟨?_, ⟨rfl, rfl, ?_, rfl, ?_⟩, ?_⟩, ?_, ?_⟩
  · fld_has (rf 8) (Field.prog fld8)
  rotate_left 3
  · fld_has (rf 9) (Field.prog fld9)
  rotate_left 5
  · fld_has (rf 10) (Field.prog fld10)
  · fld_has (rf 11) (Field.prog fldWidget)
  rotate_left 1
  · fld_has (rf 12) (Field.prog fldWidget)
  rotate_left 1
  · fld_has (rf 13) (Field.prog fld13)
  all_goals simp [MaybeCall, NoCall, FieldMeans, AnnotationMeans, fld8, fld9, fld13, fldWidget, fldAnnot, fldOwn8, fldOwn9, fldOwn13]
  all_goals (rintro a b (⟨rfl, -⟩ | ⟨rfl, -⟩ | ⟨rfl, -⟩ | ⟨rfl, -⟩) <;> decide)

/-- The remaining hypotheses. -/
example : ∀ r ∈ docIds fldDoc, r.get < 2147483647 := by decide +kernel
example : fldPages.depth = 2 ∧ fieldsDepth fldTops = 2 := ⟨rfl, rfl⟩

/-- The file can be finished and is short enough. -/
theorem fldDoc_finishes : ∃ p bytes, fldDoc.run = some p ∧ p.finish = some bytes ∧ bytes.length < 10 ^ 10 := by
  have h : ((fldDoc.run.bind fun p => p.finish).any fun b => decide (b.length < 10 ^ 10)) = true := by
    rw [← fastRun_eq]
    decide +kernel
  cases hp : fldDoc.run with
  | none => rw [hp] at h; simp at h
  | some p =>
    cases hb : p.finish with
    | none => rw [hp] at h; simp [hb] at h
    | some b => rw [hp] at h; exact ⟨p, b, rfl, hb, by simpa [hb] using h⟩

/-- This is read from it: names with those of the parent, inherited type and flags, the pages of the widgets. -/
example : ∃ p bytes rs, fldDoc.run = some p ∧ p.finish = some bytes ∧ fileFields (fun _ _ => none) bytes 2 2 = some rs ∧
    (rs.map fun r => (r.number, r.name, r.type, r.value)) =
      [(9, ['a', '.', 'b'], some b!"Tx", some (.text ['ü'])), (10, ['a', '.', 'c'], some b!"Btn", some (.name b!"Yes")), (13, ['d'], some b!"Ch", none)] ∧
    (rs.map fun r => r.default) = [none, some (.name b!"Off"), none] ∧
    (rs.map fun r => r.flags.testBit 1) = [true, false, false] ∧
    (rs.map fun r => r.widgets.map fun w => (w.page, w.number)) = [[(some 1, 9)], [(some 1, 11), (some 0, 12)], []] := by
  obtain ⟨p, bytes, h1, h2, h3⟩ := fldDoc_finishes
  obtain ⟨rs, h4, h5⟩ := C63_fields (fun _ _ => none) fldDoc p .table bytes h1 h2 (by decide +kernel) h3 trivial (rf 1) fldCat fldPages fldDoc_ok
    [[rf 12], [rf 9, rf 11]] fldAnnots_ok fldTops fldForm_ok fldTops_ok 2 (by decide) 2 (by decide)
  refine ⟨p, bytes, rs, h1, h2, h4, ?_⟩
  simp only [fldTops, wantedFields, FieldTree.wanted, List.cons_append, List.nil_append] at h5
  obtain _ | ⟨a1, _ | ⟨a2, _ | ⟨a3, _ | _⟩⟩⟩ := h5
  have key : ∀ {annots : List (List Ref)} {w : WantedField} {r : ReadField}, FieldReads annots w r →
      r.flags.testBit 1 = decide (2 ∈ w.flags.map isoFieldFlag) ∧ (r.widgets.map fun x => (x.page, x.number)) =
        w.widgets.map fun x => (annots.findIdx? fun l => decide (x.1 ∈ l), x.1.get.toNat) := by
    intro annots w r h
    refine ⟨by rw [Bool.eq_iff_iff, h.flags 1, decide_eq_true_eq], ?_⟩
    have q := h.widgets
    revert q
    generalize w.widgets = ws, r.widgets = rs
    intro q
    induction q with
    | nil => rfl
    | cons h1 _ ih => simp only [List.map_cons, ih, h1.1, h1.2.2]
  simp only [List.map_cons, List.map_nil, (key a1).1, (key a1).2, (key a2).1, (key a2).2, (key a3).1, (key a3).2, a1.number, a1.name, a1.type, a1.value,
    a1.default, a2.number, a2.name, a2.type, a2.value, a2.default, a3.number, a3.name, a3.type, a3.value, a3.default]
  exact ⟨rfl, rfl, rfl, rfl⟩

end PdfW.Props
