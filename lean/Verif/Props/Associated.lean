import Verif.Proof.Associated
import Verif.Proof.ItemOk
import Verif.Proof.Fast
import Verif.Props.Annots
import Verif.Props.Attach

set_option linter.unusedSimpArgs false
set_option linter.unusedVariables false

/-!
# C79: associated files

End to end, as C57, for the files that are associated with the document, its structure tree, its pages, annotations, and other objects: typed writers for
all of these, for file specifications, embedded files and their parameters, streams, object layout, cross-reference section and trailer together.
-/

namespace PdfW.Props
open PdfW Spec

section
variable (unf : Val → Bytes → Option Bytes) (h : PdfHist) (p : Pdf) (w : Finishing) (bytes : Bytes) (hr : h.run = some p)
  (hf : w.run p = some bytes) (hids : ∀ r ∈ docIds h ++ w.ids, r.get < 2147483647) (hlen : w.Fits p bytes) (hu : w.Undone unf)
include hr hf hids hlen hu

/-- C79 (associated files): a reader of the finished file finds the files associated with the document, its structure tree, its pages and their annotations,
in order, with everything that was said about them, and their data. -/
theorem C79_associated (cid : Ref) (cat : List CatalogCall) (t : PageTree) (hw : DocumentWritten unf h cid cat t) (x : Associated Date)
    (hx : AssociatedSet unf (pdfItems h) cat t.leaves x) (depth : Nat) (hd : t.depth ≤ depth) : fileAssociated unf bytes depth = some x.expected := by
  obtain ⟨f, h1, hfi, hroot⟩ := finds_of hr hf hids hlen hu
  obtain ⟨d, hcat, he⟩ := catalog_read hfi (hroot cid hw.root) hw.catalog hw.noType
  have hpg : (CatalogEntries .code cat).filter (fun e => e.1 == b!"Pages") = [(b!"Pages", IsRef t.id)] := by
    simp only [CatalogEntries, List.filter_append, onlyCall_filter hw.pages]
    rfl
  obtain ⟨w', hl, hw'⟩ := lookup_of he hpg
  simp only [IsRef] at hw'
  subst hw'
  have q1 := files_read hfi hx.document he (by decide) (fun _ => rfl)
  have q2 := treeFiles_read hfi hx.structure' he
  have q3 := pageFiles_read hfi t.leaves x.pages (leaves_written (unf := unf) t hw.tree) hx.pages
  obtain ⟨rs, q4, q5⟩ := eachAnnot_read hfi (R := fun a b => b = (a.1.map Specified.expected, a.2.map Specified.expected)) (read := annotFiles unf f bytes)
    (fun _ _ k => ⟨_, annot_files hfi k, rfl⟩) t.leaves x.annotations (leaves_written (unf := unf) t hw.tree) hx.annotations
  have q6 := pairwise_eqMap (g := fun l : List (List (Specified Date) × Option (Specified Date)) =>
    l.map fun e => (e.1.map Specified.expected, e.2.map Specified.expected)) (pairwise_mono (fun _ _ k => pairwise_eqMap k) q5)
  simp only [fileAssociated, h1, Option.bind_some, hcat, q1, q2, hl, refNumber, tree_numbers hfi t depth hd hw.tree, q3, q4, Option.map_some, Associated.expected, q6]

/-- C79 (associated files): the same for any page, annotation, structure element, image or form, by its number. -/
theorem C79_object (id : Ref) (xs : List (Specified Date)) (ho : ObjectHas unf (pdfItems h) id xs) :
    objectFiles unf bytes id.get.toNat = some (xs.map Specified.expected) := by
  obtain ⟨f, h1, hfi, -⟩ := finds_of hr hf hids hlen hu
  obtain ⟨d, q1, q2⟩ := object_read hfi ho
  simp only [objectFiles, h1, Option.bind_some, q1, q2]

/-- C79 (associated files): the page of another file that a form stands for. -/
theorem C79_reference (id : Ref) (form : List FormXObjectCall) (data : Bytes) (ho : HasObject (pdfItems h) id (.stream (FormXObject.entries form) data))
    (cs : Option (List ReferenceCall)) (hc : MaybeCall FormXObjectMeans b!"Ref" form cs .reference) (x : Option (Elsewhere Date))
    (hx : BothOrNone (ElsewhereSet unf (pdfItems h)) cs x) : formElsewhere unf bytes id.get.toNat = some (x.map Elsewhere.expected) := by
  obtain ⟨f, h1, hfi, -⟩ := finds_of hr hf hids hlen hu
  obtain ⟨d, q, hd⟩ := finds_stream hfi ho
  have he : EntriesAre ([(b!"Type", IsName b!"XObject"), (b!"Subtype", IsName b!"Form")] ++ form.flatMap FormXObjectMeans) d :=
    entriesAre_of (formXObject_implied form) hd
  obtain ⟨y, r1, m1⟩ := optional_both (read := readElsewhere unf f bytes) (R := fun a b => b = a.expected) (P := IsReference) he (by decide) hc hx
    (fun _ _ _ => rfl) (fun b g hw v hv => ⟨_, elsewhere_read hfi hw v hv, rfl⟩)
  rw [formElsewhere, h1, Option.bind_some, anyDict, q, Option.bind_some, optional_cons (by decide), r1, bothOrNone_eq m1]

end

/-! ## A document that meets the hypotheses

A data file for the document, with parameters; a file for the structure tree, on the web; a note on the first page that attaches a file; two files for the
second page; and a form that stands for a page of another file. -/

def ascDate : Date := ⟨2024, some 2, some 29, none, none, none, none, 0⟩
def ascData : List FileSpecCall := [.path b!"d.csv", .unicFile ['d', 'ä'], .embeddedFileWithUnicode (rf 20), .associationKind .source]
def ascWeb : List FileSpecCall := [.fileSystem b!"URL", .path b!"http://x", .volatile true]
def ascNote : List FileSpecCall := [.path b!"n", .embeddedFile (rf 21), .description (.plain ['N'])]
def ascPdf : List FileSpecCall := [.path b!"other.pdf"]
def ascRef : List ReferenceCall := [.fileSpec ascPdf, .pageNumber 3, .id [b!"a", b!"b"]]
def ascForm : List FormXObjectCall := [.bbox annRect, .reference ascRef, .associatedFiles [ascWeb, ascNote]]
def ascParams : List EmbeddingParamsCall := [.size 4, .creationDate ascDate, .checksum b!"0123"]
def ascStream20 : List EmbeddedFileCall := [.subtype b!"text/csv", .params ascParams]
def ascStream21 : List EmbeddedFileCall := [.stream (.filter .flateDecode)]
def ascCat : List CatalogCall := [.pages (rf 2), .associatedFiles [ascData], .structTreeRoot [.associatedFiles [ascWeb]]]
def ascPage1 : List PageCall := [.parent (rf 2), .annotations [rf 5]]
def ascPage2 : List PageCall := [.parent (rf 2), .associatedFiles [ascNote, ascData]]
def ascAnnot : List AnnotationCall := [.subtype .fileAttachment, .rect annRect, .fileSpec ascNote]
def ascTree : PageTree := .node (rf 2) [.kids [rf 3, rf 4], .count 2] [.page (rf 3) ascPage1 [], .page (rf 4) ascPage2 []]

def ascDoc : PdfHist :=
  .call (.call (.call (.call (.call (.call (.call (.catalog (.new false) (rf 1) (ascCat.flatMap CatalogCall.entries))
    (.indirect (rf 2) (Pages.prog [.kids [rf 3, rf 4], .count 2])))
    (.indirect (rf 3) (Page.prog ascPage1)))
    (.indirect (rf 4) (Page.prog ascPage2)))
    (.indirect (rf 5) (Annotation.prog ascAnnot)))
    (.stream (rf 10) (FormXObject.entries ascForm) b!"q Q"))
    (.stream (rf 20) (EmbeddedFile.entries ascStream20) b!"1,2\n"))
    (.stream (rf 21) (EmbeddedFile.entries ascStream21) b!"??")

/-- An object of the sample document. -/
macro "asc_has" b:term : tactic => `(tactic| refine ⟨⟨_, $b, false⟩,
  by simp [ascDoc, pdfItems, callItems, chunkItems, chunkPretty, pdfPretty], rfl, rfl, itemOkB_sound _ (by decide +kernel)⟩)

theorem ascDoc_ok : DocumentWritten attachUnf ascDoc (rf 1) ascCat ascTree where
  root := rfl
  catalog := by
    refine ⟨⟨rf 1, .val (Catalog.prog ascCat), false⟩, ?_, rfl, rfl, itemOkB_sound _ (by decide +kernel)⟩
    simp only [ascDoc, pdfItems, callItems, chunkItems, chunkPretty, pdfPretty, Catalog.prog, Catalog.entries]
    simp [pName]
  noType := noCall_keys (calls := ascCat) rfl
  pages := rfl
  tree := by
    simp only [ascTree, PageTree.Written, writtenList]
    refine ⟨?_, ?_, rfl, ⟨?_, ?_, Or.inl ⟨rfl, ?_⟩, by simp⟩, ⟨?_, ?_, Or.inl ⟨rfl, ?_⟩, by simp⟩, trivial⟩
    · asc_has (.val (Pages.prog [.kids [rf 3, rf 4], .count 2]))
    · simp [NoCall, PagesMeans]
    · asc_has (.val (Page.prog ascPage1))
    · exact noCall_keys (calls := ascPage1) rfl
    · exact noCall_keys (calls := ascPage1) rfl
    · asc_has (.val (Page.prog ascPage2))
    · exact noCall_keys (calls := ascPage2) rfl
    · exact noCall_keys (calls := ascPage2) rfl

/-! What is asked for. -/

def ascEmb20 : Embedded Date := ⟨20, some b!"text/csv", some ⟨some 4, some ascDate, none, some b!"0123"⟩, b!"1,2\n"⟩
def ascEmb21 : Embedded Date := ⟨21, none, none, b!"xyz"⟩
def ascDataIs : Specified Date := ⟨none, some b!"d.csv", some ['d', 'ä'], false, none, some b!"Source", some ascEmb20⟩
def ascWebIs : Specified Date := ⟨some b!"URL", some b!"http://x", none, true, none, none, none⟩
def ascNoteIs : Specified Date := ⟨none, some b!"n", none, false, some ['N'], none, some ascEmb21⟩
def ascOther : Elsewhere Date := ⟨⟨none, some b!"other.pdf", none, false, none, none, none⟩, .number 3, some [b!"a", b!"b"]⟩
def ascFiles : Associated Date := ⟨[ascDataIs], [ascWebIs], [[], [ascNoteIs, ascDataIs]], [[([], some ascNoteIs)], []]⟩

theorem ascStream20_item : ItemOk ⟨rf 20, .stream (EmbeddedFile.entries ascStream20) b!"1,2\n", false⟩ := by
  refine ⟨?_, Or.inr (noClashEntriesB_sound _ (by decide +kernel)), ?_⟩ <;>
  simp [ascStream20, ascParams, EmbeddedFile.entries, EmbeddedFileCall.entries, EmbeddingParams.prog, EmbeddingParams.entries, EmbeddingParamsCall.entries, pName, pDate,
    pInt, pStr, Ok, OkItems, OkEntries, PrimOk, ascDate, DateInRange]

theorem ascEmb20_ok : EmbeddedSet attachUnf (pdfItems ascDoc) (rf 20) ascEmb20 :=
  ⟨rfl, ascStream20, b!"1,2\n", ⟨⟨rf 20, .stream (EmbeddedFile.entries ascStream20) b!"1,2\n", false⟩,
    by simp [ascDoc, pdfItems, callItems, chunkItems, chunkPretty, pdfPretty], rfl, rfl, ascStream20_item⟩, rfl,
    ⟨some ascParams, rfl, rfl, rfl, noCall_keys (calls := ascParams) rfl, rfl⟩, Or.inl ⟨noCall_keys (calls := ascStream20) rfl, rfl⟩⟩

theorem ascEmb21_ok : EmbeddedSet attachUnf (pdfItems ascDoc) (rf 21) ascEmb21 :=
  ⟨rfl, ascStream21, b!"??", by asc_has (.stream (EmbeddedFile.entries ascStream21) b!"??"), noCall_keys (calls := ascStream21) rfl,
    ⟨none, noCall_keys (calls := ascStream21) rfl, trivial⟩, Or.inr ⟨.flateDecode, rfl, rfl⟩⟩

theorem ascData_ok : FileSet attachUnf (pdfItems ascDoc) ascData ascDataIs :=
  ⟨noCall_keys (calls := ascData) rfl, rfl, rfl, ⟨none, rfl, noCall_keys (calls := ascData) rfl⟩, noCall_keys (calls := ascData) rfl,
    ⟨some .source, rfl, rfl⟩, ⟨some (true, rf 20), rfl, ascEmb20_ok⟩⟩

theorem ascWeb_ok : FileSet attachUnf (pdfItems ascDoc) ascWeb ascWebIs :=
  ⟨rfl, rfl, noCall_keys (calls := ascWeb) rfl, ⟨some true, rfl, rfl⟩, noCall_keys (calls := ascWeb) rfl, ⟨none, rfl, noCall_keys (calls := ascWeb) rfl⟩,
    ⟨none, noCall_keys (calls := ascWeb) rfl, trivial⟩⟩

theorem ascNote_ok : FileSet attachUnf (pdfItems ascDoc) ascNote ascNoteIs :=
  ⟨noCall_keys (calls := ascNote) rfl, rfl, noCall_keys (calls := ascNote) rfl, ⟨none, rfl, noCall_keys (calls := ascNote) rfl⟩, rfl,
    ⟨none, rfl, noCall_keys (calls := ascNote) rfl⟩, ⟨some (false, rf 21), rfl, ascEmb21_ok⟩⟩

theorem ascPdf_ok : FileSet attachUnf (pdfItems ascDoc) ascPdf ascOther.file :=
  ⟨noCall_keys (calls := ascPdf) rfl, rfl, noCall_keys (calls := ascPdf) rfl, ⟨none, rfl, noCall_keys (calls := ascPdf) rfl⟩,
    noCall_keys (calls := ascPdf) rfl, ⟨none, rfl, noCall_keys (calls := ascPdf) rfl⟩, ⟨none, noCall_keys (calls := ascPdf) rfl, trivial⟩⟩

theorem ascFiles_ok : AssociatedSet attachUnf (pdfItems ascDoc) ascCat ascTree.leaves ascFiles where
  document := ⟨some [ascData], rfl, .cons ascData_ok .nil⟩
  structure' := Or.inr ⟨[.associatedFiles [ascWeb]], rfl, some [ascWeb], rfl, .cons ascWeb_ok .nil⟩
  pages := .cons ⟨none, noCall_keys (calls := ascPage1) rfl, .nil⟩ (.cons ⟨some [ascNote, ascData], rfl, .cons ascNote_ok (.cons ascData_ok .nil)⟩ .nil)
  annotations := by
    refine .cons ⟨[rf 5], Or.inr rfl, .cons ⟨.annotation ascAnnot, ?_, ⟨none, noCall_keys (calls := ascAnnot) rfl, .nil⟩, some ascNote, rfl, ascNote_ok⟩ .nil⟩
      (.cons ⟨[], Or.inl ⟨rfl, noCall_keys (calls := ascPage2) rfl⟩, .nil⟩ .nil)
    asc_has (.val (Annotation.prog ascAnnot))

theorem ascForm_ok : HasObject (pdfItems ascDoc) (rf 10) (.stream (FormXObject.entries ascForm) b!"q Q") := by
  asc_has (.stream (FormXObject.entries ascForm) b!"q Q")

/-- C79 applies to the document. -/
example (p : Pdf) (w : Finishing) (bytes : Bytes) (hr : ascDoc.run = some p) (hf : w.run p = some bytes) (hids : ∀ r ∈ docIds ascDoc ++ w.ids, r.get < 2147483647)
    (hlen : w.Fits p bytes) (hu : w.Undone attachUnf) :
    fileAssociated attachUnf bytes 2 = some ascFiles.expected ∧ objectFiles attachUnf bytes 10 = some [ascWebIs.expected, ascNoteIs.expected] ∧
      formElsewhere attachUnf bytes 10 = some (some ascOther.expected) :=
  ⟨C79_associated attachUnf ascDoc p w bytes hr hf hids hlen hu (rf 1) ascCat ascTree ascDoc_ok ascFiles ascFiles_ok 2 (by decide),
    C79_object attachUnf ascDoc p w bytes hr hf hids hlen hu (rf 10) [ascWebIs, ascNoteIs]
      (.form ascForm_ok ⟨some [ascWeb, ascNote], rfl, .cons ascWeb_ok (.cons ascNote_ok .nil)⟩),
    C79_reference attachUnf ascDoc p w bytes hr hf hids hlen hu (rf 10) ascForm b!"q Q" ascForm_ok (some ascRef) rfl (some ascOther)
      ⟨⟨ascPdf, rfl, ascPdf_ok⟩, Or.inl ⟨3, rfl, rfl⟩, rfl⟩⟩

/-- What a reader of the finished file sees, if it is short enough. -/
def ascReads {α : Type} (show_ : Associated DateVal → α) : Option α := (fastRun ascDoc).bind fun p => p.finish.bind fun b =>
  if b.length < 10 ^ 10 then (fileAssociated attachUnf b 2).map show_ else none
example {α : Type} (show_ : Associated DateVal → α) : ascReads show_ = ascDoc.run.bind fun p => p.finish.bind fun b =>
    if b.length < 10 ^ 10 then (fileAssociated attachUnf b 2).map show_ else none := by rw [ascReads, fastRun_eq]

example : ascReads (fun a => (a.document.map fun s => s.path, a.structure'.map fun s => s.system)) = some ([some b!"d.csv"], [some b!"URL"]) := by decide +kernel
example : ascReads (fun a => a.pages.map fun l => l.map fun s => s.embedded.map fun e => e.data) = some [[], [some b!"xyz", some b!"1,2\n"]] := by decide +kernel
example : ascReads (fun a => a.annotations.map fun l => l.map fun e => e.2.bind fun s => s.description) = some [[some ['N']], []] := by decide +kernel
example : ascReads (fun a => a.document.map fun s => (s.embedded.bind fun e => e.facts).bind fun t => t.created) = some [some (expectedDate ascDate)] := by decide +kernel

end PdfW.Props
