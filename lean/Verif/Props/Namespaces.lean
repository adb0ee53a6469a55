import Verif.Proof.Namespaces
import Verif.Props.Associated
import Verif.Props.Semantics

set_option linter.unusedSimpArgs false
set_option linter.unusedVariables false

/-!
# C84: namespaces

End to end, as C79, for the namespaces of a tagged document: typed writers for the structure tree root, namespaces and their role maps, schemas and lexicons,
object layout, cross-reference section and trailer together.
-/

namespace PdfW.Props
open PdfW Spec

/-- C84 (namespaces): a reader of the finished file finds the namespaces that the structure tree root lists, in order, with the names, schemas and mappings
that were set, the lexicons, and the next key of the parent tree. -/
theorem C84_namespaces (unf : Val → Bytes → Option Bytes) (h : PdfHist) (p : Pdf) (w : Finishing) (bytes : Bytes) (hr : h.run = some p)
    (hf : w.run p = some bytes) (hids : ∀ r ∈ docIds h ++ w.ids, r.get < 2147483647) (hlen : w.Fits p bytes) (hu : w.Undone unf)
    (cid : Ref) (cat : List CatalogCall) (t : PageTree) (hw : DocumentWritten unf h cid cat t) (rootId : Option Ref) (root : List StructTreeRootCall)
    (hroot : RootSet (pdfItems h) cat root rootId) (given : List GivenNamespace) (x : NsList Date) (hx : NsListSet unf (pdfItems h) root given x) :
    fileNamespaces unf bytes = some x.expected := by
  obtain ⟨f, h1, hfi, hrt⟩ := finds_of hr hf hids hlen hu
  obtain ⟨d, hcat, he⟩ := catalog_read hfi (hrt cid hw.root) hw.catalog hw.noType
  obtain ⟨r, q, her⟩ := root_read hfi hroot he
  obtain ⟨q1, q2, q3⟩ := nsList_read hfi hx her
  rw [Option.map_eq_some_iff] at q1 q2
  obtain ⟨a1, q1, e1⟩ := q1
  obtain ⟨a2, q2, e2⟩ := q2
  simp only [fileNamespaces, h1, Option.bind_some, hcat, q, q1, q2, q3, Option.map_some, NsList.expected, e1, e2]

/-! ## A document that meets the hypotheses

Three namespaces: one with a schema that maps types to the default namespace and to the second one, which maps to the third; a lexicon; a next key. -/

def nspSchema : List FileSpecCall := [.path b!"a.rng", .embeddedFile (rf 21), .associationKind .schema]
def nspLexicon : List FileSpecCall := [.path b!"de.pls", .description (.plain ['L'])]
def nspMap20 : List (Bytes × NsTarget) := [(b!"Line", .pdf17 .p), (b!"Scene", .other b!"Act" (rf 31)), (b!"H7", .pdf20 (.heading 7 (by decide) (by decide)) (rf 32))]
def nspMap31 : List (Bytes × NsTarget) := [(b!"Act", .pdf20 .em (rf 32))]
def nsp30 : List NamespaceCall := [.ns ['a'], .schema nspSchema, .roleMapNs (nspMap20.map fun e => e.2.call e.1)]
def nsp31 : List NamespaceCall := [.roleMapNs (nspMap31.map fun e => e.2.call e.1), .ns ['b']]
def nsp32 : List NamespaceCall := [.pdf2Ns]
def nspSpaces : List GivenNamespace := [⟨rf 30, nsp30, ['a'], nspMap20⟩, ⟨rf 31, nsp31, ['b'], nspMap31⟩, ⟨rf 32, nsp32, semPdf2, []⟩]
def nspRoot : List StructTreeRootCall := [.namespaces [rf 30, rf 32, rf 31], .pronunciationLexicon [rf 40], .parentTreeNextKey 7]
def nspCat : List CatalogCall := [.pages (rf 2), .structTreeRoot nspRoot]

def nspDoc : PdfHist :=
  .call (.call (.call (.call (.call (.call (.catalog (.new false) (rf 1) (nspCat.flatMap CatalogCall.entries))
    (.indirect (rf 2) (Pages.prog [.kids [], .count 0])))
    (.stream (rf 21) (EmbeddedFile.entries ascStream21) b!"??"))
    (.indirect (rf 30) (Namespace.prog nsp30)))
    (.indirect (rf 31) (Namespace.prog nsp31)))
    (.indirect (rf 32) (Namespace.prog nsp32)))
    (.indirect (rf 40) (FileSpec.prog nspLexicon))

/-- An object of the sample document. -/
macro "nsp_has" b:term : tactic => `(tactic| refine ⟨⟨_, $b, false⟩,
  by simp [nspDoc, pdfItems, callItems, chunkItems, chunkPretty, pdfPretty], rfl, rfl, itemOkB_sound _ (by decide +kernel)⟩)

theorem nspDoc_ok : DocumentWritten attachUnf nspDoc (rf 1) nspCat semTree where
  root := rfl
  catalog := by
    refine ⟨⟨rf 1, .val (Catalog.prog nspCat), false⟩, ?_, rfl, rfl, itemOkB_sound _ (by decide +kernel)⟩
    simp only [nspDoc, pdfItems, callItems, chunkItems, chunkPretty, pdfPretty, Catalog.prog, Catalog.entries]
    simp [pName]
  noType := noCall_keys (calls := nspCat) rfl
  pages := rfl
  tree := by
    simp only [semTree, PageTree.Written, writtenList]
    refine ⟨?_, ?_, rfl, trivial⟩
    · nsp_has (.val (Pages.prog [.kids [], .count 0]))
    · simp [NoCall, PagesMeans]

theorem nspSpaces_ok : ∀ g ∈ nspSpaces, g.Written (pdfItems nspDoc) := by
  simp only [nspSpaces, List.mem_cons, List.not_mem_nil, or_false]
  rintro g (rfl | rfl | rfl)
  · refine ⟨?_, noCall_keys (calls := nsp30) rfl, Or.inl rfl, Or.inr rfl, by decide⟩
    show HasObject (pdfItems nspDoc) (rf 30) (.val (Namespace.prog nsp30))
    nsp_has (.val (Namespace.prog nsp30))
  · refine ⟨?_, noCall_keys (calls := nsp31) rfl, Or.inl rfl, Or.inr rfl, by decide⟩
    show HasObject (pdfItems nspDoc) (rf 31) (.val (Namespace.prog nsp31))
    nsp_has (.val (Namespace.prog nsp31))
  · refine ⟨?_, noCall_keys (calls := nsp32) rfl, Or.inr (Or.inl ⟨rfl, rfl⟩), Or.inl ⟨rfl, noCall_keys (calls := nsp32) rfl⟩, by decide⟩
    show HasObject (pdfItems nspDoc) (rf 32) (.val (Namespace.prog nsp32))
    nsp_has (.val (Namespace.prog nsp32))

/-! What is asked for. -/

def nspSchemaIs : Specified Date := ⟨none, some b!"a.rng", none, false, none, some b!"Schema", some ascEmb21⟩
def nspLexiconIs : Specified Date := ⟨none, some b!"de.pls", none, false, some ['L'], none, none⟩
def nspIs30 : NsInfo Date := ⟨30, ['a'], some nspSchemaIs, [(b!"Line", ⟨none, b!"P"⟩), (b!"Scene", ⟨some ['b'], b!"Act"⟩), (b!"H7", ⟨some semPdf2, b!"H7"⟩)]⟩
def nspIs31 : NsInfo Date := ⟨31, ['b'], none, [(b!"Act", ⟨some semPdf2, b!"Em"⟩)]⟩
def nspIs32 : NsInfo Date := ⟨32, semPdf2, none, []⟩
def nspList : NsList Date := ⟨[nspIs30, nspIs32, nspIs31], [nspLexiconIs], some 7⟩

theorem nspEmb_ok : EmbeddedSet attachUnf (pdfItems nspDoc) (rf 21) ascEmb21 :=
  ⟨rfl, ascStream21, b!"??", by nsp_has (.stream (EmbeddedFile.entries ascStream21) b!"??"), noCall_keys (calls := ascStream21) rfl,
    ⟨none, noCall_keys (calls := ascStream21) rfl, trivial⟩, Or.inr ⟨_, rfl, rfl⟩⟩

theorem nspSchema_ok : FileSet attachUnf (pdfItems nspDoc) nspSchema nspSchemaIs :=
  ⟨noCall_keys (calls := nspSchema) rfl, rfl, noCall_keys (calls := nspSchema) rfl, ⟨none, rfl, noCall_keys (calls := nspSchema) rfl⟩,
    noCall_keys (calls := nspSchema) rfl, ⟨some .schema, rfl, rfl⟩, ⟨some (false, rf 21), rfl, nspEmb_ok⟩⟩

theorem nspLexicon_ok : FileObject attachUnf (pdfItems nspDoc) (rf 40) nspLexiconIs :=
  ⟨nspLexicon, by nsp_has (.val (FileSpec.prog nspLexicon)), noCall_keys (calls := nspLexicon) rfl, rfl, noCall_keys (calls := nspLexicon) rfl,
    ⟨none, rfl, noCall_keys (calls := nspLexicon) rfl⟩, rfl, ⟨none, rfl, noCall_keys (calls := nspLexicon) rfl⟩, ⟨none, noCall_keys (calls := nspLexicon) rfl, trivial⟩⟩

theorem nspList_ok : NsListSet attachUnf (pdfItems nspDoc) nspRoot nspSpaces nspList where
  spaces := by
    refine Or.inr ⟨[⟨rf 30, nsp30, ['a'], nspMap20⟩, ⟨rf 32, nsp32, semPdf2, []⟩, ⟨rf 31, nsp31, ['b'], nspMap31⟩], rfl, .cons ?_ (.cons ?_ (.cons ?_ .nil))⟩
    · exact ⟨nspSpaces_ok _ (by simp [nspSpaces]), rfl, rfl, ⟨some nspSchema, rfl, nspSchema_ok⟩,
        .cons ⟨rfl, rfl⟩ (.cons ⟨rfl, _, List.mem_cons_of_mem _ List.mem_cons_self, rfl, rfl⟩
          (.cons ⟨rfl, _, List.mem_cons_of_mem _ (List.mem_cons_of_mem _ List.mem_cons_self), rfl, b!"H7", by simp only [isoRole20]; decide, rfl⟩ .nil))⟩
    · exact ⟨nspSpaces_ok _ (by simp [nspSpaces]), rfl, rfl, ⟨none, noCall_keys (calls := nsp32) rfl, trivial⟩, .nil⟩
    · exact ⟨nspSpaces_ok _ (by simp [nspSpaces]), rfl, rfl, ⟨none, noCall_keys (calls := nsp31) rfl, trivial⟩,
        .cons ⟨rfl, _, List.mem_cons_of_mem _ (List.mem_cons_of_mem _ List.mem_cons_self), rfl, b!"Em", rfl, rfl⟩ .nil⟩
  written := nspSpaces_ok
  lexicons := Or.inr ⟨[rf 40], rfl, .cons nspLexicon_ok .nil⟩
  next := rfl

theorem nspRoot_ok : RootSet (pdfItems nspDoc) nspCat nspRoot none := rfl

/-- C84 applies to the document. -/
example (p : Pdf) (w : Finishing) (bytes : Bytes) (hr : nspDoc.run = some p) (hf : w.run p = some bytes) (hids : ∀ r ∈ docIds nspDoc ++ w.ids, r.get < 2147483647)
    (hlen : w.Fits p bytes) (hu : w.Undone attachUnf) : fileNamespaces attachUnf bytes = some nspList.expected :=
  C84_namespaces attachUnf nspDoc p w bytes hr hf hids hlen hu (rf 1) nspCat semTree nspDoc_ok none nspRoot nspRoot_ok nspSpaces nspList nspList_ok

/-- What a reader of the finished file sees, if it is short enough. -/
def nspReads {α : Type} (show_ : NsList DateVal → α) : Option α := (fastRun nspDoc).bind fun p => p.finish.bind fun b =>
  if b.length < 10 ^ 10 then (fileNamespaces attachUnf b).map show_ else none
example {α : Type} (show_ : NsList DateVal → α) : nspReads show_ = nspDoc.run.bind fun p => p.finish.bind fun b =>
    if b.length < 10 ^ 10 then (fileNamespaces attachUnf b).map show_ else none := by rw [nspReads, fastRun_eq]

example : nspReads (fun a => a.spaces.map fun s => (s.number, s.map)) = some [(30, nspIs30.map), (32, []), (31, nspIs31.map)] := by decide +kernel
example : nspReads (fun a => (a.lexicons.map fun s => s.path, a.next)) = some ([some b!"de.pls"], some 7) := by decide +kernel
example : nspReads (fun a => a.spaces.map fun s => (s.schema.bind fun x => x.embedded).map fun e => e.data) = some [some b!"xyz", none, none] := by decide +kernel

end PdfW.Props
