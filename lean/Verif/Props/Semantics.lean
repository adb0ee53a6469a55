import Verif.Proof.Semantics
import Verif.Proof.ItemOk
import Verif.Proof.Fast
import Verif.Props.Tree
import Verif.Props.Annots
import Verif.Props.Tagged

set_option linter.unusedSimpArgs false
set_option linter.unusedVariables false

/-!
# C75: what structure elements mean

End to end: from the bytes of a file alone a reader obtains what the type of every structure element means in the end, the language in effect,
all attributes with their values, user properties, references, pronunciation, and the identifiers of elements.
-/

namespace PdfW.Props
open PdfW Spec

/-- C75. -/
theorem C75_semantics (unf : Val → Bytes → Option Bytes) (h : PdfHist) (p : Pdf) (w : Finishing) (bytes : Bytes) (hr : h.run = some p)
    (hf : w.run p = some bytes) (hids : ∀ r ∈ docIds h ++ w.ids, r.get < 2147483647) (hlen : w.Fits p bytes) (hu : w.Undone unf)
    (cid : Ref) (cat : List CatalogCall) (t : PageTree) (hw : DocumentWritten unf h cid cat t)
    (rootId : Option Ref) (root : List StructTreeRootCall) (voc : Vocabulary) (top : List StructPart)
    (hs : StructureWritten (pdfItems h) cat rootId root voc.roles top) (hv : VocabularyWritten (pdfItems h) root voc)
    (extra : Ref → GivenElem) (hx : partsExtra voc extra top) (lang : Option (List Char)) (hl : MaybeCall (CatalogMeans .code) b!"Lang" cat lang .lang)
    (structDepth : Nat) (hsd : partsDepth top ≤ structDepth) :
    ∃ rs, fileSemantics unf bytes voc.steps structDepth = some rs ∧ partsSame voc extra lang top rs := by
  obtain ⟨f, h1, hfi, hrt⟩ := finds_of hr hf hids hlen hu
  obtain ⟨d, h2, he⟩ := catalog_read hfi (hrt cid hw.root) hw.catalog hw.noType
  obtain ⟨rs, h3, h4⟩ := semantics_read hfi hs hv extra hx he hl structDepth hsd
  refine ⟨rs, ?_, h4⟩
  rw [← h3]
  simp only [fileSemantics, h1, h2, Option.bind_some]

theorem pairRefs_read (elems : List (Bytes × Ref)) (rs : List (Bytes × Val)) (h : PairsMean (elems.map fun e => (e.1, Prim.ref e.2)) rs) :
    readEach (fun e : Bytes × Val => (refNumber e.2).map fun n => (e.1, n)) rs = some (elems.map fun e => (e.1, e.2.get.toNat)) := by
  induction elems generalizing rs with
  | nil => cases h; rfl
  | cons e es ih =>
    simp only [List.map_cons, PairsMean] at h
    cases h with
    | cons h hr =>
      rename_i r rs
      obtain ⟨k, v⟩ := r
      obtain ⟨h1, h2⟩ := h
      simp only at h1 h2
      subst h1
      simp only [PrimDenotes] at h2
      subst h2
      rw [readEach, ih rs hr]
      rfl

/-- C75: the identifiers of elements. -/
theorem C75_identifiers (unf : Val → Bytes → Option Bytes) (h : PdfHist) (p : Pdf) (w : Finishing) (bytes : Bytes) (hr : h.run = some p)
    (hf : w.run p = some bytes) (hids : ∀ r ∈ docIds h ++ w.ids, r.get < 2147483647) (hlen : w.Fits p bytes) (hu : w.Undone unf)
    (cid : Ref) (cat : List CatalogCall) (t : PageTree) (hw : DocumentWritten unf h cid cat t)
    (rootId : Option Ref) (root : List StructTreeRootCall) (hs : RootSet (pdfItems h) cat root rootId)
    (tree : Tree NameTreeCall Bytes) (ho : OnlyCall (StructTreeRootMeans .code) b!"IDTree" root (.idTree tree.calls))
    (ht : tree.Linked nameApi b!"Names" (pdfItems h)) (elems : List (Bytes × Ref)) (hp : tree.pairs = elems.map fun e => (e.1, .ref e.2))
    (treeDepth : Nat) (htd : tree.depth ≤ treeDepth) : fileElementIds unf bytes treeDepth = some (elems.map fun e => (e.1, e.2.get.toNat)) := by
  obtain ⟨f, q1, hfi, hrt⟩ := finds_of hr hf hids hlen hu
  obtain ⟨d, q2, he⟩ := catalog_read hfi (hrt cid hw.root) hw.catalog hw.noType
  obtain ⟨r, q5, her⟩ := root_read hfi hs he
  obtain ⟨v, q6, td, rfl, htd'⟩ := lookup_of her (k := b!"IDTree") (P := IsNameTree .code tree.calls) (by
    simp only [StructTreeRootEntries, List.filter_append, onlyCall_filter ho]; rfl)
  obtain ⟨rs, q7, q8⟩ := tree_list nameTree_ok hfi tree ht treeDepth htd td htd'
  have q7 : listTree b!"Names" strOf f bytes treeDepth td = some rs := q7
  rw [hp] at q8
  have q9 := pairRefs_read elems rs q8
  simp only [fileElementIds, q1, q2, q5, q6, q7, q9, followDict, followRef, Option.bind_some]

/-! ## A document that meets the hypotheses

A chapter in German that has two classes, one of which sets the same attribute as the element itself, contains a scene in a namespace that maps
it to another namespace, and there to a standard type; the scene has a user property and refers to the chapter. -/

def semUser : GivenProp := ⟨[.name (.plain ['n']), .value (.prim (.int 5)), .hidden true], ['n'], .prim (.int 5), none, some true⟩
def semLayout1 : GivenAttributes := .layout [.placement .before, .spaceAfter F32.zero]
def semLayout2 : GivenAttributes := .layout [.placement .block]
def semList : GivenAttributes := .list [.listNumbering .decimal]
def semUserAttr : GivenAttributes := .user [semUser]
def semNsAttr : GivenAttributes := .inNamespace (rf 20) [(b!"Mood", .prim (.name b!"Dark"))]
def semClassMap : List (Bytes × GivenClass) := [(b!"c1", .single semLayout1), (b!"c2", .multiple [semList, semUserAttr])]
def semRoles : List (Bytes × StructRole) := [(b!"Chapter", .sect), (b!"Sect", .div)]
def semMap20 : List (Bytes × NsTarget) := [(b!"Line", .pdf17 .p), (b!"Scene", .other b!"Act" (rf 21))]
def semMap21 : List (Bytes × NsTarget) := [(b!"Act", .pdf20 .em (rf 22))]
def semNs20 : List NamespaceCall := [.ns ['a'], .roleMapNs (semMap20.map fun e => e.2.call e.1)]
def semNs21 : List NamespaceCall := [.roleMapNs (semMap21.map fun e => e.2.call e.1), .ns ['b']]
def semNs22 : List NamespaceCall := [.pdf2Ns]
def semPdf2 : List Char := "https://www.iso.org/pdf2/ssn".toList
def semSpaces : List GivenNamespace := [⟨rf 20, semNs20, ['a'], semMap20⟩, ⟨rf 21, semNs21, ['b'], semMap21⟩, ⟨rf 22, semNs22, semPdf2, []⟩]
def semVoc : Vocabulary := ⟨semRoles, semClassMap, semSpaces, 5⟩

def sem9 : List StructElementCall := [.customKind b!"Chapter", .parent (rf 8), .lang ['d', 'e'], .attributeClass [b!"c1", b!"c2"],
  .attributes [semLayout2.calls, semNsAttr.calls], .child (rf 10)]
def sem10 : List StructElementCall := [.customKind b!"Scene", .namespace (rf 20), .parent (rf 9), .attributes [semUserAttr.calls], .refs [rf 9],
  .phoneme ['i'], .phoneticAlphabet .ipa]
def semExtra (r : Ref) : GivenElem :=
  if r = rf 9 then ⟨some [semLayout2, semNsAttr], some [b!"c1", b!"c2"], none, none, none, [⟨none, b!"Chapter"⟩, ⟨none, b!"Sect"⟩, ⟨none, b!"Div"⟩]⟩
  else ⟨some [semUserAttr], none, some [rf 9], some ['i'], some .ipa, [⟨some ['a'], b!"Scene"⟩, ⟨some ['b'], b!"Act"⟩, ⟨some semPdf2, b!"Em"⟩]⟩
def semTop : List StructPart :=
  [.elem (rf 9) sem9 (.custom b!"Chapter") { noTexts with lang := some ['d', 'e'] } none
    [.elem (rf 10) sem10 (.customIn b!"Scene" (rf 20)) noTexts none []]]
def semIds : Tree NameTreeCall Bytes := .leaf (rf 99) [.names [(b!"x", .ref (rf 10))]] b!"" b!"" [(b!"x", .ref (rf 10))]
def semRoot : List StructTreeRootCall :=
  [.children [rf 9], .roleMap (semRoles.map fun e => .insert e.1 e.2), .classMap (semClassMap.map fun e => e.2.call e.1), .idTree semIds.calls]
def semCat : List CatalogCall := [.raw b!"StructTreeRoot" (.prim (.ref (rf 8))), .pages (rf 2), .lang ['e', 'n']]
def semTree : PageTree := .node (rf 2) [.kids [], .count 0] []

def semDoc : PdfHist :=
  .call (.call (.call (.call (.call (.call (.call (.catalog (.new false) (rf 1) (semCat.flatMap CatalogCall.entries))
    (.indirect (rf 2) (Pages.prog [.kids [], .count 0])))
    (.indirect (rf 8) (StructTreeRoot.prog semRoot)))
    (.indirect (rf 9) (StructElement.prog sem9)))
    (.indirect (rf 10) (StructElement.prog sem10)))
    (.indirect (rf 20) (Namespace.prog semNs20)))
    (.indirect (rf 21) (Namespace.prog semNs21)))
    (.indirect (rf 22) (Namespace.prog semNs22))

/-- An object of the sample document. -/
macro "sem_has" b:term : tactic => `(tactic| refine ⟨⟨_, $b, false⟩,
  by simp [semDoc, pdfItems, callItems, chunkItems, chunkPretty, pdfPretty], rfl, rfl, itemOkB_sound _ (by decide +kernel)⟩)

def semUnf : Val → Bytes → Option Bytes := fun _ _ => none

theorem semDoc_ok : DocumentWritten semUnf semDoc (rf 1) semCat semTree where
  root := rfl
  catalog := by
    refine ⟨⟨rf 1, .val (Catalog.prog semCat), false⟩, ?_, rfl, rfl, itemOkB_sound _ (by decide +kernel)⟩
    simp only [semDoc, pdfItems, callItems, chunkItems, chunkPretty, pdfPretty, Catalog.prog, Catalog.entries]
    simp [pName]
  noType := noCall_keys (calls := semCat) rfl
  pages := rfl
  tree := by
    simp only [semTree, PageTree.Written, writtenList]
    refine ⟨?_, ?_, rfl, trivial⟩
    · sem_has (.val (Pages.prog [.kids [], .count 0]))
    · simp [NoCall, PagesMeans]

theorem semTop_ok : StructureWritten (pdfItems semDoc) semCat (some (rf 8)) semRoot semVoc.roles semTop where
  rootSet := ⟨rfl, by sem_has (.val (StructTreeRoot.prog semRoot))⟩
  rolesSet := Or.inr rfl
  distinct := by decide
  kids := ⟨[rf 9], rfl, Or.inr (Or.inr rfl)⟩
  written := by
    simp only [semTop, List.mem_cons, List.not_mem_nil, or_false, forall_eq, StructPart.Written, partsWritten, noTexts]
    refine ⟨by sem_has (.val (StructElement.prog sem9)), ⟨rfl, ?_⟩, ⟨?_, ?_, rfl, ?_, ?_, ?_⟩, fun p hp => by cases hp; rfl, ?_, Or.inr (Or.inl ⟨_, _, rfl, rfl, rfl⟩),
      ⟨by sem_has (.val (StructElement.prog sem10)), ⟨rfl, rfl⟩, ⟨?_, ?_, ?_, ?_, ?_, ?_⟩, fun p hp => by cases hp; rfl, ?_, Or.inl ⟨rfl, ?_⟩, trivial⟩, trivial⟩
    all_goals first
      | exact noCall_keys (calls := sem9) rfl
      | exact noCall_keys (calls := sem10) rfl

theorem semUser_set : semUser.Set := ⟨rfl, rfl, noCall_keys (calls := semUser.calls) rfl, rfl⟩

theorem semProper (g : GivenAttributes) (h : g = semLayout1 ∨ g = semLayout2 ∨ g = semList ∨ g = semUserAttr ∨ g = semNsAttr) : g.Proper := by
  rcases h with rfl | rfl | rfl | rfl | rfl
  · exact ⟨by simp [semLayout1, GivenAttributes.attributes, LayoutAttributesMeans], trivial⟩
  · exact ⟨by simp [semLayout2, GivenAttributes.attributes, LayoutAttributesMeans], trivial⟩
  · exact ⟨by simp [semList, GivenAttributes.attributes, ListAttributesMeans], trivial⟩
  · exact ⟨by simp [semUserAttr, GivenAttributes.attributes], by simp only [semUserAttr, List.mem_singleton]; rintro p rfl; exact semUser_set⟩
  · exact ⟨by simp [semNsAttr, GivenAttributes.attributes], by simp [semNsAttr]⟩

theorem semVoc_ok : VocabularyWritten (pdfItems semDoc) semRoot semVoc where
  classes := Or.inr rfl
  distinct := by decide
  proper := by
    simp only [semVoc, semClassMap, List.mem_cons, List.not_mem_nil, or_false]
    rintro e (rfl | rfl) g hg
    · simp only [GivenClass.objects, List.mem_singleton] at hg
      exact semProper g (by simp [hg])
    · simp only [GivenClass.objects, List.mem_cons, List.not_mem_nil, or_false] at hg
      rcases hg with rfl | rfl <;> exact semProper _ (by simp)
  spaces := by
    simp only [semVoc, semSpaces, List.mem_cons, List.not_mem_nil, or_false]
    rintro g (rfl | rfl | rfl)
    · refine ⟨?_, noCall_keys (calls := semNs20) rfl, Or.inl rfl, Or.inr rfl, by decide⟩
      show HasObject (pdfItems semDoc) (rf 20) (.val (Namespace.prog semNs20))
      sem_has (.val (Namespace.prog semNs20))
    · refine ⟨?_, noCall_keys (calls := semNs21) rfl, Or.inl rfl, Or.inr rfl, by decide⟩
      show HasObject (pdfItems semDoc) (rf 21) (.val (Namespace.prog semNs21))
      sem_has (.val (Namespace.prog semNs21))
    · refine ⟨?_, noCall_keys (calls := semNs22) rfl, Or.inr (Or.inl ⟨rfl, rfl⟩), Or.inl ⟨rfl, noCall_keys (calls := semNs22) rfl⟩, by decide⟩
      show HasObject (pdfItems semDoc) (rf 22) (.val (Namespace.prog semNs22))
      sem_has (.val (Namespace.prog semNs22))

theorem semExtra_ok : partsExtra semVoc semExtra semTop := by
  simp only [semTop, partsExtra, StructPart.Extra]
  have e9 : semExtra (rf 9) = ⟨some [semLayout2, semNsAttr], some [b!"c1", b!"c2"], none, none, none,
    [⟨none, b!"Chapter"⟩, ⟨none, b!"Sect"⟩, ⟨none, b!"Div"⟩]⟩ := by simp only [semExtra, if_true]
  have e10 : semExtra (rf 10) = ⟨some [semUserAttr], none, some [rf 9], some ['i'], some .ipa,
    [⟨some ['a'], b!"Scene"⟩, ⟨some ['b'], b!"Act"⟩, ⟨some semPdf2, b!"Em"⟩]⟩ := by simp only [semExtra]; rw [if_neg (by decide)]
  rw [e9, e10]
  refine ⟨⟨⟨rfl, rfl, noCall_keys (calls := sem9) rfl, noCall_keys (calls := sem9) rfl, noCall_keys (calls := sem9) rfl, ?_⟩, ⟨_, [.single semLayout1, .multiple [semList, semUserAttr]], .cons ?_ (.cons ?_ .nil), rfl⟩,
    ⟨_, rfl, .role (r := .sect) ?_ (.role (s := b!"Sect") (r := .div) ?_ (.plain ?_))⟩, by decide,
    ⟨⟨rfl, noCall_keys (calls := sem10) rfl, rfl, rfl, rfl, ?_⟩, ⟨_, [], .nil, rfl⟩, ⟨b!"Scene", rfl, ?_⟩, by decide, trivial⟩, trivial⟩, trivial⟩
  · intro g hg
    simp only [Option.getD_some, List.mem_cons, List.not_mem_nil, or_false] at hg
    rcases hg with rfl | rfl <;> exact semProper _ (by simp)
  · exact List.mem_cons_self ..
  · exact List.mem_cons_of_mem _ (List.mem_cons_self ..)
  · exact List.mem_cons_self ..
  · exact List.mem_cons_of_mem _ (List.mem_cons_self ..)
  · simp only [semVoc]; decide
  · intro g hg
    simp only [Option.getD_some, List.mem_singleton] at hg
    subst hg
    exact semProper _ (by simp)
  · exact .toOther (g := ⟨rf 20, semNs20, ['a'], semMap20⟩) (t := b!"Act") (ns := rf 21) (List.mem_cons_self ..) (List.mem_cons_of_mem _ (List.mem_cons_self ..))
      (.to20 (g := ⟨rf 21, semNs21, ['b'], semMap21⟩) (r := .em) (ns := rf 22) (List.mem_cons_of_mem _ (List.mem_cons_self ..)) (List.mem_cons_self ..) rfl
        (.own (g := ⟨rf 22, semNs22, semPdf2, []⟩) (List.mem_cons_of_mem _ (List.mem_cons_of_mem _ (List.mem_cons_self ..))) (by simp)))

/-- The remaining hypotheses. -/
example : MaybeCall (CatalogMeans .code) b!"Lang" semCat (some ['e', 'n']) .lang ∧ partsDepth semTop = 2 := ⟨rfl, rfl⟩
example : OnlyCall (StructTreeRootMeans .code) b!"IDTree" semRoot (.idTree semIds.calls) ∧ semIds.Linked nameApi b!"Names" (pdfItems semDoc) ∧
    semIds.pairs = [(b!"x", rf 10)].map fun e => (e.1, .ref e.2) := ⟨rfl, rfl, rfl⟩
example : ∀ r ∈ docIds semDoc, r.get < 2147483647 := by decide +kernel

/-- The file can be finished and is short enough, and these identifiers are read from it. -/
example : (((semDoc.run.bind fun p => p.finish).bind fun b => if b.length < 10 ^ 10 then fileElementIds semUnf b 1 else none) == some [(b!"x", 10)]) = true := by
  rw [← fastRun_eq]
  decide +kernel

/-- Numbers of the elements, meanings of their types, and the languages in effect, from the top. -/
def semShape : Nat → List SemNode → List (Nat × List TypeIn × Option (List Char))
  | 0, _ => []
  | n + 1, l => l.flatMap fun | .elem k m lang _ _ _ _ _ kids => (k, m, lang) :: semShape n kids

/-- These elements are read from it. -/
example : (((semDoc.run.bind fun p => p.finish).bind fun b => fileSemantics semUnf b 5 2).any fun r => semShape 2 r ==
    [(9, [⟨none, b!"Chapter"⟩, ⟨none, b!"Sect"⟩, ⟨none, b!"Div"⟩], some ['d', 'e']),
     (10, [⟨some ['a'], b!"Scene"⟩, ⟨some ['b'], b!"Act"⟩, ⟨some semPdf2, b!"Em"⟩], some ['d', 'e'])]) = true := by
  rw [← fastRun_eq]
  decide +kernel

/-- The attribute that a class and the element set: the value of the element is in effect. -/
example : Decides [semLayout1, semList, semUserAttr, semLayout2, semNsAttr] (b!"Layout", none) b!"Placement" (IsName b!"Block") := by
  refine ⟨[semLayout1, semList, semUserAttr], semLayout2, [semNsAttr], rfl, rfl, rfl, ?_⟩
  simp [semNsAttr, GivenAttributes.owner]

end PdfW.Props
