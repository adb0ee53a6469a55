import Verif.Proof.Details
import Verif.Proof.ItemOk
import Verif.Proof.Fast
import Verif.Props.Annots
import Verif.Props.Tree

set_option linter.unusedSimpArgs false
set_option linter.unusedVariables false

/-!
# C77: settings of a form and details of its fields

End to end, as C60: the settings of the interactive form and, for every terminal field in the order of the tree, its alternate and mapping name,
the appearance, alignment and greatest length of its text and its options (given by itself, by a field above it or by the form), rich text, the
lock of a signature field and the constraints on its signature. Spec/Details.lean says what a reader does with the bytes.
-/

namespace PdfW.Props
open PdfW PdfW.Spec

/-- C77 (settings of a form and details of its fields): a reader of the finished file finds the settings given to the form, and for the terminal
fields, in order, the details given to them or inherited from the fields above them and the form. -/
theorem C77_form_details (unf : Val → Bytes → Option Bytes) (h : PdfHist) (p : Pdf) (w : Finishing) (bytes : Bytes) (hr : h.run = some p)
    (hf : w.run p = some bytes) (hids : ∀ r ∈ docIds h ++ w.ids, r.get < 2147483647) (hlen : w.Fits p bytes) (hu : w.Undone unf)
    (cid : Ref) (cat : List CatalogCall) (t : PageTree) (hw : DocumentWritten unf h cid cat t)
    (form : List FormCall) (hform : FormStored (pdfItems h) cat form) (s : GivenSettings) (hs : SettingsSet form s)
    (tops : List FieldTree) (hfields : OnlyCall FormMeans b!"Fields" form (.fields (tops.map FieldTree.id))) (htops : ∀ x ∈ tops, x.Written (pdfItems h) none)
    (xs : List (Details GivenSeed)) (hx : fieldsEach InheritedSet (DetailsSet (pdfItems h)) s.inherited tops xs)
    (depth : Nat) (hd : fieldsDepth tops ≤ depth) :
    ∃ r rs, fileForm unf bytes depth = some (r, rs) ∧ SameSettings s r ∧ Pairwise SameDetails xs rs := by
  obtain ⟨f, q1, hfi, hrt⟩ := finds_of hr hf hids hlen hu
  obtain ⟨d, q2, he⟩ := catalog_read hfi (hrt cid hw.root) hw.catalog hw.noType
  obtain ⟨v, fd, q3, q4, hfd⟩ := form_stored hfi hform he
  obtain ⟨r, q5, hrs⟩ := settings_read hs hfd
  have q6 := form_fields hfields hfd
  have hin : r.inherited = s.inherited := by
    obtain ⟨-, -, -, e1, e2⟩ := hrs
    simp only [Settings.inherited, e1, e2]
  obtain ⟨rs, q7, q8⟩ := each_tops hfi (own := InheritedSet) (leaf := DetailsSet (pdfItems h)) (R := SameDetails) (rown := readInherited) (rleaf := readDetails f bytes)
    (fun _ _ _ _ k he => inherited_read k he) (fun _ _ _ _ _ k he => details_read hfi k he) tops depth hd htops s.inherited xs hx
  refine ⟨r, rs, ?_, hrs, q8⟩
  simp only [List.map_map, Function.comp_def] at q6
  simp only [fileForm, q1, q2, q3, q4, q5, q6, q7, hin, Option.bind_some, Option.map_some]

/-! ## A document that meets the hypotheses -/

def dtlRect : Rect := ⟨F32.zero, F32.zero, F32.zero, F32.zero⟩
def dtlAnnot : List AnnotationCall := [.rect dtlRect]
/-- A field with a text and a choice field below it; a signature field. -/
def dtl8 : List FieldCall := [.partialName ['a'], .vartextDefaultAppearance b!"/F 9 Tf", .textMaxLen 7, .children [rf 9, rf 10]]
def dtl9 : List FieldCall :=
  [.parent (rf 8), .partialName ['b'], .fieldType .text, .alternateName (.plain ['n', 'ü']), .mappingName ['m'], .textMaxLen 3, .vartextQuadding .right,
   .vartextRichValue (.plain ['r']), .vartextDefaultStyle ['s'], .intoAnnotation dtlAnnot]
def dtlChoices : List ChoiceOptionsCall :=
  [.option (.plain ['u']), .«export» (.plain ['v']) ['w'], .options [.plain ['x'], .plain ['y']], .exports [(.plain ['z'], ['1'])]]
def dtl10 : List FieldCall := [.parent (rf 8), .partialName ['c'], .fieldType .choice, .choiceOptions dtlChoices, .choiceTopIndex 1, .choiceIndices [0, 4]]
def dtl13 : List FieldCall := [.partialName ['d'], .fieldType .signature, .signatureFieldLock (rf 14), .signatureSeedValue (rf 15)]
def dtlLock : List SignatureFieldLockCall := [.action .include, .fields [['a', '.', 'b']], .accessPermissions .fillAndSign]
def dtlUsage : KeyUsage := ⟨some true, some false, none, none, none, none, none, none, none⟩
def dtlCert : List CertificateSeedValueCall := [.constraintFlags [.subject], .subject [[1, 2]], .subjectDn [[(b!"cn", .prim (.str [65]))]], .keyUsage [dtlUsage], .url b!"u"]
def dtlSeed : List SignatureSeedValueCall :=
  [.constraintFlags [.digestMethod], .filter b!"Adobe.PPKLite", .digestMethod [.sha256], .certificate dtlCert, .reasons [['q']], .timestamp [.url b!"t", .required true],
   .addRevInfo true]
def dtlForm : List FormCall := [.fields [rf 8, rf 13], .sigFlags [.signaturesExist, .appendOnly], .calculationOrder [rf 9], .defaultAppearance b!"/H 8 Tf", .quadding .center,
  .defaultResources [.procSetsAll]]
def dtlOwn8 : OwnField := ⟨some ['a'], none, none, none, none⟩
def dtlOwn9 : OwnField := ⟨some ['b'], some .text, none, none, none⟩
def dtlOwn10 : OwnField := ⟨some ['c'], some .choice, none, none, none⟩
def dtlOwn13 : OwnField := ⟨some ['d'], some .signature, none, none, none⟩
def dtlTops : List FieldTree :=
  [.node (rf 8) dtl8 dtlOwn8 [.merged (rf 9) dtl9 dtlOwn9 dtlAnnot dtlRect, .invisible (rf 10) dtl10 dtlOwn10], .invisible (rf 13) dtl13 dtlOwn13]
def dtlCat : List CatalogCall := [.pages (rf 2), .raw b!"AcroForm" (.prim (.ref (rf 5)))]
def dtlPage : List PageCall := [.parent (rf 2), .annotations [rf 9]]
def dtlTree : PageTree := .node (rf 2) [.kids [rf 3], .count 1] [.page (rf 3) dtlPage []]

def dtlDoc : PdfHist :=
  .call (.call (.call (.call (.call (.call (.call (.call (.call (.catalog (.new false) (rf 1) (dtlCat.flatMap CatalogCall.entries))
    (.indirect (rf 2) (Pages.prog [.kids [rf 3], .count 1])))
    (.indirect (rf 3) (Page.prog dtlPage)))
    (.indirect (rf 5) (Form.prog dtlForm)))
    (.indirect (rf 8) (Field.prog dtl8)))
    (.indirect (rf 9) (Field.prog dtl9)))
    (.indirect (rf 10) (Field.prog dtl10)))
    (.indirect (rf 13) (Field.prog dtl13)))
    (.indirect (rf 14) (SignatureFieldLock.prog dtlLock)))
    (.indirect (rf 15) (SignatureSeedValue.prog dtlSeed))

def dtlUnf : Val → Bytes → Option Bytes := fun _ _ => none

/-- An object of the sample document. -/
macro "dtl_has" b:term : tactic => `(tactic| refine ⟨⟨_, .val $b, false⟩,
  by simp [dtlDoc, pdfItems, callItems, chunkItems, chunkPretty, pdfPretty], rfl, rfl, itemOkB_sound _ (by decide +kernel)⟩)

theorem dtlDoc_ok : DocumentWritten dtlUnf dtlDoc (rf 1) dtlCat dtlTree where
  root := rfl
  catalog := by
    refine ⟨⟨rf 1, .val (Catalog.prog dtlCat), false⟩, ?_, rfl, rfl, itemOkB_sound _ (by decide +kernel)⟩
    simp only [dtlDoc, pdfItems, callItems, chunkItems, chunkPretty, pdfPretty, Catalog.prog, Catalog.entries]
    simp [pName]
  noType := by simp [NoCall, CatalogMeans, dtlCat]
  pages := rfl
  tree := by
    simp only [dtlTree, PageTree.Written, writtenList]
    refine ⟨?_, ?_, rfl, ⟨?_, ?_, Or.inl ⟨rfl, ?_⟩, by simp⟩, trivial⟩
    · dtl_has (Pages.prog [.kids [rf 3], .count 1])
    · simp [NoCall, PagesMeans]
    · dtl_has (Page.prog dtlPage)
    · simp [NoCall, PageMeans, dtlPage]
    · simp [NoCall, PageMeans, dtlPage]

theorem dtlForm_ok : FormStored (pdfItems dtlDoc) dtlCat dtlForm := by
  refine Or.inr ⟨rf 5, rfl, ?_⟩
  dtl_has (Form.prog dtlForm)

/-! What is asked for. -/

def dtlSettings : GivenSettings := ⟨some [.signaturesExist, .appendOnly], some [9], some [.procSetsAll], some b!"/H 8 Tf", some 1⟩
def dtlSeedIs : GivenSeed where
  flags := some [.digestMethod]
  filter := some b!"Adobe.PPKLite"
  subFilter := none
  digest := some [b!"SHA256"]
  version := none
  cert := some ⟨some [.subject], some [[1, 2]], none, none, none, some [[(b!"cn", .prim (.str [65]))]],
    some [[some true, some false, none, none, none, none, none, none, none]], none, none, some b!"u", none⟩
  reasons := some [['q']]
  mdp := none
  timestamp := some (some b!"t", true)
  legal := none
  revocation := some true
  lockDocument := none
def dtlText8 : Inherited := ⟨some b!"/F 9 Tf", some 1, some 7, none⟩
def dtlText9 : Inherited := ⟨some b!"/F 9 Tf", some 2, some 3, none⟩
def dtlOptions : List (List Char × List Char) := [(['u'], ['u']), (['w'], ['v']), (['x'], ['x']), (['y'], ['y']), (['1'], ['z'])]
def dtlText10 : Inherited := ⟨some b!"/F 9 Tf", some 1, some 7, some dtlOptions⟩
def dtlText13 : Inherited := ⟨some b!"/H 8 Tf", some 1, none, none⟩
def dtl9Is : Details GivenSeed := ⟨9, some ['n', 'ü'], some ['m'], dtlText9, some ['s'], some ['r'], none, none, none, none⟩
def dtl10Is : Details GivenSeed := ⟨10, none, none, dtlText10, none, none, some 1, some [0, 4], none, none⟩
def dtl13Is : Details GivenSeed := ⟨13, none, none, dtlText13, none, none, none, none, some ⟨b!"Include", some [['a', '.', 'b']], some 2⟩, some dtlSeedIs⟩

theorem dtlSettings_ok : SettingsSet dtlForm dtlSettings := ⟨rfl, ⟨some [rf 9], rfl, rfl⟩, rfl, rfl, ⟨some .center, rfl, rfl⟩⟩

theorem dtlTops_ok : ∀ x ∈ dtlTops, x.Written (pdfItems dtlDoc) none := by
  simp only [dtlTops, List.mem_cons, List.not_mem_nil, or_false, forall_eq_or_imp, forall_eq, FieldTree.Written, fieldsWritten, FieldWritten]
  refine ⟨⟨⟨?_, ⟨rfl, noCall_keys (calls := dtl8) rfl, noCall_keys (calls := dtl8) rfl, noCall_keys (calls := dtl8) rfl, noCall_keys (calls := dtl8) rfl⟩,
        noCall_keys (calls := dtl8) rfl⟩, by simp, by simp [FieldTree.own, dtlOwn9, dtlOwn10], rfl,
      ⟨⟨?_, ⟨rfl, rfl, noCall_keys (calls := dtl9) rfl, noCall_keys (calls := dtl9) rfl, noCall_keys (calls := dtl9) rfl⟩, rfl⟩, noCall_keys (calls := dtl9) rfl,
        ⟨rfl, noCall_keys (calls := dtlAnnot) rfl, rfl, rfl⟩⟩,
      ⟨⟨?_, ⟨rfl, rfl, noCall_keys (calls := dtl10) rfl, noCall_keys (calls := dtl10) rfl, noCall_keys (calls := dtl10) rfl⟩, rfl⟩, noCall_keys (calls := dtl10) rfl,
        noCall_keys (calls := dtl10) rfl⟩, trivial⟩,
    ⟨?_, ⟨rfl, rfl, noCall_keys (calls := dtl13) rfl, noCall_keys (calls := dtl13) rfl, noCall_keys (calls := dtl13) rfl⟩, noCall_keys (calls := dtl13) rfl⟩,
    noCall_keys (calls := dtl13) rfl, noCall_keys (calls := dtl13) rfl⟩
  · dtl_has (Field.prog dtl8)
  · dtl_has (Field.prog dtl9)
  · dtl_has (Field.prog dtl10)
  · dtl_has (Field.prog dtl13)

theorem dtlLock_ok : LockSet dtlLock ⟨b!"Include", some [['a', '.', 'b']], some 2⟩ := ⟨⟨_, rfl, rfl⟩, rfl, ⟨some .fillAndSign, rfl, rfl⟩⟩

theorem dtlCert_ok : CertSet dtlCert ⟨some [.subject], some [[1, 2]], none, none, none, some [[(b!"cn", .prim (.str [65]))]],
    some [[some true, some false, none, none, none, none, none, none, none]], none, none, some b!"u", none⟩ where
  flags := rfl
  subject := rfl
  policyOid := noCall_keys (calls := dtlCert) rfl
  policyHash := noCall_keys (calls := dtlCert) rfl
  policyAlgorithm := noCall_keys (calls := dtlCert) rfl
  names := rfl
  usage := ⟨some [dtlUsage], rfl, rfl⟩
  issuer := noCall_keys (calls := dtlCert) rfl
  oid := noCall_keys (calls := dtlCert) rfl
  url := rfl
  urlType := ⟨none, rfl, noCall_keys (calls := dtlCert) rfl⟩

theorem dtlSeed_ok : SeedSet dtlSeed dtlSeedIs where
  flags := rfl
  filter := rfl
  subFilter := noCall_keys (calls := dtlSeed) rfl
  digest := ⟨some [.sha256], rfl, rfl⟩
  version := ⟨none, rfl, noCall_keys (calls := dtlSeed) rfl⟩
  cert := ⟨some dtlCert, rfl, dtlCert_ok⟩
  reasons := rfl
  mdp := ⟨none, noCall_keys (calls := dtlSeed) rfl, trivial⟩
  timestamp := ⟨some [.url b!"t", .required true], rfl, ⟨rfl, some true, rfl, rfl⟩⟩
  legal := noCall_keys (calls := dtlSeed) rfl
  revocation := rfl
  lockDocument := ⟨none, rfl, noCall_keys (calls := dtlSeed) rfl⟩

theorem dtl9_ok : DetailsSet (pdfItems dtlDoc) (rf 9) dtlText9 dtl9 dtl9Is where
  number := rfl
  text := rfl
  alternate := rfl
  mapping := rfl
  style := rfl
  rich := rfl
  top := noCall_keys (calls := dtl9) rfl
  indices := noCall_keys (calls := dtl9) rfl
  lock := ⟨none, noCall_keys (calls := dtl9) rfl, trivial⟩
  seed := ⟨none, noCall_keys (calls := dtl9) rfl, trivial⟩

theorem dtl10_ok : DetailsSet (pdfItems dtlDoc) (rf 10) dtlText10 dtl10 dtl10Is where
  number := rfl
  text := rfl
  alternate := noCall_keys (calls := dtl10) rfl
  mapping := noCall_keys (calls := dtl10) rfl
  style := noCall_keys (calls := dtl10) rfl
  rich := noCall_keys (calls := dtl10) rfl
  top := rfl
  indices := rfl
  lock := ⟨none, noCall_keys (calls := dtl10) rfl, trivial⟩
  seed := ⟨none, noCall_keys (calls := dtl10) rfl, trivial⟩

theorem dtl13_ok : DetailsSet (pdfItems dtlDoc) (rf 13) dtlText13 dtl13 dtl13Is where
  number := rfl
  text := rfl
  alternate := noCall_keys (calls := dtl13) rfl
  mapping := noCall_keys (calls := dtl13) rfl
  style := noCall_keys (calls := dtl13) rfl
  rich := noCall_keys (calls := dtl13) rfl
  top := noCall_keys (calls := dtl13) rfl
  indices := noCall_keys (calls := dtl13) rfl
  lock := ⟨some (rf 14), rfl, dtlLock, by dtl_has (SignatureFieldLock.prog dtlLock), dtlLock_ok⟩
  seed := ⟨some (rf 15), rfl, dtlSeed, by dtl_has (SignatureSeedValue.prog dtlSeed), dtlSeed_ok⟩

theorem dtlFields_ok : fieldsEach InheritedSet (DetailsSet (pdfItems dtlDoc)) dtlSettings.inherited dtlTops [dtl9Is, dtl10Is, dtl13Is] := by
  simp only [dtlTops, fieldsEach, FieldTree.Each]
  refine ⟨[dtl9Is, dtl10Is], [dtl13Is], ⟨dtlText8, ⟨some b!"/F 9 Tf", none, some 7, none, none, rfl, noCall_keys (calls := dtl8) rfl, rfl,
      noCall_keys (calls := dtl8) rfl, trivial, rfl⟩, [dtl9Is], [dtl10Is],
      ⟨dtlText9, dtl9Is, ⟨none, some .right, some 3, none, none, noCall_keys (calls := dtl9) rfl, rfl, rfl, noCall_keys (calls := dtl9) rfl, trivial, rfl⟩, dtl9_ok, rfl⟩,
      ⟨[dtl10Is], [], ⟨dtlText10, dtl10Is, ⟨none, none, none, some (.choiceOptions dtlChoices), some dtlOptions, noCall_keys (calls := dtl10) rfl,
        noCall_keys (calls := dtl10) rfl, noCall_keys (calls := dtl10) rfl, rfl, ?_, rfl⟩, dtl10_ok, rfl⟩, rfl, rfl⟩, rfl⟩,
    ⟨[dtl13Is], [], ⟨dtlText13, dtl13Is, ⟨none, none, none, none, none, noCall_keys (calls := dtl13) rfl, noCall_keys (calls := dtl13) rfl,
      noCall_keys (calls := dtl13) rfl, noCall_keys (calls := dtl13) rfl, trivial, rfl⟩, dtl13_ok, rfl⟩, rfl, rfl⟩, rfl⟩
  exact OptionsSet.choices (xs := [[(['u'], ['u'])], [(['w'], ['v'])], [(['x'], ['x']), (['y'], ['y'])], [(['1'], ['z'])]])
    (.cons ⟨_, rfl, rfl⟩ (.cons ⟨_, rfl, rfl⟩ (.cons ⟨[['x'], ['y']], rfl, rfl⟩ (.cons ⟨[(['1'], ['z'])], rfl, rfl⟩ .nil))))

/-- C77 applies to the document. -/
example (p : Pdf) (w : Finishing) (bytes : Bytes) (hr : dtlDoc.run = some p) (hf : w.run p = some bytes) (hids : ∀ r ∈ docIds dtlDoc ++ w.ids, r.get < 2147483647)
    (hlen : w.Fits p bytes) (hu : w.Undone dtlUnf) :
    ∃ r rs, fileForm dtlUnf bytes 2 = some (r, rs) ∧ SameSettings dtlSettings r ∧ Pairwise SameDetails [dtl9Is, dtl10Is, dtl13Is] rs :=
  C77_form_details dtlUnf dtlDoc p w bytes hr hf hids hlen hu (rf 1) dtlCat dtlTree dtlDoc_ok dtlForm dtlForm_ok dtlSettings dtlSettings_ok dtlTops rfl dtlTops_ok
    _ dtlFields_ok 2 (by decide)

/-- What a reader of the finished file sees, if it is short enough. -/
def dtlReads {α : Type} (show_ : Settings Nat Val × List (Details ReadSeed) → α) : Option α := (fastRun dtlDoc).bind fun p => p.finish.bind fun b =>
  if b.length < 10 ^ 10 then (fileForm dtlUnf b 2).map show_ else none
example {α : Type} (show_ : Settings Nat Val × List (Details ReadSeed) → α) : dtlReads show_ = dtlDoc.run.bind fun p => p.finish.bind fun b =>
    if b.length < 10 ^ 10 then (fileForm dtlUnf b 2).map show_ else none := by rw [dtlReads, fastRun_eq]

example : dtlReads (fun e => (e.1.sigFlags, e.1.order)) = some (some 3, some [9]) := by decide +kernel
example : dtlReads (fun e => e.2.map fun d => d.text) = some [dtlText9, dtlText10, dtlText13] := by decide +kernel
example : dtlReads (fun e => e.2.map fun d => d.lock) = some [none, none, some ⟨b!"Include", some [['a', '.', 'b']], some 2⟩] := by decide +kernel
example : dtlReads (fun e => e.2.map fun d => d.seed.bind fun s => s.cert.bind fun c => c.usage) =
    some [none, none, some [[some true, some false, none, none, none, none, none, none, none]]] := by decide +kernel

end PdfW.Props
