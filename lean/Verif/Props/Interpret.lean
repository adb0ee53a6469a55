import Verif.Proof.Interpret
import Verif.Proof.Fast
import Verif.Props.Extract
import Verif.Props.Navigate

set_option linter.unusedSimpArgs false
set_option linter.unusedVariables false

/-!
# C60: text in forms, and which marked-content sequence text belongs to

End to end, as C54, but with form XObjects (to any depth, with their own or inherited resources, compressed or not), images, and
marked-content sequences with property lists in place or in the resources.
-/

namespace PdfW.Props
open PdfW Spec

/-- C60. -/
theorem C60_shown (unf : Val → Bytes → Option Bytes) (h : PdfHist) (p : Pdf) (w : Finishing) (bytes : Bytes) (hr : h.run = some p)
    (hf : w.run p = some bytes) (hids : ∀ r ∈ docIds h ++ w.ids, r.get < 2147483647) (hlen : w.Fits p bytes) (hu : w.Undone unf)
    (cid : Ref) (cat : List CatalogCall) (t : PageTree) (hw : DocumentWritten unf h cid cat t)
    (forms : Nat) (shown : List (List Shown)) (ht : t.Draw unf (pdfItems h) forms shown) (depth : Nat) (hd : t.depth ≤ depth) (n : Nat) (hn : forms ≤ n) :
    fileShown unf bytes depth n = some shown := by
  obtain ⟨f, h1, hfinds, hroot⟩ := finds_of hr hf hids hlen hu
  obtain ⟨d, hcat, he⟩ := catalog_read hfinds (hroot cid hw.root) hw.catalog hw.noType
  have hpg : (CatalogEntries .code cat).filter (fun e => e.1 == b!"Pages") = [(b!"Pages", IsRef t.id)] := by
    simp only [CatalogEntries, List.filter_append, onlyCall_filter hw.pages]
    rfl
  obtain ⟨w', hl, hw'⟩ := lookup_of he hpg
  simp only [IsRef] at hw'
  subst hw'
  have := tree_each (unf := unf) hfinds (pageShown_read hfinds n forms hn)
    t depth hd hw.tree none none rfl shown ht
  simp only [fileShown, h1, Option.bind_some, readShown, hcat, hl, refNumber, this]

/-- C60: so there is only one result that the calls can be said to ask for. -/
theorem C60_shown_unique (unf : Val → Bytes → Option Bytes) (h : PdfHist) (p : Pdf) (bytes : Bytes) (hr : h.run = some p)
    (hf : p.finish = some bytes) (hids : ∀ r ∈ docIds h, r.get < 2147483647) (hlen : bytes.length < 10 ^ 10)
    (cid : Ref) (cat : List CatalogCall) (t : PageTree) (hw : DocumentWritten unf h cid cat t) (forms forms' : Nat) (shown shown' : List (List Shown))
    (ht : t.Draw unf (pdfItems h) forms shown) (ht' : t.Draw unf (pdfItems h) forms' shown') : shown = shown' := by
  have a := C60_shown unf h p .table bytes hr hf (by simpa [Finishing.ids] using hids) hlen trivial cid cat t hw forms shown ht t.depth
    (Nat.le_refl _) (forms + forms') (by omega)
  have b := C60_shown unf h p .table bytes hr hf (by simpa [Finishing.ids] using hids) hlen trivial cid cat t hw forms' shown' ht' t.depth
    (Nat.le_refl _) (forms + forms') (by omega)
  rw [a] at b
  exact Option.some.inj b

/-! ## A document that meets the hypotheses -/

/-- A font. -/
def formsKind : FontKind := .type3 [.toUnicode (rf 9), .firstChar 65] [.pair 65 'Z']
def formsFont (name : Bytes) : FontPart := ⟨name, formsKind, rf 9, [], formsKind.cmapData b!"Custom" adobeIdentity .horizontal, b!"Custom", adobeIdentity, .horizontal⟩

/-- The resources of the page: a font, an image and a form, and a property list. -/
def formsRes : List ResourcesCall := [.fonts [(b!"F1", .prim (.ref (rf 8)))],
  .xObjects [(b!"Im", .prim (.ref (rf 7))), (b!"X1", .prim (.ref (rf 5)))], .properties [(b!"P1", [.identify 3])]]
/-- The resources of the first form: the same font under another name, and the second form. -/
def formsRes1 : List ResourcesCall := [.fonts [(b!"F2", .prim (.ref (rf 8)))], .xObjects [(b!"Y", .prim (.ref (rf 6)))]]

/-- Marked content with an identifier, without one, and around an image and a form. -/
def formsCalls : List ContentCall :=
  [.beginMarkedContentWithProperties b!"P" (.dict [.identify 0]), .setFont b!"F1" F32.zero, .show [65], .endMarkedContent,
   .beginMarkedContent b!"Artifact", .show [66], .endMarkedContent,
   .beginMarkedContentWithProperties b!"Span" (.named b!"P1"), .xObject b!"Im", .xObject b!"X1", .endMarkedContent]
/-- It shows text in the font of the page first. -/
def formsCalls1 : List ContentCall :=
  [.show [65], .setFont b!"F2" F32.zero, .beginMarkedContentWithProperties b!"P" (.dict [.identify 0]), .show [65], .xObject b!"Y", .endMarkedContent]
def formsCalls2 : List ContentCall :=
  [.beginMarkedContentWithProperties b!"Span" (.dict [.actualText ['x']]), .saveState, .show [65], .restoreState, .endMarkedContent]

def formsPart : ContentPart := ⟨rf 4, [], ((runCalls formsCalls (Content.withSettings true)).get (by decide +kernel)).finish.inner, true, formsCalls⟩
def formsForm1 : FormPart := ⟨rf 5, [.bbox ⟨F32.zero, F32.zero, F32.zero, F32.zero⟩, .resources formsRes1],
  ((runCalls formsCalls1 (Content.withSettings false)).get (by decide +kernel)).finish.inner, false, formsCalls1⟩
/-- Compressed, without resources. -/
def formsForm2 : FormPart := ⟨rf 6, [.stream (.filter .flateDecode)], b!"??", true, formsCalls2⟩

def formsTree : PageTree :=
  .node (rf 2) [.kids [rf 3], .count 1] [.page (rf 3) [.parent (rf 2), .resources formsRes, .contents (rf 4)] [formsPart]]

def formsDoc : PdfHist :=
  .call (.call (.call (.call (.call (.call (.call (.call (.catalog (.new false) (rf 1) ([.pages (rf 2)].flatMap CatalogCall.entries))
    (.indirect (rf 2) (Pages.prog [.kids [rf 3], .count 1])))
    (.indirect (rf 3) (Page.prog [.parent (rf 2), .resources formsRes, .contents (rf 4)])))
    (.stream (rf 4) [] formsPart.data))
    (.stream (rf 5) (FormXObject.entries formsForm1.calls) formsForm1.data))
    (.stream (rf 6) (FormXObject.entries formsForm2.calls) formsForm2.data))
    (.stream (rf 7) (ImageXObject.entries [.width 1, .height 1]) [0]))
    (.indirect (rf 8) formsKind.prog))
    (.stream (rf 9) (CmapStream.entries []) (formsFont []).data)

/-- Undoes the compression of the second form. -/
def formsUnf : Val → Bytes → Option Bytes
  | .name n, d => if n = b!"FlateDecode" ∧ d = b!"??" then some ((runCalls formsCalls2 (Content.withSettings true)).get (by decide +kernel)).finish.inner else none
  | _, _ => none

/-- The first code belongs to sequence 0 of the page; the second to none; the third is in the form but belongs to the sequence around it; the
others belong to sequence 0 of the form. -/
def formsShown : List (List Shown) :=
  [[(some ⟨none, 0⟩, some ['Z']), (none, none), (some ⟨none, 3⟩, some ['Z']), (some ⟨some 5, 0⟩, some ['Z']), (some ⟨some 5, 0⟩, some ['Z'])]]

/-- An object of the sample document. -/
macro "forms_has" b:term : tactic => `(tactic| refine ⟨⟨_, $b, false⟩,
  by simp [formsDoc, pdfItems, callItems, chunkItems, chunkPretty, pdfPretty, formsFont, formsPart, formsForm1, formsForm2], rfl, rfl,
  by
    simp [ItemOk, Page.prog, Page.entries, PageCall.entries, Pages.prog, Pages.entries, PagesCall.entries, Resources.prog, Resources.entries,
      ResourcesCall.entries, FontKind.prog, Type3Font.prog, PropCall.entry, FormXObject.entries, FormXObjectCall.entries, ImageXObject.entries,
      ImageXObjectCall.entries, formsForm1, formsForm2,
      Type3Font.entries, Type3FontCall.entries, formsKind, StreamCall.entries, formsFont, formsRes, formsRes1, pRect, CmapStream.entries,
      Catalog.prog, Catalog.entries, CatalogCall.entries, pName, pRef, pText, pInt, pReal, Ok, OkItems, OkEntries, PrimOk, NoClash, NoClashItems,
      NoClashEntries, isEmptyName] <;> decide⟩)

theorem formsPart_ok : PartWritten formsUnf (pdfItems formsDoc) formsPart := by
  refine ⟨?_, ⟨(runCalls formsCalls (Content.withSettings true)).get (by decide +kernel), ?_, Or.inl ⟨?_, ?_⟩⟩, ?_, Or.inl rfl⟩
  · forms_has (.stream [] formsPart.data)
  · simp [formsPart]
  · simp [NoCall, formsPart]
  · simp only [formsPart]
  · simp [formsPart, formsCalls, CallOk, operandsOf, OkItems, Ok, PrimOk, nam, num, OkEntries, propEntry]; decide

theorem formsForm1_ok : formsForm1.Written formsUnf (pdfItems formsDoc) where
  object := by forms_has (.stream (FormXObject.entries formsForm1.calls) formsForm1.data)
  subtype := by simp [NoCall, formsForm1, FormXObjectMeans]
  stored := ⟨(runCalls formsCalls1 (Content.withSettings false)).get (by decide +kernel), by simp [formsForm1], Or.inl ⟨by simp [NoCall, formsForm1, FormXObjectMeans], by simp only [formsForm1]⟩⟩
  ok := by simp [formsForm1, formsCalls1, CallOk, operandsOf, OkItems, Ok, PrimOk, nam, num, OkEntries, propEntry]; decide
  clash := Or.inr (by simp [formsForm1, formsCalls1, CallNoClash, operandsOf, NoClashItems, NoClash, NoClashEntries, isEmptyName, nam, num, propEntry] <;> decide)

theorem formsForm2_ok : formsForm2.Written formsUnf (pdfItems formsDoc) where
  object := by forms_has (.stream (FormXObject.entries formsForm2.calls) formsForm2.data)
  subtype := by simp [NoCall, formsForm2, FormXObjectMeans, StreamMeans]
  stored := ⟨(runCalls formsCalls2 (Content.withSettings true)).get (by decide +kernel), by simp [formsForm2], Or.inr ⟨.flateDecode, rfl, rfl⟩⟩
  ok := by simp [formsForm2, formsCalls2, CallOk, operandsOf, OkItems, Ok, PrimOk, nam, num, OkEntries, propEntry]
  clash := Or.inl rfl

/-- All hypotheses about the document and its tree. -/
theorem formsDoc_ok : DocumentWritten formsUnf formsDoc (rf 1) [.pages (rf 2)] formsTree where
  root := rfl
  catalog := by
    refine ⟨⟨rf 1, .val (Catalog.prog [.pages (rf 2)]), false⟩, ?_, rfl, rfl, ?_⟩
    · simp only [formsDoc, pdfItems, callItems, chunkItems, chunkPretty, pdfPretty, Catalog.prog, Catalog.entries]
      simp [pName]
    · sample_ok
  noType := by simp [NoCall, CatalogMeans]
  pages := rfl
  tree := by
    simp only [formsTree, PageTree.Written, writtenList]
    refine ⟨?_, ?_, rfl, ⟨?_, ?_, Or.inr (Or.inl ⟨_, rfl, rfl⟩), ?_⟩, trivial⟩
    · forms_has (.val (Pages.prog [.kids [rf 3], .count 1]))
    · simp [NoCall, PagesMeans]
    · forms_has (.val (Page.prog [.parent (rf 2), .resources formsRes, .contents (rf 4)]))
    · simp [NoCall, PageMeans]
    · simp only [List.mem_singleton, forall_eq]; exact formsPart_ok

theorem formsFont_ok (name : Bytes) (res : List ResourcesCall) (es : List (Bytes × Prog)) (h1 : OnlyCall ResourcesMeans b!"Font" res (.fonts es))
    (h2 : es.filter (fun e => e.1 == name) = [(name, .prim (.ref (rf 8)))]) :
    FontWritten formsUnf (pdfItems formsDoc) (some res) (formsFont name) := by
  refine ⟨⟨res, es, .prim (.ref (rf 8)), rfl, Or.inl h1, h2, Or.inr ⟨rf 8, rfl, ?_⟩⟩, ⟨?_, rfl⟩, ?_, Or.inl ⟨?_, rfl⟩, ?_⟩
  · forms_has (.val formsKind.prog)
  · simp [NoCall, Type3FontMeans]
  · forms_has (.stream (CmapStream.entries []) (formsFont []).data)
  · simp [NoCall, formsFont]
  · refine ⟨?_, ?_, ?_⟩ <;> (unfold OneLine; simp only [formsFont]; decide)

theorem draws_eq {unf : Val → Bytes → Option Bytes} {items : List Item} {d : Nat} {o : Option Ref} {res : Option (List ResourcesCall)}
    {base : Option Mark} {cur : Option FontPart} {saved : List (Option FontPart)} {marks : List (Option Mark)} {cs : List ContentCall}
    {t t' : List Shown} (h : Draws unf items d o res base cur saved marks cs t) (e : t = t') :
    Draws unf items d o res base cur saved marks cs t' := e ▸ h

/-- What the calls ask for. -/
theorem formsTree_draw : formsTree.Draw formsUnf (pdfItems formsDoc) 2 formsShown := by
  simp only [formsTree, PageTree.Draw, PageTree.Each, eachList]
  refine ⟨none, Or.inl ⟨?_, rfl⟩, [formsShown[0]], [], rfl, ⟨some formsRes, _, rfl, Or.inr ⟨_, rfl, Or.inl rfl⟩, ?_⟩, rfl⟩
  · simp [NoCall, PagesMeans]
  · simp only [List.flatMap_cons, List.flatMap_nil, formsPart, formsCalls, List.append_nil]
    have f1 := formsFont_ok b!"F1" formsRes _ rfl rfl
    have f2 := formsFont_ok b!"F2" formsRes1 _ rfl rfl
    have z : ∀ name, ShowsAs (some (formsFont name)) [65] [some ['Z']] := fun _ => ⟨_, rfl, [65], by decide, by decide⟩
    have x : ∀ name, ShowsAs (some (formsFont name)) [66] [none] := fun _ => ⟨_, rfl, [66], by decide, by decide⟩
    refine draws_eq (.markWith (mcid := some 0) rfl (.font _ f1 (.show (z _) (.endMark (.mark (.show (x _) (.endMark
      (.markNamed (ps := [.identify 3]) (mcid := some 3) ⟨formsRes, _, rfl, rfl, rfl⟩ rfl
        (.image (rf 7) [.width 1, .height 1] [0] ⟨formsRes, _, rfl, Or.inl rfl, rfl⟩ ?_ ?_
        (.form formsForm1 (some formsRes1) ⟨formsRes, _, rfl, Or.inl rfl, rfl⟩ formsForm1_ok (Or.inr ⟨_, rfl, Or.inl rfl⟩)
          (.show (z _) (.font _ f2 (.markWith (mcid := some 0) rfl (.show (z _)
            (.form formsForm2 (some formsRes1) ⟨formsRes1, _, rfl, Or.inl rfl, rfl⟩ formsForm2_ok (Or.inl ⟨?_, rfl⟩)
              (.markWith (mcid := none) ?_ (.save (.show (z _) (.restore (.endMark .done)))))
              (.endMark .done))))))
          (.endMark .done))))))))))) ?_
    · forms_has (.stream (ImageXObject.entries [.width 1, .height 1]) [0])
    · simp [NoCall, ImageXObjectMeans]
    · simp [NoCall, formsForm2, FormXObjectMeans, StreamMeans]
    · simp [McidSet, MaybeCall, NoCall, PropMeans, propEntry]
    · rfl

/-- The remaining hypotheses. -/
example : ∀ r ∈ docIds formsDoc, r.get < 2147483647 := by decide +kernel
example : formsTree.depth = 2 := rfl

/-- The file can be finished and is short enough, and this is read from it. -/
example : ((formsDoc.run.bind fun p => p.finish).bind fun b => if b.length < 10 ^ 10 then fileShown formsUnf b 2 2 else none) =
    some formsShown := by
  rw [← fastRun_eq]
  decide +kernel

end PdfW.Props
