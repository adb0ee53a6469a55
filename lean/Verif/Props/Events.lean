import Verif.Proof.Events
import Verif.Props.Annots
import Verif.Props.Navigate

set_option linter.unusedSimpArgs false
set_option linter.unusedVariables false

/-!
# C74: actions and the events that trigger them

End to end, as C56: whichever way the file is finished, a reader finds the same actions for the same events: those of the document, of every
page, of every annotation, of fields, and the named scripts.
-/

namespace PdfW.Props
open PdfW Spec

/-- C74. -/
theorem C74_events (unf : Val → Bytes → Option Bytes) (h : PdfHist) (p : Pdf) (w : Finishing) (bytes : Bytes) (hr : h.run = some p)
    (hf : w.run p = some bytes) (hids : ∀ r ∈ docIds h ++ w.ids, r.get < 2147483647) (hlen : w.Fits p bytes) (hu : w.Undone unf)
    (cid : Ref) (cat : List CatalogCall) (t : PageTree) (hw : DocumentWritten unf h cid cat t) (hdests : DestsSet (pdfItems h) cat)
    (depth : Nat) (hd : t.depth ≤ depth)
    (scripts : List GivenScript) (hs : ScriptsWritten (pdfItems h) (ActionSet unf (pdfItems h) cat t.ids) cat depth scripts)
    (document : GivenEvents) (ha : MaybeCall (CatalogMeans .code) b!"AA" cat document.calls .additionalActions)
    (he : document.Set documentEvents (ActionSet unf (pdfItems h) cat t.ids))
    (pages : List EventPage) (hp : Pairwise (fun e g => EventPage.Written (pdfItems h) (ActionSet unf (pdfItems h) cat t.ids) e.2 g) t.leaves pages) :
    ∃ read, fileEvents unf bytes depth = some read ∧ EventsFound t.ids scripts document pages read := by
  obtain ⟨f, h1, hfi, hrt⟩ := finds_of hr hf hids hlen hu
  obtain ⟨d, h2, hce⟩ := catalog_read hfi (hrt cid hw.root) hw.catalog hw.noType
  obtain ⟨nav, h3, hnav⟩ := navigator_read (unf := unf) hfi hce hw.pages depth hd hw.tree hdests
  have hra : ReadsActions t.ids (ActionSet unf (pdfItems h) cat t.ids) (readAction unf f bytes nav) := fun calls g hg v hv =>
    action_read hfi hnav calls g hg v hv
  obtain ⟨r1, h4, h5⟩ := scripts_read hfi hra (fun n v hv => by simp only [readAction, followDict, followRef, hv]) depth scripts hs hce
  have hce' : EntriesAre ([(b!"Type", IsName b!"Catalog")] ++ cat.flatMap (CatalogMeans .code)) d := hce
  have haa := optional_call (read := followDict f bytes) (P := fun c => IsAdditionalActions .code c)
    (R := fun c es => EntriesAre (AdditionalActionsEntries .code c) es) hce' rfl ha (fun _ _ => rfl) (fun c _ v hv => additional_dict c v hv)
  obtain ⟨r2, h6, h7⟩ := additional_read hra document documentEvents documentEvents_means he haa
  obtain ⟨r3, h8, h9⟩ := allPageEvents_read hfi hra t.leaves pages (leaves_written (unf := unf) t hw.tree) hp
  have : nav.pages = t.leaves.map fun e => e.1.get.toNat := by rw [hnav.pages]; simp [PageTree.ids, List.map_map, Function.comp_def]
  exact ⟨⟨r1, r2, r3⟩, by simp only [fileEvents, h1, h2, h3, h4, h6, this, h8, Option.bind_some, Option.map_some], h5, h7, h9⟩

/-! ## A document that meets the hypotheses

The document has a named script and an action before it is printed; the first page starts a movie when it is opened; it has a link to the second
page that also reacts to the pointer; the second page has a text field that is checked by a script in a stream, a button that submits two
fields and one that resets all. -/

def evUnf : Val → Bytes → Option Bytes := fun _ b => if b = b!"zip" then some b!"check()" else none

def evGo : CalledAction := ([.actionType .goTo, .destination [.page (rf 4), .fit]], .goTo ⟨rf 4, [.fit], none⟩)
def evUri : CalledAction := ([.uri b!"https://typst.app", .isMap true, .actionType .uri], .uri b!"https://typst.app" (some true))
def evCheck : CalledAction := ([.actionType .javaScript, .jsStream (rf 20)],
  .scriptStream (rf 20) [.filter .flateDecode] b!"zip" b!"check()" ['c', 'h', 'e', 'c', 'k', '(', ')'])
def evInit : CalledAction := ([.actionType .javaScript, .jsString ['ü']], .script ['ü'])
def evPlace : GivenPlace := ⟨[.fileSystem b!"URL", .path b!"https://x"], ⟨some b!"URL", some b!"https://x", none⟩⟩
def evFields : GivenFields := ⟨[.name ['a'], .ids [rf 12]], [.named ['a'], .object (rf 12)]⟩
def evSubmit : CalledAction := ([.actionType .submitForm, .fileSpec evPlace.calls, .fields evFields.calls, .formFlags [.getMethod]],
  .submit evPlace (some evFields) (some [.getMethod]))
def evReset : CalledAction := ([.actionType .resetForm], .reset none none)
def evLaunch : CalledAction := ([.actionType .launch, .fileSpec evPlace.calls, .newWindow true], .launch evPlace (some true))
def evClip : GivenClip := ⟨[.data evPlace.calls, .subtype .data, .dataType b!"video/mp4", .permissions [.tempFile .access], .altTexts [[], ['b']]], .data, none,
  some evPlace, some b!"video/mp4", some [.tempFile .access], some .access, some [[], ['b']]⟩
def evMedia : GivenMedia := ⟨[.subtype .media, .mediaClip evClip.calls, .mediaPlayParams [.controls true]], .media, none, some evClip, some [.controls true], some true⟩
def evMovie : CalledAction := ([.actionType .rendition, .operation .play, .annotation (rf 10), .rendition evMedia.calls],
  .rendition (some .play) (some (rf 10)) (some evMedia))

def evNoEvents : GivenEvents := ⟨none, fun _ => none⟩
def evDocEvents : GivenEvents := ⟨some [.catBeforePrint evLaunch.1], fun e => if e = .beforePrint then some evLaunch else none⟩
def evPageEvents : GivenEvents := ⟨some [.pageOpen evMovie.1], fun e => if e = .pageOpened then some evMovie else none⟩
def evLinkEvents : GivenEvents := ⟨some [.annotCursorExit evInit.1, .annotCurserEnter evUri.1],
  fun e => if e = .entered then some evUri else if e = .exited then some evInit else none⟩
def evFieldEvents : GivenEvents := ⟨some [.formValidate evCheck.1], fun e => if e = .validate then some evCheck else none⟩

def evLinkCalls : List AnnotationCall := [.subtype .link, .rect annRect, .action evGo.1, .additionalActions [.annotCursorExit evInit.1, .annotCurserEnter evUri.1]]
def evLink : EventAnnot := ⟨rf 10, .annotation evLinkCalls, some evGo, evLinkEvents⟩
def evTextCalls : List FieldCall := [.partialName ['a'], .fieldType .text, .additionalActions [.formValidate evCheck.1], .intoAnnotation [.rect annRect]]
def evText : EventAnnot := ⟨rf 11, .widget evTextCalls [.rect annRect], none, evFieldEvents⟩
def evButtonCalls : List FieldCall := [.partialName ['b'], .intoAnnotation [.rect annRect, .action evSubmit.1]]
def evButton : EventAnnot := ⟨rf 12, .widget evButtonCalls [.rect annRect, .action evSubmit.1], some evSubmit, evNoEvents⟩
def evClear : EventAnnot := ⟨rf 13, .annotation [.rect annRect, .action evReset.1], some evReset, evNoEvents⟩

def evNames : Tree NameTreeCall Bytes := .leaf (rf 99) [.names [(b!"init", .ref (rf 21))]] b!"" b!"" [(b!"init", .ref (rf 21))]
def evCat : List CatalogCall := [.pages (rf 2), .additionalActions [.catBeforePrint evLaunch.1], .names [.javascript evNames.calls]]
def evPage1 : List PageCall := [.parent (rf 2), .additionalActions [.pageOpen evMovie.1], .annotations [rf 10]]
def evPage2 : List PageCall := [.parent (rf 2), .annotations [rf 11, rf 12, rf 13]]
def evTree : PageTree := .node (rf 2) [.kids [rf 3, rf 4], .count 2] [.page (rf 3) evPage1 [], .page (rf 4) evPage2 []]

def evDoc : PdfHist :=
  .call (.call (.call (.call (.call (.call (.call (.call (.call (.catalog (.new false) (rf 1) (evCat.flatMap CatalogCall.entries))
    (.indirect (rf 2) (Pages.prog [.kids [rf 3, rf 4], .count 2])))
    (.indirect (rf 3) (Page.prog evPage1)))
    (.indirect (rf 4) (Page.prog evPage2)))
    (.indirect (rf 10) (Annotation.prog evLinkCalls)))
    (.indirect (rf 11) (Field.prog evTextCalls)))
    (.indirect (rf 12) (Field.prog evButtonCalls)))
    (.indirect (rf 13) (Annotation.prog [.rect annRect, .action evReset.1])))
    (.stream (rf 20) (Stream.entries [.filter .flateDecode]) b!"zip"))
    (.indirect (rf 21) (Action.prog evInit.1))

/-- An object of the sample document. -/
macro "evt_has" b:term : tactic => `(tactic| refine ⟨⟨_, $b, false⟩,
  by simp [evDoc, pdfItems, callItems, chunkItems, chunkPretty, pdfPretty], rfl, rfl, itemOkB_sound _ (by decide +kernel)⟩)

theorem evDoc_ok : DocumentWritten evUnf evDoc (rf 1) evCat evTree where
  root := rfl
  catalog := by
    refine ⟨⟨rf 1, .val (Catalog.prog evCat), false⟩, ?_, rfl, rfl, itemOkB_sound _ (by decide +kernel)⟩
    simp only [evDoc, pdfItems, callItems, chunkItems, chunkPretty, pdfPretty, Catalog.prog, Catalog.entries]
    simp [pName]
  noType := noCall_keys (calls := evCat) rfl
  pages := rfl
  tree := by
    simp only [evTree, PageTree.Written, writtenList]
    refine ⟨?_, ?_, rfl, ⟨?_, ?_, Or.inl ⟨rfl, ?_⟩, by simp⟩, ⟨?_, ?_, Or.inl ⟨rfl, ?_⟩, by simp⟩, trivial⟩
    · evt_has (.val (Pages.prog [.kids [rf 3, rf 4], .count 2]))
    · simp [NoCall, PagesMeans]
    · evt_has (.val (Page.prog evPage1))
    · exact noCall_keys (calls := evPage1) rfl
    · exact noCall_keys (calls := evPage1) rfl
    · evt_has (.val (Page.prog evPage2))
    · exact noCall_keys (calls := evPage2) rfl
    · exact noCall_keys (calls := evPage2) rfl

abbrev evActionSet : List ActionCall → GivenAction → Prop := ActionSet evUnf (pdfItems evDoc) evCat evTree.ids

theorem evPlace_set : evPlace.Set := ⟨rfl, rfl, noCall_keys (calls := evPlace.calls) rfl⟩

theorem evGo_set : evActionSet evGo.1 evGo.2 := ⟨rfl, rfl, by decide, by rintro n ⟨⟩⟩
theorem evUri_set : evActionSet evUri.1 evUri.2 := ⟨rfl, rfl, rfl⟩
theorem evInit_set : evActionSet evInit.1 evInit.2 := ⟨rfl, rfl⟩
theorem evReset_set : evActionSet evReset.1 evReset.2 := ⟨rfl, noCall_keys (calls := evReset.1) rfl, by rintro g ⟨⟩, noCall_keys (calls := evReset.1) rfl⟩
theorem evSubmit_set : evActionSet evSubmit.1 evSubmit.2 := ⟨rfl, rfl, evPlace_set, rfl, by rintro g ⟨⟩; rfl, rfl⟩
theorem evLaunch_set : evActionSet evLaunch.1 evLaunch.2 := ⟨rfl, rfl, evPlace_set, rfl⟩
theorem evCheck_set : evActionSet evCheck.1 evCheck.2 := by
  refine ⟨rfl, rfl, ?_, Or.inr ⟨.flateDecode, rfl, by decide +kernel⟩, by decide +kernel⟩
  evt_has (.stream (Stream.entries [.filter .flateDecode]) b!"zip")
theorem evClip_set : evClip.Set where
  kind := rfl
  name := noCall_keys (calls := evClip.calls) rfl
  place := rfl
  placeSet := by rintro p ⟨⟩; exact evPlace_set
  mime := rfl
  permissions := rfl
  temporary := rfl
  alternates := rfl
theorem evMedia_set : evMedia.Set where
  kind := rfl
  name := noCall_keys (calls := evMedia.calls) rfl
  clip := rfl
  clipSet := by rintro p ⟨⟩; exact evClip_set
  play := rfl
  controls := rfl
theorem evMovie_set : evActionSet evMovie.1 evMovie.2 := ⟨rfl, rfl, rfl, rfl, by rintro g ⟨⟩; exact evMedia_set⟩

theorem evNone {g : GivenEvents} {e : Bytes × Event} (h : g.on e.2 = none) (hn : NoCall (AdditionalActionsMeans .code) e.1 (g.calls.getD [])) :
    MaybeCall (AdditionalActionsMeans .code) e.1 (g.calls.getD []) (g.on e.2) (fun a => e.2.call a.1) ∧ ∀ a, g.on e.2 = some a → evActionSet a.1 a.2 := by
  rw [h]
  exact ⟨hn, by rintro a ⟨⟩⟩

theorem evNoEvents_set (table : List (Bytes × Event)) : evNoEvents.Set table evActionSet := by
  intro e he
  exact ⟨by simp [evNoEvents, MaybeCall, NoCall], by rintro a ⟨⟩⟩

theorem evDocEvents_set : evDocEvents.Set documentEvents evActionSet := by
  intro e he
  simp only [documentEvents, List.mem_cons, List.not_mem_nil, or_false] at he
  rcases he with rfl | rfl | rfl | rfl | rfl
  all_goals first
    | exact evNone rfl (noCall_keys (calls := ([.catBeforePrint evLaunch.1] : List AdditionalActionsCall)) rfl)
    | exact ⟨rfl, by rintro a ⟨⟩; exact evLaunch_set⟩

theorem evPageEvents_set : evPageEvents.Set pageEvents evActionSet := by
  intro e he
  simp only [pageEvents, List.mem_cons, List.not_mem_nil, or_false] at he
  rcases he with rfl | rfl
  · exact ⟨rfl, by rintro a ⟨⟩; exact evMovie_set⟩
  · exact evNone rfl (noCall_keys (calls := ([.pageOpen evMovie.1] : List AdditionalActionsCall)) rfl)

theorem evLinkEvents_set : evLinkEvents.Set annotationEvents evActionSet := by
  intro e he
  simp only [annotationEvents, List.mem_cons, List.not_mem_nil, or_false] at he
  rcases he with rfl | rfl | rfl | rfl | rfl | rfl | rfl | rfl | rfl | rfl | rfl | rfl | rfl
  all_goals first
    | exact evNone rfl (noCall_keys (calls := ([.annotCursorExit evInit.1, .annotCurserEnter evUri.1] : List AdditionalActionsCall)) rfl)
    | exact ⟨rfl, by rintro a ⟨⟩; exact evUri_set⟩
    | exact ⟨rfl, by rintro a ⟨⟩; exact evInit_set⟩

theorem evFieldEvents_set : evFieldEvents.Set annotationEvents evActionSet := by
  intro e he
  simp only [annotationEvents, List.mem_cons, List.not_mem_nil, or_false] at he
  rcases he with rfl | rfl | rfl | rfl | rfl | rfl | rfl | rfl | rfl | rfl | rfl | rfl | rfl
  all_goals first
    | exact evNone rfl (noCall_keys (calls := ([.formValidate evCheck.1] : List AdditionalActionsCall)) rfl)
    | exact ⟨rfl, by rintro a ⟨⟩; exact evCheck_set⟩

theorem evLink_ok : evLink.Written (pdfItems evDoc) evActionSet where
  object := by
    show HasObject (pdfItems evDoc) (rf 10) (.val (Annotation.prog evLinkCalls))
    evt_has (.val (Annotation.prog evLinkCalls))
  action := rfl
  actionSet := by rintro a ⟨⟩; exact evGo_set
  additional := Or.inl rfl
  events := evLinkEvents_set

theorem evText_ok : evText.Written (pdfItems evDoc) evActionSet where
  object := by
    show HasObject (pdfItems evDoc) (rf 11) (.val (Field.prog evTextCalls))
    evt_has (.val (Field.prog evTextCalls))
  action := noCall_keys (calls := evTextCalls) rfl
  actionSet := by rintro a ⟨⟩
  additional := Or.inr ⟨evTextCalls, _, _, rfl, rfl, rfl⟩
  events := evFieldEvents_set

theorem evButton_ok : evButton.Written (pdfItems evDoc) evActionSet where
  object := by
    show HasObject (pdfItems evDoc) (rf 12) (.val (Field.prog evButtonCalls))
    evt_has (.val (Field.prog evButtonCalls))
  action := ⟨rfl, rfl⟩
  actionSet := by rintro a ⟨⟩; exact evSubmit_set
  additional := Or.inl (noCall_keys (calls := evButtonCalls) rfl)
  events := evNoEvents_set _

theorem evClear_ok : evClear.Written (pdfItems evDoc) evActionSet where
  object := by
    show HasObject (pdfItems evDoc) (rf 13) (.val (Annotation.prog [.rect annRect, .action evReset.1]))
    evt_has (.val (Annotation.prog [.rect annRect, .action evReset.1]))
  action := rfl
  actionSet := by rintro a ⟨⟩; exact evReset_set
  additional := Or.inl (noCall_keys (calls := [AnnotationCall.rect annRect, .action evReset.1]) rfl)
  events := evNoEvents_set _

example : DestsSet (pdfItems evDoc) evCat := Or.inl (noCall_keys (calls := evCat) rfl)

example : MaybeCall (CatalogMeans .code) b!"AA" evCat evDocEvents.calls .additionalActions ∧ evTree.depth ≤ 2 := ⟨rfl, by decide⟩

example : ScriptsWritten (pdfItems evDoc) evActionSet evCat 2 [⟨b!"init", rf 21, evInit⟩] := by
  refine Or.inr ⟨_, rfl, Or.inr ⟨evNames, rfl, rfl, by decide, rfl, ?_⟩⟩
  intro g hg
  simp only [List.mem_singleton] at hg
  subst hg
  refine ⟨?_, evInit_set⟩
  show HasObject (pdfItems evDoc) (rf 21) (.val (Action.prog evInit.1))
  evt_has (.val (Action.prog evInit.1))

example : Pairwise (fun e g => EventPage.Written (pdfItems evDoc) evActionSet e.2 g) evTree.leaves
    [⟨evPageEvents, [evLink]⟩, ⟨evNoEvents, [evText, evButton, evClear]⟩] := by
  refine .cons ⟨rfl, evPageEvents_set, Or.inr rfl, ?_⟩ (.cons ⟨noCall_keys (calls := evPage2) rfl, evNoEvents_set _, Or.inr rfl, ?_⟩ .nil)
  · intro a ha
    simp only [List.mem_singleton] at ha
    subst ha
    exact evLink_ok
  · intro a ha
    simp only [List.mem_cons, List.not_mem_nil, or_false] at ha
    rcases ha with rfl | rfl | rfl
    · exact evText_ok
    · exact evButton_ok
    · exact evClear_ok

/-- The file can be finished and is short enough, and these events are read from it. -/
example : (((evDoc.run.bind fun p => p.finish).bind fun b => if b.length < 10 ^ 10 then fileEvents evUnf b 2 else none).any fun r =>
    r.scripts.map (·.1) == [b!"init"] && r.document.map (·.1) == [.beforePrint] &&
    r.pages.map (fun p => (p.1.map (·.1), p.2.map fun a => a.map (·.1))) ==
      [([.pageOpened], [[.activated, .entered, .exited]]), ([], [[.validate], [.activated], [.activated]])]) = true := by
  rw [← fastRun_eq]
  decide +kernel

end PdfW.Props
