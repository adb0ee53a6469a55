import Verif.Proof.Viewing
import Verif.Proof.ItemOk
import Verif.Proof.Fast
import Verif.Props.Annots

set_option linter.unusedSimpArgs false
set_option linter.unusedVariables false

/-!
# C73: how a document asks to be shown and printed

End to end: from the bytes of the finished file a reader obtains the page layout and mode, the viewer preferences, the mark information, the
developer extensions and the output intents with their profiles that the calls ask for, and the defaults of the standard for the rest.
-/

namespace PdfW.Props
open PdfW Spec

/-- C73. -/
theorem C73_viewing (unf : Val → Bytes → Option Bytes) (h : PdfHist) (p : Pdf) (w : Finishing) (bytes : Bytes) (hr : h.run = some p)
    (hf : w.run p = some bytes) (hids : ∀ r ∈ docIds h ++ w.ids, r.get < 2147483647) (hlen : w.Fits p bytes) (hu : w.Undone unf)
    (cid : Ref) (hc : catalogId h = some cid) (cat : List CatalogCall) (hcat : HasObject (pdfItems h) cid (.val (Catalog.prog cat)))
    (hty : NoCall (CatalogMeans .code) b!"Type" cat) (g : GivenViewing) (hg : g.Set unf (pdfItems h) cat) :
    fileViewing unf bytes = some g.wanted := by
  obtain ⟨f, q1, hfi, hrt⟩ := finds_of hr hf hids hlen hu
  obtain ⟨d, q2, he⟩ := catalog_read hfi (hrt cid hc) hcat hty
  have r := viewing_read hfi g cat hg d he
  simp only [fileViewing, q1, q2, r.layout, r.mode, r.window, r.marking, r.extensions, r.intents, Option.bind_some, Option.map_some, GivenViewing.wanted]
  cases g.layout <;> cases g.mode <;> cases g.extensions <;> cases g.intents <;> rfl

/-! ## A document that meets the hypotheses -/

def vwPrefs : List ViewerPreferencesCall := [.fitWindow true, .direction .r2l, .displayDocTitle true, .hideToolbar false]
def vwPrefsIs : GivenWindow := ⟨some false, none, some true, none, some true, none, some .r2l⟩
def vwMark : List MarkInfoCall := [.marked true]
def vwExt : GivenExtension := ⟨b!"ADBE", [.extensionLevel 3, .baseVersion 1 7], (1, 7), 3⟩
def vwProfile : GivenProfile := ⟨rf 7, [.stream (.filter .flateDecode), .n 3], 3, none, b!"profile"⟩
def vwIntentA : GivenIntent := ⟨[.subtype .pdfa, .outputConditionIdentifier (.plain ['s', 'R', 'G', 'B']), .registryName ['ü'],
  .destOutputProfile (rf 7)], .pdfa, none, ['s', 'R', 'G', 'B'], some ['ü'], none, some vwProfile⟩
def vwIntentB : GivenIntent := ⟨[.outputConditionIdentifier (.plain ['C']), .subtype (.custom b!"My OWN"), .info (.plain ['i'])],
  .custom b!"My OWN", none, ['C'], none, some ['i'], none⟩
def vwCat : List CatalogCall := [.pages (rf 2), .pageMode .useOutlines, .viewerPreferences vwPrefs, .markInfo vwMark,
  .extensions [(vwExt.key, vwExt.calls)], .outputIntents [vwIntentA.calls, vwIntentB.calls]]
def vwIs : GivenViewing := ⟨none, some .useOutlines, some (vwPrefs, vwPrefsIs), some (vwMark, ⟨some true, none, none⟩), some [vwExt],
  some [vwIntentA, vwIntentB]⟩

def vwUnf : Val → Bytes → Option Bytes := fun _ b => if b = b!"zip" then some b!"profile" else none

def vwDoc : PdfHist :=
  .call (.call (.catalog (.new false) (rf 1) (vwCat.flatMap CatalogCall.entries)) (.indirect (rf 2) (Pages.prog [.kids [], .count 0])))
    (.stream (rf 7) (IccProfile.entries vwProfile.calls) b!"zip")

theorem vwDoc_catalog : HasObject (pdfItems vwDoc) (rf 1) (.val (Catalog.prog vwCat)) := by
  refine ⟨⟨rf 1, .val (Catalog.prog vwCat), false⟩, ?_, rfl, rfl, itemOkB_sound _ (by decide +kernel)⟩
  simp only [vwDoc, pdfItems, callItems, chunkItems, chunkPretty, pdfPretty, Catalog.prog, Catalog.entries]
  simp [pName]

theorem vwProfile_ok : ProfileWritten vwUnf (pdfItems vwDoc) (rf 7) vwProfile.calls 3 none b!"profile" where
  object := by
    refine ⟨b!"zip", ⟨⟨rf 7, .stream (IccProfile.entries vwProfile.calls) b!"zip", false⟩, ?_, rfl, rfl, itemOkB_sound _ (by decide +kernel)⟩,
      Or.inr ⟨.flateDecode, rfl, by decide +kernel⟩⟩
    simp [vwDoc, pdfItems, callItems, chunkItems, chunkPretty, pdfPretty]
  components := rfl
  range := noCall_keys (calls := vwProfile.calls) rfl

theorem vwDoc_set : vwIs.Set vwUnf (pdfItems vwDoc) vwCat where
  layout := noCall_keys (calls := vwCat) rfl
  mode := rfl
  window := rfl
  windowSet := by
    rintro w ⟨⟩
    constructor <;> first | rfl | exact noCall_keys (calls := vwPrefs) rfl
  marking := rfl
  markingSet := by
    rintro w ⟨⟩
    constructor <;> first | rfl | exact noCall_keys (calls := vwMark) rfl
  extensions := rfl
  extensionsSet := by
    rintro w ⟨⟩ e he
    simp only [List.mem_singleton] at he
    subst he
    exact ⟨by decide, rfl, rfl⟩
  intents := rfl
  intentsSet := by
    rintro w ⟨⟩ i hi
    simp only [List.mem_cons, List.not_mem_nil, or_false] at hi
    rcases hi with rfl | rfl
    · exact ⟨rfl, noCall_keys (calls := vwIntentA.calls) rfl, rfl, rfl, noCall_keys (calls := vwIntentA.calls) rfl, rfl, by
        rintro p ⟨⟩; exact vwProfile_ok⟩
    · exact ⟨rfl, noCall_keys (calls := vwIntentB.calls) rfl, rfl, noCall_keys (calls := vwIntentB.calls) rfl, rfl,
        noCall_keys (calls := vwIntentB.calls) rfl, by rintro p ⟨⟩⟩

example : catalogId vwDoc = some (rf 1) ∧ NoCall (CatalogMeans .code) b!"Type" vwCat ∧ ∀ r ∈ docIds vwDoc, r.get < 2147483647 :=
  ⟨rfl, noCall_keys (calls := vwCat) rfl, by decide +kernel⟩

/-- The file can be finished and is short enough, and this is read from it. -/
example : (((vwDoc.run.bind fun p => p.finish).bind fun b => if b.length < 10 ^ 10 then fileViewing vwUnf b else none).any fun v =>
    v.layout == b!"SinglePage" && v.mode == b!"UseOutlines" && v.window == { fit := true, showTitle := true, direction := b!"R2L" } &&
    v.marking == { marked := true } && v.extensions == [(b!"ADBE", (1, 7), 3)] &&
    v.intents == [⟨b!"GTS_PDFA1", none, ['s', 'R', 'G', 'B'], some ['ü'], none, some (3, b!"profile")⟩,
      ⟨b!"My OWN", none, ['C'], none, some ['i'], none⟩]) = true := by
  rw [← fastRun_eq]
  decide +kernel

end PdfW.Props
