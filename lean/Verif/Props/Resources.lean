import Verif.Proof.Resources
import Verif.Props.Fonts
import Verif.Props.Semantics

set_option linter.unusedSimpArgs false
set_option linter.unusedVariables false

/-!
# C86: resources

End to end, as C65, for resource dictionaries: typed writers for pages, nodes of the page tree, form XObjects, tiling patterns, Type 3 fonts and resources,
object layout, cross-reference section and trailer together.
-/

namespace PdfW.Props
open PdfW Spec

section
variable (unf : Val → Bytes → Option Bytes) (h : PdfHist) (p : Pdf) (w : Finishing) (bytes : Bytes) (hr : h.run = some p)
  (hf : w.run p = some bytes) (hids : ∀ r ∈ docIds h ++ w.ids, r.get < 2147483647) (hlen : w.Fits p bytes) (hu : w.Undone unf)
include hr hf hids hlen hu

/-- C86 (resources): a reader of the finished file finds under each category exactly the names that were given, in order, with what they name. -/
theorem C86_resources (id : Ref) (rc : List ResourcesCall) (ho : ResourcesOf (pdfItems h) id (some rc)) (x : GivenResources)
    (hx : ResourcesGiven (pdfItems h) rc x) : ∃ r, fileResources unf bytes id.get.toNat = some (some r) ∧ x.Means r := by
  obtain ⟨f, h1, hfi, -⟩ := finds_of hr hf hids hlen hu
  obtain ⟨d, y, q1, q2, q3⟩ := resourcesOf_read hfi ho
  cases y with
  | none => exact q3.elim
  | some v =>
    obtain ⟨r, k1, k2⟩ := resourceLists_read hfi hx v q3
    refine ⟨r, ?_, k2⟩
    simp only [fileResources, h1, q1, Option.bind_some, optional_raw _ q2, Option.elim, k1, Option.map_some]

/-- C86 (resources): and none if none were given. -/
theorem C86_none (id : Ref) (ho : ResourcesOf (pdfItems h) id none) : fileResources unf bytes id.get.toNat = some none := by
  obtain ⟨f, h1, hfi, -⟩ := finds_of hr hf hids hlen hu
  obtain ⟨d, y, q1, q2, q3⟩ := resourcesOf_read hfi ho
  cases y with
  | none => simp only [fileResources, h1, q1, Option.bind_some, optional_raw _ q2, Option.elim]
  | some v => exact q3.elim

end

/-! ## A document that meets the hypotheses

A Type 3 font with resources of several categories, one of which is an object of its own, and a tiling pattern with none. -/

def rscCalls : List ResourcesCall :=
  [.fonts [(b!"F1", .prim (.ref (rf 20))), (b!"F0", .prim (.ref (rf 21)))], .raw b!"XObject" (.prim (.ref (rf 9))), .procSetsAll,
   .properties [(b!"P1", [.identify 3, .kind .page])], .colorSpaces [(b!"C", .prim (.name b!"DeviceGray"))]]
def rscGiven : GivenResources :=
  ⟨[(b!"X", .prim (.ref (rf 22)))], [(b!"F1", .prim (.ref (rf 20))), (b!"F0", .prim (.ref (rf 21)))], [(b!"C", .prim (.name b!"DeviceGray"))], [], [], [],
   [(b!"P1", [.identify 3, .kind .page])], some [.pdf, .text, .imageGrayscale, .imageColor, .imageIndexed]⟩
def rscFont : List Type3FontCall := [.name b!"G", .resources rscCalls]
def rscPattern : List TilingPatternCall := [.xStep fntOne]

def rscDoc : PdfHist :=
  .call (.call (.call (.new true)
    (.indirect (rf 4) (Type3Font.prog rscFont)))
    (.stream (rf 5) (TilingPattern.entries rscPattern) b!"f"))
    (.indirect (rf 9) (.dict [(b!"X", .prim (.ref (rf 22)))]))

/-- An object of the sample document. -/
macro "rsc_has" b:term : tactic => `(tactic| refine ⟨⟨_, $b, true⟩,
  by simp [rscDoc, pdfItems, callItems, chunkItems, chunkPretty, pdfPretty], rfl, rfl, itemOkB_sound _ (by decide +kernel)⟩)

theorem rscGiven_ok : ResourcesGiven (pdfItems rscDoc) rscCalls rscGiven where
  xObjects := Or.inr (Or.inr ⟨rf 9, rfl, by rsc_has (.val (.dict [(b!"X", .prim (.ref (rf 22)))]))⟩)
  fonts := Or.inr (Or.inl rfl)
  spaces := Or.inr (Or.inl rfl)
  patterns := Or.inl ⟨noCall_keys (calls := rscCalls) rfl, rfl⟩
  shadings := Or.inl ⟨noCall_keys (calls := rscCalls) rfl, rfl⟩
  states := Or.inl ⟨noCall_keys (calls := rscCalls) rfl, rfl⟩
  properties := Or.inr rfl
  procSets := Or.inr ⟨rfl, rfl⟩

/-- C86 applies to the document. -/
example (p : Pdf) (w : Finishing) (bytes : Bytes) (hr : rscDoc.run = some p) (hf : w.run p = some bytes) (hids : ∀ r ∈ docIds rscDoc ++ w.ids, r.get < 2147483647)
    (hlen : w.Fits p bytes) (hu : w.Undone fntUnf) :
    (∃ r, fileResources fntUnf bytes 4 = some (some r) ∧ rscGiven.Means r) ∧ fileResources fntUnf bytes 5 = some none :=
  ⟨C86_resources fntUnf rscDoc p w bytes hr hf hids hlen hu (rf 4) rscCalls (.type3 (calls := rscFont) (by rsc_has (.val (Type3Font.prog rscFont))) rfl) rscGiven rscGiven_ok,
    C86_none fntUnf rscDoc p w bytes hr hf hids hlen hu (rf 5) (.pattern (calls := rscPattern) (data := b!"f")
      (by rsc_has (.stream (TilingPattern.entries rscPattern) b!"f")) (noCall_keys (calls := rscPattern) rfl))⟩

/-- What a reader of the finished file sees, if it is short enough. -/
def rscReads {α : Type} (show_ : ResourceLists → α) : Option α := (fastRun rscDoc).bind fun p => p.finish.bind fun b =>
  if b.length < 10 ^ 10 then (fileResources fntUnf b 4).bind fun r => r.map show_ else none
example {α : Type} (show_ : ResourceLists → α) : rscReads show_ = rscDoc.run.bind fun p => p.finish.bind fun b =>
    if b.length < 10 ^ 10 then (fileResources fntUnf b 4).bind fun r => r.map show_ else none := by rw [rscReads, fastRun_eq]

example : rscReads (fun a => (a.xObjects.map fun e => (e.1, refNumber e.2), a.fonts.map fun e => (e.1, refNumber e.2))) =
    some ([(b!"X", some 22)], [(b!"F1", some 20), (b!"F0", some 21)]) := by decide +kernel
example : rscReads (fun a => (a.spaces.map fun e => nameOf e.2, a.procSets)) =
    some ([some b!"DeviceGray"], some [b!"PDF", b!"Text", b!"ImageB", b!"ImageC", b!"ImageI"]) := by decide +kernel

end PdfW.Props
