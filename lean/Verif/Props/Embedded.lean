import Verif.Proof.Embedded
import Verif.Props.Merge
import Verif.Props.Interpret
import Verif.Proof.ItemOk
import Verif.Proof.Fast

set_option linter.unusedSimpArgs false
set_option linter.unusedVariables false

/-!
# C88: a document part looks the same wherever it is embedded

A chunk that contains pages or form XObjects is renumbered into a document, together with any number of other chunks with whatever
ids. A reader of the finished file finds there, under the new numbers, the same pages with the same operations and the same text in
the same marked-content sequences as in a file made of the chunk alone.
-/

namespace PdfW.Props
open PdfW Spec

section
variable (unf : Val → Bytes → Option Bytes) (hnum : NumbersIgnored unf) (base : PdfHist) (p : Pdf) (hs : List ChunkHist) (cs : List Chunk) (next : Ref)
    (hm : Mergeable base p hs cs next) (w : Finishing) (bytes : Bytes) (hf : w.run (mergeInto p cs next).1 = some bytes)
    (hfit : w.Fits (mergeInto p cs next).1 bytes) (hu : w.Undone unf)
    (hw : ∀ r ∈ w.ids, r.get < 2147483647 ∧ (r.get < next.get ∨ nextFree next.get.toNat hs ≤ r.get))
    (k : Nat) (h : ChunkHist) (c : Chunk) (hk : hs[k]? = some h) (hc : h.run = some c) (hok : ∀ it ∈ chunkItems h, ItemOk it)
    (pretty : Bool) (w' : Finishing) (bytes' : Bytes)
    (hf' : w'.run { Pdf.withSettings pretty with chunk := (Pdf.withSettings pretty).chunk.extend c } = some bytes')
    (hids' : ∀ r ∈ (chunkItems h).map (·.id) ++ w'.ids, r.get < 2147483647) (hfree : ∀ r ∈ w'.ids, r.get.toNat ∉ occurring h)
    (hfit' : w'.Fits { Pdf.withSettings pretty with chunk := (Pdf.withSettings pretty).chunk.extend c } bytes') (hu' : w'.Undone unf)
include hm hf hfit hu hw hk hc hok hf' hids' hfree hfit' hu'

theorem embedded_same : ∃ f f', readFile unf bytes = some f ∧ readFile unf bytes' = some f' ∧
    SameObjects (consecutive (nextFree next.get.toNat (hs.take k)) h) (occurring h) f bytes f' bytes' := by
  obtain ⟨f, f', q1, q2, q3⟩ := C51_merge_chunk unf base p hs cs next hm w bytes hf hfit hu hw k h c hk hc pretty w' bytes' hf' hids' hfit' hu'
  have hne : ∀ i ∈ occurring h, ∀ r ∈ w'.ids, r.get ≠ i := by
    intro i hi r hr e
    exact hfree r hr (by rw [e, Int.toNat_natCast]; exact hi)
  refine ⟨f, f', q1, q2, fun n hn => q3 n hn (fun it hit _ => hok it hit) (hne n hn), ?_⟩
  have halone : (PdfHist.call (.new pretty) (.extend h)).run =
      some { Pdf.withSettings pretty with chunk := (Pdf.withSettings pretty).chunk.extend c } := by
    simp [PdfHist.run, ChunkCall.run, hc]
  have hitems : pdfItems (PdfHist.call (.new pretty) (.extend h)) = chunkItems h := by simp [pdfItems, callItems]
  obtain ⟨g, g1, -, g3, g4⟩ := finishing_exact unf _ _ w' bytes' halone hf' (by rw [docIds, hitems]; exact hids') hfit' hu'
  rw [docIds, hitems] at g4
  rw [hitems] at g3
  rw [q2, Option.some.injEq] at g1
  subst g1
  intro n hn o ho i hi
  by_cases he : ∃ it ∈ chunkItems h, it.id.get.toNat = n
  · obtain ⟨it, hit, rfl⟩ := he
    rw [g3 it hit (hok it hit), Option.some.injEq] at ho
    subst ho
    obtain ⟨r, h1, rfl⟩ := mentions_body it.body i hi
    exact mem_occurring ((id_mem_callOrder hit).2 r h1)
  · rw [g4 n] at ho
    · cases ho
    · intro r hr
      rcases List.mem_append.mp hr with hr | hr
      · obtain ⟨it, hit, rfl⟩ := List.mem_map.mp hr
        exact fun e => he ⟨it, hit, by omega⟩
      · exact hne n hn r hr

include hnum

/-- C88: the pages below any node of the page tree that is in the chunk, with their operations. -/
theorem C88_pages : ∃ f f', readFile unf bytes = some f ∧ readFile unf bytes' = some f' ∧ ∀ n ∈ occurring h, ∀ depth,
    readPageTree unf f bytes depth (consecutive (nextFree next.get.toNat (hs.take k)) h n) =
      (readPageTree unf f' bytes' depth n).map (List.map (renamePage (consecutive (nextFree next.get.toNat (hs.take k)) h))) := by
  obtain ⟨f, f', q1, q2, q3⟩ := embedded_same unf base p hs cs next hm w bytes hf hfit hu hw k h c hk hc hok pretty w' bytes' hf' hids' hfree hfit' hu'
  exact ⟨f, f', q1, q2, fun n hn depth => same_pageTree q3 hnum depth n hn⟩

/-- C88: what is shown on these pages, through forms to any depth. -/
theorem C88_shown_on_pages : ∃ f f', readFile unf bytes = some f ∧ readFile unf bytes' = some f' ∧ ∀ n ∈ occurring h, ∀ depth forms,
    readPagesWith (readPageShown unf f bytes forms) f bytes depth none (consecutive (nextFree next.get.toNat (hs.take k)) h n) =
      (readPagesWith (readPageShown unf f' bytes' forms) f' bytes' depth none n).map
        (List.map (List.map (renameShown (consecutive (nextFree next.get.toNat (hs.take k)) h)))) := by
  obtain ⟨f, f', q1, q2, q3⟩ := embedded_same unf base p hs cs next hm w bytes hf hfit hu hw k h c hk hc hok pretty w' bytes' hf' hids' hfree hfit' hu'
  refine ⟨f, f', q1, q2, fun n hn depth forms => ?_⟩
  exact same_pagesWith q3 _ _ _ (fun m res d hr hd => same_pageShown q3 hnum forms m res d hr hd) depth none n (fun r hr => by cases hr) hn

/-- C88: what painting a form XObject of the chunk shows, wherever it is painted. -/
theorem C88_shown_by_form : ∃ f f', readFile unf bytes = some f ∧ readFile unf bytes' = some f' ∧ ∀ n ∈ occurring h, ∀ forms cur mark,
    shownBy unf f bytes forms (consecutive (nextFree next.get.toNat (hs.take k)) h n) cur
        (mark.map (renameMark (consecutive (nextFree next.get.toNat (hs.take k)) h))) =
      (shownBy unf f' bytes' forms n cur mark).map (List.map (renameShown (consecutive (nextFree next.get.toNat (hs.take k)) h))) := by
  obtain ⟨f, f', q1, q2, q3⟩ := embedded_same unf base p hs cs next hm w bytes hf hfit hu hw k h c hk hc hok pretty w' bytes' hf' hids' hfree hfit' hu'
  refine ⟨f, f', q1, q2, fun n hn forms cur mark => ?_⟩
  have hr : ResourcesIn (occurring h) (some (.dict [(b!"XObject", .dict [(b!"X", .ref n 0)])])) := by
    intro r hr i hi
    simp only [Option.some.injEq] at hr
    subst hr
    simp [mentions, mentionsEntries] at hi
    rw [hi]; exact hn
  have := (same_scene q3 hnum forms none _ hr).xobject b!"X" cur mark
  simpa only [shownBy, Option.map_some, Option.map_none, renameVal, renameEntries] using this

end

/-! ## A case that meets the hypotheses -/

/-- A chunk with a page tree, a page, its content, forms, an image and a font: the objects of `formsDoc` (Props/Interpret). -/
def embedChunk : ChunkHist :=
  .call (.call (.call (.call (.call (.call (.call (.call (.new false)
    (.indirect (rf 2) (Pages.prog [.kids [rf 3], .count 1])))
    (.indirect (rf 3) (Page.prog [.parent (rf 2), .resources formsRes, .contents (rf 4)])))
    (.stream (rf 4) [] formsPart.data))
    (.stream (rf 5) (FormXObject.entries formsForm1.calls) formsForm1.data))
    (.stream (rf 6) (FormXObject.entries formsForm2.calls) formsForm2.data))
    (.stream (rf 7) (ImageXObject.entries [.width 1, .height 1]) [0]))
    (.indirect (rf 8) formsKind.prog))
    (.stream (rf 9) (CmapStream.entries []) (formsFont []).data)

theorem embedChunk_ok : ∀ it ∈ chunkItems embedChunk, ItemOk it := by
  intro it hit
  have : (chunkItems embedChunk).all itemOkB = true := by decide +kernel
  exact itemOkB_sound it (List.all_eq_true.mp this it hit)

example : ∃ p ca cb, Mergeable mergeBase p [mergeA, embedChunk] [ca, cb] (rf 3) ∧ embedChunk.run = some cb :=
  ⟨mergeBase.run.get (by decide +kernel), mergeA.run.get (by decide +kernel), embedChunk.run.get (by decide +kernel),
    ⟨by simp, by simp, by decide +kernel, by decide +kernel, by decide +kernel, by decide +kernel⟩, by simp⟩

theorem formsUnf_numbers : NumbersIgnored formsUnf := by
  intro g v data
  cases v <;> rfl

/-- The page tree is found at 5, the first form at 9; the text is the same, with the new number of the form. -/
example : consecutive (nextFree 3 [mergeA]) embedChunk 2 = 5 ∧ consecutive (nextFree 3 [mergeA]) embedChunk 5 = 9 := by decide +kernel

example : (mergeBase.run.bind fun p => mergeA.run.bind fun a => embedChunk.run.bind fun b => (mergeInto p [a, b] (rf 3)).1.finish.bind fun file =>
    if file.length < 10 ^ 10 then (readFile formsUnf file).bind fun f => readPagesWith (readPageShown formsUnf f file 2) f file 2 none 5 else none) =
    some (formsShown.map (List.map (renameShown fun n => n + 4))) := by
  decide +kernel

/-- The file made of the chunk alone. -/
example : (embedChunk.run.bind fun c => ({ Pdf.withSettings true with chunk := (Pdf.withSettings true).chunk.extend c } : Pdf).finish.bind fun file =>
    if file.length < 10 ^ 10 then (readFile formsUnf file).bind fun f => readPagesWith (readPageShown formsUnf f file 2) f file 2 none 2 else none) = some formsShown ∧
    (∀ r ∈ (chunkItems embedChunk).map (·.id), r.get < 2147483647) ∧ 2 ∈ occurring embedChunk := by
  decide +kernel

end PdfW.Props
