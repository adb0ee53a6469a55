import Verif.Proof.EmbeddedImages
import Verif.Props.Embedded
import Verif.Props.Images

set_option linter.unusedSimpArgs false
set_option linter.unusedVariables false

/-!
# C88, continued: the images painted by a document part

The same chunk as in Props/Embedded: on its pages a reader finds the same images, under their new numbers, with the same samples and
masks, and painted under the same transformations.
-/

namespace PdfW.Props
open PdfW Spec

section
variable (unf : Val → Bytes → Option Bytes) (hnum : NumbersIgnored unf) (base : PdfHist) (p : Pdf) (hs : List ChunkHist) (cs : List Chunk) (next : Ref)
    (hm : Mergeable base p hs cs next) (w : Finishing) (bytes : Bytes) (hf : w.run (mergeInto p cs next).1 = some bytes)
    (hfit : w.Fits (mergeInto p cs next).1 bytes) (hu : w.Undone unf)
    (hw : ∀ r ∈ w.ids, r.get < 2147483647 ∧ (r.get < next.get ∨ nextFree next.get.toNat hs ≤ r.get))
    (k : Nat) (h : ChunkHist) (c : Chunk) (hk : hs[k]? = some h) (hc : h.run = some c) (hok : ∀ it ∈ chunkItems h, ItemOk it)
    (pretty : Bool) (w' : Finishing) (bytes' : Bytes)
    (hf' : w'.run { Pdf.withSettings pretty with chunk := (Pdf.withSettings pretty).chunk.extend c } = some bytes')
    (hids' : ∀ r ∈ (chunkItems h).map (·.id) ++ w'.ids, r.get < 2147483647) (hfree : ∀ r ∈ w'.ids, r.get.toNat ∉ occurring h)
    (hfit' : w'.Fits { Pdf.withSettings pretty with chunk := (Pdf.withSettings pretty).chunk.extend c } bytes') (hu' : w'.Undone unf)
include hm hf hfit hu hw hk hc hok hf' hids' hfree hfit' hu' hnum

/-- C88: the images painted on the pages below any node of the page tree that is in the chunk, through forms to any depth. -/
theorem C88_images : ∃ f f', readFile unf bytes = some f ∧ readFile unf bytes' = some f' ∧ ∀ n ∈ occurring h, ∀ depth forms,
    readPagesWith (pageImages unf f bytes forms) f bytes depth none (consecutive (nextFree next.get.toNat (hs.take k)) h n) =
      (readPagesWith (pageImages unf f' bytes' forms) f' bytes' depth none n).map
        (List.map (List.map (renamePlaced (consecutive (nextFree next.get.toNat (hs.take k)) h)))) := by
  obtain ⟨f, f', q1, q2, q3⟩ := embedded_same unf base p hs cs next hm w bytes hf hfit hu hw k h c hk hc hok pretty w' bytes' hf' hids' hfree hfit' hu'
  refine ⟨f, f', q1, q2, fun n hn depth forms => ?_⟩
  exact same_pagesWith q3 _ _ _ (fun m res d hr hd => same_pageImages q3 hnum forms m res d hr hd) depth none n (fun r hr => by cases hr) hn

/-- C88: an image of the chunk, wherever it is used. -/
theorem C88_image : ∃ f f', readFile unf bytes = some f ∧ readFile unf bytes' = some f' ∧ ∀ n ∈ occurring h,
    readImage unf f bytes (consecutive (nextFree next.get.toNat (hs.take k)) h n) =
      (readImage unf f' bytes' n).map (renameImage (consecutive (nextFree next.get.toNat (hs.take k)) h)) := by
  obtain ⟨f, f', q1, q2, q3⟩ := embedded_same unf base p hs cs next hm w bytes hf hfit hu hw k h c hk hc hok pretty w' bytes' hf' hids' hfree hfit' hu'
  exact ⟨f, f', q1, q2, fun n hn => same_readImage q3 hnum hn⟩

end

/-! ## A case that meets the hypotheses (those on the chunk and the document are shown in Props/Embedded) -/

/-- A chunk with a page that paints a form that paints an image with a soft mask, scaled twice. -/
def embedPainted : ChunkHist :=
  .call (.call (.call (.call (.call (.call (.new false)
    (.indirect (rf 2) (Pages.prog [.kids [rf 3], .count 1])))
    (.indirect (rf 3) (.dict [(b!"Type", .prim (.name b!"Page")), (b!"Parent", .prim (.ref (rf 2))), (b!"Contents", .prim (.ref (rf 4))),
      (b!"Resources", .dict [(b!"XObject", .dict [(b!"F", .prim (.ref (rf 5)))])])])))
    (.stream (rf 4) [] b!"q\n2 0 0 2 0 0 cm\n/F Do\nQ"))
    (.stream (rf 5) [(b!"Type", .prim (.name b!"XObject")), (b!"Subtype", .prim (.name b!"Form")), (b!"Matrix", .array [.prim (.int 3), .prim (.int 0), .prim (.int 0), .prim (.int 3), .prim (.int 0), .prim (.int 0)]),
      (b!"Resources", .dict [(b!"XObject", .dict [(b!"I", .prim (.ref (rf 6)))])])] b!"/I Do"))
    (.stream (rf 6) [(b!"Subtype", .prim (.name b!"Image")), (b!"Width", .prim (.int 1)), (b!"Height", .prim (.int 2)), (b!"SMask", .prim (.ref (rf 7)))] [9, 8]))
    (.stream (rf 7) [(b!"Subtype", .prim (.name b!"Image")), (b!"Width", .prim (.int 1)), (b!"Height", .prim (.int 1))] [7])

theorem embedPainted_ok : ∀ it ∈ chunkItems embedPainted, ItemOk it := by
  intro it hit
  have : (chunkItems embedPainted).all itemOkB = true := by decide +kernel
  exact itemOkB_sound it (List.all_eq_true.mp this it hit)

example : ∃ p ca cb, Mergeable mergeBase p [mergeA, embedPainted] [ca, cb] (rf 3) ∧ embedPainted.run = some cb :=
  ⟨mergeBase.run.get (by decide +kernel), mergeA.run.get (by decide +kernel), embedPainted.run.get (by decide +kernel),
    ⟨by simp, by simp, by decide +kernel, by decide +kernel, by decide +kernel, by decide +kernel⟩, by simp⟩

/-- What is compared in the example: numbers, sizes and data of images and soft masks, and the factors of the transformations. -/
def paintedView (x : ReadPlaced) : List (List Nat) :=
  [x.2.number] :: x.2.raster.data.map (·.toNat) :: ((x.2.soft.map fun s => s.data.map (·.toNat)).getD []) ::
    x.1.map fun m => m.map fun v => match v with | .int n => n.toNat | _ => 77

/-- In the merged document the page tree is number 5 and the image is number 9. -/
example : ((mergeBase.run.bind fun p => mergeA.run.bind fun a => embedPainted.run.bind fun b => (mergeInto p [a, b] (rf 3)).1.finish.bind fun file =>
    if file.length < 10 ^ 10 then (readFile formsUnf file).bind fun f => readPagesWith (pageImages formsUnf f file 2) f file 2 none 5 else none).map
      (List.map (List.map paintedView))) = some [[[[9], [9, 8], [7], [3, 0, 0, 3, 0, 0], [2, 0, 0, 2, 0, 0]]]] := by
  decide +kernel

/-- In the file made of the chunk alone they are 2 and 6. -/
example : ((embedPainted.run.bind fun c => ({ Pdf.withSettings true with chunk := (Pdf.withSettings true).chunk.extend c } : Pdf).finish.bind fun file =>
    if file.length < 10 ^ 10 then (readFile formsUnf file).bind fun f => readPagesWith (pageImages formsUnf f file 2) f file 2 none 2 else none).map
      (List.map (List.map paintedView))) = some [[[[6], [9, 8], [7], [3, 0, 0, 3, 0, 0], [2, 0, 0, 2, 0, 0]]]] := by
  decide +kernel

end PdfW.Props
