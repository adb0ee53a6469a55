import Verif.Proof.EmbeddedDisplay
import Verif.Props.EmbeddedImages

/-! # C88: everything painted on the pages of a chunk -/

set_option linter.unusedSimpArgs false
set_option linter.unusedVariables false

namespace PdfW.Props
open PdfW Spec Imaging

section
variable (unf : Val → Bytes → Option Bytes) (hnum : NumbersIgnored unf) (base : PdfHist) (p : Pdf) (hs : List ChunkHist) (cs : List Chunk) (next : Ref)
    (hm : Mergeable base p hs cs next) (w : Finishing) (bytes : Bytes) (hf : w.run (mergeInto p cs next).1 = some bytes)
    (hfit : w.Fits (mergeInto p cs next).1 bytes) (hu : w.Undone unf)
    (hw : ∀ r ∈ w.ids, r.get < 2147483647 ∧ (r.get < next.get ∨ nextFree next.get.toNat hs ≤ r.get))
    (k : Nat) (h : ChunkHist) (c : Chunk) (hk : hs[k]? = some h) (hc : h.run = some c) (hok : ∀ it ∈ chunkItems h, ItemOk it)
    (pretty : Bool) (w' : Finishing) (bytes' : Bytes)
    (hf' : w'.run { Pdf.withSettings pretty with chunk := (Pdf.withSettings pretty).chunk.extend c } = some bytes')
    (hids' : ∀ r ∈ (chunkItems h).map (·.id) ++ w'.ids, r.get < 2147483647) (hfree : ∀ r ∈ w'.ids, r.get.toNat ∉ occurring h)
    (hfit' : w'.Fits { Pdf.withSettings pretty with chunk := (Pdf.withSettings pretty).chunk.extend c } bytes') (hu' : w'.Undone unf)
include hm hf hfit hu hw hk hc hok hf' hids' hfree hfit' hu' hnum

/-- C88: what is painted on the pages below any node of the page tree that is in the chunk, through forms to any depth, each element with
the graphics state in effect. -/
theorem C88_display : ∃ f f', readFile unf bytes = some f ∧ readFile unf bytes' = some f' ∧ ∀ n ∈ occurring h, ∀ depth forms,
    readPagesWith (readPageDisplay unf f bytes forms) f bytes depth none (consecutive (nextFree next.get.toNat (hs.take k)) h n) =
      (readPagesWith (readPageDisplay unf f' bytes' forms) f' bytes' depth none n).map
        (List.map (List.map (renameElement (consecutive (nextFree next.get.toNat (hs.take k)) h)))) := by
  obtain ⟨f, f', q1, q2, q3⟩ := embedded_same unf base p hs cs next hm w bytes hf hfit hu hw k h c hk hc hok pretty w' bytes' hf' hids' hfree hfit' hu'
  refine ⟨f, f', q1, q2, fun n hn depth forms => ?_⟩
  exact same_pagesWith q3 _ _ _ (fun m res d hr hd => same_pageDisplay q3 hnum forms m res d hr hd) depth none n (fun r hr => by cases hr) hn

end

/-! ## A case that meets the hypotheses -/

/-- The elements of the example: numbers of XObjects, and of fonts; and how many transformations, restrictions and settings there are. -/
def displayView : Element Val Val → List Nat
  | .path p fill stroke s => [1, p.length, s.ctm.length, s.clips.length]
  | .text x s => [2, x.index, s.ctm.length] ++ s.settings.map fun t => match t.value with | .font (.ref n _) _ => n | _ => 77
  | .shading _ _ => [3]
  | .image n s => [4, n, s.ctm.length, s.clips.length]
  | .enter n s => [5, n, s.ctm.length]
  | .leave n => [6, n]

/-- A page that sets a font, shows text, and paints a form, which clips, paints a path and an image. -/
def embedDrawn : ChunkHist :=
  .call (.call (.call (.call (.call (.call (.new false)
    (.indirect (rf 2) (Pages.prog [.kids [rf 3], .count 1])))
    (.indirect (rf 3) (.dict [(b!"Type", .prim (.name b!"Page")), (b!"Parent", .prim (.ref (rf 2))), (b!"Contents", .prim (.ref (rf 4))),
      (b!"Resources", .dict [(b!"XObject", .dict [(b!"F", .prim (.ref (rf 5)))]), (b!"Font", .dict [(b!"T", .prim (.ref (rf 7)))])])])))
    (.stream (rf 4) [] b!"BT\n/T 9 Tf\n(ab) Tj\nET\nq\n2 0 0 2 0 0 cm\n/F Do\nQ"))
    (.stream (rf 5) [(b!"Subtype", .prim (.name b!"Form")), (b!"BBox", .array [.prim (.int 0), .prim (.int 0), .prim (.int 9), .prim (.int 9)]),
      (b!"Matrix", .array [.prim (.int 3), .prim (.int 0), .prim (.int 0), .prim (.int 3), .prim (.int 0), .prim (.int 0)]),
      (b!"Resources", .dict [(b!"XObject", .dict [(b!"I", .prim (.ref (rf 6)))])])] b!"0 0 5 5 re\nW\nf\n/I Do"))
    (.stream (rf 6) [(b!"Subtype", .prim (.name b!"Image"))] [9, 8]))
    (.indirect (rf 7) (.dict [(b!"Type", .prim (.name b!"Font"))]))

theorem embedDrawn_ok : ∀ it ∈ chunkItems embedDrawn, ItemOk it := by
  intro it hit
  have : (chunkItems embedDrawn).all itemOkB = true := by decide +kernel
  exact itemOkB_sound it (List.all_eq_true.mp this it hit)

example : ∃ p cb, Mergeable mergeBase p [embedDrawn] [cb] (rf 13) ∧ embedDrawn.run = some cb :=
  ⟨mergeBase.run.get (by decide +kernel), embedDrawn.run.get (by decide +kernel),
    ⟨by simp, by simp, by decide +kernel, by decide +kernel, by decide +kernel, by decide +kernel⟩, by simp⟩

/-- In the merged document the page tree is number 13, the form 16, the image 18 and the font 17. -/
example : ((mergeBase.run.bind fun p => embedDrawn.run.bind fun b => (mergeInto p [b] (rf 13)).1.finish.bind fun file =>
    if file.length < 10 ^ 10 then (readFile formsUnf file).bind fun f => readPagesWith (readPageDisplay formsUnf f file 2) f file 2 none 13 else none).map
      (List.map (List.map displayView))) = some [[[2, 0, 0, 17], [5, 16, 1], [1, 1, 2, 1], [4, 18, 2, 2], [6, 16]]] := by
  decide +kernel

/-- In the file made of the chunk alone they are 2, 5, 6 and 7. -/
example : ((embedDrawn.run.bind fun c => ({ Pdf.withSettings true with chunk := (Pdf.withSettings true).chunk.extend c } : Pdf).finish.bind fun file =>
    if file.length < 10 ^ 10 then (readFile formsUnf file).bind fun f => readPagesWith (readPageDisplay formsUnf f file 2) f file 2 none 2 else none).map
      (List.map (List.map displayView))) = some [[[2, 0, 0, 7], [5, 5, 1], [1, 1, 2, 1], [4, 6, 2, 2], [6, 5]]] := by
  decide +kernel

end PdfW.Props
