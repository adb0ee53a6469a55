import Verif.Proof.XObjects
import Verif.Props.Associated

set_option linter.unusedSimpArgs false
set_option linter.unusedVariables false

/-!
# C83: details of images and form XObjects, metadata of objects

End to end: typed writers, streams, object layout, cross-reference section and trailer together. Whatever document was written, a reader that is given
only the bytes of the finished file and the number of an image obtains its rendering intent, whether to interpolate it, what to do with opacity in its data,
other versions of it, its key in the parent tree and its matte color; of a form XObject, when it was modified and its keys in the parent tree; and of
every kind of object with metadata, exactly these data.
-/

namespace PdfW.Props
open PdfW Spec

section
variable (unf : Val → Bytes → Option Bytes) (h : PdfHist) (p : Pdf) (w : Finishing) (bytes : Bytes) (hr : h.run = some p)
  (hf : w.run p = some bytes) (hids : ∀ r ∈ docIds h ++ w.ids, r.get < 2147483647) (hlen : w.Fits p bytes) (hu : w.Undone unf)
include hr hf hids hlen hu

/-- C83: images. -/
theorem C83_image (id : Ref) (calls : List ImageXObjectCall) (data : Bytes) (ho : HasObject (pdfItems h) id (.stream (ImageXObject.entries calls) data))
    (x : ImageDetails F32) (hx : ImageDetailsSet (pdfItems h) calls x) :
    ∃ r, fileImageDetails unf bytes id.get.toNat = some r ∧ SameImageDetails x r := by
  obtain ⟨f, h1, hfi, -⟩ := finds_of hr hf hids hlen hu
  obtain ⟨d, r, q1, q2, q3⟩ := imageDetails_read hfi ho hx
  exact ⟨r, by simp only [fileImageDetails, h1, q1, Option.bind_some, q2], q3⟩

/-- C83: form XObjects. -/
theorem C83_form (id : Ref) (calls : List FormXObjectCall) (data : Bytes) (ho : HasObject (pdfItems h) id (.stream (FormXObject.entries calls) data))
    (x : FormDetails) (hx : FormDetailsSet calls x) : fileFormDetails unf bytes id.get.toNat = some x := by
  obtain ⟨f, h1, hfi, -⟩ := finds_of hr hf hids hlen hu
  obtain ⟨d, q, q1, q2, q3⟩ := formDetails_read hfi ho hx
  simp only [fileFormDetails, h1, q, Option.bind_some, q1, q2, q3, Option.map_some]

/-- C83: the metadata of an object. -/
theorem C83_metadata (id : Ref) (g : GivenXmp) (hm : MetadataOf (pdfItems h) id (some g.id)) (hg : g.Written unf (pdfItems h)) :
    fileMetadata unf bytes id.get.toNat = some (some g.data) := by
  obtain ⟨f, h1, hfi, -⟩ := finds_of hr hf hids hlen hu
  obtain ⟨d, y, q1, q2, q3⟩ := metadataOf_read hfi hm
  cases y with
  | none => exact q3.elim
  | some v => simp only [fileMetadata, h1, q1, Option.bind_some, optional_raw _ q2, Option.elim, xmp_read hfi g hg v q3, Option.map_some]

/-- C83: an object without metadata. -/
theorem C83_no_metadata (id : Ref) (hm : MetadataOf (pdfItems h) id none) : fileMetadata unf bytes id.get.toNat = some none := by
  obtain ⟨f, h1, hfi, -⟩ := finds_of hr hf hids hlen hu
  obtain ⟨d, y, q1, q2, q3⟩ := metadataOf_read hfi hm
  cases y with
  | none => simp only [fileMetadata, h1, q1, Option.bind_some, optional_raw _ q2, Option.elim]
  | some v => exact q3.elim

end

/-! ## A document that meets the hypotheses

An image with another version of it and metadata, and a form XObject. -/

def xobImage : List ImageXObjectCall :=
  [.width 1, .height 1, .intent .perceptual, .interpolate true, .sMaskInData .preblended, .alternates [rf 5, rf 6], .structParent 7, .matte [annOne, annTwo],
   .metadata (rf 8)]
def xobForm : List FormXObjectCall := [.bbox annRect, .lastModified annDate, .structParents 3]
def xobPlain : GivenAlternate := ⟨rf 5, rf 3, none⟩
def xobPrint : GivenAlternate := ⟨rf 6, rf 9, some true⟩

def xobDoc : PdfHist :=
  .call (.call (.call (.call (.call (.new false) (.stream (rf 3) (ImageXObject.entries xobImage) [0x40])) (.stream (rf 4) (FormXObject.entries xobForm) b!"q Q"))
    (.indirect (rf 5) xobPlain.prog)) (.indirect (rf 6) xobPrint.prog)) (.stream (rf 8) (Metadata.entries []) b!"<x/>")

/-- An object of the sample document. -/
macro "xob_has" b:term : tactic => `(tactic| refine ⟨⟨_, $b, false⟩,
  by simp [xobDoc, pdfItems, callItems, chunkItems, chunkPretty, pdfPretty], rfl, rfl, itemOkB_sound _ (by decide +kernel)⟩)

def xobDetails : ImageDetails F32 := ⟨some b!"Perceptual", true, 2, [(3, false), (9, true)], some 7, some [annOne, annTwo]⟩

theorem xobImage_ok : ImageDetailsSet (pdfItems xobDoc) xobImage xobDetails where
  intent := ⟨some .perceptual, rfl, rfl⟩
  smooth := ⟨some true, rfl, rfl⟩
  opacity := ⟨some .preblended, rfl, rfl⟩
  alternates := ⟨some [xobPlain, xobPrint], rfl, by
    intro a ha
    simp only [Option.getD_some, List.mem_cons, List.not_mem_nil, or_false] at ha
    rcases ha with rfl | rfl
    · show HasObject (pdfItems xobDoc) (rf 5) (.val xobPlain.prog)
      xob_has (.val xobPlain.prog)
    · show HasObject (pdfItems xobDoc) (rf 6) (.val xobPrint.prog)
      xob_has (.val xobPrint.prog), rfl⟩
  tag := rfl
  matte := rfl

theorem xobForm_has : HasObject (pdfItems xobDoc) (rf 4) (.stream (FormXObject.entries xobForm) b!"q Q") := by
  refine ⟨⟨_, .stream (FormXObject.entries xobForm) b!"q Q", false⟩, by simp [xobDoc, pdfItems, callItems, chunkItems, chunkPretty, pdfPretty], rfl, rfl,
    ?_, Or.inr (noClashEntriesB_sound _ (by decide +kernel)), ?_⟩ <;>
  simp [xobForm, FormXObject.entries, FormXObjectCall.entries, pName, pDate, pRect, pInt, Ok, OkItems, OkEntries, PrimOk, annRect, annDate, annOne, annTwo, DateInRange] <;>
    decide

/-- C83 applies to the document. -/
example (unf : Val → Bytes → Option Bytes) (p : Pdf) (w : Finishing) (bytes : Bytes) (hr : xobDoc.run = some p) (hf : w.run p = some bytes)
    (hids : ∀ r ∈ docIds xobDoc ++ w.ids, r.get < 2147483647) (hlen : w.Fits p bytes) (hu : w.Undone unf) :
    (∃ r, fileImageDetails unf bytes 3 = some r ∧ SameImageDetails xobDetails r) ∧
    fileFormDetails unf bytes 4 = some ⟨some (expectedDate annDate), none, some 3⟩ ∧
    fileMetadata unf bytes 3 = some (some b!"<x/>") ∧ fileMetadata unf bytes 4 = some none := by
  have hi : HasObject (pdfItems xobDoc) (rf 3) (.stream (ImageXObject.entries xobImage) [0x40]) := by xob_has (.stream (ImageXObject.entries xobImage) [0x40])
  have hm : HasObject (pdfItems xobDoc) (rf 8) (.stream (Metadata.entries []) b!"<x/>") := by xob_has (.stream (Metadata.entries []) b!"<x/>")
  refine ⟨C83_image unf xobDoc p w bytes hr hf hids hlen hu (rf 3) xobImage [0x40] hi xobDetails xobImage_ok,
    C83_form unf xobDoc p w bytes hr hf hids hlen hu (rf 4) xobForm _ xobForm_has _ ⟨⟨some annDate, rfl, rfl⟩, noCall_keys (calls := xobForm) rfl, rfl⟩,
    C83_metadata unf xobDoc p w bytes hr hf hids hlen hu (rf 3) ⟨rf 8, [], b!"<x/>", b!"<x/>"⟩ (.image hi rfl)
      ⟨hm, noCall_keys (calls := ([] : List MetadataCall)) rfl, noCall_keys (calls := ([] : List MetadataCall)) rfl,
        Or.inl ⟨noCall_keys (calls := ([] : List MetadataCall)) rfl, rfl⟩⟩,
    C83_no_metadata unf xobDoc p w bytes hr hf hids hlen hu (rf 4) (.form xobForm_has (noCall_keys (calls := xobForm) rfl))⟩

/-- The file can be finished and is short enough, and this is read from it. -/
example : ((xobDoc.run.bind fun p => p.finish).bind fun b => if b.length < 10 ^ 10 then
      (fileImageDetails (fun _ _ => none) b 3).map (fun x => (x.smooth, x.opacity, x.alternates)) else none) =
    some (true, 2, [(3, false), (9, true)]) := by
  rw [← fastRun_eq]
  decide +kernel
example : ((xobDoc.run.bind fun p => p.finish).bind fun b => (fileFormDetails (fun _ _ => none) b 4).map fun x => (x.tag, x.tags)) = some (none, some 3) := by
  rw [← fastRun_eq]
  decide +kernel
example : ((xobDoc.run.bind fun p => p.finish).bind fun b => fileMetadata (fun _ _ => none) b 3) = some (some b!"<x/>") := by
  rw [← fastRun_eq]
  decide +kernel

end PdfW.Props
