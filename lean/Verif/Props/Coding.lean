import Verif.Proof.Coding
import Verif.Proof.ItemOk
import Verif.Proof.Fast
import Verif.Props.Annots

set_option linter.unusedSimpArgs false
set_option linter.unusedVariables false

/-!
# C80: filters and their parameters

End to end: the writers for streams, filters and decode parameters, object layout, cross-reference section and trailer together.
-/

namespace PdfW.Props
open PdfW Spec

/-- C80 (filters and their parameters): a reader of the finished file that decodes a stream with the filter and the parameters it finds obtains the data that
were encoded with the filter and the parameters that were set. -/
theorem C80_streams (unf : Val → Bytes → Option Bytes) (h : PdfHist) (p : Pdf) (w : Finishing) (bytes : Bytes) (hr : h.run = some p)
    (hf : w.run p = some bytes) (hids : ∀ r ∈ docIds h ++ w.ids, r.get < 2147483647) (hlen : w.Fits p bytes) (hu : w.Undone unf)
    (codec : Bytes → Coding → Bytes → Option Bytes) (id : Ref) (stored data : Bytes) (filter : Option Filter) (parms : Option (List DecodeParmsCall))
    (ho : StreamHas (pdfItems h) id stored filter parms) (hd : Decodes codec (pdfItems h) filter parms stored data) :
    fileStream unf codec bytes id.get.toNat = some data := by
  obtain ⟨f, h1, hfi, -⟩ := finds_of hr hf hids hlen hu
  obtain ⟨d, q1, q2⟩ := decodes_read hfi ho hd
  rw [fileStream, h1, Option.bind_some, q1]
  exact q2

/-! ## A document that meets the hypotheses

An image with a PNG predictor, a fax image, a JBIG2 image with global segments, and a profile that is stored as it is. -/

def codFlate : List DecodeParmsCall := [.predictor .pngOptimum, .colors 3, .columns 7]
def codFax : List DecodeParmsCall := [.k (-1), .rows 4, .blackIs1 true, .endOfBlock false]
def codJbig : List DecodeParmsCall := [.jbig2Globals (rf 8)]
def codImage (f : Filter) (p : List DecodeParmsCall) : List ImageXObjectCall := [.width 7, .stream (.filter f), .height 4, .stream (.decodeParms p)]

def codDoc : PdfHist :=
  .call (.call (.call (.call (.call (.new true)
    (.stream (rf 3) (ImageXObject.entries (codImage .flateDecode codFlate)) b!"endobj"))
    (.stream (rf 4) (ImageXObject.entries (codImage .ccittFaxDecode codFax)) b!""))
    (.stream (rf 5) (ImageXObject.entries (codImage .jbig2Decode codJbig)) b!"J"))
    (.stream (rf 8) (Stream.entries []) b!"global"))
    (.stream (rf 9) (IccProfile.entries [.n 3]) b!"icc")

/-- An object of the sample document. -/
macro "cod_has" b:term : tactic => `(tactic| refine ⟨⟨_, $b, true⟩,
  by simp [codDoc, pdfItems, callItems, chunkItems, chunkPretty, pdfPretty], rfl, rfl, itemOkB_sound _ (by decide +kernel)⟩)

theorem codFlate_has : StreamHas (pdfItems codDoc) (rf 3) b!"endobj" (some .flateDecode) (some codFlate) :=
  .image (calls := codImage .flateDecode codFlate) (by cod_has (.stream (ImageXObject.entries (codImage .flateDecode codFlate)) b!"endobj")) ⟨rfl, rfl⟩
theorem codFax_has : StreamHas (pdfItems codDoc) (rf 4) b!"" (some .ccittFaxDecode) (some codFax) :=
  .image (calls := codImage .ccittFaxDecode codFax) (by cod_has (.stream (ImageXObject.entries (codImage .ccittFaxDecode codFax)) b!"")) ⟨rfl, rfl⟩
theorem codJbig_has : StreamHas (pdfItems codDoc) (rf 5) b!"J" (some .jbig2Decode) (some codJbig) :=
  .image (calls := codImage .jbig2Decode codJbig) (by cod_has (.stream (ImageXObject.entries (codImage .jbig2Decode codJbig)) b!"J")) ⟨rfl, rfl⟩
theorem codGlobals_has : StreamHas (pdfItems codDoc) (rf 8) b!"global" none none :=
  .plain (calls := []) (by cod_has (.stream (Stream.entries []) b!"global")) ⟨noCall_keys (calls := ([] : List StreamCall)) rfl, noCall_keys (calls := ([] : List StreamCall)) rfl⟩
theorem codIcc_has : StreamHas (pdfItems codDoc) (rf 9) b!"icc" none none :=
  .icc (calls := [.n 3]) (by cod_has (.stream (IccProfile.entries [.n 3]) b!"icc"))
    ⟨noCall_keys (calls := [IccProfileCall.n 3]) rfl, noCall_keys (calls := [IccProfileCall.n 3]) rfl⟩

/-! What holds for each of the images. -/

def codFlateIs : Coding := ⟨15, 3, 8, 7, 1, 0, false, false, 0, true, false, 0, none, none, b!"Identity"⟩
def codFaxIs : Coding := ⟨1, 1, 8, 1728, 1, -1, false, false, 4, false, true, 0, none, none, b!"Identity"⟩
def codJbigIs : Coding := ⟨1, 1, 8, 1, 1, 0, false, false, 0, true, false, 0, some b!"global", none, b!"Identity"⟩

/-- Knows how to decode these images, and nothing else. -/
def codCodec (filter : Bytes) (c : Coding) (data : Bytes) : Option Bytes :=
  if filter = b!"FlateDecode" ∧ c = codFlateIs ∧ data = b!"endobj" then some b!"red"
  else if filter = b!"CCITTFaxDecode" ∧ c = codFaxIs ∧ data = b!"" then some b!"page"
  else if filter = b!"JBIG2Decode" ∧ c = codJbigIs ∧ data = b!"J" then some b!"black"
  else none

macro "cod_none" c:term : term => `(⟨none, noCall_keys (calls := $c) rfl, rfl⟩)

theorem codFlate_ok : CodingSet (pdfItems codDoc) b!"FlateDecode" codFlate codFlateIs :=
  ⟨⟨some .pngOptimum, rfl, rfl⟩, ⟨some 3, rfl, rfl⟩, cod_none codFlate, ⟨some 7, rfl, rfl⟩, cod_none codFlate, cod_none codFlate, cod_none codFlate, cod_none codFlate,
    cod_none codFlate, cod_none codFlate, cod_none codFlate, cod_none codFlate, ⟨none, noCall_keys (calls := codFlate) rfl, trivial⟩, cod_none codFlate, cod_none codFlate⟩
theorem codFax_ok : CodingSet (pdfItems codDoc) b!"CCITTFaxDecode" codFax codFaxIs :=
  ⟨cod_none codFax, cod_none codFax, cod_none codFax, cod_none codFax, cod_none codFax, ⟨some (-1), rfl, rfl⟩, cod_none codFax, cod_none codFax,
    ⟨some 4, rfl, rfl⟩, ⟨some false, rfl, rfl⟩, ⟨some true, rfl, rfl⟩, cod_none codFax, ⟨none, noCall_keys (calls := codFax) rfl, trivial⟩, cod_none codFax, cod_none codFax⟩
theorem codJbig_ok : CodingSet (pdfItems codDoc) b!"JBIG2Decode" codJbig codJbigIs :=
  ⟨cod_none codJbig, cod_none codJbig, cod_none codJbig, cod_none codJbig, cod_none codJbig, cod_none codJbig, cod_none codJbig, cod_none codJbig,
    cod_none codJbig, cod_none codJbig, cod_none codJbig, cod_none codJbig, ⟨some (rf 8), rfl, codGlobals_has⟩, cod_none codJbig, cod_none codJbig⟩

/-- C80 applies to all streams of the document. -/
example (unf : Val → Bytes → Option Bytes) (p : Pdf) (w : Finishing) (bytes : Bytes) (hr : codDoc.run = some p) (hf : w.run p = some bytes)
    (hids : ∀ r ∈ docIds codDoc ++ w.ids, r.get < 2147483647) (hlen : w.Fits p bytes) (hu : w.Undone unf) :
    fileStream unf codCodec bytes 3 = some b!"red" ∧ fileStream unf codCodec bytes 4 = some b!"page" ∧ fileStream unf codCodec bytes 5 = some b!"black" ∧
      fileStream unf codCodec bytes 9 = some b!"icc" :=
  ⟨C80_streams unf codDoc p w bytes hr hf hids hlen hu codCodec (rf 3) _ _ _ _ codFlate_has ⟨codFlateIs, codFlate_ok, rfl⟩,
   C80_streams unf codDoc p w bytes hr hf hids hlen hu codCodec (rf 4) _ _ _ _ codFax_has ⟨codFaxIs, codFax_ok, rfl⟩,
   C80_streams unf codDoc p w bytes hr hf hids hlen hu codCodec (rf 5) _ _ _ _ codJbig_has ⟨codJbigIs, codJbig_ok, rfl⟩,
   C80_streams unf codDoc p w bytes hr hf hids hlen hu codCodec (rf 9) _ _ _ _ codIcc_has rfl⟩

/-- What a reader of the finished file sees, if it is short enough. -/
def codReads (n : Nat) : Option Bytes := (fastRun codDoc).bind fun p => p.finish.bind fun b =>
  if b.length < 10 ^ 10 then fileStream (fun _ _ => none) codCodec b n else none
example (n : Nat) : codReads n = codDoc.run.bind fun p => p.finish.bind fun b =>
    if b.length < 10 ^ 10 then fileStream (fun _ _ => none) codCodec b n else none := by rw [codReads, fastRun_eq]

example : codReads 3 = some b!"red" := by decide +kernel
example : codReads 4 = some b!"page" := by decide +kernel
example : codReads 5 = some b!"black" := by decide +kernel
example : codReads 9 = some b!"icc" := by decide +kernel

end PdfW.Props
