import Verif.Proof.CharMaps
import Verif.Props.Fonts
import Verif.Props.Semantics

set_option linter.unusedSimpArgs false
set_option linter.unusedVariables false

/-!
# C85: embedded CMaps

End to end, as C65, for the CMaps of composite fonts and the labels of simple fonts: typed writers for fonts and CMap streams, object layout, cross-reference
section and trailer together.
-/

namespace PdfW.Props
open PdfW Spec

section
variable (unf : Val → Bytes → Option Bytes) (h : PdfHist) (p : Pdf) (w : Finishing) (bytes : Bytes) (hr : h.run = some p)
  (hf : w.run p = some bytes) (hids : ∀ r ∈ docIds h ++ w.ids, r.get < 2147483647) (hlen : w.Fits p bytes) (hu : w.Undone unf)
include hr hf hids hlen hu

/-- C85 (CMaps): a reader of the finished file finds the CMaps of a composite font, each based on the next, with what was set. -/
theorem C85_cmaps (id : Ref) (calls : List Type0FontCall) (ho : HasObject (pdfItems h) id (.val (Type0Font.prog calls)))
    (hs : NoCall Type0FontMeans b!"Subtype" calls) (gs : List GivenCharMap) (base : Option Bytes) (hc : CharMapsSet calls gs base)
    (hg : CharMapsWritten unf (pdfItems h) gs base) (depth : Nat) (hd : gs.length ≤ depth) :
    fileCharMaps unf bytes id.get.toNat depth = some ⟨gs.map GivenCharMap.expected, base⟩ := by
  obtain ⟨f, h1, hfi, -⟩ := finds_of hr hf hids hlen hu
  obtain ⟨v, q, hv⟩ := finds_val hfi ho
  obtain ⟨d, rfl, he⟩ := type0Font_denotes calls v hv
  have q0 : requiredEntry b!"Subtype" d nameOf = some b!"Type0" :=
    required_pre (means := Type0FontMeans) (pre := [(b!"Type", IsName b!"Font"), (b!"Subtype", IsName b!"Type0")]) (IsName b!"Type0") b!"Type0" he rfl hs (isName_nameOf _)
  rw [fileCharMaps, h1, Option.bind_some, anyDict, q, Option.bind_some, q0, Option.bind_some, if_pos rfl, fontCharMaps_read hfi hc hg he depth hd]

/-- C85 (labels): the name of a Type 1 font. -/
theorem C85_type1 (id : Ref) (calls : List Type1FontCall) (ho : HasObject (pdfItems h) id (.val (Type1Font.prog calls))) (name : Option Bytes)
    (hn : MaybeCall Type1FontMeans b!"Name" calls name .name) (hb : NoCall Type1FontMeans b!"FontBBox" calls) :
    fileFontLabel unf bytes id.get.toNat = some ⟨name, none⟩ := by
  obtain ⟨f, h1, hfi, -⟩ := finds_of hr hf hids hlen hu
  obtain ⟨v, q, hv⟩ := finds_val hfi ho
  obtain ⟨d, rfl, he⟩ := type1Font_denotes calls v hv
  have he : EntriesAre ([(b!"Type", IsName b!"Font"), (b!"Subtype", IsName b!"Type1")] ++ calls.flatMap Type1FontMeans) d := he
  have r1 := optional_eq (read := nameOf) IsName (fun x => x) he (by decide) hn (fun _ => rfl) (fun b => isName_nameOf b)
  have r2 : optionalEntry b!"FontBBox" d itemsOf = some none := optional_absent he (by rw [List.filter_append, noCall_filter hb]; rfl)
  simp only [Option.map_id_fun', _root_.id] at r1
  rw [fileFontLabel, h1, Option.bind_some, anyDict, q, Option.bind_some, r1, Option.bind_some, r2, Option.map_some]

/-- C85 (labels): the name and the bounding box of a Type 3 font. -/
theorem C85_type3 (id : Ref) (calls : List Type3FontCall) (ho : HasObject (pdfItems h) id (.val (Type3Font.prog calls))) (name : Option Bytes)
    (hn : MaybeCall Type3FontMeans b!"Name" calls name .name) (bbox : Option Rect) (hb : MaybeCall Type3FontMeans b!"FontBBox" calls bbox .bbox) :
    ∃ vs, fileFontLabel unf bytes id.get.toNat = some ⟨name, vs⟩ ∧ BothOrNone (fun (b : Rect) vs => Pairwise NumIs [b.x1, b.y1, b.x2, b.y2] vs) bbox vs := by
  obtain ⟨f, h1, hfi, -⟩ := finds_of hr hf hids hlen hu
  obtain ⟨v, q, hv⟩ := finds_val hfi ho
  obtain ⟨d, rfl, he⟩ := type3Font_denotes calls v hv
  have he : EntriesAre ([(b!"Type", IsName b!"Font"), (b!"Subtype", IsName b!"Type3")] ++ calls.flatMap Type3FontMeans) d := he
  have r1 := optional_eq (read := nameOf) IsName (fun x => x) he (by decide) hn (fun _ => rfl) (fun b => isName_nameOf b)
  obtain ⟨vs, r2, m2⟩ := optional_call (read := itemsOf) (R := fun (b : Rect) vs => Pairwise NumIs [b.x1, b.y1, b.x2, b.y2] vs) (P := IsRect) he (by decide) hb
    (fun _ _ => rfl) (fun b _ v hv => rect_read b v hv)
  simp only [Option.map_id_fun', _root_.id] at r1
  exact ⟨vs, by rw [fileFontLabel, h1, Option.bind_some, anyDict, q, Option.bind_some, r1, Option.bind_some, r2, Option.map_some], m2⟩

end

/-! ## A document that meets the hypotheses

A composite font whose CMap, for vertical writing, is based on another one, which is based on a predefined one; and a Type 3 font with a name. -/

def chmFont : List Type0FontCall := [.baseFont b!"Foo", .encodingCmap (rf 5)]
def chm5 : List CmapStreamCall := [.name b!"Foo-V", .writingMode .vertical, .useCmapStream (rf 6), .systemInfo ⟨b!"Adobe", b!"Japan1", 6⟩]
def chm6 : List CmapStreamCall := [.name b!"Foo-H", .systemInfo ⟨b!"Adobe", b!"Japan1", 5⟩, .stream (.filter .flateDecode), .useCmapPredefined b!"UniJIS-UTF16-H"]
def chmGiven5 : GivenCharMap := ⟨rf 5, chm5, b!"Foo-V", ⟨b!"Adobe", b!"Japan1", 6⟩, some .vertical, b!"% v", b!"% v"⟩
def chmGiven6 : GivenCharMap := ⟨rf 6, chm6, b!"Foo-H", ⟨b!"Adobe", b!"Japan1", 5⟩, none, b!"??", b!"program"⟩
def chmSimple : List Type3FontCall := [.name b!"F1", .bbox ⟨F32.zero, F32.zero, fntOne, fntOne⟩]

def chmDoc : PdfHist :=
  .call (.call (.call (.call (.new false)
    (.indirect (rf 4) (Type0Font.prog chmFont)))
    (.stream (rf 5) (CmapStream.entries chm5) b!"% v"))
    (.stream (rf 6) (CmapStream.entries chm6) b!"??"))
    (.indirect (rf 7) (Type3Font.prog chmSimple))

/-- An object of the sample document. -/
macro "chm_has" b:term : tactic => `(tactic| refine ⟨⟨_, $b, false⟩,
  by simp [chmDoc, pdfItems, callItems, chunkItems, chunkPretty, pdfPretty], rfl, rfl, itemOkB_sound _ (by decide +kernel)⟩)

theorem chmGiven_ok : CharMapsWritten fntUnf (pdfItems chmDoc) [chmGiven5, chmGiven6] (some b!"UniJIS-UTF16-H") := by
  refine ⟨⟨?_, noCall_keys (calls := chm5) rfl, rfl, rfl, rfl, Or.inl ⟨noCall_keys (calls := chm5) rfl, rfl⟩⟩, rfl,
    ⟨?_, noCall_keys (calls := chm6) rfl, rfl, rfl, noCall_keys (calls := chm6) rfl, Or.inr ⟨_, rfl, by decide⟩⟩, rfl, trivial⟩
  · show HasObject (pdfItems chmDoc) (rf 5) (.stream (CmapStream.entries chm5) b!"% v")
    chm_has (.stream (CmapStream.entries chm5) b!"% v")
  · show HasObject (pdfItems chmDoc) (rf 6) (.stream (CmapStream.entries chm6) b!"??")
    chm_has (.stream (CmapStream.entries chm6) b!"??")

/-- C85 applies to the document. -/
example (p : Pdf) (w : Finishing) (bytes : Bytes) (hr : chmDoc.run = some p) (hf : w.run p = some bytes) (hids : ∀ r ∈ docIds chmDoc ++ w.ids, r.get < 2147483647)
    (hlen : w.Fits p bytes) (hu : w.Undone fntUnf) :
    fileCharMaps fntUnf bytes 4 2 = some ⟨[⟨5, b!"Foo-V", b!"Adobe", b!"Japan1", 6, true, b!"% v"⟩, ⟨6, b!"Foo-H", b!"Adobe", b!"Japan1", 5, false, b!"program"⟩],
      some b!"UniJIS-UTF16-H"⟩ ∧
    ∃ vs, fileFontLabel fntUnf bytes 7 = some ⟨some b!"F1", some vs⟩ ∧ Pairwise NumIs [F32.zero, F32.zero, fntOne, fntOne] vs := by
  refine ⟨C85_cmaps fntUnf chmDoc p w bytes hr hf hids hlen hu (rf 4) chmFont (by chm_has (.val (Type0Font.prog chmFont))) (noCall_keys (calls := chmFont) rfl)
    [chmGiven5, chmGiven6] (some b!"UniJIS-UTF16-H") rfl chmGiven_ok 2 (by decide), ?_⟩
  obtain ⟨vs, h1, h2⟩ := C85_type3 fntUnf chmDoc p w bytes hr hf hids hlen hu (rf 7) chmSimple (by chm_has (.val (Type3Font.prog chmSimple))) (some b!"F1") rfl
    (some ⟨F32.zero, F32.zero, fntOne, fntOne⟩) rfl
  cases vs with
  | none => exact h2.elim
  | some vs => exact ⟨vs, h1, h2⟩

/-- What a reader of the finished file sees, if it is short enough. -/
def chmReads {α : Type} (show_ : CharMaps → α) : Option α := (fastRun chmDoc).bind fun p => p.finish.bind fun b =>
  if b.length < 10 ^ 10 then (fileCharMaps fntUnf b 4 2).map show_ else none
example {α : Type} (show_ : CharMaps → α) : chmReads show_ = chmDoc.run.bind fun p => p.finish.bind fun b =>
    if b.length < 10 ^ 10 then (fileCharMaps fntUnf b 4 2).map show_ else none := by rw [chmReads, fastRun_eq]

example : chmReads (fun a => (a.embedded.map fun c => (c.name, c.vertical), a.predefined)) =
    some ([(b!"Foo-V", true), (b!"Foo-H", false)], some b!"UniJIS-UTF16-H") := by decide +kernel
example : chmReads (fun a => a.embedded.map fun c => (c.supplement, c.data)) = some [(6, b!"% v"), (5, b!"program")] := by decide +kernel

end PdfW.Props
