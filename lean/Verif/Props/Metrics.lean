import Verif.Proof.Metrics
import Verif.Proof.ItemOk
import Verif.Proof.Fast
import Verif.Props.Annots

set_option linter.unusedSimpArgs false
set_option linter.unusedVariables false

/-!
# C81: font descriptors

End to end: the writers for font descriptors and their overrides, object layout, cross-reference section and trailer together.
-/

namespace PdfW.Props
open PdfW Spec

section
variable (unf : Val → Bytes → Option Bytes) (h : PdfHist) (p : Pdf) (w : Finishing) (bytes : Bytes) (hr : h.run = some p)
  (hf : w.run p = some bytes) (hids : ∀ r ∈ docIds h ++ w.ids, r.get < 2147483647) (hlen : w.Fits p bytes) (hu : w.Undone unf)
include hr hf hids hlen hu

/-- C81 (font descriptors): a reader of the finished file finds, for a class of glyphs with an override, what was set for the class, and else what was set for
the font; for any other class, what was set for the font. -/
theorem C81_metrics (id : Ref) (calls : List FontDescriptorCall) (ho : HasObject (pdfItems h) id (.val (FontDescriptor.prog calls)))
    (base : GivenMetrics) (overrides : List (Bytes × GivenMetrics)) (hd : DescriptorSets (pdfItems h) calls base overrides) :
    (∀ e ∈ overrides, ∃ r, fileMetrics unf bytes id.get.toNat e.1 = some r ∧ SameMetrics (e.2.over base) r) ∧
    ∀ cls, (∀ e ∈ overrides, e.1 ≠ cls) → ∃ r, fileMetrics unf bytes id.get.toNat cls = some r ∧ SameMetrics base r := by
  obtain ⟨f, h1, hfi, -⟩ := finds_of hr hf hids hlen hu
  obtain ⟨v, q, hv⟩ := finds_val hfi ho
  obtain ⟨d, rfl, he⟩ := fontDescriptor_denotes calls v hv
  have key : ∀ cls, fileMetrics unf bytes id.get.toNat cls = classMetrics f bytes d cls := by
    intro cls
    simp only [fileMetrics, h1, Option.bind_some, dictObject, q]
  simp only [key]
  exact classMetrics_read hfi hd he

/-- C81 (font descriptors): the set of glyphs that are in the font, as it was given. -/
theorem C81_cids (id : Ref) (calls : List FontDescriptorCall) (ho : HasObject (pdfItems h) id (.val (FontDescriptor.prog calls)))
    (r : Option Ref) (hc : MaybeCall FontDescriptorMeans b!"CIDSet" calls r .cidSet) (x : Option Bytes)
    (hx : BothOrNone (fun r data => ∃ cs stored, HasObject (pdfItems h) r (.stream (Stream.entries cs) stored) ∧ DataStored unf cs stored data) r x) :
    fileCids unf bytes id.get.toNat = some x := by
  obtain ⟨f, h1, hfi, -⟩ := finds_of hr hf hids hlen hu
  obtain ⟨v, q, hv⟩ := finds_val hfi ho
  obtain ⟨d, rfl, he⟩ := fontDescriptor_denotes calls v hv
  have he : EntriesAre ([(b!"Type", IsName b!"FontDescriptor")] ++ calls.flatMap FontDescriptorMeans) d := he
  obtain ⟨y, r1, m1⟩ := optional_both (read := fun v => (refNumber v).bind (decodedStream unf f bytes)) (R := fun a b => b = a) (P := IsRef) he rfl hc hx
    (fun _ _ _ => rfl) (fun b g hw v hv => by
      obtain ⟨cs, stored, k1, k2⟩ := hw
      obtain ⟨-, -, -, k3⟩ := dataStored_read hfi k1 k2
      simp only [IsRef] at hv
      subst hv
      exact ⟨g, by simp only [refNumber, Option.bind_some, k3], rfl⟩)
  simp only [fileCids, h1, Option.bind_some, dictObject, q, r1, bothOrNone_same m1]

end

/-! ## A document that meets the hypotheses

A descriptor with overrides for two classes, one of which is an object of its own. -/

def mtrPanose : Fin 10 → UInt8 := fun i => UInt8.ofNat (i.val * i.val)
def mtrKana : List FontDescriptorCall := [.ascent annOne, .flags [.serif]]
def mtrMine : List FontDescriptorCall := [.capHeight annTwo]
def mtrFd : List FontDescriptorOverrideCall := [.cjkClass .kana (FontDescriptor.prog mtrKana), .customClassRef b!"Mine" (rf 4)]
def mtrCalls : List FontDescriptorCall :=
  [.name b!"F", .flags [.serif, .smallCap], .weight 700, .stretch .condensed, .bbox annRect, .ascent annTwo, .capHeight annOne, .style 1 2 mtrPanose,
   .descriptorOverride mtrFd, .cidSet (rf 5)]

def mtrDoc : PdfHist :=
  .call (.call (.call (.new false) (.indirect (rf 3) (FontDescriptor.prog mtrCalls))) (.indirect (rf 4) (FontDescriptor.prog mtrMine)))
    (.stream (rf 5) (Stream.entries []) [0x80, 0x01])

/-- An object of the sample document. -/
macro "mtr_has" b:term : tactic => `(tactic| refine ⟨⟨_, $b, false⟩,
  by simp [mtrDoc, pdfItems, callItems, chunkItems, chunkPretty, pdfPretty], rfl, rfl, itemOkB_sound _ (by decide +kernel)⟩)

/-- Nothing was said. -/
def noMetrics : GivenMetrics := ⟨none, none, none, none, none, none, none, none, none, none, none, none, none, none, none, none, none, none, none⟩
def mtrBase : GivenMetrics :=
  { noMetrics with name := some b!"F", flags := some [.serif, .smallCap], weight := some 700, stretch := some b!"Condensed",
                   bbox := some [annRect.x1, annRect.y1, annRect.x2, annRect.y2], ascent := some annTwo, capHeight := some annOne,
                   panose := some [1, 2, 0, 1, 4, 9, 16, 25, 36, 49, 64, 81] }
def mtrKanaIs : GivenMetrics := { noMetrics with ascent := some annOne, flags := some [.serif] }
def mtrMineIs : GivenMetrics := { noMetrics with capHeight := some annTwo }

theorem mtrKana_ok : MetricsSet mtrKana mtrKanaIs := by
  constructor
  case flags => exact rfl
  case ascent => exact rfl
  case panose => exact ⟨none, rfl, noCall_keys (calls := mtrKana) rfl⟩
  all_goals first
    | exact noCall_keys (calls := mtrKana) rfl
    | exact ⟨none, rfl, noCall_keys (calls := mtrKana) rfl⟩

theorem mtrMine_ok : MetricsSet mtrMine mtrMineIs := by
  constructor
  case capHeight => exact rfl
  all_goals first
    | exact noCall_keys (calls := mtrMine) rfl
    | exact ⟨none, rfl, noCall_keys (calls := mtrMine) rfl⟩

theorem mtr_ok : DescriptorSets (pdfItems mtrDoc) mtrCalls mtrBase [(b!"Kana", mtrKanaIs), (b!"Mine", mtrMineIs)] where
  all := by
    constructor
    case name => exact rfl
    case flags => exact rfl
    case weight => exact ⟨some 700, rfl, rfl⟩
    case stretch => exact ⟨some .condensed, rfl, rfl⟩
    case bbox => exact ⟨some annRect, rfl, rfl⟩
    case ascent => exact rfl
    case capHeight => exact rfl
    case panose => exact ⟨some (1, 2, mtrPanose), by decide, rfl⟩
    all_goals exact noCall_keys (calls := mtrCalls) rfl
  classes := ⟨some mtrFd, rfl, .cons ⟨mtrKana, .cjk, mtrKana_ok⟩ (.cons ⟨mtrMine, .customRef (by mtr_has (.val (FontDescriptor.prog mtrMine))), mtrMine_ok⟩ .nil)⟩
  distinct := by decide

/-- C81 applies to the document. -/
example (unf : Val → Bytes → Option Bytes) (p : Pdf) (w : Finishing) (bytes : Bytes) (hr : mtrDoc.run = some p) (hf : w.run p = some bytes)
    (hids : ∀ r ∈ docIds mtrDoc ++ w.ids, r.get < 2147483647) (hlen : w.Fits p bytes) (hu : w.Undone unf) :
    (∃ r, fileMetrics unf bytes 3 b!"Kana" = some r ∧ SameMetrics (mtrKanaIs.over mtrBase) r) ∧
    (∃ r, fileMetrics unf bytes 3 b!"Hangul" = some r ∧ SameMetrics mtrBase r) ∧ fileCids unf bytes 3 = some (some [0x80, 0x01]) := by
  have ho : HasObject (pdfItems mtrDoc) (rf 3) (.val (FontDescriptor.prog mtrCalls)) := by mtr_has (.val (FontDescriptor.prog mtrCalls))
  have k := C81_metrics unf mtrDoc p w bytes hr hf hids hlen hu (rf 3) mtrCalls ho mtrBase _ mtr_ok
  refine ⟨k.1 (b!"Kana", mtrKanaIs) (by simp), k.2 b!"Hangul" (by simp), ?_⟩
  exact C81_cids unf mtrDoc p w bytes hr hf hids hlen hu (rf 3) mtrCalls ho (some (rf 5)) rfl (some [0x80, 0x01])
    ⟨[], [0x80, 0x01], by mtr_has (.stream (Stream.entries []) [0x80, 0x01]), Or.inl ⟨noCall_keys (calls := ([] : List StreamCall)) rfl, rfl⟩⟩

/-- What a reader of the finished file sees, if it is short enough. -/
def mtrReads {α : Type} (cls : Bytes) (show_ : Metrics Val Nat → α) : Option α := (fastRun mtrDoc).bind fun p => p.finish.bind fun b =>
  if b.length < 10 ^ 10 then (fileMetrics (fun _ _ => none) b 3 cls).map show_ else none
example {α : Type} (cls : Bytes) (show_ : Metrics Val Nat → α) : mtrReads cls show_ = mtrDoc.run.bind fun p => p.finish.bind fun b =>
    if b.length < 10 ^ 10 then (fileMetrics (fun _ _ => none) b 3 cls).map show_ else none := by rw [mtrReads, fastRun_eq]

example : mtrReads b!"Kana" (fun m => (m.name, m.flags, m.weight, m.ascent.bind intOf, m.capHeight.bind intOf)) =
    some (some b!"F", some 2, some 700, some 1, some 1) := by decide +kernel
example : mtrReads b!"Mine" (fun m => (m.stretch, m.flags, m.ascent.bind intOf, m.capHeight.bind intOf)) =
    some (some b!"Condensed", some (2 + 2 ^ 17), some 2, some 2) := by decide +kernel

end PdfW.Props
