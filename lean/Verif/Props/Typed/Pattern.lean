-- Generated by tools/typed.py from /repo/src; do not edit.
import Verif.Proof.Typed.Pattern
import Verif.Proof.Typed.Sample

/-! # C44: typed writers of module Pattern -/

set_option linter.unusedSimpArgs false
set_option linter.unusedVariables false
set_option maxRecDepth 8192

namespace PdfW.Props
open PdfW PdfW.Spec

/-- Example calls. -/
def exIccProfile : List IccProfileCall := [.n 1, .alternateName b!"A", .metadata ⟨7, by decide, by decide⟩, .stream (.filter .crypt)]

/-- C44, `IccProfile`: any sequence of calls without an out-of-range argument writes a stream with the data and, in order, the documented entries. -/
theorem C44_icc_profile (calls : List IccProfileCall) (hp : calls.any IccProfileCall.panics = false)
    (hok : OkEntries (IccProfile.entries calls)) (hl : ∀ e ∈ IccProfile.entries calls, e.1 ≠ b!"Length") :
    StreamWrittenAs (IccProfile.write calls) (IccProfile.entries calls) (IccProfileEntries calls) :=
  streamWrittenAs_of (by intro c r data; rw [IccProfile.write, if_neg (by rw [hp]; exact Bool.false_ne_true)]) hok hl (iccProfile_implied calls)

example : exIccProfile.any IccProfileCall.panics = false ∧ OkEntries (IccProfile.entries exIccProfile) ∧ ∀ e ∈ IccProfile.entries exIccProfile, e.1 ≠ b!"Length" :=
  ⟨by decide +kernel, okEntriesB_sound _ (by decide +kernel), by decide +kernel⟩
example : streamOut (IccProfile.write exIccProfile) = some b!"5 0 obj\n<</Length 2/N 1/Alternate/A/Metadata 7 0 R/Filter/Crypt>>\nstream\nxy\nendstream\nendobj\n" := by decide +kernel

/-- Example calls. -/
def exTilingPattern : List TilingPatternCall := [.paintType .uncolored, .bbox ⟨one, one, two, two⟩, .resources [.xObjects [(b!"A", pInt 3)]], .stream (.filter .crypt)]

/-- C44, `TilingPattern`: any sequence of calls without an out-of-range argument writes a stream with the data and, in order, the documented entries. -/
theorem C44_tiling_pattern (calls : List TilingPatternCall) (hp : calls.any TilingPatternCall.panics = false)
    (hok : OkEntries (TilingPattern.entries calls)) (hl : ∀ e ∈ TilingPattern.entries calls, e.1 ≠ b!"Length") :
    StreamWrittenAs (TilingPattern.write calls) (TilingPattern.entries calls) (TilingPatternEntries calls) :=
  streamWrittenAs_of (by intro c r data; rw [TilingPattern.write, if_neg (by rw [hp]; exact Bool.false_ne_true)]) hok hl (tilingPattern_implied calls)

example : exTilingPattern.any TilingPatternCall.panics = false ∧ OkEntries (TilingPattern.entries exTilingPattern) ∧ ∀ e ∈ TilingPattern.entries exTilingPattern, e.1 ≠ b!"Length" :=
  ⟨by decide +kernel, okEntriesB_sound _ (by decide +kernel), by decide +kernel⟩
example : streamOut (TilingPattern.write exTilingPattern) = some b!"5 0 obj\n<</Length 2/Type/Pattern/PatternType 1/PaintType 2/BBox[1 1 2 2]/Resources<</XObject<</A 3>>>>/Filter/Crypt>>\nstream\nxy\nendstream\nendobj\n" := by decide +kernel

/-- Example calls. -/
def exFunctionShading : List FunctionShadingCall := [.shadingType .radial, .bbox ⟨one, one, two, two⟩, .function ⟨7, by decide, by decide⟩, .raw b!"A" (pInt 3)]

/-- C44, `FunctionShading`: any sequence of calls writes a dictionary with, in order, the documented entries. -/
theorem C44_function_shading (calls : List FunctionShadingCall) (hok : Ok (FunctionShading.prog calls)) : WrittenAs (FunctionShading.prog calls) (IsFunctionShading calls) :=
  writtenAs_of hok (functionShading_denotes calls)

example : Ok (FunctionShading.prog exFunctionShading) := okB_sound _ (by decide +kernel)
example : compactOut (FunctionShading.prog exFunctionShading) = b!"<</ShadingType 3/BBox[1 1 2 2]/Function 7 0 R/A 3>>" := by decide +kernel

/-- Example calls. -/
def exShadingPattern : List ShadingPatternCall := [.functionShading [.shadingType .radial], .shadingRef ⟨7, by decide, by decide⟩, .extGraphics [.lineWidth one], .raw b!"A" (pInt 3)]

/-- C44, `ShadingPattern`: any sequence of calls writes a dictionary with, in order, the documented entries. If a call with a known defect is used, the entry it writes is the one of the code (see Defects), otherwise all are those of the standard. -/
theorem C44_shading_pattern (rd : Reading) (calls : List ShadingPatternCall) (hc : rd = .code ∨ calls.all ShadingPatternCall.conforming = true) (hok : Ok (ShadingPattern.prog calls)) : WrittenAs (ShadingPattern.prog calls) (IsShadingPattern rd calls) :=
  writtenAs_of hok (shadingPattern_denotes rd calls hc)

example : Ok (ShadingPattern.prog exShadingPattern) := okB_sound _ (by decide +kernel)
example : exShadingPattern.all ShadingPatternCall.conforming = true := by decide +kernel
example : compactOut (ShadingPattern.prog exShadingPattern) = b!"<</Type/Pattern/PatternType 2/Shading<</ShadingType 3>>/Shading 7 0 R/ExtGState<</Type/ExtGState/LW 1>>/A 3>>" := by decide +kernel

/-- Example calls. -/
def exStreamShading : List StreamShadingCall := [.shadingType .tensorProductPatch, .antiAlias true, .bitsPerFlag 1, .stream (.filter .crypt)]

/-- C44, `StreamShading`: any sequence of calls without an out-of-range argument writes a stream with the data and, in order, the documented entries. -/
theorem C44_stream_shading (calls : List StreamShadingCall) (hp : calls.any StreamShadingCall.panics = false)
    (hok : OkEntries (StreamShading.entries calls)) (hl : ∀ e ∈ StreamShading.entries calls, e.1 ≠ b!"Length") :
    StreamWrittenAs (StreamShading.write calls) (StreamShading.entries calls) (StreamShadingEntries calls) :=
  streamWrittenAs_of (by intro c r data; rw [StreamShading.write, if_neg (by rw [hp]; exact Bool.false_ne_true)]) hok hl (streamShading_implied calls)

example : exStreamShading.any StreamShadingCall.panics = false ∧ OkEntries (StreamShading.entries exStreamShading) ∧ ∀ e ∈ StreamShading.entries exStreamShading, e.1 ≠ b!"Length" :=
  ⟨by decide +kernel, okEntriesB_sound _ (by decide +kernel), by decide +kernel⟩
example : streamOut (StreamShading.write exStreamShading) = some b!"5 0 obj\n<</Length 2/ShadingType 7/AntiAlias true/BitsPerFlag 1/Filter/Crypt>>\nstream\nxy\nendstream\nendobj\n" := by decide +kernel

/-- Example calls. -/
def exSeparationInfo : List SeparationInfoCall := [.pages [⟨7, by decide, by decide⟩], .deviceColorant b!"A", .deviceColorantStr ['a', 'b'], .colorSpace (pInt 3)]

/-- C44, `SeparationInfo`: any sequence of calls writes a dictionary with, in order, the documented entries. -/
theorem C44_separation_info (calls : List SeparationInfoCall) (hok : Ok (SeparationInfo.prog calls)) : WrittenAs (SeparationInfo.prog calls) (IsSeparationInfo calls) :=
  writtenAs_of hok (separationInfo_denotes calls)

example : Ok (SeparationInfo.prog exSeparationInfo) := okB_sound _ (by decide +kernel)
example : compactOut (SeparationInfo.prog exSeparationInfo) = b!"<</Pages[7 0 R]/DeviceColorant/A/DeviceColorant(ab)/ColorSpace 3>>" := by decide +kernel

/-- Example calls. -/
def exOutputIntent : List OutputIntentCall := [.subtype .pdfe, .outputConditionIdentifier (.plain ['a']), .info (.plain ['a']), .destOutputProfile ⟨7, by decide, by decide⟩]

/-- C44, `OutputIntent`: any sequence of calls writes a dictionary with, in order, the documented entries. -/
theorem C44_output_intent (calls : List OutputIntentCall) (hok : Ok (OutputIntent.prog calls)) : WrittenAs (OutputIntent.prog calls) (IsOutputIntent calls) :=
  writtenAs_of hok (outputIntent_denotes calls)

example : Ok (OutputIntent.prog exOutputIntent) := okB_sound _ (by decide +kernel)
example : compactOut (OutputIntent.prog exOutputIntent) = b!"<</Type/OutputIntent/S/ISO_PDFE1/OutputConditionIdentifier(a)/Info(a)/DestOutputProfile 7 0 R>>" := by decide +kernel

end PdfW.Props
