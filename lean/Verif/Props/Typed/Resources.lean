-- Generated by tools/typed.py from /repo/src; do not edit.
import Verif.Proof.Typed.Resources
import Verif.Proof.Typed.Sample

/-! # C44: typed writers of module Resources -/

set_option linter.unusedSimpArgs false
set_option linter.unusedVariables false
set_option maxRecDepth 8192

namespace PdfW.Props
open PdfW PdfW.Spec

/-- Example calls. -/
def exResources : List ResourcesCall := [.xObjects [(b!"A", pInt 3)], .patterns [(b!"A", pInt 3)], .procSets [.imageIndexed], .raw b!"A" (pInt 3)]

/-- C44, `Resources`: any sequence of calls writes a dictionary with, in order, the documented entries. -/
theorem C44_resources (calls : List ResourcesCall) (hok : Ok (Resources.prog calls)) : WrittenAs (Resources.prog calls) (IsResources calls) :=
  writtenAs_of hok (resources_denotes calls)

example : Ok (Resources.prog exResources) := okB_sound _ (by decide +kernel)
example : compactOut (Resources.prog exResources) = b!"<</XObject<</A 3>>/Pattern<</A 3>>/ProcSet[/ImageI]/A 3>>" := by decide +kernel

/-- Example calls. -/
def exSoftMask : List SoftMaskCall := [.subtype .luminosity, .group ⟨7, by decide, by decide⟩, .transferFunction ⟨7, by decide, by decide⟩, .raw b!"A" (pInt 3)]

/-- C44, `SoftMask`: any sequence of calls writes a dictionary with, in order, the documented entries. -/
theorem C44_soft_mask (calls : List SoftMaskCall) (hok : Ok (SoftMask.prog calls)) : WrittenAs (SoftMask.prog calls) (IsSoftMask calls) :=
  writtenAs_of hok (softMask_denotes calls)

example : Ok (SoftMask.prog exSoftMask) := okB_sound _ (by decide +kernel)
example : compactOut (SoftMask.prog exSoftMask) = b!"<</Type/Mask/S/Luminosity/G 7 0 R/TR 7 0 R/A 3>>" := by decide +kernel

/-- Example calls. -/
def exExtGraphicsState : List ExtGraphicsStateCall := [.lineWidth one, .blackGeneration ⟨7, by decide, by decide⟩, .smoothness one, .raw b!"A" (pInt 3)]

/-- C44, `ExtGraphicsState`: any sequence of calls writes a dictionary with, in order, the documented entries. If a call with a known defect is used, the entry it writes is the one of the code (see Defects), otherwise all are those of the standard. -/
theorem C44_ext_graphics_state (rd : Reading) (calls : List ExtGraphicsStateCall) (hc : rd = .code ∨ calls.all ExtGraphicsStateCall.conforming = true) (hok : Ok (ExtGraphicsState.prog calls)) : WrittenAs (ExtGraphicsState.prog calls) (IsExtGraphicsState rd calls) :=
  writtenAs_of hok (extGraphicsState_denotes rd calls hc)

example : Ok (ExtGraphicsState.prog exExtGraphicsState) := okB_sound _ (by decide +kernel)
example : exExtGraphicsState.all ExtGraphicsStateCall.conforming = true := by decide +kernel
example : compactOut (ExtGraphicsState.prog exExtGraphicsState) = b!"<</Type/ExtGState/LW 1/BG 7 0 R/SM 1/A 3>>" := by decide +kernel

end PdfW.Props
