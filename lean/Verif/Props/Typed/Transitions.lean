-- Generated by tools/typed.py from /repo/src; do not edit.
import Verif.Proof.Typed.Transitions
import Verif.Proof.Typed.Sample

/-! # C45: typed writers of module Transitions -/

set_option linter.unusedSimpArgs false
set_option linter.unusedVariables false
set_option maxRecDepth 8192

namespace PdfW.Props
open PdfW PdfW.Spec

/-- Example calls. -/
def exTransition : List TransitionCall := [.style .fade, .dimension true, .angle .rightToLeft, .raw b!"A" (pInt 3)]

/-- C45, `Transition`: any sequence of calls writes a dictionary with, in order, the documented entries. If a call with a known defect is used, the entry it writes is the one of the code (see Defects), otherwise all are those of the standard. -/
theorem C45_transition (rd : Reading) (calls : List TransitionCall) (hc : rd = .code ∨ calls.all TransitionCall.conforming = true) (hok : Ok (Transition.prog calls)) : WrittenAs (Transition.prog calls) (IsTransition rd calls) :=
  writtenAs_of hok (transition_denotes rd calls hc)

example : Ok (Transition.prog exTransition) := okB_sound _ (by decide +kernel)
example : exTransition.all TransitionCall.conforming = true := by decide +kernel
example : compactOut (Transition.prog exTransition) = b!"<</Type/Trans/S/Fade/Dm/V/Di 180/A 3>>" := by decide +kernel

end PdfW.Props
