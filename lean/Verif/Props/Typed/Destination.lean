-- Generated by tools/typed.py from /repo/src; do not edit.
import Verif.Proof.Typed.Destination
import Verif.Proof.Typed.Sample

/-! # C45: typed writers of module Destination -/

set_option linter.unusedSimpArgs false
set_option linter.unusedVariables false
set_option maxRecDepth 8192

namespace PdfW.Props
open PdfW PdfW.Spec

/-- Example calls. -/
def exDestination : List DestinationCall := [.page ⟨7, by decide, by decide⟩, .fitHorizontal one, .fitBoundingBox, .raw (pInt 3)]

/-- C45, `Destination`: any sequence of calls writes an array with, in order, the documented items. -/
theorem C45_destination (calls : List DestinationCall) (hok : Ok (Destination.prog calls)) : WrittenAs (Destination.prog calls) (IsDestination calls) :=
  writtenAs_of hok (destination_denotes calls)

example : Ok (Destination.prog exDestination) := okB_sound _ (by decide +kernel)
example : compactOut (Destination.prog exDestination) = b!"[7 0 R/FitH 1/FitB 3]" := by decide +kernel

end PdfW.Props
