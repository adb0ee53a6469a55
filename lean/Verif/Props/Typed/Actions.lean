-- Generated by tools/typed.py from /repo/src; do not edit.
import Verif.Proof.Typed.Actions
import Verif.Proof.Typed.Sample

/-! # C45: typed writers of module Actions -/

set_option linter.unusedSimpArgs false
set_option linter.unusedVariables false
set_option maxRecDepth 8192

namespace PdfW.Props
open PdfW PdfW.Spec

/-- Example calls. -/
def exFields : List FieldsCall := [.id ⟨7, by decide, by decide⟩, .ids [⟨7, by decide, by decide⟩], .names [['a', 'b']], .raw (pInt 3)]

/-- C45, `Fields`: any sequence of calls writes an array with, in order, the documented items. -/
theorem C45_fields (calls : List FieldsCall) (hok : Ok (Fields.prog calls)) : WrittenAs (Fields.prog calls) (IsFields calls) :=
  writtenAs_of hok (fields_denotes calls)

example : Ok (Fields.prog exFields) := okB_sound _ (by decide +kernel)
example : compactOut (Fields.prog exFields) = b!"[7 0 R 7 0 R(ab)3]" := by decide +kernel

/-- Example calls. -/
def exAction : List ActionCall := [.actionType .rendition, .uri b!"A", .formFlags [.embedForm], .raw b!"A" (pInt 3)]

/-- C45, `Action`: any sequence of calls writes a dictionary with, in order, the documented entries. -/
theorem C45_action (calls : List ActionCall) (hok : Ok (Action.prog calls)) : WrittenAs (Action.prog calls) (IsAction calls) :=
  writtenAs_of hok (action_denotes calls)

example : Ok (Action.prog exAction) := okB_sound _ (by decide +kernel)
example : compactOut (Action.prog exAction) = b!"<</Type/Action/S/Rendition/URI(A)/Flags 8192/A 3>>" := by decide +kernel

/-- Example calls. -/
def exAdditionalActions : List AdditionalActionsCall := [.annotCurserEnter [.actionType .rendition], .widgetFocus [.actionType .rendition], .formCalculate [.actionType .rendition], .raw b!"A" (pInt 3)]

/-- C45, `AdditionalActions`: any sequence of calls writes a dictionary with, in order, the documented entries. If a call with a known defect is used, the entry it writes is the one of the code (see Defects), otherwise all are those of the standard. -/
theorem C45_additional_actions (rd : Reading) (calls : List AdditionalActionsCall) (hc : rd = .code ∨ calls.all AdditionalActionsCall.conforming = true) (hok : Ok (AdditionalActions.prog calls)) : WrittenAs (AdditionalActions.prog calls) (IsAdditionalActions rd calls) :=
  writtenAs_of hok (additionalActions_denotes rd calls hc)

example : Ok (AdditionalActions.prog exAdditionalActions) := okB_sound _ (by decide +kernel)
example : exAdditionalActions.all AdditionalActionsCall.conforming = true := by decide +kernel
example : compactOut (AdditionalActions.prog exAdditionalActions) = b!"<</E<</Type/Action/S/Rendition>>/Fo<</Type/Action/S/Rendition>>/C<</Type/Action/S/Rendition>>/A 3>>" := by decide +kernel

end PdfW.Props
