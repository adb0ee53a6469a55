-- Generated by tools/typed.py from /repo/src; do not edit.
import Verif.Spec.Typed.Actions
import Verif.Proof.Typed.Enums
import Verif.Proof.Typed.Renditions
import Verif.Proof.Typed.Destination

/-! # Actions -/

set_option linter.unusedSimpArgs false
set_option linter.unusedVariables false

namespace PdfW
open Spec Props

theorem fields_call (c : FieldsCall) : Implied ItemImplied c.items (FieldsMeans c) := by
  cases c with
  | id r =>
    simp only [FieldsCall.items, FieldsMeans]
    implied
  | ids ids' =>
    simp only [FieldsCall.items, FieldsMeans]
    implied
  | name name' =>
    simp only [FieldsCall.items, FieldsMeans]
    implied
  | names names' =>
    simp only [FieldsCall.items, FieldsMeans]
    implied
  | raw value =>
    simp only [FieldsCall.items, FieldsMeans]
    implied

theorem fields_implied (calls : List FieldsCall) : Implied ItemImplied (Fields.items calls) (FieldsItems calls) :=
  implied_flatMap calls (fun c h => fields_call c)

theorem fields_denotes (calls : List FieldsCall) : ItemImplied (Fields.prog calls) (IsFields calls) :=
  l_array (fields_implied calls)

theorem action_call (c : ActionCall) : Implied EntryImplied c.entries (ActionMeans c) := by
  cases c with
  | actionType kind =>
    simp only [ActionCall.entries, ActionMeans]
    implied
  | destination calls =>
    simp only [ActionCall.entries, ActionMeans]
    have nest := destination_denotes
    implied
  | destinationNamed name =>
    simp only [ActionCall.entries, ActionMeans]
    implied
  | fileSpec calls =>
    simp only [ActionCall.entries, ActionMeans]
    have nest := fileSpec_denotes
    implied
  | newWindow new =>
    simp only [ActionCall.entries, ActionMeans]
    implied
  | uri uri' =>
    simp only [ActionCall.entries, ActionMeans]
    implied
  | isMap map =>
    simp only [ActionCall.entries, ActionMeans]
    implied
  | jsString script =>
    simp only [ActionCall.entries, ActionMeans]
    implied
  | jsStream script =>
    simp only [ActionCall.entries, ActionMeans]
    implied
  | fields calls =>
    simp only [ActionCall.entries, ActionMeans]
    have nest := fields_denotes
    implied
  | formFlags flags =>
    simp only [ActionCall.entries, ActionMeans]
    implied
  | operation op =>
    simp only [ActionCall.entries, ActionMeans]
    implied
  | annotation r =>
    simp only [ActionCall.entries, ActionMeans]
    implied
  | rendition calls =>
    simp only [ActionCall.entries, ActionMeans]
    have nest := rendition_denotes
    implied
  | raw key value =>
    simp only [ActionCall.entries, ActionMeans]
    implied

theorem action_implied (calls : List ActionCall) : Implied EntryImplied (Action.entries calls) (ActionEntries calls) :=
  Implied.append (by implied) (implied_flatMap calls (fun c h => action_call c))

theorem action_denotes (calls : List ActionCall) : ItemImplied (Action.prog calls) (IsAction calls) :=
  l_dict (action_implied calls)

theorem additionalActions_call (rd : Reading) (c : AdditionalActionsCall) (hc : rd = .code ∨ c.conforming = true) : Implied EntryImplied c.entries (AdditionalActionsMeans rd c) := by
  cases c with
  | annotCurserEnter calls =>
    simp only [AdditionalActionsCall.entries, AdditionalActionsMeans]
    have nest := action_denotes
    implied
  | annotCursorExit calls =>
    simp only [AdditionalActionsCall.entries, AdditionalActionsMeans]
    have nest := action_denotes
    implied
  | annotMousePress calls =>
    simp only [AdditionalActionsCall.entries, AdditionalActionsMeans]
    have nest := action_denotes
    implied
  | annotMouseRelease calls =>
    simp only [AdditionalActionsCall.entries, AdditionalActionsMeans]
    have nest := action_denotes
    implied
  | annotPageOpen calls =>
    simp only [AdditionalActionsCall.entries, AdditionalActionsMeans]
    have nest := action_denotes
    implied
  | annotPageClose calls =>
    obtain rfl : rd = .code := by simpa [AdditionalActionsCall.conforming] using hc
    simp only [AdditionalActionsCall.entries, AdditionalActionsMeans, Reading.pick]
    have nest := action_denotes
    implied
  | annotPageVisible calls =>
    simp only [AdditionalActionsCall.entries, AdditionalActionsMeans]
    have nest := action_denotes
    implied
  | annotPageInvisible calls =>
    simp only [AdditionalActionsCall.entries, AdditionalActionsMeans]
    have nest := action_denotes
    implied
  | widgetFocus calls =>
    simp only [AdditionalActionsCall.entries, AdditionalActionsMeans]
    have nest := action_denotes
    implied
  | widgetFocusLoss calls =>
    simp only [AdditionalActionsCall.entries, AdditionalActionsMeans]
    have nest := action_denotes
    implied
  | pageOpen calls =>
    simp only [AdditionalActionsCall.entries, AdditionalActionsMeans]
    have nest := action_denotes
    implied
  | pageClose calls =>
    simp only [AdditionalActionsCall.entries, AdditionalActionsMeans]
    have nest := action_denotes
    implied
  | formCalculatePartial calls =>
    simp only [AdditionalActionsCall.entries, AdditionalActionsMeans]
    have nest := action_denotes
    implied
  | formFormat calls =>
    simp only [AdditionalActionsCall.entries, AdditionalActionsMeans]
    have nest := action_denotes
    implied
  | formValidate calls =>
    simp only [AdditionalActionsCall.entries, AdditionalActionsMeans]
    have nest := action_denotes
    implied
  | formCalculate calls =>
    simp only [AdditionalActionsCall.entries, AdditionalActionsMeans]
    have nest := action_denotes
    implied
  | catBeforeClose calls =>
    simp only [AdditionalActionsCall.entries, AdditionalActionsMeans]
    have nest := action_denotes
    implied
  | catBeforeSave calls =>
    simp only [AdditionalActionsCall.entries, AdditionalActionsMeans]
    have nest := action_denotes
    implied
  | catAfterSave calls =>
    simp only [AdditionalActionsCall.entries, AdditionalActionsMeans]
    have nest := action_denotes
    implied
  | catBeforePrint calls =>
    simp only [AdditionalActionsCall.entries, AdditionalActionsMeans]
    have nest := action_denotes
    implied
  | catAfterPrint calls =>
    simp only [AdditionalActionsCall.entries, AdditionalActionsMeans]
    have nest := action_denotes
    implied
  | raw key value =>
    simp only [AdditionalActionsCall.entries, AdditionalActionsMeans]
    implied

theorem additionalActions_implied (rd : Reading) (calls : List AdditionalActionsCall) (hc : rd = .code ∨ calls.all AdditionalActionsCall.conforming = true) : Implied EntryImplied (AdditionalActions.entries calls) (AdditionalActionsEntries rd calls) :=
  implied_flatMap calls (fun c h => additionalActions_call rd c (hc.imp_right fun hc => List.all_eq_true.mp hc c h))

theorem additionalActions_denotes (rd : Reading) (calls : List AdditionalActionsCall) (hc : rd = .code ∨ calls.all AdditionalActionsCall.conforming = true) : ItemImplied (AdditionalActions.prog calls) (IsAdditionalActions rd calls) :=
  l_dict (additionalActions_implied rd calls hc)

end PdfW
