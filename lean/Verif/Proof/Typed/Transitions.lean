-- Generated by tools/typed.py from /repo/src; do not edit.
import Verif.Spec.Typed.Transitions
import Verif.Proof.Typed.Enums

/-! # Transitions -/

set_option linter.unusedSimpArgs false
set_option linter.unusedVariables false

namespace PdfW
open Spec Props

theorem transition_call (rd : Reading) (c : TransitionCall) (hc : rd = .code ∨ c.conforming = true) : Implied EntryImplied c.entries (TransitionMeans rd c) := by
  cases c with
  | style kind =>
    simp only [TransitionCall.entries, TransitionMeans]
    implied
  | duration seconds =>
    simp only [TransitionCall.entries, TransitionMeans]
    implied
  | dimension vertical =>
    simp only [TransitionCall.entries, TransitionMeans]
    implied
  | direction outward =>
    simp only [TransitionCall.entries, TransitionMeans]
    implied
  | angle angle' =>
    simp only [TransitionCall.entries, TransitionMeans]
    implied
  | scale scale' =>
    simp only [TransitionCall.entries, TransitionMeans]
    implied
  | «opaque» «opaque'» =>
    obtain rfl : rd = .code := by simpa [TransitionCall.conforming] using hc
    simp only [TransitionCall.entries, TransitionMeans, Reading.pick]

    implied
  | raw key value =>
    simp only [TransitionCall.entries, TransitionMeans]
    implied

theorem transition_implied (rd : Reading) (calls : List TransitionCall) (hc : rd = .code ∨ calls.all TransitionCall.conforming = true) : Implied EntryImplied (Transition.entries calls) (TransitionEntries rd calls) :=
  Implied.append (by implied) (implied_flatMap calls (fun c h => transition_call rd c (hc.imp_right fun hc => List.all_eq_true.mp hc c h)))

theorem transition_denotes (rd : Reading) (calls : List TransitionCall) (hc : rd = .code ∨ calls.all TransitionCall.conforming = true) : ItemImplied (Transition.prog calls) (IsTransition rd calls) :=
  l_dict (transition_implied rd calls hc)

end PdfW
