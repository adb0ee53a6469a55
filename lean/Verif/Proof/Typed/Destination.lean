-- Generated by tools/typed.py from /repo/src; do not edit.
import Verif.Spec.Typed.Destination
import Verif.Proof.Typed.Enums

/-! # Destination -/

set_option linter.unusedSimpArgs false
set_option linter.unusedVariables false

namespace PdfW
open Spec Props

theorem destination_call (c : DestinationCall) : Implied ItemImplied c.items (DestinationMeans c) := by
  cases c with
  | page page' =>
    simp only [DestinationCall.items, DestinationMeans]
    implied
  | xyz left top zoom =>
    simp only [DestinationCall.items, DestinationMeans]
    implied
  | fit =>
    simp only [DestinationCall.items, DestinationMeans]
    implied
  | fitHorizontal top =>
    simp only [DestinationCall.items, DestinationMeans]
    implied
  | fitVertical left =>
    simp only [DestinationCall.items, DestinationMeans]
    implied
  | fitRect rect =>
    simp only [DestinationCall.items, DestinationMeans]
    implied
  | fitBoundingBox =>
    simp only [DestinationCall.items, DestinationMeans]
    implied
  | fitBoundingBoxHorizontal top =>
    simp only [DestinationCall.items, DestinationMeans]
    implied
  | fitBoundingBoxVertical left =>
    simp only [DestinationCall.items, DestinationMeans]
    implied
  | raw value =>
    simp only [DestinationCall.items, DestinationMeans]
    implied

theorem destination_implied (calls : List DestinationCall) : Implied ItemImplied (Destination.items calls) (DestinationItems calls) :=
  implied_flatMap calls (fun c h => destination_call c)

theorem destination_denotes (calls : List DestinationCall) : ItemImplied (Destination.prog calls) (IsDestination calls) :=
  l_array (destination_implied calls)

end PdfW
