-- Generated by tools/typed.py from /repo/src; do not edit.
import Verif.Spec.Typed.Resources
import Verif.Proof.Typed.Enums

/-! # Resources -/

set_option linter.unusedSimpArgs false
set_option linter.unusedVariables false

namespace PdfW
open Spec Props

theorem resources_call (c : ResourcesCall) : Implied EntryImplied c.entries (ResourcesMeans c) := by
  cases c with
  | xObjects x =>
    simp only [ResourcesCall.entries, ResourcesMeans]
    implied
  | fonts x =>
    simp only [ResourcesCall.entries, ResourcesMeans]
    implied
  | colorSpaces x =>
    simp only [ResourcesCall.entries, ResourcesMeans]
    implied
  | patterns x =>
    simp only [ResourcesCall.entries, ResourcesMeans]
    implied
  | shadings x =>
    simp only [ResourcesCall.entries, ResourcesMeans]
    implied
  | extGStates x =>
    simp only [ResourcesCall.entries, ResourcesMeans]
    implied
  | procSets sets =>
    simp only [ResourcesCall.entries, ResourcesMeans]
    implied
  | procSetsAll =>
    simp only [ResourcesCall.entries, ResourcesMeans]
    implied
  | properties es =>
    simp only [ResourcesCall.entries, ResourcesMeans]
    implied
  | raw key value =>
    simp only [ResourcesCall.entries, ResourcesMeans]
    implied

theorem resources_implied (calls : List ResourcesCall) : Implied EntryImplied (Resources.entries calls) (ResourcesEntries calls) :=
  implied_flatMap calls (fun c h => resources_call c)

theorem resources_denotes (calls : List ResourcesCall) : ItemImplied (Resources.prog calls) (IsResources calls) :=
  l_dict (resources_implied calls)

theorem softMask_call (c : SoftMaskCall) : Implied EntryImplied c.entries (SoftMaskMeans c) := by
  cases c with
  | subtype subtype' =>
    simp only [SoftMaskCall.entries, SoftMaskMeans]
    implied
  | group group' =>
    simp only [SoftMaskCall.entries, SoftMaskMeans]
    implied
  | backdrop color =>
    simp only [SoftMaskCall.entries, SoftMaskMeans]
    implied
  | transferFunction function =>
    simp only [SoftMaskCall.entries, SoftMaskMeans]
    implied
  | raw key value =>
    simp only [SoftMaskCall.entries, SoftMaskMeans]
    implied

theorem softMask_implied (calls : List SoftMaskCall) : Implied EntryImplied (SoftMask.entries calls) (SoftMaskEntries calls) :=
  Implied.append (by implied) (implied_flatMap calls (fun c h => softMask_call c))

theorem softMask_denotes (calls : List SoftMaskCall) : ItemImplied (SoftMask.prog calls) (IsSoftMask calls) :=
  l_dict (softMask_implied calls)

theorem extGraphicsState_call (rd : Reading) (c : ExtGraphicsStateCall) (hc : rd = .code ∨ c.conforming = true) : Implied EntryImplied c.entries (ExtGraphicsStateMeans rd c) := by
  cases c with
  | lineWidth width =>
    simp only [ExtGraphicsStateCall.entries, ExtGraphicsStateMeans]
    implied
  | lineCap cap =>
    simp only [ExtGraphicsStateCall.entries, ExtGraphicsStateMeans]
    implied
  | lineJoin join =>
    simp only [ExtGraphicsStateCall.entries, ExtGraphicsStateMeans]
    implied
  | miterLimit limit =>
    simp only [ExtGraphicsStateCall.entries, ExtGraphicsStateMeans]
    implied
  | dashPattern pattern phase =>
    simp only [ExtGraphicsStateCall.entries, ExtGraphicsStateMeans]
    implied
  | renderingIntent intent =>
    simp only [ExtGraphicsStateCall.entries, ExtGraphicsStateMeans]
    implied
  | overprint overprint' =>
    simp only [ExtGraphicsStateCall.entries, ExtGraphicsStateMeans]
    implied
  | overprintFill overprint' =>
    simp only [ExtGraphicsStateCall.entries, ExtGraphicsStateMeans]
    implied
  | overprintMode mode =>
    simp only [ExtGraphicsStateCall.entries, ExtGraphicsStateMeans]
    implied
  | font font' size =>
    obtain rfl : rd = .code := by simpa [ExtGraphicsStateCall.conforming] using hc
    simp only [ExtGraphicsStateCall.entries, ExtGraphicsStateMeans, Reading.pick]

    implied
  | blackGeneration func =>
    simp only [ExtGraphicsStateCall.entries, ExtGraphicsStateMeans]
    implied
  | blackGenerationDefault =>
    simp only [ExtGraphicsStateCall.entries, ExtGraphicsStateMeans]
    implied
  | undercolorRemoval func =>
    simp only [ExtGraphicsStateCall.entries, ExtGraphicsStateMeans]
    implied
  | undercolorRemovalDefault =>
    simp only [ExtGraphicsStateCall.entries, ExtGraphicsStateMeans]
    implied
  | transfer func =>
    simp only [ExtGraphicsStateCall.entries, ExtGraphicsStateMeans]
    implied
  | transferDefault =>
    simp only [ExtGraphicsStateCall.entries, ExtGraphicsStateMeans]
    implied
  | halftone ht =>
    simp only [ExtGraphicsStateCall.entries, ExtGraphicsStateMeans]
    implied
  | halftoneDefault =>
    simp only [ExtGraphicsStateCall.entries, ExtGraphicsStateMeans]
    implied
  | flatness tolerance =>
    simp only [ExtGraphicsStateCall.entries, ExtGraphicsStateMeans]
    implied
  | smoothness tolerance =>
    simp only [ExtGraphicsStateCall.entries, ExtGraphicsStateMeans]
    implied
  | strokeAdjustment adjust =>
    simp only [ExtGraphicsStateCall.entries, ExtGraphicsStateMeans]
    implied
  | blendMode mode =>
    simp only [ExtGraphicsStateCall.entries, ExtGraphicsStateMeans]
    implied
  | softMask calls =>
    simp only [ExtGraphicsStateCall.entries, ExtGraphicsStateMeans]
    have nest := softMask_denotes
    implied
  | softMaskName mask =>
    simp only [ExtGraphicsStateCall.entries, ExtGraphicsStateMeans]
    implied
  | strokingAlpha alpha =>
    simp only [ExtGraphicsStateCall.entries, ExtGraphicsStateMeans]
    implied
  | nonStrokingAlpha alpha =>
    simp only [ExtGraphicsStateCall.entries, ExtGraphicsStateMeans]
    implied
  | alphaSource source =>
    simp only [ExtGraphicsStateCall.entries, ExtGraphicsStateMeans]
    implied
  | textKnockout knockout =>
    simp only [ExtGraphicsStateCall.entries, ExtGraphicsStateMeans]
    implied
  | raw key value =>
    simp only [ExtGraphicsStateCall.entries, ExtGraphicsStateMeans]
    implied

theorem extGraphicsState_implied (rd : Reading) (calls : List ExtGraphicsStateCall) (hc : rd = .code ∨ calls.all ExtGraphicsStateCall.conforming = true) : Implied EntryImplied (ExtGraphicsState.entries calls) (ExtGraphicsStateEntries rd calls) :=
  Implied.append (by implied) (implied_flatMap calls (fun c h => extGraphicsState_call rd c (hc.imp_right fun hc => List.all_eq_true.mp hc c h)))

theorem extGraphicsState_denotes (rd : Reading) (calls : List ExtGraphicsStateCall) (hc : rd = .code ∨ calls.all ExtGraphicsStateCall.conforming = true) : ItemImplied (ExtGraphicsState.prog calls) (IsExtGraphicsState rd calls) :=
  l_dict (extGraphicsState_implied rd calls hc)

end PdfW
