-- Generated by tools/typed.py from /repo/src; do not edit.
import Verif.Spec.Typed.Pattern
import Verif.Proof.Typed.Enums
import Verif.Proof.Typed.Object
import Verif.Proof.Typed.Resources

/-! # Pattern -/

set_option linter.unusedSimpArgs false
set_option linter.unusedVariables false

namespace PdfW
open Spec Props

theorem iccProfile_call (c : IccProfileCall) : Implied EntryImplied c.entries (IccProfileMeans c) := by
  cases c with
  | n n' =>
    simp only [IccProfileCall.entries, IccProfileMeans]
    implied
  | alternate x =>
    simp only [IccProfileCall.entries, IccProfileMeans]
    implied
  | alternateName name =>
    simp only [IccProfileCall.entries, IccProfileMeans]
    implied
  | range range' =>
    simp only [IccProfileCall.entries, IccProfileMeans]
    implied
  | metadata metadata' =>
    simp only [IccProfileCall.entries, IccProfileMeans]
    implied
  | stream c =>
    simp only [IccProfileCall.entries, IccProfileMeans]
    exact stream_call c

theorem iccProfile_implied (calls : List IccProfileCall) : Implied EntryImplied (IccProfile.entries calls) (IccProfileEntries calls) :=
  implied_flatMap calls (fun c h => iccProfile_call c)

theorem tilingPattern_call (c : TilingPatternCall) : Implied EntryImplied c.entries (TilingPatternMeans c) := by
  cases c with
  | paintType paintType' =>
    simp only [TilingPatternCall.entries, TilingPatternMeans]
    implied
  | tilingType tilingType' =>
    simp only [TilingPatternCall.entries, TilingPatternMeans]
    implied
  | bbox bbox' =>
    simp only [TilingPatternCall.entries, TilingPatternMeans]
    implied
  | xStep x =>
    simp only [TilingPatternCall.entries, TilingPatternMeans]
    implied
  | yStep y =>
    simp only [TilingPatternCall.entries, TilingPatternMeans]
    implied
  | resources calls =>
    simp only [TilingPatternCall.entries, TilingPatternMeans]
    have nest := resources_denotes
    implied
  | matrix matrix' =>
    simp only [TilingPatternCall.entries, TilingPatternMeans]
    implied
  | stream c =>
    simp only [TilingPatternCall.entries, TilingPatternMeans]
    exact stream_call c

theorem tilingPattern_implied (calls : List TilingPatternCall) : Implied EntryImplied (TilingPattern.entries calls) (TilingPatternEntries calls) :=
  Implied.append (by implied) (implied_flatMap calls (fun c h => tilingPattern_call c))

theorem functionShading_call (c : FunctionShadingCall) : Implied EntryImplied c.entries (FunctionShadingMeans c) := by
  cases c with
  | shadingType kind =>
    simp only [FunctionShadingCall.entries, FunctionShadingMeans]
    implied
  | colorSpace x =>
    simp only [FunctionShadingCall.entries, FunctionShadingMeans]
    implied
  | background background' =>
    simp only [FunctionShadingCall.entries, FunctionShadingMeans]
    implied
  | bbox bbox' =>
    simp only [FunctionShadingCall.entries, FunctionShadingMeans]
    implied
  | antiAlias antiAlias' =>
    simp only [FunctionShadingCall.entries, FunctionShadingMeans]
    implied
  | domain domain' =>
    simp only [FunctionShadingCall.entries, FunctionShadingMeans]
    implied
  | matrix matrix' =>
    simp only [FunctionShadingCall.entries, FunctionShadingMeans]
    implied
  | function function' =>
    simp only [FunctionShadingCall.entries, FunctionShadingMeans]
    implied
  | coords coords' =>
    simp only [FunctionShadingCall.entries, FunctionShadingMeans]
    implied
  | extend extend' =>
    simp only [FunctionShadingCall.entries, FunctionShadingMeans]
    implied
  | raw key value =>
    simp only [FunctionShadingCall.entries, FunctionShadingMeans]
    implied

theorem functionShading_implied (calls : List FunctionShadingCall) : Implied EntryImplied (FunctionShading.entries calls) (FunctionShadingEntries calls) :=
  implied_flatMap calls (fun c h => functionShading_call c)

theorem functionShading_denotes (calls : List FunctionShadingCall) : ItemImplied (FunctionShading.prog calls) (IsFunctionShading calls) :=
  l_dict (functionShading_implied calls)

theorem shadingPattern_call (rd : Reading) (c : ShadingPatternCall) (hc : rd = .code ∨ c.conforming = true) : Implied EntryImplied c.entries (ShadingPatternMeans rd c) := by
  cases c with
  | functionShading calls =>
    simp only [ShadingPatternCall.entries, ShadingPatternMeans]
    have nest := functionShading_denotes
    implied
  | shadingRef r =>
    simp only [ShadingPatternCall.entries, ShadingPatternMeans]
    implied
  | matrix matrix' =>
    simp only [ShadingPatternCall.entries, ShadingPatternMeans]
    implied
  | extGraphics calls =>
    simp only [ShadingPatternCall.entries, ShadingPatternMeans]
    have nest := extGraphicsState_denotes rd calls (by simpa [ShadingPatternCall.conforming] using hc)
    implied
  | raw key value =>
    simp only [ShadingPatternCall.entries, ShadingPatternMeans]
    implied

theorem shadingPattern_implied (rd : Reading) (calls : List ShadingPatternCall) (hc : rd = .code ∨ calls.all ShadingPatternCall.conforming = true) : Implied EntryImplied (ShadingPattern.entries calls) (ShadingPatternEntries rd calls) :=
  Implied.append (by implied) (implied_flatMap calls (fun c h => shadingPattern_call rd c (hc.imp_right fun hc => List.all_eq_true.mp hc c h)))

theorem shadingPattern_denotes (rd : Reading) (calls : List ShadingPatternCall) (hc : rd = .code ∨ calls.all ShadingPatternCall.conforming = true) : ItemImplied (ShadingPattern.prog calls) (IsShadingPattern rd calls) :=
  l_dict (shadingPattern_implied rd calls hc)

theorem streamShading_call (c : StreamShadingCall) : Implied EntryImplied c.entries (StreamShadingMeans c) := by
  cases c with
  | shadingType kind =>
    simp only [StreamShadingCall.entries, StreamShadingMeans]
    implied
  | colorSpace x =>
    simp only [StreamShadingCall.entries, StreamShadingMeans]
    implied
  | background background' =>
    simp only [StreamShadingCall.entries, StreamShadingMeans]
    implied
  | bbox bbox' =>
    simp only [StreamShadingCall.entries, StreamShadingMeans]
    implied
  | antiAlias antiAlias' =>
    simp only [StreamShadingCall.entries, StreamShadingMeans]
    implied
  | function function' =>
    simp only [StreamShadingCall.entries, StreamShadingMeans]
    implied
  | bitsPerCoordinate bits =>
    simp only [StreamShadingCall.entries, StreamShadingMeans]
    implied
  | bitsPerComponent bits =>
    simp only [StreamShadingCall.entries, StreamShadingMeans]
    implied
  | bitsPerFlag bits =>
    simp only [StreamShadingCall.entries, StreamShadingMeans]
    implied
  | decode decode' =>
    simp only [StreamShadingCall.entries, StreamShadingMeans]
    implied
  | verticesPerRow vertices =>
    simp only [StreamShadingCall.entries, StreamShadingMeans]
    implied
  | stream c =>
    simp only [StreamShadingCall.entries, StreamShadingMeans]
    exact stream_call c

theorem streamShading_implied (calls : List StreamShadingCall) : Implied EntryImplied (StreamShading.entries calls) (StreamShadingEntries calls) :=
  implied_flatMap calls (fun c h => streamShading_call c)

theorem separationInfo_call (c : SeparationInfoCall) : Implied EntryImplied c.entries (SeparationInfoMeans c) := by
  cases c with
  | pages pages' =>
    simp only [SeparationInfoCall.entries, SeparationInfoMeans]
    implied
  | deviceColorant colorant =>
    simp only [SeparationInfoCall.entries, SeparationInfoMeans]
    implied
  | deviceColorantStr colorant =>
    simp only [SeparationInfoCall.entries, SeparationInfoMeans]
    implied
  | colorSpace x =>
    simp only [SeparationInfoCall.entries, SeparationInfoMeans]
    implied

theorem separationInfo_implied (calls : List SeparationInfoCall) : Implied EntryImplied (SeparationInfo.entries calls) (SeparationInfoEntries calls) :=
  implied_flatMap calls (fun c h => separationInfo_call c)

theorem separationInfo_denotes (calls : List SeparationInfoCall) : ItemImplied (SeparationInfo.prog calls) (IsSeparationInfo calls) :=
  l_dict (separationInfo_implied calls)

theorem outputIntent_call (c : OutputIntentCall) : Implied EntryImplied c.entries (OutputIntentMeans c) := by
  cases c with
  | subtype subtype' =>
    simp only [OutputIntentCall.entries, OutputIntentMeans]
    implied
  | outputCondition condition =>
    simp only [OutputIntentCall.entries, OutputIntentMeans]
    implied
  | outputConditionIdentifier identifier =>
    simp only [OutputIntentCall.entries, OutputIntentMeans]
    implied
  | registryName name =>
    simp only [OutputIntentCall.entries, OutputIntentMeans]
    implied
  | info info' =>
    simp only [OutputIntentCall.entries, OutputIntentMeans]
    implied
  | destOutputProfile profile =>
    simp only [OutputIntentCall.entries, OutputIntentMeans]
    implied

theorem outputIntent_implied (calls : List OutputIntentCall) : Implied EntryImplied (OutputIntent.entries calls) (OutputIntentEntries calls) :=
  Implied.append (by implied) (implied_flatMap calls (fun c h => outputIntent_call c))

theorem outputIntent_denotes (calls : List OutputIntentCall) : ItemImplied (OutputIntent.prog calls) (IsOutputIntent calls) :=
  l_dict (outputIntent_implied calls)

end PdfW
