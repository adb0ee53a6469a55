-- Generated by tools/typed.py from /repo/src; do not edit.
import Verif.Spec.Typed.Functions
import Verif.Proof.Typed.Enums
import Verif.Proof.Typed.Object

/-! # Functions -/

set_option linter.unusedSimpArgs false
set_option linter.unusedVariables false

namespace PdfW
open Spec Props

theorem sampledFunction_call (c : SampledFunctionCall) : Implied EntryImplied c.entries (SampledFunctionMeans c) := by
  cases c with
  | domain xs =>
    simp only [SampledFunctionCall.entries, SampledFunctionMeans]
    implied
  | range xs =>
    simp only [SampledFunctionCall.entries, SampledFunctionMeans]
    implied
  | size size' =>
    simp only [SampledFunctionCall.entries, SampledFunctionMeans]
    implied
  | bitsPerSample bits =>
    simp only [SampledFunctionCall.entries, SampledFunctionMeans]
    implied
  | order order' =>
    simp only [SampledFunctionCall.entries, SampledFunctionMeans]
    implied
  | encode encode' =>
    simp only [SampledFunctionCall.entries, SampledFunctionMeans]
    implied
  | decode decode' =>
    simp only [SampledFunctionCall.entries, SampledFunctionMeans]
    implied
  | stream c =>
    simp only [SampledFunctionCall.entries, SampledFunctionMeans]
    exact stream_call c

theorem sampledFunction_implied (calls : List SampledFunctionCall) : Implied EntryImplied (SampledFunction.entries calls) (SampledFunctionEntries calls) :=
  Implied.append (by implied) (implied_flatMap calls (fun c h => sampledFunction_call c))

theorem postScriptFunction_call (c : PostScriptFunctionCall) : Implied EntryImplied c.entries (PostScriptFunctionMeans c) := by
  cases c with
  | domain xs =>
    simp only [PostScriptFunctionCall.entries, PostScriptFunctionMeans]
    implied
  | range xs =>
    simp only [PostScriptFunctionCall.entries, PostScriptFunctionMeans]
    implied
  | stream c =>
    simp only [PostScriptFunctionCall.entries, PostScriptFunctionMeans]
    exact stream_call c

theorem postScriptFunction_implied (calls : List PostScriptFunctionCall) : Implied EntryImplied (PostScriptFunction.entries calls) (PostScriptFunctionEntries calls) :=
  Implied.append (by implied) (implied_flatMap calls (fun c h => postScriptFunction_call c))

end PdfW
