-- Generated by tools/typed.py from /repo/src; do not edit.
import Verif.Proof.Typed.Functions
import Verif.Proof.Typed.Sample

/-! # C44: typed writers of module Functions -/

set_option linter.unusedSimpArgs false
set_option linter.unusedVariables false
set_option maxRecDepth 8192

namespace PdfW.Props
open PdfW PdfW.Spec

/-- Example calls. -/
def exSampledFunction : List SampledFunctionCall := [.domain [one], .size [1], .encode [one], .stream (.filter .crypt)]

/-- C44, `SampledFunction`: any sequence of calls without an out-of-range argument writes a stream with the data and, in order, the documented entries. -/
theorem C44_sampled_function (calls : List SampledFunctionCall) (hp : calls.any SampledFunctionCall.panics = false)
    (hok : OkEntries (SampledFunction.entries calls)) (hl : ∀ e ∈ SampledFunction.entries calls, e.1 ≠ b!"Length") :
    StreamWrittenAs (SampledFunction.write calls) (SampledFunction.entries calls) (SampledFunctionEntries calls) :=
  streamWrittenAs_of (by intro c r data; rw [SampledFunction.write, if_neg (by rw [hp]; exact Bool.false_ne_true)]) hok hl (sampledFunction_implied calls)

example : exSampledFunction.any SampledFunctionCall.panics = false ∧ OkEntries (SampledFunction.entries exSampledFunction) ∧ ∀ e ∈ SampledFunction.entries exSampledFunction, e.1 ≠ b!"Length" :=
  ⟨by decide +kernel, okEntriesB_sound _ (by decide +kernel), by decide +kernel⟩
example : streamOut (SampledFunction.write exSampledFunction) = some b!"5 0 obj\n<</Length 2/FunctionType 0/Domain[1]/Size[1]/Encode[1]/Filter/Crypt>>\nstream\nxy\nendstream\nendobj\n" := by decide +kernel

/-- Example calls. -/
def exPostScriptFunction : List PostScriptFunctionCall := [.domain [one], .range [one], .stream (.filter .crypt)]

/-- C44, `PostScriptFunction`: any sequence of calls without an out-of-range argument writes a stream with the data and, in order, the documented entries. -/
theorem C44_post_script_function (calls : List PostScriptFunctionCall) (hp : calls.any PostScriptFunctionCall.panics = false)
    (hok : OkEntries (PostScriptFunction.entries calls)) (hl : ∀ e ∈ PostScriptFunction.entries calls, e.1 ≠ b!"Length") :
    StreamWrittenAs (PostScriptFunction.write calls) (PostScriptFunction.entries calls) (PostScriptFunctionEntries calls) :=
  streamWrittenAs_of (by intro c r data; rw [PostScriptFunction.write, if_neg (by rw [hp]; exact Bool.false_ne_true)]) hok hl (postScriptFunction_implied calls)

example : exPostScriptFunction.any PostScriptFunctionCall.panics = false ∧ OkEntries (PostScriptFunction.entries exPostScriptFunction) ∧ ∀ e ∈ PostScriptFunction.entries exPostScriptFunction, e.1 ≠ b!"Length" :=
  ⟨by decide +kernel, okEntriesB_sound _ (by decide +kernel), by decide +kernel⟩
example : streamOut (PostScriptFunction.write exPostScriptFunction) = some b!"5 0 obj\n<</Length 2/FunctionType 4/Domain[1]/Range[1]/Filter/Crypt>>\nstream\nxy\nendstream\nendobj\n" := by decide +kernel

end PdfW.Props
