-- Generated by tools/typed.py from /repo/src; do not edit.
import Verif.Model.Typed.Functions
import Verif.Spec.Typed.Object

/-! # Meaning of the calls of `SampledFunction`, `PostScriptFunction`

Keys from the documentation of each method, value types from the parameter types and ISO 32000. -/

namespace PdfW.Spec
open PdfW

/-- The entries a call of `SampledFunction` stands for: key and meaning of the value. -/
def SampledFunctionMeans : SampledFunctionCall → List (Bytes × (Val → Prop))
  | .domain xs => [(b!"Domain", ArrayIs (xs.map fun x => NumIs x))]
  | .range xs => [(b!"Range", ArrayIs (xs.map fun x => NumIs x))]
  | .size size' => [(b!"Size", ArrayIs (size'.map fun x => IsInt x))]
  | .bitsPerSample bits => [(b!"BitsPerSample", IsInt bits)]
  | .order order' => [(b!"Order", IsInt (isoInterpolationOrder order'))]
  | .encode encode' => [(b!"Encode", ArrayIs (encode'.map fun x => NumIs x))]
  | .decode decode' => [(b!"Decode", ArrayIs (decode'.map fun x => NumIs x))]
  | .stream c => StreamMeans c

def SampledFunctionEntries (calls : List SampledFunctionCall) : List (Bytes × (Val → Prop)) := [(b!"FunctionType", IsInt 0)] ++ calls.flatMap SampledFunctionMeans

/-- The entries a call of `PostScriptFunction` stands for: key and meaning of the value. -/
def PostScriptFunctionMeans : PostScriptFunctionCall → List (Bytes × (Val → Prop))
  | .domain xs => [(b!"Domain", ArrayIs (xs.map fun x => NumIs x))]
  | .range xs => [(b!"Range", ArrayIs (xs.map fun x => NumIs x))]
  | .stream c => StreamMeans c

def PostScriptFunctionEntries (calls : List PostScriptFunctionCall) : List (Bytes × (Val → Prop)) := [(b!"FunctionType", IsInt 4)] ++ calls.flatMap PostScriptFunctionMeans

end PdfW.Spec
