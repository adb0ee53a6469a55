-- Generated by tools/typed.py from /repo/src; do not edit.
import Verif.Model.Typed.Object

/-! # Typed writers: `SampledFunction`, `PostScriptFunction` -/

namespace PdfW

/-- Calls of public methods of `SampledFunction` (functions.rs:55-58). -/
inductive SampledFunctionCall where
  /-- functions.rs:27-44 -/
  | domain (xs : List F32)
  /-- functions.rs:27-44 -/
  | range (xs : List F32)
  /-- functions.rs:65-68 -/
  | size (size' : List Int)
  /-- functions.rs:73-76 -/
  | bitsPerSample (bits : Int)
  /-- functions.rs:81-84 -/
  | order (order' : InterpolationOrder)
  /-- functions.rs:89-92 -/
  | encode (encode' : List F32)
  /-- functions.rs:97-100 -/
  | decode (decode' : List F32)
  /-- functions.rs:103 -/
  | stream (c : StreamCall)

/-- The entries each method inserts. -/
def SampledFunctionCall.entries : SampledFunctionCall → List (Bytes × Prog)
  | .domain xs => [(b!"Domain", .array (xs.map fun x => pReal x))]
  | .range xs => [(b!"Range", .array (xs.map fun x => pReal x))]
  | .size size' => [(b!"Size", .array (size'.map fun x => pInt x))]
  | .bitsPerSample bits => [(b!"BitsPerSample", pInt bits)]
  | .order order' => [(b!"Order", pInt order'.toInt)]
  | .encode encode' => [(b!"Encode", .array (encode'.map fun x => pReal x))]
  | .decode decode' => [(b!"Decode", .array (decode'.map fun x => pReal x))]
  | .stream c => c.entries

/-- All entries of the object: those of the constructor (functions.rs:55-58), then those of the calls. -/
def SampledFunction.entries (calls : List SampledFunctionCall) : List (Bytes × Prog) := [(b!"FunctionType", pInt FunctionType.sampled.toInt)] ++ calls.flatMap SampledFunctionCall.entries

/-- Does the call panic (`assert!`)? -/
def SampledFunctionCall.panics : SampledFunctionCall → Bool
  | .stream c => c.panics
  | _ => false

/-- The stream written; `none` if one of the calls panics, or the stream is too long. -/
def SampledFunction.write (calls : List SampledFunctionCall) (c : Chunk) (r : Ref) (data : Bytes) : Option Chunk :=
  if calls.any SampledFunctionCall.panics then none else c.writeStream r (SampledFunction.entries calls) data

/-- Calls of public methods of `PostScriptFunction` (functions.rs:230-233). -/
inductive PostScriptFunctionCall where
  /-- functions.rs:27-44 -/
  | domain (xs : List F32)
  /-- functions.rs:27-44 -/
  | range (xs : List F32)
  /-- functions.rs:238 -/
  | stream (c : StreamCall)

/-- The entries each method inserts. -/
def PostScriptFunctionCall.entries : PostScriptFunctionCall → List (Bytes × Prog)
  | .domain xs => [(b!"Domain", .array (xs.map fun x => pReal x))]
  | .range xs => [(b!"Range", .array (xs.map fun x => pReal x))]
  | .stream c => c.entries

/-- All entries of the object: those of the constructor (functions.rs:230-233), then those of the calls. -/
def PostScriptFunction.entries (calls : List PostScriptFunctionCall) : List (Bytes × Prog) := [(b!"FunctionType", pInt FunctionType.postScript.toInt)] ++ calls.flatMap PostScriptFunctionCall.entries

/-- Does the call panic (`assert!`)? -/
def PostScriptFunctionCall.panics : PostScriptFunctionCall → Bool
  | .stream c => c.panics
  | _ => false

/-- The stream written; `none` if one of the calls panics, or the stream is too long. -/
def PostScriptFunction.write (calls : List PostScriptFunctionCall) (c : Chunk) (r : Ref) (data : Bytes) : Option Chunk :=
  if calls.any PostScriptFunctionCall.panics then none else c.writeStream r (PostScriptFunction.entries calls) data

end PdfW
