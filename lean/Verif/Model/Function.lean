import Verif.Model.Object

/-!
# Function dictionaries (`/repo/src/functions.rs:1-240`)

A typed dictionary writer is modelled by the entries its methods insert; together with what
`Prog.run` does to a dictionary this is what the writer does to the buffer. `raw` stands for the methods of `Dict`
that are available through `DerefMut` (macros.rs:59-77).
-/

namespace PdfW

/-- `.array().items(…)` with numbers (object.rs:829-836). -/
def reals (xs : List F32) : Prog := .array (xs.map fun x => .prim (.real x))
/-- The same with `i32`. -/
def ints (xs : List Int) : Prog := .array (xs.map fun x => .prim (.int x))
/-- The same with names. -/
def names (xs : List Bytes) : Prog := .array (xs.map fun x => .prim (.name x))
/-- The same with references. -/
def refs (xs : List Ref) : Prog := .array (xs.map fun x => .prim (.ref x))

/-- `FunctionType` (functions.rs:5-14). -/
inductive FunctionType where
  | sampled | exponential | stitching | postScript
deriving DecidableEq

/-- `FunctionType::to_int` (functions.rs:17-24). -/
def FunctionType.toInt : FunctionType → Int
  | .sampled => 0
  | .exponential => 2
  | .stitching => 3
  | .postScript => 4

/-- `InterpolationOrder` (functions.rs:108-114). -/
inductive InterpolationOrder where
  | linear | cubic
deriving DecidableEq

/-- `InterpolationOrder::to_int` (functions.rs:117-122). -/
def InterpolationOrder.toInt : InterpolationOrder → Int
  | .linear => 1
  | .cubic => 3

/-- Methods of `ExponentialFunction` (functions.rs:142-170). -/
inductive ExponentialCall where
  | domain (xs : List F32)
  | range (xs : List F32)
  | c0 (xs : List F32)
  | c1 (xs : List F32)
  | n (x : F32)
  | raw (key : Bytes) (value : Prog)

/-- functions.rs:27-44, 142-168 -/
def ExponentialCall.entry : ExponentialCall → Bytes × Prog
  | .domain xs => (b!"Domain", reals xs)
  | .range xs => (b!"Range", reals xs)
  | .c0 xs => (b!"C0", reals xs)
  | .c1 xs => (b!"C1", reals xs)
  | .n x => (b!"N", .prim (.real x))
  | .raw k v => (k, v)

/-- `ExponentialFunction::start` (functions.rs:136-140) and the calls. -/
def exponentialFunction (calls : List ExponentialCall) : Prog :=
  .dict ((b!"FunctionType", .prim (.int FunctionType.exponential.toInt)) :: calls.map ExponentialCall.entry)

/-- Methods of `StitchingFunction` (functions.rs:189-219). -/
inductive StitchingCall where
  | domain (xs : List F32)
  | range (xs : List F32)
  | functions (ids : List Ref)
  | bounds (xs : List F32)
  | encode (xs : List F32)
  | raw (key : Bytes) (value : Prog)

/-- functions.rs:27-44, 189-217 -/
def StitchingCall.entry : StitchingCall → Bytes × Prog
  | .domain xs => (b!"Domain", reals xs)
  | .range xs => (b!"Range", reals xs)
  | .functions ids => (b!"Functions", refs ids)
  | .bounds xs => (b!"Bounds", reals xs)
  | .encode xs => (b!"Encode", reals xs)
  | .raw k v => (k, v)

/-- `StitchingFunction::start` (functions.rs:183-187) and the calls. -/
def stitchingFunction (calls : List StitchingCall) : Prog :=
  .dict ((b!"FunctionType", .prim (.int FunctionType.stitching.toInt)) :: calls.map StitchingCall.entry)

end PdfW
