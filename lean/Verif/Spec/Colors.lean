import Verif.Spec.Annots
import Verif.Spec.Fonts
import Verif.Spec.PostScript
import Verif.Spec.Typed.Functions

/-!
# Color spaces, functions, shadings and patterns (ISO 32000-1, 7.10, 8.6 and 8.7)

A reader that is given only the bytes of a file and obtains for every page the color spaces, shadings and patterns its resources name, with
everything they refer to: ICC profiles, tables, alternate spaces, tint transforms, functions of every type and the functions these are
composed of, meshes, and what the tile of a tiling pattern paints. It knows nothing about the writer.
-/

namespace PdfW.Spec
open PdfW Imaging

/-! ## What there is -/

/-- A function (7.10): `ν` are numbers, `π` programs of the calculator. -/
inductive Fn (ν π : Type) where
  /-- Table 39 -/
  | sampled (domain range : List ν) (size : List Int) (bits : Int) (order : Option Int) (encode decode : Option (List ν)) (samples : Bytes)
  /-- Table 40 -/
  | exponential (domain : List ν) (range c0 c1 : Option (List ν)) (n : ν)
  /-- Table 41 -/
  | stitching (domain : List ν) (range : Option (List ν)) (functions : List (Fn ν π)) (bounds encode : List ν)
  /-- 7.10.5 -/
  | calculator (domain range : List ν) (program : π)

/-- A color space (8.6): `κ` are the attributes of a DeviceN space. -/
inductive Space (ν π κ : Type) where
  | named (name : Bytes)
  | calGray (white : List ν) (black : Option (List ν)) (gamma : Option ν)
  | calRgb (white : List ν) (black gamma matrix : Option (List ν))
  | lab (white : List ν) (black range : Option (List ν))
  | icc (components : Int) (range : Option (List ν)) (profile : Bytes)
  | iccOr (components : Int) (alternate : Space ν π κ) (range : Option (List ν)) (profile : Bytes)
  | indexed (base : Space ν π κ) (hival : Int) (table : Bytes)
  | pattern (base : Space ν π κ)
  | separation (colorant : Bytes) (alternate : Space ν π κ) (tint : Fn ν π)
  | deviceN (colorants : List Bytes) (alternate : Space ν π κ) (tint : Fn ν π) (attributes : Option κ)

/-- The data of a shading that is a stream (Tables 82 to 86). -/
structure Mesh (ν : Type) where
  coordinateBits : Int
  componentBits : Int
  flagBits : Option Int
  decode : List ν
  perRow : Option Int
  data : Bytes

/-- A shading (Tables 78 to 86). -/
structure Shade (ν π κ : Type) where
  kind : Int
  space : Space ν π κ
  background : Option (List ν)
  box : Option (List ν)
  antiAlias : Option Bool
  domain : Option (List ν)
  matrix : Option (List ν)
  coords : Option (List ν)
  extend : Option (List Bool)
  function : Option (Fn ν π)
  mesh : Option (Mesh ν)

/-- A pattern (Tables 75 and 76): `σ` are color spaces and dictionaries that painting refers to, `τ` parameters of the graphics state. -/
inductive Pat (ν π κ σ τ : Type) where
  | tiling (paint tiling : Int) (box : List ν) (xStep yStep : ν) (matrix : Option (List ν)) (tile : List (Element ν σ))
  | shading (shade : Shade ν π κ) (matrix : Option (List ν)) (state : Option τ)

/-! ## The reader -/

abbrev ReadFn := Fn Val (List Calc)
abbrev ReadSpace := Space Val (List Calc) Val
abbrev ReadShade := Shade Val (List Calc) Val
abbrev ReadPat := Pat Val (List Calc) Val Val Val

/-- A dictionary or a stream, in place or by reference: the dictionary and, if it is a stream, its number. -/
def loadObject (f : FileEnd) (file : Bytes) : Val → Option (List (Bytes × Val) × Option Nat)
  | .dict d => some (d, none)
  | .ref n 0 => match f.object file n with
    | some (.val (.dict d)) => some (d, none)
    | some (.stream d _) => some (d, some n)
    | _ => none
  | _ => none

/-- A required entry. -/
def requiredEntry {α : Type} (key : Bytes) (d : List (Bytes × Val)) (read : Val → Option α) : Option α := (lookup key d).bind read

/-- Booleans. -/
def truths : Val → Option (List Bool)
  | .arr vs => readEach truthOf vs
  | _ => none

/-- Integers. -/
def integersOf : Val → Option (List Int)
  | .arr vs => integers vs
  | _ => none

/-- A function; `depth` bounds how deep functions are composed. -/
def readFn (unf : Val → Bytes → Option Bytes) (f : FileEnd) (file : Bytes) : Nat → Val → Option ReadFn
  | 0, _ => none
  | depth + 1, v =>
    (loadObject f file v).bind fun o => (requiredEntry b!"FunctionType" o.1 intOf).bind fun t => (requiredEntry b!"Domain" o.1 itemsOf).bind fun domain =>
      if t = 0 then
        (requiredEntry b!"Range" o.1 itemsOf).bind fun range => (requiredEntry b!"Size" o.1 integersOf).bind fun size =>
          (requiredEntry b!"BitsPerSample" o.1 intOf).bind fun bits => (optionalEntry b!"Order" o.1 intOf).bind fun order =>
            (optionalEntry b!"Encode" o.1 itemsOf).bind fun encode => (optionalEntry b!"Decode" o.1 itemsOf).bind fun decode =>
              (o.2.bind (decodedStream unf f file)).map fun data => .sampled domain range size bits order encode decode data
      else if t = 2 then
        (optionalEntry b!"Range" o.1 itemsOf).bind fun range => (optionalEntry b!"C0" o.1 itemsOf).bind fun c0 =>
          (optionalEntry b!"C1" o.1 itemsOf).bind fun c1 => (requiredEntry b!"N" o.1 numberOf).map fun n => .exponential domain range c0 c1 n
      else if t = 3 then
        (optionalEntry b!"Range" o.1 itemsOf).bind fun range =>
          ((requiredEntry b!"Functions" o.1 itemsOf).bind (readEach (readFn unf f file depth))).bind fun functions =>
            (requiredEntry b!"Bounds" o.1 itemsOf).bind fun bounds => (requiredEntry b!"Encode" o.1 itemsOf).map fun encode =>
              .stitching domain range functions bounds encode
      else if t = 4 then
        (requiredEntry b!"Range" o.1 itemsOf).bind fun range => ((o.2.bind (decodedStream unf f file)).bind readCalc).map fun program =>
          .calculator domain range program
      else none

/-- Names. -/
def namesOf : List Val → Option (List Bytes) := readEach nameOf

/-- A color space that is an array, given how to read a color space and a function in it. -/
def readFamily (unf : Val → Bytes → Option Bytes) (f : FileEnd) (file : Bytes) (space : Val → Option ReadSpace) (fn : Val → Option ReadFn)
    (family : Bytes) (args : List Val) : Option ReadSpace :=
  if family = b!"CalGray" then
    match args with
    | [v] => (followDict f file v).bind fun d => (requiredEntry b!"WhitePoint" d itemsOf).bind fun white =>
        (optionalEntry b!"BlackPoint" d itemsOf).bind fun black => (optionalEntry b!"Gamma" d numberOf).map fun gamma => .calGray white black gamma
    | _ => none
  else if family = b!"CalRGB" then
    match args with
    | [v] => (followDict f file v).bind fun d => (requiredEntry b!"WhitePoint" d itemsOf).bind fun white =>
        (optionalEntry b!"BlackPoint" d itemsOf).bind fun black => (optionalEntry b!"Gamma" d itemsOf).bind fun gamma =>
          (optionalEntry b!"Matrix" d itemsOf).map fun matrix => .calRgb white black gamma matrix
    | _ => none
  else if family = b!"Lab" then
    match args with
    | [v] => (followDict f file v).bind fun d => (requiredEntry b!"WhitePoint" d itemsOf).bind fun white =>
        (optionalEntry b!"BlackPoint" d itemsOf).bind fun black => (optionalEntry b!"Range" d itemsOf).map fun range => .lab white black range
    | _ => none
  else if family = b!"ICCBased" then
    match args with
    | [v] => (refNumber v).bind fun n => match f.object file n with
      | some (.stream d _) =>
        (requiredEntry b!"N" d intOf).bind fun k => (optionalEntry b!"Alternate" d space).bind fun alternate =>
          (optionalEntry b!"Range" d itemsOf).bind fun range => (decodedStream unf f file n).map fun data =>
            match alternate with
            | none => .icc k range data
            | some s => .iccOr k s range data
      | _ => none
    | _ => none
  else if family = b!"Indexed" then
    match args with
    | [base, .int hival, .str table] => (space base).map fun b => .indexed b hival table
    | [base, .int hival, .ref n 0] => (space base).bind fun b => (decodedStream unf f file n).map fun table => .indexed b hival table
    | _ => none
  else if family = b!"Pattern" then
    match args with
    | [base] => (space base).map .pattern
    | _ => none
  else if family = b!"Separation" then
    match args with
    | [.name colorant, alternate, tint] => (space alternate).bind fun a => (fn tint).map fun t => .separation colorant a t
    | _ => none
  else if family = b!"DeviceN" then
    match args with
    | [.arr colorants, alternate, tint] => (namesOf colorants).bind fun ns => (space alternate).bind fun a => (fn tint).map fun t => .deviceN ns a t none
    | [.arr colorants, alternate, tint, attributes] =>
      (namesOf colorants).bind fun ns => (space alternate).bind fun a => (fn tint).map fun t => .deviceN ns a t (some attributes)
    | _ => none
  else none

/-- A color space; `depth` bounds how deep spaces and functions are nested. -/
def readSpace (unf : Val → Bytes → Option Bytes) (f : FileEnd) (file : Bytes) : Nat → Val → Option ReadSpace
  | depth, v =>
    match followRef f file v with
    | some (.name n) => some (.named n)
    | some (.arr (.name family :: args)) =>
      match depth with
      | 0 => none
      | depth + 1 => readFamily unf f file (readSpace unf f file depth) (readFn unf f file (depth + 1)) family args
    | _ => none
termination_by structural depth => depth

/-- The data of a mesh. -/
def readMesh (unf : Val → Bytes → Option Bytes) (f : FileEnd) (file : Bytes) (d : List (Bytes × Val)) (n : Nat) : Option (Mesh Val) :=
  (requiredEntry b!"BitsPerCoordinate" d intOf).bind fun coordinate => (requiredEntry b!"BitsPerComponent" d intOf).bind fun component =>
    (optionalEntry b!"BitsPerFlag" d intOf).bind fun flag => (requiredEntry b!"Decode" d itemsOf).bind fun decode =>
      (optionalEntry b!"VerticesPerRow" d intOf).bind fun perRow => (decodedStream unf f file n).map fun data =>
        ⟨coordinate, component, flag, decode, perRow, data⟩

/-- A shading. Shadings of type 4 to 7 are streams. -/
def readShade (unf : Val → Bytes → Option Bytes) (f : FileEnd) (file : Bytes) (depth : Nat) (v : Val) : Option ReadShade :=
  (loadObject f file v).bind fun o => (requiredEntry b!"ShadingType" o.1 intOf).bind fun kind =>
    (requiredEntry b!"ColorSpace" o.1 (readSpace unf f file depth)).bind fun space => (optionalEntry b!"Background" o.1 itemsOf).bind fun background =>
    (optionalEntry b!"BBox" o.1 itemsOf).bind fun box => (optionalEntry b!"AntiAlias" o.1 truthOf).bind fun antiAlias =>
    (optionalEntry b!"Domain" o.1 itemsOf).bind fun domain => (optionalEntry b!"Matrix" o.1 itemsOf).bind fun matrix =>
    (optionalEntry b!"Coords" o.1 itemsOf).bind fun coords => (optionalEntry b!"Extend" o.1 truths).bind fun extend =>
    (optionalEntry b!"Function" o.1 (readFn unf f file depth)).bind fun function =>
      if kind < 4 then some ⟨kind, space, background, box, antiAlias, domain, matrix, coords, extend, function, none⟩
      else (o.2.bind (readMesh unf f file o.1)).map fun mesh => ⟨kind, space, background, box, antiAlias, domain, matrix, coords, extend, function, some mesh⟩

/-- A pattern. The tile of a tiling pattern is painted like a form, with its own resources. -/
def readPat (unf : Val → Bytes → Option Bytes) (f : FileEnd) (file : Bytes) (depth forms : Nat) (v : Val) : Option ReadPat :=
  (loadObject f file v).bind fun o => (requiredEntry b!"PatternType" o.1 intOf).bind fun t => (optionalEntry b!"Matrix" o.1 itemsOf).bind fun matrix =>
    if t = 1 then
      (requiredEntry b!"PaintType" o.1 intOf).bind fun paint => (requiredEntry b!"TilingType" o.1 intOf).bind fun tiling =>
        (requiredEntry b!"BBox" o.1 itemsOf).bind fun box => (requiredEntry b!"XStep" o.1 numberOf).bind fun xStep =>
          (requiredEntry b!"YStep" o.1 numberOf).bind fun yStep => (effectiveResources none o.1).bind fun res =>
            (o.2.bind (decodedStream unf f file)).bind fun data => (readContent data).bind fun ops => (readAllActs ops).bind fun acts =>
              (display ⟨.name, namedValue f file res, displayObject unf f file forms res⟩ (blank (inside matrix box (initial .name))) acts).map
                fun tile => .tiling paint tiling box xStep yStep matrix tile
    else if t = 2 then
      (requiredEntry b!"Shading" o.1 (readShade unf f file depth)).bind fun shade => (optionalEntry b!"ExtGState" o.1 some).map fun state =>
        .shading shade matrix state
    else none

/-- What the resources of a page name. -/
structure ReadColors where
  spaces : List (Bytes × ReadSpace)
  shadings : List (Bytes × ReadShade)
  patterns : List (Bytes × ReadPat)

/-- The resources of a category (Table 33), in order. -/
def readCategory {α : Type} (f : FileEnd) (file : Bytes) (d : List (Bytes × Val)) (category : Bytes) (read : Val → Option α) : Option (List (Bytes × α)) :=
  (optionalEntry category d fun v => (followDict f file v).bind (readEach fun e => (read e.2).map fun x => (e.1, x))).map fun l => l.getD []

/-- What the resources in effect on a page name. -/
def readPageColors (unf : Val → Bytes → Option Bytes) (f : FileEnd) (file : Bytes) (depth forms : Nat) (_ : Nat) (resources : Option Val)
    (_ : List (Bytes × Val)) : Option ReadColors :=
  match resources with
  | none => some ⟨[], [], []⟩
  | some r => (followDict f file r).bind fun d => (readCategory f file d b!"ColorSpace" (readSpace unf f file depth)).bind fun spaces =>
      (readCategory f file d b!"Shading" (readShade unf f file depth)).bind fun shadings =>
        (readCategory f file d b!"Pattern" (readPat unf f file depth forms)).map fun patterns => ⟨spaces, shadings, patterns⟩

/-- The color spaces, shadings and patterns of the pages of a file, page by page. `tree` bounds the depth of the page tree. -/
def fileColors (unf : Val → Bytes → Option Bytes) (file : Bytes) (tree depth forms : Nat) : Option (List ReadColors) :=
  (readFile unf file).bind fun f => (readCatalog f file).bind fun d => (lookup b!"Pages" d).bind refNumber |>.bind fun p =>
    readPagesWith (readPageColors unf f file depth forms) f file tree none p

/-! ## What was asked for -/

abbrev GivenFn := Fn F32 (List PostScriptOp)
abbrev GivenSpace := Space F32 (List PostScriptOp) (List DeviceNAttrsCall)
abbrev GivenShade := Shade F32 (List PostScriptOp) (List DeviceNAttrsCall)
abbrev GivenPat := Pat F32 (List PostScriptOp) (List DeviceNAttrsCall) Prog (List ExtGraphicsStateCall)

/-- The data of the stream is as given, or what the declared filter decodes to it. -/
def StreamHolds {α : Type} (means : α → List (Bytes × (Val → Prop))) (wrap : StreamCall → α) (unf : Val → Bytes → Option Bytes) (calls : List α)
    (stored data : Bytes) : Prop :=
  (NoCall means b!"Filter" calls ∧ stored = data) ∨
  ∃ flt, OnlyCall means b!"Filter" calls (wrap (.filter flt)) ∧ unf (.name (isoFilter flt)) stored = some data

/-- What a call on `ExponentialFunction` writes. -/
def exponentialMeans (c : ExponentialCall) : List (Bytes × (Val → Prop)) := [ExponentialMeans c]
/-- What a call on `StitchingFunction` writes. -/
def stitchingMeans (c : StitchingCall) : List (Bytes × (Val → Prop)) := [StitchingMeans c]

/-- A function dictionary as written by these calls; `below` says which functions the references stand for. -/
inductive FnGiven (below : Prog → GivenFn → Prop) : Prog → GivenFn → Prop
  | exponential {calls domain range c0 c1 n} : NoCall exponentialMeans b!"FunctionType" calls →
      OnlyCall exponentialMeans b!"Domain" calls (.domain domain) → MaybeCall exponentialMeans b!"Range" calls range .range →
      MaybeCall exponentialMeans b!"C0" calls c0 .c0 → MaybeCall exponentialMeans b!"C1" calls c1 .c1 → OnlyCall exponentialMeans b!"N" calls (.n n) →
      FnGiven below (exponentialFunction calls) (.exponential domain range c0 c1 n)
  | stitching {calls domain range ids functions bounds encode} : NoCall stitchingMeans b!"FunctionType" calls →
      OnlyCall stitchingMeans b!"Domain" calls (.domain domain) → MaybeCall stitchingMeans b!"Range" calls range .range →
      OnlyCall stitchingMeans b!"Functions" calls (.functions ids) → Pairwise (fun id g => below (.prim (.ref id)) g) ids functions →
      OnlyCall stitchingMeans b!"Bounds" calls (.bounds bounds) → OnlyCall stitchingMeans b!"Encode" calls (.encode encode) →
      FnGiven below (stitchingFunction calls) (.stitching domain range functions bounds encode)

/-- A function that is a stream with this id. -/
inductive FnStream (unf : Val → Bytes → Option Bytes) (items : List Item) (id : Ref) : GivenFn → Prop
  | sampled {calls stored domain range size bits encode decode data} {order : Option InterpolationOrder} :
      HasObject items id (.stream (SampledFunction.entries calls) stored) → NoCall SampledFunctionMeans b!"FunctionType" calls →
      OnlyCall SampledFunctionMeans b!"Domain" calls (.domain domain) → OnlyCall SampledFunctionMeans b!"Range" calls (.range range) →
      OnlyCall SampledFunctionMeans b!"Size" calls (.size size) → OnlyCall SampledFunctionMeans b!"BitsPerSample" calls (.bitsPerSample bits) →
      MaybeCall SampledFunctionMeans b!"Order" calls order .order → MaybeCall SampledFunctionMeans b!"Encode" calls encode .encode →
      MaybeCall SampledFunctionMeans b!"Decode" calls decode .decode → StreamHolds SampledFunctionMeans .stream unf calls stored data →
      FnStream unf items id (.sampled domain range size bits (order.map isoInterpolationOrder) encode decode data)
  | calculator {calls stored domain range ops} : HasObject items id (.stream (PostScriptFunction.entries calls) stored) →
      NoCall PostScriptFunctionMeans b!"FunctionType" calls → OnlyCall PostScriptFunctionMeans b!"Domain" calls (.domain domain) →
      OnlyCall PostScriptFunctionMeans b!"Range" calls (.range range) → AllPsFinite ops →
      StreamHolds PostScriptFunctionMeans .stream unf calls stored (PostScriptOp.encode ops).inner →
      FnStream unf items id (.calculator domain range ops)

/-- The function was written, in place or by reference, with functions composed at most `depth` deep. -/
def FnWritten (unf : Val → Bytes → Option Bytes) (items : List Item) : Nat → Prog → GivenFn → Prop
  | 0, _, _ => False
  | depth + 1, p, g => (∃ q, Stored items p q ∧ FnGiven (FnWritten unf items depth) q g) ∨ ∃ id, p = .prim (.ref id) ∧ FnStream unf items id g

/-- The alternate space a call on `Separation` sets. -/
def SeparationAlternate (space : Prog → GivenSpace → Prop) : SeparationCall → GivenSpace → Prop
  | .alternateDevice d, s => s = .named (deviceName d)
  | .alternateColorSpace c, s => space c s
  | .alternateColorSpaceRef r, s => space (.prim (.ref r)) s
  | _, _ => False

/-- The tint transform a call on `Separation` sets. -/
def SeparationTint (fn : Prog → GivenFn → Prop) : SeparationCall → GivenFn → Prop
  | .tintExponential calls, g => fn (exponentialFunction calls) g
  | .tintStitching calls, g => fn (stitchingFunction calls) g
  | .tintRef r, g => fn (.prim (.ref r)) g
  | _, _ => False

/-- The alternate space a call on `DeviceN` sets. -/
def DeviceNAlternate (space : Prog → GivenSpace → Prop) : DeviceNCall → GivenSpace → Prop
  | .alternateDevice d, s => s = .named (deviceName d)
  | .alternateColorSpace c, s => space c s
  | .alternateColorSpaceRef r, s => space (.prim (.ref r)) s
  | _, _ => False

/-- The tint transform a call on `DeviceN` sets. -/
def DeviceNTint (fn : Prog → GivenFn → Prop) : DeviceNCall → GivenFn → Prop
  | .tintExponential calls, g => fn (exponentialFunction calls) g
  | .tintStitching calls, g => fn (stitchingFunction calls) g
  | .tintRef r, g => fn (.prim (.ref r)) g
  | _, _ => False

/-- An ICC profile was written. -/
structure ProfileWritten (unf : Val → Bytes → Option Bytes) (items : List Item) (id : Ref) (calls : List IccProfileCall) (components : Int)
    (range : Option (List F32)) (profile : Bytes) : Prop where
  object : ∃ stored, HasObject items id (.stream (IccProfile.entries calls) stored) ∧ StreamHolds IccProfileMeans .stream unf calls stored profile
  components : OnlyCall IccProfileMeans b!"N" calls (.n components)
  range : MaybeCall IccProfileMeans b!"Range" calls range .range

/-- A color space as written by a method of `ColorSpace`; `space` and `fn` say which spaces and functions those in it are. -/
inductive SpaceGiven (unf : Val → Bytes → Option Bytes) (items : List Item) (space : Prog → GivenSpace → Prop) (fn : Prog → GivenFn → Prop) :
    Prog → GivenSpace → Prop
  | calGray {w b g p} : (ColorSpaceCall.calGray w b g).prog = some p →
      SpaceGiven unf items space fn p (.calGray w.list (b.map Xyz.list) g)
  | calRgb {w b g m p} : (ColorSpaceCall.calRgb w b g m).prog = some p →
      SpaceGiven unf items space fn p (.calRgb w.list (b.map Xyz.list) (g.map Xyz.list) (m.map Nine.list))
  | lab {w b r p} : (ColorSpaceCall.lab w b r).prog = some p →
      SpaceGiven unf items space fn p (.lab w.list (b.map Xyz.list) (r.map Four.list))
  | icc {id calls n range profile p} : (ColorSpaceCall.iccBased id).prog = some p → ProfileWritten unf items id calls n range profile →
      NoCall IccProfileMeans b!"Alternate" calls → SpaceGiven unf items space fn p (.icc n range profile)
  | iccOr {id calls n q alternate range profile p} : (ColorSpaceCall.iccBased id).prog = some p → ProfileWritten unf items id calls n range profile →
      OnlyCall IccProfileMeans b!"Alternate" calls (.alternate q) → space q alternate → SpaceGiven unf items space fn p (.iccOr n alternate range profile)
  | iccOrNamed {id calls n name range profile p} : (ColorSpaceCall.iccBased id).prog = some p → ProfileWritten unf items id calls n range profile →
      OnlyCall IccProfileMeans b!"Alternate" calls (.alternateName name) →
      SpaceGiven unf items space fn p (.iccOr n (.named name) range profile)
  | indexed {base hival table p} : (ColorSpaceCall.indexed base hival table).prog = some p →
      SpaceGiven unf items space fn p (.indexed (.named base) hival table)
  | pattern {base p} : (ColorSpaceCall.pattern base).prog = some p →
      SpaceGiven unf items space fn p (.pattern (.named base))
  | separation {colorant a t alternate tint p} : (ColorSpaceCall.separation colorant [a, t]).prog = some p →
      SeparationAlternate space a alternate → SeparationTint fn t tint → SpaceGiven unf items space fn p (.separation colorant alternate tint)
  | deviceN {colorants a t alternate tint p} {attributes : Option (List DeviceNAttrsCall)} :
      (ColorSpaceCall.deviceN colorants (a :: t :: (attributes.map DeviceNCall.attrs).toList)).prog = some p →
      DeviceNAlternate space a alternate → DeviceNTint fn t tint → SpaceGiven unf items space fn p (.deviceN colorants alternate tint attributes)

/-- The color space was written, in place or by reference, with spaces and functions nested at most `depth` deep. -/
def SpaceWritten (unf : Val → Bytes → Option Bytes) (items : List Item) : Nat → Prog → GivenSpace → Prop
  | depth, p, s => (∃ n, Stored items p (.prim (.name n)) ∧ s = .named n) ∨
    match depth with
    | 0 => False
    | depth + 1 => ∃ q, Stored items p q ∧ SpaceGiven unf items (SpaceWritten unf items depth) (FnWritten unf items (depth + 1)) q s
termination_by structural depth => depth

/-- A shading dictionary as written by these calls on `FunctionShading`. -/
structure ShadeSet (unf : Val → Bytes → Option Bytes) (items : List Item) (depth : Nat) (calls : List FunctionShadingCall) (s : GivenShade) : Prop where
  kind : ∃ k, s.kind = isoFunctionShadingType k ∧ OnlyCall FunctionShadingMeans b!"ShadingType" calls (.shadingType k)
  space : ∃ q, OnlyCall FunctionShadingMeans b!"ColorSpace" calls (.colorSpace q) ∧ SpaceWritten unf items depth q s.space
  background : MaybeCall FunctionShadingMeans b!"Background" calls s.background .background
  box : ∃ r : Option Rect, s.box = r.map (fun r => [r.x1, r.y1, r.x2, r.y2]) ∧ MaybeCall FunctionShadingMeans b!"BBox" calls r .bbox
  antiAlias : MaybeCall FunctionShadingMeans b!"AntiAlias" calls s.antiAlias .antiAlias
  domain : MaybeCall FunctionShadingMeans b!"Domain" calls s.domain .domain
  matrix : MaybeCall FunctionShadingMeans b!"Matrix" calls s.matrix .matrix
  coords : MaybeCall FunctionShadingMeans b!"Coords" calls s.coords .coords
  extend : MaybeCall FunctionShadingMeans b!"Extend" calls s.extend .extend
  function : ∃ id : Option Ref, MaybeCall FunctionShadingMeans b!"Function" calls id .function ∧
    BothOrNone (fun id g => FnWritten unf items depth (.prim (.ref id)) g) id s.function
  mesh : s.mesh = none

/-- A shading stream as written by these calls on `StreamShading`. -/
structure MeshSet (unf : Val → Bytes → Option Bytes) (items : List Item) (depth : Nat) (calls : List StreamShadingCall) (stored : Bytes) (s : GivenShade)
    (m : Mesh F32) : Prop where
  kind : ∃ k, s.kind = isoStreamShadingType k ∧ OnlyCall StreamShadingMeans b!"ShadingType" calls (.shadingType k)
  space : ∃ q, OnlyCall StreamShadingMeans b!"ColorSpace" calls (.colorSpace q) ∧ SpaceWritten unf items depth q s.space
  background : MaybeCall StreamShadingMeans b!"Background" calls s.background .background
  box : ∃ r : Option Rect, s.box = r.map (fun r => [r.x1, r.y1, r.x2, r.y2]) ∧ MaybeCall StreamShadingMeans b!"BBox" calls r .bbox
  antiAlias : MaybeCall StreamShadingMeans b!"AntiAlias" calls s.antiAlias .antiAlias
  others : s.domain = none ∧ s.matrix = none ∧ s.coords = none ∧ s.extend = none ∧ NoCall StreamShadingMeans b!"Domain" calls ∧
    NoCall StreamShadingMeans b!"Matrix" calls ∧ NoCall StreamShadingMeans b!"Coords" calls ∧ NoCall StreamShadingMeans b!"Extend" calls
  function : ∃ id : Option Ref, MaybeCall StreamShadingMeans b!"Function" calls id .function ∧
    BothOrNone (fun id g => FnWritten unf items depth (.prim (.ref id)) g) id s.function
  mesh : s.mesh = some m
  coordinateBits : OnlyCall StreamShadingMeans b!"BitsPerCoordinate" calls (.bitsPerCoordinate m.coordinateBits)
  componentBits : OnlyCall StreamShadingMeans b!"BitsPerComponent" calls (.bitsPerComponent m.componentBits)
  flagBits : MaybeCall StreamShadingMeans b!"BitsPerFlag" calls m.flagBits .bitsPerFlag
  decode : OnlyCall StreamShadingMeans b!"Decode" calls (.decode m.decode)
  perRow : MaybeCall StreamShadingMeans b!"VerticesPerRow" calls m.perRow .verticesPerRow
  data : StreamHolds StreamShadingMeans .stream unf calls stored m.data

/-- The shading was written: a dictionary in place or by reference, or a stream. -/
def ShadeWritten (unf : Val → Bytes → Option Bytes) (items : List Item) (depth : Nat) (p : Prog) (s : GivenShade) : Prop :=
  (∃ calls, Stored items p (FunctionShading.prog calls) ∧ ShadeSet unf items depth calls s) ∨
  ∃ id calls stored m, p = .prim (.ref id) ∧ HasObject items id (.stream (StreamShading.entries calls) stored) ∧ MeshSet unf items depth calls stored s m

/-- A tiling pattern as given to the API: the calls on the writer, its data, and the operations issued with the setting of the `Content`. -/
structure TilePart where
  id : Ref
  calls : List TilingPatternCall
  data : Bytes
  pretty : Bool
  content : List ContentCall

/-- It was written. -/
structure TilePart.Written (unf : Val → Bytes → Option Bytes) (items : List Item) (p : TilePart) : Prop where
  object : HasObject items p.id (.stream (TilingPattern.entries p.calls) p.data)
  noType : NoCall TilingPatternMeans b!"PatternType" p.calls
  stored : ∃ content, runCalls p.content (Content.withSettings p.pretty) = some content ∧
    StreamHolds TilingPatternMeans .stream unf p.calls p.data content.finish.inner
  ok : ∀ k ∈ p.content, CallOk k
  clash : p.pretty = true ∨ ∀ k ∈ p.content, CallNoClash k

/-- The pattern was written. -/
inductive PatWritten (unf : Val → Bytes → Option Bytes) (items : List Item) (depth forms : Nat) : Prog → GivenPat → Prop
  | shading {p calls q shade matrix} {state : Option (List ExtGraphicsStateCall)} : Stored items p (ShadingPattern.prog calls) →
      NoCall (ShadingPatternMeans .code) b!"PatternType" calls →
      (OnlyCall (ShadingPatternMeans .code) b!"Shading" calls (.shadingRef q) ∧ ShadeWritten unf items depth (.prim (.ref q)) shade ∨
       ∃ cs, OnlyCall (ShadingPatternMeans .code) b!"Shading" calls (.functionShading cs) ∧ ShadeSet unf items depth cs shade) →
      MaybeCall (ShadingPatternMeans .code) b!"Matrix" calls matrix .matrix → MaybeCall (ShadingPatternMeans .code) b!"ExtGState" calls state .extGraphics →
      PatWritten unf items depth forms p (.shading shade matrix state)
  | tiling {paint tiling box xStep yStep matrix res tile} (t : TilePart) : t.Written unf items →
      OnlyCall TilingPatternMeans b!"PaintType" t.calls (.paintType paint) → OnlyCall TilingPatternMeans b!"TilingType" t.calls (.tilingType tiling) →
      OnlyCall TilingPatternMeans b!"BBox" t.calls (.bbox box) → OnlyCall TilingPatternMeans b!"XStep" t.calls (.xStep xStep) →
      OnlyCall TilingPatternMeans b!"YStep" t.calls (.yStep yStep) → MaybeCall TilingPatternMeans b!"Matrix" t.calls matrix .matrix →
      ResourcesSet TilingPatternMeans .resources (fun k v => .stream (.raw k v)) items t.calls none res →
      Displays unf items forms res (inside matrix [box.x1, box.y1, box.x2, box.y2] (initial fun n => .prim (.name n))) t.content tile →
      PatWritten unf items depth forms (.prim (.ref t.id))
        (.tiling (isoPaintType paint) (isoTilingType tiling) [box.x1, box.y1, box.x2, box.y2] xStep yStep matrix tile)

/-- The resources of a category are these. -/
def CategoryGiven {γ : Type} (items : List Item) (rc : List ResourcesCall) (key : Bytes) (method : List (Bytes × Prog) → ResourcesCall)
    (written : Prog → γ → Prop) (xs : List (Bytes × γ)) : Prop :=
  (NoCall ResourcesMeans key rc ∧ xs = []) ∨
  ∃ es, CategorySet items rc key method es ∧ Pairwise (fun e x => e.1 = x.1 ∧ written e.2 x.2) es xs

/-- What the resources of a page name. -/
structure GivenColors where
  spaces : List (Bytes × GivenSpace)
  shadings : List (Bytes × GivenShade)
  patterns : List (Bytes × GivenPat)

/-- The resources name these. -/
def ColorsSet (unf : Val → Bytes → Option Bytes) (items : List Item) (depth forms : Nat) (res : Option (List ResourcesCall)) (x : GivenColors) : Prop :=
  match res with
  | none => x = ⟨[], [], []⟩
  | some rc => CategoryGiven items rc b!"ColorSpace" .colorSpaces (SpaceWritten unf items depth) x.spaces ∧
      CategoryGiven items rc b!"Shading" .shadings (ShadeWritten unf items depth) x.shadings ∧
      CategoryGiven items rc b!"Pattern" .patterns (PatWritten unf items depth forms) x.patterns

/-- … on the pages of the tree. -/
def PageTree.Colors (unf : Val → Bytes → Option Bytes) (items : List Item) (depth forms : Nat) (t : PageTree) (pages : List GivenColors) : Prop :=
  t.Each (fun _ res _ x => ColorsSet unf items depth forms res x) items none pages

/-! ## What is read is what was asked for -/

/-- The function read is the one given. -/
inductive SameFn : GivenFn → ReadFn → Prop
  | sampled {d d' r r' size bits order e e' c c' data} : Pairwise NumIs d d' → Pairwise NumIs r r' → BothOrNone (Pairwise NumIs) e e' →
      BothOrNone (Pairwise NumIs) c c' → SameFn (.sampled d r size bits order e c data) (.sampled d' r' size bits order e' c' data)
  | exponential {d d' r r' a a' b b' n n'} : Pairwise NumIs d d' → BothOrNone (Pairwise NumIs) r r' → BothOrNone (Pairwise NumIs) a a' →
      BothOrNone (Pairwise NumIs) b b' → NumIs n n' → SameFn (.exponential d r a b n) (.exponential d' r' a' b' n')
  | stitching {d d' r r' fs fs' b b' e e'} : Pairwise NumIs d d' → BothOrNone (Pairwise NumIs) r r' → Pairwise SameFn fs fs' →
      Pairwise NumIs b b' → Pairwise NumIs e e' → SameFn (.stitching d r fs b e) (.stitching d' r' fs' b' e')
  | calculator {d d' r r' ops cs} : Pairwise NumIs d d' → Pairwise NumIs r r' → AllCalcMean ops cs → SameFn (.calculator d r ops) (.calculator d' r' cs)

/-- The color space read is the one given. -/
inductive SameSpace : GivenSpace → ReadSpace → Prop
  | named {n} : SameSpace (.named n) (.named n)
  | calGray {w w' b b' g g'} : Pairwise NumIs w w' → BothOrNone (Pairwise NumIs) b b' → BothOrNone NumIs g g' →
      SameSpace (.calGray w b g) (.calGray w' b' g')
  | calRgb {w w' b b' g g' m m'} : Pairwise NumIs w w' → BothOrNone (Pairwise NumIs) b b' → BothOrNone (Pairwise NumIs) g g' →
      BothOrNone (Pairwise NumIs) m m' → SameSpace (.calRgb w b g m) (.calRgb w' b' g' m')
  | lab {w w' b b' r r'} : Pairwise NumIs w w' → BothOrNone (Pairwise NumIs) b b' → BothOrNone (Pairwise NumIs) r r' →
      SameSpace (.lab w b r) (.lab w' b' r')
  | icc {n r r' data} : BothOrNone (Pairwise NumIs) r r' → SameSpace (.icc n r data) (.icc n r' data)
  | iccOr {n a a' r r' data} : SameSpace a a' → BothOrNone (Pairwise NumIs) r r' → SameSpace (.iccOr n a r data) (.iccOr n a' r' data)
  | indexed {b b' h t} : SameSpace b b' → SameSpace (.indexed b h t) (.indexed b' h t)
  | pattern {b b'} : SameSpace b b' → SameSpace (.pattern b) (.pattern b')
  | separation {c a a' t t'} : SameSpace a a' → SameFn t t' → SameSpace (.separation c a t) (.separation c a' t')
  | deviceN {cs a a' t t' x x'} : SameSpace a a' → SameFn t t' → BothOrNone (fun calls v => DictIs (calls.map AttrsMeans) v) x x' →
      SameSpace (.deviceN cs a t x) (.deviceN cs a' t' x')

/-- The mesh read is the one given. -/
structure SameMesh (g : Mesh F32) (r : Mesh Val) : Prop where
  bits : r.coordinateBits = g.coordinateBits ∧ r.componentBits = g.componentBits ∧ r.flagBits = g.flagBits ∧ r.perRow = g.perRow
  decode : Pairwise NumIs g.decode r.decode
  data : r.data = g.data

/-- The shading read is the one given. -/
structure SameShade (g : GivenShade) (r : ReadShade) : Prop where
  kind : r.kind = g.kind
  space : SameSpace g.space r.space
  background : BothOrNone (Pairwise NumIs) g.background r.background
  box : BothOrNone (Pairwise NumIs) g.box r.box
  antiAlias : r.antiAlias = g.antiAlias
  domain : BothOrNone (Pairwise NumIs) g.domain r.domain
  matrix : BothOrNone (Pairwise NumIs) g.matrix r.matrix
  coords : BothOrNone (Pairwise NumIs) g.coords r.coords
  extend : r.extend = g.extend
  function : BothOrNone SameFn g.function r.function
  mesh : BothOrNone SameMesh g.mesh r.mesh

/-- The pattern read is the one given. -/
inductive SamePat : GivenPat → ReadPat → Prop
  | tiling {p t b b' x x' y y' m m' es es'} : Pairwise NumIs b b' → NumIs x x' → NumIs y y' → BothOrNone (Pairwise NumIs) m m' →
      Pairwise (SameElement NumIs Denotes) es es' → SamePat (.tiling p t b x y m es) (.tiling p t b' x' y' m' es')
  | shading {s s' m m' g g'} : SameShade s s' → BothOrNone (Pairwise NumIs) m m' → BothOrNone (IsExtGraphicsState .code) g g' → SamePat (.shading s m g) (.shading s' m' g')

/-- What was read is what was given, under the same names and in the same order. -/
structure ColorsRead (g : GivenColors) (r : ReadColors) : Prop where
  spaces : Pairwise (fun a b => b.1 = a.1 ∧ SameSpace a.2 b.2) g.spaces r.spaces
  shadings : Pairwise (fun a b => b.1 = a.1 ∧ SameShade a.2 b.2) g.shadings r.shadings
  patterns : Pairwise (fun a b => b.1 = a.1 ∧ SamePat a.2 b.2) g.patterns r.patterns

end PdfW.Spec
