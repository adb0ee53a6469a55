import Verif.Spec.Images

/-!
# What is painted on a page (ISO 32000-1, 8.2, 8.4, 8.5, 8.6, 8.10, 9.3, 9.4)

The imaging model as a machine: graphics operators change a graphics state, build paths and text, and paint elements. Its result is the
display list of a page: what is painted, in order, each with the whole graphics state in effect (transformations, clipping, colors and all
parameters). The machine is independent of how numbers and resources are represented: a reader runs it on the operators read from a file,
and the same machine gives a meaning to the calls made on `Content`. Marked content does not take part in it; optional content is always
taken to be visible; inline images cannot be read.
-/

namespace PdfW.Spec.Imaging
open PdfW Spec

/-! ## The machine

`N` represents numbers, `V` resources (fonts, color spaces, patterns, shadings, graphics state dictionaries). -/

/-- Path construction (Table 59). -/
inductive Stroke where
  | move | line | curve | curveInitial | curveFinal | close | rectangle
deriving DecidableEq

/-- A path construction operator and its coordinates. -/
structure Segment (N : Type) where
  kind : Stroke
  points : List N

/-- What is inside of a path (8.5.3.3). -/
inductive Rule where
  | nonzero | evenOdd
deriving DecidableEq

/-- Parameters of the graphics state (Tables 52, 53 and 104), and dictionaries of such parameters (8.4.5). -/
inductive Param where
  | lineWidth | lineCap | lineJoin | miterLimit | dash | intent | flatness | dictionary
  | charSpacing | wordSpacing | scaling | leading | font | rendering | rise
deriving DecidableEq

/-- The value of a parameter. -/
inductive Value (N V : Type) where
  | number (x : N)
  | negated (x : N)
  | integer (i : Int)
  | name (n : Bytes)
  | dash (array : List N) (phase : N)
  | font (font : V) (size : N)
  | dictionary (d : V)

/-- A parameter that was set. -/
structure Setting (N V : Type) where
  param : Param
  value : Value N V

/-- A color (8.6): a color space, components (none: the initial ones of the space), and perhaps a pattern. -/
structure Color (N V : Type) where
  space : V
  components : List N
  pattern : Option V

/-- Text positioning (Table 108): relative to the start of the line, absolute, or to the next line with a leading (if none was set, zero). -/
inductive Move (N V : Type) where
  | by (x y : N)
  | matrix (m : List N)
  | next (leading : Option (Value N V))

/-- What is given to text-showing operators (Table 109): character codes, and adjustments. -/
inductive Text (N : Type) where
  | codes (s : Bytes)
  | adjust (x : N)

/-- Text that is shown: how its line was reached since the text object began (last move first), how many times text was shown since the last
move, what is shown, and under which transformations and settings. -/
structure Run (N V : Type) where
  moves : List (Move N V)
  index : Nat
  shown : List (Text N)
  ctm : List (List N)
  settings : List (Setting N V)

/-- What restricts painting (8.5.4, 8.10.1, 9.3.6). -/
inductive Clip (N V : Type) where
  | path (path : List (Segment N)) (rule : Rule) (ctm : List (List N))
  | box (box : List N) (ctm : List (List N))
  | text (runs : List (Run N V))

/-- The graphics state: the transformations (the first to be applied to coordinates first), what restricts painting, the colors, and the
settings in effect (newest first; each overrides what a dictionary after it says). -/
structure GState (N V : Type) where
  ctm : List (List N)
  clips : List (Clip N V)
  stroking : Color N V
  filling : Color N V
  settings : List (Setting N V)

/-- What is painted. The elements of a form XObject are between `enter` and `leave`. -/
inductive Element (N V : Type) where
  | path (path : List (Segment N)) (fill : Option Rule) (stroke : Bool) (state : GState N V)
  | text (run : Run N V) (state : GState N V)
  | shading (shading : V) (state : GState N V)
  | image (number : Nat) (state : GState N V)
  | enter (number : Nat) (state : GState N V)
  | leave (number : Nat)

/-- What operators ask for. -/
inductive Act (N V : Type) where
  | save
  | restore
  | transform (m : List N)
  | set (param : Param) (value : Value N V)
  | font (name : Bytes) (size : N)
  | dictionary (name : Bytes)
  | segment (s : Segment N)
  | paint (fill : Option Rule) (stroke : Bool)
  | clip (rule : Rule)
  | beginText
  | endText
  | moveBy (x y : N)
  | matrix (m : List N)
  | nextLine
  | show (shown : List (Text N))
  | space (stroking : Bool) (name : Bytes)
  | color (stroking : Bool) (components : List N) (pattern : Option Bytes)
  | device (stroking : Bool) (space : Bytes) (components : List N)
  | shading (name : Bytes)
  | object (name : Bytes)

/-- What names refer to: color spaces of devices, the named resources of a category, and what painting an XObject in a graphics state paints. -/
structure Env (N V : Type) where
  device : Bytes → V
  resource : Bytes → Bytes → Option V
  object : Bytes → GState N V → Option (List (Element N V))

/-- A text object: the moves, how many times text was shown since the last move, and the runs that will restrict painting. -/
structure TextObject (N V : Type) where
  moves : List (Move N V)
  index : Nat
  clip : List (Run N V)

/-- The state of the machine: the graphics state, the saved ones, the path so far, the pending clipping operator, and the text object. -/
structure Canvas (N V : Type) where
  state : GState N V
  saved : List (GState N V)
  path : List (Segment N)
  pending : Option Rule
  text : Option (TextObject N V)

section
variable {N V : Type}

/-- A setting replaces the one of the same parameter; dictionaries set many parameters and stay. -/
def put (p : Param) (v : Value N V) (l : List (Setting N V)) : List (Setting N V) :=
  ⟨p, v⟩ :: if p = .dictionary then l else l.filter fun s => s.param != p

/-- The value of a parameter set by operators. -/
def valueOf (p : Param) (l : List (Setting N V)) : Option (Value N V) :=
  (l.find? fun s => s.param == p).map Setting.value

/-- Set a parameter. -/
def GState.put (p : Param) (v : Value N V) (g : GState N V) : GState N V := { g with settings := Imaging.put p v g.settings }

/-- Set a color. -/
def GState.setColor (stroking : Bool) (c : Color N V) (g : GState N V) : GState N V :=
  if stroking then { g with stroking := c } else { g with filling := c }

/-- The color in effect. -/
def GState.color (stroking : Bool) (g : GState N V) : Color N V := if stroking then g.stroking else g.filling

/-- Names of color spaces that need no resource (Table 74: they are selected by name). -/
def directSpaces : List Bytes := [b!"DeviceGray", b!"DeviceRGB", b!"DeviceCMYK", b!"Pattern"]

/-- The color space with this name. -/
def spaceNamed (e : Env N V) (n : Bytes) : Option V :=
  if n ∈ directSpaces then some (e.device n) else e.resource b!"ColorSpace" n

/-- The pattern with this name. -/
def patternNamed (e : Env N V) : Option Bytes → Option (Option V)
  | none => some none
  | some n => (e.resource b!"Pattern" n).map some

/-- Whether text shown in this mode restricts painting when the text object ends (Table 106). -/
def clipsText (l : List (Setting N V)) : Bool :=
  match valueOf .rendering l with
  | some (.integer i) => decide (4 ≤ i)
  | _ => false

/-- Restrict painting to a path. -/
def clipTo (pending : Option Rule) (path : List (Segment N)) (g : GState N V) : GState N V :=
  match pending with
  | some r => { g with clips := .path path r g.ctm :: g.clips }
  | none => g

/-- One step: the new state, and what is painted. -/
def step (e : Env N V) (m : Canvas N V) : Act N V → Option (Canvas N V × List (Element N V))
  | .save => some ({ m with saved := m.state :: m.saved }, [])
  | .restore =>
    match m.saved with
    | [] => some (m, [])
    | g :: saved => some ({ m with state := g, saved := saved }, [])
  | .transform t => some ({ m with state := { m.state with ctm := t :: m.state.ctm } }, [])
  | .set p v => some ({ m with state := m.state.put p v }, [])
  | .font n size => (e.resource b!"Font" n).map fun f => ({ m with state := m.state.put .font (.font f size) }, [])
  | .dictionary n => (e.resource b!"ExtGState" n).map fun d => ({ m with state := m.state.put .dictionary (.dictionary d) }, [])
  | .segment s => some ({ m with path := m.path ++ [s] }, [])
  | .paint fill stroke =>
    some ({ m with path := [], pending := none, state := clipTo m.pending m.path m.state },
      if fill.isSome || stroke then [.path m.path fill stroke m.state] else [])
  | .clip r => some ({ m with pending := some r }, [])
  | .beginText => some ({ m with text := some ⟨[], 0, []⟩ }, [])
  | .endText => m.text.map fun t =>
      ({ m with text := none, state := if t.clip.isEmpty then m.state else { m.state with clips := .text t.clip :: m.state.clips } }, [])
  | .moveBy x y => m.text.map fun t => ({ m with text := some ⟨.by x y :: t.moves, 0, t.clip⟩ }, [])
  | .matrix a => m.text.map fun t => ({ m with text := some ⟨[.matrix a], 0, t.clip⟩ }, [])
  | .nextLine => m.text.map fun t => ({ m with text := some ⟨.next (valueOf .leading m.state.settings) :: t.moves, 0, t.clip⟩ }, [])
  | .show shown => m.text.map fun t =>
      let run : Run N V := ⟨t.moves, t.index, shown, m.state.ctm, m.state.settings⟩
      ({ m with text := some ⟨t.moves, t.index + 1, if clipsText m.state.settings then t.clip ++ [run] else t.clip⟩ }, [.text run m.state])
  | .space s n => (spaceNamed e n).map fun v => ({ m with state := m.state.setColor s ⟨v, [], none⟩ }, [])
  | .color s xs p => (patternNamed e p).map fun v => ({ m with state := m.state.setColor s ⟨(m.state.color s).space, xs, v⟩ }, [])
  | .device s n xs => some ({ m with state := m.state.setColor s ⟨e.device n, xs, none⟩ }, [])
  | .shading n => (e.resource b!"Shading" n).map fun v => (m, [.shading v m.state])
  | .object n => (e.object n m.state).map fun es => (m, es)

/-- What is painted. -/
def display (e : Env N V) : Canvas N V → List (Act N V) → Option (List (Element N V))
  | _, [] => some []
  | m, a :: as => (step e m a).bind fun r => (display e r.1 as).map (r.2 ++ ·)

/-- A stream starts with a graphics state, and neither a path nor a text object. -/
def blank (g : GState N V) : Canvas N V := ⟨g, [], [], none, none⟩

/-- The graphics state at the beginning of a page (Table 52): black, with nothing set. -/
def initial (device : Bytes → V) : GState N V := ⟨[], [], ⟨device b!"DeviceGray", [], none⟩, ⟨device b!"DeviceGray", [], none⟩, []⟩

/-- The graphics state at the beginning of a form (8.10.1): with its matrix (if there is one), and restricted to its bounding box. -/
def inside (matrix : Option (List N)) (box : List N) (g : GState N V) : GState N V :=
  { g with ctm := matrix.toList ++ g.ctm, clips := .box box (matrix.toList ++ g.ctm) :: g.clips }

end

/-! ## Operators (Annex A) -/

/-- No operands. -/
def plain (acts : List (Act Val Val)) : List Val → Option (List (Act Val Val))
  | [] => some acts
  | _ => none
/-- So many numbers. -/
def numeric (k : Nat) (make : List Val → List (Act Val Val)) (args : List Val) : Option (List (Act Val Val)) :=
  if args.length = k ∧ args.all isNumber then some (make args) else none
/-- One number. -/
def one (make : Val → List (Act Val Val)) : List Val → Option (List (Act Val Val))
  | [x] => if isNumber x then some (make x) else none
  | _ => none
/-- Two numbers. -/
def two (make : Val → Val → List (Act Val Val)) : List Val → Option (List (Act Val Val))
  | [x, y] => if isNumber x ∧ isNumber y then some (make x y) else none
  | _ => none
/-- Two numbers and a string. -/
def spaced (make : Val → Val → Bytes → List (Act Val Val)) : List Val → Option (List (Act Val Val))
  | [x, y, .str s] => if isNumber x ∧ isNumber y then some (make x y s) else none
  | _ => none
/-- One integer. -/
def integer (make : Int → List (Act Val Val)) : List Val → Option (List (Act Val Val))
  | [.int i] => some (make i)
  | _ => none
/-- One name. -/
def named (make : Bytes → List (Act Val Val)) : List Val → Option (List (Act Val Val))
  | [.name n] => some (make n)
  | _ => none

/-- Operands of `SCN` and `scn`: numbers, and perhaps a name. -/
def colorOperands : List Val → Option (List Val × Option Bytes)
  | [] => some ([], none)
  | [.name n] => some ([], some n)
  | v :: vs => if isNumber v then (colorOperands vs).map fun r => (v :: r.1, r.2) else none

/-- Items of the array given to `TJ`. -/
def textItems : List Val → Option (List (Text Val))
  | [] => some []
  | .str s :: vs => (textItems vs).map (.codes s :: ·)
  | v :: vs => if isNumber v then (textItems vs).map (.adjust v :: ·) else none

/-- The operators and what they ask for, given their operands. -/
def operators : List (Bytes × (List Val → Option (List (Act Val Val)))) := [
  -- Tables 57: graphics state
  (b!"q", plain [.save]),
  (b!"Q", plain [.restore]),
  (b!"cm", numeric 6 fun m => [.transform m]),
  (b!"w", one fun x => [.set .lineWidth (.number x)]),
  (b!"J", integer fun i => [.set .lineCap (.integer i)]),
  (b!"j", integer fun i => [.set .lineJoin (.integer i)]),
  (b!"M", one fun x => [.set .miterLimit (.number x)]),
  (b!"d", fun | [.arr xs, x] => if xs.all isNumber ∧ isNumber x then some [.set .dash (.dash xs x)] else none | _ => none),
  (b!"ri", named fun n => [.set .intent (.name n)]),
  (b!"i", integer fun i => [.set .flatness (.integer i)]),
  (b!"gs", named fun n => [.dictionary n]),
  -- Table 59: path construction
  (b!"m", numeric 2 fun xs => [.segment ⟨.move, xs⟩]),
  (b!"l", numeric 2 fun xs => [.segment ⟨.line, xs⟩]),
  (b!"c", numeric 6 fun xs => [.segment ⟨.curve, xs⟩]),
  (b!"v", numeric 4 fun xs => [.segment ⟨.curveInitial, xs⟩]),
  (b!"y", numeric 4 fun xs => [.segment ⟨.curveFinal, xs⟩]),
  (b!"h", plain [.segment ⟨.close, []⟩]),
  (b!"re", numeric 4 fun xs => [.segment ⟨.rectangle, xs⟩]),
  -- Table 60: path painting
  (b!"S", plain [.paint none true]),
  (b!"s", plain [.segment ⟨.close, []⟩, .paint none true]),
  (b!"f", plain [.paint (some .nonzero) false]),
  (b!"F", plain [.paint (some .nonzero) false]),
  (b!"f*", plain [.paint (some .evenOdd) false]),
  (b!"B", plain [.paint (some .nonzero) true]),
  (b!"B*", plain [.paint (some .evenOdd) true]),
  (b!"b", plain [.segment ⟨.close, []⟩, .paint (some .nonzero) true]),
  (b!"b*", plain [.segment ⟨.close, []⟩, .paint (some .evenOdd) true]),
  (b!"n", plain [.paint none false]),
  -- Table 61: clipping
  (b!"W", plain [.clip .nonzero]),
  (b!"W*", plain [.clip .evenOdd]),
  -- Table 74: color
  (b!"CS", named fun n => [.space true n]),
  (b!"cs", named fun n => [.space false n]),
  (b!"SC", fun args => if args.all isNumber then some [.color true args none] else none),
  (b!"sc", fun args => if args.all isNumber then some [.color false args none] else none),
  (b!"SCN", fun args => (colorOperands args).map fun r => [.color true r.1 r.2]),
  (b!"scn", fun args => (colorOperands args).map fun r => [.color false r.1 r.2]),
  (b!"G", numeric 1 fun xs => [.device true b!"DeviceGray" xs]),
  (b!"g", numeric 1 fun xs => [.device false b!"DeviceGray" xs]),
  (b!"RG", numeric 3 fun xs => [.device true b!"DeviceRGB" xs]),
  (b!"rg", numeric 3 fun xs => [.device false b!"DeviceRGB" xs]),
  (b!"K", numeric 4 fun xs => [.device true b!"DeviceCMYK" xs]),
  (b!"k", numeric 4 fun xs => [.device false b!"DeviceCMYK" xs]),
  -- Tables 77 and 87: shadings and XObjects; inline images (Table 92) are not supported
  (b!"sh", named fun n => [.shading n]),
  (b!"Do", named fun n => [.object n]),
  (b!"BI", fun _ => none),
  -- Table 105: text state
  (b!"Tc", one fun x => [.set .charSpacing (.number x)]),
  (b!"Tw", one fun x => [.set .wordSpacing (.number x)]),
  (b!"Tz", one fun x => [.set .scaling (.number x)]),
  (b!"TL", one fun x => [.set .leading (.number x)]),
  (b!"Tf", fun | [.name n, x] => if isNumber x then some [.font n x] else none | _ => none),
  (b!"Tr", integer fun i => [.set .rendering (.integer i)]),
  (b!"Ts", one fun x => [.set .rise (.number x)]),
  -- Tables 107, 108 and 109: text objects, text positioning, text showing
  (b!"BT", plain [.beginText]),
  (b!"ET", plain [.endText]),
  (b!"Td", two fun x y => [.moveBy x y]),
  (b!"TD", two fun x y => [.set .leading (.negated y), .moveBy x y]),
  (b!"Tm", numeric 6 fun m => [.matrix m]),
  (b!"T*", plain [.nextLine]),
  (b!"Tj", fun | [.str s] => some [.show [.codes s]] | _ => none),
  (b!"'", fun | [.str s] => some [.nextLine, .show [.codes s]] | _ => none),
  (b!"\"", spaced fun w c s => [.set .wordSpacing (.number w), .set .charSpacing (.number c), .nextLine, .show [.codes s]]),
  (b!"TJ", fun | [.arr vs] => (textItems vs).map fun ts => [.show ts] | _ => none)]

/-- What an operator asks for; others paint nothing. -/
def readActs (op : ReadOp) : Option (List (Act Val Val)) :=
  match operators.find? fun o => o.1 == op.1 with
  | some o => o.2 op.2
  | none => some []

/-- What operators ask for. -/
def readAllActs : List ReadOp → Option (List (Act Val Val))
  | [] => some []
  | o :: os => (readActs o).bind fun a => (readAllActs os).map (a ++ ·)

/-! ## The reader -/

/-- The named resource of a category (7.8.3). -/
def namedValue (f : FileEnd) (file : Bytes) (resources : Option Val) (category name : Bytes) : Option Val :=
  resources.bind fun r => (followDict f file r).bind fun d => (lookup category d).bind fun c => (followDict f file c).bind (lookup name)

/-- What painting an XObject paints: an image, or the elements of a form (8.10.1) with its own matrix and bounding box, and its own resources
(or those of the stream that paints it). `forms` bounds how deep forms are nested. -/
def displayObject (unf : Val → Bytes → Option Bytes) (f : FileEnd) (file : Bytes) :
    Nat → Option Val → Bytes → GState Val Val → Option (List (Element Val Val))
  | forms, resources, name, g =>
    (resourceNumber f file resources b!"XObject" name).bind fun n =>
      match f.object file n with
      | some (.stream d _) =>
        match lookup b!"Subtype" d with
        | some (.name t) =>
          if t = b!"Image" then some [.image n g]
          else if t = b!"Form" then
            match forms with
            | 0 => none
            | forms + 1 =>
              (optionalEntry b!"Matrix" d itemsOf).bind fun matrix => ((lookup b!"BBox" d).bind itemsOf).bind fun box =>
                (effectiveResources resources d).bind fun res => (decodedStream unf f file n).bind fun data =>
                  (readContent data).bind fun ops => (readAllActs ops).bind fun acts =>
                    (display ⟨.name, namedValue f file res, displayObject unf f file forms res⟩ (blank (inside matrix box g)) acts).map fun es =>
                      [.enter n g] ++ es ++ [.leave n]
          else none
        | _ => none
      | _ => none
termination_by structural forms => forms

/-- What is painted on a page. -/
def readPageDisplay (unf : Val → Bytes → Option Bytes) (f : FileEnd) (file : Bytes) (forms : Nat) (_ : Nat) (resources : Option Val)
    (d : List (Bytes × Val)) : Option (List (Element Val Val)) :=
  (pageOperations unf f file d).bind fun ops => (readAllActs ops).bind
    (display ⟨.name, namedValue f file resources, displayObject unf f file forms resources⟩ (blank (initial .name)))

/-- What is painted on the pages of a document, page by page. -/
def readDisplay (unf : Val → Bytes → Option Bytes) (f : FileEnd) (file : Bytes) (depth forms : Nat) : Option (List (List (Element Val Val))) :=
  (readCatalog f file).bind fun d => (lookup b!"Pages" d).bind refNumber |>.bind fun p =>
    readPagesWith (readPageDisplay unf f file forms) f file depth none p

/-- What is painted on the pages of a file. -/
def fileDisplay (unf : Val → Bytes → Option Bytes) (file : Bytes) (depth forms : Nat) : Option (List (List (Element Val Val))) :=
  (readFile unf file).bind fun f => readDisplay unf f file depth forms

/-! ## What was asked for -/

/-- Names of the color spaces that can be selected. -/
def spaceName : ColorSpaceOperand → Bytes
  | .deviceGray => b!"DeviceGray"
  | .deviceRgb => b!"DeviceRGB"
  | .deviceCmyk => b!"DeviceCMYK"
  | .pattern => b!"Pattern"
  | .named n => n

/-- What a call on `Content` asks for, from the documentation of the method. -/
def acts : ContentCall → List (Act F32 Prog)
  | .op .. => []
  | .setLineWidth w => [.set .lineWidth (.number w)]
  | .setLineCap .buttCap => [.set .lineCap (.integer 0)]
  | .setLineCap .roundCap => [.set .lineCap (.integer 1)]
  | .setLineCap .projectingSquareCap => [.set .lineCap (.integer 2)]
  | .setLineJoin .miterJoin => [.set .lineJoin (.integer 0)]
  | .setLineJoin .roundJoin => [.set .lineJoin (.integer 1)]
  | .setLineJoin .bevelJoin => [.set .lineJoin (.integer 2)]
  | .setMiterLimit x => [.set .miterLimit (.number x)]
  | .setDashPattern xs x => [.set .dash (.dash xs x)]
  | .setRenderingIntent .absoluteColorimetric => [.set .intent (.name b!"AbsoluteColorimetric")]
  | .setRenderingIntent .relativeColorimetric => [.set .intent (.name b!"RelativeColorimetric")]
  | .setRenderingIntent .saturation => [.set .intent (.name b!"Saturation")]
  | .setRenderingIntent .perceptual => [.set .intent (.name b!"Perceptual")]
  | .setFlatness i => [.set .flatness (.integer i)]
  | .setParameters n => [.dictionary n]
  | .saveState => [.save]
  | .restoreState => [.restore]
  | .transform m0 m1 m2 m3 m4 m5 => [.transform [m0, m1, m2, m3, m4, m5]]
  | .moveTo x y => [.segment ⟨.move, [x, y]⟩]
  | .lineTo x y => [.segment ⟨.line, [x, y]⟩]
  | .cubicTo x1 y1 x2 y2 x3 y3 => [.segment ⟨.curve, [x1, y1, x2, y2, x3, y3]⟩]
  | .cubicToInitial x2 y2 x3 y3 => [.segment ⟨.curveInitial, [x2, y2, x3, y3]⟩]
  | .cubicToFinal x1 y1 x3 y3 => [.segment ⟨.curveFinal, [x1, y1, x3, y3]⟩]
  | .closePath => [.segment ⟨.close, []⟩]
  | .rect x y w h => [.segment ⟨.rectangle, [x, y, w, h]⟩]
  | .stroke => [.paint none true]
  | .closeAndStroke => [.segment ⟨.close, []⟩, .paint none true]
  | .fillNonzero => [.paint (some .nonzero) false]
  | .fillEvenOdd => [.paint (some .evenOdd) false]
  | .fillNonzeroAndStroke => [.paint (some .nonzero) true]
  | .fillEvenOddAndStroke => [.paint (some .evenOdd) true]
  | .closeFillNonzeroAndStroke => [.segment ⟨.close, []⟩, .paint (some .nonzero) true]
  | .closeFillEvenOddAndStroke => [.segment ⟨.close, []⟩, .paint (some .evenOdd) true]
  | .endPath => [.paint none false]
  | .clipNonzero => [.clip .nonzero]
  | .clipEvenOdd => [.clip .evenOdd]
  | .beginText => [.beginText]
  | .endText => [.endText]
  | .setCharSpacing x => [.set .charSpacing (.number x)]
  | .setWordSpacing x => [.set .wordSpacing (.number x)]
  | .setHorizontalScaling x => [.set .scaling (.number x)]
  | .setLeading x => [.set .leading (.number x)]
  | .setFont n x => [.font n x]
  | .setTextRenderingMode .fill => [.set .rendering (.integer 0)]
  | .setTextRenderingMode .stroke => [.set .rendering (.integer 1)]
  | .setTextRenderingMode .fillStroke => [.set .rendering (.integer 2)]
  | .setTextRenderingMode .invisible => [.set .rendering (.integer 3)]
  | .setTextRenderingMode .fillClip => [.set .rendering (.integer 4)]
  | .setTextRenderingMode .strokeClip => [.set .rendering (.integer 5)]
  | .setTextRenderingMode .fillStrokeClip => [.set .rendering (.integer 6)]
  | .setTextRenderingMode .clip => [.set .rendering (.integer 7)]
  | .setRise x => [.set .rise (.number x)]
  | .nextLine x y => [.moveBy x y]
  | .nextLineAndSetLeading x y => [.set .leading (.negated y), .moveBy x y]
  | .setTextMatrix m0 m1 m2 m3 m4 m5 => [.matrix [m0, m1, m2, m3, m4, m5]]
  | .nextLineUsingLeading => [.nextLine]
  | .show s => [.show [.codes s]]
  | .nextLineShow s => [.nextLine, .show [.codes s]]
  | .nextLineShowAndSetWordAndCharSpacing w c s =>
    [.set .wordSpacing (.number w), .set .charSpacing (.number c), .nextLine, .show [.codes s]]
  | .showPositioned its => [.show (its.map fun | .show s => .codes s | .adjust x => .adjust x)]
  | .startColorGlyph _ => []
  | .startShapeGlyph .. => []
  | .setStrokeColorSpace s => [.space true (spaceName s)]
  | .setFillColorSpace s => [.space false (spaceName s)]
  | .setStrokeColor xs => [.color true xs none]
  | .setStrokePattern xs n => [.color true xs (some n)]
  | .setFillColor xs => [.color false xs none]
  | .setFillPattern xs n => [.color false xs (some n)]
  | .setStrokeGray g => [.device true b!"DeviceGray" [g]]
  | .setFillGray g => [.device false b!"DeviceGray" [g]]
  | .setStrokeRgb r g b => [.device true b!"DeviceRGB" [r, g, b]]
  | .setFillRgb r g b => [.device false b!"DeviceRGB" [r, g, b]]
  | .setStrokeCmyk c m y k => [.device true b!"DeviceCMYK" [c, m, y, k]]
  | .setFillCmyk c m y k => [.device false b!"DeviceCMYK" [c, m, y, k]]
  | .shading n => [.shading n]
  | .xObject n => [.object n]
  | .markedContentPoint _ | .markedContentPointWithProperties .. | .beginMarkedContent _ | .beginMarkedContentWithProperties ..
  | .endMarkedContent | .beginCompat | .endCompat => []

/-- Operators given by name to the generic method, other than those of the machine. -/
def Unrelated : ContentCall → Prop
  | .op name _ => name ∉ operators.map Prod.fst
  | _ => True

/-- The methods of `Resources` for categories in which names are looked up. -/
def categoryMethods : List (Bytes × (List (Bytes × Prog) → ResourcesCall)) :=
  [(b!"Font", .fonts), (b!"ExtGState", .extGStates), (b!"ColorSpace", .colorSpaces), (b!"Pattern", .patterns), (b!"Shading", .shadings)]

/-- The name refers to this value among the resources of a category. -/
def ResourceGiven (items : List Item) (res : Option (List ResourcesCall)) (category name : Bytes) (v : Prog) : Prop :=
  ∃ method rc es, (category, method) ∈ categoryMethods ∧ res = some rc ∧ CategorySet items rc category method es ∧
    es.filter (fun e => e.1 == name) = [(name, v)]

/-- What painting the XObject of this name paints, if `below` says what is painted by the calls on the `Content` of a form, given its
resources and the graphics state. -/
def ObjectGiven (unf : Val → Bytes → Option Bytes) (items : List Item) (res : Option (List ResourcesCall))
    (below : Option (List ResourcesCall) → GState F32 Prog → List ContentCall → List (Element F32 Prog) → Prop)
    (name : Bytes) (g : GState F32 Prog) (es : List (Element F32 Prog)) : Prop :=
  (∃ id calls data, XObjectNamed items res name id ∧ HasObject items id (.stream (ImageXObject.entries calls) data) ∧
    NoCall ImageXObjectMeans b!"Subtype" calls ∧ es = [.image id.get.toNat g]) ∨
  ∃ (p : FormPart) (res' : Option (List ResourcesCall)) (matrix : Option (List F32)) (r : Rect) (inner : List (Element F32 Prog)),
    XObjectNamed items res name p.id ∧ p.Written unf items ∧
    ResourcesSet FormXObjectMeans .resources (fun k v => .stream (.raw k v)) items p.calls res res' ∧
    MaybeCall FormXObjectMeans b!"Matrix" p.calls matrix .matrix ∧ OnlyCall FormXObjectMeans b!"BBox" p.calls (.bbox r) ∧
    below res' (inside matrix [r.x1, r.y1, r.x2, r.y2] g) p.content inner ∧
    es = [.enter p.id.get.toNat g] ++ inner ++ [.leave p.id.get.toNat]

/-- `Displays … depth res g calls elements`: with forms nested at most `depth` deep, the calls on the `Content` of a page or a form paint
`elements`, if the resources are `res` and the graphics state is `g` at the beginning: the machine paints them, where names refer to what the
resources say. -/
def Displays (unf : Val → Bytes → Option Bytes) (items : List Item) : Nat → Option (List ResourcesCall) → GState F32 Prog → List ContentCall →
    List (Element F32 Prog) → Prop
  | depth, res, g, calls, elements =>
    ∃ e : Env F32 Prog, (∀ n, e.device n = .prim (.name n)) ∧
      (∀ category n v, e.resource category n = some v → ResourceGiven items res category n v) ∧
      (∀ n g es, e.object n g = some es → ObjectGiven unf items res
        (match depth with | 0 => fun _ _ _ _ => False | depth + 1 => Displays unf items depth) n g es) ∧
      (∀ c ∈ calls, Unrelated c) ∧ display e (blank g) (calls.flatMap acts) = some elements
termination_by structural depth => depth

/-- What is painted on the pages of the tree. -/
def _root_.PdfW.Spec.PageTree.Display (unf : Val → Bytes → Option Bytes) (items : List Item) (forms : Nat) (t : PageTree)
    (pages : List (List (Element F32 Prog))) : Prop :=
  t.Each (fun _ res calls x => Displays unf items forms res (initial fun n => .prim (.name n)) calls x) items none pages

/-! ## What is read is what was asked for

The same elements in the same order with the same graphics states: equal but for numbers and resources, which are related by `R` and `S`. -/

section
variable {N V N' V' : Type} (R : N → N' → Prop) (S : V → V' → Prop)

/-- The same value. -/
inductive SameValue : Value N V → Value N' V' → Prop
  | number {x x'} : R x x' → SameValue (.number x) (.number x')
  | negated {x x'} : R x x' → SameValue (.negated x) (.negated x')
  | integer {i} : SameValue (.integer i) (.integer i)
  | name {n} : SameValue (.name n) (.name n)
  | dash {xs xs' x x'} : Pairwise R xs xs' → R x x' → SameValue (.dash xs x) (.dash xs' x')
  | font {f f' x x'} : S f f' → R x x' → SameValue (.font f x) (.font f' x')
  | dictionary {d d'} : S d d' → SameValue (.dictionary d) (.dictionary d')

/-- The same setting. -/
def SameSetting (s : Setting N V) (t : Setting N' V') : Prop := s.param = t.param ∧ SameValue R S s.value t.value

/-- The same segment. -/
def SameSegment (s : Segment N) (t : Segment N') : Prop := s.kind = t.kind ∧ Pairwise R s.points t.points

/-- The same color. -/
def SameColor (c : Color N V) (d : Color N' V') : Prop :=
  S c.space d.space ∧ Pairwise R c.components d.components ∧ BothOrNone S c.pattern d.pattern

/-- The same move. -/
inductive SameMove : Move N V → Move N' V' → Prop
  | by {x x' y y'} : R x x' → R y y' → SameMove (.by x y) (.by x' y')
  | matrix {m m'} : Pairwise R m m' → SameMove (.matrix m) (.matrix m')
  | next {l l'} : BothOrNone (SameValue R S) l l' → SameMove (.next l) (.next l')

/-- The same text. -/
inductive SameText : Text N → Text N' → Prop
  | codes {s} : SameText (.codes s) (.codes s)
  | adjust {x x'} : R x x' → SameText (.adjust x) (.adjust x')

/-- The same run of text. -/
structure SameRun (r : Run N V) (s : Run N' V') : Prop where
  moves : Pairwise (SameMove R S) r.moves s.moves
  index : r.index = s.index
  shown : Pairwise (SameText R) r.shown s.shown
  ctm : Pairwise (Pairwise R) r.ctm s.ctm
  settings : Pairwise (SameSetting R S) r.settings s.settings

/-- The same restriction. -/
inductive SameClip : Clip N V → Clip N' V' → Prop
  | path {p p' r m m'} : Pairwise (SameSegment R) p p' → Pairwise (Pairwise R) m m' → SameClip (.path p r m) (.path p' r m')
  | box {b b' m m'} : Pairwise R b b' → Pairwise (Pairwise R) m m' → SameClip (.box b m) (.box b' m')
  | text {rs rs'} : Pairwise (SameRun R S) rs rs' → SameClip (.text rs) (.text rs')

/-- The same graphics state. -/
structure SameState (g : GState N V) (h : GState N' V') : Prop where
  ctm : Pairwise (Pairwise R) g.ctm h.ctm
  clips : Pairwise (SameClip R S) g.clips h.clips
  stroking : SameColor R S g.stroking h.stroking
  filling : SameColor R S g.filling h.filling
  settings : Pairwise (SameSetting R S) g.settings h.settings

/-- The same element. -/
inductive SameElement : Element N V → Element N' V' → Prop
  | path {p p' f s g g'} : Pairwise (SameSegment R) p p' → SameState R S g g' → SameElement (.path p f s g) (.path p' f s g')
  | text {r r' g g'} : SameRun R S r r' → SameState R S g g' → SameElement (.text r g) (.text r' g')
  | shading {v v' g g'} : S v v' → SameState R S g g' → SameElement (.shading v g) (.shading v' g')
  | image {n g g'} : SameState R S g g' → SameElement (.image n g) (.image n g')
  | enter {n g g'} : SameState R S g g' → SameElement (.enter n g) (.enter n g')
  | leave {n} : SameElement (.leave n) (.leave n)

end

end PdfW.Spec.Imaging
