import Verif.Spec.Attach
import Verif.Spec.Fields
import Verif.Spec.Interpret

/-!
# Images and where they are painted (ISO 32000-1, 8.3.4, 8.4.2, 8.9.5, 8.10.1 and 11.6.5.3)

A reader that is given only the bytes of a file and obtains for every page the images painted on it, directly or in form XObjects, in order:
their size, color space, samples and masks, and the transformations under which each is painted. It knows nothing about the writer.
-/

namespace PdfW.Spec
open PdfW

/-! ## The reader -/

/-- A boolean. -/
def truthOf : Val → Option Bool
  | .bool b => some b
  | _ => none

/-- The items of an array. -/
def itemsOf : Val → Option (List Val)
  | .arr vs => some vs
  | _ => none

/-- Integers. -/
def integers : List Val → Option (List Int)
  | [] => some []
  | v :: vs => (intOf v).bind fun n => (integers vs).map (n :: ·)

/-- Samples of an image (Table 89): width and height, bits per component, color space, whether it is a stencil mask, how to map samples,
and the data after undoing filters. -/
structure Raster where
  width : Int
  height : Int
  bits : Option Int
  space : Option Val
  stencil : Option Bool
  decode : Option (List Val)
  data : Bytes

/-- The image with this number. -/
def readRaster (unf : Val → Bytes → Option Bytes) (f : FileEnd) (file : Bytes) (n : Nat) : Option Raster :=
  match f.object file n with
  | some (.stream d _) =>
    if (lookup b!"Subtype" d).bind nameOf = some b!"Image" then
      ((lookup b!"Width" d).bind intOf).bind fun width => ((lookup b!"Height" d).bind intOf).bind fun height =>
        (optionalEntry b!"BitsPerComponent" d intOf).bind fun bits => (optionalEntry b!"ColorSpace" d some).bind fun space =>
          (optionalEntry b!"ImageMask" d truthOf).bind fun stencil => (optionalEntry b!"Decode" d itemsOf).bind fun decode =>
            (decodedStream unf f file n).map fun data => ⟨width, height, bits, space, stencil, decode, data⟩
    else none
  | _ => none

/-- What hides parts of an image (8.9.6): ranges of colors, or another image. -/
inductive ReadMask where
  | colors (ranges : List Int)
  | stencil (mask : Raster)

/-- An image, its mask and its soft mask (11.6.5.3). -/
structure ReadImage where
  number : Nat
  raster : Raster
  mask : Option ReadMask
  soft : Option Raster

/-- The value of `Mask` (Table 89). -/
def readMask (unf : Val → Bytes → Option Bytes) (f : FileEnd) (file : Bytes) : Val → Option ReadMask
  | .arr vs => (integers vs).map .colors
  | .ref n _ => (readRaster unf f file n).map .stencil
  | _ => none

/-- The image with this number, and its masks. -/
def readImage (unf : Val → Bytes → Option Bytes) (f : FileEnd) (file : Bytes) (n : Nat) : Option ReadImage :=
  match f.object file n with
  | some (.stream d _) =>
    (readRaster unf f file n).bind fun raster => (optionalEntry b!"Mask" d (readMask unf f file)).bind fun mask =>
      (optionalEntry b!"SMask" d (fun v => (refNumber v).bind (readRaster unf f file))).map fun soft => ⟨n, raster, mask, soft⟩
  | _ => none

/-- An image that is painted: the transformations in effect, the innermost (the first to be applied to the unit square) first. -/
abbrev ReadPlaced := List (List Val) × ReadImage

/-- Follow the operators that matter, given what painting an XObject under transformations paints, the transformations in effect and those
saved. -/
def paintOps (xobject : Bytes → List (List Val) → Option (List ReadPlaced)) :
    List (List Val) → List (List (List Val)) → List ReadOp → Option (List ReadPlaced)
  | _, _, [] => some []
  | ctm, saved, (k, args) :: ops =>
    if k = b!"cm" then paintOps xobject (args :: ctm) saved ops
    else if k = b!"q" then paintOps xobject ctm (ctm :: saved) ops
    else if k = b!"Q" then
      match saved with
      | [] => paintOps xobject ctm [] ops
      | c :: saved => paintOps xobject c saved ops
    else if k = b!"Do" then
      match args with
      | [.name n] => (xobject n ctm).bind fun a => (paintOps xobject ctm saved ops).map (a ++ ·)
      | _ => none
    else paintOps xobject ctm saved ops

/-- What painting an XObject paints. A form (8.10.1) has its own matrix (if none is given, the identity) and its own resources (or those of
the stream that paints it). `forms` bounds how deep forms are nested. -/
def paintXObject (unf : Val → Bytes → Option Bytes) (f : FileEnd) (file : Bytes) :
    Nat → Option Val → Bytes → List (List Val) → Option (List ReadPlaced)
  | forms, resources, name, ctm =>
    (resourceNumber f file resources b!"XObject" name).bind fun n =>
      match f.object file n with
      | some (.stream d _) =>
        match lookup b!"Subtype" d with
        | some (.name t) =>
          if t = b!"Image" then (readImage unf f file n).map fun i => [(ctm, i)]
          else if t = b!"Form" then
            match forms with
            | 0 => none
            | forms + 1 =>
              (optionalEntry b!"Matrix" d itemsOf).bind fun matrix => (effectiveResources resources d).bind fun res =>
                (decodedStream unf f file n).bind fun data => (readContent data).bind fun ops =>
                  paintOps (paintXObject unf f file forms res) (matrix.toList ++ ctm) [] ops
          else none
        | _ => none
      | _ => none
termination_by structural forms => forms

/-- The images painted on a page. -/
def readPageImages (unf : Val → Bytes → Option Bytes) (f : FileEnd) (file : Bytes) (forms : Nat) (_ : Nat) (resources : Option Val)
    (d : List (Bytes × Val)) : Option (List ReadPlaced) :=
  (pageOperations unf f file d).bind (paintOps (paintXObject unf f file forms resources) [] [])

/-- The images painted on the pages of a document, page by page. -/
def readImages (unf : Val → Bytes → Option Bytes) (f : FileEnd) (file : Bytes) (depth forms : Nat) : Option (List (List ReadPlaced)) :=
  (readCatalog f file).bind fun d => (lookup b!"Pages" d).bind refNumber |>.bind fun p =>
    readPagesWith (readPageImages unf f file forms) f file depth none p

/-- The images painted on the pages of a file. -/
def fileImages (unf : Val → Bytes → Option Bytes) (file : Bytes) (depth forms : Nat) : Option (List (List ReadPlaced)) :=
  (readFile unf file).bind fun f => readImages unf f file depth forms

/-! ## What was asked for -/

/-- Samples of an image as given to the API: the calls on the writer, the data given to it, and what these calls and data stand for. -/
structure RasterPart where
  id : Ref
  calls : List ImageXObjectCall
  stored : Bytes
  width : Int
  height : Int
  bits : Option Int
  space : Option Prog
  stencil : Option Bool
  decode : Option (List F32)
  data : Bytes

/-- The image was written and this is what was asked for. -/
structure RasterPart.Written (unf : Val → Bytes → Option Bytes) (items : List Item) (p : RasterPart) : Prop where
  object : HasObject items p.id (.stream (ImageXObject.entries p.calls) p.stored)
  subtype : NoCall ImageXObjectMeans b!"Subtype" p.calls
  width : OnlyCall ImageXObjectMeans b!"Width" p.calls (.width p.width)
  height : OnlyCall ImageXObjectMeans b!"Height" p.calls (.height p.height)
  bits : MaybeCall ImageXObjectMeans b!"BitsPerComponent" p.calls p.bits .bitsPerComponent
  space : MaybeCall ImageXObjectMeans b!"ColorSpace" p.calls p.space .colorSpace ∨
    ∃ n, p.space = some (.prim (.name n)) ∧ OnlyCall ImageXObjectMeans b!"ColorSpace" p.calls (.colorSpaceName n)
  stencil : MaybeCall ImageXObjectMeans b!"ImageMask" p.calls p.stencil .imageMask
  decode : MaybeCall ImageXObjectMeans b!"Decode" p.calls p.decode .decode
  data : (NoCall ImageXObjectMeans b!"Filter" p.calls ∧ p.stored = p.data) ∨
    ∃ flt, OnlyCall ImageXObjectMeans b!"Filter" p.calls (.stream (.filter flt)) ∧ unf (.name (isoFilter flt)) p.stored = some p.data

/-- What hides parts of an image. -/
inductive MaskPart where
  | none
  | colors (ranges : List Int)
  | stencil (mask : RasterPart)

/-- An image as given to the API. -/
structure ImagePart where
  raster : RasterPart
  mask : MaskPart
  soft : Option RasterPart

/-- The mask is the one set. -/
def MaskSet (unf : Val → Bytes → Option Bytes) (items : List Item) (calls : List ImageXObjectCall) : MaskPart → Prop
  | .none => NoCall ImageXObjectMeans b!"Mask" calls
  | .colors ranges => OnlyCall ImageXObjectMeans b!"Mask" calls (.colorMask ranges)
  | .stencil m => OnlyCall ImageXObjectMeans b!"Mask" calls (.stencilMask m.id) ∧ m.Written unf items

/-- The image was written, with its masks. -/
structure ImagePart.Written (unf : Val → Bytes → Option Bytes) (items : List Item) (p : ImagePart) : Prop where
  raster : p.raster.Written unf items
  mask : MaskSet unf items p.raster.calls p.mask
  soft : MaybeCall ImageXObjectMeans b!"SMask" p.raster.calls (p.soft.map RasterPart.id) .sMask
  softWritten : ∀ m, p.soft = some m → m.Written unf items

/-- An image that is painted, and the transformations given, the innermost first. -/
abbrev Placed := List (List F32) × ImagePart

/-- Calls that neither paint XObjects nor influence how they are transformed. -/
def Steady : ContentCall → Prop
  | .transform .. | .saveState | .restoreState | .xObject _ => False
  | .op name _ => name ∉ [b!"cm", b!"q", b!"Q", b!"Do"]
  | _ => True

/-- `Paints … depth res ctm saved calls images`: with forms nested at most `depth` deep, the calls on the `Content` of a page or of a form
paint `images`, if the resources are `res`, `ctm` are the transformations in effect and `saved` the saved ones. -/
inductive Paints (unf : Val → Bytes → Option Bytes) (items : List Item) :
    Nat → Option (List ResourcesCall) → List (List F32) → List (List (List F32)) → List ContentCall → List Placed → Prop
  | done {depth res ctm saved} : Paints unf items depth res ctm saved [] []
  | steady {depth res ctm saved c cs t} : Steady c → Paints unf items depth res ctm saved cs t →
      Paints unf items depth res ctm saved (c :: cs) t
  | transform {depth res ctm saved m0 m1 m2 m3 m4 m5 cs t} : Paints unf items depth res ([m0, m1, m2, m3, m4, m5] :: ctm) saved cs t →
      Paints unf items depth res ctm saved (.transform m0 m1 m2 m3 m4 m5 :: cs) t
  | save {depth res ctm saved cs t} : Paints unf items depth res ctm (ctm :: saved) cs t →
      Paints unf items depth res ctm saved (.saveState :: cs) t
  | restore {depth res ctm c saved cs t} : Paints unf items depth res c saved cs t →
      Paints unf items depth res ctm (c :: saved) (.restoreState :: cs) t
  | restoreNone {depth res ctm cs t} : Paints unf items depth res ctm [] cs t →
      Paints unf items depth res ctm [] (.restoreState :: cs) t
  | image {depth res ctm saved n cs t} (p : ImagePart) : XObjectNamed items res n p.raster.id → p.Written unf items →
      Paints unf items depth res ctm saved cs t → Paints unf items depth res ctm saved (.xObject n :: cs) ((ctm, p) :: t)
  | form {depth res ctm saved n cs a t} (p : FormPart) (res' : Option (List ResourcesCall)) (matrix : Option (List F32)) :
      XObjectNamed items res n p.id → p.Written unf items →
      ResourcesSet FormXObjectMeans .resources (fun k v => .stream (.raw k v)) items p.calls res res' →
      MaybeCall FormXObjectMeans b!"Matrix" p.calls matrix .matrix →
      Paints unf items depth res' (matrix.toList ++ ctm) [] p.content a → Paints unf items (depth + 1) res ctm saved cs t →
      Paints unf items (depth + 1) res ctm saved (.xObject n :: cs) (a ++ t)

/-- The images painted on the pages of the tree. -/
def PageTree.Paint (unf : Val → Bytes → Option Bytes) (items : List Item) (forms : Nat) (t : PageTree) (images : List (List Placed)) : Prop :=
  t.Each (fun _ res calls x => Paints unf items forms res [] [] calls x) items none images

/-! ## What is read is what was asked for -/

/-- The samples read are those given. -/
structure RasterPart.Means (p : RasterPart) (r : Raster) : Prop where
  width : r.width = p.width
  height : r.height = p.height
  bits : r.bits = p.bits
  space : BothOrNone Denotes p.space r.space
  stencil : r.stencil = p.stencil
  decode : BothOrNone (Pairwise NumIs) p.decode r.decode
  data : r.data = p.data

/-- The mask read is the one given. -/
def MaskPart.Means : MaskPart → Option ReadMask → Prop
  | .none, r => r = .none
  | .colors ranges, r => r = some (.colors ranges)
  | .stencil m, r => ∃ x, r = some (.stencil x) ∧ m.Means x

/-- The image read is the one given, under the transformations given. -/
def Placed.Means (p : Placed) (r : ReadPlaced) : Prop :=
  Pairwise (Pairwise NumIs) p.1 r.1 ∧ r.2.number = p.2.raster.id.get.toNat ∧ p.2.raster.Means r.2.raster ∧ p.2.mask.Means r.2.mask ∧
  BothOrNone RasterPart.Means p.2.soft r.2.soft

end PdfW.Spec
