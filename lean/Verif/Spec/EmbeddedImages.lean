import Verif.Spec.Embedded
import Verif.Spec.Images

/-!
# Images under other object numbers
-/

namespace PdfW.Spec
open PdfW

/-- Samples: the color space and the decode array may refer to objects. -/
def renameRaster (g : Nat → Nat) (r : Raster) : Raster :=
  { r with space := r.space.map (renameVal g), decode := r.decode.map (renameVals g) }

def renameMask (g : Nat → Nat) : ReadMask → ReadMask
  | .colors ranges => .colors ranges
  | .stencil m => .stencil (renameRaster g m)

/-- An image: its own number, and the numbers in its samples and masks. -/
def renameImage (g : Nat → Nat) (i : ReadImage) : ReadImage :=
  ⟨g i.number, renameRaster g i.raster, i.mask.map (renameMask g), i.soft.map (renameRaster g)⟩

/-- A number; anything else is not looked at. -/
def numeral : Val → Val
  | .int n => .int n
  | .real m s => .real m s
  | _ => .null

/-- The numbers of the transformations, and the image. -/
def placedNumbers (x : ReadPlaced) : ReadPlaced := (x.1.map (List.map numeral), x.2)

/-- An image that is painted: the transformations stay. -/
def renamePlaced (g : Nat → Nat) (x : ReadPlaced) : ReadPlaced := (x.1, renameImage g x.2)

/-- The images painted on a page, with the numbers of the transformations in effect. -/
def pageImages (unf : Val → Bytes → Option Bytes) (f : FileEnd) (file : Bytes) (forms n : Nat) (resources : Option Val) (d : List (Bytes × Val)) :
    Option (List ReadPlaced) :=
  (readPageImages unf f file forms n resources d).map (List.map placedNumbers)

end PdfW.Spec
