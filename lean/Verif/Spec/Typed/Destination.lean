-- Generated by tools/typed.py from /repo/src; do not edit.
import Verif.Model.Typed.Destination
import Verif.Spec.Typed.Enums

/-! # Meaning of the calls of `Destination`

Keys from the documentation of each method, value types from the parameter types and ISO 32000. -/

namespace PdfW.Spec
open PdfW

/-- The items a call of `Destination` stands for. -/
def DestinationMeans : DestinationCall → List (Val → Prop)
  | .page page' => [IsRef page']
  | .xyz left top zoom => [IsName b!"XYZ", NumIs left, NumIs top, IsZoom zoom]
  | .fit => [IsName b!"Fit"]
  | .fitHorizontal top => [IsName b!"FitH", NumIs top]
  | .fitVertical left => [IsName b!"FitV", NumIs left]
  | .fitRect rect => [IsName b!"FitR", NumIs rect.x1, NumIs rect.y1, NumIs rect.x2, NumIs rect.y2]
  | .fitBoundingBox => [IsName b!"FitB"]
  | .fitBoundingBoxHorizontal top => [IsName b!"FitBH", NumIs top]
  | .fitBoundingBoxVertical left => [IsName b!"FitBV", NumIs left]
  | .raw value => [Denotes value]

def DestinationItems (calls : List DestinationCall) : List (Val → Prop) := calls.flatMap DestinationMeans

def IsDestination (calls : List DestinationCall) : Val → Prop := ArrayIs (DestinationItems calls)

end PdfW.Spec
