-- Generated by tools/typed.py from /repo/src; do not edit.
import Verif.Model.Typed.Enums

/-! # Typed writers: `Destination` -/

namespace PdfW

/-- Calls of public methods of `Destination` (structure.rs:2284-2284). -/
inductive DestinationCall where
  /-- structure.rs:2288-2291 -/
  | page (page' : Ref)
  /-- structure.rs:2294-2299 -/
  | xyz (left : F32) (top : F32) (zoom : Option F32)
  /-- structure.rs:2303-2305 -/
  | fit
  /-- structure.rs:2309-2312 -/
  | fitHorizontal (top : F32)
  /-- structure.rs:2316-2319 -/
  | fitVertical (left : F32)
  /-- structure.rs:2323-2326 -/
  | fitRect (rect : Rect)
  /-- structure.rs:2330-2332 -/
  | fitBoundingBox
  /-- structure.rs:2336-2339 -/
  | fitBoundingBoxHorizontal (top : F32)
  /-- structure.rs:2343-2346 -/
  | fitBoundingBoxVertical (left : F32)
  /-- structure.rs:2349 -/
  | raw (value : Prog)

/-- The items each method inserts. -/
def DestinationCall.items : DestinationCall → List Prog
  | .page page' => [pRef page']
  | .xyz left top zoom => [pName b!"XYZ", pReal left, pReal top, pReal (zoom.getD F32.zero)]
  | .fit => [pName b!"Fit"]
  | .fitHorizontal top => [pName b!"FitH", pReal top]
  | .fitVertical left => [pName b!"FitV", pReal left]
  | .fitRect rect => [pName b!"FitR", pReal rect.x1, pReal rect.y1, pReal rect.x2, pReal rect.y2]
  | .fitBoundingBox => [pName b!"FitB"]
  | .fitBoundingBoxHorizontal top => [pName b!"FitBH", pReal top]
  | .fitBoundingBoxVertical left => [pName b!"FitBV", pReal left]
  | .raw value => [value]

/-- All items of the object: those of the constructor (structure.rs:2284-2284), then those of the calls. -/
def Destination.items (calls : List DestinationCall) : List Prog := calls.flatMap DestinationCall.items

/-- The object written. -/
def Destination.prog (calls : List DestinationCall) : Prog := .array (Destination.items calls)

end PdfW
