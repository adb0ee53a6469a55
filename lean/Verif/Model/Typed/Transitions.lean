-- Generated by tools/typed.py from /repo/src; do not edit.
import Verif.Model.Typed.Enums

/-! # Typed writers: `Transition` -/

namespace PdfW

/-- Calls of public methods of `Transition` (transitions.rs:10-14). -/
inductive TransitionCall where
  /-- transitions.rs:18-21 -/
  | style (kind : TransitionStyle)
  /-- transitions.rs:24-27 -/
  | duration (seconds : F32)
  /-- transitions.rs:31-35 -/
  | dimension (vertical : Bool)
  /-- transitions.rs:39-43 -/
  | direction (outward : Bool)
  /-- transitions.rs:46-49 -/
  | angle (angle' : TransitionAngle)
  /-- transitions.rs:53-56 -/
  | scale (scale' : F32)
  /-- transitions.rs:59-62 -/
  | «opaque» («opaque'» : F32)
  /-- transitions.rs:65 -/
  | raw (key : Bytes) (value : Prog)

/-- The entries each method inserts. -/
def TransitionCall.entries : TransitionCall → List (Bytes × Prog)
  | .style kind => [(b!"S", pName kind.toName)]
  | .duration seconds => [(b!"D", pReal seconds)]
  | .dimension vertical => [(b!"Dm", pName (if vertical then b!"V" else b!"H"))]
  | .direction outward => [(b!"M", pName (if outward then b!"O" else b!"I"))]
  | .angle angle' => [(b!"Di", angle'.prog)]
  | .scale scale' => [(b!"SS", pReal scale')]
  | .«opaque» «opaque'» => [(b!"F", pReal «opaque'»)]
  | .raw key value => [(key, value)]

/-- All entries of the object: those of the constructor (transitions.rs:10-14), then those of the calls. -/
def Transition.entries (calls : List TransitionCall) : List (Bytes × Prog) := [(b!"Type", pName b!"Trans")] ++ calls.flatMap TransitionCall.entries

/-- The object written. -/
def Transition.prog (calls : List TransitionCall) : Prog := .dict (Transition.entries calls)

end PdfW
