-- Generated by tools/typed.py from /repo/src; do not edit.
import Verif.Model.Typed.Transitions
import Verif.Spec.Typed.Enums

/-! # Meaning of the calls of `Transition`

Keys from the documentation of each method, value types from the parameter types and ISO 32000. -/

namespace PdfW.Spec
open PdfW

/-- The entries a call of `Transition` stands for: key and meaning of the value. -/
def TransitionMeans (rd : Reading) : TransitionCall → List (Bytes × (Val → Prop))
  | .style kind => [(b!"S", IsName (isoTransitionStyle kind))]
  | .duration seconds => [(b!"D", NumIs seconds)]
  | .dimension vertical => [(b!"Dm", IsName (if vertical then b!"V" else b!"H"))]
  | .direction outward => [(b!"M", IsName (if outward then b!"O" else b!"I"))]
  | .angle angle' => [(b!"Di", IsAngle angle')]
  | .scale scale' => [(b!"SS", NumIs scale')]
  | .«opaque» «opaque'» => rd.pick [(b!"B", fun v => ∃ x, v = .bool x)] [(b!"F", NumIs «opaque'»)]
  | .raw key value => [(key, Denotes value)]

def TransitionEntries (rd : Reading) (calls : List TransitionCall) : List (Bytes × (Val → Prop)) := [(b!"Type", IsName b!"Trans")] ++ calls.flatMap (TransitionMeans rd)

def IsTransition (rd : Reading) (calls : List TransitionCall) : Val → Prop := DictIs (TransitionEntries rd calls)

/-- Calls whose behaviour is as documented (see `Props/Typed/Defects.lean` for the others). -/
def _root_.PdfW.TransitionCall.conforming : TransitionCall → Bool
  | .«opaque» _ => false
  | _ => true

end PdfW.Spec
