-- Generated by tools/typed.py from /repo/src; do not edit.
import Verif.Model.Typed.Resources
import Verif.Spec.Typed.Enums

/-! # Meaning of the calls of `Resources`, `SoftMask`, `ExtGraphicsState`

Keys from the documentation of each method, value types from the parameter types and ISO 32000. -/

namespace PdfW.Spec
open PdfW

/-- The entries a call of `Resources` stands for: key and meaning of the value. -/
def ResourcesMeans : ResourcesCall → List (Bytes × (Val → Prop))
  | .xObjects x => [(b!"XObject", DictIs (x.map fun e => (e.1, Denotes e.2)))]
  | .fonts x => [(b!"Font", DictIs (x.map fun e => (e.1, Denotes e.2)))]
  | .colorSpaces x => [(b!"ColorSpace", DictIs (x.map fun e => (e.1, Denotes e.2)))]
  | .patterns x => [(b!"Pattern", DictIs (x.map fun e => (e.1, Denotes e.2)))]
  | .shadings x => [(b!"Shading", DictIs (x.map fun e => (e.1, Denotes e.2)))]
  | .extGStates x => [(b!"ExtGState", DictIs (x.map fun e => (e.1, Denotes e.2)))]
  | .procSets sets => [(b!"ProcSet", ArrayIs (sets.map fun x => IsName (isoProcSet x)))]
  | .procSetsAll => [(b!"ProcSet", ArrayIs [IsName b!"PDF", IsName b!"Text", IsName b!"ImageB", IsName b!"ImageC", IsName b!"ImageI"])]
  | .properties es => [(b!"Properties", DictIs (es.map fun e => (e.1, Denotes (.dict (e.2.map propEntry)))))]
  | .raw key value => [(key, Denotes value)]

def ResourcesEntries (calls : List ResourcesCall) : List (Bytes × (Val → Prop)) := calls.flatMap ResourcesMeans

def IsResources (calls : List ResourcesCall) : Val → Prop := DictIs (ResourcesEntries calls)

/-- The entries a call of `SoftMask` stands for: key and meaning of the value. -/
def SoftMaskMeans : SoftMaskCall → List (Bytes × (Val → Prop))
  | .subtype subtype' => [(b!"S", IsName (isoMaskType subtype'))]
  | .group group' => [(b!"G", IsRef group')]
  | .backdrop color => [(b!"BC", ArrayIs (color.map fun x => NumIs x))]
  | .transferFunction function => [(b!"TR", IsRef function)]
  | .raw key value => [(key, Denotes value)]

def SoftMaskEntries (calls : List SoftMaskCall) : List (Bytes × (Val → Prop)) := [(b!"Type", IsName b!"Mask")] ++ calls.flatMap SoftMaskMeans

def IsSoftMask (calls : List SoftMaskCall) : Val → Prop := DictIs (SoftMaskEntries calls)

/-- The entries a call of `ExtGraphicsState` stands for: key and meaning of the value. -/
def ExtGraphicsStateMeans (rd : Reading) : ExtGraphicsStateCall → List (Bytes × (Val → Prop))
  | .lineWidth width => [(b!"LW", NumIs width)]
  | .lineCap cap => [(b!"LC", IsInt (isoLineCapStyle cap))]
  | .lineJoin join => [(b!"LJ", IsInt (isoLineJoinStyle join))]
  | .miterLimit limit => [(b!"ML", NumIs limit)]
  | .dashPattern pattern phase => [(b!"D", ArrayIs [ArrayIs (pattern.map fun x => NumIs x), NumIs phase])]
  | .renderingIntent intent => [(b!"RI", IsName (isoRenderingIntent intent))]
  | .overprint overprint' => [(b!"OP", IsBool overprint')]
  | .overprintFill overprint' => [(b!"op", IsBool overprint')]
  | .overprintMode mode => [(b!"OPM", IsInt (isoOverprintMode mode))]
  | .font font' size => rd.pick [(b!"Font", ArrayIs [fun v => ∃ n g, v = .ref n g, NumIs size])] [(b!"Font", ArrayIs [IsName font', NumIs size])]
  | .blackGeneration func => [(b!"BG", IsRef func)]
  | .blackGenerationDefault => [(b!"BG2", IsName b!"Default")]
  | .undercolorRemoval func => [(b!"UCR", IsRef func)]
  | .undercolorRemovalDefault => [(b!"UCR2", IsName b!"Default")]
  | .transfer func => [(b!"TR", IsRef func)]
  | .transferDefault => [(b!"TR2", IsName b!"Default")]
  | .halftone ht => [(b!"HT", IsRef ht)]
  | .halftoneDefault => [(b!"HT", IsName b!"Default")]
  | .flatness tolerance => [(b!"FL", NumIs tolerance)]
  | .smoothness tolerance => [(b!"SM", NumIs tolerance)]
  | .strokeAdjustment adjust => [(b!"SA", IsBool adjust)]
  | .blendMode mode => [(b!"BM", IsName (isoBlendMode mode))]
  | .softMask calls => [(b!"SMask", IsSoftMask calls)]
  | .softMaskName mask => [(b!"SMask", IsName mask)]
  | .strokingAlpha alpha => [(b!"CA", NumIs alpha)]
  | .nonStrokingAlpha alpha => [(b!"ca", NumIs alpha)]
  | .alphaSource source => [(b!"AIS", IsBool source)]
  | .textKnockout knockout => [(b!"TK", IsBool knockout)]
  | .raw key value => [(key, Denotes value)]

def ExtGraphicsStateEntries (rd : Reading) (calls : List ExtGraphicsStateCall) : List (Bytes × (Val → Prop)) := [(b!"Type", IsName b!"ExtGState")] ++ calls.flatMap (ExtGraphicsStateMeans rd)

def IsExtGraphicsState (rd : Reading) (calls : List ExtGraphicsStateCall) : Val → Prop := DictIs (ExtGraphicsStateEntries rd calls)

/-- Calls whose behaviour is as documented (see `Props/Typed/Defects.lean` for the others). -/
def _root_.PdfW.ExtGraphicsStateCall.conforming : ExtGraphicsStateCall → Bool
  | .font _ _ => false
  | _ => true

end PdfW.Spec
