-- Generated by tools/typed.py from /repo/src; do not edit.
import Verif.Model.Typed.Object
import Verif.Spec.Typed.Enums

/-! # Meaning of the calls of `DecodeParms`, `Stream`, `NameTree`, `NumberTree`

Keys from the documentation of each method, value types from the parameter types and ISO 32000. -/

namespace PdfW.Spec
open PdfW

/-- The entries a call of `DecodeParms` stands for: key and meaning of the value. -/
def DecodeParmsMeans : DecodeParmsCall → List (Bytes × (Val → Prop))
  | .predictor predictor' => [(b!"Predictor", IsInt (isoPredictor predictor'))]
  | .colors colors' => [(b!"Colors", IsInt colors')]
  | .bitsPerComponent bits => [(b!"BitsPerComponent", IsInt bits)]
  | .columns columns' => [(b!"Columns", IsInt columns')]
  | .earlyChange earlyChange' => [(b!"EarlyChange", IsInt (if earlyChange' then 1 else 0))]
  | .k k' => [(b!"K", IsInt k')]
  | .endOfLine eol => [(b!"EndOfLine", IsBool eol)]
  | .encodedByteAlign encodedByteAlign' => [(b!"EncodedByteAlign", IsBool encodedByteAlign')]
  | .rows rows' => [(b!"Rows", IsInt rows')]
  | .endOfBlock endOfBlock' => [(b!"EndOfBlock", IsBool endOfBlock')]
  | .blackIs1 blackIs1' => [(b!"BlackIs1", IsBool blackIs1')]
  | .damagedRowsBeforeError count => [(b!"DamagedRowsBeforeError", IsInt count)]
  | .jbig2Globals globals => [(b!"JBIG2Globals", IsRef globals)]
  | .colorTransform colorTransform' => [(b!"ColorTransform", IsInt (if colorTransform' then 1 else 0))]
  | .cryptType => [(b!"Type", IsName b!"CryptFilterDecodeParms")]
  | .name name' => [(b!"Name", IsName name')]
  | .raw key value => [(key, Denotes value)]

def DecodeParmsEntries (calls : List DecodeParmsCall) : List (Bytes × (Val → Prop)) := calls.flatMap DecodeParmsMeans

def IsDecodeParms (calls : List DecodeParmsCall) : Val → Prop := DictIs (DecodeParmsEntries calls)

/-- The entries a call of `Stream` stands for: key and meaning of the value. -/
def StreamMeans : StreamCall → List (Bytes × (Val → Prop))
  | .filter filter' => [(b!"Filter", IsName (isoFilter filter'))]
  | .decodeParms calls => [(b!"DecodeParms", IsDecodeParms calls)]
  | .raw key value => [(key, Denotes value)]

def StreamEntries (calls : List StreamCall) : List (Bytes × (Val → Prop)) := calls.flatMap StreamMeans

/-- The entries a call of `NameTree` stands for: key and meaning of the value. -/
def NameTreeMeans (rd : Reading) : NameTreeCall → List (Bytes × (Val → Prop))
  | .kids x => [(b!"Kids", ArrayIs (x.map fun x => IsRef x))]
  | .names entries => [(b!"Names", ArrayIs (entries.flatMap fun e => [IsStr e.1, PrimDenotes e.2]))]
  | .limits min max => rd.pick [(b!"Limits", ArrayIs [IsStr min, IsStr max])] [(b!"Limits", ArrayIs [IsName min, IsName max])]

def NameTreeEntries (rd : Reading) (calls : List NameTreeCall) : List (Bytes × (Val → Prop)) := calls.flatMap (NameTreeMeans rd)

def IsNameTree (rd : Reading) (calls : List NameTreeCall) : Val → Prop := DictIs (NameTreeEntries rd calls)

/-- Calls whose behaviour is as documented (see `Props/Typed/Defects.lean` for the others). -/
def _root_.PdfW.NameTreeCall.conforming : NameTreeCall → Bool
  | .limits _ _ => false
  | _ => true

/-- The entries a call of `NumberTree` stands for: key and meaning of the value. -/
def NumberTreeMeans : NumberTreeCall → List (Bytes × (Val → Prop))
  | .kids x => [(b!"Kids", ArrayIs (x.map fun x => IsRef x))]
  | .nums entries => [(b!"Nums", ArrayIs (entries.flatMap fun e => [IsInt e.1, PrimDenotes e.2]))]
  | .limits min max => [(b!"Limits", ArrayIs [IsInt min, IsInt max])]

def NumberTreeEntries (calls : List NumberTreeCall) : List (Bytes × (Val → Prop)) := calls.flatMap NumberTreeMeans

def IsNumberTree (calls : List NumberTreeCall) : Val → Prop := DictIs (NumberTreeEntries calls)

end PdfW.Spec
