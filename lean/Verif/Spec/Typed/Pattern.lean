-- Generated by tools/typed.py from /repo/src; do not edit.
import Verif.Model.Typed.Pattern
import Verif.Spec.Typed.Object
import Verif.Spec.Typed.Resources

/-! # Meaning of the calls of `IccProfile`, `TilingPattern`, `FunctionShading`, `ShadingPattern`, `StreamShading`, `SeparationInfo`, `OutputIntent`

Keys from the documentation of each method, value types from the parameter types and ISO 32000. -/

namespace PdfW.Spec
open PdfW

/-- The entries a call of `IccProfile` stands for: key and meaning of the value. -/
def IccProfileMeans : IccProfileCall → List (Bytes × (Val → Prop))
  | .n n' => [(b!"N", IsInt n')]
  | .alternate x => [(b!"Alternate", Denotes x)]
  | .alternateName name => [(b!"Alternate", IsName name)]
  | .range range' => [(b!"Range", ArrayIs (range'.map fun x => NumIs x))]
  | .metadata metadata' => [(b!"Metadata", IsRef metadata')]
  | .stream c => StreamMeans c

def IccProfileEntries (calls : List IccProfileCall) : List (Bytes × (Val → Prop)) := calls.flatMap IccProfileMeans

/-- The entries a call of `TilingPattern` stands for: key and meaning of the value. -/
def TilingPatternMeans : TilingPatternCall → List (Bytes × (Val → Prop))
  | .paintType paintType' => [(b!"PaintType", IsInt (isoPaintType paintType'))]
  | .tilingType tilingType' => [(b!"TilingType", IsInt (isoTilingType tilingType'))]
  | .bbox bbox' => [(b!"BBox", IsRect bbox')]
  | .xStep x => [(b!"XStep", NumIs x)]
  | .yStep y => [(b!"YStep", NumIs y)]
  | .resources calls => [(b!"Resources", IsResources calls)]
  | .matrix matrix' => [(b!"Matrix", ArrayIs (matrix'.map fun x => NumIs x))]
  | .stream c => StreamMeans c

def TilingPatternEntries (calls : List TilingPatternCall) : List (Bytes × (Val → Prop)) := [(b!"Type", IsName b!"Pattern"), (b!"PatternType", IsInt 1)] ++ calls.flatMap TilingPatternMeans

/-- The entries a call of `FunctionShading` stands for: key and meaning of the value. -/
def FunctionShadingMeans : FunctionShadingCall → List (Bytes × (Val → Prop))
  | .shadingType kind => [(b!"ShadingType", IsInt (isoFunctionShadingType kind))]
  | .colorSpace x => [(b!"ColorSpace", Denotes x)]
  | .background background' => [(b!"Background", ArrayIs (background'.map fun x => NumIs x))]
  | .bbox bbox' => [(b!"BBox", IsRect bbox')]
  | .antiAlias antiAlias' => [(b!"AntiAlias", IsBool antiAlias')]
  | .domain domain' => [(b!"Domain", ArrayIs (domain'.map fun x => NumIs x))]
  | .matrix matrix' => [(b!"Matrix", ArrayIs (matrix'.map fun x => NumIs x))]
  | .function function' => [(b!"Function", IsRef function')]
  | .coords coords' => [(b!"Coords", ArrayIs (coords'.map fun x => NumIs x))]
  | .extend extend' => [(b!"Extend", ArrayIs (extend'.map fun x => IsBool x))]
  | .raw key value => [(key, Denotes value)]

def FunctionShadingEntries (calls : List FunctionShadingCall) : List (Bytes × (Val → Prop)) := calls.flatMap FunctionShadingMeans

def IsFunctionShading (calls : List FunctionShadingCall) : Val → Prop := DictIs (FunctionShadingEntries calls)

/-- The entries a call of `ShadingPattern` stands for: key and meaning of the value. -/
def ShadingPatternMeans (rd : Reading) : ShadingPatternCall → List (Bytes × (Val → Prop))
  | .functionShading calls => [(b!"Shading", IsFunctionShading calls)]
  | .shadingRef r => [(b!"Shading", IsRef r)]
  | .matrix matrix' => [(b!"Matrix", ArrayIs (matrix'.map fun x => NumIs x))]
  | .extGraphics calls => [(b!"ExtGState", IsExtGraphicsState rd calls)]
  | .raw key value => [(key, Denotes value)]

def ShadingPatternEntries (rd : Reading) (calls : List ShadingPatternCall) : List (Bytes × (Val → Prop)) := [(b!"Type", IsName b!"Pattern"), (b!"PatternType", IsInt 2)] ++ calls.flatMap (ShadingPatternMeans rd)

def IsShadingPattern (rd : Reading) (calls : List ShadingPatternCall) : Val → Prop := DictIs (ShadingPatternEntries rd calls)

/-- Calls whose behaviour is as documented (see `Props/Typed/Defects.lean` for the others). -/
def _root_.PdfW.ShadingPatternCall.conforming : ShadingPatternCall → Bool
  | .extGraphics calls => calls.all ExtGraphicsStateCall.conforming
  | _ => true

/-- The entries a call of `StreamShading` stands for: key and meaning of the value. -/
def StreamShadingMeans : StreamShadingCall → List (Bytes × (Val → Prop))
  | .shadingType kind => [(b!"ShadingType", IsInt (isoStreamShadingType kind))]
  | .colorSpace x => [(b!"ColorSpace", Denotes x)]
  | .background background' => [(b!"Background", ArrayIs (background'.map fun x => NumIs x))]
  | .bbox bbox' => [(b!"BBox", IsRect bbox')]
  | .antiAlias antiAlias' => [(b!"AntiAlias", IsBool antiAlias')]
  | .function function' => [(b!"Function", IsRef function')]
  | .bitsPerCoordinate bits => [(b!"BitsPerCoordinate", IsInt bits)]
  | .bitsPerComponent bits => [(b!"BitsPerComponent", IsInt bits)]
  | .bitsPerFlag bits => [(b!"BitsPerFlag", IsInt bits)]
  | .decode decode' => [(b!"Decode", ArrayIs (decode'.map fun x => NumIs x))]
  | .verticesPerRow vertices => [(b!"VerticesPerRow", IsInt vertices)]
  | .stream c => StreamMeans c

def StreamShadingEntries (calls : List StreamShadingCall) : List (Bytes × (Val → Prop)) := calls.flatMap StreamShadingMeans

/-- The entries a call of `SeparationInfo` stands for: key and meaning of the value. -/
def SeparationInfoMeans : SeparationInfoCall → List (Bytes × (Val → Prop))
  | .pages pages' => [(b!"Pages", ArrayIs (pages'.map fun x => IsRef x))]
  | .deviceColorant colorant => [(b!"DeviceColorant", IsName colorant)]
  | .deviceColorantStr colorant => [(b!"DeviceColorant", IsText colorant)]
  | .colorSpace x => [(b!"ColorSpace", Denotes x)]

def SeparationInfoEntries (calls : List SeparationInfoCall) : List (Bytes × (Val → Prop)) := calls.flatMap SeparationInfoMeans

def IsSeparationInfo (calls : List SeparationInfoCall) : Val → Prop := DictIs (SeparationInfoEntries calls)

/-- The entries a call of `OutputIntent` stands for: key and meaning of the value. -/
def OutputIntentMeans : OutputIntentCall → List (Bytes × (Val → Prop))
  | .subtype subtype' => [(b!"S", IsName (isoOutputIntentSubtype subtype'))]
  | .outputCondition condition => [(b!"OutputCondition", IsTextLike condition)]
  | .outputConditionIdentifier identifier => [(b!"OutputConditionIdentifier", IsTextLike identifier)]
  | .registryName name => [(b!"RegistryName", IsText name)]
  | .info info' => [(b!"Info", IsTextLike info')]
  | .destOutputProfile profile => [(b!"DestOutputProfile", IsRef profile)]

def OutputIntentEntries (calls : List OutputIntentCall) : List (Bytes × (Val → Prop)) := [(b!"Type", IsName b!"OutputIntent")] ++ calls.flatMap OutputIntentMeans

def IsOutputIntent (calls : List OutputIntentCall) : Val → Prop := DictIs (OutputIntentEntries calls)

end PdfW.Spec
