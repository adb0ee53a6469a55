-- Generated by tools/typed.py from /repo/src; do not edit.
import Verif.Model.Typed.Annotations
import Verif.Spec.Typed.Actions

/-! # Meaning of the calls of `IconFit`, `AppearanceCharacteristics`, `AppearanceEntry`, `Appearance`, `BorderStyle`, `Annotation`

Keys from the documentation of each method, value types from the parameter types and ISO 32000. -/

namespace PdfW.Spec
open PdfW

/-- The entries a call of `IconFit` stands for: key and meaning of the value. -/
def IconFitMeans : IconFitCall → List (Bytes × (Val → Prop))
  | .scale value => [(b!"SW", IsName (isoIconScale value))]
  | .scaleType value => [(b!"S", IsName (isoIconScaleType value))]
  | .leftoverSpace x y => [(b!"A", ArrayIs [NumIs x, NumIs y])]
  | .fitBounds fit => [(b!"FB", IsBool fit)]
  | .raw key value => [(key, Denotes value)]

def IconFitEntries (calls : List IconFitCall) : List (Bytes × (Val → Prop)) := calls.flatMap IconFitMeans

def IsIconFit (calls : List IconFitCall) : Val → Prop := DictIs (IconFitEntries calls)

/-- The entries a call of `AppearanceCharacteristics` stands for: key and meaning of the value. -/
def AppearanceCharacteristicsMeans (rd : Reading) : AppearanceCharacteristicsCall → List (Bytes × (Val → Prop))
  | .rotate degrees => [(b!"R", IsInt degrees)]
  | .borderColorTransparent => [(b!"BC", ArrayIs [])]
  | .borderColorGray gray => [(b!"BC", ArrayIs [NumIs gray])]
  | .borderColorRgb r g b => [(b!"BC", ArrayIs [NumIs r, NumIs g, NumIs b])]
  | .borderColorCymk c y m k => rd.pick [(b!"BC", ArrayIs [NumIs c, NumIs m, NumIs y, NumIs k])] [(b!"BC", ArrayIs [NumIs c, NumIs y, NumIs m, NumIs k])]
  | .backgroundColorTransparent => [(b!"BG", ArrayIs [])]
  | .backgroundColorGray gray => [(b!"BG", ArrayIs [NumIs gray])]
  | .backgroundColorRgb r g b => [(b!"BG", ArrayIs [NumIs r, NumIs g, NumIs b])]
  | .backgroundColorCymk c y m k => rd.pick [(b!"BG", ArrayIs [NumIs c, NumIs m, NumIs y, NumIs k])] [(b!"BG", ArrayIs [NumIs c, NumIs y, NumIs m, NumIs k])]
  | .normalCaption caption => [(b!"CA", IsTextLike caption)]
  | .rolloverCaption caption => [(b!"RC", IsTextLike caption)]
  | .alternateCaption caption => [(b!"AC", IsTextLike caption)]
  | .normalIcon r => [(b!"I", IsRef r)]
  | .rolloverIcon r => [(b!"RI", IsRef r)]
  | .alternateIcon r => [(b!"IX", IsRef r)]
  | .iconFit calls => [(b!"IF", IsIconFit calls)]
  | .textPosition position => [(b!"TP", IsInt (isoTextPosition position))]
  | .raw key value => [(key, Denotes value)]

def AppearanceCharacteristicsEntries (rd : Reading) (calls : List AppearanceCharacteristicsCall) : List (Bytes × (Val → Prop)) := calls.flatMap (AppearanceCharacteristicsMeans rd)

def IsAppearanceCharacteristics (rd : Reading) (calls : List AppearanceCharacteristicsCall) : Val → Prop := DictIs (AppearanceCharacteristicsEntries rd calls)

/-- Calls whose behaviour is as documented (see `Props/Typed/Defects.lean` for the others). -/
def _root_.PdfW.AppearanceCharacteristicsCall.conforming : AppearanceCharacteristicsCall → Bool
  | .borderColorCymk _ _ _ _ => false
  | .backgroundColorCymk _ _ _ _ => false
  | _ => true

/-- The value a call of `AppearanceEntry` stands for. -/
def IsAppearanceEntry : AppearanceEntry → Val → Prop
  | .stream r => IsRef r
  | .streams es => DictIs (es.map fun e => (e.1, IsRef e.2))

/-- The entries a call of `Appearance` stands for: key and meaning of the value. -/
def AppearanceMeans : AppearanceCall → List (Bytes × (Val → Prop))
  | .normal x => [(b!"N", IsAppearanceEntry x)]
  | .rollover x => [(b!"R", IsAppearanceEntry x)]
  | .alternate x => [(b!"D", IsAppearanceEntry x)]
  | .raw key value => [(key, Denotes value)]

def AppearanceEntries (calls : List AppearanceCall) : List (Bytes × (Val → Prop)) := calls.flatMap AppearanceMeans

def IsAppearance (calls : List AppearanceCall) : Val → Prop := DictIs (AppearanceEntries calls)

/-- The entries a call of `BorderStyle` stands for: key and meaning of the value. -/
def BorderStyleMeans : BorderStyleCall → List (Bytes × (Val → Prop))
  | .width points => [(b!"W", NumIs points)]
  | .style style' => [(b!"S", IsName (isoBorderType style'))]
  | .dashes dashPattern => [(b!"D", ArrayIs (dashPattern.map fun x => NumIs x))]
  | .raw key value => [(key, Denotes value)]

def BorderStyleEntries (calls : List BorderStyleCall) : List (Bytes × (Val → Prop)) := [(b!"Type", IsName b!"Border")] ++ calls.flatMap BorderStyleMeans

def IsBorderStyle (calls : List BorderStyleCall) : Val → Prop := DictIs (BorderStyleEntries calls)

/-- The entries a call of `Annotation` stands for: key and meaning of the value. -/
def AnnotationMeans (rd : Reading) : AnnotationCall → List (Bytes × (Val → Prop))
  | .subtype kind => [(b!"Subtype", IsName (isoAnnotationType kind))]
  | .rect rect' => [(b!"Rect", IsRect rect')]
  | .contents text => [(b!"Contents", IsTextLike text)]
  | .page r => [(b!"P", IsRef r)]
  | .name text => [(b!"NM", IsTextLike text)]
  | .modified date => [(b!"M", IsDate date)]
  | .flags flags' => [(b!"F", FlagsAre (flags'.map isoAnnotationFlag))]
  | .appearance calls => [(b!"AP", IsAppearance calls)]
  | .appearanceState name' => [(b!"AS", IsName name')]
  | .border hRadius vRadius width dashPattern => [(b!"Border", ArrayIs ([NumIs hRadius, NumIs vRadius, NumIs width] ++ (dashPattern.map fun p => ArrayIs (p.map fun x => NumIs x)).toList))]
  | .borderStyle calls => [(b!"BS", IsBorderStyle calls)]
  | .colorTransparent => [(b!"C", ArrayIs [])]
  | .colorGray gray => [(b!"C", ArrayIs [NumIs gray])]
  | .colorRgb r g b => [(b!"C", ArrayIs [NumIs r, NumIs g, NumIs b])]
  | .colorCmyk c m y k => [(b!"C", ArrayIs [NumIs c, NumIs m, NumIs y, NumIs k])]
  | .structParent key => [(b!"StructParent", IsInt key)]
  | .action calls => [(b!"A", IsAction calls)]
  | .additionalActions calls => [(b!"AA", IsAdditionalActions rd calls)]
  | .highlight effect => [(b!"H", IsName (isoHighlightEffect effect))]
  | .author text => [(b!"T", IsTextLike text)]
  | .subject text => [(b!"Subj", IsTextLike text)]
  | .quadPoints coordinates => [(b!"QuadPoints", ArrayIs (coordinates.map fun x => NumIs x))]
  | .lineTo x1 y1 x2 y2 => [(b!"L", ArrayIs [NumIs x1, NumIs y1, NumIs x2, NumIs y2])]
  | .fileSpec calls => [(b!"FS", IsFileSpec calls)]
  | .icon icon' => [(b!"Name", IsName (isoAnnotationIcon icon'))]
  | .appearanceCharacteristics calls => [(b!"MK", IsAppearanceCharacteristics rd calls)]
  | .parent r => [(b!"Parent", IsRef r)]
  | .associatedFiles x => [(b!"AF", ArrayIs (x.map fun x => IsFileSpec x))]
  | .raw key value => [(key, Denotes value)]

def AnnotationEntries (rd : Reading) (calls : List AnnotationCall) : List (Bytes × (Val → Prop)) := [(b!"Type", IsName b!"Annot")] ++ calls.flatMap (AnnotationMeans rd)

def IsAnnotation (rd : Reading) (calls : List AnnotationCall) : Val → Prop := DictIs (AnnotationEntries rd calls)

/-- Calls whose behaviour is as documented (see `Props/Typed/Defects.lean` for the others). -/
def _root_.PdfW.AnnotationCall.conforming : AnnotationCall → Bool
  | .additionalActions calls => calls.all AdditionalActionsCall.conforming
  | .appearanceCharacteristics calls => calls.all AppearanceCharacteristicsCall.conforming
  | _ => true

end PdfW.Spec
