-- Generated by tools/typed.py from /repo/src; do not edit.
import Verif.Model.Typed.Actions

/-! # Typed writers: `IconFit`, `AppearanceCharacteristics`, `AppearanceEntry`, `Appearance`, `BorderStyle`, `Annotation` -/

namespace PdfW

/-- Calls of public methods of `IconFit` (annotations.rs:560-560). -/
inductive IconFitCall where
  /-- annotations.rs:565-568 -/
  | scale (value : IconScale)
  /-- annotations.rs:571-574 -/
  | scaleType (value : IconScaleType)
  /-- annotations.rs:579-582 -/
  | leftoverSpace (x : F32) (y : F32)
  /-- annotations.rs:587-590 -/
  | fitBounds (fit : Bool)
  /-- annotations.rs:593 -/
  | raw (key : Bytes) (value : Prog)

/-- The entries each method inserts. -/
def IconFitCall.entries : IconFitCall → List (Bytes × Prog)
  | .scale value => [(b!"SW", pName value.toName)]
  | .scaleType value => [(b!"S", pName value.toName)]
  | .leftoverSpace x y => [(b!"A", .array [pReal x, pReal y])]
  | .fitBounds fit => [(b!"FB", pBool fit)]
  | .raw key value => [(key, value)]

/-- All entries of the object: those of the constructor (annotations.rs:560-560), then those of the calls. -/
def IconFit.entries (calls : List IconFitCall) : List (Bytes × Prog) := calls.flatMap IconFitCall.entries

/-- The object written. -/
def IconFit.prog (calls : List IconFitCall) : Prog := .dict (IconFit.entries calls)

/-- Calls of public methods of `AppearanceCharacteristics` (annotations.rs:399-399). -/
inductive AppearanceCharacteristicsCall where
  /-- annotations.rs:405-408 -/
  | rotate (degrees : Int)
  /-- annotations.rs:412-415 -/
  | borderColorTransparent
  /-- annotations.rs:419-422 -/
  | borderColorGray (gray : F32)
  /-- annotations.rs:426-429 -/
  | borderColorRgb (r : F32) (g : F32) (b : F32)
  /-- annotations.rs:433-436 -/
  | borderColorCymk (c : F32) (y : F32) (m : F32) (k : F32)
  /-- annotations.rs:440-443 -/
  | backgroundColorTransparent
  /-- annotations.rs:447-450 -/
  | backgroundColorGray (gray : F32)
  /-- annotations.rs:454-457 -/
  | backgroundColorRgb (r : F32) (g : F32) (b : F32)
  /-- annotations.rs:461-464 -/
  | backgroundColorCymk (c : F32) (y : F32) (m : F32) (k : F32)
  /-- annotations.rs:468-471 -/
  | normalCaption (caption : TextLike)
  /-- annotations.rs:479-482 -/
  | rolloverCaption (caption : TextLike)
  /-- annotations.rs:486-489 -/
  | alternateCaption (caption : TextLike)
  /-- annotations.rs:494-497 -/
  | normalIcon (r : Ref)
  /-- annotations.rs:502-505 -/
  | rolloverIcon (r : Ref)
  /-- annotations.rs:510-513 -/
  | alternateIcon (r : Ref)
  /-- annotations.rs:517-519 -/
  | iconFit (calls : List IconFitCall)
  /-- annotations.rs:524-527 -/
  | textPosition (position : TextPosition)
  /-- annotations.rs:530 -/
  | raw (key : Bytes) (value : Prog)

/-- The entries each method inserts. -/
def AppearanceCharacteristicsCall.entries : AppearanceCharacteristicsCall → List (Bytes × Prog)
  | .rotate degrees => [(b!"R", pInt degrees)]
  | .borderColorTransparent => [(b!"BC", .array [])]
  | .borderColorGray gray => [(b!"BC", .array [pReal gray])]
  | .borderColorRgb r g b => [(b!"BC", .array [pReal r, pReal g, pReal b])]
  | .borderColorCymk c y m k => [(b!"BC", .array [pReal c, pReal y, pReal m, pReal k])]
  | .backgroundColorTransparent => [(b!"BG", .array [])]
  | .backgroundColorGray gray => [(b!"BG", .array [pReal gray])]
  | .backgroundColorRgb r g b => [(b!"BG", .array [pReal r, pReal g, pReal b])]
  | .backgroundColorCymk c y m k => [(b!"BG", .array [pReal c, pReal y, pReal m, pReal k])]
  | .normalCaption caption => [(b!"CA", caption.prog)]
  | .rolloverCaption caption => [(b!"RC", caption.prog)]
  | .alternateCaption caption => [(b!"AC", caption.prog)]
  | .normalIcon r => [(b!"I", pRef r)]
  | .rolloverIcon r => [(b!"RI", pRef r)]
  | .alternateIcon r => [(b!"IX", pRef r)]
  | .iconFit calls => [(b!"IF", IconFit.prog calls)]
  | .textPosition position => [(b!"TP", pInt position.toInt)]
  | .raw key value => [(key, value)]

/-- All entries of the object: those of the constructor (annotations.rs:399-399), then those of the calls. -/
def AppearanceCharacteristics.entries (calls : List AppearanceCharacteristicsCall) : List (Bytes × Prog) := calls.flatMap AppearanceCharacteristicsCall.entries

/-- The object written. -/
def AppearanceCharacteristics.prog (calls : List AppearanceCharacteristicsCall) : Prog := .dict (AppearanceCharacteristics.entries calls)

/-- The calls of `AppearanceEntry`: it is consumed by one. -/
inductive AppearanceEntry where
  /-- annotations.rs:716-718 -/
  | stream (r : Ref)
  /-- annotations.rs:722-724 -/
  | streams (es : List (Bytes × Ref))

/-- What they write. -/
def AppearanceEntry.prog : AppearanceEntry → Prog
  | .stream r => pRef r
  | .streams es => .dict (es.map fun e => (e.1, pRef e.2))

/-- Calls of public methods of `Appearance` (annotations.rs:679-679). -/
inductive AppearanceCall where
  /-- annotations.rs:684-686 -/
  | normal (x : AppearanceEntry)
  /-- annotations.rs:690-692 -/
  | rollover (x : AppearanceEntry)
  /-- annotations.rs:696-698 -/
  | alternate (x : AppearanceEntry)
  /-- annotations.rs:701 -/
  | raw (key : Bytes) (value : Prog)

/-- The entries each method inserts. -/
def AppearanceCall.entries : AppearanceCall → List (Bytes × Prog)
  | .normal x => [(b!"N", x.prog)]
  | .rollover x => [(b!"R", x.prog)]
  | .alternate x => [(b!"D", x.prog)]
  | .raw key value => [(key, value)]

/-- All entries of the object: those of the constructor (annotations.rs:679-679), then those of the calls. -/
def Appearance.entries (calls : List AppearanceCall) : List (Bytes × Prog) := calls.flatMap AppearanceCall.entries

/-- The object written. -/
def Appearance.prog (calls : List AppearanceCall) : Prog := .dict (Appearance.entries calls)

/-- Calls of public methods of `BorderStyle` (annotations.rs:736-740). -/
inductive BorderStyleCall where
  /-- annotations.rs:744-747 -/
  | width (points : F32)
  /-- annotations.rs:750-753 -/
  | style (style' : BorderType)
  /-- annotations.rs:757-760 -/
  | dashes (dashPattern : List F32)
  /-- annotations.rs:763 -/
  | raw (key : Bytes) (value : Prog)

/-- The entries each method inserts. -/
def BorderStyleCall.entries : BorderStyleCall → List (Bytes × Prog)
  | .width points => [(b!"W", pReal points)]
  | .style style' => [(b!"S", pName style'.toName)]
  | .dashes dashPattern => [(b!"D", .array (dashPattern.map fun x => pReal x))]
  | .raw key value => [(key, value)]

/-- All entries of the object: those of the constructor (annotations.rs:736-740), then those of the calls. -/
def BorderStyle.entries (calls : List BorderStyleCall) : List (Bytes × Prog) := [(b!"Type", pName b!"Border")] ++ calls.flatMap BorderStyleCall.entries

/-- The object written. -/
def BorderStyle.prog (calls : List BorderStyleCall) : Prog := .dict (BorderStyle.entries calls)

/-- Calls of public methods of `Annotation` (annotations.rs:11-15). -/
inductive AnnotationCall where
  /-- annotations.rs:20-23 -/
  | subtype (kind : AnnotationType)
  /-- annotations.rs:27-30 -/
  | rect (rect' : Rect)
  /-- annotations.rs:34-37 -/
  | contents (text : TextLike)
  /-- annotations.rs:42-45 -/
  | page (r : Ref)
  /-- annotations.rs:49-52 -/
  | name (text : TextLike)
  /-- annotations.rs:56-59 -/
  | modified (date : Date)
  /-- annotations.rs:64-67 -/
  | flags (flags' : List AnnotationFlag)
  /-- annotations.rs:74-76 -/
  | appearance (calls : List AppearanceCall)
  /-- annotations.rs:81-84 -/
  | appearanceState (name' : Bytes)
  /-- annotations.rs:92-110 -/
  | border (hRadius : F32) (vRadius : F32) (width : F32) (dashPattern : Option (List F32))
  /-- annotations.rs:114-116 -/
  | borderStyle (calls : List BorderStyleCall)
  /-- annotations.rs:120-123 -/
  | colorTransparent
  /-- annotations.rs:127-130 -/
  | colorGray (gray : F32)
  /-- annotations.rs:134-137 -/
  | colorRgb (r : F32) (g : F32) (b : F32)
  /-- annotations.rs:141-144 -/
  | colorCmyk (c : F32) (m : F32) (y : F32) (k : F32)
  /-- annotations.rs:148-151 -/
  | structParent (key : Int)
  /-- annotations.rs:157-159 -/
  | action (calls : List ActionCall)
  /-- annotations.rs:165-167 -/
  | additionalActions (calls : List AdditionalActionsCall)
  /-- annotations.rs:172-175 -/
  | highlight (effect : HighlightEffect)
  /-- annotations.rs:179-182 -/
  | author (text : TextLike)
  /-- annotations.rs:186-189 -/
  | subject (text : TextLike)
  /-- annotations.rs:193-199 -/
  | quadPoints (coordinates : List F32)
  /-- annotations.rs:203-206 -/
  | lineTo (x1 : F32) (y1 : F32) (x2 : F32) (y2 : F32)
  /-- annotations.rs:209-211 -/
  | fileSpec (calls : List FileSpecCall)
  /-- annotations.rs:215-218 -/
  | icon (icon' : AnnotationIcon)
  /-- annotations.rs:222-224 -/
  | appearanceCharacteristics (calls : List AppearanceCharacteristicsCall)
  /-- annotations.rs:228-231 -/
  | parent (r : Ref)
  /-- annotations.rs:235-237 -/
  | associatedFiles (x : List (List FileSpecCall))
  /-- annotations.rs:240 -/
  | raw (key : Bytes) (value : Prog)

/-- The entries each method inserts. -/
def AnnotationCall.entries : AnnotationCall → List (Bytes × Prog)
  | .subtype kind => [(b!"Subtype", pName kind.toName)]
  | .rect rect' => [(b!"Rect", pRect rect')]
  | .contents text => [(b!"Contents", text.prog)]
  | .page r => [(b!"P", pRef r)]
  | .name text => [(b!"NM", text.prog)]
  | .modified date => [(b!"M", pDate date)]
  | .flags flags' => [(b!"F", pFlags (flags'.map AnnotationFlag.bits))]
  | .appearance calls => [(b!"AP", Appearance.prog calls)]
  | .appearanceState name' => [(b!"AS", pName name')]
  | .border hRadius vRadius width dashPattern => [(b!"Border", .array ([pReal hRadius, pReal vRadius, pReal width] ++ (dashPattern.map fun p => .array (p.map fun x => pReal x)).toList))]
  | .borderStyle calls => [(b!"BS", BorderStyle.prog calls)]
  | .colorTransparent => [(b!"C", .array [])]
  | .colorGray gray => [(b!"C", .array [pReal gray])]
  | .colorRgb r g b => [(b!"C", .array [pReal r, pReal g, pReal b])]
  | .colorCmyk c m y k => [(b!"C", .array [pReal c, pReal m, pReal y, pReal k])]
  | .structParent key => [(b!"StructParent", pInt key)]
  | .action calls => [(b!"A", Action.prog calls)]
  | .additionalActions calls => [(b!"AA", AdditionalActions.prog calls)]
  | .highlight effect => [(b!"H", pName effect.toName)]
  | .author text => [(b!"T", text.prog)]
  | .subject text => [(b!"Subj", text.prog)]
  | .quadPoints coordinates => [(b!"QuadPoints", .array (coordinates.map fun x => pReal x))]
  | .lineTo x1 y1 x2 y2 => [(b!"L", .array [pReal x1, pReal y1, pReal x2, pReal y2])]
  | .fileSpec calls => [(b!"FS", FileSpec.prog calls)]
  | .icon icon' => [(b!"Name", pName icon'.toName)]
  | .appearanceCharacteristics calls => [(b!"MK", AppearanceCharacteristics.prog calls)]
  | .parent r => [(b!"Parent", pRef r)]
  | .associatedFiles x => [(b!"AF", .array (x.map fun x => FileSpec.prog x))]
  | .raw key value => [(key, value)]

/-- All entries of the object: those of the constructor (annotations.rs:11-15), then those of the calls. -/
def Annotation.entries (calls : List AnnotationCall) : List (Bytes × Prog) := [(b!"Type", pName b!"Annot")] ++ calls.flatMap AnnotationCall.entries

/-- The object written. -/
def Annotation.prog (calls : List AnnotationCall) : Prog := .dict (Annotation.entries calls)

end PdfW
