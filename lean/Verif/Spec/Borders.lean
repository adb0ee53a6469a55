import Verif.Spec.Annots
import Verif.Spec.Colors

/-!
# Borders and appearance characteristics of annotations (ISO 32000-1, 12.5.4, 12.5.6.19; Tables 166, 189 and 247)

A reader that is given only the bytes of a file and obtains, for the annotations of every page, the style of their border and the
characteristics from which the appearance of a widget is made: rotation, colors, captions, and icons, which are forms painted by the machine of
`Spec/Display.lean`. It knows nothing about the writer.
-/

namespace PdfW.Spec
open PdfW Imaging

/-! ## What there is -/

/-- A border style (Table 166); `ν` are numbers. -/
structure Outline (ν : Type) where
  width : Option ν
  style : Option Bytes
  dashes : Option (List ν)

/-- How an icon is placed in its annotation (Table 247). -/
structure IconPlace (ν : Type) where
  scale : Option Bytes
  kind : Option Bytes
  leftover : Option (List ν)
  bounds : Bool

/-- An icon: its number, and what it paints. -/
structure Icon (ε : Type) where
  number : Nat
  elements : List ε

/-- Appearance characteristics (Table 189). -/
structure Characteristics (ν ε : Type) where
  rotate : Option Int
  border : Option (List ν)
  background : Option (List ν)
  caption : Option (List Char)
  rolloverCaption : Option (List Char)
  downCaption : Option (List Char)
  icon : Option (Icon ε)
  rolloverIcon : Option (Icon ε)
  downIcon : Option (Icon ε)
  placement : Option (IconPlace ν)
  position : Option Int

/-- What an annotation says about these. -/
structure Trim (ν ε : Type) where
  number : Nat
  outline : Option (Outline ν)
  characteristics : Option (Characteristics ν ε)

/-! ## The reader -/

def readOutline (f : FileEnd) (file : Bytes) (v : Val) : Option (Outline Val) :=
  (followDict f file v).bind fun d => (optionalEntry b!"W" d numberOf).bind fun width => (optionalEntry b!"S" d nameOf).bind fun style =>
    (optionalEntry b!"D" d itemsOf).map fun dashes => ⟨width, style, dashes⟩

def readIconPlace (f : FileEnd) (file : Bytes) (v : Val) : Option (IconPlace Val) :=
  (followDict f file v).bind fun d => (optionalEntry b!"SW" d nameOf).bind fun scale => (optionalEntry b!"S" d nameOf).bind fun kind =>
    (optionalEntry b!"A" d itemsOf).bind fun leftover => (optionalEntry b!"FB" d truthOf).map fun bounds => ⟨scale, kind, leftover, bounds.getD false⟩

/-- An icon is a form XObject. -/
def readIcon (unf : Val → Bytes → Option Bytes) (f : FileEnd) (file : Bytes) (forms : Nat) (v : Val) : Option (Icon (Element Val Val)) :=
  (refNumber v).bind fun n => (readAppearance unf f file forms n).map fun es => ⟨n, es⟩

def readCharacteristics (unf : Val → Bytes → Option Bytes) (f : FileEnd) (file : Bytes) (forms : Nat) (v : Val) :
    Option (Characteristics Val (Element Val Val)) :=
  (followDict f file v).bind fun d => (optionalEntry b!"R" d intOf).bind fun rotate => (optionalEntry b!"BC" d itemsOf).bind fun border =>
    (optionalEntry b!"BG" d itemsOf).bind fun background => (optionalEntry b!"CA" d readText).bind fun caption =>
    (optionalEntry b!"RC" d readText).bind fun rolloverCaption => (optionalEntry b!"AC" d readText).bind fun downCaption =>
    (optionalEntry b!"I" d (readIcon unf f file forms)).bind fun icon => (optionalEntry b!"RI" d (readIcon unf f file forms)).bind fun rolloverIcon =>
    (optionalEntry b!"IX" d (readIcon unf f file forms)).bind fun downIcon => (optionalEntry b!"IF" d (readIconPlace f file)).bind fun placement =>
    (optionalEntry b!"TP" d intOf).map fun position =>
      ⟨rotate, border, background, caption, rolloverCaption, downCaption, icon, rolloverIcon, downIcon, placement, position⟩

def readTrim (unf : Val → Bytes → Option Bytes) (f : FileEnd) (file : Bytes) (forms : Nat) (n : Nat) : Option (Trim Val (Element Val Val)) :=
  (dictObject f file n).bind fun d => (optionalEntry b!"BS" d (readOutline f file)).bind fun outline =>
    (optionalEntry b!"MK" d (readCharacteristics unf f file forms)).map fun characteristics => ⟨n, outline, characteristics⟩

/-- Page by page, for every annotation listed there. -/
def fileTrims (unf : Val → Bytes → Option Bytes) (file : Bytes) (depth forms : Nat) : Option (List (List (Trim Val (Element Val Val)))) :=
  (readFile unf file).bind fun f => (readCatalog f file).bind fun d => (lookup b!"Pages" d).bind refNumber |>.bind fun p =>
    (readPageNumbers f file depth p).bind (readEach fun n => (pageAnnots f file n).bind (readEach (readTrim unf f file forms)))

/-! ## What was asked for -/

/-- These calls set this border style. -/
structure OutlineSet (calls : List BorderStyleCall) (x : Outline F32) : Prop where
  width : MaybeCall BorderStyleMeans b!"W" calls x.width .width
  style : ∃ s, x.style = s.map isoBorderType ∧ MaybeCall BorderStyleMeans b!"S" calls s .style
  dashes : MaybeCall BorderStyleMeans b!"D" calls x.dashes .dashes

/-- These calls set this placement. -/
structure IconPlaceSet (calls : List IconFitCall) (x : IconPlace F32) : Prop where
  scale : ∃ s, x.scale = s.map isoIconScale ∧ MaybeCall IconFitMeans b!"SW" calls s .scale
  kind : ∃ s, x.kind = s.map isoIconScaleType ∧ MaybeCall IconFitMeans b!"S" calls s .scaleType
  leftover : ∃ p : Option (F32 × F32), x.leftover = p.map (fun p => [p.1, p.2]) ∧ MaybeCall IconFitMeans b!"A" calls p (fun p => .leftoverSpace p.1 p.2)
  bounds : ∃ b : Option Bool, x.bounds = b.getD false ∧ MaybeCall IconFitMeans b!"FB" calls b .fitBounds

/-- The color this call gives to the border. -/
inductive BorderColorSet : AppearanceCharacteristicsCall → List F32 → Prop
  | transparent : BorderColorSet .borderColorTransparent []
  | gray {g} : BorderColorSet (.borderColorGray g) [g]
  | rgb {r g b} : BorderColorSet (.borderColorRgb r g b) [r, g, b]

/-- The color this call gives to the background. -/
inductive BackgroundSet : AppearanceCharacteristicsCall → List F32 → Prop
  | transparent : BackgroundSet .backgroundColorTransparent []
  | gray {g} : BackgroundSet (.backgroundColorGray g) [g]
  | rgb {r g b} : BackgroundSet (.backgroundColorRgb r g b) [r, g, b]

/-- The form was written, and paints this. -/
def IconSet (unf : Val → Bytes → Option Bytes) (items : List Item) (forms : Nat) (r : Ref) (x : Icon (Element F32 Prog)) : Prop :=
  ∃ form : FormPart, form.id = r ∧ x.number = r.get.toNat ∧ GivenStream.Written unf items forms ⟨form, x.elements⟩

abbrev GivenCharacteristics := Characteristics F32 (Element F32 Prog)

/-- These calls set these characteristics. -/
structure CharacteristicsSet (unf : Val → Bytes → Option Bytes) (items : List Item) (forms : Nat) (calls : List AppearanceCharacteristicsCall)
    (x : GivenCharacteristics) : Prop where
  rotate : MaybeCall (AppearanceCharacteristicsMeans .code) b!"R" calls x.rotate .rotate
  border : ∃ c, MaybeCall (AppearanceCharacteristicsMeans .code) b!"BC" calls c (fun c => c) ∧ BothOrNone BorderColorSet c x.border
  background : ∃ c, MaybeCall (AppearanceCharacteristicsMeans .code) b!"BG" calls c (fun c => c) ∧ BothOrNone BackgroundSet c x.background
  caption : MaybeCall (AppearanceCharacteristicsMeans .code) b!"CA" calls x.caption (fun t => .normalCaption (.plain t))
  rolloverCaption : MaybeCall (AppearanceCharacteristicsMeans .code) b!"RC" calls x.rolloverCaption (fun t => .rolloverCaption (.plain t))
  downCaption : MaybeCall (AppearanceCharacteristicsMeans .code) b!"AC" calls x.downCaption (fun t => .alternateCaption (.plain t))
  icon : ∃ r, MaybeCall (AppearanceCharacteristicsMeans .code) b!"I" calls r .normalIcon ∧ BothOrNone (IconSet unf items forms) r x.icon
  rolloverIcon : ∃ r, MaybeCall (AppearanceCharacteristicsMeans .code) b!"RI" calls r .rolloverIcon ∧ BothOrNone (IconSet unf items forms) r x.rolloverIcon
  downIcon : ∃ r, MaybeCall (AppearanceCharacteristicsMeans .code) b!"IX" calls r .alternateIcon ∧ BothOrNone (IconSet unf items forms) r x.downIcon
  placement : ∃ cs, MaybeCall (AppearanceCharacteristicsMeans .code) b!"IF" calls cs .iconFit ∧ BothOrNone IconPlaceSet cs x.placement
  position : ∃ p, x.position = p.map isoTextPosition ∧ MaybeCall (AppearanceCharacteristicsMeans .code) b!"TP" calls p .textPosition

abbrev GivenTrim := Trim F32 (Element F32 Prog)

/-- An annotation was written with this id, through `Annotation` or as a field that was made a widget, and sets this. -/
structure TrimSet (unf : Val → Bytes → Option Bytes) (items : List Item) (forms : Nat) (id : Ref) (x : GivenTrim) : Prop where
  number : x.number = id.get.toNat
  sets : ∃ s : AnnotSource, HasObject items id (.val s.body) ∧
    (∃ cs, s.Sets b!"BS" cs .borderStyle ∧ BothOrNone OutlineSet cs x.outline) ∧
    ∃ cs, s.Sets b!"MK" cs .appearanceCharacteristics ∧ BothOrNone (CharacteristicsSet unf items forms) cs x.characteristics

/-- The page lists these annotations, and they were written. -/
def TrimsSet (unf : Val → Bytes → Option Bytes) (items : List Item) (forms : Nat) (page : List PageCall) (xs : List GivenTrim) : Prop :=
  ∃ ids, AnnotsSet page ids ∧ Pairwise (TrimSet unf items forms) ids xs

/-! ## What is the same -/

structure SameOutline (w : Outline F32) (r : Outline Val) : Prop where
  width : BothOrNone NumIs w.width r.width
  style : r.style = w.style
  dashes : BothOrNone (Pairwise NumIs) w.dashes r.dashes

structure SameIconPlace (w : IconPlace F32) (r : IconPlace Val) : Prop where
  scale : r.scale = w.scale
  kind : r.kind = w.kind
  leftover : BothOrNone (Pairwise NumIs) w.leftover r.leftover
  bounds : r.bounds = w.bounds

structure SameIcon (w : Icon (Element F32 Prog)) (r : Icon (Element Val Val)) : Prop where
  number : r.number = w.number
  elements : Pairwise (SameElement NumIs Denotes) w.elements r.elements

structure SameCharacteristics (w : GivenCharacteristics) (r : Characteristics Val (Element Val Val)) : Prop where
  border : BothOrNone (Pairwise NumIs) w.border r.border
  background : BothOrNone (Pairwise NumIs) w.background r.background
  icon : BothOrNone SameIcon w.icon r.icon
  rolloverIcon : BothOrNone SameIcon w.rolloverIcon r.rolloverIcon
  downIcon : BothOrNone SameIcon w.downIcon r.downIcon
  placement : BothOrNone SameIconPlace w.placement r.placement
  rest : r.rotate = w.rotate ∧ r.caption = w.caption ∧ r.rolloverCaption = w.rolloverCaption ∧ r.downCaption = w.downCaption ∧ r.position = w.position

structure SameTrim (w : GivenTrim) (r : Trim Val (Element Val Val)) : Prop where
  number : r.number = w.number
  outline : BothOrNone SameOutline w.outline r.outline
  characteristics : BothOrNone SameCharacteristics w.characteristics r.characteristics

end PdfW.Spec
