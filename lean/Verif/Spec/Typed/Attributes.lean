-- Generated by tools/typed.py from /repo/src; do not edit.
import Verif.Model.Typed.Attributes
import Verif.Spec.Typed.Enums

/-! # Meaning of the calls of `UserProperty`, `TrackSizes`, `LayoutAttributes`, `ListAttributes`, `FieldAttributes`, `TableAttributes`, `ArtifactAttributes`, `FENoteAttributes`, `Attributes`

Keys from the documentation of each method, value types from the parameter types and ISO 32000. -/

namespace PdfW.Spec
open PdfW

/-- The entries a call of `UserProperty` stands for: key and meaning of the value. -/
def UserPropertyMeans : UserPropertyCall → List (Bytes × (Val → Prop))
  | .name name' => [(b!"N", IsTextLike name')]
  | .value x => [(b!"V", Denotes x)]
  | .format format' => [(b!"F", IsTextLike format')]
  | .hidden hide => [(b!"H", IsBool hide)]
  | .raw key value' => [(key, Denotes value')]

def UserPropertyEntries (calls : List UserPropertyCall) : List (Bytes × (Val → Prop)) := calls.flatMap UserPropertyMeans

def IsUserProperty (calls : List UserPropertyCall) : Val → Prop := DictIs (UserPropertyEntries calls)

/-- The value a call of `TrackSizes` stands for. -/
def IsTrackSizes : TrackSizes → Val → Prop
  | .uniform x => NumIs x
  | .individual xs => ArrayIs (xs.map fun x => NumIs x)

/-- The entries a call of `LayoutAttributes` stands for: key and meaning of the value. -/
def LayoutAttributesMeans : LayoutAttributesCall → List (Bytes × (Val → Prop))
  | .placement placement' => [(b!"Placement", IsName (isoPlacement placement'))]
  | .writingMode mode => [(b!"WritingMode", IsName (isoWritingMode mode))]
  | .backgroundColor color' => [(b!"BackgroundColor", ArrayIs (color'.map fun x => NumIs x))]
  | .borderColor color' => [(b!"BorderColor", SidesAre IsRgb color')]
  | .borderStyle style => [(b!"BorderStyle", SidesAre (fun x => IsName (isoLayoutBorderStyle x)) style)]
  | .borderThickness s => [(b!"BorderThickness", SidesAre IsNumber s)]
  | .padding s => [(b!"Padding", SidesAre IsNumber s)]
  | .color color' => [(b!"Color", ArrayIs (color'.map fun x => NumIs x))]
  | .spaceBefore space => [(b!"SpaceBefore", NumIs space)]
  | .spaceAfter space => [(b!"SpaceAfter", NumIs space)]
  | .startIndent indent => [(b!"StartIndent", NumIs indent)]
  | .endIndent indent => [(b!"EndIndent", NumIs indent)]
  | .textIndent indent => [(b!"TextIndent", NumIs indent)]
  | .textAlign align => [(b!"TextAlign", IsName (isoTextAlign align))]
  | .width width' => [(b!"Width", NumIs width')]
  | .height height' => [(b!"Height", NumIs height')]
  | .bbox bbox' => [(b!"BBox", IsRect bbox')]
  | .blockAlign align => [(b!"BlockAlign", IsName (isoBlockAlign align))]
  | .inlineAlign align => [(b!"InlineAlign", IsName (isoInlineAlign align))]
  | .tableBorderStyle style => [(b!"TBorderStyle", SidesAre (fun x => IsName (isoLayoutBorderStyle x)) style)]
  | .tablePadding s => [(b!"TPadding", SidesAre IsNumber s)]
  | .columnCount count => [(b!"ColumnCount", IsInt count)]
  | .columnWidths x => [(b!"ColumnWidths", IsTrackSizes x)]
  | .columnGap x => [(b!"ColumnGap", IsTrackSizes x)]
  | .lineHeight height' => [(b!"LineHeight", IsLineHeight height')]
  | .baselineShift shift => [(b!"BaselineShift", NumIs shift)]
  | .textPosition position => [(b!"TextPosition", IsName (isoLayoutTextPosition position))]
  | .textDecorationType decoration => [(b!"TextDecorationType", IsName (isoTextDecorationType decoration))]
  | .textDecorationColor color' => [(b!"TextDecorationColor", ArrayIs (color'.map fun x => NumIs x))]
  | .textDecorationThickness thickness => [(b!"TextDecorationThickness", NumIs thickness)]
  | .glyphOrientationVertical o => [(b!"GlyphOrientationVertical", IsGlyphOrientation o)]
  | .rubyAlign align => [(b!"RubyAlign", IsName (isoRubyAlign align))]
  | .rubyPosition position => [(b!"RubyPosition", IsName (isoRubyPosition position))]
  | .raw key value => [(key, Denotes value)]

def LayoutAttributesEntries (calls : List LayoutAttributesCall) : List (Bytes × (Val → Prop)) := [(b!"O", IsName b!"Layout")] ++ calls.flatMap LayoutAttributesMeans

def IsLayoutAttributes (calls : List LayoutAttributesCall) : Val → Prop := DictIs (LayoutAttributesEntries calls)

/-- The entries a call of `ListAttributes` stands for: key and meaning of the value. -/
def ListAttributesMeans : ListAttributesCall → List (Bytes × (Val → Prop))
  | .listNumbering numbering => [(b!"ListNumbering", IsName (isoListNumbering numbering))]
  | .continuedList continued => [(b!"ContinuedList", IsBool continued)]
  | .continuedFrom r => [(b!"ContinuedFrom", IsStr r)]
  | .raw key value => [(key, Denotes value)]

def ListAttributesEntries (calls : List ListAttributesCall) : List (Bytes × (Val → Prop)) := [(b!"O", IsName b!"List")] ++ calls.flatMap ListAttributesMeans

def IsListAttributes (calls : List ListAttributesCall) : Val → Prop := DictIs (ListAttributesEntries calls)

/-- The entries a call of `FieldAttributes` stands for: key and meaning of the value. -/
def FieldAttributesMeans : FieldAttributesCall → List (Bytes × (Val → Prop))
  | .role role' => [(b!"Role", IsName (isoFieldRole role'))]
  | .checked checked' pdf2 => [((if pdf2 then b!"Checked" else b!"checked"), IsName (isoFieldState checked'))]
  | .description desc => [(b!"Desc", IsTextLike desc)]
  | .raw key value => [(key, Denotes value)]

def FieldAttributesEntries (calls : List FieldAttributesCall) : List (Bytes × (Val → Prop)) := [(b!"O", IsName b!"PrintField")] ++ calls.flatMap FieldAttributesMeans

def IsFieldAttributes (calls : List FieldAttributesCall) : Val → Prop := DictIs (FieldAttributesEntries calls)

/-- The entries a call of `TableAttributes` stands for: key and meaning of the value. -/
def TableAttributesMeans : TableAttributesCall → List (Bytes × (Val → Prop))
  | .rowSpan rowSpan' => [(b!"RowSpan", IsInt rowSpan')]
  | .colSpan colSpan' => [(b!"ColSpan", IsInt colSpan')]
  | .headers x => [(b!"Headers", ArrayIs (x.map fun x => IsStr x))]
  | .scope scope' => [(b!"Scope", IsName (isoTableHeaderScope scope'))]
  | .summary summary' => [(b!"Summary", IsTextLike summary')]
  | .short short' => [(b!"Short", IsTextLike short')]
  | .raw key value => [(key, Denotes value)]

def TableAttributesEntries (calls : List TableAttributesCall) : List (Bytes × (Val → Prop)) := [(b!"O", IsName b!"Table")] ++ calls.flatMap TableAttributesMeans

def IsTableAttributes (calls : List TableAttributesCall) : Val → Prop := DictIs (TableAttributesEntries calls)

/-- The entries a call of `ArtifactAttributes` stands for: key and meaning of the value. -/
def ArtifactAttributesMeans : ArtifactAttributesCall → List (Bytes × (Val → Prop))
  | .artifactType artifactType' => [(b!"Type", IsName (isoArtifactType artifactType'))]
  | .bbox bbox' => [(b!"BBox", IsRect bbox')]
  | .subtype subtype' => [(b!"Subtype", IsName (isoArtifactSubtype subtype'))]
  | .raw key value => [(key, Denotes value)]

def ArtifactAttributesEntries (calls : List ArtifactAttributesCall) : List (Bytes × (Val → Prop)) := [(b!"O", IsName b!"Artifact")] ++ calls.flatMap ArtifactAttributesMeans

def IsArtifactAttributes (calls : List ArtifactAttributesCall) : Val → Prop := DictIs (ArtifactAttributesEntries calls)

/-- The entries a call of `FENoteAttributes` stands for: key and meaning of the value. -/
def FENoteAttributesMeans : FENoteAttributesCall → List (Bytes × (Val → Prop))
  | .noteType noteType' => [(b!"NoteType", IsName (isoNoteType noteType'))]
  | .raw key value => [(key, Denotes value)]

def FENoteAttributesEntries (calls : List FENoteAttributesCall) : List (Bytes × (Val → Prop)) := [(b!"O", IsName b!"FENote")] ++ calls.flatMap FENoteAttributesMeans

def IsFENoteAttributes (calls : List FENoteAttributesCall) : Val → Prop := DictIs (FENoteAttributesEntries calls)

/-- The entries a call of `Attributes` stands for: key and meaning of the value. -/
def AttributesMeans : AttributesCall → List (Bytes × (Val → Prop))
  | .owner owner' iso2020 => [(b!"O", IsOwner owner' iso2020)]
  | .user props => [(b!"O", IsName b!"UserProperties"), (b!"P", ArrayIs (props.map IsUserProperty))]
  | .layout calls => LayoutAttributesEntries calls
  | .list calls => ListAttributesEntries calls
  | .field calls => FieldAttributesEntries calls
  | .table calls => TableAttributesEntries calls
  | .artifact calls => ArtifactAttributesEntries calls
  | .note calls => FENoteAttributesEntries calls
  | .«namespace» ns es => [(b!"O", IsName b!"NSO"), (b!"NS", IsRef ns)] ++ es.map fun e => (e.1, Denotes e.2)
  | .raw key value => [(key, Denotes value)]

def AttributesEntries (calls : List AttributesCall) : List (Bytes × (Val → Prop)) := calls.flatMap AttributesMeans

def IsAttributes (calls : List AttributesCall) : Val → Prop := DictIs (AttributesEntries calls)

end PdfW.Spec
