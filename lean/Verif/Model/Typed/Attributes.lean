-- Generated by tools/typed.py from /repo/src; do not edit.
import Verif.Model.Typed.Enums

/-! # Typed writers: `UserProperty`, `TrackSizes`, `LayoutAttributes`, `ListAttributes`, `FieldAttributes`, `TableAttributes`, `ArtifactAttributes`, `FENoteAttributes`, `Attributes` -/

namespace PdfW

/-- Calls of public methods of `UserProperty` (attributes.rs:89-89). -/
inductive UserPropertyCall where
  /-- attributes.rs:93-96 -/
  | name (name' : TextLike)
  /-- attributes.rs:99-101 -/
  | value (x : Prog)
  /-- attributes.rs:104-107 -/
  | format (format' : TextLike)
  /-- attributes.rs:111-114 -/
  | hidden (hide : Bool)
  /-- attributes.rs:117 -/
  | raw (key : Bytes) (value' : Prog)

/-- The entries each method inserts. -/
def UserPropertyCall.entries : UserPropertyCall → List (Bytes × Prog)
  | .name name' => [(b!"N", name'.prog)]
  | .value x => [(b!"V", x)]
  | .format format' => [(b!"F", format'.prog)]
  | .hidden hide => [(b!"H", pBool hide)]
  | .raw key value' => [(key, value')]

/-- All entries of the object: those of the constructor (attributes.rs:89-89), then those of the calls. -/
def UserProperty.entries (calls : List UserPropertyCall) : List (Bytes × Prog) := calls.flatMap UserPropertyCall.entries

/-- The object written. -/
def UserProperty.prog (calls : List UserPropertyCall) : Prog := .dict (UserProperty.entries calls)

/-- The calls of `TrackSizes`: it is consumed by one. -/
inductive TrackSizes where
  /-- attributes.rs:558-560 -/
  | uniform (x : F32)
  /-- attributes.rs:565-567 -/
  | individual (xs : List F32)

/-- What they write. -/
def TrackSizes.prog : TrackSizes → Prog
  | .uniform x => pReal x
  | .individual xs => .array (xs.map fun x => pReal x)

/-- Calls of public methods of `LayoutAttributes` (attributes.rs:126-133). -/
inductive LayoutAttributesCall where
  /-- attributes.rs:136-139 -/
  | placement (placement' : Placement)
  /-- attributes.rs:142-145 -/
  | writingMode (mode : WritingMode)
  /-- attributes.rs:149-156 -/
  | backgroundColor (color' : List F32)
  /-- attributes.rs:159-163 -/
  | borderColor (color' : Sides Rgb)
  /-- attributes.rs:166-170 -/
  | borderStyle (style : Sides LayoutBorderStyle)
  /-- attributes.rs:173-177 -/
  | borderThickness (s : Sides F32)
  /-- attributes.rs:180-184 -/
  | padding (s : Sides F32)
  /-- attributes.rs:187-190 -/
  | color (color' : List F32)
  /-- attributes.rs:389-392 -/
  | spaceBefore (space : F32)
  /-- attributes.rs:395-398 -/
  | spaceAfter (space : F32)
  /-- attributes.rs:401-404 -/
  | startIndent (indent : F32)
  /-- attributes.rs:407-410 -/
  | endIndent (indent : F32)
  /-- attributes.rs:413-416 -/
  | textIndent (indent : F32)
  /-- attributes.rs:419-422 -/
  | textAlign (align : TextAlign)
  /-- attributes.rs:426-429 -/
  | width (width' : F32)
  /-- attributes.rs:433-436 -/
  | height (height' : F32)
  /-- attributes.rs:467-470 -/
  | bbox (bbox' : Rect)
  /-- attributes.rs:476-479 -/
  | blockAlign (align : BlockAlign)
  /-- attributes.rs:482-485 -/
  | inlineAlign (align : InlineAlign)
  /-- attributes.rs:488-492 -/
  | tableBorderStyle (style : Sides LayoutBorderStyle)
  /-- attributes.rs:495-499 -/
  | tablePadding (s : Sides F32)
  /-- attributes.rs:530-533 -/
  | columnCount (count : Int)
  /-- attributes.rs:536-538 -/
  | columnWidths (x : TrackSizes)
  /-- attributes.rs:541-543 -/
  | columnGap (x : TrackSizes)
  /-- attributes.rs:597-600 -/
  | lineHeight (height' : LineHeight)
  /-- attributes.rs:603-606 -/
  | baselineShift (shift : F32)
  /-- attributes.rs:609-612 -/
  | textPosition (position : LayoutTextPosition)
  /-- attributes.rs:615-618 -/
  | textDecorationType (decoration : TextDecorationType)
  /-- attributes.rs:621-628 -/
  | textDecorationColor (color' : List F32)
  /-- attributes.rs:631-634 -/
  | textDecorationThickness (thickness : F32)
  /-- attributes.rs:730-736 -/
  | glyphOrientationVertical (o : GlyphOrientationVertical)
  /-- attributes.rs:742-745 -/
  | rubyAlign (align : RubyAlign)
  /-- attributes.rs:748-751 -/
  | rubyPosition (position : RubyPosition)
  /-- attributes.rs:807 -/
  | raw (key : Bytes) (value : Prog)

/-- The entries each method inserts. -/
def LayoutAttributesCall.entries : LayoutAttributesCall → List (Bytes × Prog)
  | .placement placement' => [(b!"Placement", pName placement'.toName)]
  | .writingMode mode => [(b!"WritingMode", pName mode.toName)]
  | .backgroundColor color' => [(b!"BackgroundColor", .array (color'.map fun x => pReal x))]
  | .borderColor color' => [(b!"BorderColor", color'.write Rgb.eq Rgb.prog)]
  | .borderStyle style => [(b!"BorderStyle", style.write (· == ·) fun x => pName x.toName)]
  | .borderThickness s => [(b!"BorderThickness", s.write F32.eq pReal)]
  | .padding s => [(b!"Padding", s.write F32.eq pReal)]
  | .color color' => [(b!"Color", .array (color'.map fun x => pReal x))]
  | .spaceBefore space => [(b!"SpaceBefore", pReal space)]
  | .spaceAfter space => [(b!"SpaceAfter", pReal space)]
  | .startIndent indent => [(b!"StartIndent", pReal indent)]
  | .endIndent indent => [(b!"EndIndent", pReal indent)]
  | .textIndent indent => [(b!"TextIndent", pReal indent)]
  | .textAlign align => [(b!"TextAlign", pName align.toName)]
  | .width width' => [(b!"Width", pReal width')]
  | .height height' => [(b!"Height", pReal height')]
  | .bbox bbox' => [(b!"BBox", pRect bbox')]
  | .blockAlign align => [(b!"BlockAlign", pName align.toName)]
  | .inlineAlign align => [(b!"InlineAlign", pName align.toName)]
  | .tableBorderStyle style => [(b!"TBorderStyle", style.write (· == ·) fun x => pName x.toName)]
  | .tablePadding s => [(b!"TPadding", s.write F32.eq pReal)]
  | .columnCount count => [(b!"ColumnCount", pInt count)]
  | .columnWidths x => [(b!"ColumnWidths", x.prog)]
  | .columnGap x => [(b!"ColumnGap", x.prog)]
  | .lineHeight height' => [(b!"LineHeight", height'.prog)]
  | .baselineShift shift => [(b!"BaselineShift", pReal shift)]
  | .textPosition position => [(b!"TextPosition", pName position.toName)]
  | .textDecorationType decoration => [(b!"TextDecorationType", pName decoration.toName)]
  | .textDecorationColor color' => [(b!"TextDecorationColor", .array (color'.map fun x => pReal x))]
  | .textDecorationThickness thickness => [(b!"TextDecorationThickness", pReal thickness)]
  | .glyphOrientationVertical o => [(b!"GlyphOrientationVertical", o.prog)]
  | .rubyAlign align => [(b!"RubyAlign", pName align.toName)]
  | .rubyPosition position => [(b!"RubyPosition", pName position.toName)]
  | .raw key value => [(key, value)]

/-- All entries of the object: those of the constructor (attributes.rs:126-133), then those of the calls. -/
def LayoutAttributes.entries (calls : List LayoutAttributesCall) : List (Bytes × Prog) := [(b!"O", pName (AttributeOwner.layout.toName false))] ++ calls.flatMap LayoutAttributesCall.entries

/-- The object written. -/
def LayoutAttributes.prog (calls : List LayoutAttributesCall) : Prog := .dict (LayoutAttributes.entries calls)

/-- Calls of public methods of `ListAttributes` (attributes.rs:816-822). -/
inductive ListAttributesCall where
  /-- attributes.rs:825-828 -/
  | listNumbering (numbering : ListNumbering)
  /-- attributes.rs:835-838 -/
  | continuedList (continued : Bool)
  /-- attributes.rs:843-846 -/
  | continuedFrom (r : Bytes)
  /-- attributes.rs:849 -/
  | raw (key : Bytes) (value : Prog)

/-- The entries each method inserts. -/
def ListAttributesCall.entries : ListAttributesCall → List (Bytes × Prog)
  | .listNumbering numbering => [(b!"ListNumbering", pName numbering.toName)]
  | .continuedList continued => [(b!"ContinuedList", pBool continued)]
  | .continuedFrom r => [(b!"ContinuedFrom", pStr r)]
  | .raw key value => [(key, value)]

/-- All entries of the object: those of the constructor (attributes.rs:816-822), then those of the calls. -/
def ListAttributes.entries (calls : List ListAttributesCall) : List (Bytes × Prog) := [(b!"O", pName (AttributeOwner.list.toName false))] ++ calls.flatMap ListAttributesCall.entries

/-- The object written. -/
def ListAttributes.prog (calls : List ListAttributesCall) : Prog := .dict (ListAttributes.entries calls)

/-- Calls of public methods of `FieldAttributes` (attributes.rs:907-913). -/
inductive FieldAttributesCall where
  /-- attributes.rs:916-919 -/
  | role (role' : FieldRole)
  /-- attributes.rs:927-931 -/
  | checked (checked' : FieldState) (pdf2 : Bool)
  /-- attributes.rs:934-937 -/
  | description (desc : TextLike)
  /-- attributes.rs:940 -/
  | raw (key : Bytes) (value : Prog)

/-- The entries each method inserts. -/
def FieldAttributesCall.entries : FieldAttributesCall → List (Bytes × Prog)
  | .role role' => [(b!"Role", pName role'.toName)]
  | .checked checked' pdf2 => [((if pdf2 then b!"Checked" else b!"checked"), pName checked'.toName)]
  | .description desc => [(b!"Desc", desc.prog)]
  | .raw key value => [(key, value)]

/-- All entries of the object: those of the constructor (attributes.rs:907-913), then those of the calls. -/
def FieldAttributes.entries (calls : List FieldAttributesCall) : List (Bytes × Prog) := [(b!"O", pName (AttributeOwner.printField.toName false))] ++ calls.flatMap FieldAttributesCall.entries

/-- The object written. -/
def FieldAttributes.prog (calls : List FieldAttributesCall) : Prog := .dict (FieldAttributes.entries calls)

/-- Calls of public methods of `TableAttributes` (attributes.rs:998-1004). -/
inductive TableAttributesCall where
  /-- attributes.rs:1008-1011 -/
  | rowSpan (rowSpan' : Int)
  /-- attributes.rs:1015-1018 -/
  | colSpan (colSpan' : Int)
  /-- attributes.rs:1022-1024 -/
  | headers (x : List Bytes)
  /-- attributes.rs:1028-1031 -/
  | scope (scope' : TableHeaderScope)
  /-- attributes.rs:1035-1038 -/
  | summary (summary' : TextLike)
  /-- attributes.rs:1042-1045 -/
  | short (short' : TextLike)
  /-- attributes.rs:1048 -/
  | raw (key : Bytes) (value : Prog)

/-- The entries each method inserts. -/
def TableAttributesCall.entries : TableAttributesCall → List (Bytes × Prog)
  | .rowSpan rowSpan' => [(b!"RowSpan", pInt rowSpan')]
  | .colSpan colSpan' => [(b!"ColSpan", pInt colSpan')]
  | .headers x => [(b!"Headers", .array (x.map fun x => pStr x))]
  | .scope scope' => [(b!"Scope", pName scope'.toName)]
  | .summary summary' => [(b!"Summary", summary'.prog)]
  | .short short' => [(b!"Short", short'.prog)]
  | .raw key value => [(key, value)]

/-- All entries of the object: those of the constructor (attributes.rs:998-1004), then those of the calls. -/
def TableAttributes.entries (calls : List TableAttributesCall) : List (Bytes × Prog) := [(b!"O", pName (AttributeOwner.table.toName false))] ++ calls.flatMap TableAttributesCall.entries

/-- The object written. -/
def TableAttributes.prog (calls : List TableAttributesCall) : Prog := .dict (TableAttributes.entries calls)

/-- Calls of public methods of `ArtifactAttributes` (attributes.rs:1078-1084). -/
inductive ArtifactAttributesCall where
  /-- attributes.rs:1087-1090 -/
  | artifactType (artifactType' : ArtifactType)
  /-- attributes.rs:1093-1096 -/
  | bbox (bbox' : Rect)
  /-- attributes.rs:1100-1103 -/
  | subtype (subtype' : ArtifactSubtype)
  /-- attributes.rs:1106 -/
  | raw (key : Bytes) (value : Prog)

/-- The entries each method inserts. -/
def ArtifactAttributesCall.entries : ArtifactAttributesCall → List (Bytes × Prog)
  | .artifactType artifactType' => [(b!"Type", pName artifactType'.toName)]
  | .bbox bbox' => [(b!"BBox", pRect bbox')]
  | .subtype subtype' => [(b!"Subtype", pName subtype'.toName)]
  | .raw key value => [(key, value)]

/-- All entries of the object: those of the constructor (attributes.rs:1078-1084), then those of the calls. -/
def ArtifactAttributes.entries (calls : List ArtifactAttributesCall) : List (Bytes × Prog) := [(b!"O", pName (AttributeOwner.artifact.toName true))] ++ calls.flatMap ArtifactAttributesCall.entries

/-- The object written. -/
def ArtifactAttributes.prog (calls : List ArtifactAttributesCall) : Prog := .dict (ArtifactAttributes.entries calls)

/-- Calls of public methods of `FENoteAttributes` (attributes.rs:1115-1121). -/
inductive FENoteAttributesCall where
  /-- attributes.rs:1124-1127 -/
  | noteType (noteType' : NoteType)
  /-- attributes.rs:1130 -/
  | raw (key : Bytes) (value : Prog)

/-- The entries each method inserts. -/
def FENoteAttributesCall.entries : FENoteAttributesCall → List (Bytes × Prog)
  | .noteType noteType' => [(b!"NoteType", pName noteType'.toName)]
  | .raw key value => [(key, value)]

/-- All entries of the object: those of the constructor (attributes.rs:1115-1121), then those of the calls. -/
def FENoteAttributes.entries (calls : List FENoteAttributesCall) : List (Bytes × Prog) := [(b!"O", pName (AttributeOwner.feNote.toName true))] ++ calls.flatMap FENoteAttributesCall.entries

/-- The object written. -/
def FENoteAttributes.prog (calls : List FENoteAttributesCall) : Prog := .dict (FENoteAttributes.entries calls)

/-- Calls of public methods of `Attributes` (attributes.rs:14-14). -/
inductive AttributesCall where
  /-- attributes.rs:24-27 -/
  | owner (owner' : AttributeOwner) (iso2020 : Bool)
  /-- attributes.rs:31-34 -/
  | user (props : List (List UserPropertyCall))
  /-- attributes.rs:37-39 -/
  | layout (calls : List LayoutAttributesCall)
  /-- attributes.rs:42-44 -/
  | list (calls : List ListAttributesCall)
  /-- attributes.rs:48-50 -/
  | field (calls : List FieldAttributesCall)
  /-- attributes.rs:53-55 -/
  | table (calls : List TableAttributesCall)
  /-- attributes.rs:59-61 -/
  | artifact (calls : List ArtifactAttributesCall)
  /-- attributes.rs:65-67 -/
  | note (calls : List FENoteAttributesCall)
  /-- attributes.rs:72-77 -/
  | «namespace» (ns : Ref) (es : List (Bytes × Prog))
  /-- attributes.rs:80 -/
  | raw (key : Bytes) (value : Prog)

/-- The entries each method inserts. -/
def AttributesCall.entries : AttributesCall → List (Bytes × Prog)
  | .owner owner' iso2020 => [(b!"O", pName (owner'.toName iso2020))]
  | .user props => [(b!"O", pName (AttributeOwner.user.toName false)), (b!"P", .array (props.map UserProperty.prog))]
  | .layout calls => LayoutAttributes.entries calls
  | .list calls => ListAttributes.entries calls
  | .field calls => FieldAttributes.entries calls
  | .table calls => TableAttributes.entries calls
  | .artifact calls => ArtifactAttributes.entries calls
  | .note calls => FENoteAttributes.entries calls
  | .«namespace» ns es => [(b!"O", pName (AttributeOwner.nso.toName true)), (b!"NS", pRef ns)] ++ es
  | .raw key value => [(key, value)]

/-- All entries of the object: those of the constructor (attributes.rs:14-14), then those of the calls. -/
def Attributes.entries (calls : List AttributesCall) : List (Bytes × Prog) := calls.flatMap AttributesCall.entries

/-- The object written. -/
def Attributes.prog (calls : List AttributesCall) : Prog := .dict (Attributes.entries calls)

end PdfW
