-- Generated by tools/typed.py from /repo/src; do not edit.
import Verif.Model.Typed.Base

/-! # Enumerations and flags -/

namespace PdfW

/-- `PageLayout` (structure.rs:164-182). -/
inductive PageLayout where
  | singlePage
  | oneColumn
  | twoColumnLeft
  | twoColumnRight
  | twoPageLeft
  | twoPageRight
deriving DecidableEq

/-- `PageLayout::to_name` (structure.rs:184-195). -/
def PageLayout.toName : PageLayout → Bytes
  | .singlePage => b!"SinglePage"
  | .oneColumn => b!"OneColumn"
  | .twoColumnLeft => b!"TwoColumnLeft"
  | .twoColumnRight => b!"TwoColumnRight"
  | .twoPageLeft => b!"TwoPageLeft"
  | .twoPageRight => b!"TwoPageRight"

/-- `PageMode` (structure.rs:200-215). -/
inductive PageMode where
  | useNone
  | useOutlines
  | useThumbs
  | fullScreen
  | useOC
  | useAttachments
deriving DecidableEq

/-- `PageMode::to_name` (structure.rs:217-228). -/
def PageMode.toName : PageMode → Bytes
  | .useNone => b!"UseNone"
  | .useOutlines => b!"UseOutlines"
  | .useThumbs => b!"UseThumbs"
  | .fullScreen => b!"FullScreen"
  | .useOC => b!"UseOC"
  | .useAttachments => b!"UseAttachments"

/-- `PhoneticAlphabet` (structure.rs:1485-1497). -/
inductive PhoneticAlphabet where
  | ipa
  | xSampa
  | pinyin
  | wadeGiles
  | custom (n : Bytes)
deriving DecidableEq

/-- `PhoneticAlphabet::to_name` (structure.rs:1499-1509). -/
def PhoneticAlphabet.toName : PhoneticAlphabet → Bytes
  | .ipa => b!"ipa"
  | .xSampa => b!"x-sampa"
  | .pinyin => b!"zh-Latn-pinyin"
  | .wadeGiles => b!"zh-Latn-wadegile"
  | .custom n => n

/-- `Direction` (structure.rs:1654-1660). -/
inductive Direction where
  | l2r
  | r2l
deriving DecidableEq

/-- `Direction::to_name` (structure.rs:1662-1669). -/
def Direction.toName : Direction → Bytes
  | .l2r => b!"L2R"
  | .r2l => b!"R2L"

/-- `NumberingStyle` (structure.rs:1711-1722). -/
inductive NumberingStyle where
  | arabic
  | lowerRoman
  | upperRoman
  | lowerAlpha
  | upperAlpha
deriving DecidableEq

/-- `NumberingStyle::to_name` (structure.rs:1724-1734). -/
def NumberingStyle.toName : NumberingStyle → Bytes
  | .arabic => b!"D"
  | .lowerRoman => b!"r"
  | .upperRoman => b!"R"
  | .lowerAlpha => b!"a"
  | .upperAlpha => b!"A"

/-- `TrappingStatus` (structure.rs:1815-1823). -/
inductive TrappingStatus where
  | trapped
  | notTrapped
  | unknown
deriving DecidableEq

/-- `TrappingStatus::to_name` (structure.rs:1825-1833). -/
def TrappingStatus.toName : TrappingStatus → Bytes
  | .trapped => b!"True"
  | .notTrapped => b!"False"
  | .unknown => b!"Unknown"

/-- `TabOrder` (structure.rs:2353-2360). -/
inductive TabOrder where
  | rowOrder
  | columnOrder
  | structureOrder
deriving DecidableEq

/-- `TabOrder::to_name` (structure.rs:2362-2370). -/
def TabOrder.toName : TabOrder → Bytes
  | .rowOrder => b!"R"
  | .columnOrder => b!"C"
  | .structureOrder => b!"S"

/-- `OutputIntentSubtype` (color.rs:1312-1323). -/
inductive OutputIntentSubtype where
  | pdfx
  | pdfa
  | pdfe
  | custom (n : Bytes)
deriving DecidableEq

/-- `OutputIntentSubtype::to_name` (color.rs:1325-1334). -/
def OutputIntentSubtype.toName : OutputIntentSubtype → Bytes
  | .pdfx => b!"GTS_PDFX"
  | .pdfa => b!"GTS_PDFA1"
  | .pdfe => b!"ISO_PDFE1"
  | .custom n => n

/-- `FieldType` (forms.rs:182-193). -/
inductive FieldType where
  | button
  | text
  | choice
  | signature
deriving DecidableEq

/-- `FieldType::to_name` (forms.rs:195-204). -/
def FieldType.toName : FieldType → Bytes
  | .button => b!"Btn"
  | .text => b!"Tx"
  | .choice => b!"Ch"
  | .signature => b!"Sig"

/-- `CheckBoxState` (forms.rs:242-247). -/
inductive CheckBoxState where
  | yes
  | off
deriving DecidableEq

/-- `CheckBoxState::to_name` (forms.rs:249-256). -/
def CheckBoxState.toName : CheckBoxState → Bytes
  | .yes => b!"Yes"
  | .off => b!"Off"

/-- `SignatureLockAction` (forms.rs:563-571). -/
inductive SignatureLockAction where
  | all
  | include
  | exclude
deriving DecidableEq

/-- `SignatureLockAction::to_name` (forms.rs:573-581). -/
def SignatureLockAction.toName : SignatureLockAction → Bytes
  | .all => b!"All"
  | .include => b!"Include"
  | .exclude => b!"Exclude"

/-- `SignatureDigestMethod` (forms.rs:764-775). -/
inductive SignatureDigestMethod where
  | sha1
  | sha256
  | sha384
  | sha512
  | ripemd160
deriving DecidableEq

/-- `SignatureDigestMethod::to_name` (forms.rs:777-787). -/
def SignatureDigestMethod.toName : SignatureDigestMethod → Bytes
  | .sha1 => b!"SHA1"
  | .sha256 => b!"SHA256"
  | .sha384 => b!"SHA384"
  | .sha512 => b!"SHA512"
  | .ripemd160 => b!"RIPEMD160"

/-- `LockingIntent` (forms.rs:909-916). -/
inductive LockingIntent where
  | lock
  | doNotLock
  | auto
deriving DecidableEq

/-- The discriminants (`as i32`, forms.rs:909-916). -/
def LockingIntent.toName : LockingIntent → Bytes
  | .lock => b!"true"
  | .doNotLock => b!"false"
  | .auto => b!"auto"

/-- `CertificateUrlType` (forms.rs:1159-1166). -/
inductive CertificateUrlType where
  | browser
  | custom (n : Bytes)
deriving DecidableEq

/-- `CertificateUrlType::to_name` (forms.rs:1168-1175). -/
def CertificateUrlType.toName : CertificateUrlType → Bytes
  | .browser => b!"Browser"
  | .custom n => n

/-- `Placement` (attributes.rs:293-307). -/
inductive Placement where
  | block
  | inline
  | before
  | start
  | «end»
deriving DecidableEq

/-- `Placement::to_name` (attributes.rs:309-319). -/
def Placement.toName : Placement → Bytes
  | .block => b!"Block"
  | .inline => b!"Inline"
  | .before => b!"Before"
  | .start => b!"Start"
  | .«end» => b!"End"

/-- `WritingMode` (attributes.rs:323-331). -/
inductive WritingMode where
  | ltrTtb
  | rtlTtb
  | ttbRtl
deriving DecidableEq

/-- `WritingMode::to_name` (attributes.rs:333-341). -/
def WritingMode.toName : WritingMode → Bytes
  | .ltrTtb => b!"LrTb"
  | .rtlTtb => b!"RlTb"
  | .ttbRtl => b!"TbRl"

/-- `LayoutBorderStyle` (attributes.rs:345-367). -/
inductive LayoutBorderStyle where
  | none
  | hidden
  | solid
  | dashed
  | dotted
  | double
  | groove
  | ridge
  | inset
  | outset
deriving DecidableEq

/-- `LayoutBorderStyle::to_name` (attributes.rs:369-384). -/
def LayoutBorderStyle.toName : LayoutBorderStyle → Bytes
  | .none => b!"None"
  | .hidden => b!"Hidden"
  | .solid => b!"Solid"
  | .dashed => b!"Dashed"
  | .dotted => b!"Dotted"
  | .double => b!"Double"
  | .groove => b!"Groove"
  | .ridge => b!"Ridge"
  | .inset => b!"Inset"
  | .outset => b!"Outset"

/-- `TextAlign` (attributes.rs:441-451). -/
inductive TextAlign where
  | start
  | center
  | «end»
  | justify
deriving DecidableEq

/-- `TextAlign::to_name` (attributes.rs:453-462). -/
def TextAlign.toName : TextAlign → Bytes
  | .start => b!"Start"
  | .center => b!"Center"
  | .«end» => b!"End"
  | .justify => b!"Justify"

/-- `BlockAlign` (attributes.rs:504-514). -/
inductive BlockAlign where
  | before
  | middle
  | after
  | justify
deriving DecidableEq

/-- `BlockAlign::to_name` (attributes.rs:516-525). -/
def BlockAlign.toName : BlockAlign → Bytes
  | .before => b!"Before"
  | .middle => b!"Middle"
  | .after => b!"After"
  | .justify => b!"Justify"

/-- `InlineAlign` (attributes.rs:574-582). -/
inductive InlineAlign where
  | start
  | center
  | «end»
deriving DecidableEq

/-- `InlineAlign::to_name` (attributes.rs:584-592). -/
def InlineAlign.toName : InlineAlign → Bytes
  | .start => b!"Start"
  | .center => b!"Center"
  | .«end» => b!"End"

/-- `LayoutTextPosition` (attributes.rs:662-670). -/
inductive LayoutTextPosition where
  | normal
  | superscript
  | subscript
deriving DecidableEq

/-- `LayoutTextPosition::to_name` (attributes.rs:672-680). -/
def LayoutTextPosition.toName : LayoutTextPosition → Bytes
  | .normal => b!"Normal"
  | .superscript => b!"Sup"
  | .subscript => b!"Sub"

/-- `TextDecorationType` (attributes.rs:684-694). -/
inductive TextDecorationType where
  | none
  | underline
  | overline
  | lineThrough
deriving DecidableEq

/-- `TextDecorationType::to_name` (attributes.rs:696-705). -/
def TextDecorationType.toName : TextDecorationType → Bytes
  | .none => b!"None"
  | .underline => b!"Underline"
  | .overline => b!"Overline"
  | .lineThrough => b!"LineThrough"

/-- `RubyAlign` (attributes.rs:756-768). -/
inductive RubyAlign where
  | start
  | center
  | «end»
  | justify
  | distribute
deriving DecidableEq

/-- `RubyAlign::to_name` (attributes.rs:770-780). -/
def RubyAlign.toName : RubyAlign → Bytes
  | .start => b!"Start"
  | .center => b!"Center"
  | .«end» => b!"End"
  | .justify => b!"Justify"
  | .distribute => b!"Distribute"

/-- `RubyPosition` (attributes.rs:784-794). -/
inductive RubyPosition where
  | before
  | after
  | warichu
  | inline
deriving DecidableEq

/-- `RubyPosition::to_name` (attributes.rs:796-805). -/
def RubyPosition.toName : RubyPosition → Bytes
  | .before => b!"Before"
  | .after => b!"After"
  | .warichu => b!"Warichu"
  | .inline => b!"Inline"

/-- `ListNumbering` (attributes.rs:853-879). -/
inductive ListNumbering where
  | none
  | unordered
  | ordered
  | description
  | disc
  | circle
  | square
  | decimal
  | lowerRoman
  | upperRoman
  | lowerAlpha
  | upperAlpha
deriving DecidableEq

/-- `ListNumbering::to_name` (attributes.rs:881-898). -/
def ListNumbering.toName : ListNumbering → Bytes
  | .none => b!"None"
  | .unordered => b!"Unordered"
  | .ordered => b!"Ordered"
  | .description => b!"Description"
  | .disc => b!"Disc"
  | .circle => b!"Circle"
  | .square => b!"Square"
  | .decimal => b!"Decimal"
  | .lowerRoman => b!"LowerRoman"
  | .upperRoman => b!"UpperRoman"
  | .lowerAlpha => b!"LowerAlpha"
  | .upperAlpha => b!"UpperAlpha"

/-- `FieldRole` (attributes.rs:944-955). -/
inductive FieldRole where
  | button
  | checkBox
  | radioButton
  | textField
  | listBox
deriving DecidableEq

/-- `FieldRole::to_name` (attributes.rs:957-967). -/
def FieldRole.toName : FieldRole → Bytes
  | .button => b!"pb"
  | .checkBox => b!"cb"
  | .radioButton => b!"rb"
  | .textField => b!"tv"
  | .listBox => b!"lb"

/-- `FieldState` (attributes.rs:971-979). -/
inductive FieldState where
  | unchecked
  | checked
  | neutral
deriving DecidableEq

/-- `FieldState::to_name` (attributes.rs:981-989). -/
def FieldState.toName : FieldState → Bytes
  | .unchecked => b!"off"
  | .checked => b!"on"
  | .neutral => b!"neutral"

/-- `TableHeaderScope` (attributes.rs:1052-1059). -/
inductive TableHeaderScope where
  | row
  | column
  | both
deriving DecidableEq

/-- `TableHeaderScope::to_name` (attributes.rs:1061-1069). -/
def TableHeaderScope.toName : TableHeaderScope → Bytes
  | .row => b!"Row"
  | .column => b!"Column"
  | .both => b!"Both"

/-- `NoteType` (attributes.rs:1134-1141). -/
inductive NoteType where
  | footnote
  | endnote
  | none
deriving DecidableEq

/-- `NoteType::to_name` (attributes.rs:1143-1151). -/
def NoteType.toName : NoteType → Bytes
  | .footnote => b!"Footnote"
  | .endnote => b!"Endnote"
  | .none => b!"None"

/-- `CidFontType` (font.rs:382-387). -/
inductive CidFontType where
  | type0
  | type2
deriving DecidableEq

/-- `CidFontType::to_name` (font.rs:389-396). -/
def CidFontType.toName : CidFontType → Bytes
  | .type0 => b!"CIDFontType0"
  | .type2 => b!"CIDFontType2"

/-- `CjkClass` (font.rs:663-683). -/
inductive CjkClass where
  | alphabetic
  | alphaNum
  | dingbats
  | dingbatsRot
  | generic
  | genericRot
  | hangul
  | hanja
  | hanzi
  | hRoman
  | hRomanRot
  | hKana
  | hKanaRot
  | hojoKanji
  | kana
  | kanji
  | proportional
  | proportionalRot
  | ruby
deriving DecidableEq

/-- `CjkClass::to_name` (font.rs:685-709). -/
def CjkClass.toName : CjkClass → Bytes
  | .alphabetic => b!"Alphabetic"
  | .alphaNum => b!"AlphaNum"
  | .dingbats => b!"Dingbats"
  | .dingbatsRot => b!"DingbatsRot"
  | .generic => b!"Generic"
  | .genericRot => b!"GenericRot"
  | .hangul => b!"Hangul"
  | .hanja => b!"Hanja"
  | .hanzi => b!"Hanzi"
  | .hRoman => b!"HRoman"
  | .hRomanRot => b!"HRomanRot"
  | .hKana => b!"HKana"
  | .hKanaRot => b!"HKanaRot"
  | .hojoKanji => b!"HojoKanji"
  | .kana => b!"Kana"
  | .kanji => b!"Kanji"
  | .proportional => b!"Proportional"
  | .proportionalRot => b!"ProportionalRot"
  | .ruby => b!"Ruby"

/-- `FontStretch` (font.rs:714-724). -/
inductive FontStretch where
  | ultraCondensed
  | extraCondensed
  | condensed
  | semiCondensed
  | normal
  | semiExpanded
  | expanded
  | extraExpanded
  | ultraExpanded
deriving DecidableEq

/-- `FontStretch::to_name` (font.rs:726-740). -/
def FontStretch.toName : FontStretch → Bytes
  | .ultraCondensed => b!"UltraCondensed"
  | .extraCondensed => b!"ExtraCondensed"
  | .condensed => b!"Condensed"
  | .semiCondensed => b!"SemiCondensed"
  | .normal => b!"Normal"
  | .semiExpanded => b!"SemiExpanded"
  | .expanded => b!"Expanded"
  | .extraExpanded => b!"ExtraExpanded"
  | .ultraExpanded => b!"UltraExpanded"

/-- `AnnotationType` (annotations.rs:244-274). -/
inductive AnnotationType where
  | text
  | link
  | line
  | square
  | circle
  | highlight
  | underline
  | squiggly
  | strikeOut
  | fileAttachment
  | widget
  | screen
deriving DecidableEq

/-- `AnnotationType::to_name` (annotations.rs:276-293). -/
def AnnotationType.toName : AnnotationType → Bytes
  | .text => b!"Text"
  | .link => b!"Link"
  | .line => b!"Line"
  | .square => b!"Square"
  | .circle => b!"Circle"
  | .highlight => b!"Highlight"
  | .underline => b!"Underline"
  | .squiggly => b!"Squiggly"
  | .strikeOut => b!"StrikeOut"
  | .fileAttachment => b!"FileAttachment"
  | .widget => b!"Widget"
  | .screen => b!"Screen"

/-- `AnnotationIcon` (annotations.rs:297-323). -/
inductive AnnotationIcon where
  | comment
  | key
  | note
  | help
  | newParagraph
  | paragraph
  | insert
  | graph
  | pushPin
  | paperclip
  | tag
  | custom (n : Bytes)
deriving DecidableEq

/-- `AnnotationIcon::to_name` (annotations.rs:325-342). -/
def AnnotationIcon.toName : AnnotationIcon → Bytes
  | .comment => b!"Comment"
  | .key => b!"Key"
  | .note => b!"Note"
  | .help => b!"Help"
  | .newParagraph => b!"NewParagraph"
  | .paragraph => b!"Paragraph"
  | .insert => b!"Insert"
  | .graph => b!"Graph"
  | .pushPin => b!"PushPin"
  | .paperclip => b!"Paperclip"
  | .tag => b!"Tag"
  | .custom n => n

/-- `IconScale` (annotations.rs:597-609). -/
inductive IconScale where
  | always
  | bigger
  | smaller
  | never
deriving DecidableEq

/-- `IconScale::to_name` (annotations.rs:611-620). -/
def IconScale.toName : IconScale → Bytes
  | .always => b!"A"
  | .bigger => b!"B"
  | .smaller => b!"S"
  | .never => b!"N"

/-- `IconScaleType` (annotations.rs:624-635). -/
inductive IconScaleType where
  | anamorphic
  | proportional
deriving DecidableEq

/-- `IconScaleType::to_name` (annotations.rs:637-644). -/
def IconScaleType.toName : IconScaleType → Bytes
  | .anamorphic => b!"A"
  | .proportional => b!"P"

/-- `HighlightEffect` (annotations.rs:649-659). -/
inductive HighlightEffect where
  | none
  | invert
  | outline
  | push
deriving DecidableEq

/-- `HighlightEffect::to_name` (annotations.rs:661-670). -/
def HighlightEffect.toName : HighlightEffect → Bytes
  | .none => b!"N"
  | .invert => b!"I"
  | .outline => b!"O"
  | .push => b!"P"

/-- `BorderType` (annotations.rs:767-778). -/
inductive BorderType where
  | solid
  | dashed
  | beveled
  | inset
  | underline
deriving DecidableEq

/-- `BorderType::to_name` (annotations.rs:780-790). -/
def BorderType.toName : BorderType → Bytes
  | .solid => b!"S"
  | .dashed => b!"D"
  | .beveled => b!"B"
  | .inset => b!"I"
  | .underline => b!"U"

/-- `ActionType` (actions.rs:183-216). -/
inductive ActionType where
  | goTo
  | remoteGoTo
  | launch
  | uri
  | submitForm
  | resetForm
  | importData
  | javaScript
  | rendition
deriving DecidableEq

/-- `ActionType::to_name` (actions.rs:218-232). -/
def ActionType.toName : ActionType → Bytes
  | .goTo => b!"GoTo"
  | .remoteGoTo => b!"GoToR"
  | .launch => b!"Launch"
  | .uri => b!"URI"
  | .submitForm => b!"SubmitForm"
  | .resetForm => b!"ResetForm"
  | .importData => b!"ImportData"
  | .javaScript => b!"JavaScript"
  | .rendition => b!"Rendition"

/-- `RenditionType` (renditions.rs:204-209). -/
inductive RenditionType where
  | media
  | selector
deriving DecidableEq

/-- `RenditionType::to_name` (renditions.rs:211-218). -/
def RenditionType.toName : RenditionType → Bytes
  | .media => b!"MR"
  | .selector => b!"SR"

/-- `MediaClipType` (renditions.rs:222-227). -/
inductive MediaClipType where
  | data
  | «section»
deriving DecidableEq

/-- `MediaClipType::to_name` (renditions.rs:229-236). -/
def MediaClipType.toName : MediaClipType → Bytes
  | .data => b!"MCD"
  | .«section» => b!"MCS"

/-- `AssociationKind` (files.rs:166-184). -/
inductive AssociationKind where
  | source
  | data
  | alternative
  | supplement
  | encryptedPayload
  | formData
  | schema
  | unspecified
deriving DecidableEq

/-- `AssociationKind::to_name` (files.rs:186-199). -/
def AssociationKind.toName : AssociationKind → Bytes
  | .source => b!"Source"
  | .data => b!"Data"
  | .alternative => b!"Alternative"
  | .supplement => b!"Supplement"
  | .encryptedPayload => b!"EncryptedPayload"
  | .formData => b!"FormData"
  | .schema => b!"Schema"
  | .unspecified => b!"Unspecified"

/-- `TransitionStyle` (transitions.rs:69-95). -/
inductive TransitionStyle where
  | split
  | blinds
  | box
  | wipe
  | dissolve
  | glitter
  | r
  | fly
  | push
  | cover
  | uncover
  | fade
deriving DecidableEq

/-- `TransitionStyle::to_name` (transitions.rs:97-114). -/
def TransitionStyle.toName : TransitionStyle → Bytes
  | .split => b!"Split"
  | .blinds => b!"Blinds"
  | .box => b!"Box"
  | .wipe => b!"Wipe"
  | .dissolve => b!"Dissolve"
  | .glitter => b!"Glitter"
  | .r => b!"R"
  | .fly => b!"Fly"
  | .push => b!"Push"
  | .cover => b!"Cover"
  | .uncover => b!"Uncover"
  | .fade => b!"Fade"

/-- `ProcSet` (content.rs:1341-1352). -/
inductive ProcSet where
  | pdf
  | text
  | imageGrayscale
  | imageColor
  | imageIndexed
deriving DecidableEq

/-- `ProcSet::to_name` (content.rs:1354-1364). -/
def ProcSet.toName : ProcSet → Bytes
  | .pdf => b!"PDF"
  | .text => b!"Text"
  | .imageGrayscale => b!"ImageB"
  | .imageColor => b!"ImageC"
  | .imageIndexed => b!"ImageI"

/-- `BlendMode` (content.rs:1595-1613). -/
inductive BlendMode where
  | normal
  | multiply
  | screen
  | overlay
  | darken
  | lighten
  | colorDodge
  | colorBurn
  | hardLight
  | softLight
  | difference
  | exclusion
  | hue
  | saturation
  | color
  | luminosity
deriving DecidableEq

/-- `BlendMode::to_name` (content.rs:1615-1636). -/
def BlendMode.toName : BlendMode → Bytes
  | .normal => b!"Normal"
  | .multiply => b!"Multiply"
  | .screen => b!"Screen"
  | .overlay => b!"Overlay"
  | .darken => b!"Darken"
  | .lighten => b!"Lighten"
  | .colorDodge => b!"ColorDodge"
  | .colorBurn => b!"ColorBurn"
  | .hardLight => b!"HardLight"
  | .softLight => b!"SoftLight"
  | .difference => b!"Difference"
  | .exclusion => b!"Exclusion"
  | .hue => b!"Hue"
  | .saturation => b!"Saturation"
  | .color => b!"Color"
  | .luminosity => b!"Luminosity"

/-- `MaskType` (content.rs:1711-1717). -/
inductive MaskType where
  | alpha
  | luminosity
deriving DecidableEq

/-- `MaskType::to_name` (content.rs:1719-1726). -/
def MaskType.toName : MaskType → Bytes
  | .alpha => b!"Alpha"
  | .luminosity => b!"Luminosity"

/-- `TempFileType` (renditions.rs:178-189). -/
inductive TempFileType where
  | never
  | extract
  | access
  | always
deriving DecidableEq

/-- `TempFileType::to_str` (renditions.rs:191-200). -/
def TempFileType.toStr : TempFileType → Bytes
  | .never => b!"TEMPNEVER"
  | .extract => b!"TEMPEXTRACT"
  | .access => b!"TEMPACCESS"
  | .always => b!"TEMPALWAYS"

/-- `Predictor` (object.rs:1400-1412). -/
inductive Predictor where
  | none
  | tiff
  | pngNone
  | pngSub
  | pngUp
  | pngAverage
  | pngPaeth
  | pngOptimum
deriving DecidableEq

/-- `Predictor::to_i32` (object.rs:1414-1429). -/
def Predictor.toInt : Predictor → Int
  | .none => 1
  | .tiff => 2
  | .pngNone => 10
  | .pngSub => 11
  | .pngUp => 12
  | .pngAverage => 13
  | .pngPaeth => 14
  | .pngOptimum => 15

/-- `PatternType` (color.rs:428-433). -/
inductive PatternType where
  | tiling
  | shading
deriving DecidableEq

/-- `PatternType::to_int` (color.rs:435-442). -/
def PatternType.toInt : PatternType → Int
  | .tiling => 1
  | .shading => 2

/-- `PaintType` (color.rs:851-856). -/
inductive PaintType where
  | colored
  | uncolored
deriving DecidableEq

/-- `PaintType::to_int` (color.rs:858-865). -/
def PaintType.toInt : PaintType → Int
  | .colored => 1
  | .uncolored => 2

/-- `TilingType` (color.rs:869-876). -/
inductive TilingType where
  | constantSpacing
  | noDistortion
  | fastConstantSpacing
deriving DecidableEq

/-- `TilingType::to_int` (color.rs:878-886). -/
def TilingType.toInt : TilingType → Int
  | .constantSpacing => 1
  | .noDistortion => 2
  | .fastConstantSpacing => 3

/-- `FunctionShadingType` (color.rs:1149-1157). -/
inductive FunctionShadingType where
  | function
  | axial
  | radial
deriving DecidableEq

/-- `FunctionShadingType::to_int` (color.rs:1159-1167). -/
def FunctionShadingType.toInt : FunctionShadingType → Int
  | .function => 1
  | .axial => 2
  | .radial => 3

/-- `StreamShadingType` (color.rs:1171-1184). -/
inductive StreamShadingType where
  | freeformGouraud
  | latticeGouraud
  | coonsPatch
  | tensorProductPatch
deriving DecidableEq

/-- `StreamShadingType::to_int` (color.rs:1186-1195). -/
def StreamShadingType.toInt : StreamShadingType → Int
  | .freeformGouraud => 4
  | .latticeGouraud => 5
  | .coonsPatch => 6
  | .tensorProductPatch => 7

/-- `Quadding` (forms.rs:348-356). -/
inductive Quadding where
  | left
  | center
  | right
deriving DecidableEq

/-- The discriminants (`as i32`, forms.rs:348-356). -/
def Quadding.toInt : Quadding → Int
  | .left => 0
  | .center => 1
  | .right => 2

/-- `SeedValueParserVersion` (forms.rs:792-802). -/
inductive SeedValueParserVersion where
  | pdf15
  | pdf17
  | pdf20
deriving DecidableEq

/-- `SeedValueParserVersion::to_int` (forms.rs:804-812). -/
def SeedValueParserVersion.toInt : SeedValueParserVersion → Int
  | .pdf15 => 1
  | .pdf17 => 2
  | .pdf20 => 3

/-- `AccessPermissions` (forms.rs:838-847). -/
inductive AccessPermissions where
  | noChanges
  | fillAndSign
  | annotations
deriving DecidableEq

/-- `AccessPermissions::to_int` (forms.rs:849-857). -/
def AccessPermissions.toInt : AccessPermissions → Int
  | .noChanges => 1
  | .fillAndSign => 2
  | .annotations => 3

/-- `TextPosition` (annotations.rs:535-551). -/
inductive TextPosition where
  | captionOnly
  | iconOnly
  | below
  | above
  | right
  | left
  | overlaid
deriving DecidableEq

/-- The discriminants (`as i32`, annotations.rs:535-551). -/
def TextPosition.toInt : TextPosition → Int
  | .captionOnly => 0
  | .iconOnly => 1
  | .below => 2
  | .above => 3
  | .right => 4
  | .left => 5
  | .overlaid => 6

/-- `RenditionOperation` (actions.rs:124-139). -/
inductive RenditionOperation where
  | play
  | stop
  | pause
  | resume
  | playOrResume
deriving DecidableEq

/-- The discriminants (`as i32`, actions.rs:124-139). -/
def RenditionOperation.toInt : RenditionOperation → Int
  | .play => 0
  | .stop => 1
  | .pause => 2
  | .resume => 3
  | .playOrResume => 4

/-- `SMaskInData` (xobject.rs:169-178). -/
inductive SMaskInData where
  | ignore
  | use
  | preblended
deriving DecidableEq

/-- `SMaskInData::to_int` (xobject.rs:180-188). -/
def SMaskInData.toInt : SMaskInData → Int
  | .ignore => 0
  | .use => 1
  | .preblended => 2

/-- `OverprintMode` (content.rs:1640-1652). -/
inductive OverprintMode where
  | overrideAllColorants
  | ignoreZeroChannel
deriving DecidableEq

/-- `OverprintMode::to_int` (content.rs:1654-1661). -/
def OverprintMode.toInt : OverprintMode → Int
  | .overrideAllColorants => 0
  | .ignoreZeroChannel => 1

/-- The constants of `FormActionFlags` (actions.rs:236-287). -/
inductive FormActionFlag where
  | includeExclude
  | includeNoValueFields
  | exportFormat
  | getMethod
  | submitCoordinates
  | xfdf
  | includeAppendSaves
  | includeAnnotations
  | submitPdf
  | canonicalFormat
  | excludeNonUserAnnots
  | excludeFKey
  | embedForm
deriving DecidableEq

/-- Their bits (actions.rs:236-287). -/
def FormActionFlag.bits : FormActionFlag → Nat
  | .includeExclude => 1
  | .includeNoValueFields => 2
  | .exportFormat => 1 <<< 2
  | .getMethod => 1 <<< 3
  | .submitCoordinates => 1 <<< 4
  | .xfdf => 1 <<< 5
  | .includeAppendSaves => 1 <<< 6
  | .includeAnnotations => 1 <<< 7
  | .submitPdf => 1 <<< 8
  | .canonicalFormat => 1 <<< 9
  | .excludeNonUserAnnots => 1 <<< 10
  | .excludeFKey => 1 <<< 11
  | .embedForm => 1 <<< 13

/-- The constants of `AnnotationFlags` (annotations.rs:346-389). -/
inductive AnnotationFlag where
  | invisible
  | hidden
  | print
  | noZoom
  | noRotate
  | noView
  | readOnly
  | locked
  | toggleNoView
  | lockedContents
deriving DecidableEq

/-- Their bits (annotations.rs:346-389). -/
def AnnotationFlag.bits : AnnotationFlag → Nat
  | .invisible => 1 <<< 0
  | .hidden => 1 <<< 1
  | .print => 1 <<< 2
  | .noZoom => 1 <<< 3
  | .noRotate => 1 <<< 4
  | .noView => 1 <<< 5
  | .readOnly => 1 <<< 6
  | .locked => 1 <<< 7
  | .toggleNoView => 1 <<< 8
  | .lockedContents => 1 <<< 9

/-- The constants of `FontFlags` (font.rs:744-766). -/
inductive FontFlag where
  | fixedPitch
  | serif
  | symbolic
  | script
  | nonSymbolic
  | italic
  | allCap
  | smallCap
  | forceBold
deriving DecidableEq

/-- Their bits (font.rs:744-766). -/
def FontFlag.bits : FontFlag → Nat
  | .fixedPitch => 1 <<< 0
  | .serif => 1 <<< 1
  | .symbolic => 1 <<< 2
  | .script => 1 <<< 3
  | .nonSymbolic => 1 <<< 5
  | .italic => 1 <<< 6
  | .allCap => 1 <<< 16
  | .smallCap => 1 <<< 17
  | .forceBold => 1 <<< 18

/-- The constants of `SigFlags` (forms.rs:69-79). -/
inductive SigFlag where
  | signaturesExist
  | appendOnly
deriving DecidableEq

/-- Their bits (forms.rs:69-79). -/
def SigFlag.bits : SigFlag → Nat
  | .signaturesExist => 1
  | .appendOnly => 2

/-- The constants of `SignatureSeedValueFlags` (forms.rs:740-759). -/
inductive SignatureSeedValueFlag where
  | filter
  | subFilter
  | version
  | reasons
  | legalAttestation
  | addRevInfo
  | digestMethod
  | lockDocument
  | appearanceFilter
deriving DecidableEq

/-- Their bits (forms.rs:740-759). -/
def SignatureSeedValueFlag.bits : SignatureSeedValueFlag → Nat
  | .filter => 1 <<< 0
  | .subFilter => 1 <<< 1
  | .version => 1 <<< 2
  | .reasons => 1 <<< 3
  | .legalAttestation => 1 <<< 4
  | .addRevInfo => 1 <<< 5
  | .digestMethod => 1 <<< 6
  | .lockDocument => 1 <<< 7
  | .appearanceFilter => 1 <<< 8

/-- The constants of `CertificateSeedValueFlags` (forms.rs:1085-1101). -/
inductive CertificateSeedValueFlag where
  | subject
  | issuer
  | oid
  | subjectDn
  | keyUsage
  | url
deriving DecidableEq

/-- Their bits (forms.rs:1085-1101). -/
def CertificateSeedValueFlag.bits : CertificateSeedValueFlag → Nat
  | .subject => 1 <<< 0
  | .issuer => 1 <<< 1
  | .oid => 1 <<< 2
  | .subjectDn => 1 <<< 3
  | .keyUsage => 1 <<< 5
  | .url => 1 <<< 6

/-- The constants of `FieldFlags` (forms.rs:1179-1269). -/
inductive FieldFlag where
  | readOnly
  | required
  | noExport
  | doNotSpellCheck
  | noToggleToOff
  | radio
  | pushbutton
  | radiosInUnison
  | multiline
  | password
  | fileSelect
  | doNotScroll
  | comb
  | richText
  | combo
  | edit
  | sort
  | multiSelect
  | commitOnSelChange
deriving DecidableEq

/-- Their bits (forms.rs:1179-1269). -/
def FieldFlag.bits : FieldFlag → Nat
  | .readOnly => 1 <<< 0
  | .required => 1 <<< 1
  | .noExport => 1 <<< 2
  | .doNotSpellCheck => 1 <<< 22
  | .noToggleToOff => 1 <<< 14
  | .radio => 1 <<< 15
  | .pushbutton => 1 <<< 16
  | .radiosInUnison => 1 <<< 25
  | .multiline => 1 <<< 12
  | .password => 1 <<< 13
  | .fileSelect => 1 <<< 20
  | .doNotScroll => 1 <<< 23
  | .comb => 1 <<< 24
  | .richText => 1 <<< 25
  | .combo => 1 <<< 17
  | .edit => 1 <<< 18
  | .sort => 1 <<< 19
  | .multiSelect => 1 <<< 21
  | .commitOnSelChange => 1 <<< 26

/-- The constants of `OutlineItemFlags` (structure.rs:2189-2194). -/
inductive OutlineItemFlag where
  | italic
  | bold
deriving DecidableEq

/-- Their bits (structure.rs:2189-2194). -/
def OutlineItemFlag.bits : OutlineItemFlag → Nat
  | .italic => 1 <<< 0
  | .bold => 1 <<< 1

/-- `MdpSignatureType` (forms.rs:861-867). -/
inductive MdpSignatureType where
  | approvalSignature
  | certificationSignature (p : AccessPermissions)

/-- `MdpSignatureType::to_int` (forms.rs:870-875). -/
def MdpSignatureType.toInt : MdpSignatureType → Int
  | .approvalSignature => 0
  | .certificationSignature p => p.toInt

end PdfW
