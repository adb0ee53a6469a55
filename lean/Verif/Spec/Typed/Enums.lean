-- Generated by tools/typed.py from /repo/src; do not edit.
import Verif.Model.Typed.Enums
import Verif.Spec.Typed.Base

/-! # Enumerations and flags: the values the standard assigns (ISO 32000-1 unless noted) -/

namespace PdfW.Spec
open PdfW

/-- Table 6. -/
def isoFilter : Filter → Bytes
  | .asciiHexDecode => b!"ASCIIHexDecode"
  | .ascii85Decode => b!"ASCII85Decode"
  | .lzwDecode => b!"LZWDecode"
  | .flateDecode => b!"FlateDecode"
  | .runLengthDecode => b!"RunLengthDecode"
  | .ccittFaxDecode => b!"CCITTFaxDecode"
  | .jbig2Decode => b!"JBIG2Decode"
  | .dctDecode => b!"DCTDecode"
  | .jpxDecode => b!"JPXDecode"
  | .crypt => b!"Crypt"

/-- Table 28, PageLayout. -/
def isoPageLayout : PageLayout → Bytes
  | .singlePage => b!"SinglePage"
  | .oneColumn => b!"OneColumn"
  | .twoColumnLeft => b!"TwoColumnLeft"
  | .twoColumnRight => b!"TwoColumnRight"
  | .twoPageLeft => b!"TwoPageLeft"
  | .twoPageRight => b!"TwoPageRight"

/-- Table 28, PageMode. -/
def isoPageMode : PageMode → Bytes
  | .useNone => b!"UseNone"
  | .useOutlines => b!"UseOutlines"
  | .useThumbs => b!"UseThumbs"
  | .fullScreen => b!"FullScreen"
  | .useOC => b!"UseOC"
  | .useAttachments => b!"UseAttachments"

/-- ISO 32000-2, Table 355, PhoneticAlphabet. -/
def isoPhoneticAlphabet : PhoneticAlphabet → Bytes
  | .ipa => b!"ipa"
  | .xSampa => b!"x-sampa"
  | .pinyin => b!"zh-Latn-pinyin"
  | .wadeGiles => b!"zh-Latn-wadegile"
  | .custom n => n

/-- Table 150, Direction. -/
def isoDirection : Direction → Bytes
  | .l2r => b!"L2R"
  | .r2l => b!"R2L"

/-- Table 159, S. -/
def isoNumberingStyle : NumberingStyle → Bytes
  | .arabic => b!"D"
  | .lowerRoman => b!"r"
  | .upperRoman => b!"R"
  | .lowerAlpha => b!"a"
  | .upperAlpha => b!"A"

/-- Table 317, Trapped. -/
def isoTrappingStatus : TrappingStatus → Bytes
  | .trapped => b!"True"
  | .notTrapped => b!"False"
  | .unknown => b!"Unknown"

/-- Table 30, Tabs. -/
def isoTabOrder : TabOrder → Bytes
  | .rowOrder => b!"R"
  | .columnOrder => b!"C"
  | .structureOrder => b!"S"

/-- Table 365, S. -/
def isoOutputIntentSubtype : OutputIntentSubtype → Bytes
  | .pdfx => b!"GTS_PDFX"
  | .pdfa => b!"GTS_PDFA1"
  | .pdfe => b!"ISO_PDFE1"
  | .custom n => n

/-- Table 220, FT. -/
def isoFieldType : FieldType → Bytes
  | .button => b!"Btn"
  | .text => b!"Tx"
  | .choice => b!"Ch"
  | .signature => b!"Sig"

/-- 12.7.4.2.3. -/
def isoCheckBoxState : CheckBoxState → Bytes
  | .yes => b!"Yes"
  | .off => b!"Off"

/-- Table 233, Action. -/
def isoSignatureLockAction : SignatureLockAction → Bytes
  | .all => b!"All"
  | .include => b!"Include"
  | .exclude => b!"Exclude"

/-- Table 234, DigestMethod. -/
def isoSignatureDigestMethod : SignatureDigestMethod → Bytes
  | .sha1 => b!"SHA1"
  | .sha256 => b!"SHA256"
  | .sha384 => b!"SHA384"
  | .sha512 => b!"SHA512"
  | .ripemd160 => b!"RIPEMD160"

/-- ISO 32000-2, Table 237, LockDocument. -/
def isoLockingIntent : LockingIntent → Bytes
  | .lock => b!"true"
  | .doNotLock => b!"false"
  | .auto => b!"auto"

/-- Table 235, URLType. -/
def isoCertificateUrlType : CertificateUrlType → Bytes
  | .browser => b!"Browser"
  | .custom n => n

/-- Table 343, Placement. -/
def isoPlacement : Placement → Bytes
  | .block => b!"Block"
  | .inline => b!"Inline"
  | .before => b!"Before"
  | .start => b!"Start"
  | .«end» => b!"End"

/-- Table 343, WritingMode. -/
def isoWritingMode : WritingMode → Bytes
  | .ltrTtb => b!"LrTb"
  | .rtlTtb => b!"RlTb"
  | .ttbRtl => b!"TbRl"

/-- Table 343, BorderStyle. -/
def isoLayoutBorderStyle : LayoutBorderStyle → Bytes
  | .none => b!"None"
  | .hidden => b!"Hidden"
  | .solid => b!"Solid"
  | .dashed => b!"Dashed"
  | .dotted => b!"Dotted"
  | .double => b!"Double"
  | .groove => b!"Groove"
  | .ridge => b!"Ridge"
  | .inset => b!"Inset"
  | .outset => b!"Outset"

/-- Table 344, TextAlign. -/
def isoTextAlign : TextAlign → Bytes
  | .start => b!"Start"
  | .center => b!"Center"
  | .«end» => b!"End"
  | .justify => b!"Justify"

/-- Table 344, BlockAlign. -/
def isoBlockAlign : BlockAlign → Bytes
  | .before => b!"Before"
  | .middle => b!"Middle"
  | .after => b!"After"
  | .justify => b!"Justify"

/-- Table 344, InlineAlign. -/
def isoInlineAlign : InlineAlign → Bytes
  | .start => b!"Start"
  | .center => b!"Center"
  | .«end» => b!"End"

/-- ISO 32000-2, TextPosition. -/
def isoLayoutTextPosition : LayoutTextPosition → Bytes
  | .normal => b!"Normal"
  | .superscript => b!"Sup"
  | .subscript => b!"Sub"

/-- Table 345, TextDecorationType. -/
def isoTextDecorationType : TextDecorationType → Bytes
  | .none => b!"None"
  | .underline => b!"Underline"
  | .overline => b!"Overline"
  | .lineThrough => b!"LineThrough"

/-- Table 345, RubyAlign. -/
def isoRubyAlign : RubyAlign → Bytes
  | .start => b!"Start"
  | .center => b!"Center"
  | .«end» => b!"End"
  | .justify => b!"Justify"
  | .distribute => b!"Distribute"

/-- Table 345, RubyPosition. -/
def isoRubyPosition : RubyPosition → Bytes
  | .before => b!"Before"
  | .after => b!"After"
  | .warichu => b!"Warichu"
  | .inline => b!"Inline"

/-- Table 347, ListNumbering. -/
def isoListNumbering : ListNumbering → Bytes
  | .none => b!"None"
  | .unordered => b!"Unordered"
  | .ordered => b!"Ordered"
  | .description => b!"Description"
  | .disc => b!"Disc"
  | .circle => b!"Circle"
  | .square => b!"Square"
  | .decimal => b!"Decimal"
  | .lowerRoman => b!"LowerRoman"
  | .upperRoman => b!"UpperRoman"
  | .lowerAlpha => b!"LowerAlpha"
  | .upperAlpha => b!"UpperAlpha"

/-- Table 348, Role. -/
def isoFieldRole : FieldRole → Bytes
  | .button => b!"pb"
  | .checkBox => b!"cb"
  | .radioButton => b!"rb"
  | .textField => b!"tv"
  | .listBox => b!"lb"

/-- Table 348, checked. -/
def isoFieldState : FieldState → Bytes
  | .unchecked => b!"off"
  | .checked => b!"on"
  | .neutral => b!"neutral"

/-- Table 349, Scope. -/
def isoTableHeaderScope : TableHeaderScope → Bytes
  | .row => b!"Row"
  | .column => b!"Column"
  | .both => b!"Both"

/-- ISO 32000-2, NoteType. -/
def isoNoteType : NoteType → Bytes
  | .footnote => b!"Footnote"
  | .endnote => b!"Endnote"
  | .none => b!"None"

/-- Table 117, Subtype. -/
def isoCidFontType : CidFontType → Bytes
  | .type0 => b!"CIDFontType0"
  | .type2 => b!"CIDFontType2"

/-- Table 125. -/
def isoCjkClass : CjkClass → Bytes
  | .alphabetic => b!"Alphabetic"
  | .alphaNum => b!"AlphaNum"
  | .dingbats => b!"Dingbats"
  | .dingbatsRot => b!"DingbatsRot"
  | .generic => b!"Generic"
  | .genericRot => b!"GenericRot"
  | .hangul => b!"Hangul"
  | .hanja => b!"Hanja"
  | .hanzi => b!"Hanzi"
  | .hRoman => b!"HRoman"
  | .hRomanRot => b!"HRomanRot"
  | .hKana => b!"HKana"
  | .hKanaRot => b!"HKanaRot"
  | .hojoKanji => b!"HojoKanji"
  | .kana => b!"Kana"
  | .kanji => b!"Kanji"
  | .proportional => b!"Proportional"
  | .proportionalRot => b!"ProportionalRot"
  | .ruby => b!"Ruby"

/-- Table 122, FontStretch. -/
def isoFontStretch : FontStretch → Bytes
  | .ultraCondensed => b!"UltraCondensed"
  | .extraCondensed => b!"ExtraCondensed"
  | .condensed => b!"Condensed"
  | .semiCondensed => b!"SemiCondensed"
  | .normal => b!"Normal"
  | .semiExpanded => b!"SemiExpanded"
  | .expanded => b!"Expanded"
  | .extraExpanded => b!"ExtraExpanded"
  | .ultraExpanded => b!"UltraExpanded"

/-- Table 169. -/
def isoAnnotationType : AnnotationType → Bytes
  | .text => b!"Text"
  | .link => b!"Link"
  | .line => b!"Line"
  | .square => b!"Square"
  | .circle => b!"Circle"
  | .highlight => b!"Highlight"
  | .underline => b!"Underline"
  | .squiggly => b!"Squiggly"
  | .strikeOut => b!"StrikeOut"
  | .fileAttachment => b!"FileAttachment"
  | .widget => b!"Widget"
  | .screen => b!"Screen"

/-- Tables 172 and 184, Name. -/
def isoAnnotationIcon : AnnotationIcon → Bytes
  | .comment => b!"Comment"
  | .key => b!"Key"
  | .note => b!"Note"
  | .help => b!"Help"
  | .newParagraph => b!"NewParagraph"
  | .paragraph => b!"Paragraph"
  | .insert => b!"Insert"
  | .graph => b!"Graph"
  | .pushPin => b!"PushPin"
  | .paperclip => b!"Paperclip"
  | .tag => b!"Tag"
  | .custom n => n

/-- Table 247, SW. -/
def isoIconScale : IconScale → Bytes
  | .always => b!"A"
  | .bigger => b!"B"
  | .smaller => b!"S"
  | .never => b!"N"

/-- Table 247, S. -/
def isoIconScaleType : IconScaleType → Bytes
  | .anamorphic => b!"A"
  | .proportional => b!"P"

/-- Table 173, H. -/
def isoHighlightEffect : HighlightEffect → Bytes
  | .none => b!"N"
  | .invert => b!"I"
  | .outline => b!"O"
  | .push => b!"P"

/-- Table 166, S. -/
def isoBorderType : BorderType → Bytes
  | .solid => b!"S"
  | .dashed => b!"D"
  | .beveled => b!"B"
  | .inset => b!"I"
  | .underline => b!"U"

/-- Table 198. -/
def isoActionType : ActionType → Bytes
  | .goTo => b!"GoTo"
  | .remoteGoTo => b!"GoToR"
  | .launch => b!"Launch"
  | .uri => b!"URI"
  | .submitForm => b!"SubmitForm"
  | .resetForm => b!"ResetForm"
  | .importData => b!"ImportData"
  | .javaScript => b!"JavaScript"
  | .rendition => b!"Rendition"

/-- Table 266, S. -/
def isoRenditionType : RenditionType → Bytes
  | .media => b!"MR"
  | .selector => b!"SR"

/-- Table 273, S. -/
def isoMediaClipType : MediaClipType → Bytes
  | .data => b!"MCD"
  | .«section» => b!"MCS"

/-- ISO 32000-2, Table 43, AFRelationship. -/
def isoAssociationKind : AssociationKind → Bytes
  | .source => b!"Source"
  | .data => b!"Data"
  | .alternative => b!"Alternative"
  | .supplement => b!"Supplement"
  | .encryptedPayload => b!"EncryptedPayload"
  | .formData => b!"FormData"
  | .schema => b!"Schema"
  | .unspecified => b!"Unspecified"

/-- Table 162, S. -/
def isoTransitionStyle : TransitionStyle → Bytes
  | .split => b!"Split"
  | .blinds => b!"Blinds"
  | .box => b!"Box"
  | .wipe => b!"Wipe"
  | .dissolve => b!"Dissolve"
  | .glitter => b!"Glitter"
  | .r => b!"R"
  | .fly => b!"Fly"
  | .push => b!"Push"
  | .cover => b!"Cover"
  | .uncover => b!"Uncover"
  | .fade => b!"Fade"

/-- Table 70. -/
def isoRenderingIntent : RenderingIntent → Bytes
  | .absoluteColorimetric => b!"AbsoluteColorimetric"
  | .relativeColorimetric => b!"RelativeColorimetric"
  | .saturation => b!"Saturation"
  | .perceptual => b!"Perceptual"

/-- Table 330, Type. -/
def isoArtifactType : ArtifactType → Bytes
  | .pagination => b!"Pagination"
  | .layout => b!"Layout"
  | .page => b!"Page"
  | .background => b!"Background"
  | .inline => b!"Inline"

/-- Table 330, Subtype. -/
def isoArtifactSubtype : ArtifactSubtype → Bytes
  | .header => b!"Header"
  | .footer => b!"Footer"
  | .watermark => b!"Watermark"
  | .pageNumber => b!"PageNum"
  | .bates => b!"Bates"
  | .lineNumber => b!"LineNum"
  | .redaction => b!"Redaction"
  | .custom n => n

/-- Table 330, Attached. -/
def isoArtifactAttachment : ArtifactAttachment → Bytes
  | .left => b!"Left"
  | .top => b!"Top"
  | .right => b!"Right"
  | .bottom => b!"Bottom"

/-- Table 314. -/
def isoProcSet : ProcSet → Bytes
  | .pdf => b!"PDF"
  | .text => b!"Text"
  | .imageGrayscale => b!"ImageB"
  | .imageColor => b!"ImageC"
  | .imageIndexed => b!"ImageI"

/-- Tables 136 and 137. -/
def isoBlendMode : BlendMode → Bytes
  | .normal => b!"Normal"
  | .multiply => b!"Multiply"
  | .screen => b!"Screen"
  | .overlay => b!"Overlay"
  | .darken => b!"Darken"
  | .lighten => b!"Lighten"
  | .colorDodge => b!"ColorDodge"
  | .colorBurn => b!"ColorBurn"
  | .hardLight => b!"HardLight"
  | .softLight => b!"SoftLight"
  | .difference => b!"Difference"
  | .exclusion => b!"Exclusion"
  | .hue => b!"Hue"
  | .saturation => b!"Saturation"
  | .color => b!"Color"
  | .luminosity => b!"Luminosity"

/-- Table 144, S. -/
def isoMaskType : MaskType → Bytes
  | .alpha => b!"Alpha"
  | .luminosity => b!"Luminosity"

/-- Table 274, TF. -/
def isoTempFileType : TempFileType → Bytes
  | .never => b!"TEMPNEVER"
  | .extract => b!"TEMPEXTRACT"
  | .access => b!"TEMPACCESS"
  | .always => b!"TEMPALWAYS"

/-- Table 10. -/
def isoPredictor : Predictor → Int
  | .none => 1
  | .tiff => 2
  | .pngNone => 10
  | .pngSub => 11
  | .pngUp => 12
  | .pngAverage => 13
  | .pngPaeth => 14
  | .pngOptimum => 15

/-- Tables 75 and 76. -/
def isoPatternType : PatternType → Int
  | .tiling => 1
  | .shading => 2

/-- Table 75, PaintType. -/
def isoPaintType : PaintType → Int
  | .colored => 1
  | .uncolored => 2

/-- Table 75, TilingType. -/
def isoTilingType : TilingType → Int
  | .constantSpacing => 1
  | .noDistortion => 2
  | .fastConstantSpacing => 3

/-- Table 78. -/
def isoFunctionShadingType : FunctionShadingType → Int
  | .function => 1
  | .axial => 2
  | .radial => 3

/-- Table 78. -/
def isoStreamShadingType : StreamShadingType → Int
  | .freeformGouraud => 4
  | .latticeGouraud => 5
  | .coonsPatch => 6
  | .tensorProductPatch => 7

/-- Table 222, Q. -/
def isoQuadding : Quadding → Int
  | .left => 0
  | .center => 1
  | .right => 2

/-- Table 234, V. -/
def isoSeedValueParserVersion : SeedValueParserVersion → Int
  | .pdf15 => 1
  | .pdf17 => 2
  | .pdf20 => 3

/-- ISO 32000-2, Table 236, P. -/
def isoAccessPermissions : AccessPermissions → Int
  | .noChanges => 1
  | .fillAndSign => 2
  | .annotations => 3

/-- Table 189, TP. -/
def isoTextPosition : TextPosition → Int
  | .captionOnly => 0
  | .iconOnly => 1
  | .below => 2
  | .above => 3
  | .right => 4
  | .left => 5
  | .overlaid => 6

/-- Table 214, OP. -/
def isoRenditionOperation : RenditionOperation → Int
  | .play => 0
  | .stop => 1
  | .pause => 2
  | .resume => 3
  | .playOrResume => 4

/-- Table 89, SMaskInData. -/
def isoSMaskInData : SMaskInData → Int
  | .ignore => 0
  | .use => 1
  | .preblended => 2

/-- Table 58, OPM. -/
def isoOverprintMode : OverprintMode → Int
  | .overrideAllColorants => 0
  | .ignoreZeroChannel => 1

/-- Table 54. -/
def isoLineCapStyle : LineCapStyle → Int
  | .buttCap => 0
  | .roundCap => 1
  | .projectingSquareCap => 2

/-- Table 55. -/
def isoLineJoinStyle : LineJoinStyle → Int
  | .miterJoin => 0
  | .roundJoin => 1
  | .bevelJoin => 2

/-- Table 120, WMode. -/
def isoWMode : WMode → Int
  | .horizontal => 0
  | .vertical => 1

/-- Table 39, Order. -/
def isoInterpolationOrder : InterpolationOrder → Int
  | .linear => 1
  | .cubic => 3

/-- Tables 237 and 239: bit positions, the lowest bit is 1. -/
def isoFormActionFlag : FormActionFlag → Nat
  | .includeExclude => 1
  | .includeNoValueFields => 2
  | .exportFormat => 3
  | .getMethod => 4
  | .submitCoordinates => 5
  | .xfdf => 6
  | .includeAppendSaves => 7
  | .includeAnnotations => 8
  | .submitPdf => 9
  | .canonicalFormat => 10
  | .excludeNonUserAnnots => 11
  | .excludeFKey => 12
  | .embedForm => 14

/-- Table 165: bit positions, the lowest bit is 1. -/
def isoAnnotationFlag : AnnotationFlag → Nat
  | .invisible => 1
  | .hidden => 2
  | .print => 3
  | .noZoom => 4
  | .noRotate => 5
  | .noView => 6
  | .readOnly => 7
  | .locked => 8
  | .toggleNoView => 9
  | .lockedContents => 10

/-- Table 123: bit positions, the lowest bit is 1. -/
def isoFontFlag : FontFlag → Nat
  | .fixedPitch => 1
  | .serif => 2
  | .symbolic => 3
  | .script => 4
  | .nonSymbolic => 6
  | .italic => 7
  | .allCap => 17
  | .smallCap => 18
  | .forceBold => 19

/-- Table 219: bit positions, the lowest bit is 1. -/
def isoSigFlag : SigFlag → Nat
  | .signaturesExist => 1
  | .appendOnly => 2

/-- Table 234, Ff; ISO 32000-2, Table 237: bit positions, the lowest bit is 1. -/
def isoSignatureSeedValueFlag : SignatureSeedValueFlag → Nat
  | .filter => 1
  | .subFilter => 2
  | .version => 3
  | .reasons => 4
  | .legalAttestation => 5
  | .addRevInfo => 6
  | .digestMethod => 7
  | .lockDocument => 8
  | .appearanceFilter => 9

/-- Table 235, Ff: bit positions, the lowest bit is 1. -/
def isoCertificateSeedValueFlag : CertificateSeedValueFlag → Nat
  | .subject => 1
  | .issuer => 2
  | .oid => 3
  | .subjectDn => 4
  | .keyUsage => 6
  | .url => 7

/-- Tables 221, 226, 228 and 230: bit positions, the lowest bit is 1. -/
def isoFieldFlag : FieldFlag → Nat
  | .readOnly => 1
  | .required => 2
  | .noExport => 3
  | .doNotSpellCheck => 23
  | .noToggleToOff => 15
  | .radio => 16
  | .pushbutton => 17
  | .radiosInUnison => 26
  | .multiline => 13
  | .password => 14
  | .fileSelect => 21
  | .doNotScroll => 24
  | .comb => 25
  | .richText => 26
  | .combo => 18
  | .edit => 19
  | .sort => 20
  | .multiSelect => 22
  | .commitOnSelChange => 27

/-- Table 154: bit positions, the lowest bit is 1. -/
def isoOutlineItemFlag : OutlineItemFlag → Nat
  | .italic => 1
  | .bold => 2

/-- ISO 32000-2, Table 237, MDP: 0 for an approval signature, the access permissions of a certification signature. -/
def isoMdpSignatureType : MdpSignatureType → Int
  | .approvalSignature => 0
  | .certificationSignature p => isoAccessPermissions p

end PdfW.Spec
