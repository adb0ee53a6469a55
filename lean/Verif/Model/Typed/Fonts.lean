-- Generated by tools/typed.py from /repo/src; do not edit.
import Verif.Model.Typed.Object
import Verif.Model.Typed.Resources

/-! # Typed writers: `Differences`, `Encoding`, `Type1Font`, `Type3Font`, `Type0Font`, `Widths`, `CidFont`, `FontDescriptorOverride`, `FontDescriptor`, `CmapStream` -/

namespace PdfW

/-- Calls of public methods of `Differences` (font.rs:234-234). -/
inductive DifferencesCall where
  /-- font.rs:239-249 -/
  | consecutive (start : UInt8) (names : List Bytes)
  /-- font.rs:252 -/
  | raw (value : Prog)

/-- The items each method inserts. -/
def DifferencesCall.items : DifferencesCall → List Prog
  | .consecutive start names => pInt start.toNat :: names.map pName
  | .raw value => [value]

/-- All items of the object: those of the constructor (font.rs:234-234), then those of the calls. -/
def Differences.items (calls : List DifferencesCall) : List Prog := calls.flatMap DifferencesCall.items

/-- The object written. -/
def Differences.prog (calls : List DifferencesCall) : Prog := .array (Differences.items calls)

/-- Calls of public methods of `Encoding` (font.rs:205-209). -/
inductive EncodingCall where
  /-- font.rs:214-217 -/
  | baseEncoding (name : Bytes)
  /-- font.rs:220-222 -/
  | differences (calls : List DifferencesCall)
  /-- font.rs:225 -/
  | raw (key : Bytes) (value : Prog)

/-- The entries each method inserts. -/
def EncodingCall.entries : EncodingCall → List (Bytes × Prog)
  | .baseEncoding name => [(b!"BaseEncoding", pName name)]
  | .differences calls => [(b!"Differences", Differences.prog calls)]
  | .raw key value => [(key, value)]

/-- All entries of the object: those of the constructor (font.rs:205-209), then those of the calls. -/
def Encoding.entries (calls : List EncodingCall) : List (Bytes × Prog) := [(b!"Type", pName b!"Encoding")] ++ calls.flatMap EncodingCall.entries

/-- The object written. -/
def Encoding.prog (calls : List EncodingCall) : Prog := .dict (Encoding.entries calls)

/-- Calls of public methods of `Type1Font` (font.rs:11-16). -/
inductive Type1FontCall where
  /-- font.rs:22-25 -/
  | name (name' : Bytes)
  /-- font.rs:32-35 -/
  | baseFont (name' : Bytes)
  /-- font.rs:40-43 -/
  | firstChar (first : UInt8)
  /-- font.rs:48-51 -/
  | lastChar (last : UInt8)
  /-- font.rs:55-58 -/
  | widths (widths' : List F32)
  /-- font.rs:62-65 -/
  | fontDescriptor (r : Ref)
  /-- font.rs:69-72 -/
  | encodingPredefined (encoding : Bytes)
  /-- font.rs:76-78 -/
  | encodingCustom (calls : List EncodingCall)
  /-- font.rs:83-86 -/
  | toUnicode (r : Ref)
  /-- font.rs:89 -/
  | raw (key : Bytes) (value : Prog)

/-- The entries each method inserts. -/
def Type1FontCall.entries : Type1FontCall → List (Bytes × Prog)
  | .name name' => [(b!"Name", pName name')]
  | .baseFont name' => [(b!"BaseFont", pName name')]
  | .firstChar first => [(b!"FirstChar", pInt first.toNat)]
  | .lastChar last => [(b!"LastChar", pInt last.toNat)]
  | .widths widths' => [(b!"Widths", .array (widths'.map fun x => pReal x))]
  | .fontDescriptor r => [(b!"FontDescriptor", pRef r)]
  | .encodingPredefined encoding => [(b!"Encoding", pName encoding)]
  | .encodingCustom calls => [(b!"Encoding", Encoding.prog calls)]
  | .toUnicode r => [(b!"ToUnicode", pRef r)]
  | .raw key value => [(key, value)]

/-- All entries of the object: those of the constructor (font.rs:11-16), then those of the calls. -/
def Type1Font.entries (calls : List Type1FontCall) : List (Bytes × Prog) := [(b!"Type", pName b!"Font"), (b!"Subtype", pName b!"Type1")] ++ calls.flatMap Type1FontCall.entries

/-- The object written. -/
def Type1Font.prog (calls : List Type1FontCall) : Prog := .dict (Type1Font.entries calls)

/-- Calls of public methods of `Type3Font` (font.rs:98-103). -/
inductive Type3FontCall where
  /-- font.rs:109-112 -/
  | name (name' : Bytes)
  /-- font.rs:115-118 -/
  | bbox (bbox' : Rect)
  /-- font.rs:122-125 -/
  | matrix (matrix' : List F32)
  /-- font.rs:133-135 -/
  | charProcs (x : List (Bytes × Ref))
  /-- font.rs:139-142 -/
  | encodingPredefined (encoding : Bytes)
  /-- font.rs:146-148 -/
  | encodingCustom (calls : List EncodingCall)
  /-- font.rs:152-155 -/
  | firstChar (first : UInt8)
  /-- font.rs:159-162 -/
  | lastChar (last : UInt8)
  /-- font.rs:166-169 -/
  | widths (widths' : List F32)
  /-- font.rs:172-175 -/
  | fontDescriptor (r : Ref)
  /-- font.rs:178-180 -/
  | resources (calls : List ResourcesCall)
  /-- font.rs:189-192 -/
  | toUnicode (r : Ref)
  /-- font.rs:195 -/
  | raw (key : Bytes) (value : Prog)

/-- The entries each method inserts. -/
def Type3FontCall.entries : Type3FontCall → List (Bytes × Prog)
  | .name name' => [(b!"Name", pName name')]
  | .bbox bbox' => [(b!"FontBBox", pRect bbox')]
  | .matrix matrix' => [(b!"FontMatrix", .array (matrix'.map fun x => pReal x))]
  | .charProcs x => [(b!"CharProcs", .dict (x.map fun e => (e.1, pRef e.2)))]
  | .encodingPredefined encoding => [(b!"Encoding", pName encoding)]
  | .encodingCustom calls => [(b!"Encoding", Encoding.prog calls)]
  | .firstChar first => [(b!"FirstChar", pInt first.toNat)]
  | .lastChar last => [(b!"LastChar", pInt last.toNat)]
  | .widths widths' => [(b!"Widths", .array (widths'.map fun x => pReal x))]
  | .fontDescriptor r => [(b!"FontDescriptor", pRef r)]
  | .resources calls => [(b!"Resources", Resources.prog calls)]
  | .toUnicode r => [(b!"ToUnicode", pRef r)]
  | .raw key value => [(key, value)]

/-- All entries of the object: those of the constructor (font.rs:98-103), then those of the calls. -/
def Type3Font.entries (calls : List Type3FontCall) : List (Bytes × Prog) := [(b!"Type", pName b!"Font"), (b!"Subtype", pName b!"Type3")] ++ calls.flatMap Type3FontCall.entries

/-- The object written. -/
def Type3Font.prog (calls : List Type3FontCall) : Prog := .dict (Type3Font.entries calls)

/-- Calls of public methods of `Type0Font` (font.rs:261-266). -/
inductive Type0FontCall where
  /-- font.rs:271-274 -/
  | baseFont (name : Bytes)
  /-- font.rs:278-281 -/
  | encodingPredefined (encoding : Bytes)
  /-- font.rs:286-289 -/
  | encodingCmap (cmap : Ref)
  /-- font.rs:293-296 -/
  | descendantFont (cidFont : Ref)
  /-- font.rs:301-304 -/
  | toUnicode (cmap : Ref)
  /-- font.rs:307 -/
  | raw (key : Bytes) (value : Prog)

/-- The entries each method inserts. -/
def Type0FontCall.entries : Type0FontCall → List (Bytes × Prog)
  | .baseFont name => [(b!"BaseFont", pName name)]
  | .encodingPredefined encoding => [(b!"Encoding", pName encoding)]
  | .encodingCmap cmap => [(b!"Encoding", pRef cmap)]
  | .descendantFont cidFont => [(b!"DescendantFonts", .array [pRef cidFont])]
  | .toUnicode cmap => [(b!"ToUnicode", pRef cmap)]
  | .raw key value => [(key, value)]

/-- All entries of the object: those of the constructor (font.rs:261-266), then those of the calls. -/
def Type0Font.entries (calls : List Type0FontCall) : List (Bytes × Prog) := [(b!"Type", pName b!"Font"), (b!"Subtype", pName b!"Type0")] ++ calls.flatMap Type0FontCall.entries

/-- The object written. -/
def Type0Font.prog (calls : List Type0FontCall) : Prog := .dict (Type0Font.entries calls)

/-- Calls of public methods of `Widths` (font.rs:405-405). -/
inductive WidthsCall where
  /-- font.rs:410-418 -/
  | consecutive (start : UInt16) (widths : List F32)
  /-- font.rs:421-426 -/
  | same (first : UInt16) (last : UInt16) (width : F32)
  /-- font.rs:429 -/
  | raw (value : Prog)

/-- The items each method inserts. -/
def WidthsCall.items : WidthsCall → List Prog
  | .consecutive start widths => [pInt start.toNat, .array (widths.map fun x => pReal x)]
  | .same first last width => [pInt first.toNat, pInt last.toNat, pReal width]
  | .raw value => [value]

/-- All items of the object: those of the constructor (font.rs:405-405), then those of the calls. -/
def Widths.items (calls : List WidthsCall) : List Prog := calls.flatMap WidthsCall.items

/-- The object written. -/
def Widths.prog (calls : List WidthsCall) : Prog := .array (Widths.items calls)

/-- Calls of public methods of `CidFont` (font.rs:316-320). -/
inductive CidFontCall where
  /-- font.rs:324-327 -/
  | subtype (subtype' : CidFontType)
  /-- font.rs:330-333 -/
  | baseFont (name : Bytes)
  /-- font.rs:336-339 -/
  | systemInfo (info : SystemInfo)
  /-- font.rs:342-345 -/
  | fontDescriptor (r : Ref)
  /-- font.rs:348-351 -/
  | defaultWidth (width : F32)
  /-- font.rs:354-356 -/
  | widths (calls : List WidthsCall)
  /-- font.rs:363-366 -/
  | cidToGidMapPredefined (name : Bytes)
  /-- font.rs:372-375 -/
  | cidToGidMapStream (stream : Ref)
  /-- font.rs:378 -/
  | raw (key : Bytes) (value : Prog)

/-- The entries each method inserts. -/
def CidFontCall.entries : CidFontCall → List (Bytes × Prog)
  | .subtype subtype' => [(b!"Subtype", pName subtype'.toName)]
  | .baseFont name => [(b!"BaseFont", pName name)]
  | .systemInfo info => [(b!"CIDSystemInfo", info.prog)]
  | .fontDescriptor r => [(b!"FontDescriptor", pRef r)]
  | .defaultWidth width => [(b!"DW", pReal width)]
  | .widths calls => [(b!"W", Widths.prog calls)]
  | .cidToGidMapPredefined name => [(b!"CIDToGIDMap", pName name)]
  | .cidToGidMapStream stream => [(b!"CIDToGIDMap", pRef stream)]
  | .raw key value => [(key, value)]

/-- All entries of the object: those of the constructor (font.rs:316-320), then those of the calls. -/
def CidFont.entries (calls : List CidFontCall) : List (Bytes × Prog) := [(b!"Type", pName b!"Font")] ++ calls.flatMap CidFontCall.entries

/-- The object written. -/
def CidFont.prog (calls : List CidFontCall) : Prog := .dict (CidFont.entries calls)

/-- Calls of public methods of `FontDescriptorOverride` (font.rs:627-629). -/
inductive FontDescriptorOverrideCall where
  /-- font.rs:634-636 -/
  | customClass (cls : Bytes) (d : Prog)
  /-- font.rs:640-643 -/
  | customClassRef (cls : Bytes) (r : Ref)
  /-- font.rs:646-648 -/
  | cjkClass (cls : CjkClass) (d : Prog)
  /-- font.rs:652-655 -/
  | cjkClassRef (cls : CjkClass) (r : Ref)
  /-- font.rs:658 -/
  | raw (key : Bytes) (value : Prog)

/-- The entries each method inserts. -/
def FontDescriptorOverrideCall.entries : FontDescriptorOverrideCall → List (Bytes × Prog)
  | .customClass cls d => [(cls, d)]
  | .customClassRef cls r => [(cls, pRef r)]
  | .cjkClass cls d => [(cls.toName, d)]
  | .cjkClassRef cls r => [(cls.toName, pRef r)]
  | .raw key value => [(key, value)]

/-- All entries of the object: those of the constructor (font.rs:627-629), then those of the calls. -/
def FontDescriptorOverride.entries (calls : List FontDescriptorOverrideCall) : List (Bytes × Prog) := calls.flatMap FontDescriptorOverrideCall.entries

/-- The object written. -/
def FontDescriptorOverride.prog (calls : List FontDescriptorOverrideCall) : Prog := .dict (FontDescriptorOverride.entries calls)

/-- Calls of public methods of `FontDescriptor` (font.rs:438-442). -/
inductive FontDescriptorCall where
  /-- font.rs:446-449 -/
  | name (name' : Bytes)
  /-- font.rs:453-456 -/
  | family (family' : Bytes)
  /-- font.rs:460-463 -/
  | stretch (stretch' : FontStretch)
  /-- font.rs:468-471 -/
  | weight (weight' : UInt16)
  /-- font.rs:474-477 -/
  | flags (flags' : List FontFlag)
  /-- font.rs:480-483 -/
  | bbox (bbox' : Rect)
  /-- font.rs:486-489 -/
  | italicAngle (angle : F32)
  /-- font.rs:492-495 -/
  | ascent (ascent' : F32)
  /-- font.rs:498-501 -/
  | descent (descent' : F32)
  /-- font.rs:504-507 -/
  | leading (leading' : F32)
  /-- font.rs:511-514 -/
  | capHeight (capHeight' : F32)
  /-- font.rs:517-520 -/
  | xHeight (xHeight' : F32)
  /-- font.rs:523-526 -/
  | stemV (stemV' : F32)
  /-- font.rs:529-532 -/
  | stemH (stemH' : F32)
  /-- font.rs:535-538 -/
  | avgWidth (avgWidth' : F32)
  /-- font.rs:541-544 -/
  | maxWidth (maxWidth' : F32)
  /-- font.rs:547-550 -/
  | missingWidth (missingWidth' : F32)
  /-- font.rs:553-556 -/
  | fontFile (r : Ref)
  /-- font.rs:560-563 -/
  | fontFile2 (r : Ref)
  /-- font.rs:567-570 -/
  | fontFile3 (r : Ref)
  /-- font.rs:577-580 -/
  | charSet (names : Bytes)
  /-- font.rs:590-597 -/
  | style (familyClass : UInt8) (subclass : UInt8) (panose : Fin 10 → UInt8)
  /-- font.rs:602-604 -/
  | descriptorOverride (calls : List FontDescriptorOverrideCall)
  /-- font.rs:610-613 -/
  | cidSet (r : Ref)
  /-- font.rs:616 -/
  | raw (key : Bytes) (value : Prog)

/-- The entries each method inserts. -/
def FontDescriptorCall.entries : FontDescriptorCall → List (Bytes × Prog)
  | .name name' => [(b!"FontName", pName name')]
  | .family family' => [(b!"FontFamily", pStr family')]
  | .stretch stretch' => [(b!"FontStretch", pName stretch'.toName)]
  | .weight weight' => [(b!"FontWeight", pInt weight'.toNat)]
  | .flags flags' => [(b!"Flags", pFlags (flags'.map FontFlag.bits))]
  | .bbox bbox' => [(b!"FontBBox", pRect bbox')]
  | .italicAngle angle => [(b!"ItalicAngle", pReal angle)]
  | .ascent ascent' => [(b!"Ascent", pReal ascent')]
  | .descent descent' => [(b!"Descent", pReal descent')]
  | .leading leading' => [(b!"Leading", pReal leading')]
  | .capHeight capHeight' => [(b!"CapHeight", pReal capHeight')]
  | .xHeight xHeight' => [(b!"XHeight", pReal xHeight')]
  | .stemV stemV' => [(b!"StemV", pReal stemV')]
  | .stemH stemH' => [(b!"StemH", pReal stemH')]
  | .avgWidth avgWidth' => [(b!"AvgWidth", pReal avgWidth')]
  | .maxWidth maxWidth' => [(b!"MaxWidth", pReal maxWidth')]
  | .missingWidth missingWidth' => [(b!"MissingWidth", pReal missingWidth')]
  | .fontFile r => [(b!"FontFile", pRef r)]
  | .fontFile2 r => [(b!"FontFile2", pRef r)]
  | .fontFile3 r => [(b!"FontFile3", pRef r)]
  | .charSet names => [(b!"CharSet", pStr names)]
  | .style familyClass subclass panose => [(b!"Style", .dict [(b!"Panose", pStr (familyClass :: subclass :: List.ofFn panose))])]
  | .descriptorOverride calls => [(b!"FD", FontDescriptorOverride.prog calls)]
  | .cidSet r => [(b!"CIDSet", pRef r)]
  | .raw key value => [(key, value)]

/-- All entries of the object: those of the constructor (font.rs:438-442), then those of the calls. -/
def FontDescriptor.entries (calls : List FontDescriptorCall) : List (Bytes × Prog) := [(b!"Type", pName b!"FontDescriptor")] ++ calls.flatMap FontDescriptorCall.entries

/-- The object written. -/
def FontDescriptor.prog (calls : List FontDescriptorCall) : Prog := .dict (FontDescriptor.entries calls)

/-- Calls of public methods of `CmapStream` (font.rs:778-781). -/
inductive CmapStreamCall where
  /-- font.rs:784-787 -/
  | name (name' : Bytes)
  /-- font.rs:790-793 -/
  | systemInfo (info : SystemInfo)
  /-- font.rs:802-805 -/
  | writingMode (mode : WMode)
  /-- font.rs:814-817 -/
  | useCmapStream (cmap : Ref)
  /-- font.rs:824-827 -/
  | useCmapPredefined (name' : Bytes)
  /-- font.rs:830 -/
  | stream (c : StreamCall)

/-- The entries each method inserts. -/
def CmapStreamCall.entries : CmapStreamCall → List (Bytes × Prog)
  | .name name' => [(b!"CMapName", pName name')]
  | .systemInfo info => [(b!"CIDSystemInfo", info.prog)]
  | .writingMode mode => [(b!"WMode", pInt mode.toInt)]
  | .useCmapStream cmap => [(b!"UseCMap", pRef cmap)]
  | .useCmapPredefined name' => [(b!"UseCMap", pName name')]
  | .stream c => c.entries

/-- All entries of the object: those of the constructor (font.rs:778-781), then those of the calls. -/
def CmapStream.entries (calls : List CmapStreamCall) : List (Bytes × Prog) := [(b!"Type", pName b!"CMap")] ++ calls.flatMap CmapStreamCall.entries

/-- Does the call panic (`assert!`)? -/
def CmapStreamCall.panics : CmapStreamCall → Bool
  | .stream c => c.panics
  | _ => false

/-- The stream written; `none` if one of the calls panics, or the stream is too long. -/
def CmapStream.write (calls : List CmapStreamCall) (c : Chunk) (r : Ref) (data : Bytes) : Option Chunk :=
  if calls.any CmapStreamCall.panics then none else c.writeStream r (CmapStream.entries calls) data

end PdfW
