-- Generated by tools/typed.py from /repo/src; do not edit.
import Verif.Model.Typed.Fonts
import Verif.Spec.Typed.Object
import Verif.Spec.Typed.Resources

/-! # Meaning of the calls of `Differences`, `Encoding`, `Type1Font`, `Type3Font`, `Type0Font`, `Widths`, `CidFont`, `FontDescriptorOverride`, `FontDescriptor`, `CmapStream`

Keys from the documentation of each method, value types from the parameter types and ISO 32000. -/

namespace PdfW.Spec
open PdfW

/-- The items a call of `Differences` stands for. -/
def DifferencesMeans : DifferencesCall → List (Val → Prop)
  | .consecutive start names => IsInt start.toNat :: names.map IsName
  | .raw value => [Denotes value]

def DifferencesItems (calls : List DifferencesCall) : List (Val → Prop) := calls.flatMap DifferencesMeans

def IsDifferences (calls : List DifferencesCall) : Val → Prop := ArrayIs (DifferencesItems calls)

/-- The entries a call of `Encoding` stands for: key and meaning of the value. -/
def EncodingMeans : EncodingCall → List (Bytes × (Val → Prop))
  | .baseEncoding name => [(b!"BaseEncoding", IsName name)]
  | .differences calls => [(b!"Differences", IsDifferences calls)]
  | .raw key value => [(key, Denotes value)]

def EncodingEntries (calls : List EncodingCall) : List (Bytes × (Val → Prop)) := [(b!"Type", IsName b!"Encoding")] ++ calls.flatMap EncodingMeans

def IsEncoding (calls : List EncodingCall) : Val → Prop := DictIs (EncodingEntries calls)

/-- The entries a call of `Type1Font` stands for: key and meaning of the value. -/
def Type1FontMeans : Type1FontCall → List (Bytes × (Val → Prop))
  | .name name' => [(b!"Name", IsName name')]
  | .baseFont name' => [(b!"BaseFont", IsName name')]
  | .firstChar first => [(b!"FirstChar", IsInt first.toNat)]
  | .lastChar last => [(b!"LastChar", IsInt last.toNat)]
  | .widths widths' => [(b!"Widths", ArrayIs (widths'.map fun x => NumIs x))]
  | .fontDescriptor r => [(b!"FontDescriptor", IsRef r)]
  | .encodingPredefined encoding => [(b!"Encoding", IsName encoding)]
  | .encodingCustom calls => [(b!"Encoding", IsEncoding calls)]
  | .toUnicode r => [(b!"ToUnicode", IsRef r)]
  | .raw key value => [(key, Denotes value)]

def Type1FontEntries (calls : List Type1FontCall) : List (Bytes × (Val → Prop)) := [(b!"Type", IsName b!"Font"), (b!"Subtype", IsName b!"Type1")] ++ calls.flatMap Type1FontMeans

def IsType1Font (calls : List Type1FontCall) : Val → Prop := DictIs (Type1FontEntries calls)

/-- The entries a call of `Type3Font` stands for: key and meaning of the value. -/
def Type3FontMeans : Type3FontCall → List (Bytes × (Val → Prop))
  | .name name' => [(b!"Name", IsName name')]
  | .bbox bbox' => [(b!"FontBBox", IsRect bbox')]
  | .matrix matrix' => [(b!"FontMatrix", ArrayIs (matrix'.map fun x => NumIs x))]
  | .charProcs x => [(b!"CharProcs", DictIs (x.map fun e => (e.1, IsRef e.2)))]
  | .encodingPredefined encoding => [(b!"Encoding", IsName encoding)]
  | .encodingCustom calls => [(b!"Encoding", IsEncoding calls)]
  | .firstChar first => [(b!"FirstChar", IsInt first.toNat)]
  | .lastChar last => [(b!"LastChar", IsInt last.toNat)]
  | .widths widths' => [(b!"Widths", ArrayIs (widths'.map fun x => NumIs x))]
  | .fontDescriptor r => [(b!"FontDescriptor", IsRef r)]
  | .resources calls => [(b!"Resources", IsResources calls)]
  | .toUnicode r => [(b!"ToUnicode", IsRef r)]
  | .raw key value => [(key, Denotes value)]

def Type3FontEntries (calls : List Type3FontCall) : List (Bytes × (Val → Prop)) := [(b!"Type", IsName b!"Font"), (b!"Subtype", IsName b!"Type3")] ++ calls.flatMap Type3FontMeans

def IsType3Font (calls : List Type3FontCall) : Val → Prop := DictIs (Type3FontEntries calls)

/-- The entries a call of `Type0Font` stands for: key and meaning of the value. -/
def Type0FontMeans : Type0FontCall → List (Bytes × (Val → Prop))
  | .baseFont name => [(b!"BaseFont", IsName name)]
  | .encodingPredefined encoding => [(b!"Encoding", IsName encoding)]
  | .encodingCmap cmap => [(b!"Encoding", IsRef cmap)]
  | .descendantFont cidFont => [(b!"DescendantFonts", ArrayIs [IsRef cidFont])]
  | .toUnicode cmap => [(b!"ToUnicode", IsRef cmap)]
  | .raw key value => [(key, Denotes value)]

def Type0FontEntries (calls : List Type0FontCall) : List (Bytes × (Val → Prop)) := [(b!"Type", IsName b!"Font"), (b!"Subtype", IsName b!"Type0")] ++ calls.flatMap Type0FontMeans

def IsType0Font (calls : List Type0FontCall) : Val → Prop := DictIs (Type0FontEntries calls)

/-- The items a call of `Widths` stands for. -/
def WidthsMeans : WidthsCall → List (Val → Prop)
  | .consecutive start widths => [IsInt start.toNat, ArrayIs (widths.map fun x => NumIs x)]
  | .same first last width => [IsInt first.toNat, IsInt last.toNat, NumIs width]
  | .raw value => [Denotes value]

def WidthsItems (calls : List WidthsCall) : List (Val → Prop) := calls.flatMap WidthsMeans

def IsWidths (calls : List WidthsCall) : Val → Prop := ArrayIs (WidthsItems calls)

/-- The entries a call of `CidFont` stands for: key and meaning of the value. -/
def CidFontMeans : CidFontCall → List (Bytes × (Val → Prop))
  | .subtype subtype' => [(b!"Subtype", IsName (isoCidFontType subtype'))]
  | .baseFont name => [(b!"BaseFont", IsName name)]
  | .systemInfo info => [(b!"CIDSystemInfo", IsSystemInfo info)]
  | .fontDescriptor r => [(b!"FontDescriptor", IsRef r)]
  | .defaultWidth width => [(b!"DW", NumIs width)]
  | .widths calls => [(b!"W", IsWidths calls)]
  | .cidToGidMapPredefined name => [(b!"CIDToGIDMap", IsName name)]
  | .cidToGidMapStream stream => [(b!"CIDToGIDMap", IsRef stream)]
  | .raw key value => [(key, Denotes value)]

def CidFontEntries (calls : List CidFontCall) : List (Bytes × (Val → Prop)) := [(b!"Type", IsName b!"Font")] ++ calls.flatMap CidFontMeans

def IsCidFont (calls : List CidFontCall) : Val → Prop := DictIs (CidFontEntries calls)

/-- The entries a call of `FontDescriptorOverride` stands for: key and meaning of the value. -/
def FontDescriptorOverrideMeans : FontDescriptorOverrideCall → List (Bytes × (Val → Prop))
  | .customClass cls d => [(cls, Denotes d)]
  | .customClassRef cls r => [(cls, IsRef r)]
  | .cjkClass cls d => [(isoCjkClass cls, Denotes d)]
  | .cjkClassRef cls r => [(isoCjkClass cls, IsRef r)]
  | .raw key value => [(key, Denotes value)]

def FontDescriptorOverrideEntries (calls : List FontDescriptorOverrideCall) : List (Bytes × (Val → Prop)) := calls.flatMap FontDescriptorOverrideMeans

def IsFontDescriptorOverride (calls : List FontDescriptorOverrideCall) : Val → Prop := DictIs (FontDescriptorOverrideEntries calls)

/-- The entries a call of `FontDescriptor` stands for: key and meaning of the value. -/
def FontDescriptorMeans : FontDescriptorCall → List (Bytes × (Val → Prop))
  | .name name' => [(b!"FontName", IsName name')]
  | .family family' => [(b!"FontFamily", IsStr family')]
  | .stretch stretch' => [(b!"FontStretch", IsName (isoFontStretch stretch'))]
  | .weight weight' => [(b!"FontWeight", IsInt weight'.toNat)]
  | .flags flags' => [(b!"Flags", FlagsAre (flags'.map isoFontFlag))]
  | .bbox bbox' => [(b!"FontBBox", IsRect bbox')]
  | .italicAngle angle => [(b!"ItalicAngle", NumIs angle)]
  | .ascent ascent' => [(b!"Ascent", NumIs ascent')]
  | .descent descent' => [(b!"Descent", NumIs descent')]
  | .leading leading' => [(b!"Leading", NumIs leading')]
  | .capHeight capHeight' => [(b!"CapHeight", NumIs capHeight')]
  | .xHeight xHeight' => [(b!"XHeight", NumIs xHeight')]
  | .stemV stemV' => [(b!"StemV", NumIs stemV')]
  | .stemH stemH' => [(b!"StemH", NumIs stemH')]
  | .avgWidth avgWidth' => [(b!"AvgWidth", NumIs avgWidth')]
  | .maxWidth maxWidth' => [(b!"MaxWidth", NumIs maxWidth')]
  | .missingWidth missingWidth' => [(b!"MissingWidth", NumIs missingWidth')]
  | .fontFile r => [(b!"FontFile", IsRef r)]
  | .fontFile2 r => [(b!"FontFile2", IsRef r)]
  | .fontFile3 r => [(b!"FontFile3", IsRef r)]
  | .charSet names => [(b!"CharSet", IsStr names)]
  | .style familyClass subclass panose => [(b!"Style", DictIs [(b!"Panose", IsPanose familyClass subclass panose)])]
  | .descriptorOverride calls => [(b!"FD", IsFontDescriptorOverride calls)]
  | .cidSet r => [(b!"CIDSet", IsRef r)]
  | .raw key value => [(key, Denotes value)]

def FontDescriptorEntries (calls : List FontDescriptorCall) : List (Bytes × (Val → Prop)) := [(b!"Type", IsName b!"FontDescriptor")] ++ calls.flatMap FontDescriptorMeans

def IsFontDescriptor (calls : List FontDescriptorCall) : Val → Prop := DictIs (FontDescriptorEntries calls)

/-- The entries a call of `CmapStream` stands for: key and meaning of the value. -/
def CmapStreamMeans : CmapStreamCall → List (Bytes × (Val → Prop))
  | .name name' => [(b!"CMapName", IsName name')]
  | .systemInfo info => [(b!"CIDSystemInfo", IsSystemInfo info)]
  | .writingMode mode => [(b!"WMode", IsInt (isoWMode mode))]
  | .useCmapStream cmap => [(b!"UseCMap", IsRef cmap)]
  | .useCmapPredefined name' => [(b!"UseCMap", IsName name')]
  | .stream c => StreamMeans c

def CmapStreamEntries (calls : List CmapStreamCall) : List (Bytes × (Val → Prop)) := [(b!"Type", IsName b!"CMap")] ++ calls.flatMap CmapStreamMeans

end PdfW.Spec
