-- Generated by tools/typed.py from /repo/src; do not edit.
import Verif.Spec.Typed.Fonts
import Verif.Proof.Typed.Enums
import Verif.Proof.Typed.Object
import Verif.Proof.Typed.Resources

/-! # Fonts -/

set_option linter.unusedSimpArgs false
set_option linter.unusedVariables false

namespace PdfW
open Spec Props

theorem differences_call (c : DifferencesCall) : Implied ItemImplied c.items (DifferencesMeans c) := by
  cases c with
  | consecutive start names =>
    simp only [DifferencesCall.items, DifferencesMeans]
    implied
  | raw value =>
    simp only [DifferencesCall.items, DifferencesMeans]
    implied

theorem differences_implied (calls : List DifferencesCall) : Implied ItemImplied (Differences.items calls) (DifferencesItems calls) :=
  implied_flatMap calls (fun c h => differences_call c)

theorem differences_denotes (calls : List DifferencesCall) : ItemImplied (Differences.prog calls) (IsDifferences calls) :=
  l_array (differences_implied calls)

theorem encoding_call (c : EncodingCall) : Implied EntryImplied c.entries (EncodingMeans c) := by
  cases c with
  | baseEncoding name =>
    simp only [EncodingCall.entries, EncodingMeans]
    implied
  | differences calls =>
    simp only [EncodingCall.entries, EncodingMeans]
    have nest := differences_denotes
    implied
  | raw key value =>
    simp only [EncodingCall.entries, EncodingMeans]
    implied

theorem encoding_implied (calls : List EncodingCall) : Implied EntryImplied (Encoding.entries calls) (EncodingEntries calls) :=
  Implied.append (by implied) (implied_flatMap calls (fun c h => encoding_call c))

theorem encoding_denotes (calls : List EncodingCall) : ItemImplied (Encoding.prog calls) (IsEncoding calls) :=
  l_dict (encoding_implied calls)

theorem type1Font_call (c : Type1FontCall) : Implied EntryImplied c.entries (Type1FontMeans c) := by
  cases c with
  | name name' =>
    simp only [Type1FontCall.entries, Type1FontMeans]
    implied
  | baseFont name' =>
    simp only [Type1FontCall.entries, Type1FontMeans]
    implied
  | firstChar first =>
    simp only [Type1FontCall.entries, Type1FontMeans]
    implied
  | lastChar last =>
    simp only [Type1FontCall.entries, Type1FontMeans]
    implied
  | widths widths' =>
    simp only [Type1FontCall.entries, Type1FontMeans]
    implied
  | fontDescriptor r =>
    simp only [Type1FontCall.entries, Type1FontMeans]
    implied
  | encodingPredefined encoding =>
    simp only [Type1FontCall.entries, Type1FontMeans]
    implied
  | encodingCustom calls =>
    simp only [Type1FontCall.entries, Type1FontMeans]
    have nest := encoding_denotes
    implied
  | toUnicode r =>
    simp only [Type1FontCall.entries, Type1FontMeans]
    implied
  | raw key value =>
    simp only [Type1FontCall.entries, Type1FontMeans]
    implied

theorem type1Font_implied (calls : List Type1FontCall) : Implied EntryImplied (Type1Font.entries calls) (Type1FontEntries calls) :=
  Implied.append (by implied) (implied_flatMap calls (fun c h => type1Font_call c))

theorem type1Font_denotes (calls : List Type1FontCall) : ItemImplied (Type1Font.prog calls) (IsType1Font calls) :=
  l_dict (type1Font_implied calls)

theorem type3Font_call (c : Type3FontCall) : Implied EntryImplied c.entries (Type3FontMeans c) := by
  cases c with
  | name name' =>
    simp only [Type3FontCall.entries, Type3FontMeans]
    implied
  | bbox bbox' =>
    simp only [Type3FontCall.entries, Type3FontMeans]
    implied
  | matrix matrix' =>
    simp only [Type3FontCall.entries, Type3FontMeans]
    implied
  | charProcs x =>
    simp only [Type3FontCall.entries, Type3FontMeans]
    implied
  | encodingPredefined encoding =>
    simp only [Type3FontCall.entries, Type3FontMeans]
    implied
  | encodingCustom calls =>
    simp only [Type3FontCall.entries, Type3FontMeans]
    have nest := encoding_denotes
    implied
  | firstChar first =>
    simp only [Type3FontCall.entries, Type3FontMeans]
    implied
  | lastChar last =>
    simp only [Type3FontCall.entries, Type3FontMeans]
    implied
  | widths widths' =>
    simp only [Type3FontCall.entries, Type3FontMeans]
    implied
  | fontDescriptor r =>
    simp only [Type3FontCall.entries, Type3FontMeans]
    implied
  | resources calls =>
    simp only [Type3FontCall.entries, Type3FontMeans]
    have nest := resources_denotes
    implied
  | toUnicode r =>
    simp only [Type3FontCall.entries, Type3FontMeans]
    implied
  | raw key value =>
    simp only [Type3FontCall.entries, Type3FontMeans]
    implied

theorem type3Font_implied (calls : List Type3FontCall) : Implied EntryImplied (Type3Font.entries calls) (Type3FontEntries calls) :=
  Implied.append (by implied) (implied_flatMap calls (fun c h => type3Font_call c))

theorem type3Font_denotes (calls : List Type3FontCall) : ItemImplied (Type3Font.prog calls) (IsType3Font calls) :=
  l_dict (type3Font_implied calls)

theorem type0Font_call (c : Type0FontCall) : Implied EntryImplied c.entries (Type0FontMeans c) := by
  cases c with
  | baseFont name =>
    simp only [Type0FontCall.entries, Type0FontMeans]
    implied
  | encodingPredefined encoding =>
    simp only [Type0FontCall.entries, Type0FontMeans]
    implied
  | encodingCmap cmap =>
    simp only [Type0FontCall.entries, Type0FontMeans]
    implied
  | descendantFont cidFont =>
    simp only [Type0FontCall.entries, Type0FontMeans]
    implied
  | toUnicode cmap =>
    simp only [Type0FontCall.entries, Type0FontMeans]
    implied
  | raw key value =>
    simp only [Type0FontCall.entries, Type0FontMeans]
    implied

theorem type0Font_implied (calls : List Type0FontCall) : Implied EntryImplied (Type0Font.entries calls) (Type0FontEntries calls) :=
  Implied.append (by implied) (implied_flatMap calls (fun c h => type0Font_call c))

theorem type0Font_denotes (calls : List Type0FontCall) : ItemImplied (Type0Font.prog calls) (IsType0Font calls) :=
  l_dict (type0Font_implied calls)

theorem widths_call (c : WidthsCall) : Implied ItemImplied c.items (WidthsMeans c) := by
  cases c with
  | consecutive start widths =>
    simp only [WidthsCall.items, WidthsMeans]
    implied
  | same first last width =>
    simp only [WidthsCall.items, WidthsMeans]
    implied
  | raw value =>
    simp only [WidthsCall.items, WidthsMeans]
    implied

theorem widths_implied (calls : List WidthsCall) : Implied ItemImplied (Widths.items calls) (WidthsItems calls) :=
  implied_flatMap calls (fun c h => widths_call c)

theorem widths_denotes (calls : List WidthsCall) : ItemImplied (Widths.prog calls) (IsWidths calls) :=
  l_array (widths_implied calls)

theorem cidFont_call (c : CidFontCall) : Implied EntryImplied c.entries (CidFontMeans c) := by
  cases c with
  | subtype subtype' =>
    simp only [CidFontCall.entries, CidFontMeans]
    implied
  | baseFont name =>
    simp only [CidFontCall.entries, CidFontMeans]
    implied
  | systemInfo info =>
    simp only [CidFontCall.entries, CidFontMeans]
    implied
  | fontDescriptor r =>
    simp only [CidFontCall.entries, CidFontMeans]
    implied
  | defaultWidth width =>
    simp only [CidFontCall.entries, CidFontMeans]
    implied
  | widths calls =>
    simp only [CidFontCall.entries, CidFontMeans]
    have nest := widths_denotes
    implied
  | cidToGidMapPredefined name =>
    simp only [CidFontCall.entries, CidFontMeans]
    implied
  | cidToGidMapStream stream =>
    simp only [CidFontCall.entries, CidFontMeans]
    implied
  | raw key value =>
    simp only [CidFontCall.entries, CidFontMeans]
    implied

theorem cidFont_implied (calls : List CidFontCall) : Implied EntryImplied (CidFont.entries calls) (CidFontEntries calls) :=
  Implied.append (by implied) (implied_flatMap calls (fun c h => cidFont_call c))

theorem cidFont_denotes (calls : List CidFontCall) : ItemImplied (CidFont.prog calls) (IsCidFont calls) :=
  l_dict (cidFont_implied calls)

theorem fontDescriptorOverride_call (c : FontDescriptorOverrideCall) : Implied EntryImplied c.entries (FontDescriptorOverrideMeans c) := by
  cases c with
  | customClass cls d =>
    simp only [FontDescriptorOverrideCall.entries, FontDescriptorOverrideMeans]
    implied
  | customClassRef cls r =>
    simp only [FontDescriptorOverrideCall.entries, FontDescriptorOverrideMeans]
    implied
  | cjkClass cls d =>
    simp only [FontDescriptorOverrideCall.entries, FontDescriptorOverrideMeans]
    implied
  | cjkClassRef cls r =>
    simp only [FontDescriptorOverrideCall.entries, FontDescriptorOverrideMeans]
    implied
  | raw key value =>
    simp only [FontDescriptorOverrideCall.entries, FontDescriptorOverrideMeans]
    implied

theorem fontDescriptorOverride_implied (calls : List FontDescriptorOverrideCall) : Implied EntryImplied (FontDescriptorOverride.entries calls) (FontDescriptorOverrideEntries calls) :=
  implied_flatMap calls (fun c h => fontDescriptorOverride_call c)

theorem fontDescriptorOverride_denotes (calls : List FontDescriptorOverrideCall) : ItemImplied (FontDescriptorOverride.prog calls) (IsFontDescriptorOverride calls) :=
  l_dict (fontDescriptorOverride_implied calls)

theorem fontDescriptor_call (c : FontDescriptorCall) : Implied EntryImplied c.entries (FontDescriptorMeans c) := by
  cases c with
  | name name' =>
    simp only [FontDescriptorCall.entries, FontDescriptorMeans]
    implied
  | family family' =>
    simp only [FontDescriptorCall.entries, FontDescriptorMeans]
    implied
  | stretch stretch' =>
    simp only [FontDescriptorCall.entries, FontDescriptorMeans]
    implied
  | weight weight' =>
    simp only [FontDescriptorCall.entries, FontDescriptorMeans]
    implied
  | flags flags' =>
    simp only [FontDescriptorCall.entries, FontDescriptorMeans]
    implied
  | bbox bbox' =>
    simp only [FontDescriptorCall.entries, FontDescriptorMeans]
    implied
  | italicAngle angle =>
    simp only [FontDescriptorCall.entries, FontDescriptorMeans]
    implied
  | ascent ascent' =>
    simp only [FontDescriptorCall.entries, FontDescriptorMeans]
    implied
  | descent descent' =>
    simp only [FontDescriptorCall.entries, FontDescriptorMeans]
    implied
  | leading leading' =>
    simp only [FontDescriptorCall.entries, FontDescriptorMeans]
    implied
  | capHeight capHeight' =>
    simp only [FontDescriptorCall.entries, FontDescriptorMeans]
    implied
  | xHeight xHeight' =>
    simp only [FontDescriptorCall.entries, FontDescriptorMeans]
    implied
  | stemV stemV' =>
    simp only [FontDescriptorCall.entries, FontDescriptorMeans]
    implied
  | stemH stemH' =>
    simp only [FontDescriptorCall.entries, FontDescriptorMeans]
    implied
  | avgWidth avgWidth' =>
    simp only [FontDescriptorCall.entries, FontDescriptorMeans]
    implied
  | maxWidth maxWidth' =>
    simp only [FontDescriptorCall.entries, FontDescriptorMeans]
    implied
  | missingWidth missingWidth' =>
    simp only [FontDescriptorCall.entries, FontDescriptorMeans]
    implied
  | fontFile r =>
    simp only [FontDescriptorCall.entries, FontDescriptorMeans]
    implied
  | fontFile2 r =>
    simp only [FontDescriptorCall.entries, FontDescriptorMeans]
    implied
  | fontFile3 r =>
    simp only [FontDescriptorCall.entries, FontDescriptorMeans]
    implied
  | charSet names =>
    simp only [FontDescriptorCall.entries, FontDescriptorMeans]
    implied
  | style familyClass subclass panose =>
    simp only [FontDescriptorCall.entries, FontDescriptorMeans]
    implied
  | descriptorOverride calls =>
    simp only [FontDescriptorCall.entries, FontDescriptorMeans]
    have nest := fontDescriptorOverride_denotes
    implied
  | cidSet r =>
    simp only [FontDescriptorCall.entries, FontDescriptorMeans]
    implied
  | raw key value =>
    simp only [FontDescriptorCall.entries, FontDescriptorMeans]
    implied

theorem fontDescriptor_implied (calls : List FontDescriptorCall) : Implied EntryImplied (FontDescriptor.entries calls) (FontDescriptorEntries calls) :=
  Implied.append (by implied) (implied_flatMap calls (fun c h => fontDescriptor_call c))

theorem fontDescriptor_denotes (calls : List FontDescriptorCall) : ItemImplied (FontDescriptor.prog calls) (IsFontDescriptor calls) :=
  l_dict (fontDescriptor_implied calls)

theorem cmapStream_call (c : CmapStreamCall) : Implied EntryImplied c.entries (CmapStreamMeans c) := by
  cases c with
  | name name' =>
    simp only [CmapStreamCall.entries, CmapStreamMeans]
    implied
  | systemInfo info =>
    simp only [CmapStreamCall.entries, CmapStreamMeans]
    implied
  | writingMode mode =>
    simp only [CmapStreamCall.entries, CmapStreamMeans]
    implied
  | useCmapStream cmap =>
    simp only [CmapStreamCall.entries, CmapStreamMeans]
    implied
  | useCmapPredefined name' =>
    simp only [CmapStreamCall.entries, CmapStreamMeans]
    implied
  | stream c =>
    simp only [CmapStreamCall.entries, CmapStreamMeans]
    exact stream_call c

theorem cmapStream_implied (calls : List CmapStreamCall) : Implied EntryImplied (CmapStream.entries calls) (CmapStreamEntries calls) :=
  Implied.append (by implied) (implied_flatMap calls (fun c h => cmapStream_call c))

end PdfW
