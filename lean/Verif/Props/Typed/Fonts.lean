-- Generated by tools/typed.py from /repo/src; do not edit.
import Verif.Proof.Typed.Fonts
import Verif.Proof.Typed.Sample

/-! # C43: typed writers of module Fonts -/

set_option linter.unusedSimpArgs false
set_option linter.unusedVariables false
set_option maxRecDepth 8192

namespace PdfW.Props
open PdfW PdfW.Spec

/-- Example calls. -/
def exDifferences : List DifferencesCall := [.consecutive 1 [b!"A"], .raw (pInt 3)]

/-- C43, `Differences`: any sequence of calls writes an array with, in order, the documented items. -/
theorem C43_differences (calls : List DifferencesCall) (hok : Ok (Differences.prog calls)) : WrittenAs (Differences.prog calls) (IsDifferences calls) :=
  writtenAs_of hok (differences_denotes calls)

example : Ok (Differences.prog exDifferences) := okB_sound _ (by decide +kernel)
example : compactOut (Differences.prog exDifferences) = b!"[1/A 3]" := by decide +kernel

/-- Example calls. -/
def exEncoding : List EncodingCall := [.baseEncoding b!"A", .differences [.consecutive 1 [b!"A"]], .raw b!"A" (pInt 3)]

/-- C43, `Encoding`: any sequence of calls writes a dictionary with, in order, the documented entries. -/
theorem C43_encoding (calls : List EncodingCall) (hok : Ok (Encoding.prog calls)) : WrittenAs (Encoding.prog calls) (IsEncoding calls) :=
  writtenAs_of hok (encoding_denotes calls)

example : Ok (Encoding.prog exEncoding) := okB_sound _ (by decide +kernel)
example : compactOut (Encoding.prog exEncoding) = b!"<</Type/Encoding/BaseEncoding/A/Differences[1/A]/A 3>>" := by decide +kernel

/-- Example calls. -/
def exType1Font : List Type1FontCall := [.name b!"A", .lastChar 1, .encodingPredefined b!"A", .raw b!"A" (pInt 3)]

/-- C43, `Type1Font`: any sequence of calls writes a dictionary with, in order, the documented entries. -/
theorem C43_type1_font (calls : List Type1FontCall) (hok : Ok (Type1Font.prog calls)) : WrittenAs (Type1Font.prog calls) (IsType1Font calls) :=
  writtenAs_of hok (type1Font_denotes calls)

example : Ok (Type1Font.prog exType1Font) := okB_sound _ (by decide +kernel)
example : compactOut (Type1Font.prog exType1Font) = b!"<</Type/Font/Subtype/Type1/Name/A/LastChar 1/Encoding/A/A 3>>" := by decide +kernel

/-- Example calls. -/
def exType3Font : List Type3FontCall := [.name b!"A", .encodingPredefined b!"A", .widths [one], .raw b!"A" (pInt 3)]

/-- C43, `Type3Font`: any sequence of calls writes a dictionary with, in order, the documented entries. -/
theorem C43_type3_font (calls : List Type3FontCall) (hok : Ok (Type3Font.prog calls)) : WrittenAs (Type3Font.prog calls) (IsType3Font calls) :=
  writtenAs_of hok (type3Font_denotes calls)

example : Ok (Type3Font.prog exType3Font) := okB_sound _ (by decide +kernel)
example : compactOut (Type3Font.prog exType3Font) = b!"<</Type/Font/Subtype/Type3/Name/A/Encoding/A/Widths[1]/A 3>>" := by decide +kernel

/-- Example calls. -/
def exType0Font : List Type0FontCall := [.baseFont b!"A", .encodingCmap ⟨7, by decide, by decide⟩, .toUnicode ⟨7, by decide, by decide⟩, .raw b!"A" (pInt 3)]

/-- C43, `Type0Font`: any sequence of calls writes a dictionary with, in order, the documented entries. -/
theorem C43_type0_font (calls : List Type0FontCall) (hok : Ok (Type0Font.prog calls)) : WrittenAs (Type0Font.prog calls) (IsType0Font calls) :=
  writtenAs_of hok (type0Font_denotes calls)

example : Ok (Type0Font.prog exType0Font) := okB_sound _ (by decide +kernel)
example : compactOut (Type0Font.prog exType0Font) = b!"<</Type/Font/Subtype/Type0/BaseFont/A/Encoding 7 0 R/ToUnicode 7 0 R/A 3>>" := by decide +kernel

/-- Example calls. -/
def exWidths : List WidthsCall := [.consecutive 1 [one], .same 1 1 one, .raw (pInt 3)]

/-- C43, `Widths`: any sequence of calls writes an array with, in order, the documented items. -/
theorem C43_widths (calls : List WidthsCall) (hok : Ok (Widths.prog calls)) : WrittenAs (Widths.prog calls) (IsWidths calls) :=
  writtenAs_of hok (widths_denotes calls)

example : Ok (Widths.prog exWidths) := okB_sound _ (by decide +kernel)
example : compactOut (Widths.prog exWidths) = b!"[1[1]1 1 1 3]" := by decide +kernel

/-- Example calls. -/
def exCidFont : List CidFontCall := [.subtype .type2, .fontDescriptor ⟨7, by decide, by decide⟩, .cidToGidMapPredefined b!"A", .raw b!"A" (pInt 3)]

/-- C43, `CidFont`: any sequence of calls writes a dictionary with, in order, the documented entries. -/
theorem C43_cid_font (calls : List CidFontCall) (hok : Ok (CidFont.prog calls)) : WrittenAs (CidFont.prog calls) (IsCidFont calls) :=
  writtenAs_of hok (cidFont_denotes calls)

example : Ok (CidFont.prog exCidFont) := okB_sound _ (by decide +kernel)
example : compactOut (CidFont.prog exCidFont) = b!"<</Type/Font/Subtype/CIDFontType2/FontDescriptor 7 0 R/CIDToGIDMap/A/A 3>>" := by decide +kernel

/-- Example calls. -/
def exFontDescriptorOverride : List FontDescriptorOverrideCall := [.customClass b!"A" (pInt 3), .customClassRef b!"A" ⟨7, by decide, by decide⟩, .cjkClassRef .ruby ⟨7, by decide, by decide⟩, .raw b!"A" (pInt 3)]

/-- C43, `FontDescriptorOverride`: any sequence of calls writes a dictionary with, in order, the documented entries. -/
theorem C43_font_descriptor_override (calls : List FontDescriptorOverrideCall) (hok : Ok (FontDescriptorOverride.prog calls)) : WrittenAs (FontDescriptorOverride.prog calls) (IsFontDescriptorOverride calls) :=
  writtenAs_of hok (fontDescriptorOverride_denotes calls)

example : Ok (FontDescriptorOverride.prog exFontDescriptorOverride) := okB_sound _ (by decide +kernel)
example : compactOut (FontDescriptorOverride.prog exFontDescriptorOverride) = b!"<</A 3/A 7 0 R/Ruby 7 0 R/A 3>>" := by decide +kernel

/-- Example calls. -/
def exFontDescriptor : List FontDescriptorCall := [.name b!"A", .descent one, .missingWidth one, .raw b!"A" (pInt 3)]

/-- C43, `FontDescriptor`: any sequence of calls writes a dictionary with, in order, the documented entries. -/
theorem C43_font_descriptor (calls : List FontDescriptorCall) (hok : Ok (FontDescriptor.prog calls)) : WrittenAs (FontDescriptor.prog calls) (IsFontDescriptor calls) :=
  writtenAs_of hok (fontDescriptor_denotes calls)

example : Ok (FontDescriptor.prog exFontDescriptor) := okB_sound _ (by decide +kernel)
example : compactOut (FontDescriptor.prog exFontDescriptor) = b!"<</Type/FontDescriptor/FontName/A/Descent 1/MissingWidth 1/A 3>>" := by decide +kernel

/-- Example calls. -/
def exCmapStream : List CmapStreamCall := [.name b!"A", .writingMode .vertical, .useCmapPredefined b!"A", .stream (.filter .crypt)]

/-- C43, `CmapStream`: any sequence of calls without an out-of-range argument writes a stream with the data and, in order, the documented entries. -/
theorem C43_cmap_stream (calls : List CmapStreamCall) (hp : calls.any CmapStreamCall.panics = false)
    (hok : OkEntries (CmapStream.entries calls)) (hl : ∀ e ∈ CmapStream.entries calls, e.1 ≠ b!"Length") :
    StreamWrittenAs (CmapStream.write calls) (CmapStream.entries calls) (CmapStreamEntries calls) :=
  streamWrittenAs_of (by intro c r data; rw [CmapStream.write, if_neg (by rw [hp]; exact Bool.false_ne_true)]) hok hl (cmapStream_implied calls)

example : exCmapStream.any CmapStreamCall.panics = false ∧ OkEntries (CmapStream.entries exCmapStream) ∧ ∀ e ∈ CmapStream.entries exCmapStream, e.1 ≠ b!"Length" :=
  ⟨by decide +kernel, okEntriesB_sound _ (by decide +kernel), by decide +kernel⟩
example : streamOut (CmapStream.write exCmapStream) = some b!"5 0 obj\n<</Length 2/Type/CMap/CMapName/A/WMode 1/UseCMap/A/Filter/Crypt>>\nstream\nxy\nendstream\nendobj\n" := by decide +kernel

end PdfW.Props
