-- Generated by tools/typed.py from /repo/src; do not edit.
import Verif.Proof.Typed.Annotations
import Verif.Proof.Typed.Sample

/-! # C45: typed writers of module Annotations -/

set_option linter.unusedSimpArgs false
set_option linter.unusedVariables false
set_option maxRecDepth 8192

namespace PdfW.Props
open PdfW PdfW.Spec

/-- Example calls. -/
def exIconFit : List IconFitCall := [.scale .never, .scaleType .proportional, .fitBounds true, .raw b!"A" (pInt 3)]

/-- C45, `IconFit`: any sequence of calls writes a dictionary with, in order, the documented entries. -/
theorem C45_icon_fit (calls : List IconFitCall) (hok : Ok (IconFit.prog calls)) : WrittenAs (IconFit.prog calls) (IsIconFit calls) :=
  writtenAs_of hok (iconFit_denotes calls)

example : Ok (IconFit.prog exIconFit) := okB_sound _ (by decide +kernel)
example : compactOut (IconFit.prog exIconFit) = b!"<</SW/N/S/P/FB true/A 3>>" := by decide +kernel

/-- Example calls. -/
def exAppearanceCharacteristics : List AppearanceCharacteristicsCall := [.rotate 1, .backgroundColorGray one, .normalIcon ⟨7, by decide, by decide⟩, .raw b!"A" (pInt 3)]

/-- C45, `AppearanceCharacteristics`: any sequence of calls writes a dictionary with, in order, the documented entries. If a call with a known defect is used, the entry it writes is the one of the code (see Defects), otherwise all are those of the standard. -/
theorem C45_appearance_characteristics (rd : Reading) (calls : List AppearanceCharacteristicsCall) (hc : rd = .code ∨ calls.all AppearanceCharacteristicsCall.conforming = true) (hok : Ok (AppearanceCharacteristics.prog calls)) : WrittenAs (AppearanceCharacteristics.prog calls) (IsAppearanceCharacteristics rd calls) :=
  writtenAs_of hok (appearanceCharacteristics_denotes rd calls hc)

example : Ok (AppearanceCharacteristics.prog exAppearanceCharacteristics) := okB_sound _ (by decide +kernel)
example : exAppearanceCharacteristics.all AppearanceCharacteristicsCall.conforming = true := by decide +kernel
example : compactOut (AppearanceCharacteristics.prog exAppearanceCharacteristics) = b!"<</R 1/BG[1]/I 7 0 R/A 3>>" := by decide +kernel

/-- C45, `AppearanceEntry`: the call is written as the value it stands for. -/
theorem C45_appearance_entry (c : AppearanceEntry) (hok : Ok c.prog) : WrittenAs c.prog (IsAppearanceEntry c) := writtenAs_of hok (appearanceEntry_denotes c)

example : Ok (.streams [(b!"A", ⟨7, by decide, by decide⟩)] : AppearanceEntry).prog := okB_sound _ (by decide +kernel)

/-- Example calls. -/
def exAppearance : List AppearanceCall := [.normal (.stream ⟨7, by decide, by decide⟩), .rollover (.stream ⟨7, by decide, by decide⟩), .alternate (.stream ⟨7, by decide, by decide⟩), .raw b!"A" (pInt 3)]

/-- C45, `Appearance`: any sequence of calls writes a dictionary with, in order, the documented entries. -/
theorem C45_appearance (calls : List AppearanceCall) (hok : Ok (Appearance.prog calls)) : WrittenAs (Appearance.prog calls) (IsAppearance calls) :=
  writtenAs_of hok (appearance_denotes calls)

example : Ok (Appearance.prog exAppearance) := okB_sound _ (by decide +kernel)
example : compactOut (Appearance.prog exAppearance) = b!"<</N 7 0 R/R 7 0 R/D 7 0 R/A 3>>" := by decide +kernel

/-- Example calls. -/
def exBorderStyle : List BorderStyleCall := [.width one, .style .underline, .dashes [one], .raw b!"A" (pInt 3)]

/-- C45, `BorderStyle`: any sequence of calls writes a dictionary with, in order, the documented entries. -/
theorem C45_border_style (calls : List BorderStyleCall) (hok : Ok (BorderStyle.prog calls)) : WrittenAs (BorderStyle.prog calls) (IsBorderStyle calls) :=
  writtenAs_of hok (borderStyle_denotes calls)

example : Ok (BorderStyle.prog exBorderStyle) := okB_sound _ (by decide +kernel)
example : compactOut (BorderStyle.prog exBorderStyle) = b!"<</Type/Border/W 1/S/U/D[1]/A 3>>" := by decide +kernel

/-- Example calls. -/
def exAnnotation : List AnnotationCall := [.subtype .screen, .borderStyle [.width one], .author (.plain ['a']), .raw b!"A" (pInt 3)]

/-- C45, `Annotation`: any sequence of calls writes a dictionary with, in order, the documented entries. If a call with a known defect is used, the entry it writes is the one of the code (see Defects), otherwise all are those of the standard. -/
theorem C45_annotation (rd : Reading) (calls : List AnnotationCall) (hc : rd = .code ∨ calls.all AnnotationCall.conforming = true) (hok : Ok (Annotation.prog calls)) : WrittenAs (Annotation.prog calls) (IsAnnotation rd calls) :=
  writtenAs_of hok (annotation_denotes rd calls hc)

example : Ok (Annotation.prog exAnnotation) := okB_sound _ (by decide +kernel)
example : exAnnotation.all AnnotationCall.conforming = true := by decide +kernel
example : compactOut (Annotation.prog exAnnotation) = b!"<</Type/Annot/Subtype/Screen/BS<</Type/Border/W 1>>/T(a)/A 3>>" := by decide +kernel

end PdfW.Props
