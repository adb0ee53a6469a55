-- Generated by tools/typed.py from /repo/src; do not edit.
import Verif.Spec.Typed.Annotations
import Verif.Proof.Typed.Enums
import Verif.Proof.Typed.Actions

/-! # Annotations -/

set_option linter.unusedSimpArgs false
set_option linter.unusedVariables false

namespace PdfW
open Spec Props

theorem iconFit_call (c : IconFitCall) : Implied EntryImplied c.entries (IconFitMeans c) := by
  cases c with
  | scale value =>
    simp only [IconFitCall.entries, IconFitMeans]
    implied
  | scaleType value =>
    simp only [IconFitCall.entries, IconFitMeans]
    implied
  | leftoverSpace x y =>
    simp only [IconFitCall.entries, IconFitMeans]
    implied
  | fitBounds fit =>
    simp only [IconFitCall.entries, IconFitMeans]
    implied
  | raw key value =>
    simp only [IconFitCall.entries, IconFitMeans]
    implied

theorem iconFit_implied (calls : List IconFitCall) : Implied EntryImplied (IconFit.entries calls) (IconFitEntries calls) :=
  implied_flatMap calls (fun c h => iconFit_call c)

theorem iconFit_denotes (calls : List IconFitCall) : ItemImplied (IconFit.prog calls) (IsIconFit calls) :=
  l_dict (iconFit_implied calls)

theorem appearanceCharacteristics_call (rd : Reading) (c : AppearanceCharacteristicsCall) (hc : rd = .code ∨ c.conforming = true) : Implied EntryImplied c.entries (AppearanceCharacteristicsMeans rd c) := by
  cases c with
  | rotate degrees =>
    simp only [AppearanceCharacteristicsCall.entries, AppearanceCharacteristicsMeans]
    implied
  | borderColorTransparent =>
    simp only [AppearanceCharacteristicsCall.entries, AppearanceCharacteristicsMeans]
    implied
  | borderColorGray gray =>
    simp only [AppearanceCharacteristicsCall.entries, AppearanceCharacteristicsMeans]
    implied
  | borderColorRgb r g b =>
    simp only [AppearanceCharacteristicsCall.entries, AppearanceCharacteristicsMeans]
    implied
  | borderColorCymk c y m k =>
    obtain rfl : rd = .code := by simpa [AppearanceCharacteristicsCall.conforming] using hc
    simp only [AppearanceCharacteristicsCall.entries, AppearanceCharacteristicsMeans, Reading.pick]

    implied
  | backgroundColorTransparent =>
    simp only [AppearanceCharacteristicsCall.entries, AppearanceCharacteristicsMeans]
    implied
  | backgroundColorGray gray =>
    simp only [AppearanceCharacteristicsCall.entries, AppearanceCharacteristicsMeans]
    implied
  | backgroundColorRgb r g b =>
    simp only [AppearanceCharacteristicsCall.entries, AppearanceCharacteristicsMeans]
    implied
  | backgroundColorCymk c y m k =>
    obtain rfl : rd = .code := by simpa [AppearanceCharacteristicsCall.conforming] using hc
    simp only [AppearanceCharacteristicsCall.entries, AppearanceCharacteristicsMeans, Reading.pick]

    implied
  | normalCaption caption =>
    simp only [AppearanceCharacteristicsCall.entries, AppearanceCharacteristicsMeans]
    implied
  | rolloverCaption caption =>
    simp only [AppearanceCharacteristicsCall.entries, AppearanceCharacteristicsMeans]
    implied
  | alternateCaption caption =>
    simp only [AppearanceCharacteristicsCall.entries, AppearanceCharacteristicsMeans]
    implied
  | normalIcon r =>
    simp only [AppearanceCharacteristicsCall.entries, AppearanceCharacteristicsMeans]
    implied
  | rolloverIcon r =>
    simp only [AppearanceCharacteristicsCall.entries, AppearanceCharacteristicsMeans]
    implied
  | alternateIcon r =>
    simp only [AppearanceCharacteristicsCall.entries, AppearanceCharacteristicsMeans]
    implied
  | iconFit calls =>
    simp only [AppearanceCharacteristicsCall.entries, AppearanceCharacteristicsMeans]
    have nest := iconFit_denotes
    implied
  | textPosition position =>
    simp only [AppearanceCharacteristicsCall.entries, AppearanceCharacteristicsMeans]
    implied
  | raw key value =>
    simp only [AppearanceCharacteristicsCall.entries, AppearanceCharacteristicsMeans]
    implied

theorem appearanceCharacteristics_implied (rd : Reading) (calls : List AppearanceCharacteristicsCall) (hc : rd = .code ∨ calls.all AppearanceCharacteristicsCall.conforming = true) : Implied EntryImplied (AppearanceCharacteristics.entries calls) (AppearanceCharacteristicsEntries rd calls) :=
  implied_flatMap calls (fun c h => appearanceCharacteristics_call rd c (hc.imp_right fun hc => List.all_eq_true.mp hc c h))

theorem appearanceCharacteristics_denotes (rd : Reading) (calls : List AppearanceCharacteristicsCall) (hc : rd = .code ∨ calls.all AppearanceCharacteristicsCall.conforming = true) : ItemImplied (AppearanceCharacteristics.prog calls) (IsAppearanceCharacteristics rd calls) :=
  l_dict (appearanceCharacteristics_implied rd calls hc)

theorem appearanceEntry_denotes (c : AppearanceEntry) : ItemImplied c.prog (IsAppearanceEntry c) := by
  cases c <;> simp only [AppearanceEntry.prog, IsAppearanceEntry] <;> leaf

theorem appearance_call (c : AppearanceCall) : Implied EntryImplied c.entries (AppearanceMeans c) := by
  cases c with
  | normal x =>
    simp only [AppearanceCall.entries, AppearanceMeans]
    have nest := appearanceEntry_denotes
    implied
  | rollover x =>
    simp only [AppearanceCall.entries, AppearanceMeans]
    have nest := appearanceEntry_denotes
    implied
  | alternate x =>
    simp only [AppearanceCall.entries, AppearanceMeans]
    have nest := appearanceEntry_denotes
    implied
  | raw key value =>
    simp only [AppearanceCall.entries, AppearanceMeans]
    implied

theorem appearance_implied (calls : List AppearanceCall) : Implied EntryImplied (Appearance.entries calls) (AppearanceEntries calls) :=
  implied_flatMap calls (fun c h => appearance_call c)

theorem appearance_denotes (calls : List AppearanceCall) : ItemImplied (Appearance.prog calls) (IsAppearance calls) :=
  l_dict (appearance_implied calls)

theorem borderStyle_call (c : BorderStyleCall) : Implied EntryImplied c.entries (BorderStyleMeans c) := by
  cases c with
  | width points =>
    simp only [BorderStyleCall.entries, BorderStyleMeans]
    implied
  | style style' =>
    simp only [BorderStyleCall.entries, BorderStyleMeans]
    implied
  | dashes dashPattern =>
    simp only [BorderStyleCall.entries, BorderStyleMeans]
    implied
  | raw key value =>
    simp only [BorderStyleCall.entries, BorderStyleMeans]
    implied

theorem borderStyle_implied (calls : List BorderStyleCall) : Implied EntryImplied (BorderStyle.entries calls) (BorderStyleEntries calls) :=
  Implied.append (by implied) (implied_flatMap calls (fun c h => borderStyle_call c))

theorem borderStyle_denotes (calls : List BorderStyleCall) : ItemImplied (BorderStyle.prog calls) (IsBorderStyle calls) :=
  l_dict (borderStyle_implied calls)

theorem annotation_call (rd : Reading) (c : AnnotationCall) (hc : rd = .code ∨ c.conforming = true) : Implied EntryImplied c.entries (AnnotationMeans rd c) := by
  cases c with
  | subtype kind =>
    simp only [AnnotationCall.entries, AnnotationMeans]
    implied
  | rect rect' =>
    simp only [AnnotationCall.entries, AnnotationMeans]
    implied
  | contents text =>
    simp only [AnnotationCall.entries, AnnotationMeans]
    implied
  | page r =>
    simp only [AnnotationCall.entries, AnnotationMeans]
    implied
  | name text =>
    simp only [AnnotationCall.entries, AnnotationMeans]
    implied
  | modified date =>
    simp only [AnnotationCall.entries, AnnotationMeans]
    implied
  | flags flags' =>
    simp only [AnnotationCall.entries, AnnotationMeans]
    implied
  | appearance calls =>
    simp only [AnnotationCall.entries, AnnotationMeans]
    have nest := appearance_denotes
    implied
  | appearanceState name' =>
    simp only [AnnotationCall.entries, AnnotationMeans]
    implied
  | border hRadius vRadius width dashPattern =>
    simp only [AnnotationCall.entries, AnnotationMeans]
    cases dashPattern <;> simp only [Option.map, Option.toList] <;> implied
  | borderStyle calls =>
    simp only [AnnotationCall.entries, AnnotationMeans]
    have nest := borderStyle_denotes
    implied
  | colorTransparent =>
    simp only [AnnotationCall.entries, AnnotationMeans]
    implied
  | colorGray gray =>
    simp only [AnnotationCall.entries, AnnotationMeans]
    implied
  | colorRgb r g b =>
    simp only [AnnotationCall.entries, AnnotationMeans]
    implied
  | colorCmyk c m y k =>
    simp only [AnnotationCall.entries, AnnotationMeans]
    implied
  | structParent key =>
    simp only [AnnotationCall.entries, AnnotationMeans]
    implied
  | action calls =>
    simp only [AnnotationCall.entries, AnnotationMeans]
    have nest := action_denotes
    implied
  | additionalActions calls =>
    simp only [AnnotationCall.entries, AnnotationMeans]
    have nest := additionalActions_denotes rd calls (by simpa [AnnotationCall.conforming] using hc)
    implied
  | highlight effect =>
    simp only [AnnotationCall.entries, AnnotationMeans]
    implied
  | author text =>
    simp only [AnnotationCall.entries, AnnotationMeans]
    implied
  | subject text =>
    simp only [AnnotationCall.entries, AnnotationMeans]
    implied
  | quadPoints coordinates =>
    simp only [AnnotationCall.entries, AnnotationMeans]
    implied
  | lineTo x1 y1 x2 y2 =>
    simp only [AnnotationCall.entries, AnnotationMeans]
    implied
  | fileSpec calls =>
    simp only [AnnotationCall.entries, AnnotationMeans]
    have nest := fileSpec_denotes
    implied
  | icon icon' =>
    simp only [AnnotationCall.entries, AnnotationMeans]
    implied
  | appearanceCharacteristics calls =>
    simp only [AnnotationCall.entries, AnnotationMeans]
    have nest := appearanceCharacteristics_denotes rd calls (by simpa [AnnotationCall.conforming] using hc)
    implied
  | parent r =>
    simp only [AnnotationCall.entries, AnnotationMeans]
    implied
  | associatedFiles x =>
    simp only [AnnotationCall.entries, AnnotationMeans]
    have nest := fileSpec_denotes
    implied
  | raw key value =>
    simp only [AnnotationCall.entries, AnnotationMeans]
    implied

theorem annotation_implied (rd : Reading) (calls : List AnnotationCall) (hc : rd = .code ∨ calls.all AnnotationCall.conforming = true) : Implied EntryImplied (Annotation.entries calls) (AnnotationEntries rd calls) :=
  Implied.append (by implied) (implied_flatMap calls (fun c h => annotation_call rd c (hc.imp_right fun hc => List.all_eq_true.mp hc c h)))

theorem annotation_denotes (rd : Reading) (calls : List AnnotationCall) (hc : rd = .code ∨ calls.all AnnotationCall.conforming = true) : ItemImplied (Annotation.prog calls) (IsAnnotation rd calls) :=
  l_dict (annotation_implied rd calls hc)

end PdfW
