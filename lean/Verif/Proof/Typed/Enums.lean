-- Generated by tools/typed.py from /repo/src; do not edit.
import Verif.Proof.Typed.Tactic
import Verif.Spec.Typed.Enums

/-! # Enumerations: the code writes the value the standard assigns -/

namespace PdfW
open Spec

@[simp] theorem isoFilter_eq (x : Filter) : isoFilter x = x.toName := by cases x <;> rfl
@[simp] theorem isoPageLayout_eq (x : PageLayout) : isoPageLayout x = x.toName := by cases x <;> rfl
@[simp] theorem isoPageMode_eq (x : PageMode) : isoPageMode x = x.toName := by cases x <;> rfl
@[simp] theorem isoPhoneticAlphabet_eq (x : PhoneticAlphabet) : isoPhoneticAlphabet x = x.toName := by cases x <;> rfl
@[simp] theorem isoDirection_eq (x : Direction) : isoDirection x = x.toName := by cases x <;> rfl
@[simp] theorem isoNumberingStyle_eq (x : NumberingStyle) : isoNumberingStyle x = x.toName := by cases x <;> rfl
@[simp] theorem isoTrappingStatus_eq (x : TrappingStatus) : isoTrappingStatus x = x.toName := by cases x <;> rfl
@[simp] theorem isoTabOrder_eq (x : TabOrder) : isoTabOrder x = x.toName := by cases x <;> rfl
@[simp] theorem isoOutputIntentSubtype_eq (x : OutputIntentSubtype) : isoOutputIntentSubtype x = x.toName := by cases x <;> rfl
@[simp] theorem isoFieldType_eq (x : FieldType) : isoFieldType x = x.toName := by cases x <;> rfl
@[simp] theorem isoCheckBoxState_eq (x : CheckBoxState) : isoCheckBoxState x = x.toName := by cases x <;> rfl
@[simp] theorem isoSignatureLockAction_eq (x : SignatureLockAction) : isoSignatureLockAction x = x.toName := by cases x <;> rfl
@[simp] theorem isoSignatureDigestMethod_eq (x : SignatureDigestMethod) : isoSignatureDigestMethod x = x.toName := by cases x <;> rfl
@[simp] theorem isoLockingIntent_eq (x : LockingIntent) : isoLockingIntent x = x.toName := by cases x <;> rfl
@[simp] theorem isoCertificateUrlType_eq (x : CertificateUrlType) : isoCertificateUrlType x = x.toName := by cases x <;> rfl
@[simp] theorem isoPlacement_eq (x : Placement) : isoPlacement x = x.toName := by cases x <;> rfl
@[simp] theorem isoWritingMode_eq (x : WritingMode) : isoWritingMode x = x.toName := by cases x <;> rfl
@[simp] theorem isoLayoutBorderStyle_eq (x : LayoutBorderStyle) : isoLayoutBorderStyle x = x.toName := by cases x <;> rfl
@[simp] theorem isoTextAlign_eq (x : TextAlign) : isoTextAlign x = x.toName := by cases x <;> rfl
@[simp] theorem isoBlockAlign_eq (x : BlockAlign) : isoBlockAlign x = x.toName := by cases x <;> rfl
@[simp] theorem isoInlineAlign_eq (x : InlineAlign) : isoInlineAlign x = x.toName := by cases x <;> rfl
@[simp] theorem isoLayoutTextPosition_eq (x : LayoutTextPosition) : isoLayoutTextPosition x = x.toName := by cases x <;> rfl
@[simp] theorem isoTextDecorationType_eq (x : TextDecorationType) : isoTextDecorationType x = x.toName := by cases x <;> rfl
@[simp] theorem isoRubyAlign_eq (x : RubyAlign) : isoRubyAlign x = x.toName := by cases x <;> rfl
@[simp] theorem isoRubyPosition_eq (x : RubyPosition) : isoRubyPosition x = x.toName := by cases x <;> rfl
@[simp] theorem isoListNumbering_eq (x : ListNumbering) : isoListNumbering x = x.toName := by cases x <;> rfl
@[simp] theorem isoFieldRole_eq (x : FieldRole) : isoFieldRole x = x.toName := by cases x <;> rfl
@[simp] theorem isoFieldState_eq (x : FieldState) : isoFieldState x = x.toName := by cases x <;> rfl
@[simp] theorem isoTableHeaderScope_eq (x : TableHeaderScope) : isoTableHeaderScope x = x.toName := by cases x <;> rfl
@[simp] theorem isoNoteType_eq (x : NoteType) : isoNoteType x = x.toName := by cases x <;> rfl
@[simp] theorem isoCidFontType_eq (x : CidFontType) : isoCidFontType x = x.toName := by cases x <;> rfl
@[simp] theorem isoCjkClass_eq (x : CjkClass) : isoCjkClass x = x.toName := by cases x <;> rfl
@[simp] theorem isoFontStretch_eq (x : FontStretch) : isoFontStretch x = x.toName := by cases x <;> rfl
@[simp] theorem isoAnnotationType_eq (x : AnnotationType) : isoAnnotationType x = x.toName := by cases x <;> rfl
@[simp] theorem isoAnnotationIcon_eq (x : AnnotationIcon) : isoAnnotationIcon x = x.toName := by cases x <;> rfl
@[simp] theorem isoIconScale_eq (x : IconScale) : isoIconScale x = x.toName := by cases x <;> rfl
@[simp] theorem isoIconScaleType_eq (x : IconScaleType) : isoIconScaleType x = x.toName := by cases x <;> rfl
@[simp] theorem isoHighlightEffect_eq (x : HighlightEffect) : isoHighlightEffect x = x.toName := by cases x <;> rfl
@[simp] theorem isoBorderType_eq (x : BorderType) : isoBorderType x = x.toName := by cases x <;> rfl
@[simp] theorem isoActionType_eq (x : ActionType) : isoActionType x = x.toName := by cases x <;> rfl
@[simp] theorem isoRenditionType_eq (x : RenditionType) : isoRenditionType x = x.toName := by cases x <;> rfl
@[simp] theorem isoMediaClipType_eq (x : MediaClipType) : isoMediaClipType x = x.toName := by cases x <;> rfl
@[simp] theorem isoAssociationKind_eq (x : AssociationKind) : isoAssociationKind x = x.toName := by cases x <;> rfl
@[simp] theorem isoTransitionStyle_eq (x : TransitionStyle) : isoTransitionStyle x = x.toName := by cases x <;> rfl
@[simp] theorem isoRenderingIntent_eq (x : RenderingIntent) : isoRenderingIntent x = x.toName := by cases x <;> rfl
@[simp] theorem isoArtifactType_eq (x : ArtifactType) : isoArtifactType x = x.toName := by cases x <;> rfl
@[simp] theorem isoArtifactSubtype_eq (x : ArtifactSubtype) : isoArtifactSubtype x = x.toName := by cases x <;> rfl
@[simp] theorem isoArtifactAttachment_eq (x : ArtifactAttachment) : isoArtifactAttachment x = x.toName := by cases x <;> rfl
@[simp] theorem isoProcSet_eq (x : ProcSet) : isoProcSet x = x.toName := by cases x <;> rfl
@[simp] theorem isoBlendMode_eq (x : BlendMode) : isoBlendMode x = x.toName := by cases x <;> rfl
@[simp] theorem isoMaskType_eq (x : MaskType) : isoMaskType x = x.toName := by cases x <;> rfl
@[simp] theorem isoTempFileType_eq (x : TempFileType) : isoTempFileType x = x.toStr := by cases x <;> rfl
@[simp] theorem isoPredictor_eq (x : Predictor) : isoPredictor x = x.toInt := by cases x <;> rfl
@[simp] theorem isoPatternType_eq (x : PatternType) : isoPatternType x = x.toInt := by cases x <;> rfl
@[simp] theorem isoPaintType_eq (x : PaintType) : isoPaintType x = x.toInt := by cases x <;> rfl
@[simp] theorem isoTilingType_eq (x : TilingType) : isoTilingType x = x.toInt := by cases x <;> rfl
@[simp] theorem isoFunctionShadingType_eq (x : FunctionShadingType) : isoFunctionShadingType x = x.toInt := by cases x <;> rfl
@[simp] theorem isoStreamShadingType_eq (x : StreamShadingType) : isoStreamShadingType x = x.toInt := by cases x <;> rfl
@[simp] theorem isoQuadding_eq (x : Quadding) : isoQuadding x = x.toInt := by cases x <;> rfl
@[simp] theorem isoSeedValueParserVersion_eq (x : SeedValueParserVersion) : isoSeedValueParserVersion x = x.toInt := by cases x <;> rfl
@[simp] theorem isoAccessPermissions_eq (x : AccessPermissions) : isoAccessPermissions x = x.toInt := by cases x <;> rfl
@[simp] theorem isoTextPosition_eq (x : TextPosition) : isoTextPosition x = x.toInt := by cases x <;> rfl
@[simp] theorem isoRenditionOperation_eq (x : RenditionOperation) : isoRenditionOperation x = x.toInt := by cases x <;> rfl
@[simp] theorem isoSMaskInData_eq (x : SMaskInData) : isoSMaskInData x = x.toInt := by cases x <;> rfl
@[simp] theorem isoOverprintMode_eq (x : OverprintMode) : isoOverprintMode x = x.toInt := by cases x <;> rfl
@[simp] theorem isoLineCapStyle_eq (x : LineCapStyle) : isoLineCapStyle x = x.toInt := by cases x <;> rfl
@[simp] theorem isoLineJoinStyle_eq (x : LineJoinStyle) : isoLineJoinStyle x = x.toInt := by cases x <;> rfl
@[simp] theorem isoWMode_eq (x : WMode) : isoWMode x = x.toInt := by cases x <;> rfl
@[simp] theorem isoInterpolationOrder_eq (x : InterpolationOrder) : isoInterpolationOrder x = x.toInt := by cases x <;> rfl
@[simp] theorem isoMdpSignatureType_eq (x : MdpSignatureType) : isoMdpSignatureType x = x.toInt := by cases x <;> simp [isoMdpSignatureType, MdpSignatureType.toInt]

end PdfW
