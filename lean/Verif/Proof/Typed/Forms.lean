-- Generated by tools/typed.py from /repo/src; do not edit.
import Verif.Spec.Typed.Forms
import Verif.Proof.Typed.Enums
import Verif.Proof.Typed.Annotations
import Verif.Proof.Typed.Resources

/-! # Forms -/

set_option linter.unusedSimpArgs false
set_option linter.unusedVariables false

namespace PdfW
open Spec Props

theorem form_call (c : FormCall) : Implied EntryImplied c.entries (FormMeans c) := by
  cases c with
  | fields fields' =>
    simp only [FormCall.entries, FormMeans]
    implied
  | sigFlags flags =>
    simp only [FormCall.entries, FormMeans]
    implied
  | calculationOrder actions =>
    simp only [FormCall.entries, FormMeans]
    implied
  | defaultResources calls =>
    simp only [FormCall.entries, FormMeans]
    have nest := resources_denotes
    implied
  | defaultAppearance dflt =>
    simp only [FormCall.entries, FormMeans]
    implied
  | quadding dflt =>
    simp only [FormCall.entries, FormMeans]
    implied
  | raw key value =>
    simp only [FormCall.entries, FormMeans]
    implied

theorem form_implied (calls : List FormCall) : Implied EntryImplied (Form.entries calls) (FormEntries calls) :=
  implied_flatMap calls (fun c h => form_call c)

theorem form_denotes (calls : List FormCall) : ItemImplied (Form.prog calls) (IsForm calls) :=
  l_dict (form_implied calls)

theorem choiceOptions_call (c : ChoiceOptionsCall) : Implied ItemImplied c.items (ChoiceOptionsMeans c) := by
  cases c with
  | option value =>
    simp only [ChoiceOptionsCall.items, ChoiceOptionsMeans]
    implied
  | options values =>
    simp only [ChoiceOptionsCall.items, ChoiceOptionsMeans]
    implied
  | «export» value exportValue =>
    simp only [ChoiceOptionsCall.items, ChoiceOptionsMeans]
    implied
  | exports values =>
    simp only [ChoiceOptionsCall.items, ChoiceOptionsMeans]
    implied
  | raw value =>
    simp only [ChoiceOptionsCall.items, ChoiceOptionsMeans]
    implied

theorem choiceOptions_implied (calls : List ChoiceOptionsCall) : Implied ItemImplied (ChoiceOptions.items calls) (ChoiceOptionsItems calls) :=
  implied_flatMap calls (fun c h => choiceOptions_call c)

theorem choiceOptions_denotes (calls : List ChoiceOptionsCall) : ItemImplied (ChoiceOptions.prog calls) (IsChoiceOptions calls) :=
  l_array (choiceOptions_implied calls)

theorem field_call (rd : Reading) (c : FieldCall) (hc : rd = .code ∨ c.conforming = true) : Implied EntryImplied c.entries (FieldMeans rd c) := by
  cases c with
  | fieldType typ =>
    simp only [FieldCall.entries, FieldMeans]
    implied
  | parent r =>
    simp only [FieldCall.entries, FieldMeans]
    implied
  | children children' =>
    simp only [FieldCall.entries, FieldMeans]
    implied
  | partialName name =>
    simp only [FieldCall.entries, FieldMeans]
    implied
  | alternateName alternate =>
    simp only [FieldCall.entries, FieldMeans]
    implied
  | mappingName name =>
    simp only [FieldCall.entries, FieldMeans]
    implied
  | fieldFlags flags =>
    simp only [FieldCall.entries, FieldMeans]
    implied
  | additionalActions calls =>
    simp only [FieldCall.entries, FieldMeans]
    have nest := additionalActions_denotes rd calls (by simpa [FieldCall.conforming] using hc)
    implied
  | intoAnnotation calls =>
    simp only [FieldCall.entries, FieldMeans]
    refine Implied.append (by implied) (implied_flatMap _ fun c h => annotation_call rd c ?_); simp only [FieldCall.conforming, List.all_eq_true] at hc; exact hc.imp_right fun hc => hc c h
  | buttonOptions options =>
    simp only [FieldCall.entries, FieldMeans]
    implied
  | checkboxValue state =>
    simp only [FieldCall.entries, FieldMeans]
    implied
  | checkboxDefaultValue state =>
    simp only [FieldCall.entries, FieldMeans]
    implied
  | radioValue state =>
    simp only [FieldCall.entries, FieldMeans]
    implied
  | radioDefaultValue state =>
    simp only [FieldCall.entries, FieldMeans]
    implied
  | textMaxLen len =>
    simp only [FieldCall.entries, FieldMeans]
    implied
  | textValue value =>
    simp only [FieldCall.entries, FieldMeans]
    implied
  | textDefaultValue value =>
    simp only [FieldCall.entries, FieldMeans]
    implied
  | vartextDefaultAppearance appearance =>
    simp only [FieldCall.entries, FieldMeans]
    implied
  | vartextQuadding quadding =>
    simp only [FieldCall.entries, FieldMeans]
    implied
  | vartextDefaultStyle style =>
    simp only [FieldCall.entries, FieldMeans]
    implied
  | vartextRichValue value =>
    simp only [FieldCall.entries, FieldMeans]
    implied
  | choiceOptions calls =>
    simp only [FieldCall.entries, FieldMeans]
    have nest := choiceOptions_denotes
    implied
  | choiceTopIndex index =>
    simp only [FieldCall.entries, FieldMeans]
    implied
  | choiceIndices indices =>
    simp only [FieldCall.entries, FieldMeans]
    implied
  | choiceValue option =>
    simp only [FieldCall.entries, FieldMeans]
    implied
  | choiceValues options =>
    simp only [FieldCall.entries, FieldMeans]
    implied
  | choiceDefaultValue option =>
    simp only [FieldCall.entries, FieldMeans]
    implied
  | choiceDefaultValues options =>
    simp only [FieldCall.entries, FieldMeans]
    implied
  | signatureFieldLock fieldLock =>
    simp only [FieldCall.entries, FieldMeans]
    implied
  | signatureSeedValue seedValue =>
    simp only [FieldCall.entries, FieldMeans]
    implied
  | raw key value =>
    simp only [FieldCall.entries, FieldMeans]
    implied

theorem field_implied (rd : Reading) (calls : List FieldCall) (hc : rd = .code ∨ calls.all FieldCall.conforming = true) : Implied EntryImplied (Field.entries calls) (FieldEntries rd calls) :=
  implied_flatMap calls (fun c h => field_call rd c (hc.imp_right fun hc => List.all_eq_true.mp hc c h))

theorem field_denotes (rd : Reading) (calls : List FieldCall) (hc : rd = .code ∨ calls.all FieldCall.conforming = true) : ItemImplied (Field.prog calls) (IsField rd calls) :=
  l_dict (field_implied rd calls hc)

theorem signatureFieldLock_call (c : SignatureFieldLockCall) : Implied EntryImplied c.entries (SignatureFieldLockMeans c) := by
  cases c with
  | action action' =>
    simp only [SignatureFieldLockCall.entries, SignatureFieldLockMeans]
    implied
  | fields fields' =>
    simp only [SignatureFieldLockCall.entries, SignatureFieldLockMeans]
    implied
  | accessPermissions p =>
    simp only [SignatureFieldLockCall.entries, SignatureFieldLockMeans]
    implied
  | raw key value =>
    simp only [SignatureFieldLockCall.entries, SignatureFieldLockMeans]
    implied

theorem signatureFieldLock_implied (calls : List SignatureFieldLockCall) : Implied EntryImplied (SignatureFieldLock.entries calls) (SignatureFieldLockEntries calls) :=
  Implied.append (by implied) (implied_flatMap calls (fun c h => signatureFieldLock_call c))

theorem signatureFieldLock_denotes (calls : List SignatureFieldLockCall) : ItemImplied (SignatureFieldLock.prog calls) (IsSignatureFieldLock calls) :=
  l_dict (signatureFieldLock_implied calls)

theorem signatureModificationDetectionPrevention_call (c : SignatureModificationDetectionPreventionCall) : Implied EntryImplied c.entries (SignatureModificationDetectionPreventionMeans c) := by
  cases c with
  | signatureType p =>
    simp only [SignatureModificationDetectionPreventionCall.entries, SignatureModificationDetectionPreventionMeans]
    cases p <;> implied
  | raw key value =>
    simp only [SignatureModificationDetectionPreventionCall.entries, SignatureModificationDetectionPreventionMeans]
    implied

theorem signatureModificationDetectionPrevention_implied (calls : List SignatureModificationDetectionPreventionCall) : Implied EntryImplied (SignatureModificationDetectionPrevention.entries calls) (SignatureModificationDetectionPreventionEntries calls) :=
  implied_flatMap calls (fun c h => signatureModificationDetectionPrevention_call c)

theorem signatureModificationDetectionPrevention_denotes (calls : List SignatureModificationDetectionPreventionCall) : ItemImplied (SignatureModificationDetectionPrevention.prog calls) (IsSignatureModificationDetectionPrevention calls) :=
  l_dict (signatureModificationDetectionPrevention_implied calls)

theorem signatureTimeStamp_call (c : SignatureTimeStampCall) : Implied EntryImplied c.entries (SignatureTimeStampMeans c) := by
  cases c with
  | url url' =>
    simp only [SignatureTimeStampCall.entries, SignatureTimeStampMeans]
    implied
  | required required' =>
    simp only [SignatureTimeStampCall.entries, SignatureTimeStampMeans]
    implied
  | raw key value =>
    simp only [SignatureTimeStampCall.entries, SignatureTimeStampMeans]
    implied

theorem signatureTimeStamp_implied (calls : List SignatureTimeStampCall) : Implied EntryImplied (SignatureTimeStamp.entries calls) (SignatureTimeStampEntries calls) :=
  implied_flatMap calls (fun c h => signatureTimeStamp_call c)

theorem signatureTimeStamp_denotes (calls : List SignatureTimeStampCall) : ItemImplied (SignatureTimeStamp.prog calls) (IsSignatureTimeStamp calls) :=
  l_dict (signatureTimeStamp_implied calls)

theorem certificateSeedValue_call (rd : Reading) (c : CertificateSeedValueCall) (hc : rd = .code ∨ c.conforming = true) : Implied EntryImplied c.entries (CertificateSeedValueMeans rd c) := by
  cases c with
  | constraintFlags flags =>
    simp only [CertificateSeedValueCall.entries, CertificateSeedValueMeans]
    implied
  | subject certificates =>
    simp only [CertificateSeedValueCall.entries, CertificateSeedValueMeans]
    implied
  | signaturePolicyOid oid' =>
    simp only [CertificateSeedValueCall.entries, CertificateSeedValueMeans]
    implied
  | signaturePolicyHashValue hashValue =>
    simp only [CertificateSeedValueCall.entries, CertificateSeedValueMeans]
    implied
  | signaturePolicyHashAlgorithm hashAlgorithm =>
    simp only [CertificateSeedValueCall.entries, CertificateSeedValueMeans]
    implied
  | signaturePolicyCommitmentType commitmentTypes =>
    obtain rfl : rd = .code := by simpa [CertificateSeedValueCall.conforming] using hc
    simp only [CertificateSeedValueCall.entries, CertificateSeedValueMeans, Reading.pick]

    implied
  | subjectDn x =>
    simp only [CertificateSeedValueCall.entries, CertificateSeedValueMeans]
    implied
  | keyUsage usages =>
    simp only [CertificateSeedValueCall.entries, CertificateSeedValueMeans]
    implied
  | issuer issuers =>
    simp only [CertificateSeedValueCall.entries, CertificateSeedValueMeans]
    implied
  | oid oids =>
    simp only [CertificateSeedValueCall.entries, CertificateSeedValueMeans]
    implied
  | url url' =>
    simp only [CertificateSeedValueCall.entries, CertificateSeedValueMeans]
    implied
  | urlType urlType' =>
    simp only [CertificateSeedValueCall.entries, CertificateSeedValueMeans]
    implied
  | raw key value =>
    simp only [CertificateSeedValueCall.entries, CertificateSeedValueMeans]
    implied

theorem certificateSeedValue_implied (rd : Reading) (calls : List CertificateSeedValueCall) (hc : rd = .code ∨ calls.all CertificateSeedValueCall.conforming = true) : Implied EntryImplied (CertificateSeedValue.entries calls) (CertificateSeedValueEntries rd calls) :=
  Implied.append (by implied) (implied_flatMap calls (fun c h => certificateSeedValue_call rd c (hc.imp_right fun hc => List.all_eq_true.mp hc c h)))

theorem certificateSeedValue_denotes (rd : Reading) (calls : List CertificateSeedValueCall) (hc : rd = .code ∨ calls.all CertificateSeedValueCall.conforming = true) : ItemImplied (CertificateSeedValue.prog calls) (IsCertificateSeedValue rd calls) :=
  l_dict (certificateSeedValue_implied rd calls hc)

theorem signatureSeedValue_call (rd : Reading) (c : SignatureSeedValueCall) (hc : rd = .code ∨ c.conforming = true) : Implied EntryImplied c.entries (SignatureSeedValueMeans rd c) := by
  cases c with
  | constraintFlags flags =>
    simp only [SignatureSeedValueCall.entries, SignatureSeedValueMeans]
    implied
  | filter signatureHandler =>
    simp only [SignatureSeedValueCall.entries, SignatureSeedValueMeans]
    implied
  | subFilter encodings =>
    simp only [SignatureSeedValueCall.entries, SignatureSeedValueMeans]
    implied
  | digestMethod methods =>
    simp only [SignatureSeedValueCall.entries, SignatureSeedValueMeans]
    implied
  | version version' =>
    simp only [SignatureSeedValueCall.entries, SignatureSeedValueMeans]
    implied
  | certificate calls =>
    simp only [SignatureSeedValueCall.entries, SignatureSeedValueMeans]
    have nest := certificateSeedValue_denotes rd calls (by simpa [SignatureSeedValueCall.conforming] using hc)
    implied
  | reasons reasons' =>
    simp only [SignatureSeedValueCall.entries, SignatureSeedValueMeans]
    implied
  | modificationDetectionPrevention calls =>
    simp only [SignatureSeedValueCall.entries, SignatureSeedValueMeans]
    have nest := signatureModificationDetectionPrevention_denotes
    implied
  | timestamp calls =>
    simp only [SignatureSeedValueCall.entries, SignatureSeedValueMeans]
    have nest := signatureTimeStamp_denotes
    implied
  | legalAttestation legalAttestations =>
    simp only [SignatureSeedValueCall.entries, SignatureSeedValueMeans]
    implied
  | addRevInfo checkRevocation =>
    simp only [SignatureSeedValueCall.entries, SignatureSeedValueMeans]
    implied
  | lockDocument intent =>
    simp only [SignatureSeedValueCall.entries, SignatureSeedValueMeans]
    implied
  | appearanceFilter signatureAppearance =>
    obtain rfl : rd = .code := by simpa [SignatureSeedValueCall.conforming] using hc
    simp only [SignatureSeedValueCall.entries, SignatureSeedValueMeans, Reading.pick]

    implied
  | raw key value =>
    simp only [SignatureSeedValueCall.entries, SignatureSeedValueMeans]
    implied

theorem signatureSeedValue_implied (rd : Reading) (calls : List SignatureSeedValueCall) (hc : rd = .code ∨ calls.all SignatureSeedValueCall.conforming = true) : Implied EntryImplied (SignatureSeedValue.entries calls) (SignatureSeedValueEntries rd calls) :=
  Implied.append (by implied) (implied_flatMap calls (fun c h => signatureSeedValue_call rd c (hc.imp_right fun hc => List.all_eq_true.mp hc c h)))

theorem signatureSeedValue_denotes (rd : Reading) (calls : List SignatureSeedValueCall) (hc : rd = .code ∨ calls.all SignatureSeedValueCall.conforming = true) : ItemImplied (SignatureSeedValue.prog calls) (IsSignatureSeedValue rd calls) :=
  l_dict (signatureSeedValue_implied rd calls hc)

end PdfW
