-- Generated by tools/typed.py from /repo/src; do not edit.
import Verif.Proof.Typed.Forms
import Verif.Proof.Typed.Sample

/-! # C45: typed writers of module Forms -/

set_option linter.unusedSimpArgs false
set_option linter.unusedVariables false
set_option maxRecDepth 8192

namespace PdfW.Props
open PdfW PdfW.Spec

/-- Example calls. -/
def exForm : List FormCall := [.fields [⟨7, by decide, by decide⟩], .calculationOrder [⟨7, by decide, by decide⟩], .defaultAppearance b!"A", .raw b!"A" (pInt 3)]

/-- C45, `Form`: any sequence of calls writes a dictionary with, in order, the documented entries. -/
theorem C45_form (calls : List FormCall) (hok : Ok (Form.prog calls)) : WrittenAs (Form.prog calls) (IsForm calls) :=
  writtenAs_of hok (form_denotes calls)

example : Ok (Form.prog exForm) := okB_sound _ (by decide +kernel)
example : compactOut (Form.prog exForm) = b!"<</Fields[7 0 R]/CO[7 0 R]/DA(A)/A 3>>" := by decide +kernel

/-- Example calls. -/
def exChoiceOptions : List ChoiceOptionsCall := [.option (.plain ['a']), .options [.plain ['a']], .exports [(.plain ['a'], ['a', 'b'])], .raw (pInt 3)]

/-- C45, `ChoiceOptions`: any sequence of calls writes an array with, in order, the documented items. -/
theorem C45_choice_options (calls : List ChoiceOptionsCall) (hok : Ok (ChoiceOptions.prog calls)) : WrittenAs (ChoiceOptions.prog calls) (IsChoiceOptions calls) :=
  writtenAs_of hok (choiceOptions_denotes calls)

example : Ok (ChoiceOptions.prog exChoiceOptions) := okB_sound _ (by decide +kernel)
example : compactOut (ChoiceOptions.prog exChoiceOptions) = b!"[(a)(a)[(ab)(a)]3]" := by decide +kernel

/-- Example calls. -/
def exField : List FieldCall := [.fieldType .signature, .checkboxValue .off, .vartextRichValue (.plain ['a']), .raw b!"A" (pInt 3)]

/-- C45, `Field`: any sequence of calls writes a dictionary with, in order, the documented entries. If a call with a known defect is used, the entry it writes is the one of the code (see Defects), otherwise all are those of the standard. -/
theorem C45_field (rd : Reading) (calls : List FieldCall) (hc : rd = .code ∨ calls.all FieldCall.conforming = true) (hok : Ok (Field.prog calls)) : WrittenAs (Field.prog calls) (IsField rd calls) :=
  writtenAs_of hok (field_denotes rd calls hc)

example : Ok (Field.prog exField) := okB_sound _ (by decide +kernel)
example : exField.all FieldCall.conforming = true := by decide +kernel
example : compactOut (Field.prog exField) = b!"<</FT/Sig/V/Off/RV(a)/A 3>>" := by decide +kernel

/-- Example calls. -/
def exSignatureFieldLock : List SignatureFieldLockCall := [.action .exclude, .fields [['a', 'b']], .accessPermissions .annotations, .raw b!"A" (pInt 3)]

/-- C45, `SignatureFieldLock`: any sequence of calls writes a dictionary with, in order, the documented entries. -/
theorem C45_signature_field_lock (calls : List SignatureFieldLockCall) (hok : Ok (SignatureFieldLock.prog calls)) : WrittenAs (SignatureFieldLock.prog calls) (IsSignatureFieldLock calls) :=
  writtenAs_of hok (signatureFieldLock_denotes calls)

example : Ok (SignatureFieldLock.prog exSignatureFieldLock) := okB_sound _ (by decide +kernel)
example : compactOut (SignatureFieldLock.prog exSignatureFieldLock) = b!"<</Type/SigFieldLock/Action/Exclude/Fields[(ab)]/P 3/A 3>>" := by decide +kernel

/-- Example calls. -/
def exSignatureModificationDetectionPrevention : List SignatureModificationDetectionPreventionCall := [.signatureType (.certificationSignature .fillAndSign), .raw b!"A" (pInt 3)]

/-- C45, `SignatureModificationDetectionPrevention`: any sequence of calls writes a dictionary with, in order, the documented entries. -/
theorem C45_signature_modification_detection_prevention (calls : List SignatureModificationDetectionPreventionCall) (hok : Ok (SignatureModificationDetectionPrevention.prog calls)) : WrittenAs (SignatureModificationDetectionPrevention.prog calls) (IsSignatureModificationDetectionPrevention calls) :=
  writtenAs_of hok (signatureModificationDetectionPrevention_denotes calls)

example : Ok (SignatureModificationDetectionPrevention.prog exSignatureModificationDetectionPrevention) := okB_sound _ (by decide +kernel)
example : compactOut (SignatureModificationDetectionPrevention.prog exSignatureModificationDetectionPrevention) = b!"<</P 2/A 3>>" := by decide +kernel

/-- Example calls. -/
def exSignatureTimeStamp : List SignatureTimeStampCall := [.url b!"A", .required true, .raw b!"A" (pInt 3)]

/-- C45, `SignatureTimeStamp`: any sequence of calls writes a dictionary with, in order, the documented entries. -/
theorem C45_signature_time_stamp (calls : List SignatureTimeStampCall) (hok : Ok (SignatureTimeStamp.prog calls)) : WrittenAs (SignatureTimeStamp.prog calls) (IsSignatureTimeStamp calls) :=
  writtenAs_of hok (signatureTimeStamp_denotes calls)

example : Ok (SignatureTimeStamp.prog exSignatureTimeStamp) := okB_sound _ (by decide +kernel)
example : compactOut (SignatureTimeStamp.prog exSignatureTimeStamp) = b!"<</URL(A)/Ff 1/A 3>>" := by decide +kernel

/-- Example calls. -/
def exCertificateSeedValue : List CertificateSeedValueCall := [.constraintFlags [.url], .signaturePolicyHashAlgorithm b!"A", .oid [b!"A"], .raw b!"A" (pInt 3)]

/-- C45, `CertificateSeedValue`: any sequence of calls writes a dictionary with, in order, the documented entries. If a call with a known defect is used, the entry it writes is the one of the code (see Defects), otherwise all are those of the standard. -/
theorem C45_certificate_seed_value (rd : Reading) (calls : List CertificateSeedValueCall) (hc : rd = .code ∨ calls.all CertificateSeedValueCall.conforming = true) (hok : Ok (CertificateSeedValue.prog calls)) : WrittenAs (CertificateSeedValue.prog calls) (IsCertificateSeedValue rd calls) :=
  writtenAs_of hok (certificateSeedValue_denotes rd calls hc)

example : Ok (CertificateSeedValue.prog exCertificateSeedValue) := okB_sound _ (by decide +kernel)
example : exCertificateSeedValue.all CertificateSeedValueCall.conforming = true := by decide +kernel
example : compactOut (CertificateSeedValue.prog exCertificateSeedValue) = b!"<</Type/SVCert/Ff 64/SignaturePolicyHashAlgorithm/A/OID[(A)]/A 3>>" := by decide +kernel

/-- Example calls. -/
def exSignatureSeedValue : List SignatureSeedValueCall := [.constraintFlags [.appearanceFilter], .version .pdf20, .timestamp [.url b!"A"], .raw b!"A" (pInt 3)]

/-- C45, `SignatureSeedValue`: any sequence of calls writes a dictionary with, in order, the documented entries. If a call with a known defect is used, the entry it writes is the one of the code (see Defects), otherwise all are those of the standard. -/
theorem C45_signature_seed_value (rd : Reading) (calls : List SignatureSeedValueCall) (hc : rd = .code ∨ calls.all SignatureSeedValueCall.conforming = true) (hok : Ok (SignatureSeedValue.prog calls)) : WrittenAs (SignatureSeedValue.prog calls) (IsSignatureSeedValue rd calls) :=
  writtenAs_of hok (signatureSeedValue_denotes rd calls hc)

example : Ok (SignatureSeedValue.prog exSignatureSeedValue) := okB_sound _ (by decide +kernel)
example : exSignatureSeedValue.all SignatureSeedValueCall.conforming = true := by decide +kernel
example : compactOut (SignatureSeedValue.prog exSignatureSeedValue) = b!"<</Type/SV/Ff 256/V 3/TimeStamp<</URL(A)>>/A 3>>" := by decide +kernel

end PdfW.Props
