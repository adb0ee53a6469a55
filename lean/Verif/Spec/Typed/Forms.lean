-- Generated by tools/typed.py from /repo/src; do not edit.
import Verif.Model.Typed.Forms
import Verif.Spec.Typed.Annotations
import Verif.Spec.Typed.Resources

/-! # Meaning of the calls of `Form`, `ChoiceOptions`, `Field`, `SignatureFieldLock`, `SignatureModificationDetectionPrevention`, `SignatureTimeStamp`, `CertificateSeedValue`, `SignatureSeedValue`

Keys from the documentation of each method, value types from the parameter types and ISO 32000. -/

namespace PdfW.Spec
open PdfW

/-- The entries a call of `Form` stands for: key and meaning of the value. -/
def FormMeans : FormCall → List (Bytes × (Val → Prop))
  | .fields fields' => [(b!"Fields", ArrayIs (fields'.map fun x => IsRef x))]
  | .sigFlags flags => [(b!"SigFlags", FlagsAre (flags.map isoSigFlag))]
  | .calculationOrder actions => [(b!"CO", ArrayIs (actions.map fun x => IsRef x))]
  | .defaultResources calls => [(b!"DR", IsResources calls)]
  | .defaultAppearance dflt => [(b!"DA", IsStr dflt)]
  | .quadding dflt => [(b!"Q", IsInt (isoQuadding dflt))]
  | .raw key value => [(key, Denotes value)]

def FormEntries (calls : List FormCall) : List (Bytes × (Val → Prop)) := calls.flatMap FormMeans

def IsForm (calls : List FormCall) : Val → Prop := DictIs (FormEntries calls)

/-- The items a call of `ChoiceOptions` stands for. -/
def ChoiceOptionsMeans : ChoiceOptionsCall → List (Val → Prop)
  | .option value => [IsTextLike value]
  | .options values => values.map IsTextLike
  | .«export» value exportValue => [ArrayIs [IsText exportValue, IsTextLike value]]
  | .exports values => values.map fun e => ArrayIs [IsText e.2, IsTextLike e.1]
  | .raw value => [Denotes value]

def ChoiceOptionsItems (calls : List ChoiceOptionsCall) : List (Val → Prop) := calls.flatMap ChoiceOptionsMeans

def IsChoiceOptions (calls : List ChoiceOptionsCall) : Val → Prop := ArrayIs (ChoiceOptionsItems calls)

/-- The entries a call of `Field` stands for: key and meaning of the value. -/
def FieldMeans (rd : Reading) : FieldCall → List (Bytes × (Val → Prop))
  | .fieldType typ => [(b!"FT", IsName (isoFieldType typ))]
  | .parent r => [(b!"Parent", IsRef r)]
  | .children children' => [(b!"Kids", ArrayIs (children'.map fun x => IsRef x))]
  | .partialName name => [(b!"T", IsText name)]
  | .alternateName alternate => [(b!"TU", IsTextLike alternate)]
  | .mappingName name => [(b!"TM", IsText name)]
  | .fieldFlags flags => [(b!"Ff", FlagsAre (flags.map isoFieldFlag))]
  | .additionalActions calls => [(b!"AA", IsAdditionalActions rd calls)]
  | .intoAnnotation calls => [(b!"Type", IsName b!"Annot"), (b!"Subtype", IsName b!"Widget")] ++ calls.flatMap (AnnotationMeans rd)
  | .buttonOptions options => [(b!"Opt", ArrayIs (options.map fun x => IsText x))]
  | .checkboxValue state => [(b!"V", IsName (isoCheckBoxState state))]
  | .checkboxDefaultValue state => [(b!"DV", IsName (isoCheckBoxState state))]
  | .radioValue state => [(b!"V", IsName state)]
  | .radioDefaultValue state => [(b!"DV", IsName state)]
  | .textMaxLen len => [(b!"MaxLen", IsInt len)]
  | .textValue value => [(b!"V", IsTextLike value)]
  | .textDefaultValue value => [(b!"DV", IsTextLike value)]
  | .vartextDefaultAppearance appearance => [(b!"DA", IsStr appearance)]
  | .vartextQuadding quadding => [(b!"Q", IsInt (isoQuadding quadding))]
  | .vartextDefaultStyle style => [(b!"DS", IsText style)]
  | .vartextRichValue value => [(b!"RV", IsTextLike value)]
  | .choiceOptions calls => [(b!"Opt", IsChoiceOptions calls)]
  | .choiceTopIndex index => [(b!"TI", IsInt index)]
  | .choiceIndices indices => [(b!"I", ArrayIs (indices.map fun x => IsInt x))]
  | .choiceValue option => [(b!"V", IsOptText option)]
  | .choiceValues options => [(b!"V", ArrayIs (options.map fun x => IsText x))]
  | .choiceDefaultValue option => [(b!"DV", IsOptText option)]
  | .choiceDefaultValues options => [(b!"DV", ArrayIs (options.map fun x => IsText x))]
  | .signatureFieldLock fieldLock => [(b!"Lock", IsRef fieldLock)]
  | .signatureSeedValue seedValue => [(b!"SV", IsRef seedValue)]
  | .raw key value => [(key, Denotes value)]

def FieldEntries (rd : Reading) (calls : List FieldCall) : List (Bytes × (Val → Prop)) := calls.flatMap (FieldMeans rd)

def IsField (rd : Reading) (calls : List FieldCall) : Val → Prop := DictIs (FieldEntries rd calls)

/-- Calls whose behaviour is as documented (see `Props/Typed/Defects.lean` for the others). -/
def _root_.PdfW.FieldCall.conforming : FieldCall → Bool
  | .additionalActions calls => calls.all AdditionalActionsCall.conforming
  | .intoAnnotation calls => calls.all AnnotationCall.conforming
  | _ => true

/-- The entries a call of `SignatureFieldLock` stands for: key and meaning of the value. -/
def SignatureFieldLockMeans : SignatureFieldLockCall → List (Bytes × (Val → Prop))
  | .action action' => [(b!"Action", IsName (isoSignatureLockAction action'))]
  | .fields fields' => [(b!"Fields", ArrayIs (fields'.map fun x => IsText x))]
  | .accessPermissions p => [(b!"P", IsInt (isoAccessPermissions p))]
  | .raw key value => [(key, Denotes value)]

def SignatureFieldLockEntries (calls : List SignatureFieldLockCall) : List (Bytes × (Val → Prop)) := [(b!"Type", IsName b!"SigFieldLock")] ++ calls.flatMap SignatureFieldLockMeans

def IsSignatureFieldLock (calls : List SignatureFieldLockCall) : Val → Prop := DictIs (SignatureFieldLockEntries calls)

/-- The entries a call of `SignatureModificationDetectionPrevention` stands for: key and meaning of the value. -/
def SignatureModificationDetectionPreventionMeans : SignatureModificationDetectionPreventionCall → List (Bytes × (Val → Prop))
  | .signatureType p => [(b!"P", IsInt (isoMdpSignatureType p))]
  | .raw key value => [(key, Denotes value)]

def SignatureModificationDetectionPreventionEntries (calls : List SignatureModificationDetectionPreventionCall) : List (Bytes × (Val → Prop)) := calls.flatMap SignatureModificationDetectionPreventionMeans

def IsSignatureModificationDetectionPrevention (calls : List SignatureModificationDetectionPreventionCall) : Val → Prop := DictIs (SignatureModificationDetectionPreventionEntries calls)

/-- The entries a call of `SignatureTimeStamp` stands for: key and meaning of the value. -/
def SignatureTimeStampMeans : SignatureTimeStampCall → List (Bytes × (Val → Prop))
  | .url url' => [(b!"URL", IsStr url')]
  | .required required' => [(b!"Ff", IsInt (if required' then 1 else 0))]
  | .raw key value => [(key, Denotes value)]

def SignatureTimeStampEntries (calls : List SignatureTimeStampCall) : List (Bytes × (Val → Prop)) := calls.flatMap SignatureTimeStampMeans

def IsSignatureTimeStamp (calls : List SignatureTimeStampCall) : Val → Prop := DictIs (SignatureTimeStampEntries calls)

/-- The entries a call of `CertificateSeedValue` stands for: key and meaning of the value. -/
def CertificateSeedValueMeans (rd : Reading) : CertificateSeedValueCall → List (Bytes × (Val → Prop))
  | .constraintFlags flags => [(b!"Ff", FlagsAre (flags.map isoCertificateSeedValueFlag))]
  | .subject certificates => [(b!"Subject", ArrayIs (certificates.map fun x => IsStr x))]
  | .signaturePolicyOid oid' => [(b!"SignaturePolicyOID", IsStr oid')]
  | .signaturePolicyHashValue hashValue => [(b!"SignaturePolicyHashValue", IsStr hashValue)]
  | .signaturePolicyHashAlgorithm hashAlgorithm => [(b!"SignaturePolicyHashAlgorithm", IsName hashAlgorithm)]
  | .signaturePolicyCommitmentType commitmentTypes => rd.pick [(b!"SignaturePolicyCommitmentType", ArrayIs (commitmentTypes.map fun x => IsStr x))] [(b!"SignaturePolicyHashAlgorithm", ArrayIs (commitmentTypes.map fun x => IsStr x))]
  | .subjectDn x => [(b!"SubjectDN", ArrayIs (x.map fun x => DictIs (x.map fun e => (e.1, Denotes e.2))))]
  | .keyUsage usages => [(b!"KeyUsage", ArrayIs (usages.map IsKeyUsage))]
  | .issuer issuers => [(b!"Issuer", ArrayIs (issuers.map fun x => IsStr x))]
  | .oid oids => [(b!"OID", ArrayIs (oids.map fun x => IsStr x))]
  | .url url' => [(b!"URL", IsStr url')]
  | .urlType urlType' => [(b!"URLType", IsName (isoCertificateUrlType urlType'))]
  | .raw key value => [(key, Denotes value)]

def CertificateSeedValueEntries (rd : Reading) (calls : List CertificateSeedValueCall) : List (Bytes × (Val → Prop)) := [(b!"Type", IsName b!"SVCert")] ++ calls.flatMap (CertificateSeedValueMeans rd)

def IsCertificateSeedValue (rd : Reading) (calls : List CertificateSeedValueCall) : Val → Prop := DictIs (CertificateSeedValueEntries rd calls)

/-- Calls whose behaviour is as documented (see `Props/Typed/Defects.lean` for the others). -/
def _root_.PdfW.CertificateSeedValueCall.conforming : CertificateSeedValueCall → Bool
  | .signaturePolicyCommitmentType _ => false
  | _ => true

/-- The entries a call of `SignatureSeedValue` stands for: key and meaning of the value. -/
def SignatureSeedValueMeans (rd : Reading) : SignatureSeedValueCall → List (Bytes × (Val → Prop))
  | .constraintFlags flags => [(b!"Ff", FlagsAre (flags.map isoSignatureSeedValueFlag))]
  | .filter signatureHandler => [(b!"Filter", IsName signatureHandler)]
  | .subFilter encodings => [(b!"SubFilter", ArrayIs (encodings.map fun x => IsName x))]
  | .digestMethod methods => [(b!"DigestMethod", ArrayIs (methods.map fun x => IsName (isoSignatureDigestMethod x)))]
  | .version version' => [(b!"V", IsInt (isoSeedValueParserVersion version'))]
  | .certificate calls => [(b!"Cert", IsCertificateSeedValue rd calls)]
  | .reasons reasons' => [(b!"Reasons", ArrayIs (reasons'.map fun x => IsText x))]
  | .modificationDetectionPrevention calls => [(b!"MDP", IsSignatureModificationDetectionPrevention calls)]
  | .timestamp calls => [(b!"TimeStamp", IsSignatureTimeStamp calls)]
  | .legalAttestation legalAttestations => [(b!"LegalAttestation", ArrayIs (legalAttestations.map fun x => IsText x))]
  | .addRevInfo checkRevocation => [(b!"AddRevInfo", IsBool checkRevocation)]
  | .lockDocument intent => [(b!"LockDocument", IsName (isoLockingIntent intent))]
  | .appearanceFilter signatureAppearance => rd.pick [(b!"AppearanceFilter", IsText signatureAppearance)] [(b!"LockDocument", IsText signatureAppearance)]
  | .raw key value => [(key, Denotes value)]

def SignatureSeedValueEntries (rd : Reading) (calls : List SignatureSeedValueCall) : List (Bytes × (Val → Prop)) := [(b!"Type", IsName b!"SV")] ++ calls.flatMap (SignatureSeedValueMeans rd)

def IsSignatureSeedValue (rd : Reading) (calls : List SignatureSeedValueCall) : Val → Prop := DictIs (SignatureSeedValueEntries rd calls)

/-- Calls whose behaviour is as documented (see `Props/Typed/Defects.lean` for the others). -/
def _root_.PdfW.SignatureSeedValueCall.conforming : SignatureSeedValueCall → Bool
  | .certificate calls => calls.all CertificateSeedValueCall.conforming
  | .appearanceFilter _ => false
  | _ => true

end PdfW.Spec
