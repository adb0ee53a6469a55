-- Generated by tools/typed.py from /repo/src; do not edit.
import Verif.Model.Typed.Annotations
import Verif.Model.Typed.Resources

/-! # Typed writers: `Form`, `ChoiceOptions`, `Field`, `SignatureFieldLock`, `SignatureModificationDetectionPrevention`, `SignatureTimeStamp`, `CertificateSeedValue`, `SignatureSeedValue` -/

namespace PdfW

/-- Calls of public methods of `Form` (forms.rs:12-12). -/
inductive FormCall where
  /-- forms.rs:17-20 -/
  | fields (fields' : List Ref)
  /-- forms.rs:24-27 -/
  | sigFlags (flags : List SigFlag)
  /-- forms.rs:32-38 -/
  | calculationOrder (actions : List Ref)
  /-- forms.rs:44-46 -/
  | defaultResources (calls : List ResourcesCall)
  /-- forms.rs:51-54 -/
  | defaultAppearance (dflt : Bytes)
  /-- forms.rs:58-61 -/
  | quadding (dflt : Quadding)
  /-- forms.rs:64 -/
  | raw (key : Bytes) (value : Prog)

/-- The entries each method inserts. -/
def FormCall.entries : FormCall → List (Bytes × Prog)
  | .fields fields' => [(b!"Fields", .array (fields'.map fun x => pRef x))]
  | .sigFlags flags => [(b!"SigFlags", pFlags (flags.map SigFlag.bits))]
  | .calculationOrder actions => [(b!"CO", .array (actions.map fun x => pRef x))]
  | .defaultResources calls => [(b!"DR", Resources.prog calls)]
  | .defaultAppearance dflt => [(b!"DA", pStr dflt)]
  | .quadding dflt => [(b!"Q", pInt dflt.toInt)]
  | .raw key value => [(key, value)]

/-- All entries of the object: those of the constructor (forms.rs:12-12), then those of the calls. -/
def Form.entries (calls : List FormCall) : List (Bytes × Prog) := calls.flatMap FormCall.entries

/-- The object written. -/
def Form.prog (calls : List FormCall) : Prog := .dict (Form.entries calls)

/-- Calls of public methods of `ChoiceOptions` (forms.rs:447-447). -/
inductive ChoiceOptionsCall where
  /-- forms.rs:451-454 -/
  | option (value : TextLike)
  /-- forms.rs:457-463 -/
  | options (values : List TextLike)
  /-- forms.rs:466-477 -/
  | «export» (value : TextLike) (exportValue : List Char)
  /-- forms.rs:480-488 -/
  | exports (values : List (TextLike × List Char))
  /-- forms.rs:491 -/
  | raw (value : Prog)

/-- The items each method inserts. -/
def ChoiceOptionsCall.items : ChoiceOptionsCall → List Prog
  | .option value => [value.prog]
  | .options values => values.map TextLike.prog
  | .«export» value exportValue => [.array [pText exportValue, value.prog]]
  | .exports values => values.map fun e => .array [pText e.2, e.1.prog]
  | .raw value => [value]

/-- All items of the object: those of the constructor (forms.rs:447-447), then those of the calls. -/
def ChoiceOptions.items (calls : List ChoiceOptionsCall) : List Prog := calls.flatMap ChoiceOptionsCall.items

/-- The object written. -/
def ChoiceOptions.prog (calls : List ChoiceOptionsCall) : Prog := .array (ChoiceOptions.items calls)

/-- Calls of public methods of `Field` (forms.rs:89-89). -/
inductive FieldCall where
  /-- forms.rs:94-97 -/
  | fieldType (typ : FieldType)
  /-- forms.rs:101-104 -/
  | parent (r : Ref)
  /-- forms.rs:109-112 -/
  | children (children' : List Ref)
  /-- forms.rs:124-127 -/
  | partialName (name : List Char)
  /-- forms.rs:135-138 -/
  | alternateName (alternate : TextLike)
  /-- forms.rs:143-146 -/
  | mappingName (name : List Char)
  /-- forms.rs:150-153 -/
  | fieldFlags (flags : List FieldFlag)
  /-- forms.rs:159-161 -/
  | additionalActions (calls : List AdditionalActionsCall)
  /-- forms.rs:170-175 -/
  | intoAnnotation (calls : List AnnotationCall)
  /-- forms.rs:211-217 -/
  | buttonOptions (options : List (List Char))
  /-- forms.rs:226-229 -/
  | checkboxValue (state : CheckBoxState)
  /-- forms.rs:235-238 -/
  | checkboxDefaultValue (state : CheckBoxState)
  /-- forms.rs:265-268 -/
  | radioValue (state : Bytes)
  /-- forms.rs:275-278 -/
  | radioDefaultValue (state : Bytes)
  /-- forms.rs:288-291 -/
  | textMaxLen (len : Int)
  /-- forms.rs:295-298 -/
  | textValue (value : TextLike)
  /-- forms.rs:302-305 -/
  | textDefaultValue (value : TextLike)
  /-- forms.rs:314-317 -/
  | vartextDefaultAppearance (appearance : Bytes)
  /-- forms.rs:322-325 -/
  | vartextQuadding (quadding : Quadding)
  /-- forms.rs:329-332 -/
  | vartextDefaultStyle (style : List Char)
  /-- forms.rs:340-343 -/
  | vartextRichValue (value : TextLike)
  /-- forms.rs:362-364 -/
  | choiceOptions (calls : List ChoiceOptionsCall)
  /-- forms.rs:369-372 -/
  | choiceTopIndex (index : Int)
  /-- forms.rs:385-391 -/
  | choiceIndices (indices : List Int)
  /-- forms.rs:397-403 -/
  | choiceValue (option : Option (List Char))
  /-- forms.rs:408-414 -/
  | choiceValues (options : List (List Char))
  /-- forms.rs:420-426 -/
  | choiceDefaultValue (option : Option (List Char))
  /-- forms.rs:431-437 -/
  | choiceDefaultValues (options : List (List Char))
  /-- forms.rs:498-501 -/
  | signatureFieldLock (fieldLock : Ref)
  /-- forms.rs:506-509 -/
  | signatureSeedValue (seedValue : Ref)
  /-- forms.rs:178 -/
  | raw (key : Bytes) (value : Prog)

/-- The entries each method inserts. -/
def FieldCall.entries : FieldCall → List (Bytes × Prog)
  | .fieldType typ => [(b!"FT", pName typ.toName)]
  | .parent r => [(b!"Parent", pRef r)]
  | .children children' => [(b!"Kids", .array (children'.map fun x => pRef x))]
  | .partialName name => [(b!"T", pText name)]
  | .alternateName alternate => [(b!"TU", alternate.prog)]
  | .mappingName name => [(b!"TM", pText name)]
  | .fieldFlags flags => [(b!"Ff", pFlags (flags.map FieldFlag.bits))]
  | .additionalActions calls => [(b!"AA", AdditionalActions.prog calls)]
  | .intoAnnotation calls => [(b!"Type", pName b!"Annot"), (b!"Subtype", pName AnnotationType.widget.toName)] ++ calls.flatMap AnnotationCall.entries
  | .buttonOptions options => [(b!"Opt", .array (options.map fun x => pText x))]
  | .checkboxValue state => [(b!"V", pName state.toName)]
  | .checkboxDefaultValue state => [(b!"DV", pName state.toName)]
  | .radioValue state => [(b!"V", pName state)]
  | .radioDefaultValue state => [(b!"DV", pName state)]
  | .textMaxLen len => [(b!"MaxLen", pInt len)]
  | .textValue value => [(b!"V", value.prog)]
  | .textDefaultValue value => [(b!"DV", value.prog)]
  | .vartextDefaultAppearance appearance => [(b!"DA", pStr appearance)]
  | .vartextQuadding quadding => [(b!"Q", pInt quadding.toInt)]
  | .vartextDefaultStyle style => [(b!"DS", pText style)]
  | .vartextRichValue value => [(b!"RV", value.prog)]
  | .choiceOptions calls => [(b!"Opt", ChoiceOptions.prog calls)]
  | .choiceTopIndex index => [(b!"TI", pInt index)]
  | .choiceIndices indices => [(b!"I", .array (indices.map fun x => pInt x))]
  | .choiceValue option => [(b!"V", optText option)]
  | .choiceValues options => [(b!"V", .array (options.map fun x => pText x))]
  | .choiceDefaultValue option => [(b!"DV", optText option)]
  | .choiceDefaultValues options => [(b!"DV", .array (options.map fun x => pText x))]
  | .signatureFieldLock fieldLock => [(b!"Lock", pRef fieldLock)]
  | .signatureSeedValue seedValue => [(b!"SV", pRef seedValue)]
  | .raw key value => [(key, value)]

/-- All entries of the object: those of the constructor (forms.rs:89-89), then those of the calls. -/
def Field.entries (calls : List FieldCall) : List (Bytes × Prog) := calls.flatMap FieldCall.entries

/-- The object written. -/
def Field.prog (calls : List FieldCall) : Prog := .dict (Field.entries calls)

/-- Calls of public methods of `SignatureFieldLock` (forms.rs:519-523). -/
inductive SignatureFieldLockCall where
  /-- forms.rs:530-533 -/
  | action (action' : SignatureLockAction)
  /-- forms.rs:541-547 -/
  | fields (fields' : List (List Char))
  /-- forms.rs:551-554 -/
  | accessPermissions (p : AccessPermissions)
  /-- forms.rs:557 -/
  | raw (key : Bytes) (value : Prog)

/-- The entries each method inserts. -/
def SignatureFieldLockCall.entries : SignatureFieldLockCall → List (Bytes × Prog)
  | .action action' => [(b!"Action", pName action'.toName)]
  | .fields fields' => [(b!"Fields", .array (fields'.map fun x => pText x))]
  | .accessPermissions p => [(b!"P", pInt p.toInt)]
  | .raw key value => [(key, value)]

/-- All entries of the object: those of the constructor (forms.rs:519-523), then those of the calls. -/
def SignatureFieldLock.entries (calls : List SignatureFieldLockCall) : List (Bytes × Prog) := [(b!"Type", pName b!"SigFieldLock")] ++ calls.flatMap SignatureFieldLockCall.entries

/-- The object written. -/
def SignatureFieldLock.prog (calls : List SignatureFieldLockCall) : Prog := .dict (SignatureFieldLock.entries calls)

/-- Calls of public methods of `SignatureModificationDetectionPrevention` (forms.rs:822-822). -/
inductive SignatureModificationDetectionPreventionCall where
  /-- forms.rs:827-830 -/
  | signatureType (p : MdpSignatureType)
  /-- forms.rs:833 -/
  | raw (key : Bytes) (value : Prog)

/-- The entries each method inserts. -/
def SignatureModificationDetectionPreventionCall.entries : SignatureModificationDetectionPreventionCall → List (Bytes × Prog)
  | .signatureType p => [(b!"P", pInt p.toInt)]
  | .raw key value => [(key, value)]

/-- All entries of the object: those of the constructor (forms.rs:822-822), then those of the calls. -/
def SignatureModificationDetectionPrevention.entries (calls : List SignatureModificationDetectionPreventionCall) : List (Bytes × Prog) := calls.flatMap SignatureModificationDetectionPreventionCall.entries

/-- The object written. -/
def SignatureModificationDetectionPrevention.prog (calls : List SignatureModificationDetectionPreventionCall) : Prog := .dict (SignatureModificationDetectionPrevention.entries calls)

/-- Calls of public methods of `SignatureTimeStamp` (forms.rs:886-886). -/
inductive SignatureTimeStampCall where
  /-- forms.rs:891-894 -/
  | url (url' : Bytes)
  /-- forms.rs:897-900 -/
  | required (required' : Bool)
  /-- forms.rs:903 -/
  | raw (key : Bytes) (value : Prog)

/-- The entries each method inserts. -/
def SignatureTimeStampCall.entries : SignatureTimeStampCall → List (Bytes × Prog)
  | .url url' => [(b!"URL", pStr url')]
  | .required required' => [(b!"Ff", pInt (if required' then 1 else 0))]
  | .raw key value => [(key, value)]

/-- All entries of the object: those of the constructor (forms.rs:886-886), then those of the calls. -/
def SignatureTimeStamp.entries (calls : List SignatureTimeStampCall) : List (Bytes × Prog) := calls.flatMap SignatureTimeStampCall.entries

/-- The object written. -/
def SignatureTimeStamp.prog (calls : List SignatureTimeStampCall) : Prog := .dict (SignatureTimeStamp.entries calls)

/-- Calls of public methods of `CertificateSeedValue` (forms.rs:935-939). -/
inductive CertificateSeedValueCall where
  /-- forms.rs:944-947 -/
  | constraintFlags (flags : List CertificateSeedValueFlag)
  /-- forms.rs:954-960 -/
  | subject (certificates : List Bytes)
  /-- forms.rs:964-967 -/
  | signaturePolicyOid (oid' : Bytes)
  /-- forms.rs:974-977 -/
  | signaturePolicyHashValue (hashValue : Bytes)
  /-- forms.rs:983-989 -/
  | signaturePolicyHashAlgorithm (hashAlgorithm : Bytes)
  /-- forms.rs:997-1005 -/
  | signaturePolicyCommitmentType (commitmentTypes : List Bytes)
  /-- forms.rs:1017-1019 -/
  | subjectDn (x : List (List (Bytes × Prog)))
  /-- forms.rs:1027-1037 -/
  | keyUsage (usages : List KeyUsage)
  /-- forms.rs:1044-1050 -/
  | issuer (issuers : List Bytes)
  /-- forms.rs:1057-1060 -/
  | oid (oids : List Bytes)
  /-- forms.rs:1064-1067 -/
  | url (url' : Bytes)
  /-- forms.rs:1072-1075 -/
  | urlType (urlType' : CertificateUrlType)
  /-- forms.rs:1078 -/
  | raw (key : Bytes) (value : Prog)

/-- The entries each method inserts. -/
def CertificateSeedValueCall.entries : CertificateSeedValueCall → List (Bytes × Prog)
  | .constraintFlags flags => [(b!"Ff", pFlags (flags.map CertificateSeedValueFlag.bits))]
  | .subject certificates => [(b!"Subject", .array (certificates.map fun x => pStr x))]
  | .signaturePolicyOid oid' => [(b!"SignaturePolicyOID", pStr oid')]
  | .signaturePolicyHashValue hashValue => [(b!"SignaturePolicyHashValue", pStr hashValue)]
  | .signaturePolicyHashAlgorithm hashAlgorithm => [(b!"SignaturePolicyHashAlgorithm", pName hashAlgorithm)]
  | .signaturePolicyCommitmentType commitmentTypes => [(b!"SignaturePolicyHashAlgorithm", .array (commitmentTypes.map fun x => pStr x))]
  | .subjectDn x => [(b!"SubjectDN", .array (x.map fun x => .dict x))]
  | .keyUsage usages => [(b!"KeyUsage", .array (usages.map fun u => pStr u.intoAscii))]
  | .issuer issuers => [(b!"Issuer", .array (issuers.map fun x => pStr x))]
  | .oid oids => [(b!"OID", .array (oids.map fun x => pStr x))]
  | .url url' => [(b!"URL", pStr url')]
  | .urlType urlType' => [(b!"URLType", pName urlType'.toName)]
  | .raw key value => [(key, value)]

/-- All entries of the object: those of the constructor (forms.rs:935-939), then those of the calls. -/
def CertificateSeedValue.entries (calls : List CertificateSeedValueCall) : List (Bytes × Prog) := [(b!"Type", pName b!"SVCert")] ++ calls.flatMap CertificateSeedValueCall.entries

/-- The object written. -/
def CertificateSeedValue.prog (calls : List CertificateSeedValueCall) : Prog := .dict (CertificateSeedValue.entries calls)

/-- Calls of public methods of `SignatureSeedValue` (forms.rs:590-594). -/
inductive SignatureSeedValueCall where
  /-- forms.rs:599-602 -/
  | constraintFlags (flags : List SignatureSeedValueFlag)
  /-- forms.rs:609-612 -/
  | filter (signatureHandler : Bytes)
  /-- forms.rs:618-624 -/
  | subFilter (encodings : List Bytes)
  /-- forms.rs:631-639 -/
  | digestMethod (methods : List SignatureDigestMethod)
  /-- forms.rs:646-649 -/
  | version (version' : SeedValueParserVersion)
  /-- forms.rs:653-655 -/
  | certificate (calls : List CertificateSeedValueCall)
  /-- forms.rs:662-668 -/
  | reasons (reasons' : List (List Char))
  /-- forms.rs:672-676 -/
  | modificationDetectionPrevention (calls : List SignatureModificationDetectionPreventionCall)
  /-- forms.rs:681-683 -/
  | timestamp (calls : List SignatureTimeStampCall)
  /-- forms.rs:690-698 -/
  | legalAttestation (legalAttestations : List (List Char))
  /-- forms.rs:705-708 -/
  | addRevInfo (checkRevocation : Bool)
  /-- forms.rs:717-720 -/
  | lockDocument (intent : LockingIntent)
  /-- forms.rs:728-731 -/
  | appearanceFilter (signatureAppearance : List Char)
  /-- forms.rs:734 -/
  | raw (key : Bytes) (value : Prog)

/-- The entries each method inserts. -/
def SignatureSeedValueCall.entries : SignatureSeedValueCall → List (Bytes × Prog)
  | .constraintFlags flags => [(b!"Ff", pFlags (flags.map SignatureSeedValueFlag.bits))]
  | .filter signatureHandler => [(b!"Filter", pName signatureHandler)]
  | .subFilter encodings => [(b!"SubFilter", .array (encodings.map fun x => pName x))]
  | .digestMethod methods => [(b!"DigestMethod", .array (methods.map fun x => pName x.toName))]
  | .version version' => [(b!"V", pInt version'.toInt)]
  | .certificate calls => [(b!"Cert", CertificateSeedValue.prog calls)]
  | .reasons reasons' => [(b!"Reasons", .array (reasons'.map fun x => pText x))]
  | .modificationDetectionPrevention calls => [(b!"MDP", SignatureModificationDetectionPrevention.prog calls)]
  | .timestamp calls => [(b!"TimeStamp", SignatureTimeStamp.prog calls)]
  | .legalAttestation legalAttestations => [(b!"LegalAttestation", .array (legalAttestations.map fun x => pText x))]
  | .addRevInfo checkRevocation => [(b!"AddRevInfo", pBool checkRevocation)]
  | .lockDocument intent => [(b!"LockDocument", pName intent.toName)]
  | .appearanceFilter signatureAppearance => [(b!"LockDocument", pText signatureAppearance)]
  | .raw key value => [(key, value)]

/-- All entries of the object: those of the constructor (forms.rs:590-594), then those of the calls. -/
def SignatureSeedValue.entries (calls : List SignatureSeedValueCall) : List (Bytes × Prog) := [(b!"Type", pName b!"SV")] ++ calls.flatMap SignatureSeedValueCall.entries

/-- The object written. -/
def SignatureSeedValue.prog (calls : List SignatureSeedValueCall) : Prog := .dict (SignatureSeedValue.entries calls)

end PdfW
