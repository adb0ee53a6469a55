import Verif.Spec.Fields
import Verif.Spec.Colors

/-!
# Settings of interactive forms and details of fields (ISO 32000-1, 12.7.2 to 12.7.4; ISO 32000-2, Tables 235 to 238)

A reader that is given only the bytes of a file and obtains the settings of its interactive form, and for every terminal field what Fields.lean
leaves out: the alternate and the mapping name, how variable text is shown (with what it inherits from the fields above it and from the form),
the options of choices, rich text, and of signature fields the lock and the constraints on signing. It knows nothing about the writer.
-/

namespace PdfW.Spec
open PdfW

/-! ## What there is -/

/-- What happens to which fields when the field is signed. -/
structure Lock where
  action : Bytes
  fields : Option (List (List Char))
  permissions : Option Int
deriving DecidableEq

/-- Constraints on the certificate used for signing: `φ` are flags, `δ` distinguished names. -/
structure Cert (φ δ : Type) where
  flags : Option φ
  subject : Option (List Bytes)
  policyOid : Option Bytes
  policyHash : Option Bytes
  policyAlgorithm : Option Bytes
  names : Option δ
  usage : Option (List (List (Option Bool)))
  issuer : Option (List Bytes)
  oid : Option (List Bytes)
  url : Option Bytes
  urlType : Option Bytes

/-- Constraints on a signature: `φ` are flags, `κ` constraints on the certificate. -/
structure Seed (φ κ : Type) where
  flags : Option φ
  filter : Option Bytes
  subFilter : Option (List Bytes)
  digest : Option (List Bytes)
  version : Option Int
  cert : Option κ
  reasons : Option (List (List Char))
  mdp : Option (Option Int)
  timestamp : Option (Option Bytes × Bool)
  legal : Option (List (List Char))
  revocation : Option Bool
  lockDocument : Option Bytes

/-- What is inherited (Tables 222, 227 and 229): appearance and alignment of variable text, the greatest length of text, the options as pairs of
the exported and the displayed text. (Table 231 does not say that the options of choices are inheritable; this reader, like others, does not ask
for the type of the field.) -/
structure Inherited where
  appearance : Option Bytes
  quadding : Option Int
  maxLen : Option Int
  options : Option (List (List Char × List Char))
deriving DecidableEq

/-- Details of a field; `σ` are constraints on a signature. -/
structure Details (σ : Type) where
  number : Nat
  alternate : Option (List Char)
  mapping : Option (List Char)
  text : Inherited
  style : Option (List Char)
  rich : Option (List Char)
  top : Option Int
  indices : Option (List Int)
  lock : Option Lock
  seed : Option σ

/-- The settings of a form: `φ` are flags, `ρ` resources. -/
structure Settings (φ ρ : Type) where
  sigFlags : Option φ
  order : Option (List Nat)
  resources : Option ρ
  appearance : Option Bytes
  quadding : Option Int

/-! ## The reader -/

abbrev ReadSeed := Seed Nat (Cert Nat (List Val))

/-- An array of which each item is read. -/
def arrayOf {α : Type} (read : Val → Option α) : Val → Option (List α)
  | .arr vs => readEach read vs
  | _ => none

/-- An option: a text that is exported and displayed, or both. -/
def optionOf : Val → Option (List Char × List Char)
  | .arr [a, b] => (readText a).bind fun e => (readText b).map fun d => (e, d)
  | v => (readText v).map fun t => (t, t)

/-- A key usage string. -/
def usageOf : Val → Option (List (Option Bool))
  | .str s => readEach isoKeyUsageBit s
  | _ => none

def readLock (f : FileEnd) (file : Bytes) (v : Val) : Option Lock :=
  (followDict f file v).bind fun d => (requiredEntry b!"Action" d nameOf).bind fun action => (optionalEntry b!"Fields" d (arrayOf readText)).bind fun fields =>
    (optionalEntry b!"P" d intOf).map fun p => ⟨action, fields, p⟩

def readCert (f : FileEnd) (file : Bytes) (v : Val) : Option (Cert Nat (List Val)) :=
  (followDict f file v).bind fun d => (optionalEntry b!"Ff" d flagsOf).bind fun flags => (optionalEntry b!"Subject" d (arrayOf strOf)).bind fun subject =>
    (optionalEntry b!"SignaturePolicyOID" d strOf).bind fun policyOid => (optionalEntry b!"SignaturePolicyHashValue" d strOf).bind fun hash =>
    (optionalEntry b!"SignaturePolicyHashAlgorithm" d nameOf).bind fun algorithm => (optionalEntry b!"SubjectDN" d itemsOf).bind fun names =>
    (optionalEntry b!"KeyUsage" d (arrayOf usageOf)).bind fun usage => (optionalEntry b!"Issuer" d (arrayOf strOf)).bind fun issuer =>
    (optionalEntry b!"OID" d (arrayOf strOf)).bind fun oid => (optionalEntry b!"URL" d strOf).bind fun url => (optionalEntry b!"URLType" d nameOf).map fun urlType =>
      ⟨flags, subject, policyOid, hash, algorithm, names, usage, issuer, oid, url, urlType⟩

/-- A timestamp server; a time stamp is required if the lowest flag is set. -/
def readStamp : Val → Option (Option Bytes × Bool)
  | .dict d => (optionalEntry b!"URL" d strOf).bind fun url => (optionalEntry b!"Ff" d flagsOf).map fun ff => (url, (ff.getD 0).testBit 0)
  | _ => none

/-- Modification detection and prevention. -/
def readMdp : Val → Option (Option Int)
  | .dict d => optionalEntry b!"P" d intOf
  | _ => none

def readSeed (f : FileEnd) (file : Bytes) (v : Val) : Option ReadSeed :=
  (followDict f file v).bind fun d => (optionalEntry b!"Ff" d flagsOf).bind fun flags => (optionalEntry b!"Filter" d nameOf).bind fun filter =>
    (optionalEntry b!"SubFilter" d (arrayOf nameOf)).bind fun subFilter => (optionalEntry b!"DigestMethod" d (arrayOf nameOf)).bind fun digest =>
    (optionalEntry b!"V" d intOf).bind fun version => (optionalEntry b!"Cert" d (readCert f file)).bind fun cert =>
    (optionalEntry b!"Reasons" d (arrayOf readText)).bind fun reasons => (optionalEntry b!"MDP" d readMdp).bind fun mdp =>
    (optionalEntry b!"TimeStamp" d readStamp).bind fun timestamp => (optionalEntry b!"LegalAttestation" d (arrayOf readText)).bind fun legal =>
    (optionalEntry b!"AddRevInfo" d truthOf).bind fun revocation => (optionalEntry b!"LockDocument" d nameOf).map fun lock =>
      ⟨flags, filter, subFilter, digest, version, cert, reasons, mdp, timestamp, legal, revocation, lock⟩

/-- What a field has or inherits. -/
def readInherited (above : Inherited) (d : List (Bytes × Val)) : Option Inherited :=
  (optionalEntry b!"DA" d strOf).bind fun appearance => (optionalEntry b!"Q" d intOf).bind fun quadding => (optionalEntry b!"MaxLen" d intOf).bind fun maxLen =>
    (optionalEntry b!"Opt" d (arrayOf optionOf)).map fun options =>
      ⟨appearance.or above.appearance, quadding.or above.quadding, maxLen.or above.maxLen, options.or above.options⟩

def readDetails (f : FileEnd) (file : Bytes) (n : Nat) (text : Inherited) (d : List (Bytes × Val)) : Option (Details ReadSeed) :=
  (optionalEntry b!"TU" d readText).bind fun alternate => (optionalEntry b!"TM" d readText).bind fun mapping => (optionalEntry b!"DS" d readText).bind fun style =>
    (optionalEntry b!"RV" d readText).bind fun rich => (optionalEntry b!"TI" d intOf).bind fun top => (optionalEntry b!"I" d integersOf).bind fun indices =>
      (optionalEntry b!"Lock" d (readLock f file)).bind fun lock => (optionalEntry b!"SV" d (readSeed f file)).map fun seed =>
        ⟨n, alternate, mapping, text, style, rich, top, indices, lock, seed⟩

/-- The terminal fields at and below a field, given what is inherited and how to read a terminal field. -/
def readFieldsWith {σ α : Type} (own : σ → List (Bytes × Val) → Option σ) (leaf : Nat → σ → List (Bytes × Val) → Option α) (f : FileEnd) (file : Bytes) :
    Nat → σ → Nat → Option (List α)
  | 0, _, _ => none
  | depth + 1, above, n =>
    (dictObject f file n).bind fun d => (own above d).bind fun s =>
      match optionalEntry b!"Kids" d refArray with
      | none => none
      | some none => (leaf n s d).map fun x => [x]
      | some (some ks) => (readEach (isField f file) ks).bind fun bs =>
        if bs.all (· == false) then (leaf n s d).map fun x => [x]
        else if bs.all (· == true) then collect (readFieldsWith own leaf f file depth s) ks
        else none

/-- The settings of the form. -/
def readSettings (d : List (Bytes × Val)) : Option (Settings Nat Val) :=
  (optionalEntry b!"SigFlags" d flagsOf).bind fun flags => (optionalEntry b!"CO" d refArray).bind fun order => (optionalEntry b!"DR" d some).bind fun resources =>
    (optionalEntry b!"DA" d strOf).bind fun appearance => (optionalEntry b!"Q" d intOf).map fun quadding => ⟨flags, order, resources, appearance, quadding⟩

/-- What a form says about all of its fields. -/
def Settings.inherited {φ ρ : Type} (s : Settings φ ρ) : Inherited := ⟨s.appearance, s.quadding, none, none⟩

/-- The form of a file: its settings and the details of its terminal fields. `depth` bounds the depth of the fields. -/
def fileForm (unf : Val → Bytes → Option Bytes) (file : Bytes) (depth : Nat) : Option (Settings Nat Val × List (Details ReadSeed)) :=
  (readFile unf file).bind fun f => (readCatalog f file).bind fun d => (lookup b!"AcroForm" d).bind fun v => (followDict f file v).bind fun fd =>
    (readSettings fd).bind fun s => ((lookup b!"Fields" fd).bind refArray).bind fun tops =>
      (collect (readFieldsWith readInherited (readDetails f file) f file depth s.inherited) tops).map fun l => (s, l)

/-! ## What was asked for -/

abbrev GivenCert := Cert (List CertificateSeedValueFlag) (List (List (Bytes × Prog)))
abbrev GivenSeed := Seed (List SignatureSeedValueFlag) GivenCert

/-- The lock these calls set. -/
structure LockSet (calls : List SignatureFieldLockCall) (x : Lock) : Prop where
  action : ∃ a, x.action = isoSignatureLockAction a ∧ OnlyCall SignatureFieldLockMeans b!"Action" calls (.action a)
  fields : MaybeCall SignatureFieldLockMeans b!"Fields" calls x.fields .fields
  permissions : ∃ p, x.permissions = p.map isoAccessPermissions ∧ MaybeCall SignatureFieldLockMeans b!"P" calls p .accessPermissions

/-- The bits of a key usage. -/
def usageBits (u : KeyUsage) : List (Option Bool) :=
  [u.digitalSignature, u.nonRepudiation, u.keyEncipherment, u.dataEncipherment, u.keyAgreement, u.keyCertSign, u.crlSign, u.encipherOnly, u.decipherOnly]

/-- The constraints these calls set. -/
structure CertSet (calls : List CertificateSeedValueCall) (x : GivenCert) : Prop where
  flags : MaybeCall (CertificateSeedValueMeans .code) b!"Ff" calls x.flags .constraintFlags
  subject : MaybeCall (CertificateSeedValueMeans .code) b!"Subject" calls x.subject .subject
  policyOid : MaybeCall (CertificateSeedValueMeans .code) b!"SignaturePolicyOID" calls x.policyOid .signaturePolicyOid
  policyHash : MaybeCall (CertificateSeedValueMeans .code) b!"SignaturePolicyHashValue" calls x.policyHash .signaturePolicyHashValue
  policyAlgorithm : MaybeCall (CertificateSeedValueMeans .code) b!"SignaturePolicyHashAlgorithm" calls x.policyAlgorithm .signaturePolicyHashAlgorithm
  names : MaybeCall (CertificateSeedValueMeans .code) b!"SubjectDN" calls x.names .subjectDn
  usage : ∃ us, x.usage = us.map (fun l => l.map usageBits) ∧ MaybeCall (CertificateSeedValueMeans .code) b!"KeyUsage" calls us .keyUsage
  issuer : MaybeCall (CertificateSeedValueMeans .code) b!"Issuer" calls x.issuer .issuer
  oid : MaybeCall (CertificateSeedValueMeans .code) b!"OID" calls x.oid .oid
  url : MaybeCall (CertificateSeedValueMeans .code) b!"URL" calls x.url .url
  urlType : ∃ t, x.urlType = t.map isoCertificateUrlType ∧ MaybeCall (CertificateSeedValueMeans .code) b!"URLType" calls t .urlType

/-- The timestamp server these calls set. -/
def StampSet (calls : List SignatureTimeStampCall) (x : Option Bytes × Bool) : Prop :=
  MaybeCall SignatureTimeStampMeans b!"URL" calls x.1 .url ∧
    ∃ r : Option Bool, x.2 = r.getD false ∧ MaybeCall SignatureTimeStampMeans b!"Ff" calls r .required

/-- The modification detection and prevention these calls set. -/
def MdpSet (calls : List SignatureModificationDetectionPreventionCall) (x : Option Int) : Prop :=
  ∃ p, x = p.map isoMdpSignatureType ∧ MaybeCall SignatureModificationDetectionPreventionMeans b!"P" calls p .signatureType

/-- The constraints these calls set. -/
structure SeedSet (calls : List SignatureSeedValueCall) (x : GivenSeed) : Prop where
  flags : MaybeCall (SignatureSeedValueMeans .code) b!"Ff" calls x.flags .constraintFlags
  filter : MaybeCall (SignatureSeedValueMeans .code) b!"Filter" calls x.filter .filter
  subFilter : MaybeCall (SignatureSeedValueMeans .code) b!"SubFilter" calls x.subFilter .subFilter
  digest : ∃ ms, x.digest = ms.map (fun l => l.map isoSignatureDigestMethod) ∧ MaybeCall (SignatureSeedValueMeans .code) b!"DigestMethod" calls ms .digestMethod
  version : ∃ v, x.version = v.map isoSeedValueParserVersion ∧ MaybeCall (SignatureSeedValueMeans .code) b!"V" calls v .version
  cert : ∃ cs, MaybeCall (SignatureSeedValueMeans .code) b!"Cert" calls cs .certificate ∧ BothOrNone CertSet cs x.cert
  reasons : MaybeCall (SignatureSeedValueMeans .code) b!"Reasons" calls x.reasons .reasons
  mdp : ∃ cs, MaybeCall (SignatureSeedValueMeans .code) b!"MDP" calls cs .modificationDetectionPrevention ∧ BothOrNone MdpSet cs x.mdp
  timestamp : ∃ cs, MaybeCall (SignatureSeedValueMeans .code) b!"TimeStamp" calls cs .timestamp ∧ BothOrNone StampSet cs x.timestamp
  legal : MaybeCall (SignatureSeedValueMeans .code) b!"LegalAttestation" calls x.legal .legalAttestation
  revocation : MaybeCall (SignatureSeedValueMeans .code) b!"AddRevInfo" calls x.revocation .addRevInfo
  lockDocument : ∃ i, x.lockDocument = i.map isoLockingIntent ∧ MaybeCall (SignatureSeedValueMeans .code) b!"LockDocument" calls i .lockDocument

/-- The options a call on `ChoiceOptions` adds; text is given without language tags. -/
def OptionSet : ChoiceOptionsCall → List (List Char × List Char) → Prop
  | .option v, x => ∃ t, v = .plain t ∧ x = [(t, t)]
  | .options vs, x => ∃ ts : List (List Char), vs = ts.map TextLike.plain ∧ x = ts.map fun t => (t, t)
  | .«export» v e, x => ∃ t, v = .plain t ∧ x = [(e, t)]
  | .exports es, x => ∃ ps : List (List Char × List Char), es = ps.map (fun p => (TextLike.plain p.2, p.1)) ∧ x = ps
  | .raw _, _ => False

/-- The call sets these options. -/
inductive OptionsSet : FieldCall → List (List Char × List Char) → Prop
  | buttons {ts : List (List Char)} : OptionsSet (.buttonOptions ts) (ts.map fun t => (t, t))
  | choices {calls xs} : Pairwise OptionSet calls xs → OptionsSet (.choiceOptions calls) xs.flatten

/-- These calls on a field set what it says itself; the rest is inherited. -/
def InheritedSet (above : Inherited) (calls : List FieldCall) (x : Inherited) : Prop :=
  ∃ da q ml c o, MaybeCall (FieldMeans .code) b!"DA" calls da .vartextDefaultAppearance ∧ MaybeCall (FieldMeans .code) b!"Q" calls q .vartextQuadding ∧
    MaybeCall (FieldMeans .code) b!"MaxLen" calls ml .textMaxLen ∧ MaybeCall (FieldMeans .code) b!"Opt" calls c (fun c => c) ∧ BothOrNone OptionsSet c o ∧
    x = ⟨da.or above.appearance, (q.map isoQuadding).or above.quadding, ml.or above.maxLen, o.or above.options⟩

/-- These calls on a field set these details; texts are given without language tags. -/
structure DetailsSet (items : List Item) (id : Ref) (text : Inherited) (calls : List FieldCall) (x : Details GivenSeed) : Prop where
  number : x.number = id.get.toNat
  text : x.text = text
  alternate : MaybeCall (FieldMeans .code) b!"TU" calls x.alternate (fun t => .alternateName (.plain t))
  mapping : MaybeCall (FieldMeans .code) b!"TM" calls x.mapping .mappingName
  style : MaybeCall (FieldMeans .code) b!"DS" calls x.style .vartextDefaultStyle
  rich : MaybeCall (FieldMeans .code) b!"RV" calls x.rich (fun t => .vartextRichValue (.plain t))
  top : MaybeCall (FieldMeans .code) b!"TI" calls x.top .choiceTopIndex
  indices : MaybeCall (FieldMeans .code) b!"I" calls x.indices .choiceIndices
  lock : ∃ r, MaybeCall (FieldMeans .code) b!"Lock" calls r .signatureFieldLock ∧
    BothOrNone (fun r l => ∃ cs, HasObject items r (.val (SignatureFieldLock.prog cs)) ∧ LockSet cs l) r x.lock
  seed : ∃ r, MaybeCall (FieldMeans .code) b!"SV" calls r .signatureSeedValue ∧
    BothOrNone (fun r l => ∃ cs, HasObject items r (.val (SignatureSeedValue.prog cs)) ∧ SeedSet cs l) r x.seed

mutual
/-- Of the terminal fields in the tree, in order, this holds; a field passes on what is inherited. -/
def FieldTree.Each {σ α : Type} (own : σ → List FieldCall → σ → Prop) (leaf : Ref → σ → List FieldCall → α → Prop) (above : σ) : FieldTree → List α → Prop
  | .node _ calls _ kids, xs => ∃ s, own above calls s ∧ fieldsEach own leaf s kids xs
  | .widgets id calls _ _, xs => ∃ s x, own above calls s ∧ leaf id s calls x ∧ xs = [x]
  | .merged id calls _ _ _, xs => ∃ s x, own above calls s ∧ leaf id s calls x ∧ xs = [x]
  | .invisible id calls _, xs => ∃ s x, own above calls s ∧ leaf id s calls x ∧ xs = [x]
termination_by structural t => t
def fieldsEach {σ α : Type} (own : σ → List FieldCall → σ → Prop) (leaf : Ref → σ → List FieldCall → α → Prop) (above : σ) : List FieldTree → List α → Prop
  | [], xs => xs = []
  | t :: ts, xs => ∃ ys zs, t.Each own leaf above ys ∧ fieldsEach own leaf above ts zs ∧ xs = ys ++ zs
termination_by structural t => t
end

abbrev GivenSettings := Settings (List SigFlag) (List ResourcesCall)

/-- These calls on a form set these settings. -/
structure SettingsSet (calls : List FormCall) (x : GivenSettings) : Prop where
  sigFlags : MaybeCall FormMeans b!"SigFlags" calls x.sigFlags .sigFlags
  order : ∃ rs, x.order = rs.map (fun l => l.map fun r : Ref => r.get.toNat) ∧ MaybeCall FormMeans b!"CO" calls rs .calculationOrder
  resources : MaybeCall FormMeans b!"DR" calls x.resources .defaultResources
  appearance : MaybeCall FormMeans b!"DA" calls x.appearance .defaultAppearance
  quadding : ∃ q, x.quadding = q.map isoQuadding ∧ MaybeCall FormMeans b!"Q" calls q .quadding

/-- The form was written: in place, or as an object to which the catalog refers. -/
def FormStored (items : List Item) (cat : List CatalogCall) (form : List FormCall) : Prop :=
  OnlyCall (CatalogMeans .code) b!"AcroForm" cat (.form form) ∨
    ∃ id, OnlyCall (CatalogMeans .code) b!"AcroForm" cat (.raw b!"AcroForm" (.prim (.ref id))) ∧ HasObject items id (.val (Form.prog form))

/-! ## What is the same -/

/-- Exactly these flags are set. -/
def FlagsRead {α : Type} (iso : α → Nat) (fl : List α) (n : Nat) : Prop := ∀ i, n.testBit i = true ↔ i + 1 ∈ fl.map iso

structure SameCert (w : GivenCert) (r : Cert Nat (List Val)) : Prop where
  flags : BothOrNone (FlagsRead isoCertificateSeedValueFlag) w.flags r.flags
  names : BothOrNone (Pairwise fun es => DictIs (es.map fun e => (e.1, Denotes e.2))) w.names r.names
  rest : r.subject = w.subject ∧ r.policyOid = w.policyOid ∧ r.policyHash = w.policyHash ∧ r.policyAlgorithm = w.policyAlgorithm ∧ r.usage = w.usage ∧
    r.issuer = w.issuer ∧ r.oid = w.oid ∧ r.url = w.url ∧ r.urlType = w.urlType

structure SameSeed (w : GivenSeed) (r : ReadSeed) : Prop where
  flags : BothOrNone (FlagsRead isoSignatureSeedValueFlag) w.flags r.flags
  cert : BothOrNone SameCert w.cert r.cert
  rest : r.filter = w.filter ∧ r.subFilter = w.subFilter ∧ r.digest = w.digest ∧ r.version = w.version ∧ r.reasons = w.reasons ∧ r.mdp = w.mdp ∧
    r.timestamp = w.timestamp ∧ r.legal = w.legal ∧ r.revocation = w.revocation ∧ r.lockDocument = w.lockDocument

structure SameDetails (w : Details GivenSeed) (r : Details ReadSeed) : Prop where
  seed : BothOrNone SameSeed w.seed r.seed
  rest : r.number = w.number ∧ r.alternate = w.alternate ∧ r.mapping = w.mapping ∧ r.text = w.text ∧ r.style = w.style ∧ r.rich = w.rich ∧ r.top = w.top ∧
    r.indices = w.indices ∧ r.lock = w.lock

structure SameSettings (w : GivenSettings) (r : Settings Nat Val) : Prop where
  sigFlags : BothOrNone (FlagsRead isoSigFlag) w.sigFlags r.sigFlags
  resources : BothOrNone IsResources w.resources r.resources
  rest : r.order = w.order ∧ r.appearance = w.appearance ∧ r.quadding = w.quadding

end PdfW.Spec
