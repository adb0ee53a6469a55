import Verif.Spec.Tagged
import Verif.Spec.Colors

/-!
# What structure elements mean (ISO 32000-1, 14.7.3, 14.7.5 and 14.8.5; ISO 32000-2, 14.7.4)

A reader that is given only the bytes of a file and obtains, for every element of the structure tree, what its type means in the end (the
types to which the role map and the role maps of namespaces map it one after the other), the language in effect, its attributes, whether
its own or those of its classes, its user properties, the elements to which it refers, and its pronunciation. It also obtains the
identifiers of elements. It knows nothing about the writer.

Revision numbers of attributes are skipped. Empty language identifiers are not treated specially.
-/

namespace PdfW.Spec
open PdfW

/-! ## The reader -/

/-- A structure type in a namespace, which is given by its name; `none` is the default namespace. -/
structure TypeIn where
  ns : Option (List Char)
  name : Bytes
deriving DecidableEq

/-- A namespace (ISO 32000-2, Table 356): its name and its role map. -/
def readNamespace (f : FileEnd) (file : Bytes) (n : Nat) : Option (List Char × List (Bytes × Val)) :=
  match f.object file n with
  | some (.val (.dict d)) =>
    if (optionalEntry b!"Type" d nameOf).any fun y => y.all fun t => t == b!"Namespace" then
      (requiredEntry b!"NS" d readText).bind fun uri => (optionalEntry b!"RoleMapNS" d (followDict f file)).map fun m => (uri, m.getD [])
    else none
  | _ => none

/-- The types to which a type is mapped one after the other, starting with itself: in the default namespace by the role map (14.7.3), in
another one by its role map, which leads to the default namespace or to a named one. `steps` bounds their number. -/
def readMeaning (f : FileEnd) (file : Bytes) (roles : List (Bytes × Val)) : Nat → Option Nat → Bytes → Option (List TypeIn)
  | 0, _, _ => none
  | steps + 1, none, s =>
    match optionalEntry s roles nameOf with
    | some none => some [⟨none, s⟩]
    | some (some t) => (readMeaning f file roles steps none t).map (⟨none, s⟩ :: ·)
    | none => none
  | steps + 1, some n, s =>
    (readNamespace f file n).bind fun e =>
      match optionalEntry s e.2 some with
      | some none => some [⟨some e.1, s⟩]
      | some (some (.name t)) => some [⟨some e.1, s⟩, ⟨none, t⟩]
      | some (some (.arr [.name t, .ref m 0])) => (readMeaning f file roles steps (some m) t).map (⟨some e.1, s⟩ :: ·)
      | _ => none

/-- An attribute object (14.7.5.1): its owner, with the namespace if the owner is one, and the attributes. -/
structure AttrObj where
  owner : Bytes
  ns : Option Nat
  entries : List (Bytes × Val)

/-- Reads it. -/
def readAttrObj (f : FileEnd) (file : Bytes) (v : Val) : Option AttrObj :=
  (followDict f file v).bind fun d => (requiredEntry b!"O" d nameOf).bind fun o =>
    if o = b!"NSO" then
      (requiredEntry b!"NS" d refNumber).map fun n => ⟨o, some n, d.filter fun e => e.1 != b!"O" && e.1 != b!"NS"⟩
    else some ⟨o, none, d.filter fun e => e.1 != b!"O"⟩

/-- One attribute object, or an array of them; revision numbers are skipped. -/
def readAttrObjs (f : FileEnd) (file : Bytes) (v : Val) : Option (List AttrObj) :=
  match followRef f file v with
  | some (.arr vs) => readEach (readAttrObj f file) (vs.filter fun x => (intOf x).isNone)
  | some x => (readAttrObj f file x).map fun o => [o]
  | none => none

/-- One class name, or an array of them; revision numbers are skipped. -/
def readClassNames (v : Val) : Option (List Bytes) :=
  match v with
  | .arr vs => readEach nameOf (vs.filter fun x => (intOf x).isNone)
  | x => (nameOf x).map fun n => [n]

/-- All attribute objects of an element (Table 323, A and C): those of its classes, then its own. -/
def readElemAttrs (f : FileEnd) (file : Bytes) (classes : List (Bytes × Val)) (d : List (Bytes × Val)) : Option (List AttrObj) :=
  (optionalEntry b!"C" d readClassNames).bind fun cs =>
    (readEach (fun c => (lookup c classes).bind (readAttrObjs f file)) (cs.getD [])).bind fun cl =>
      (optionalEntry b!"A" d (readAttrObjs f file)).map fun own => cl.flatten ++ own.getD []

/-- The value of an attribute: the last of the objects that have this owner and the attribute decides (14.7.5.2, 14.7.5.3). -/
def attributeValue (objs : List AttrObj) (owner : Bytes) (ns : Option Nat) (key : Bytes) : Option Val :=
  (objs.reverse.filter fun o => o.owner == owner && o.ns == ns).findSome? fun o => lookup key o.entries

/-- A user property (Table 329). -/
structure UserProp where
  name : List Char
  value : Val
  format : Option (List Char)
  hidden : Bool

/-- Reads it. -/
def readUserProp (f : FileEnd) (file : Bytes) (v : Val) : Option UserProp :=
  (followDict f file v).bind fun d => (requiredEntry b!"N" d readText).bind fun name => (requiredEntry b!"V" d some).bind fun value =>
    (optionalEntry b!"F" d readText).bind fun format => (optionalEntry b!"H" d truthOf).map fun hidden => ⟨name, value, format, hidden.getD false⟩

/-- The user properties in an attribute object. -/
def readPropObj (f : FileEnd) (file : Bytes) (o : AttrObj) : Option (List UserProp) :=
  match requiredEntry b!"P" o.entries (followRef f file) with
  | some (.arr vs) => readEach (readUserProp f file) vs
  | _ => none

/-- The user properties in attribute objects (14.7.5.4). -/
def readUserProps (f : FileEnd) (file : Bytes) (objs : List AttrObj) : Option (List UserProp) :=
  (readEach (readPropObj f file) (objs.filter fun o => o.owner == b!"UserProperties")).map List.flatten

/-- An element: its number, what its type means, the language in effect, attributes, user properties, the elements to which it refers, its
pronunciation with the alphabet in which this is given, and the elements in it. -/
inductive SemNode where
  | elem (number : Nat) (meaning : List TypeIn) (lang : Option (List Char)) (attrs : List AttrObj) (props : List UserProp) (refs : List Nat)
      (phoneme : Option (List Char)) (alphabet : Option Bytes) (kids : List SemNode)

/-- An array of references. -/
def readRefs : Val → Option (List Nat)
  | .arr vs => refNumbers vs
  | _ => none

/-- A kid of an element, if it is an element. -/
def readSemKid (elem : Nat → Option SemNode) : Val → Option (List SemNode)
  | .ref n 0 => (elem n).map fun e => [e]
  | .ref _ _ => none
  | _ => some []

/-- The elements among the kids of an element; all other kids are skipped. -/
def readSemKids (elem : Nat → Option SemNode) (d : List (Bytes × Val)) : Option (List SemNode) :=
  (readKids (readSemKid elem) d).map List.flatten

/-- An element (Table 323; ISO 32000-2, Table 355). `inherited` is the language in effect above it. -/
def readSem (f : FileEnd) (file : Bytes) (roles classes : List (Bytes × Val)) (steps : Nat) : Nat → Option (List Char) → Nat → Option SemNode
  | 0, _, _ => none
  | depth + 1, inherited, n =>
    match f.object file n with
    | some (.val (.dict d)) =>
      (requiredEntry b!"S" d nameOf).bind fun s => (optionalEntry b!"NS" d refNumber).bind fun ns =>
        (readMeaning f file roles steps ns s).bind fun meaning => (optionalEntry b!"Lang" d readText).bind fun lang =>
          (readElemAttrs f file classes d).bind fun attrs => (readUserProps f file attrs).bind fun props =>
            (optionalEntry b!"Ref" d readRefs).bind fun refs =>
              (optionalEntry b!"Phoneme" d readText).bind fun phoneme => (optionalEntry b!"PhoneticAlphabet" d nameOf).bind fun alphabet =>
                (readSemKids (readSem f file roles classes steps depth (lang.or inherited)) d).map fun kids =>
                  .elem n meaning (lang.or inherited) attrs props (refs.getD []) phoneme alphabet kids
    | _ => none

/-- All elements of a file. `steps` and `structDepth` bound the number of mappings of a type and the depth of the structure tree. -/
def fileSemantics (unf : Val → Bytes → Option Bytes) (file : Bytes) (steps structDepth : Nat) : Option (List SemNode) :=
  (readFile unf file).bind fun f => (readCatalog f file).bind fun d => (optionalEntry b!"Lang" d readText).bind fun lang =>
    (readStructRoot f file d).bind fun r => (optionalEntry b!"RoleMap" r.2 (followDict f file)).bind fun roles =>
      (optionalEntry b!"ClassMap" r.2 (followDict f file)).bind fun classes =>
        readSemKids (readSem f file (roles.getD []) (classes.getD []) steps structDepth lang) r.2

/-- The identifiers of elements (Table 322, IDTree), with the numbers of the elements. -/
def fileElementIds (unf : Val → Bytes → Option Bytes) (file : Bytes) (treeDepth : Nat) : Option (List (Bytes × Nat)) :=
  (readFile unf file).bind fun f => (readCatalog f file).bind fun d => (readStructRoot f file d).bind fun r =>
    (lookup b!"IDTree" r.2).bind fun tree => (followDict f file tree).bind fun td => (listTree b!"Names" strOf f file treeDepth td).bind fun ps =>
      readEach (fun e : Bytes × Val => (refNumber e.2).map fun n => (e.1, n)) ps

/-! ## What was asked for -/

/-- What a type is mapped to in a namespace. -/
inductive NsTarget where
  | pdf17 (r : StructRole)
  | pdf20 (r : StructRole2) (ns : Ref)
  | other (name : Bytes) (ns : Ref)

/-- The method for it. -/
def NsTarget.call (name : Bytes) : NsTarget → NamespaceRoleMapCall
  | .pdf17 r => .toPdf17 name r
  | .pdf20 r ns => .toPdf20 name r ns
  | .other n ns => .toNamespace name n ns

/-- A namespace: its calls, name and mappings. -/
structure GivenNamespace where
  id : Ref
  calls : List NamespaceCall
  uri : List Char
  map : List (Bytes × NsTarget)

/-- It was written. The presets write the names that they do (see DESIGN.md, defect 24). -/
structure GivenNamespace.Written (items : List Item) (g : GivenNamespace) : Prop where
  object : HasObject items g.id (.val (Namespace.prog g.calls))
  noType : NoCall (NamespaceMeans .code) b!"Type" g.calls
  named : OnlyCall (NamespaceMeans .code) b!"NS" g.calls (.ns g.uri) ∨
    (OnlyCall (NamespaceMeans .code) b!"NS" g.calls .pdf2Ns ∧ g.uri = "https://www.iso.org/pdf2/ssn".toList) ∨
    (OnlyCall (NamespaceMeans .code) b!"NS" g.calls .pdf17Ns ∧ g.uri = "https://www.iso.org/pdf/ssn".toList) ∨
    (OnlyCall (NamespaceMeans .code) b!"NS" g.calls .mathml30Ns ∧ g.uri = "https://www.w3.org/1998/Math/MathML".toList)
  mapped : (g.map = [] ∧ NoCall (NamespaceMeans .code) b!"RoleMapNS" g.calls) ∨
    OnlyCall (NamespaceMeans .code) b!"RoleMapNS" g.calls (.roleMapNs (g.map.map fun e => e.2.call e.1))
  distinct : (g.map.map (·.1)).Nodup

/-- These are the types to which a type is mapped one after the other, by the role map of the document and those of its namespaces. -/
inductive Chain (roles : List (Bytes × StructRole)) (spaces : List GivenNamespace) : Option Ref → Bytes → List TypeIn → Prop
  | plain {s : Bytes} (h : ∀ e ∈ roles, e.1 ≠ s) : Chain roles spaces none s [⟨none, s⟩]
  | role {s : Bytes} {r : StructRole} {c : List TypeIn} (h : (s, r) ∈ roles) (hc : Chain roles spaces none (isoRole17 r) c) :
      Chain roles spaces none s (⟨none, s⟩ :: c)
  | own {g : GivenNamespace} {s : Bytes} (hg : g ∈ spaces) (h : ∀ e ∈ g.map, e.1 ≠ s) : Chain roles spaces (some g.id) s [⟨some g.uri, s⟩]
  | to17 {g : GivenNamespace} {s : Bytes} {r : StructRole} (hg : g ∈ spaces) (h : (s, .pdf17 r) ∈ g.map) :
      Chain roles spaces (some g.id) s [⟨some g.uri, s⟩, ⟨none, isoRole17 r⟩]
  | to20 {g : GivenNamespace} {s t : Bytes} {r : StructRole2} {ns : Ref} {c : List TypeIn} (hg : g ∈ spaces) (h : (s, .pdf20 r ns) ∈ g.map)
      (ht : isoRole20 r t) (hc : Chain roles spaces (some ns) t c) : Chain roles spaces (some g.id) s (⟨some g.uri, s⟩ :: c)
  | toOther {g : GivenNamespace} {s t : Bytes} {ns : Ref} {c : List TypeIn} (hg : g ∈ spaces) (h : (s, .other t ns) ∈ g.map)
      (hc : Chain roles spaces (some ns) t c) : Chain roles spaces (some g.id) s (⟨some g.uri, s⟩ :: c)

/-- The namespace in which a type is. -/
def GivenType.space : GivenType → Option Ref
  | .role2 _ ns | .roleIn _ ns | .customIn _ ns => some ns
  | .role _ | .custom _ => none

/-- A user property as given to the API. -/
structure GivenProp where
  calls : List UserPropertyCall
  name : List Char
  value : Prog
  format : Option (List Char)
  hidden : Option Bool

/-- It was set. -/
structure GivenProp.Set (g : GivenProp) : Prop where
  name : OnlyCall UserPropertyMeans b!"N" g.calls (.name (.plain g.name))
  value : OnlyCall UserPropertyMeans b!"V" g.calls (.value g.value)
  format : MaybeCall UserPropertyMeans b!"F" g.calls g.format (fun x => .format (.plain x))
  hidden : MaybeCall UserPropertyMeans b!"H" g.calls g.hidden .hidden

/-- An attribute object as given to the API. -/
inductive GivenAttributes where
  | layout (calls : List LayoutAttributesCall)
  | list (calls : List ListAttributesCall)
  | field (calls : List FieldAttributesCall)
  | table (calls : List TableAttributesCall)
  | artifact (calls : List ArtifactAttributesCall)
  | note (calls : List FENoteAttributesCall)
  | user (props : List GivenProp)
  | inNamespace (ns : Ref) (entries : List (Bytes × Prog))
  | other (owner : AttributeOwner) (iso2020 : Bool) (entries : List (Bytes × Prog))

/-- The calls that write it. -/
def GivenAttributes.calls : GivenAttributes → List AttributesCall
  | .layout calls => [.layout calls]
  | .list calls => [.list calls]
  | .field calls => [.field calls]
  | .table calls => [.table calls]
  | .artifact calls => [.artifact calls]
  | .note calls => [.note calls]
  | .user props => [.user (props.map (·.calls))]
  | .inNamespace ns es => [.namespace ns es]
  | .other o iso2020 es => .owner o iso2020 :: es.map fun e => .raw e.1 e.2

/-- Its owner (Table 327; ISO 32000-2, Table 360), and the namespace if that is the owner. -/
def GivenAttributes.owner : GivenAttributes → Bytes × Option Ref
  | .layout _ => (b!"Layout", none)
  | .list _ => (b!"List", none)
  | .field _ => (b!"PrintField", none)
  | .table _ => (b!"Table", none)
  | .artifact _ => (b!"Artifact", none)
  | .note _ => (b!"FENote", none)
  | .user _ => (b!"UserProperties", none)
  | .inNamespace ns _ => (b!"NSO", some ns)
  | .other o iso2020 _ => (isoOwner iso2020 o, none)

/-- The attributes in it, with the meanings of their values; for user properties see `GivenProp`. -/
def GivenAttributes.attributes : GivenAttributes → List (Bytes × (Val → Prop))
  | .layout calls => calls.flatMap LayoutAttributesMeans
  | .list calls => calls.flatMap ListAttributesMeans
  | .field calls => calls.flatMap FieldAttributesMeans
  | .table calls => calls.flatMap TableAttributesMeans
  | .artifact calls => calls.flatMap ArtifactAttributesMeans
  | .note calls => calls.flatMap FENoteAttributesMeans
  | .user props => [(b!"P", ArrayIs (props.map fun g => IsUserProperty g.calls))]
  | .inNamespace _ es | .other _ _ es => es.map fun e => (e.1, Denotes e.2)

/-- The owner is not set again, and not to one of those that have their own methods here. -/
def GivenAttributes.Proper (g : GivenAttributes) : Prop :=
  (∀ e ∈ g.attributes, e.1 ≠ b!"O") ∧
  match g with
  | .inNamespace _ es => ∀ e ∈ es, e.1 ≠ b!"NS"
  | .other o _ _ => o ≠ .nso ∧ o ≠ .user
  | .user props => ∀ p ∈ props, p.Set
  | _ => True

/-- The user properties in it. -/
def GivenAttributes.props : GivenAttributes → List GivenProp
  | .user props => props
  | _ => []

/-- Of the attribute objects, the last one that has this owner and the attribute gives it this value. -/
def Decides (given : List GivenAttributes) (owner : Bytes × Option Ref) (key : Bytes) (P : Val → Prop) : Prop :=
  ∃ pre g post, given = pre ++ g :: post ∧ g.owner = owner ∧ g.attributes.filter (fun e => e.1 == key) = [(key, P)] ∧
    ∀ x ∈ post, x.owner = owner → ∀ e ∈ x.attributes, e.1 ≠ key

/-- No attribute object has this owner and the attribute. -/
def Unset (given : List GivenAttributes) (owner : Bytes × Option Ref) (key : Bytes) : Prop :=
  ∀ x ∈ given, x.owner = owner → ∀ e ∈ x.attributes, e.1 ≠ key

/-- The attributes read have the values given, and no others are there. -/
def SameAttributes (given : List GivenAttributes) (objs : List AttrObj) : Prop :=
  ∀ owner key,
    (∀ P, Decides given owner key P → ∃ v, attributeValue objs owner.1 (owner.2.map fun r => r.get.toNat) key = some v ∧ P v) ∧
    (Unset given owner key → attributeValue objs owner.1 (owner.2.map fun r => r.get.toNat) key = none)

/-- A class of attributes: one object, or any number of them. -/
inductive GivenClass where
  | single (g : GivenAttributes)
  | multiple (gs : List GivenAttributes)

/-- The objects. -/
def GivenClass.objects : GivenClass → List GivenAttributes
  | .single g => [g]
  | .multiple gs => gs

/-- The method for it. -/
def GivenClass.call (name : Bytes) : GivenClass → ClassMapCall
  | .single g => .single name g.calls
  | .multiple gs => .multiple name (gs.map (·.calls))

/-- What is given to an element in addition to its type, texts and kids. -/
structure GivenElem where
  own : Option (List GivenAttributes)
  classes : Option (List Bytes)
  refs : Option (List Ref)
  phoneme : Option (List Char)
  alphabet : Option PhoneticAlphabet
  meaning : List TypeIn

/-- All attribute objects of an element: those of its classes, then its own. -/
def GivenElem.Objects (classMap : List (Bytes × GivenClass)) (e : GivenElem) (given : List GivenAttributes) : Prop :=
  ∃ cs, Pairwise (fun n c => (n, c) ∈ classMap) (e.classes.getD []) cs ∧ given = cs.flatMap GivenClass.objects ++ e.own.getD []

/-- The calls for it. -/
structure GivenElem.Set (calls : List StructElementCall) (e : GivenElem) : Prop where
  own : MaybeCall StructElementMeans b!"A" calls e.own (fun gs => .attributes (gs.map GivenAttributes.calls))
  classes : MaybeCall StructElementMeans b!"C" calls e.classes .attributeClass
  refs : MaybeCall StructElementMeans b!"Ref" calls e.refs .refs
  phoneme : MaybeCall StructElementMeans b!"Phoneme" calls e.phoneme .phoneme
  alphabet : MaybeCall StructElementMeans b!"PhoneticAlphabet" calls e.alphabet .phoneticAlphabet
  proper : ∀ g ∈ e.own.getD [], g.Proper

/-- The surroundings of the elements: the role map, the classes, the namespaces, and how often types are mapped at most. -/
structure Vocabulary where
  roles : List (Bytes × StructRole)
  classMap : List (Bytes × GivenClass)
  spaces : List GivenNamespace
  steps : Nat

mutual
/-- The additional data of all elements were set; `extra` gives them by id. -/
def StructPart.Extra (voc : Vocabulary) (extra : Ref → GivenElem) : StructPart → Prop
  | .elem id calls type _ _ kids =>
    (extra id).Set calls ∧ (∃ given, (extra id).Objects voc.classMap given) ∧
    (∃ name, type.Named name ∧ Chain voc.roles voc.spaces type.space name (extra id).meaning) ∧ (extra id).meaning.length ≤ voc.steps ∧
    partsExtra voc extra kids
  | _ => True
termination_by structural t => t
def partsExtra (voc : Vocabulary) (extra : Ref → GivenElem) : List StructPart → Prop
  | [] => True
  | t :: ts => t.Extra voc extra ∧ partsExtra voc extra ts
termination_by structural t => t
end

/-- The user property read is the one given. -/
def SameProp (g : GivenProp) (r : UserProp) : Prop :=
  r.name = g.name ∧ Denotes g.value r.value ∧ r.format = g.format ∧ r.hidden = g.hidden.getD false

mutual
/-- The elements read are those given, with their meanings, the language in effect, attributes, properties, references and pronunciation.
Kids that are not elements do not appear. -/
def StructPart.Same (voc : Vocabulary) (extra : Ref → GivenElem) (inherited : Option (List Char)) : StructPart → List SemNode → Prop
  | .elem id _ _ texts _ kids, rs =>
    ∃ attrs props kids', rs = [.elem id.get.toNat (extra id).meaning (texts.lang.or inherited) attrs props
        (((extra id).refs.getD []).map fun r => r.get.toNat) (extra id).phoneme ((extra id).alphabet.map isoPhoneticAlphabet) kids'] ∧
      (∀ given, (extra id).Objects voc.classMap given →
        SameAttributes given attrs ∧ Pairwise SameProp (given.flatMap GivenAttributes.props) props) ∧
      partsSame voc extra (texts.lang.or inherited) kids kids'
  | _, rs => rs = []
termination_by structural t => t
def partsSame (voc : Vocabulary) (extra : Ref → GivenElem) (inherited : Option (List Char)) : List StructPart → List SemNode → Prop
  | [], rs => rs = []
  | t :: ts, rs => ∃ a b, rs = a ++ b ∧ t.Same voc extra inherited a ∧ partsSame voc extra inherited ts b
termination_by structural t => t
end

/-- The classes and the namespaces were written. -/
structure VocabularyWritten (items : List Item) (root : List StructTreeRootCall) (voc : Vocabulary) : Prop where
  classes : (voc.classMap = [] ∧ NoCall (StructTreeRootMeans .code) b!"ClassMap" root) ∨
    OnlyCall (StructTreeRootMeans .code) b!"ClassMap" root (.classMap (voc.classMap.map fun e => e.2.call e.1))
  distinct : (voc.classMap.map (·.1)).Nodup
  proper : ∀ e ∈ voc.classMap, ∀ g ∈ e.2.objects, g.Proper
  spaces : ∀ g ∈ voc.spaces, g.Written items

end PdfW.Spec
