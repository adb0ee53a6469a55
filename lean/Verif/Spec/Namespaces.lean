import Verif.Spec.Semantics
import Verif.Spec.Associated

/-!
# Namespaces, schemas and lexicons of a tagged document (ISO 32000-2, 14.7.4.2, 14.9.6)

A reader that is given only the bytes of a file and lists, from its structure tree root, the namespaces with their names, their schemas and what each of
their types is mapped to, the files that say how words are pronounced, and the key that the parent tree gives next. It knows nothing about the writer.
-/

namespace PdfW.Spec
open PdfW

/-! ## What there is -/

/-- A namespace (Table 356): the number of its object, its name, its schema, and its types with what they are mapped to, in order; `δ` are dates. -/
structure NsInfo (δ : Type) where
  number : Nat
  uri : List Char
  schema : Option (Specified δ)
  map : List (Bytes × TypeIn)
deriving DecidableEq

/-- What the structure tree root says (Table 354): the namespaces, the lexicons, the next key of the parent tree. -/
structure NsList (δ : Type) where
  spaces : List (NsInfo δ)
  lexicons : List (Specified δ)
  next : Option Int
deriving DecidableEq

/-! ## The reader -/

/-- What a type is mapped to: a type of the default namespace, or of another one. -/
def readNsTarget (f : FileEnd) (file : Bytes) : Val → Option TypeIn
  | .name t => some ⟨none, t⟩
  | .arr [.name t, .ref m 0] => (readNamespace f file m).map fun e => ⟨some e.1, t⟩
  | _ => none

def readNsInfo (unf : Val → Bytes → Option Bytes) (f : FileEnd) (file : Bytes) (n : Nat) : Option (NsInfo DateVal) :=
  (readNamespace f file n).bind fun e => (dictObject f file n).bind fun d => (optionalEntry b!"Schema" d (readSpecified unf f file)).bind fun schema =>
    (readEach (fun x : Bytes × Val => (readNsTarget f file x.2).map fun t => (x.1, t)) e.2).map fun map => ⟨n, e.1, schema, map⟩

/-- The namespaces of a document. -/
def fileNamespaces (unf : Val → Bytes → Option Bytes) (file : Bytes) : Option (NsList DateVal) :=
  (readFile unf file).bind fun f => (readCatalog f file).bind fun d => (readStructRoot f file d).bind fun r =>
    (optionalEntry b!"Namespaces" r.2 (arrayOf fun v => (refNumber v).bind (readNsInfo unf f file))).bind fun spaces =>
    (optionalEntry b!"PronunciationLexicon" r.2 (arrayOf (readSpecified unf f file))).bind fun lexicons =>
    (optionalEntry b!"ParentTreeNextKey" r.2 intOf).map fun next => ⟨spaces.getD [], lexicons.getD [], next⟩

/-! ## What was asked for -/

/-- The type to which a type is mapped: one of the default namespace, or of another of these namespaces. -/
def NsTargetMeans (spaces : List GivenNamespace) : NsTarget → TypeIn → Prop
  | .pdf17 r, t => t = ⟨none, isoRole17 r⟩
  | .pdf20 r ns, t => ∃ g ∈ spaces, g.id = ns ∧ ∃ name, isoRole20 r name ∧ t = ⟨some g.uri, name⟩
  | .other n ns, t => ∃ g ∈ spaces, g.id = ns ∧ t = ⟨some g.uri, n⟩

/-- The namespace was written with this name, this schema and these mappings. -/
structure NsInfoSet (unf : Val → Bytes → Option Bytes) (items : List Item) (spaces : List GivenNamespace) (g : GivenNamespace) (x : NsInfo Date) : Prop where
  written : g.Written items
  number : x.number = g.id.get.toNat
  uri : x.uri = g.uri
  schema : ∃ cs, MaybeCall (NamespaceMeans .code) b!"Schema" g.calls cs .schema ∧ BothOrNone (FileSet unf items) cs x.schema
  map : Pairwise (fun e t => t.1 = e.1 ∧ NsTargetMeans spaces e.2 t.2) g.map x.map

/-- The object is a file specification that says this. -/
def FileObject (unf : Val → Bytes → Option Bytes) (items : List Item) (id : Ref) (x : Specified Date) : Prop :=
  ∃ calls, HasObject items id (.val (FileSpec.prog calls)) ∧ FileSet unf items calls x

/-- The structure tree root lists these namespaces and lexicons, and gives this next key. -/
structure NsListSet (unf : Val → Bytes → Option Bytes) (items : List Item) (root : List StructTreeRootCall) (given : List GivenNamespace) (x : NsList Date) :
    Prop where
  spaces : (x.spaces = [] ∧ NoCall (StructTreeRootMeans .code) b!"Namespaces" root) ∨
    ∃ listed, OnlyCall (StructTreeRootMeans .code) b!"Namespaces" root (.namespaces (listed.map (·.id))) ∧ Pairwise (NsInfoSet unf items given) listed x.spaces
  written : ∀ g ∈ given, g.Written items
  lexicons : (x.lexicons = [] ∧ NoCall (StructTreeRootMeans .code) b!"PronunciationLexicon" root) ∨
    ∃ ids, OnlyCall (StructTreeRootMeans .code) b!"PronunciationLexicon" root (.pronunciationLexicon ids) ∧ Pairwise (FileObject unf items) ids x.lexicons
  next : MaybeCall (StructTreeRootMeans .code) b!"ParentTreeNextKey" root x.next .parentTreeNextKey

/-- What a reader is to find. -/
def NsInfo.expected (x : NsInfo Date) : NsInfo DateVal := ⟨x.number, x.uri, x.schema.map Specified.expected, x.map⟩

def NsList.expected (x : NsList Date) : NsList DateVal := ⟨x.spaces.map NsInfo.expected, x.lexicons.map Specified.expected, x.next⟩

end PdfW.Spec
