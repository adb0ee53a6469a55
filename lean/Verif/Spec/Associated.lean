import Verif.Spec.Attach
import Verif.Spec.Details
import Verif.Spec.Annots
import Verif.Spec.Properties
import Verif.Spec.Typed.XObject

/-!
# Associated files and file specifications (ISO 32000-1, 7.11.3, 7.11.4, 8.10.4; ISO 32000-2, 14.13)

A reader that is given only the bytes of a file and lists the files associated with the document, its structure tree, its pages, their
annotations, and other objects, each with everything its file specification says, and with the data and the parameters of the embedded file. It knows
nothing about the writer.
-/

namespace PdfW.Spec
open PdfW

/-! ## What there is -/

/-- Parameters of an embedded file (Table 46); `δ` are dates. -/
structure Facts (δ : Type) where
  size : Option Int
  created : Option δ
  modified : Option δ
  checksum : Option Bytes
deriving DecidableEq

/-- An embedded file (Table 45): the number of its stream, its MIME type, its parameters, its data. -/
structure Embedded (δ : Type) where
  number : Nat
  mime : Option Bytes
  facts : Option (Facts δ)
  data : Bytes
deriving DecidableEq

/-- A file specification (Table 44). -/
structure Specified (δ : Type) where
  system : Option Bytes
  path : Option Bytes
  unicode : Option (List Char)
  volatile : Bool
  description : Option (List Char)
  relationship : Option Bytes
  embedded : Option (Embedded δ)
deriving DecidableEq

/-- The page of another file (Table 97). -/
inductive OtherPage where
  | number (n : Int)
  | label (t : List Char)
deriving DecidableEq

/-- A reference to a page of another file (Table 97). -/
structure Elsewhere (δ : Type) where
  file : Specified δ
  page : OtherPage
  ids : Option (List Bytes)
deriving DecidableEq

/-- The files of the document. -/
structure Associated (δ : Type) where
  /-- With the document. -/
  document : List (Specified δ)
  /-- With its structure tree. -/
  structure' : List (Specified δ)
  /-- With each page. -/
  pages : List (List (Specified δ))
  /-- For each page and each of its annotations: with the annotation; and the file that it attaches. -/
  annotations : List (List (List (Specified δ) × Option (Specified δ)))
deriving DecidableEq

/-! ## The reader -/

def readFacts (v : Val) : Option (Facts DateVal) :=
  match v with
  | .dict d => (optionalEntry b!"Size" d intOf).bind fun size => (optionalEntry b!"CreationDate" d dateOf).bind fun created =>
      (optionalEntry b!"ModDate" d dateOf).bind fun modified => (optionalEntry b!"CheckSum" d strOf).map fun checksum => ⟨size, created, modified, checksum⟩
  | _ => none

def readEmbedded (unf : Val → Bytes → Option Bytes) (f : FileEnd) (file : Bytes) (v : Val) : Option (Embedded DateVal) :=
  (followDict f file v).bind fun ef => (embeddedStream ef).bind fun n =>
    match f.object file n with
    | some (.stream d data) =>
      (optionalEntry b!"Subtype" d nameOf).bind fun mime => (optionalEntry b!"Params" d readFacts).bind fun facts =>
        (unfiltered unf d data).map fun data => ⟨n, mime, facts, data⟩
    | _ => none

def readSpecified (unf : Val → Bytes → Option Bytes) (f : FileEnd) (file : Bytes) (v : Val) : Option (Specified DateVal) :=
  (followDict f file v).bind fun d => (optionalEntry b!"FS" d nameOf).bind fun system => (optionalEntry b!"F" d strOf).bind fun path =>
    (optionalEntry b!"UF" d readText).bind fun unicode => (optionalEntry b!"V" d truthOf).bind fun volatile =>
    (optionalEntry b!"Desc" d readText).bind fun description => (optionalEntry b!"AFRelationship" d nameOf).bind fun relationship =>
    (optionalEntry b!"EF" d (readEmbedded unf f file)).map fun embedded =>
      ⟨system, path, unicode, volatile.getD false, description, relationship, embedded⟩

/-- The files associated with something that has this dictionary. -/
def readFiles (unf : Val → Bytes → Option Bytes) (f : FileEnd) (file : Bytes) (d : List (Bytes × Val)) : Option (List (Specified DateVal)) :=
  (optionalEntry b!"AF" d (arrayOf (readSpecified unf f file))).map fun l => l.getD []

def otherPage : Val → Option OtherPage
  | .int n => some (.number n)
  | v => (readText v).map .label

def readElsewhere (unf : Val → Bytes → Option Bytes) (f : FileEnd) (file : Bytes) (v : Val) : Option (Elsewhere DateVal) :=
  (followDict f file v).bind fun d => ((lookup b!"F" d).bind (readSpecified unf f file)).bind fun s => ((lookup b!"Page" d).bind otherPage).bind fun page =>
    (optionalEntry b!"ID" d (arrayOf strOf)).map fun ids => ⟨s, page, ids⟩

/-- The dictionary of an object, which may be that of a stream. -/
def anyDict (f : FileEnd) (file : Bytes) (n : Nat) : Option (List (Bytes × Val)) :=
  match f.object file n with
  | some (.val (.dict d)) => some d
  | some (.stream d _) => some d
  | _ => none

/-- The files associated with an object. -/
def objectFiles (unf : Val → Bytes → Option Bytes) (file : Bytes) (n : Nat) : Option (List (Specified DateVal)) :=
  (readFile unf file).bind fun f => (anyDict f file n).bind (readFiles unf f file)

/-- The page of another file that a form stands for. -/
def formElsewhere (unf : Val → Bytes → Option Bytes) (file : Bytes) (n : Nat) : Option (Option (Elsewhere DateVal)) :=
  (readFile unf file).bind fun f => (anyDict f file n).bind fun d => optionalEntry b!"Ref" d (readElsewhere unf f file)

def annotFiles (unf : Val → Bytes → Option Bytes) (f : FileEnd) (file : Bytes) (n : Nat) :
    Option (List (Specified DateVal) × Option (Specified DateVal)) :=
  (dictObject f file n).bind fun d => (readFiles unf f file d).bind fun l => (optionalEntry b!"FS" d (readSpecified unf f file)).map fun s => (l, s)

def treeFiles (unf : Val → Bytes → Option Bytes) (f : FileEnd) (file : Bytes) (d : List (Bytes × Val)) : Option (List (Specified DateVal)) :=
  (optionalEntry b!"StructTreeRoot" d fun v => (followDict f file v).bind (readFiles unf f file)).map fun l => l.getD []

/-- The associated files of a document. -/
def fileAssociated (unf : Val → Bytes → Option Bytes) (file : Bytes) (depth : Nat) : Option (Associated DateVal) :=
  (readFile unf file).bind fun f => (readCatalog f file).bind fun d => (readFiles unf f file d).bind fun document =>
    (treeFiles unf f file d).bind fun structure' => (lookup b!"Pages" d).bind refNumber |>.bind fun p => (readPageNumbers f file depth p).bind fun ns =>
      (readEach (fun n => (dictObject f file n).bind (readFiles unf f file)) ns).bind fun pages =>
        (readEach (fun n => (pageAnnots f file n).bind (readEach (annotFiles unf f file))) ns).map fun annotations =>
          ⟨document, structure', pages, annotations⟩

/-! ## What was asked for -/

structure FactsSet (calls : List EmbeddingParamsCall) (x : Facts Date) : Prop where
  size : MaybeCall EmbeddingParamsMeans b!"Size" calls x.size .size
  created : MaybeCall EmbeddingParamsMeans b!"CreationDate" calls x.created .creationDate
  modified : MaybeCall EmbeddingParamsMeans b!"ModDate" calls x.modified .modificationDate
  checksum : MaybeCall EmbeddingParamsMeans b!"CheckSum" calls x.checksum .checksum

/-- An embedded file was written with this id. The data are stored as they are, or the filter that was declared decodes what is stored to them. -/
def EmbeddedSet (unf : Val → Bytes → Option Bytes) (items : List Item) (id : Ref) (x : Embedded Date) : Prop :=
  x.number = id.get.toNat ∧ ∃ calls stored, HasObject items id (.stream (EmbeddedFile.entries calls) stored) ∧
    MaybeCall EmbeddedFileMeans b!"Subtype" calls x.mime .subtype ∧
    (∃ ps, MaybeCall EmbeddedFileMeans b!"Params" calls ps .params ∧ BothOrNone FactsSet ps x.facts) ∧
    ((NoCall EmbeddedFileMeans b!"Filter" calls ∧ stored = x.data) ∨
      ∃ flt, OnlyCall EmbeddedFileMeans b!"Filter" calls (.stream (.filter flt)) ∧ unf (.name (isoFilter flt)) stored = some x.data)

/-- The call that embeds this file, for the file name only or for the Unicode file name, too. -/
def embedCall (p : Bool × Ref) : FileSpecCall := if p.1 then .embeddedFileWithUnicode p.2 else .embeddedFile p.2

/-- These calls specify this file. -/
structure FileSet (unf : Val → Bytes → Option Bytes) (items : List Item) (calls : List FileSpecCall) (x : Specified Date) : Prop where
  system : MaybeCall FileSpecMeans b!"FS" calls x.system .fileSystem
  path : MaybeCall FileSpecMeans b!"F" calls x.path .path
  unicode : MaybeCall FileSpecMeans b!"UF" calls x.unicode .unicFile
  volatile : ∃ b : Option Bool, x.volatile = b.getD false ∧ MaybeCall FileSpecMeans b!"V" calls b .volatile
  description : MaybeCall FileSpecMeans b!"Desc" calls x.description (fun t => .description (.plain t))
  relationship : ∃ k, x.relationship = k.map isoAssociationKind ∧ MaybeCall FileSpecMeans b!"AFRelationship" calls k .associationKind
  embedded : ∃ p, MaybeCall FileSpecMeans b!"EF" calls p embedCall ∧ BothOrNone (fun p e => EmbeddedSet unf items p.2 e) p x.embedded

/-- These calls associate these files. -/
def FilesSet (unf : Val → Bytes → Option Bytes) (items : List Item) {α : Type} (means : α → List (Bytes × (Val → Prop))) (c : List (List FileSpecCall) → α)
    (calls : List α) (xs : List (Specified Date)) : Prop :=
  ∃ l : Option (List (List FileSpecCall)), MaybeCall means b!"AF" calls l c ∧ Pairwise (FileSet unf items) (l.getD []) xs

/-- These calls refer to this page of another file. -/
structure ElsewhereSet (unf : Val → Bytes → Option Bytes) (items : List Item) (calls : List ReferenceCall) (x : Elsewhere Date) : Prop where
  file : ∃ s, OnlyCall ReferenceMeans b!"F" calls (.fileSpec s) ∧ FileSet unf items s x.file
  page : (∃ n, x.page = .number n ∧ OnlyCall ReferenceMeans b!"Page" calls (.pageNumber n)) ∨
    ∃ t, x.page = .label t ∧ OnlyCall ReferenceMeans b!"Page" calls (.pageLabel (.plain t))
  ids : MaybeCall ReferenceMeans b!"ID" calls x.ids .id

/-- An object was written, and has these files. -/
inductive ObjectHas (unf : Val → Bytes → Option Bytes) (items : List Item) (id : Ref) (xs : List (Specified Date)) : Prop
  | page {calls} : HasObject items id (.val (Page.prog calls)) → FilesSet unf items (PageMeans .code) .associatedFiles calls xs → ObjectHas unf items id xs
  | element {calls} : HasObject items id (.val (StructElement.prog calls)) → FilesSet unf items StructElementMeans .associatedFiles calls xs →
      ObjectHas unf items id xs
  | annotation {calls} : HasObject items id (.val (Annotation.prog calls)) → FilesSet unf items (AnnotationMeans .code) .associatedFiles calls xs →
      ObjectHas unf items id xs
  | image {calls data} : HasObject items id (.stream (ImageXObject.entries calls) data) → FilesSet unf items ImageXObjectMeans .associatedFiles calls xs →
      ObjectHas unf items id xs
  | form {calls data} : HasObject items id (.stream (FormXObject.entries calls) data) → FilesSet unf items FormXObjectMeans .associatedFiles calls xs →
      ObjectHas unf items id xs

/-- An annotation was written with this id, through `Annotation` or as a field that was made a widget, and has these files. -/
def AnnotHas (unf : Val → Bytes → Option Bytes) (items : List Item) (id : Ref) (x : List (Specified Date) × Option (Specified Date)) : Prop :=
  ∃ s : AnnotSource, HasObject items id (.val s.body) ∧
    (∃ l, s.Sets b!"AF" l .associatedFiles ∧ Pairwise (FileSet unf items) (l.getD []) x.1) ∧
    ∃ cs, s.Sets b!"FS" cs .fileSpec ∧ BothOrNone (FileSet unf items) cs x.2

/-- The structure tree of the document has these files. -/
def TreeHas (unf : Val → Bytes → Option Bytes) (items : List Item) (cat : List CatalogCall) (xs : List (Specified Date)) : Prop :=
  (NoCall (CatalogMeans .code) b!"StructTreeRoot" cat ∧ xs = []) ∨
  ∃ root, OnlyCall (CatalogMeans .code) b!"StructTreeRoot" cat (.structTreeRoot root) ∧
    FilesSet unf items (StructTreeRootMeans .code) .associatedFiles root xs

/-- These are the associated files of the document. -/
structure AssociatedSet (unf : Val → Bytes → Option Bytes) (items : List Item) (cat : List CatalogCall) (leaves : List (Ref × List PageCall))
    (x : Associated Date) : Prop where
  document : FilesSet unf items (CatalogMeans .code) .associatedFiles cat x.document
  structure' : TreeHas unf items cat x.structure'
  pages : Pairwise (fun e xs => FilesSet unf items (PageMeans .code) .associatedFiles e.2 xs) leaves x.pages
  annotations : Pairwise (fun e xs => ∃ ids, AnnotsSet e.2 ids ∧ Pairwise (AnnotHas unf items) ids xs) leaves x.annotations

/-! ## What a reader should obtain: the same, with each date as one that may be given in part -/

def Facts.expected (x : Facts Date) : Facts DateVal := ⟨x.size, x.created.map expectedDate, x.modified.map expectedDate, x.checksum⟩
def Embedded.expected (x : Embedded Date) : Embedded DateVal := ⟨x.number, x.mime, x.facts.map Facts.expected, x.data⟩
def Specified.expected (x : Specified Date) : Specified DateVal :=
  ⟨x.system, x.path, x.unicode, x.volatile, x.description, x.relationship, x.embedded.map Embedded.expected⟩
def Elsewhere.expected (x : Elsewhere Date) : Elsewhere DateVal := ⟨x.file.expected, x.page, x.ids⟩
def Associated.expected (x : Associated Date) : Associated DateVal :=
  ⟨x.document.map Specified.expected, x.structure'.map Specified.expected, x.pages.map fun l => l.map Specified.expected,
    x.annotations.map fun l => l.map fun e => (e.1.map Specified.expected, e.2.map Specified.expected)⟩

end PdfW.Spec
