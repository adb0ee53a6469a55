import Verif.Spec.Navigate
import Verif.Spec.Typed.Files

/-!
# Attached files (ISO 32000-1, 7.9.6, 7.11.3 and 7.11.4; ISO 32000-2, 14.13)

A reader that is given only the bytes of a file and lists the files attached to it, with their data. It knows nothing about the
writer.
-/

namespace PdfW.Spec
open PdfW

/-! ## The reader -/

/-- Keys and values of the array of a leaf of a name tree or number tree, in order. -/
def keyedPairs {K : Type} (key : Val → Option K) : List Val → Option (List (K × Val))
  | [] => some []
  | a :: v :: vs => (key a).bind fun k => (keyedPairs key vs).map ((k, v) :: ·)
  | _ => none

/-- All keys and values below a node of a name tree or number tree (7.9.6, 7.9.7), in order. This does not need limits. -/
def listTree {K : Type} (leaf : Bytes) (key : Val → Option K) (f : FileEnd) (file : Bytes) : Nat → List (Bytes × Val) → Option (List (K × Val))
  | 0, _ => none
  | depth + 1, d =>
    if d.all fun e => e.1 != leaf then
      match lookup b!"Kids" d with
      | some (.arr vs) => (refNumbers vs).bind (collect fun n =>
          match f.object file n with
          | some (.val (.dict d')) => listTree leaf key f file depth d'
          | _ => none)
      | _ => none
    else
      match lookup leaf d with
      | some (.arr vs) => keyedPairs key vs
      | _ => none

/-- A name. -/
def nameOf : Val → Option Bytes
  | .name n => some n
  | _ => none

/-- An attached file: the name under which it is listed, its file names, its description, the relationship to the document, its MIME
type and its data. -/
structure Attachment where
  key : Bytes
  unicode : Option (List Char)
  path : Option Bytes
  description : Option (List Char)
  relationship : Option Bytes
  mime : Option Bytes
  data : Bytes
deriving DecidableEq

/-- The embedded file stream of a file specification (Table 44, EF; Table 45): that of the Unicode file name, or else that of the file
name. -/
def embeddedStream (ef : List (Bytes × Val)) : Option Nat :=
  if ef.all fun e => e.1 != b!"UF" then (lookup b!"F" ef).bind refNumber else (lookup b!"UF" ef).bind refNumber

/-- Read a file specification with its embedded file (Tables 44 and 45). -/
def readAttachment (unf : Val → Bytes → Option Bytes) (f : FileEnd) (file : Bytes) (key : Bytes) (v : Val) : Option Attachment :=
  (followDict f file v).bind fun d =>
    (optionalEntry b!"UF" d readText).bind fun unicode => (optionalEntry b!"F" d strOf).bind fun path =>
    (optionalEntry b!"Desc" d readText).bind fun description => (optionalEntry b!"AFRelationship" d nameOf).bind fun relationship =>
    (lookup b!"EF" d).bind fun ef => (followDict f file ef).bind fun ef => (embeddedStream ef).bind fun n =>
      match f.object file n with
      | some (.stream sd data) =>
        (optionalEntry b!"Subtype" sd nameOf).bind fun mime => (unfiltered unf sd data).map fun data =>
          ⟨key, unicode, path, description, relationship, mime, data⟩
      | _ => none

/-- All of them. -/
def readEach {α β : Type} (read : α → Option β) : List α → Option (List β)
  | [] => some []
  | a :: as => (read a).bind fun b => (readEach read as).map (b :: ·)

/-- The attached files of a file: trailer, catalog, Names, EmbeddedFiles (Tables 28 and 31). -/
def fileAttachments (unf : Val → Bytes → Option Bytes) (file : Bytes) (depth : Nat) : Option (List Attachment) :=
  (readFile unf file).bind fun f => (readCatalog f file).bind fun d => (lookup b!"Names" d).bind fun names => (followDict f file names).bind fun nd =>
    (lookup b!"EmbeddedFiles" nd).bind fun tree => (followDict f file tree).bind fun td => (listTree b!"Names" strOf f file depth td).bind fun ps =>
      readEach (fun e => readAttachment unf f file e.1 e.2) ps

/-! ## The files that were asked for -/

variable {C K : Type}

mutual
/-- The tree was written; nothing is said about limits. -/
def Tree.Linked (A : TreeApi C K) (leafKey : Bytes) (items : List Item) : Tree C K → Prop
  | .leaf _ calls _ _ ps => OnlyCall A.means leafKey calls (A.pairs ps)
  | .node _ calls _ _ kids =>
    NoCall A.means leafKey calls ∧ OnlyCall A.means b!"Kids" calls (A.kids (kids.map Tree.id)) ∧ treesLinked A leafKey items kids
termination_by structural t => t
def treesLinked (A : TreeApi C K) (leafKey : Bytes) (items : List Item) : List (Tree C K) → Prop
  | [] => True
  | t :: ts => HasObject items t.id (.val (A.prog t.calls)) ∧ t.Linked A leafKey items ∧ treesLinked A leafKey items ts
termination_by structural t => t
end

/-- The pairs read are those given, in order. -/
def PairsMean (ps : List (K × Prim)) (rs : List (K × Val)) : Prop := Pairwise (fun e r => r.1 = e.1 ∧ PrimDenotes e.2 r.2) ps rs

/-- A file as given to the API: its file specification (an object with this id), and its embedded file. -/
structure GivenFile where
  key : Bytes
  id : Ref
  calls : List FileSpecCall
  unicode : Option (List Char)
  path : Option Bytes
  description : Option (List Char)
  kind : Option AssociationKind
  streamId : Ref
  withUnicode : Bool
  stream : List EmbeddedFileCall
  mime : Option Bytes
  stored : Bytes
  data : Bytes

/-- File specification and embedded file were written. The data are stored as they are, or the filter that was declared decodes what is stored
to them. -/
structure GivenFile.Written (unf : Val → Bytes → Option Bytes) (items : List Item) (g : GivenFile) : Prop where
  spec : HasObject items g.id (.val (FileSpec.prog g.calls))
  unicode : MaybeCall FileSpecMeans b!"UF" g.calls g.unicode .unicFile
  path : MaybeCall FileSpecMeans b!"F" g.calls g.path .path
  description : MaybeCall FileSpecMeans b!"Desc" g.calls g.description (fun t => .description (.plain t))
  kind : MaybeCall FileSpecMeans b!"AFRelationship" g.calls g.kind .associationKind
  embedded : OnlyCall FileSpecMeans b!"EF" g.calls (if g.withUnicode then .embeddedFileWithUnicode g.streamId else .embeddedFile g.streamId)
  file : HasObject items g.streamId (.stream (EmbeddedFile.entries g.stream) g.stored)
  mime : MaybeCall EmbeddedFileMeans b!"Subtype" g.stream g.mime .subtype
  data : (NoCall EmbeddedFileMeans b!"Filter" g.stream ∧ g.stored = g.data) ∨
    ∃ flt, OnlyCall EmbeddedFileMeans b!"Filter" g.stream (.stream (.filter flt)) ∧ unf (.name (isoFilter flt)) g.stored = some g.data

/-- What a reader should obtain. -/
def GivenFile.wanted (g : GivenFile) : Attachment :=
  ⟨g.key, g.unicode, g.path, g.description, g.kind.map isoAssociationKind, g.mime, g.data⟩

end PdfW.Spec
