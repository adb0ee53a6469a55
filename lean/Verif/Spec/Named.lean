import Verif.Spec.Attach

/-!
# Named objects (ISO 32000-1, 7.7.4, 7.9.6 and Table 31)

A reader that is given only the bytes of a file and obtains, for each of the ten categories of names of Table 31, the objects that have a name
in it: all of them, or that with a given name. It knows nothing about the writer.
-/

namespace PdfW.Spec
open PdfW

/-! ## The reader -/

/-- The categories of names (Table 31). -/
inductive NameCategory where
  | dests | appearances | javaScript | pages | templates | contentIds | contentUrls | embeddedFiles | alternatePresentations | renditions
deriving DecidableEq

/-- Their keys in the name dictionary (Table 31). -/
def NameCategory.key : NameCategory → Bytes
  | .dests => b!"Dests"
  | .appearances => b!"AP"
  | .javaScript => b!"JavaScript"
  | .pages => b!"Pages"
  | .templates => b!"Templates"
  | .contentIds => b!"IDS"
  | .contentUrls => b!"URLS"
  | .embeddedFiles => b!"EmbeddedFiles"
  | .alternatePresentations => b!"AlternatePresentations"
  | .renditions => b!"Renditions"

/-- What a value of a name tree stands for: the object it refers to, or itself. -/
def loadNamed (f : FileEnd) (file : Bytes) : Val → Option IVal
  | .ref n 0 => f.object file n
  | v => some (.val v)

/-- The root of the name tree of a category, if there is one (Tables 28 and 31). -/
def namesRoot (f : FileEnd) (file : Bytes) (c : NameCategory) : Option (Option (List (Bytes × Val))) :=
  (readCatalog f file).bind fun d => (optionalEntry b!"Names" d (followDict f file)).bind fun nd => optionalEntry c.key (nd.getD []) (followDict f file)

/-- All names of a category in order, with their objects. -/
def fileNamed (unf : Val → Bytes → Option Bytes) (file : Bytes) (c : NameCategory) (depth : Nat) : Option (List (Bytes × IVal)) :=
  (readFile unf file).bind fun f => (namesRoot f file c).bind fun root =>
    match root with
    | none => some []
    | some d => (listTree b!"Names" strOf f file depth d).bind (readEach fun e => (loadNamed f file e.2).map fun v => (e.1, v))

/-- The object with a name, found with the limits of the nodes of the tree (see defect 18 in DESIGN.md for limits that are names). -/
def fileNamedAs (unf : Val → Bytes → Option Bytes) (file : Bytes) (c : NameCategory) (depth : Nat) (name : Bytes) : Option IVal :=
  (readFile unf file).bind fun f => (namesRoot f file c).bind fun root => root.bind fun d =>
    (lenientNameTrees.search f file depth d name).bind (loadNamed f file)

/-! ## What was asked for -/

/-- The call that starts the name tree of a category. -/
def NameCategory.call : NameCategory → List NameTreeCall → NamesCall
  | .dests => .destinations
  | .appearances => .appearances
  | .javaScript => .javascript
  | .pages => .pages
  | .templates => .templates
  | .contentIds => .captureIds
  | .contentUrls => .captureUrls
  | .embeddedFiles => .embeddedFiles
  | .alternatePresentations => .alternatePresentations
  | .renditions => .renditions

/-- The names of a category were not set, or they were set once, with these calls on the root of the tree. -/
def NamesSet (cat : List CatalogCall) (c : NameCategory) (root : Option (List NameTreeCall)) : Prop :=
  ∃ names : Option (List NamesCall), MaybeCall (CatalogMeans .code) b!"Names" cat names .names ∧
    MaybeCall (NamesMeans .code) c.key (names.getD []) root c.call

/-- What was given a name: an object of the document, or a value that is not a reference. -/
inductive NamedValue (items : List Item) : Prim → Body → Prop
  | object {r body} : HasObject items r body → NamedValue items (.ref r) body
  | direct {p} : (∀ r, p ≠ .ref r) → NamedValue items p (.val (.prim p))

/-- The names and what they were given to. -/
def NamedAre (items : List Item) (ps : List (Bytes × Prim)) (vs : List (Bytes × Body)) : Prop :=
  Pairwise (fun e v => v.1 = e.1 ∧ NamedValue items e.2 v.2) ps vs

end PdfW.Spec
