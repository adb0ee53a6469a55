import Verif.Spec.Interpret
import Verif.Spec.Attach
import Verif.Spec.Typed.Structure

/-!
# Logical structure (ISO 32000-1, 14.7 and 14.8)

A reader that is given only the bytes of a file and obtains its structure tree: elements with their types, the standard types to which
the role map maps these, their texts and identifiers, and as leaves the text of the marked-content sequences to which the elements refer,
found on the pages and in the forms, and objects. It also obtains the parent tree. It knows nothing about the writer.

It insists that elements point back to their parents. Role maps of namespaces, attributes and classes are not looked at here (see Spec/Semantics.lean).
-/

namespace PdfW.Spec
open PdfW

/-! ## The reader -/

/-- The texts that belong to an element (Table 323: ID, T, Lang, Alt, E, ActualText). -/
structure ElemTexts where
  id : Option Bytes
  title : Option (List Char)
  lang : Option (List Char)
  alt : Option (List Char)
  expanded : Option (List Char)
  actual : Option (List Char)
deriving DecidableEq

/-- A part of the structure: an element with its type, its standard type, texts and parts; the text of a marked-content sequence on the
page with this index; an object on the page with this index. -/
inductive StructNode where
  | elem (type role : Bytes) (texts : ElemTexts) (kids : List StructNode)
  | content (page : Nat) (text : PageText)
  | object (page : Nat) (number : Nat)

/-- What is needed to resolve content: the pages with what is shown on them, and the role map. -/
structure Tagger where
  pages : List (Nat × List Shown)
  roles : List (Bytes × Val)

/-- The text that belongs to a marked-content sequence. -/
def textIn (m : Mark) (shown : List Shown) : PageText := shown.filterMap fun x => if x.1 = some m then some x.2 else none

/-- The index of the page, and what is shown on it. -/
def Tagger.page (t : Tagger) (n : Nat) : Option (Nat × List Shown) :=
  (t.pages.findIdx? (fun e => e.1 == n)).bind fun i => (t.pages[i]?).map fun e => (i, e.2)

/-- The content of a marked-content sequence. -/
def Tagger.content (t : Tagger) (page : Option Nat) (m : Mark) : Option StructNode :=
  page.bind fun p => (t.page p).map fun e => .content e.1 (textIn m e.2)

/-- The standard type to which a type is mapped (14.7.3); types in a namespace are not mapped by the role map. -/
def Tagger.role (t : Tagger) (inNamespace : Bool) (type : Bytes) : Option Bytes :=
  if inNamespace then some type else (optionalEntry type t.roles nameOf).map fun r => r.getD type

/-- A kid of an element (Table 323, K): another element, a marked-content identifier, a marked-content reference (Table 324) or an object
reference (Table 325). The page is that of the reference, or else that of the element. -/
def readKid (t : Tagger) (elem : Nat → Option StructNode) (page : Option Nat) : Val → Option StructNode
  | .ref n 0 => elem n
  | .int m => t.content page ⟨none, m⟩
  | .dict d =>
    match lookup b!"Type" d, optionalEntry b!"Pg" d refNumber with
    | some (.name y), some pg =>
      if y = b!"MCR" then
        (optionalEntry b!"Stm" d refNumber).bind fun stm => ((lookup b!"MCID" d).bind intOf).bind fun m => t.content (pg.or page) ⟨stm, m⟩
      else if y = b!"OBJR" then
        ((lookup b!"Obj" d).bind refNumber).bind fun o => ((pg.or page).bind t.page).map fun e => .object e.1 o
      else none
    | _, _ => none
  | _ => none

/-- The texts of an element. -/
def readElemTexts (d : List (Bytes × Val)) : Option ElemTexts :=
  (optionalEntry b!"ID" d strOf).bind fun id => (optionalEntry b!"T" d readText).bind fun title => (optionalEntry b!"Lang" d readText).bind fun lang =>
    (optionalEntry b!"Alt" d readText).bind fun alt => (optionalEntry b!"E" d readText).bind fun expanded =>
      (optionalEntry b!"ActualText" d readText).map fun actual => ⟨id, title, lang, alt, expanded, actual⟩

/-- Kids: none, one, or an array. -/
def readKids {α : Type} (kid : Val → Option α) (d : List (Bytes × Val)) : Option (List α) :=
  if d.all fun e => e.1 != b!"K" then some []
  else match lookup b!"K" d with
    | some (.arr vs) => readEach kid vs
    | some v => (kid v).map fun k => [k]
    | none => none

/-- An element (Table 323). If its parent is an object, it must point to it. `depth` bounds the depth of the tree. -/
def readElem (f : FileEnd) (file : Bytes) (t : Tagger) : Nat → Option Nat → Nat → Option StructNode
  | 0, _, _ => none
  | depth + 1, parent, n =>
    match f.object file n with
    | some (.val (.dict d)) =>
      match lookup b!"S" d with
      | some (.name s) =>
        if parent = none ∨ optionalEntry b!"P" d refNumber = some parent then
          (t.role (!d.all fun e => e.1 != b!"NS") s).bind fun role => (readElemTexts d).bind fun texts => (optionalEntry b!"Pg" d refNumber).bind fun pg =>
            (readKids (readKid t (readElem f file t depth (some n)) pg) d).map fun kids => .elem s role texts kids
        else none
      | _ => none
    | _ => none

/-- The structure tree root (Table 322), and its number if it is an object of its own. -/
def readStructRoot (f : FileEnd) (file : Bytes) (d : List (Bytes × Val)) : Option (Option Nat × List (Bytes × Val)) :=
  match lookup b!"StructTreeRoot" d with
  | some v => (followDict f file v).map fun r => ((refNumber v), r)
  | none => none

/-- The structure tree, given what is shown on the pages. -/
def readStructure (f : FileEnd) (file : Bytes) (pages : List (Nat × List Shown)) (depth : Nat) (d : List (Bytes × Val)) : Option (List StructNode) :=
  (readStructRoot f file d).bind fun r => (optionalEntry b!"RoleMap" r.2 (followDict f file)).bind fun roles =>
    readKids (fun v => (refNumber v).bind (readElem f file ⟨pages, roles.getD []⟩ depth r.1)) r.2

/-- The structure tree of a file. `depth`, `forms` and `structDepth` bound the depth of the page tree, of nested forms, and of the structure
tree. -/
def fileStructure (unf : Val → Bytes → Option Bytes) (file : Bytes) (depth forms structDepth : Nat) : Option (List StructNode) :=
  (readFile unf file).bind fun f => (readCatalog f file).bind fun d => (lookup b!"Pages" d).bind refNumber |>.bind fun p =>
    (readPagesWith (fun n res pd => (readPageShown unf f file forms n res pd).map fun s => (n, s)) f file depth none p).bind fun pages =>
      readStructure f file pages structDepth d

/-- The elements to which the marked-content sequences of the page with this number belong, in the order of their identifiers (14.7.4.4):
the array that the parent tree has for the key of the page. `none` if the page has no key. -/
def readParents (f : FileEnd) (file : Bytes) (tree : List (Int × Val)) (n : Nat) : Option (Option (List Nat)) :=
  match f.object file n with
  | some (.val (.dict d)) =>
    match optionalEntry b!"StructParents" d intOf with
    | some none => some none
    | some (some k) =>
      match (tree.find? fun e => e.1 == k).bind fun e => followRef f file e.2 with
      | some (.arr vs) => (refNumbers vs).map some
      | _ => none
    | none => none
  | _ => none

/-- The parents of the marked-content sequences of every page. -/
def fileParents (unf : Val → Bytes → Option Bytes) (file : Bytes) (depth treeDepth : Nat) : Option (List (Option (List Nat))) :=
  (readFile unf file).bind fun f => (readCatalog f file).bind fun d => (lookup b!"Pages" d).bind refNumber |>.bind fun p =>
    (readPageNumbers f file depth p).bind fun ns => (readStructRoot f file d).bind fun r => (lookup b!"ParentTree" r.2).bind fun tree =>
      (followDict f file tree).bind fun td => (listTree b!"Nums" intOf f file treeDepth td).bind fun ps => readEach (readParents f file ps) ns

/-! ## The structure that was asked for -/

/-- The type of an element as given to the API. -/
inductive GivenType where
  | role (r : StructRole)
  | role2 (r : StructRole2) (ns : Ref)
  | custom (name : Bytes)
  | roleIn (r : StructRole) (ns : Ref)
  | customIn (name : Bytes) (ns : Ref)

/-- The call that sets it, and nothing else sets it or a namespace. -/
def GivenType.Set (calls : List StructElementCall) : GivenType → Prop
  | .role r => OnlyCall StructElementMeans b!"S" calls (.kind r) ∧ NoCall StructElementMeans b!"NS" calls
  | .role2 r ns => OnlyCall StructElementMeans b!"S" calls (.kind2 r ns) ∧ OnlyCall StructElementMeans b!"NS" calls (.kind2 r ns)
  | .custom n => OnlyCall StructElementMeans b!"S" calls (.customKind n) ∧ NoCall StructElementMeans b!"NS" calls
  | .roleIn r ns => OnlyCall StructElementMeans b!"S" calls (.kind r) ∧ OnlyCall StructElementMeans b!"NS" calls (.namespace ns)
  | .customIn n ns => OnlyCall StructElementMeans b!"S" calls (.customKind n) ∧ OnlyCall StructElementMeans b!"NS" calls (.namespace ns)

/-- The name of the type. -/
def GivenType.Named : GivenType → Bytes → Prop
  | .role r, n => n = isoRole17 r
  | .role2 r _, n => isoRole20 r n
  | .custom c, n => n = c
  | .roleIn r _, n => n = isoRole17 r
  | .customIn c _, n => n = c

/-- A part of the structure as given to the API: an element with its calls; a marked-content sequence, by its identifier alone or with the
calls on a `MarkedRef`; an object with the calls on an `ObjectRef`. -/
inductive StructPart where
  | elem (id : Ref) (calls : List StructElementCall) (type : GivenType) (texts : ElemTexts) (page : Option Ref) (kids : List StructPart)
  | mcid (mcid : Int)
  | marked (calls : List MarkedRefCall) (page stream : Option Ref) (mcid : Int)
  | object (calls : List ObjectRefCall) (page : Option Ref) (obj : Ref)

/-- The method for a part among several. -/
def StructPart.call : StructPart → StructChildrenCall
  | .elem id .. => .structElement id
  | .mcid m => .markedContentId m
  | .marked calls .. => .markedContentRef calls
  | .object calls .. => .objectRef calls

/-- The method for a single part, except for a bare identifier. -/
def StructPart.only : StructPart → Option StructElementCall
  | .elem id .. => some (.child id)
  | .mcid _ => none
  | .marked calls .. => some (.markedContentChild calls)
  | .object calls .. => some (.objectChild calls)

/-- The texts of an element were set. -/
structure TextsSet (calls : List StructElementCall) (t : ElemTexts) : Prop where
  id : MaybeCall StructElementMeans b!"ID" calls t.id .id
  title : MaybeCall StructElementMeans b!"T" calls t.title (fun x => .title (.plain x))
  lang : MaybeCall StructElementMeans b!"Lang" calls t.lang .lang
  alt : MaybeCall StructElementMeans b!"Alt" calls t.alt (fun x => .alt (.plain x))
  expanded : MaybeCall StructElementMeans b!"E" calls t.expanded (fun x => .expanded (.plain x))
  actual : MaybeCall StructElementMeans b!"ActualText" calls t.actual (fun x => .actualText (.plain x))

/-- The kids were set: none, a single one, or several. -/
def KidsSet (calls : List StructElementCall) (kids : List StructPart) : Prop :=
  (kids = [] ∧ NoCall StructElementMeans b!"K" calls) ∨
  (∃ k c, kids = [k] ∧ k.only = some c ∧ OnlyCall StructElementMeans b!"K" calls c) ∨
  OnlyCall StructElementMeans b!"K" calls (.children (kids.map StructPart.call))

mutual
/-- How deep the tree is. -/
def StructPart.depth : StructPart → Nat
  | .elem _ _ _ _ _ kids => 1 + partsDepth kids
  | _ => 0
termination_by structural t => t
def partsDepth : List StructPart → Nat
  | [] => 0
  | t :: ts => Max.max t.depth (partsDepth ts)
termination_by structural t => t
end

mutual
/-- The part was written; `parent` is the object above it (none if that is not an object of its own). -/
def StructPart.Written (items : List Item) (parent : Option Ref) : StructPart → Prop
  | .elem id calls type texts page kids =>
    HasObject items id (.val (StructElement.prog calls)) ∧ type.Set calls ∧ TextsSet calls texts ∧
    (∀ p, parent = some p → OnlyCall StructElementMeans b!"P" calls (.parent p)) ∧
    MaybeCall StructElementMeans b!"Pg" calls page .page ∧ KidsSet calls kids ∧ partsWritten items id kids
  | .mcid _ => True
  | .marked calls page stream mcid =>
    NoCall MarkedRefMeans b!"Type" calls ∧ MaybeCall MarkedRefMeans b!"Pg" calls page .page ∧
    MaybeCall MarkedRefMeans b!"Stm" calls stream .stream ∧ OnlyCall MarkedRefMeans b!"MCID" calls (.markedContentId mcid)
  | .object calls page obj =>
    NoCall ObjectRefMeans b!"Type" calls ∧ MaybeCall ObjectRefMeans b!"Pg" calls page .page ∧ OnlyCall ObjectRefMeans b!"Obj" calls (.object obj)
termination_by structural t => t
def partsWritten (items : List Item) (parent : Ref) : List StructPart → Prop
  | [] => True
  | t :: ts => t.Written items (some parent) ∧ partsWritten items parent ts
termination_by structural t => t
end

/-- The structure tree root: set in place, or as an object to which the catalog refers. -/
def RootSet (items : List Item) (cat : List CatalogCall) (root : List StructTreeRootCall) : Option Ref → Prop
  | none => OnlyCall (CatalogMeans .code) b!"StructTreeRoot" cat (.structTreeRoot root)
  | some id => OnlyCall (CatalogMeans .code) b!"StructTreeRoot" cat (.raw b!"StructTreeRoot" (.prim (.ref id))) ∧
      HasObject items id (.val (StructTreeRoot.prog root))

/-- The ids of the parts that are elements; the root has no other parts. -/
def elemIds : List StructPart → Option (List Ref)
  | [] => some []
  | .elem id .. :: ts => (elemIds ts).map (id :: ·)
  | _ :: _ => none

/-- The structure of the document was written. -/
structure StructureWritten (items : List Item) (cat : List CatalogCall) (rootId : Option Ref) (root : List StructTreeRootCall)
    (roles : List (Bytes × StructRole)) (top : List StructPart) : Prop where
  rootSet : RootSet items cat root rootId
  rolesSet : (roles = [] ∧ NoCall (StructTreeRootMeans .code) b!"RoleMap" root) ∨
    OnlyCall (StructTreeRootMeans .code) b!"RoleMap" root (.roleMap (roles.map fun e => .insert e.1 e.2))
  distinct : (roles.map (·.1)).Nodup
  kids : ∃ ids, elemIds top = some ids ∧ ((ids = [] ∧ NoCall (StructTreeRootMeans .code) b!"K" root) ∨
    (∃ id, ids = [id] ∧ OnlyCall (StructTreeRootMeans .code) b!"K" root (.child id)) ∨
    OnlyCall (StructTreeRootMeans .code) b!"K" root (.children ids))
  written : ∀ t ∈ top, t.Written items rootId

/-- The standard type of an element: the one to which the role map maps it, or else its own. -/
def RoleOf (roles : List (Bytes × StructRole)) (type : GivenType) (name role : Bytes) : Prop :=
  match type with
  | .role2 .. | .roleIn .. | .customIn .. => role = name
  | _ => (∃ r, (name, r) ∈ roles ∧ role = isoRole17 r) ∨ ((∀ e ∈ roles, e.1 ≠ name) ∧ role = name)

/-- The page with this index is `p`, and this is shown on it. -/
def OnPage (ids : List Ref) (shown : List (List Shown)) (p : Option Ref) (i : Nat) (s : List Shown) : Prop :=
  ∃ r, p = some r ∧ ids[i]? = some r ∧ shown[i]? = some s

mutual
/-- The node read is the part given: elements with their types, texts and kids, and for marked content exactly the text that belongs to it. -/
def StructPart.Means (ids : List Ref) (shown : List (List Shown)) (roles : List (Bytes × StructRole)) : StructPart → Option Ref → StructNode → Prop
  | .elem _ _ type texts page kids, _, r =>
    ∃ name role kids', r = .elem name role texts kids' ∧ type.Named name ∧ RoleOf roles type name role ∧ partsMean ids shown roles kids page kids'
  | .mcid m, p, r => ∃ i s, OnPage ids shown p i s ∧ r = .content i (textIn ⟨none, m⟩ s)
  | .marked _ page stream m, p, r => ∃ i s, OnPage ids shown (page.or p) i s ∧ r = .content i (textIn ⟨stream.map fun x => x.get.toNat, m⟩ s)
  | .object _ page obj, p, r => ∃ i s, OnPage ids shown (page.or p) i s ∧ r = .object i obj.get.toNat
termination_by structural t => t
def partsMean (ids : List Ref) (shown : List (List Shown)) (roles : List (Bytes × StructRole)) : List StructPart → Option Ref → List StructNode → Prop
  | [], _, rs => rs = []
  | t :: ts, p, rs => ∃ r rs', rs = r :: rs' ∧ t.Means ids shown roles p r ∧ partsMean ids shown roles ts p rs'
termination_by structural t => t
end

mutual
/-- Content and objects are on pages of the document. -/
def StructPart.Located (ids : List Ref) : StructPart → Option Ref → Prop
  | .elem _ _ _ _ page kids, _ => partsLocated ids kids page
  | .mcid _, p => ∃ r ∈ ids, p = some r
  | .marked _ page _ _, p => ∃ r ∈ ids, page.or p = some r
  | .object _ page _, p => ∃ r ∈ ids, page.or p = some r
termination_by structural t => t
def partsLocated (ids : List Ref) : List StructPart → Option Ref → Prop
  | [], _ => True
  | t :: ts, p => t.Located ids p ∧ partsLocated ids ts p
termination_by structural t => t
end

/-- A page with these calls has a key for which the parent tree has an array that was written, or has none. -/
def ParentsSet (items : List Item) (pairs : List (Int × Prim)) (page : List PageCall) : Option (List Ref) → Prop
  | none => NoCall (PageMeans .code) b!"StructParents" page
  | some parents => ∃ k id, OnlyCall (PageMeans .code) b!"StructParents" page (.structParents k) ∧ (k, .ref id) ∈ pairs ∧
      HasObject items id (.val (.array (parents.map fun r => .prim (.ref r))))

end PdfW.Spec
