import Verif.Spec.Extract
import Verif.Spec.Tree
import Verif.Spec.Typed.Annotations
import Verif.Spec.Typed.Maps

/-!
# Navigation (ISO 32000-1, 12.3.2, 12.3.3, 12.5.6.5, 12.6.4.2 and 12.6.4.7)

A reader that is given only the bytes of a file and obtains its outline, with a page number and a view for every item that has a
destination, and the links of every page. It knows nothing about the writer.

It insists that the items of the outline are linked consistently in both directions. It supports outline items with destinations
(not with actions), and links with go-to and URI actions.
-/

namespace PdfW.Spec
open PdfW

/-! ## The reader -/

/-- The catalog of a file (7.7.2). -/
def readCatalog (f : FileEnd) (file : Bytes) : Option (List (Bytes × Val)) :=
  match lookup b!"Root" f.trailer with
  | some (.ref n 0) =>
    match f.object file n with
    | some (.val (.dict d)) =>
      match lookup b!"Type" d with
      | some (.name t) => if t = b!"Catalog" then some d else none
      | _ => none
    | _ => none
  | _ => none

/-- An entry that may be missing. -/
def optionalEntry {α : Type} (key : Bytes) (d : List (Bytes × Val)) (read : Val → Option α) : Option (Option α) :=
  if d.all fun e => e.1 != key then some none else ((lookup key d).bind read).map some

/-- The object numbers of the pages below a node of the page tree, in order (7.7.3). -/
def readPageNumbers (f : FileEnd) (file : Bytes) : Nat → Nat → Option (List Nat)
  | 0, _ => none
  | depth + 1, n =>
    match f.object file n with
    | some (.val (.dict d)) =>
      match lookup b!"Type" d with
      | some (.name t) =>
        if t = b!"Page" then some [n]
        else if t = b!"Pages" then
          match lookup b!"Kids" d with
          | some (.arr vs) => (refNumbers vs).bind (collect (readPageNumbers f file depth))
          | _ => none
        else none
      | _ => none
    | _ => none

/-- What is needed to resolve destinations: the object numbers of the pages and the named destinations of the catalog. -/
structure Navigator where
  pages : List Nat
  dests : List (Bytes × Val)

/-- Read it from the catalog (Table 28: Pages, Dests). -/
def readNavigator (f : FileEnd) (file : Bytes) (depth : Nat) (d : List (Bytes × Val)) : Option Navigator :=
  match lookup b!"Pages" d with
  | some (.ref p 0) =>
    (readPageNumbers f file depth p).bind fun ns => (optionalEntry b!"Dests" d (followDict f file)).map fun ds => ⟨ns, ds.getD []⟩
  | _ => none

/-- An explicit destination (12.3.2.2): the index of the page, and the view. -/
def explicitDest (nav : Navigator) : Val → Option (Nat × List Val)
  | .arr (.ref n 0 :: view) => (nav.pages.findIdx? (· == n)).map fun i => (i, view)
  | _ => none

/-- A destination: explicit, or the name of one (12.3.2.3). -/
def readDest (nav : Navigator) : Val → Option (Nat × List Val)
  | .name n => (lookup n nav.dests).bind (explicitDest nav)
  | v => explicitDest nav v

/-- A text string (7.9.2.2). -/
def readText : Val → Option (List Char)
  | .str s => decodeText s
  | _ => none

/-- How the title of an item of the outline is shown: red, green and blue, and whether in italic or bold type. -/
structure ItemStyle where
  color : List Val
  italic : Bool
  bold : Bool

/-- Three components of a color. -/
def rgbOf : Val → Option (List Val)
  | .arr [r, g, b] => some [r, g, b]
  | _ => none

/-- Flags. -/
def styleBits : Val → Option Nat
  | .int (.ofNat n) => some n
  | _ => none

/-- Color and style of an item (Tables 153 and 154): "default value: [0.0 0.0 0.0]", "default value: 0", italic is bit position 1, bold is 2. -/
def readItemStyle (d : List (Bytes × Val)) : Option ItemStyle :=
  (optionalEntry b!"C" d rgbOf).bind fun color => (optionalEntry b!"F" d styleBits).map fun n =>
    ⟨color.getD [.int 0, .int 0, .int 0], (n.getD 0).testBit 0, (n.getD 0).testBit 1⟩

/-- An item of the outline: title, count (positive if the item is open, negative if it is closed), destination, style, items below it. -/
inductive ReadOutline where
  | item (title : List Char) (count : Option Int) (dest : Option (Nat × List Val)) (style : ItemStyle) (kids : List ReadOutline)

/-- The children of an outline item or of the outline itself, given a reader for a chain of siblings. -/
def readChildren (siblings : Nat → Option Nat → Nat → Option (List ReadOutline × Nat)) (n : Nat) (d : List (Bytes × Val)) :
    Option (List ReadOutline) :=
  match optionalEntry b!"First" d refNumber, optionalEntry b!"Last" d refNumber with
  | some none, some none => some []
  | some (some a), some (some b) => (siblings n none a).bind fun r => if r.2 = b then some r.1 else none
  | _, _ => none

/-- An outline item and the siblings after it (Table 153), and the number of the last one. The item must point back to its parent and to
the sibling before it. `fuel` bounds the number of items. -/
def readSiblings (f : FileEnd) (file : Bytes) (nav : Navigator) : Nat → Nat → Option Nat → Nat → Option (List ReadOutline × Nat)
  | 0, _, _, _ => none
  | fuel + 1, parent, prev, n =>
    match f.object file n with
    | some (.val (.dict d)) =>
      if optionalEntry b!"Parent" d refNumber = some (some parent) ∧ optionalEntry b!"Prev" d refNumber = some prev then
        match (lookup b!"Title" d).bind readText, optionalEntry b!"Count" d intOf, optionalEntry b!"Dest" d (readDest nav),
            readItemStyle d, readChildren (readSiblings f file nav fuel) n d, optionalEntry b!"Next" d refNumber with
        | some title, some count, some dest, some style, some kids, some none => some ([.item title count dest style kids], n)
        | some title, some count, some dest, some style, some kids, some (some m) =>
          (readSiblings f file nav fuel parent (some n) m).map fun r => (.item title count dest style kids :: r.1, r.2)
        | _, _, _, _, _, _ => none
      else none
    | _ => none

/-- The outline of a document (Table 152). -/
def readOutlines (f : FileEnd) (file : Bytes) (nav : Navigator) (fuel : Nat) (d : List (Bytes × Val)) : Option (List ReadOutline) :=
  match optionalEntry b!"Outlines" d refNumber with
  | some none => some []
  | some (some n) =>
    match f.object file n with
    | some (.val (.dict o)) => readChildren (readSiblings f file nav fuel) n o
    | _ => none
  | none => none

/-- The outline of a file. -/
def fileOutline (unf : Val → Bytes → Option Bytes) (file : Bytes) (depth fuel : Nat) : Option (List ReadOutline) :=
  (readFile unf file).bind fun f => (readCatalog f file).bind fun d => (readNavigator f file depth d).bind fun nav =>
    readOutlines f file nav fuel d

/-- Where a link leads. -/
inductive LinkTarget where
  | page (index : Nat) (view : List Val)
  | uri (u : Bytes)

/-- A link: its rectangle and where it leads. -/
structure ReadLink where
  rect : Val
  target : LinkTarget

/-- The target of a go-to action (12.6.4.2) or of a URI action (12.6.4.7). -/
def readTarget (nav : Navigator) (a : List (Bytes × Val)) : Option LinkTarget :=
  match lookup b!"S" a with
  | some (.name s) =>
    if s = b!"GoTo" then ((lookup b!"D" a).bind (readDest nav)).map fun t => .page t.1 t.2
    else if s = b!"URI" then
      match lookup b!"URI" a with
      | some (.str u) => some (.uri u)
      | _ => none
    else none
  | _ => none

/-- An annotation (12.5.2): one link, or none if it is of another type. -/
def readAnnotation (f : FileEnd) (file : Bytes) (nav : Navigator) (n : Nat) : Option (List ReadLink) :=
  match f.object file n with
  | some (.val (.dict d)) =>
    match lookup b!"Subtype" d with
    | some (.name s) =>
      if s = b!"Link" then
        match lookup b!"Rect" d, (lookup b!"A" d).bind (followDict f file) with
        | some r, some a => (readTarget nav a).map fun t => [⟨r, t⟩]
        | _, _ => none
      else some []
    | _ => none
  | _ => none

/-- The links of a page (Table 30, Annots). -/
def readPageLinks (f : FileEnd) (file : Bytes) (nav : Navigator) (n : Nat) : Option (List ReadLink) :=
  match f.object file n with
  | some (.val (.dict d)) =>
    if d.all fun e => e.1 != b!"Annots" then some []
    else match lookup b!"Annots" d with
      | some (.arr vs) => (refNumbers vs).bind (collect (readAnnotation f file nav))
      | _ => none
  | _ => none

/-- The links of every page of a file, page by page. -/
def fileLinks (unf : Val → Bytes → Option Bytes) (file : Bytes) (depth : Nat) : Option (List (List ReadLink)) :=
  (readFile unf file).bind fun f => (readCatalog f file).bind fun d => (readNavigator f file depth d).bind fun nav =>
    collect (fun n => (readPageLinks f file nav n).map fun l => [l]) nav.pages

/-! ## The navigation that was asked for -/

mutual
/-- The ids of the pages of a tree with the calls on each, in order. -/
def PageTree.leaves : PageTree → List (Ref × List PageCall)
  | .page id calls _ => [(id, calls)]
  | .node _ _ kids => leavesList kids
termination_by structural t => t
def leavesList : List PageTree → List (Ref × List PageCall)
  | [] => []
  | t :: ts => t.leaves ++ leavesList ts
termination_by structural t => t
end

/-- The ids of the pages of a tree in order. -/
def PageTree.ids (t : PageTree) : List Ref := t.leaves.map (·.1)

/-- A destination: a page and a view of it, given directly or by a name. -/
structure GivenDest where
  page : Ref
  view : List DestinationCall
  name : Option Bytes

/-- The entry is set by this call, or not at all. -/
def MaybeCall {α β : Type} (means : α → List (Bytes × (Val → Prop))) (key : Bytes) (calls : List α) (x : Option β) (c : β → α) : Prop :=
  match x with
  | none => NoCall means key calls
  | some b => OnlyCall means key calls (c b)

/-- The named destinations of the document: none, or a dictionary that was written. -/
def DestsSet (items : List Item) (cat : List CatalogCall) : Prop :=
  NoCall (CatalogMeans .code) b!"Dests" cat ∨
  ∃ id es, OnlyCall (CatalogMeans .code) b!"Dests" cat (.destinations id) ∧ HasObject items id (.val (.dict es))

/-- The destination leads to one of the pages; if it is given by a name, the name was defined in the document. -/
def DestOk (items : List Item) (cat : List CatalogCall) (ids : List Ref) (g : GivenDest) : Prop :=
  g.page ∈ ids ∧ ∀ n, g.name = some n → ∃ id es, OnlyCall (CatalogMeans .code) b!"Dests" cat (.destinations id) ∧
    HasObject items id (.val (.dict es)) ∧ es.filter (fun e => e.1 == n) = [(n, Destination.prog (.page g.page :: g.view))]

/-- The call for a destination: `direct` with the calls on the `Destination`, or `named`. -/
def GivenDest.call {α : Type} (direct : List DestinationCall → α) (named : Bytes → α) (g : GivenDest) : α :=
  match g.name with
  | none => direct (.page g.page :: g.view)
  | some n => named n

/-- How the title of an item of the outline shall be shown. -/
structure GivenStyle where
  color : Option (F32 × F32 × F32)
  flags : Option (List OutlineItemFlag)

/-- What is read for it: what was not set has the default value. -/
structure StyleMeans (g : GivenStyle) (s : ItemStyle) : Prop where
  black : g.color = none → s.color = [.int 0, .int 0, .int 0]
  color : ∀ c, g.color = some c → ∃ x y z, s.color = [x, y, z] ∧ NumIs c.1 x ∧ NumIs c.2.1 y ∧ NumIs c.2.2 z
  italic : s.italic = true ↔ .italic ∈ g.flags.getD []
  bold : s.bold = true ↔ .bold ∈ g.flags.getD []

/-- An outline as given to the API. -/
inductive OutlineTree where
  | item (id : Ref) (calls : List OutlineItemCall) (title : List Char) (count : Option Int) (dest : Option GivenDest)
      (style : GivenStyle) (kids : List OutlineTree)

/-- The id of an item. -/
def OutlineTree.id : OutlineTree → Ref
  | .item id .. => id

mutual
/-- How many items there are. -/
def OutlineTree.size : OutlineTree → Nat
  | .item _ _ _ _ _ _ kids => 1 + outlinesSize kids
termination_by structural t => t
def outlinesSize : List OutlineTree → Nat
  | [] => 0
  | t :: ts => t.size + outlinesSize ts
termination_by structural t => t
end

mutual
/-- The item was written with these neighbours, and so were the items below it. -/
def OutlineTree.Written (items : List Item) (cat : List CatalogCall) (ids : List Ref) (parent : Ref) (prev next : Option Ref) : OutlineTree → Prop
  | .item id calls title count dest style kids =>
    HasObject items id (.val (OutlineItem.prog calls)) ∧
    OnlyCall OutlineItemMeans b!"Title" calls (.title (.plain title)) ∧
    OnlyCall OutlineItemMeans b!"Parent" calls (.parent parent) ∧
    MaybeCall OutlineItemMeans b!"Prev" calls prev .prev ∧
    MaybeCall OutlineItemMeans b!"Next" calls next .next ∧
    MaybeCall OutlineItemMeans b!"First" calls (kids.head?.map OutlineTree.id) .first ∧
    MaybeCall OutlineItemMeans b!"Last" calls (kids.getLast?.map OutlineTree.id) .last ∧
    MaybeCall OutlineItemMeans b!"Count" calls count .count ∧
    MaybeCall OutlineItemMeans b!"Dest" calls dest (GivenDest.call .dest .destName) ∧
    (∀ g, dest = some g → DestOk items cat ids g) ∧
    MaybeCall OutlineItemMeans b!"C" calls style.color (fun c => .colorRgb c.1 c.2.1 c.2.2) ∧
    MaybeCall OutlineItemMeans b!"F" calls style.flags .flags ∧
    outlinesWritten items cat ids id none kids
termination_by structural t => t
def outlinesWritten (items : List Item) (cat : List CatalogCall) (ids : List Ref) (parent : Ref) (prev : Option Ref) : List OutlineTree → Prop
  | [] => True
  | t :: ts => t.Written items cat ids parent prev (ts.head?.map OutlineTree.id) ∧ outlinesWritten items cat ids parent (some t.id) ts
termination_by structural t => t
end

/-- The outline of the document was written. -/
structure OutlineWritten (items : List Item) (cat : List CatalogCall) (ids : List Ref) (oid : Ref) (calls : List OutlineCall) (ts : List OutlineTree) : Prop where
  catalog : OnlyCall (CatalogMeans .code) b!"Outlines" cat (.outlines oid)
  object : HasObject items oid (.val (Outline.prog calls))
  first : MaybeCall OutlineMeans b!"First" calls (ts.head?.map OutlineTree.id) .first
  last : MaybeCall OutlineMeans b!"Last" calls (ts.getLast?.map OutlineTree.id) .last
  tree : outlinesWritten items cat ids oid none ts

/-- The destination read is the one given: the page with this index, and the view. -/
def DestMeans (ids : List Ref) (g : GivenDest) (r : Nat × List Val) : Prop :=
  ids[r.1]? = some g.page ∧ ItemsAre (DestinationItems g.view) r.2

/-- Both missing, or both there and related. -/
def BothOrNone {α β : Type} (R : α → β → Prop) : Option α → Option β → Prop
  | none, none => True
  | some a, some b => R a b
  | _, _ => False

mutual
/-- The items read are those given. -/
def OutlineTree.Means (ids : List Ref) : OutlineTree → ReadOutline → Prop
  | .item _ _ title count dest style kids, r =>
    ∃ dest' style' kids', r = .item title count dest' style' kids' ∧ BothOrNone (DestMeans ids) dest dest' ∧ StyleMeans style style' ∧ outlinesMean ids kids kids'
termination_by structural t => t
def outlinesMean (ids : List Ref) : List OutlineTree → List ReadOutline → Prop
  | [], rs => rs = []
  | t :: ts, rs => ∃ r rs', rs = r :: rs' ∧ t.Means ids r ∧ outlinesMean ids ts rs'
termination_by structural t => t
end

/-- Where a link was asked to lead. -/
inductive GivenTarget where
  | dest (g : GivenDest)
  | uri (u : Bytes)

/-- An annotation as given to the API. -/
inductive AnnotPart where
  | link (id : Ref) (calls : List AnnotationCall) (rect : Rect) (action : List ActionCall) (target : GivenTarget)
  | other (id : Ref) (calls : List AnnotationCall) (kind : AnnotationType)

/-- The id of an annotation. -/
def AnnotPart.id : AnnotPart → Ref
  | .link id .. => id
  | .other id .. => id

/-- The calls on the action. -/
def TargetSet (items : List Item) (cat : List CatalogCall) (ids : List Ref) (calls : List ActionCall) : GivenTarget → Prop
  | .dest g => OnlyCall ActionMeans b!"S" calls (.actionType .goTo) ∧
      OnlyCall ActionMeans b!"D" calls (g.call .destination .destinationNamed) ∧ DestOk items cat ids g
  | .uri u => OnlyCall ActionMeans b!"S" calls (.actionType .uri) ∧ OnlyCall ActionMeans b!"URI" calls (.uri u)

/-- The annotation was written. -/
def AnnotPart.Written (items : List Item) (cat : List CatalogCall) (ids : List Ref) : AnnotPart → Prop
  | .link id calls rect action target =>
    HasObject items id (.val (Annotation.prog calls)) ∧ OnlyCall (AnnotationMeans .code) b!"Subtype" calls (.subtype .link) ∧
    OnlyCall (AnnotationMeans .code) b!"Rect" calls (.rect rect) ∧ OnlyCall (AnnotationMeans .code) b!"A" calls (.action action) ∧
    TargetSet items cat ids action target
  | .other id calls kind =>
    HasObject items id (.val (Annotation.prog calls)) ∧ OnlyCall (AnnotationMeans .code) b!"Subtype" calls (.subtype kind) ∧ kind ≠ .link

/-- The annotations of a page. -/
def PageAnnots (items : List Item) (cat : List CatalogCall) (ids : List Ref) (calls : List PageCall) (parts : List AnnotPart) : Prop :=
  ((parts = [] ∧ NoCall (PageMeans .code) b!"Annots" calls) ∨
    OnlyCall (PageMeans .code) b!"Annots" calls (.annotations (parts.map AnnotPart.id))) ∧
  ∀ a ∈ parts, a.Written items cat ids

/-- The target read is the one given. -/
def TargetMeans (ids : List Ref) : GivenTarget → LinkTarget → Prop
  | .dest g, .page i view => DestMeans ids g (i, view)
  | .uri u, .uri u' => u' = u
  | _, _ => False

/-- The rectangles and targets of the links among annotations. -/
def linksOf : List AnnotPart → List (Rect × GivenTarget)
  | [] => []
  | .link _ _ rect _ target :: r => (rect, target) :: linksOf r
  | .other .. :: r => linksOf r

/-- The link read is the one given. -/
def LinkMeans (ids : List Ref) (l : Rect × GivenTarget) (r : ReadLink) : Prop := IsRect l.1 r.rect ∧ TargetMeans ids l.2 r.target

end PdfW.Spec
