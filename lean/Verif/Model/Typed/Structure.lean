-- Generated by tools/typed.py from /repo/src; do not edit.
import Verif.Model.Typed.Attributes
import Verif.Model.Typed.Forms
import Verif.Model.Typed.XObject
import Verif.Model.Typed.Pattern
import Verif.Model.Typed.Transitions

/-! # Typed writers: `MarkedRef`, `ObjectRef`, `StructChildren`, `StructElement`, `RoleMap`, `ClassMap`, `NamespaceRoleMap`, `Namespace`, `StructTreeRoot`, `MarkInfo`, `PageLabel`, `DocumentInfo`, `Pages`, `Page`, `Outline`, `OutlineItem`, `Names`, `DeveloperExtension`, `ViewerPreferences`, `Catalog`, `Metadata` -/

namespace PdfW

/-- Calls of public methods of `MarkedRef` (structure.rs:649-653). -/
inductive MarkedRefCall where
  /-- structure.rs:658-661 -/
  | page (page' : Ref)
  /-- structure.rs:667-670 -/
  | stream (stream' : Ref)
  /-- structure.rs:674-677 -/
  | streamOwner (owner : Ref)
  /-- structure.rs:681-684 -/
  | markedContentId (r : Int)
  /-- structure.rs:687 -/
  | raw (key : Bytes) (value : Prog)

/-- The entries each method inserts. -/
def MarkedRefCall.entries : MarkedRefCall → List (Bytes × Prog)
  | .page page' => [(b!"Pg", pRef page')]
  | .stream stream' => [(b!"Stm", pRef stream')]
  | .streamOwner owner => [(b!"StmOwn", pRef owner)]
  | .markedContentId r => [(b!"MCID", pInt r)]
  | .raw key value => [(key, value)]

/-- All entries of the object: those of the constructor (structure.rs:649-653), then those of the calls. -/
def MarkedRef.entries (calls : List MarkedRefCall) : List (Bytes × Prog) := [(b!"Type", pName b!"MCR")] ++ calls.flatMap MarkedRefCall.entries

/-- The object written. -/
def MarkedRef.prog (calls : List MarkedRefCall) : Prog := .dict (MarkedRef.entries calls)

/-- Calls of public methods of `ObjectRef` (structure.rs:696-700). -/
inductive ObjectRefCall where
  /-- structure.rs:705-708 -/
  | page (page' : Ref)
  /-- structure.rs:711-714 -/
  | object (obj : Ref)
  /-- structure.rs:717 -/
  | raw (key : Bytes) (value : Prog)

/-- The entries each method inserts. -/
def ObjectRefCall.entries : ObjectRefCall → List (Bytes × Prog)
  | .page page' => [(b!"Pg", pRef page')]
  | .object obj => [(b!"Obj", pRef obj)]
  | .raw key value => [(key, value)]

/-- All entries of the object: those of the constructor (structure.rs:696-700), then those of the calls. -/
def ObjectRef.entries (calls : List ObjectRefCall) : List (Bytes × Prog) := [(b!"Type", pName b!"OBJR")] ++ calls.flatMap ObjectRefCall.entries

/-- The object written. -/
def ObjectRef.prog (calls : List ObjectRefCall) : Prog := .dict (ObjectRef.entries calls)

/-- Calls of public methods of `StructChildren` (structure.rs:613-613). -/
inductive StructChildrenCall where
  /-- structure.rs:617-620 -/
  | structElement (r : Ref)
  /-- structure.rs:623-626 -/
  | markedContentId (r : Int)
  /-- structure.rs:629-631 -/
  | markedContentRef (calls : List MarkedRefCall)
  /-- structure.rs:634-636 -/
  | objectRef (calls : List ObjectRefCall)
  /-- structure.rs:639 -/
  | raw (value : Prog)

/-- The items each method inserts. -/
def StructChildrenCall.items : StructChildrenCall → List Prog
  | .structElement r => [pRef r]
  | .markedContentId r => [pInt r]
  | .markedContentRef calls => [MarkedRef.prog calls]
  | .objectRef calls => [ObjectRef.prog calls]
  | .raw value => [value]

/-- All items of the object: those of the constructor (structure.rs:613-613), then those of the calls. -/
def StructChildren.items (calls : List StructChildrenCall) : List Prog := calls.flatMap StructChildrenCall.items

/-- The object written. -/
def StructChildren.prog (calls : List StructChildrenCall) : Prog := .array (StructChildren.items calls)

/-- Calls of public methods of `StructElement` (structure.rs:426-430). -/
inductive StructElementCall where
  /-- structure.rs:437-440 -/
  | kind (role : StructRole)
  /-- structure.rs:450-453 -/
  | kind2 (role : StructRole2) (ns : Ref)
  /-- structure.rs:464-467 -/
  | customKind (name : Bytes)
  /-- structure.rs:471-474 -/
  | parent (parent' : Ref)
  /-- structure.rs:478-481 -/
  | id (r : Bytes)
  /-- structure.rs:488-491 -/
  | refs (refs' : List Ref)
  /-- structure.rs:495-498 -/
  | page (page' : Ref)
  /-- structure.rs:502-505 -/
  | child (r : Ref)
  /-- structure.rs:509-511 -/
  | markedContentChild (calls : List MarkedRefCall)
  /-- structure.rs:515-517 -/
  | objectChild (calls : List ObjectRefCall)
  /-- structure.rs:521-523 -/
  | children (calls : List StructChildrenCall)
  /-- structure.rs:527-529 -/
  | attributes (x : List (List AttributesCall))
  /-- structure.rs:533-535 -/
  | attributeClass (x : List Bytes)
  /-- structure.rs:538-541 -/
  | revision (revision' : Int)
  /-- structure.rs:544-547 -/
  | title (title' : TextLike)
  /-- structure.rs:550-553 -/
  | lang (lang' : List Char)
  /-- structure.rs:557-560 -/
  | alt (alt' : TextLike)
  /-- structure.rs:564-567 -/
  | expanded (expanded' : TextLike)
  /-- structure.rs:571-574 -/
  | actualText (actualText' : TextLike)
  /-- structure.rs:578-580 -/
  | associatedFiles (x : List (List FileSpecCall))
  /-- structure.rs:584-587 -/
  | «namespace» (ns : Ref)
  /-- structure.rs:591-594 -/
  | phoneticAlphabet (alphabet : PhoneticAlphabet)
  /-- structure.rs:598-601 -/
  | phoneme (phoneme' : List Char)
  /-- structure.rs:604 -/
  | raw (key : Bytes) (value : Prog)

/-- The entries each method inserts. -/
def StructElementCall.entries : StructElementCall → List (Bytes × Prog)
  | .kind role => [(b!"S", pName role.toName)]
  | .kind2 role ns => role20 role ++ [(b!"NS", pRef ns)]
  | .customKind name => [(b!"S", pName name)]
  | .parent parent' => [(b!"P", pRef parent')]
  | .id r => [(b!"ID", pStr r)]
  | .refs refs' => [(b!"Ref", .array (refs'.map fun x => pRef x))]
  | .page page' => [(b!"Pg", pRef page')]
  | .child r => [(b!"K", pRef r)]
  | .markedContentChild calls => [(b!"K", MarkedRef.prog calls)]
  | .objectChild calls => [(b!"K", ObjectRef.prog calls)]
  | .children calls => [(b!"K", StructChildren.prog calls)]
  | .attributes x => [(b!"A", .array (x.map fun x => Attributes.prog x))]
  | .attributeClass x => [(b!"C", .array (x.map fun x => pName x))]
  | .revision revision' => [(b!"R", pInt revision')]
  | .title title' => [(b!"T", title'.prog)]
  | .lang lang' => [(b!"Lang", pText lang')]
  | .alt alt' => [(b!"Alt", alt'.prog)]
  | .expanded expanded' => [(b!"E", expanded'.prog)]
  | .actualText actualText' => [(b!"ActualText", actualText'.prog)]
  | .associatedFiles x => [(b!"AF", .array (x.map fun x => FileSpec.prog x))]
  | .«namespace» ns => [(b!"NS", pRef ns)]
  | .phoneticAlphabet alphabet => [(b!"PhoneticAlphabet", pName alphabet.toName)]
  | .phoneme phoneme' => [(b!"Phoneme", pText phoneme')]
  | .raw key value => [(key, value)]

/-- All entries of the object: those of the constructor (structure.rs:426-430), then those of the calls. -/
def StructElement.entries (calls : List StructElementCall) : List (Bytes × Prog) := [(b!"Type", pName b!"StructElem")] ++ calls.flatMap StructElementCall.entries

/-- The object written. -/
def StructElement.prog (calls : List StructElementCall) : Prog := .dict (StructElement.entries calls)

/-- Calls of public methods of `RoleMap` (structure.rs:729-729). -/
inductive RoleMapCall where
  /-- structure.rs:733-736 -/
  | insert (name : Bytes) (role : StructRole)
  /-- structure.rs:739 -/
  | pair (key : Bytes) (value : Bytes)

/-- The entries each method inserts. -/
def RoleMapCall.entries : RoleMapCall → List (Bytes × Prog)
  | .insert name role => [(name, pName role.toName)]
  | .pair key value => [(key, pName value)]

/-- All entries of the object: those of the constructor (structure.rs:729-729), then those of the calls. -/
def RoleMap.entries (calls : List RoleMapCall) : List (Bytes × Prog) := calls.flatMap RoleMapCall.entries

/-- The object written. -/
def RoleMap.prog (calls : List RoleMapCall) : Prog := .dict (RoleMap.entries calls)

/-- Calls of public methods of `ClassMap` (structure.rs:748-748). -/
inductive ClassMapCall where
  /-- structure.rs:752-754 -/
  | single (name : Bytes) (calls : List AttributesCall)
  /-- structure.rs:757-759 -/
  | multiple (name : Bytes) (xs : List (List AttributesCall))
  /-- structure.rs:762 -/
  | raw (key : Bytes) (value : Prog)

/-- The entries each method inserts. -/
def ClassMapCall.entries : ClassMapCall → List (Bytes × Prog)
  | .single name calls => [(name, Attributes.prog calls)]
  | .multiple name xs => [(name, .array (xs.map Attributes.prog))]
  | .raw key value => [(key, value)]

/-- All entries of the object: those of the constructor (structure.rs:748-748), then those of the calls. -/
def ClassMap.entries (calls : List ClassMapCall) : List (Bytes × Prog) := calls.flatMap ClassMapCall.entries

/-- The object written. -/
def ClassMap.prog (calls : List ClassMapCall) : Prog := .dict (ClassMap.entries calls)

/-- Calls of public methods of `NamespaceRoleMap` (structure.rs:1573-1575). -/
inductive NamespaceRoleMapCall where
  /-- structure.rs:1580-1583 -/
  | toPdf17 (name : Bytes) (role : StructRole)
  /-- structure.rs:1588-1594 -/
  | toNamespace (name : Bytes) (role : Bytes) (ns : Ref)
  /-- structure.rs:1602-1609 -/
  | toPdf20 (name : Bytes) (role : StructRole2) (ns : Ref)
  /-- structure.rs:1612 -/
  | raw (key : Bytes) (value : Prog)

/-- The entries each method inserts. -/
def NamespaceRoleMapCall.entries : NamespaceRoleMapCall → List (Bytes × Prog)
  | .toPdf17 name role => [(name, pName role.toName)]
  | .toNamespace name role ns => [(name, .array [pName role, pRef ns])]
  | .toPdf20 name role ns => (role20 role).map fun e => (name, .array [e.2, pRef ns])
  | .raw key value => [(key, value)]

/-- All entries of the object: those of the constructor (structure.rs:1573-1575), then those of the calls. -/
def NamespaceRoleMap.entries (calls : List NamespaceRoleMapCall) : List (Bytes × Prog) := calls.flatMap NamespaceRoleMapCall.entries

/-- The object written. -/
def NamespaceRoleMap.prog (calls : List NamespaceRoleMapCall) : Prog := .dict (NamespaceRoleMap.entries calls)

/-- Calls of public methods of `Namespace` (structure.rs:1518-1522). -/
inductive NamespaceCall where
  /-- structure.rs:1526-1529 -/
  | ns (identifier : List Char)
  /-- structure.rs:1533-1535 -/
  | schema (calls : List FileSpecCall)
  /-- structure.rs:1542-1544 -/
  | roleMapNs (calls : List NamespaceRoleMapCall)
  /-- structure.rs:1548-1550 -/
  | pdf2Ns
  /-- structure.rs:1554-1556 -/
  | pdf17Ns
  /-- structure.rs:1559-1561 -/
  | mathml30Ns
  /-- structure.rs:1564 -/
  | raw (key : Bytes) (value : Prog)

/-- The entries each method inserts. -/
def NamespaceCall.entries : NamespaceCall → List (Bytes × Prog)
  | .ns identifier => [(b!"NS", pText identifier)]
  | .schema calls => [(b!"Schema", FileSpec.prog calls)]
  | .roleMapNs calls => [(b!"RoleMapNS", NamespaceRoleMap.prog calls)]
  | .pdf2Ns => [(b!"NS", pText "https://www.iso.org/pdf2/ssn".toList)]
  | .pdf17Ns => [(b!"NS", pText "https://www.iso.org/pdf/ssn".toList)]
  | .mathml30Ns => [(b!"NS", pText "https://www.w3.org/1998/Math/MathML".toList)]
  | .raw key value => [(key, value)]

/-- All entries of the object: those of the constructor (structure.rs:1518-1522), then those of the calls. -/
def Namespace.entries (calls : List NamespaceCall) : List (Bytes × Prog) := [(b!"Type", pName b!"Namespace")] ++ calls.flatMap NamespaceCall.entries

/-- The object written. -/
def Namespace.prog (calls : List NamespaceCall) : Prog := .dict (Namespace.entries calls)

/-- Calls of public methods of `StructTreeRoot` (structure.rs:336-340). -/
inductive StructTreeRootCall where
  /-- structure.rs:345-348 -/
  | child (r : Ref)
  /-- structure.rs:352-354 -/
  | children (x : List Ref)
  /-- structure.rs:359-361 -/
  | idTree (calls : List NameTreeCall)
  /-- structure.rs:366-368 -/
  | parentTree (calls : List NumberTreeCall)
  /-- structure.rs:372-375 -/
  | parentTreeNextKey (key : Int)
  /-- structure.rs:383-385 -/
  | roleMap (calls : List RoleMapCall)
  /-- structure.rs:390-392 -/
  | classMap (calls : List ClassMapCall)
  /-- structure.rs:398-400 -/
  | namespaces (x : List Ref)
  /-- structure.rs:408-410 -/
  | pronunciationLexicon (x : List Ref)
  /-- structure.rs:414-416 -/
  | associatedFiles (x : List (List FileSpecCall))
  /-- structure.rs:419 -/
  | raw (key : Bytes) (value : Prog)

/-- The entries each method inserts. -/
def StructTreeRootCall.entries : StructTreeRootCall → List (Bytes × Prog)
  | .child r => [(b!"K", pRef r)]
  | .children x => [(b!"K", .array (x.map fun x => pRef x))]
  | .idTree calls => [(b!"IDTree", NameTree.prog calls)]
  | .parentTree calls => [(b!"ParentTree", NumberTree.prog calls)]
  | .parentTreeNextKey key => [(b!"ParentTreeNextKey", pInt key)]
  | .roleMap calls => [(b!"RoleMap", RoleMap.prog calls)]
  | .classMap calls => [(b!"ClassMap", ClassMap.prog calls)]
  | .namespaces x => [(b!"Namespaces", .array (x.map fun x => pRef x))]
  | .pronunciationLexicon x => [(b!"PronunciationLexicon", .array (x.map fun x => pRef x))]
  | .associatedFiles x => [(b!"AF", .array (x.map fun x => FileSpec.prog x))]
  | .raw key value => [(key, value)]

/-- All entries of the object: those of the constructor (structure.rs:336-340), then those of the calls. -/
def StructTreeRoot.entries (calls : List StructTreeRootCall) : List (Bytes × Prog) := [(b!"Type", pName b!"StructTreeRoot")] ++ calls.flatMap StructTreeRootCall.entries

/-- The object written. -/
def StructTreeRoot.prog (calls : List StructTreeRootCall) : Prog := .dict (StructTreeRoot.entries calls)

/-- Calls of public methods of `MarkInfo` (structure.rs:1621-1621). -/
inductive MarkInfoCall where
  /-- structure.rs:1628-1631 -/
  | marked (conformant : Bool)
  /-- structure.rs:1635-1638 -/
  | userProperties (present : Bool)
  /-- structure.rs:1642-1645 -/
  | suspects (present : Bool)
  /-- structure.rs:1648 -/
  | raw (key : Bytes) (value : Prog)

/-- The entries each method inserts. -/
def MarkInfoCall.entries : MarkInfoCall → List (Bytes × Prog)
  | .marked conformant => [(b!"Marked", pBool conformant)]
  | .userProperties present => [(b!"UserProperties", pBool present)]
  | .suspects present => [(b!"Suspects", pBool present)]
  | .raw key value => [(key, value)]

/-- All entries of the object: those of the constructor (structure.rs:1621-1621), then those of the calls. -/
def MarkInfo.entries (calls : List MarkInfoCall) : List (Bytes × Prog) := calls.flatMap MarkInfoCall.entries

/-- The object written. -/
def MarkInfo.prog (calls : List MarkInfoCall) : Prog := .dict (MarkInfo.entries calls)

/-- Calls of public methods of `PageLabel` (structure.rs:1676-1680). -/
inductive PageLabelCall where
  /-- structure.rs:1687-1690 -/
  | style (style' : NumberingStyle)
  /-- structure.rs:1693-1696 -/
  | «prefix» («prefix'» : TextLike)
  /-- structure.rs:1701-1704 -/
  | offset (offset' : Int)
  /-- structure.rs:1707 -/
  | raw (key : Bytes) (value : Prog)

/-- The entries each method inserts. -/
def PageLabelCall.entries : PageLabelCall → List (Bytes × Prog)
  | .style style' => [(b!"S", pName style'.toName)]
  | .«prefix» «prefix'» => [(b!"P", «prefix'».prog)]
  | .offset offset' => [(b!"St", pInt offset')]
  | .raw key value => [(key, value)]

/-- All entries of the object: those of the constructor (structure.rs:1676-1680), then those of the calls. -/
def PageLabel.entries (calls : List PageLabelCall) : List (Bytes × Prog) := [(b!"Type", pName b!"PageLabel")] ++ calls.flatMap PageLabelCall.entries

/-- The object written. -/
def PageLabel.prog (calls : List PageLabelCall) : Prog := .dict (PageLabel.entries calls)

/-- Calls of public methods of `DocumentInfo` (structure.rs:1743-1743). -/
inductive DocumentInfoCall where
  /-- structure.rs:1747-1750 -/
  | title (title' : TextLike)
  /-- structure.rs:1753-1756 -/
  | author (author' : TextLike)
  /-- structure.rs:1759-1762 -/
  | subject (subject' : TextLike)
  /-- structure.rs:1766-1769 -/
  | keywords (keywords' : TextLike)
  /-- structure.rs:1773-1776 -/
  | creator (creator' : TextLike)
  /-- structure.rs:1780-1783 -/
  | producer (producer' : TextLike)
  /-- structure.rs:1787-1790 -/
  | creationDate (date : Date)
  /-- structure.rs:1796-1799 -/
  | modifiedDate (date : Date)
  /-- structure.rs:1803-1806 -/
  | trapped (trapped' : TrappingStatus)
  /-- structure.rs:1809 -/
  | raw (key : Bytes) (value : Prog)

/-- The entries each method inserts. -/
def DocumentInfoCall.entries : DocumentInfoCall → List (Bytes × Prog)
  | .title title' => [(b!"Title", title'.prog)]
  | .author author' => [(b!"Author", author'.prog)]
  | .subject subject' => [(b!"Subject", subject'.prog)]
  | .keywords keywords' => [(b!"Keywords", keywords'.prog)]
  | .creator creator' => [(b!"Creator", creator'.prog)]
  | .producer producer' => [(b!"Producer", producer'.prog)]
  | .creationDate date => [(b!"CreationDate", pDate date)]
  | .modifiedDate date => [(b!"ModDate", pDate date)]
  | .trapped trapped' => [(b!"Trapped", pName trapped'.toName)]
  | .raw key value => [(key, value)]

/-- All entries of the object: those of the constructor (structure.rs:1743-1743), then those of the calls. -/
def DocumentInfo.entries (calls : List DocumentInfoCall) : List (Bytes × Prog) := calls.flatMap DocumentInfoCall.entries

/-- The object written. -/
def DocumentInfo.prog (calls : List DocumentInfoCall) : Prog := .dict (DocumentInfo.entries calls)

/-- Calls of public methods of `Pages` (structure.rs:1842-1846). -/
inductive PagesCall where
  /-- structure.rs:1850-1853 -/
  | parent (parent' : Ref)
  /-- structure.rs:1857-1860 -/
  | kids (kids' : List Ref)
  /-- structure.rs:1865-1868 -/
  | count (count' : Int)
  /-- structure.rs:1871-1874 -/
  | mediaBox (rect : Rect)
  /-- structure.rs:1877-1879 -/
  | resources (calls : List ResourcesCall)
  /-- structure.rs:1882 -/
  | raw (key : Bytes) (value : Prog)

/-- The entries each method inserts. -/
def PagesCall.entries : PagesCall → List (Bytes × Prog)
  | .parent parent' => [(b!"Parent", pRef parent')]
  | .kids kids' => [(b!"Kids", .array (kids'.map fun x => pRef x))]
  | .count count' => [(b!"Count", pInt count')]
  | .mediaBox rect => [(b!"MediaBox", pRect rect)]
  | .resources calls => [(b!"Resources", Resources.prog calls)]
  | .raw key value => [(key, value)]

/-- All entries of the object: those of the constructor (structure.rs:1842-1846), then those of the calls. -/
def Pages.entries (calls : List PagesCall) : List (Bytes × Prog) := [(b!"Type", pName b!"Pages")] ++ calls.flatMap PagesCall.entries

/-- The object written. -/
def Pages.prog (calls : List PagesCall) : Prog := .dict (Pages.entries calls)

/-- Calls of public methods of `Page` (structure.rs:1891-1895). -/
inductive PageCall where
  /-- structure.rs:1899-1902 -/
  | parent (parent' : Ref)
  /-- structure.rs:1905-1908 -/
  | lastModified (date : Date)
  /-- structure.rs:1912-1915 -/
  | mediaBox (rect : Rect)
  /-- structure.rs:1919-1922 -/
  | cropBox (rect : Rect)
  /-- structure.rs:1927-1930 -/
  | bleedBox (rect : Rect)
  /-- structure.rs:1934-1937 -/
  | trimBox (rect : Rect)
  /-- structure.rs:1941-1944 -/
  | artBox (rect : Rect)
  /-- structure.rs:1947-1949 -/
  | resources (calls : List ResourcesCall)
  /-- structure.rs:1955-1958 -/
  | contents (r : Ref)
  /-- structure.rs:1961-1964 -/
  | contentsArray (ids : List Ref)
  /-- structure.rs:1969-1972 -/
  | rotate (degrees : Int)
  /-- structure.rs:1979-1981 -/
  | group (calls : List GroupCall)
  /-- structure.rs:1986-1989 -/
  | thumbnail (r : Ref)
  /-- structure.rs:1993-1996 -/
  | duration (seconds : F32)
  /-- structure.rs:2000-2002 -/
  | transition (calls : List TransitionCall)
  /-- structure.rs:2005-2008 -/
  | annotations (ids : List Ref)
  /-- structure.rs:2012-2015 -/
  | structParents (key : Int)
  /-- structure.rs:2019-2022 -/
  | tabOrder (order : TabOrder)
  /-- structure.rs:2026-2029 -/
  | userUnit (value : F32)
  /-- structure.rs:2035-2037 -/
  | additionalActions (calls : List AdditionalActionsCall)
  /-- structure.rs:2045-2048 -/
  | metadata (r : Ref)
  /-- structure.rs:2052-2054 -/
  | associatedFiles (x : List (List FileSpecCall))
  /-- structure.rs:2057 -/
  | raw (key : Bytes) (value : Prog)

/-- The entries each method inserts. -/
def PageCall.entries : PageCall → List (Bytes × Prog)
  | .parent parent' => [(b!"Parent", pRef parent')]
  | .lastModified date => [(b!"LastModified", pDate date)]
  | .mediaBox rect => [(b!"MediaBox", pRect rect)]
  | .cropBox rect => [(b!"CropBox", pRect rect)]
  | .bleedBox rect => [(b!"BleedBox", pRect rect)]
  | .trimBox rect => [(b!"TrimBox", pRect rect)]
  | .artBox rect => [(b!"ArtBox", pRect rect)]
  | .resources calls => [(b!"Resources", Resources.prog calls)]
  | .contents r => [(b!"Contents", pRef r)]
  | .contentsArray ids => [(b!"Contents", .array (ids.map fun x => pRef x))]
  | .rotate degrees => [(b!"Rotate", pInt degrees)]
  | .group calls => [(b!"Group", Group.prog calls)]
  | .thumbnail r => [(b!"Thumb", pRef r)]
  | .duration seconds => [(b!"Dur", pReal seconds)]
  | .transition calls => [(b!"Trans", Transition.prog calls)]
  | .annotations ids => [(b!"Annots", .array (ids.map fun x => pRef x))]
  | .structParents key => [(b!"StructParents", pInt key)]
  | .tabOrder order => [(b!"Tabs", pName order.toName)]
  | .userUnit value => [(b!"UserUnit", pReal value)]
  | .additionalActions calls => [(b!"AA", AdditionalActions.prog calls)]
  | .metadata r => [(b!"Metadata", pRef r)]
  | .associatedFiles x => [(b!"AF", .array (x.map fun x => FileSpec.prog x))]
  | .raw key value => [(key, value)]

/-- All entries of the object: those of the constructor (structure.rs:1891-1895), then those of the calls. -/
def Page.entries (calls : List PageCall) : List (Bytes × Prog) := [(b!"Type", pName b!"Page")] ++ calls.flatMap PageCall.entries

/-- The object written. -/
def Page.prog (calls : List PageCall) : Prog := .dict (Page.entries calls)

/-- Calls of public methods of `Outline` (structure.rs:2066-2070). -/
inductive OutlineCall where
  /-- structure.rs:2075-2078 -/
  | first (item : Ref)
  /-- structure.rs:2082-2085 -/
  | last (item : Ref)
  /-- structure.rs:2091-2095 -/
  | count (count' : Int)
  /-- structure.rs:2098 -/
  | raw (key : Bytes) (value : Prog)

/-- The entries each method inserts. -/
def OutlineCall.entries : OutlineCall → List (Bytes × Prog)
  | .first item => [(b!"First", pRef item)]
  | .last item => [(b!"Last", pRef item)]
  | .count count' => [(b!"Count", pInt count')]
  | .raw key value => [(key, value)]

/-- All entries of the object: those of the constructor (structure.rs:2066-2070), then those of the calls. -/
def Outline.entries (calls : List OutlineCall) : List (Bytes × Prog) := [(b!"Type", pName b!"Outlines")] ++ calls.flatMap OutlineCall.entries

/-- The object written. -/
def Outline.prog (calls : List OutlineCall) : Prog := .dict (Outline.entries calls)

/-- Does the call panic (`assert!`)? -/
def OutlineCall.panics : OutlineCall → Bool
  | .count count' => !decide (0 ≤ count')
  | _ => false

/-- The object written by a sequence of calls; `none` if one of them panics. -/
def Outline.run (calls : List OutlineCall) : Option Prog := if calls.any OutlineCall.panics then none else some (Outline.prog calls)

/-- Calls of public methods of `OutlineItem` (structure.rs:2107-2107). -/
inductive OutlineItemCall where
  /-- structure.rs:2111-2114 -/
  | title (title' : TextLike)
  /-- structure.rs:2118-2121 -/
  | parent (outline : Ref)
  /-- structure.rs:2125-2128 -/
  | prev (outline : Ref)
  /-- structure.rs:2132-2135 -/
  | next (outline : Ref)
  /-- structure.rs:2138-2141 -/
  | first (outline : Ref)
  /-- structure.rs:2144-2147 -/
  | last (outline : Ref)
  /-- structure.rs:2153-2156 -/
  | count (items : Int)
  /-- structure.rs:2160-2162 -/
  | dest (calls : List DestinationCall)
  /-- structure.rs:2166-2169 -/
  | destName (name : Bytes)
  /-- structure.rs:2173-2176 -/
  | colorRgb (r : F32) (g : F32) (b : F32)
  /-- structure.rs:2179-2182 -/
  | flags (flags' : List OutlineItemFlag)
  /-- structure.rs:2185 -/
  | raw (key : Bytes) (value : Prog)

/-- The entries each method inserts. -/
def OutlineItemCall.entries : OutlineItemCall → List (Bytes × Prog)
  | .title title' => [(b!"Title", title'.prog)]
  | .parent outline => [(b!"Parent", pRef outline)]
  | .prev outline => [(b!"Prev", pRef outline)]
  | .next outline => [(b!"Next", pRef outline)]
  | .first outline => [(b!"First", pRef outline)]
  | .last outline => [(b!"Last", pRef outline)]
  | .count items => [(b!"Count", pInt items)]
  | .dest calls => [(b!"Dest", Destination.prog calls)]
  | .destName name => [(b!"Dest", pName name)]
  | .colorRgb r g b => [(b!"C", .array [pReal r, pReal g, pReal b])]
  | .flags flags' => [(b!"F", pFlags (flags'.map OutlineItemFlag.bits))]
  | .raw key value => [(key, value)]

/-- All entries of the object: those of the constructor (structure.rs:2107-2107), then those of the calls. -/
def OutlineItem.entries (calls : List OutlineItemCall) : List (Bytes × Prog) := calls.flatMap OutlineItemCall.entries

/-- The object written. -/
def OutlineItem.prog (calls : List OutlineItemCall) : Prog := .dict (OutlineItem.entries calls)

/-- Calls of public methods of `Names` (structure.rs:2205-2205). -/
inductive NamesCall where
  /-- structure.rs:2210-2212 -/
  | destinations (calls : List NameTreeCall)
  /-- structure.rs:2216-2218 -/
  | appearances (calls : List NameTreeCall)
  /-- structure.rs:2222-2224 -/
  | javascript (calls : List NameTreeCall)
  /-- structure.rs:2227-2229 -/
  | pages (calls : List NameTreeCall)
  /-- structure.rs:2233-2235 -/
  | templates (calls : List NameTreeCall)
  /-- structure.rs:2239-2241 -/
  | captureIds (calls : List NameTreeCall)
  /-- structure.rs:2245-2247 -/
  | captureUrls (calls : List NameTreeCall)
  /-- structure.rs:2254-2256 -/
  | embeddedFiles (calls : List NameTreeCall)
  /-- structure.rs:2262-2264 -/
  | alternatePresentations (calls : List NameTreeCall)
  /-- structure.rs:2268-2270 -/
  | renditions (calls : List NameTreeCall)
  /-- structure.rs:2273 -/
  | raw (key : Bytes) (value : Prog)

/-- The entries each method inserts. -/
def NamesCall.entries : NamesCall → List (Bytes × Prog)
  | .destinations calls => [(b!"Dests", NameTree.prog calls)]
  | .appearances calls => [(b!"AP", NameTree.prog calls)]
  | .javascript calls => [(b!"JavaScript", NameTree.prog calls)]
  | .pages calls => [(b!"Pages", NameTree.prog calls)]
  | .templates calls => [(b!"Templates", NameTree.prog calls)]
  | .captureIds calls => [(b!"IDS", NameTree.prog calls)]
  | .captureUrls calls => [(b!"URLS", NameTree.prog calls)]
  | .embeddedFiles calls => [(b!"EmbeddedFiles", NameTree.prog calls)]
  | .alternatePresentations calls => [(b!"AlternatePresentations", NameTree.prog calls)]
  | .renditions calls => [(b!"Renditions", NameTree.prog calls)]
  | .raw key value => [(key, value)]

/-- All entries of the object: those of the constructor (structure.rs:2205-2205), then those of the calls. -/
def Names.entries (calls : List NamesCall) : List (Bytes × Prog) := calls.flatMap NamesCall.entries

/-- The object written. -/
def Names.prog (calls : List NamesCall) : Prog := .dict (Names.entries calls)

/-- Calls of public methods of `DeveloperExtension` (structure.rs:237-241). -/
inductive DeveloperExtensionCall where
  /-- structure.rs:246-249 -/
  | baseVersion (major : UInt8) (minor : UInt8)
  /-- structure.rs:253-256 -/
  | extensionLevel (level : Int)
  /-- structure.rs:259 -/
  | raw (key : Bytes) (value : Prog)

/-- The entries each method inserts. -/
def DeveloperExtensionCall.entries : DeveloperExtensionCall → List (Bytes × Prog)
  | .baseVersion major minor => [(b!"BaseVersion", pVersion major minor)]
  | .extensionLevel level => [(b!"ExtensionLevel", pInt level)]
  | .raw key value => [(key, value)]

/-- All entries of the object: those of the constructor (structure.rs:237-241), then those of the calls. -/
def DeveloperExtension.entries (calls : List DeveloperExtensionCall) : List (Bytes × Prog) := [(b!"Type", pName b!"DeveloperExtensions")] ++ calls.flatMap DeveloperExtensionCall.entries

/-- The object written. -/
def DeveloperExtension.prog (calls : List DeveloperExtensionCall) : Prog := .dict (DeveloperExtension.entries calls)

/-- Calls of public methods of `ViewerPreferences` (structure.rs:268-268). -/
inductive ViewerPreferencesCall where
  /-- structure.rs:273-276 -/
  | hideToolbar (hide : Bool)
  /-- structure.rs:280-283 -/
  | hideMenubar (hide : Bool)
  /-- structure.rs:287-290 -/
  | fitWindow (fit : Bool)
  /-- structure.rs:294-297 -/
  | centerWindow (center : Bool)
  /-- structure.rs:302-305 -/
  | displayDocTitle (display : Bool)
  /-- structure.rs:313-317 -/
  | nonFullScreenPageMode (mode : PageMode)
  /-- structure.rs:321-324 -/
  | direction (dir : Direction)
  /-- structure.rs:327 -/
  | raw (key : Bytes) (value : Prog)

/-- The entries each method inserts. -/
def ViewerPreferencesCall.entries : ViewerPreferencesCall → List (Bytes × Prog)
  | .hideToolbar hide => [(b!"HideToolbar", pBool hide)]
  | .hideMenubar hide => [(b!"HideMenubar", pBool hide)]
  | .fitWindow fit => [(b!"FitWindow", pBool fit)]
  | .centerWindow center => [(b!"CenterWindow", pBool center)]
  | .displayDocTitle display => [(b!"DisplayDocTitle", pBool display)]
  | .nonFullScreenPageMode mode => [(b!"NonFullScreenPageMode", pName mode.toName)]
  | .direction dir => [(b!"Direction", pName dir.toName)]
  | .raw key value => [(key, value)]

/-- All entries of the object: those of the constructor (structure.rs:268-268), then those of the calls. -/
def ViewerPreferences.entries (calls : List ViewerPreferencesCall) : List (Bytes × Prog) := calls.flatMap ViewerPreferencesCall.entries

/-- The object written. -/
def ViewerPreferences.prog (calls : List ViewerPreferencesCall) : Prog := .dict (ViewerPreferences.entries calls)

/-- Does the call panic (`assert!`)? -/
def ViewerPreferencesCall.panics : ViewerPreferencesCall → Bool
  | .nonFullScreenPageMode mode => mode == .fullScreen
  | _ => false

/-- The object written by a sequence of calls; `none` if one of them panics. -/
def ViewerPreferences.run (calls : List ViewerPreferencesCall) : Option Prog := if calls.any ViewerPreferencesCall.panics then none else some (ViewerPreferences.prog calls)

/-- Calls of public methods of `Catalog` (structure.rs:15-19). -/
inductive CatalogCall where
  /-- structure.rs:23-26 -/
  | pages (r : Ref)
  /-- structure.rs:30-33 -/
  | pageLayout (layout : PageLayout)
  /-- structure.rs:36-38 -/
  | pageLabels (calls : List NumberTreeCall)
  /-- structure.rs:42-45 -/
  | pageMode (mode : PageMode)
  /-- structure.rs:48-50 -/
  | viewerPreferences (calls : List ViewerPreferencesCall)
  /-- structure.rs:53-55 -/
  | names (calls : List NamesCall)
  /-- structure.rs:59-62 -/
  | destinations (r : Ref)
  /-- structure.rs:66-69 -/
  | outlines (r : Ref)
  /-- structure.rs:75-77 -/
  | structTreeRoot (calls : List StructTreeRootCall)
  /-- structure.rs:83-85 -/
  | markInfo (calls : List MarkInfoCall)
  /-- structure.rs:91-94 -/
  | lang (lang' : List Char)
  /-- structure.rs:98-101 -/
  | version (major : UInt8) (minor : UInt8)
  /-- structure.rs:107-109 -/
  | additionalActions (calls : List AdditionalActionsCall)
  /-- structure.rs:113-115 -/
  | form (calls : List FormCall)
  /-- structure.rs:121-124 -/
  | metadata (r : Ref)
  /-- structure.rs:131-133 -/
  | extensions (x : List (Bytes × List DeveloperExtensionCall))
  /-- structure.rs:138-140 -/
  | separationInfo (calls : List SeparationInfoCall)
  /-- structure.rs:149-151 -/
  | outputIntents (x : List (List OutputIntentCall))
  /-- structure.rs:155-157 -/
  | associatedFiles (x : List (List FileSpecCall))
  /-- structure.rs:160 -/
  | raw (key : Bytes) (value : Prog)

/-- The entries each method inserts. -/
def CatalogCall.entries : CatalogCall → List (Bytes × Prog)
  | .pages r => [(b!"Pages", pRef r)]
  | .pageLayout layout => [(b!"PageLayout", pName layout.toName)]
  | .pageLabels calls => [(b!"PageLabels", NumberTree.prog calls)]
  | .pageMode mode => [(b!"PageMode", pName mode.toName)]
  | .viewerPreferences calls => [(b!"ViewerPreferences", ViewerPreferences.prog calls)]
  | .names calls => [(b!"Names", Names.prog calls)]
  | .destinations r => [(b!"Dests", pRef r)]
  | .outlines r => [(b!"Outlines", pRef r)]
  | .structTreeRoot calls => [(b!"StructTreeRoot", StructTreeRoot.prog calls)]
  | .markInfo calls => [(b!"MarkInfo", MarkInfo.prog calls)]
  | .lang lang' => [(b!"Lang", pText lang')]
  | .version major minor => [(b!"Version", pVersion major minor)]
  | .additionalActions calls => [(b!"AA", AdditionalActions.prog calls)]
  | .form calls => [(b!"AcroForm", Form.prog calls)]
  | .metadata r => [(b!"Metadata", pRef r)]
  | .extensions x => [(b!"Extensions", .dict (x.map fun e => (e.1, DeveloperExtension.prog e.2)))]
  | .separationInfo calls => [(b!"SeparationInfo", SeparationInfo.prog calls)]
  | .outputIntents x => [(b!"OutputIntents", .array (x.map fun x => OutputIntent.prog x))]
  | .associatedFiles x => [(b!"AF", .array (x.map fun x => FileSpec.prog x))]
  | .raw key value => [(key, value)]

/-- All entries of the object: those of the constructor (structure.rs:15-19), then those of the calls. -/
def Catalog.entries (calls : List CatalogCall) : List (Bytes × Prog) := [(b!"Type", pName b!"Catalog")] ++ calls.flatMap CatalogCall.entries

/-- The object written. -/
def Catalog.prog (calls : List CatalogCall) : Prog := .dict (Catalog.entries calls)

/-- Does the call panic (`assert!`)? -/
def CatalogCall.panics : CatalogCall → Bool
  | .viewerPreferences calls => calls.any ViewerPreferencesCall.panics
  | _ => false

/-- The object written by a sequence of calls; `none` if one of them panics. -/
def Catalog.run (calls : List CatalogCall) : Option Prog := if calls.any CatalogCall.panics then none else some (Catalog.prog calls)

/-- Calls of public methods of `Metadata` (structure.rs:2381-2385). -/
inductive MetadataCall where
  /-- structure.rs:2388 -/
  | stream (c : StreamCall)

/-- The entries each method inserts. -/
def MetadataCall.entries : MetadataCall → List (Bytes × Prog)
  | .stream c => c.entries

/-- All entries of the object: those of the constructor (structure.rs:2381-2385), then those of the calls. -/
def Metadata.entries (calls : List MetadataCall) : List (Bytes × Prog) := [(b!"Type", pName b!"Metadata"), (b!"Subtype", pName b!"XML")] ++ calls.flatMap MetadataCall.entries

/-- Does the call panic (`assert!`)? -/
def MetadataCall.panics : MetadataCall → Bool
  | .stream c => c.panics

/-- The stream written; `none` if one of the calls panics, or the stream is too long. -/
def Metadata.write (calls : List MetadataCall) (c : Chunk) (r : Ref) (data : Bytes) : Option Chunk :=
  if calls.any MetadataCall.panics then none else c.writeStream r (Metadata.entries calls) data

end PdfW
