-- Generated by tools/typed.py from /repo/src; do not edit.
import Verif.Model.Typed.Structure
import Verif.Spec.Typed.Attributes
import Verif.Spec.Typed.Forms
import Verif.Spec.Typed.XObject
import Verif.Spec.Typed.Pattern
import Verif.Spec.Typed.Transitions

/-! # Meaning of the calls of `MarkedRef`, `ObjectRef`, `StructChildren`, `StructElement`, `RoleMap`, `ClassMap`, `NamespaceRoleMap`, `Namespace`, `StructTreeRoot`, `MarkInfo`, `PageLabel`, `DocumentInfo`, `Pages`, `Page`, `Outline`, `OutlineItem`, `Names`, `DeveloperExtension`, `ViewerPreferences`, `Catalog`, `Metadata`

Keys from the documentation of each method, value types from the parameter types and ISO 32000. -/

namespace PdfW.Spec
open PdfW

/-- The entries a call of `MarkedRef` stands for: key and meaning of the value. -/
def MarkedRefMeans : MarkedRefCall → List (Bytes × (Val → Prop))
  | .page page' => [(b!"Pg", IsRef page')]
  | .stream stream' => [(b!"Stm", IsRef stream')]
  | .streamOwner owner => [(b!"StmOwn", IsRef owner)]
  | .markedContentId r => [(b!"MCID", IsInt r)]
  | .raw key value => [(key, Denotes value)]

def MarkedRefEntries (calls : List MarkedRefCall) : List (Bytes × (Val → Prop)) := [(b!"Type", IsName b!"MCR")] ++ calls.flatMap MarkedRefMeans

def IsMarkedRef (calls : List MarkedRefCall) : Val → Prop := DictIs (MarkedRefEntries calls)

/-- The entries a call of `ObjectRef` stands for: key and meaning of the value. -/
def ObjectRefMeans : ObjectRefCall → List (Bytes × (Val → Prop))
  | .page page' => [(b!"Pg", IsRef page')]
  | .object obj => [(b!"Obj", IsRef obj)]
  | .raw key value => [(key, Denotes value)]

def ObjectRefEntries (calls : List ObjectRefCall) : List (Bytes × (Val → Prop)) := [(b!"Type", IsName b!"OBJR")] ++ calls.flatMap ObjectRefMeans

def IsObjectRef (calls : List ObjectRefCall) : Val → Prop := DictIs (ObjectRefEntries calls)

/-- The items a call of `StructChildren` stands for. -/
def StructChildrenMeans : StructChildrenCall → List (Val → Prop)
  | .structElement r => [IsRef r]
  | .markedContentId r => [IsInt r]
  | .markedContentRef calls => [IsMarkedRef calls]
  | .objectRef calls => [IsObjectRef calls]
  | .raw value => [Denotes value]

def StructChildrenItems (calls : List StructChildrenCall) : List (Val → Prop) := calls.flatMap StructChildrenMeans

def IsStructChildren (calls : List StructChildrenCall) : Val → Prop := ArrayIs (StructChildrenItems calls)

/-- The entries a call of `StructElement` stands for: key and meaning of the value. -/
def StructElementMeans : StructElementCall → List (Bytes × (Val → Prop))
  | .kind role => [(b!"S", IsRole17 role)]
  | .kind2 role ns => [(b!"S", IsRole20 role), (b!"NS", IsRef ns)]
  | .customKind name => [(b!"S", IsName name)]
  | .parent parent' => [(b!"P", IsRef parent')]
  | .id r => [(b!"ID", IsStr r)]
  | .refs refs' => [(b!"Ref", ArrayIs (refs'.map fun x => IsRef x))]
  | .page page' => [(b!"Pg", IsRef page')]
  | .child r => [(b!"K", IsRef r)]
  | .markedContentChild calls => [(b!"K", IsMarkedRef calls)]
  | .objectChild calls => [(b!"K", IsObjectRef calls)]
  | .children calls => [(b!"K", IsStructChildren calls)]
  | .attributes x => [(b!"A", ArrayIs (x.map fun x => IsAttributes x))]
  | .attributeClass x => [(b!"C", ArrayIs (x.map fun x => IsName x))]
  | .revision revision' => [(b!"R", IsInt revision')]
  | .title title' => [(b!"T", IsTextLike title')]
  | .lang lang' => [(b!"Lang", IsText lang')]
  | .alt alt' => [(b!"Alt", IsTextLike alt')]
  | .expanded expanded' => [(b!"E", IsTextLike expanded')]
  | .actualText actualText' => [(b!"ActualText", IsTextLike actualText')]
  | .associatedFiles x => [(b!"AF", ArrayIs (x.map fun x => IsFileSpec x))]
  | .«namespace» ns => [(b!"NS", IsRef ns)]
  | .phoneticAlphabet alphabet => [(b!"PhoneticAlphabet", IsName (isoPhoneticAlphabet alphabet))]
  | .phoneme phoneme' => [(b!"Phoneme", IsText phoneme')]
  | .raw key value => [(key, Denotes value)]

def StructElementEntries (calls : List StructElementCall) : List (Bytes × (Val → Prop)) := [(b!"Type", IsName b!"StructElem")] ++ calls.flatMap StructElementMeans

def IsStructElement (calls : List StructElementCall) : Val → Prop := DictIs (StructElementEntries calls)

/-- The entries a call of `RoleMap` stands for: key and meaning of the value. -/
def RoleMapMeans : RoleMapCall → List (Bytes × (Val → Prop))
  | .insert name role => [(name, IsRole17 role)]
  | .pair key value => [(key, IsName value)]

def RoleMapEntries (calls : List RoleMapCall) : List (Bytes × (Val → Prop)) := calls.flatMap RoleMapMeans

def IsRoleMap (calls : List RoleMapCall) : Val → Prop := DictIs (RoleMapEntries calls)

/-- The entries a call of `ClassMap` stands for: key and meaning of the value. -/
def ClassMapMeans : ClassMapCall → List (Bytes × (Val → Prop))
  | .single name calls => [(name, IsAttributes calls)]
  | .multiple name xs => [(name, ArrayIs (xs.map IsAttributes))]
  | .raw key value => [(key, Denotes value)]

def ClassMapEntries (calls : List ClassMapCall) : List (Bytes × (Val → Prop)) := calls.flatMap ClassMapMeans

def IsClassMap (calls : List ClassMapCall) : Val → Prop := DictIs (ClassMapEntries calls)

/-- The entries a call of `NamespaceRoleMap` stands for: key and meaning of the value. -/
def NamespaceRoleMapMeans : NamespaceRoleMapCall → List (Bytes × (Val → Prop))
  | .toPdf17 name role => [(name, IsRole17 role)]
  | .toNamespace name role ns => [(name, ArrayIs [IsName role, IsRef ns])]
  | .toPdf20 name role ns => [(name, ArrayIs [IsRole20 role, IsRef ns])]
  | .raw key value => [(key, Denotes value)]

def NamespaceRoleMapEntries (calls : List NamespaceRoleMapCall) : List (Bytes × (Val → Prop)) := calls.flatMap NamespaceRoleMapMeans

def IsNamespaceRoleMap (calls : List NamespaceRoleMapCall) : Val → Prop := DictIs (NamespaceRoleMapEntries calls)

/-- The entries a call of `Namespace` stands for: key and meaning of the value. -/
def NamespaceMeans (rd : Reading) : NamespaceCall → List (Bytes × (Val → Prop))
  | .ns identifier => [(b!"NS", IsText identifier)]
  | .schema calls => [(b!"Schema", IsFileSpec calls)]
  | .roleMapNs calls => [(b!"RoleMapNS", IsNamespaceRoleMap calls)]
  | .pdf2Ns => rd.pick [(b!"NS", IsText "http://iso.org/pdf2/ssn".toList)] [(b!"NS", IsText "https://www.iso.org/pdf2/ssn".toList)]
  | .pdf17Ns => rd.pick [(b!"NS", IsText "http://iso.org/pdf/ssn".toList)] [(b!"NS", IsText "https://www.iso.org/pdf/ssn".toList)]
  | .mathml30Ns => rd.pick [(b!"NS", IsText "http://www.w3.org/1998/Math/MathML".toList)] [(b!"NS", IsText "https://www.w3.org/1998/Math/MathML".toList)]
  | .raw key value => [(key, Denotes value)]

def NamespaceEntries (rd : Reading) (calls : List NamespaceCall) : List (Bytes × (Val → Prop)) := [(b!"Type", IsName b!"Namespace")] ++ calls.flatMap (NamespaceMeans rd)

def IsNamespace (rd : Reading) (calls : List NamespaceCall) : Val → Prop := DictIs (NamespaceEntries rd calls)

/-- Calls whose behaviour is as documented (see `Props/Typed/Defects.lean` for the others). -/
def _root_.PdfW.NamespaceCall.conforming : NamespaceCall → Bool
  | .pdf2Ns => false
  | .pdf17Ns => false
  | .mathml30Ns => false
  | _ => true

/-- The entries a call of `StructTreeRoot` stands for: key and meaning of the value. -/
def StructTreeRootMeans (rd : Reading) : StructTreeRootCall → List (Bytes × (Val → Prop))
  | .child r => [(b!"K", IsRef r)]
  | .children x => [(b!"K", ArrayIs (x.map fun x => IsRef x))]
  | .idTree calls => [(b!"IDTree", IsNameTree rd calls)]
  | .parentTree calls => [(b!"ParentTree", IsNumberTree calls)]
  | .parentTreeNextKey key => [(b!"ParentTreeNextKey", IsInt key)]
  | .roleMap calls => [(b!"RoleMap", IsRoleMap calls)]
  | .classMap calls => [(b!"ClassMap", IsClassMap calls)]
  | .namespaces x => [(b!"Namespaces", ArrayIs (x.map fun x => IsRef x))]
  | .pronunciationLexicon x => [(b!"PronunciationLexicon", ArrayIs (x.map fun x => IsRef x))]
  | .associatedFiles x => [(b!"AF", ArrayIs (x.map fun x => IsFileSpec x))]
  | .raw key value => [(key, Denotes value)]

def StructTreeRootEntries (rd : Reading) (calls : List StructTreeRootCall) : List (Bytes × (Val → Prop)) := [(b!"Type", IsName b!"StructTreeRoot")] ++ calls.flatMap (StructTreeRootMeans rd)

def IsStructTreeRoot (rd : Reading) (calls : List StructTreeRootCall) : Val → Prop := DictIs (StructTreeRootEntries rd calls)

/-- Calls whose behaviour is as documented (see `Props/Typed/Defects.lean` for the others). -/
def _root_.PdfW.StructTreeRootCall.conforming : StructTreeRootCall → Bool
  | .idTree calls => calls.all NameTreeCall.conforming
  | _ => true

/-- The entries a call of `MarkInfo` stands for: key and meaning of the value. -/
def MarkInfoMeans : MarkInfoCall → List (Bytes × (Val → Prop))
  | .marked conformant => [(b!"Marked", IsBool conformant)]
  | .userProperties present => [(b!"UserProperties", IsBool present)]
  | .suspects present => [(b!"Suspects", IsBool present)]
  | .raw key value => [(key, Denotes value)]

def MarkInfoEntries (calls : List MarkInfoCall) : List (Bytes × (Val → Prop)) := calls.flatMap MarkInfoMeans

def IsMarkInfo (calls : List MarkInfoCall) : Val → Prop := DictIs (MarkInfoEntries calls)

/-- The entries a call of `PageLabel` stands for: key and meaning of the value. -/
def PageLabelMeans : PageLabelCall → List (Bytes × (Val → Prop))
  | .style style' => [(b!"S", IsName (isoNumberingStyle style'))]
  | .«prefix» «prefix'» => [(b!"P", IsTextLike «prefix'»)]
  | .offset offset' => [(b!"St", IsInt offset')]
  | .raw key value => [(key, Denotes value)]

def PageLabelEntries (calls : List PageLabelCall) : List (Bytes × (Val → Prop)) := [(b!"Type", IsName b!"PageLabel")] ++ calls.flatMap PageLabelMeans

def IsPageLabel (calls : List PageLabelCall) : Val → Prop := DictIs (PageLabelEntries calls)

/-- The entries a call of `DocumentInfo` stands for: key and meaning of the value. -/
def DocumentInfoMeans : DocumentInfoCall → List (Bytes × (Val → Prop))
  | .title title' => [(b!"Title", IsTextLike title')]
  | .author author' => [(b!"Author", IsTextLike author')]
  | .subject subject' => [(b!"Subject", IsTextLike subject')]
  | .keywords keywords' => [(b!"Keywords", IsTextLike keywords')]
  | .creator creator' => [(b!"Creator", IsTextLike creator')]
  | .producer producer' => [(b!"Producer", IsTextLike producer')]
  | .creationDate date => [(b!"CreationDate", IsDate date)]
  | .modifiedDate date => [(b!"ModDate", IsDate date)]
  | .trapped trapped' => [(b!"Trapped", IsName (isoTrappingStatus trapped'))]
  | .raw key value => [(key, Denotes value)]

def DocumentInfoEntries (calls : List DocumentInfoCall) : List (Bytes × (Val → Prop)) := calls.flatMap DocumentInfoMeans

def IsDocumentInfo (calls : List DocumentInfoCall) : Val → Prop := DictIs (DocumentInfoEntries calls)

/-- The entries a call of `Pages` stands for: key and meaning of the value. -/
def PagesMeans : PagesCall → List (Bytes × (Val → Prop))
  | .parent parent' => [(b!"Parent", IsRef parent')]
  | .kids kids' => [(b!"Kids", ArrayIs (kids'.map fun x => IsRef x))]
  | .count count' => [(b!"Count", IsInt count')]
  | .mediaBox rect => [(b!"MediaBox", IsRect rect)]
  | .resources calls => [(b!"Resources", IsResources calls)]
  | .raw key value => [(key, Denotes value)]

def PagesEntries (calls : List PagesCall) : List (Bytes × (Val → Prop)) := [(b!"Type", IsName b!"Pages")] ++ calls.flatMap PagesMeans

def IsPages (calls : List PagesCall) : Val → Prop := DictIs (PagesEntries calls)

/-- The entries a call of `Page` stands for: key and meaning of the value. -/
def PageMeans (rd : Reading) : PageCall → List (Bytes × (Val → Prop))
  | .parent parent' => [(b!"Parent", IsRef parent')]
  | .lastModified date => [(b!"LastModified", IsDate date)]
  | .mediaBox rect => [(b!"MediaBox", IsRect rect)]
  | .cropBox rect => [(b!"CropBox", IsRect rect)]
  | .bleedBox rect => [(b!"BleedBox", IsRect rect)]
  | .trimBox rect => [(b!"TrimBox", IsRect rect)]
  | .artBox rect => [(b!"ArtBox", IsRect rect)]
  | .resources calls => [(b!"Resources", IsResources calls)]
  | .contents r => [(b!"Contents", IsRef r)]
  | .contentsArray ids => [(b!"Contents", ArrayIs (ids.map fun x => IsRef x))]
  | .rotate degrees => [(b!"Rotate", IsInt degrees)]
  | .group calls => [(b!"Group", IsGroup calls)]
  | .thumbnail r => [(b!"Thumb", IsRef r)]
  | .duration seconds => [(b!"Dur", NumIs seconds)]
  | .transition calls => [(b!"Trans", IsTransition rd calls)]
  | .annotations ids => [(b!"Annots", ArrayIs (ids.map fun x => IsRef x))]
  | .structParents key => [(b!"StructParents", IsInt key)]
  | .tabOrder order => [(b!"Tabs", IsName (isoTabOrder order))]
  | .userUnit value => [(b!"UserUnit", NumIs value)]
  | .additionalActions calls => [(b!"AA", IsAdditionalActions rd calls)]
  | .metadata r => [(b!"Metadata", IsRef r)]
  | .associatedFiles x => [(b!"AF", ArrayIs (x.map fun x => IsFileSpec x))]
  | .raw key value => [(key, Denotes value)]

def PageEntries (rd : Reading) (calls : List PageCall) : List (Bytes × (Val → Prop)) := [(b!"Type", IsName b!"Page")] ++ calls.flatMap (PageMeans rd)

def IsPage (rd : Reading) (calls : List PageCall) : Val → Prop := DictIs (PageEntries rd calls)

/-- Calls whose behaviour is as documented (see `Props/Typed/Defects.lean` for the others). -/
def _root_.PdfW.PageCall.conforming : PageCall → Bool
  | .transition calls => calls.all TransitionCall.conforming
  | .additionalActions calls => calls.all AdditionalActionsCall.conforming
  | _ => true

/-- The entries a call of `Outline` stands for: key and meaning of the value. -/
def OutlineMeans : OutlineCall → List (Bytes × (Val → Prop))
  | .first item => [(b!"First", IsRef item)]
  | .last item => [(b!"Last", IsRef item)]
  | .count count' => [(b!"Count", IsInt count')]
  | .raw key value => [(key, Denotes value)]

def OutlineEntries (calls : List OutlineCall) : List (Bytes × (Val → Prop)) := [(b!"Type", IsName b!"Outlines")] ++ calls.flatMap OutlineMeans

def IsOutline (calls : List OutlineCall) : Val → Prop := DictIs (OutlineEntries calls)

/-- The entries a call of `OutlineItem` stands for: key and meaning of the value. -/
def OutlineItemMeans : OutlineItemCall → List (Bytes × (Val → Prop))
  | .title title' => [(b!"Title", IsTextLike title')]
  | .parent outline => [(b!"Parent", IsRef outline)]
  | .prev outline => [(b!"Prev", IsRef outline)]
  | .next outline => [(b!"Next", IsRef outline)]
  | .first outline => [(b!"First", IsRef outline)]
  | .last outline => [(b!"Last", IsRef outline)]
  | .count items => [(b!"Count", IsInt items)]
  | .dest calls => [(b!"Dest", IsDestination calls)]
  | .destName name => [(b!"Dest", IsName name)]
  | .colorRgb r g b => [(b!"C", ArrayIs [NumIs r, NumIs g, NumIs b])]
  | .flags flags' => [(b!"F", FlagsAre (flags'.map isoOutlineItemFlag))]
  | .raw key value => [(key, Denotes value)]

def OutlineItemEntries (calls : List OutlineItemCall) : List (Bytes × (Val → Prop)) := calls.flatMap OutlineItemMeans

def IsOutlineItem (calls : List OutlineItemCall) : Val → Prop := DictIs (OutlineItemEntries calls)

/-- The entries a call of `Names` stands for: key and meaning of the value. -/
def NamesMeans (rd : Reading) : NamesCall → List (Bytes × (Val → Prop))
  | .destinations calls => [(b!"Dests", IsNameTree rd calls)]
  | .appearances calls => [(b!"AP", IsNameTree rd calls)]
  | .javascript calls => [(b!"JavaScript", IsNameTree rd calls)]
  | .pages calls => [(b!"Pages", IsNameTree rd calls)]
  | .templates calls => [(b!"Templates", IsNameTree rd calls)]
  | .captureIds calls => [(b!"IDS", IsNameTree rd calls)]
  | .captureUrls calls => [(b!"URLS", IsNameTree rd calls)]
  | .embeddedFiles calls => [(b!"EmbeddedFiles", IsNameTree rd calls)]
  | .alternatePresentations calls => [(b!"AlternatePresentations", IsNameTree rd calls)]
  | .renditions calls => [(b!"Renditions", IsNameTree rd calls)]
  | .raw key value => [(key, Denotes value)]

def NamesEntries (rd : Reading) (calls : List NamesCall) : List (Bytes × (Val → Prop)) := calls.flatMap (NamesMeans rd)

def IsNames (rd : Reading) (calls : List NamesCall) : Val → Prop := DictIs (NamesEntries rd calls)

/-- Calls whose behaviour is as documented (see `Props/Typed/Defects.lean` for the others). -/
def _root_.PdfW.NamesCall.conforming : NamesCall → Bool
  | .destinations calls => calls.all NameTreeCall.conforming
  | .appearances calls => calls.all NameTreeCall.conforming
  | .javascript calls => calls.all NameTreeCall.conforming
  | .pages calls => calls.all NameTreeCall.conforming
  | .templates calls => calls.all NameTreeCall.conforming
  | .captureIds calls => calls.all NameTreeCall.conforming
  | .captureUrls calls => calls.all NameTreeCall.conforming
  | .embeddedFiles calls => calls.all NameTreeCall.conforming
  | .alternatePresentations calls => calls.all NameTreeCall.conforming
  | .renditions calls => calls.all NameTreeCall.conforming
  | _ => true

/-- The entries a call of `DeveloperExtension` stands for: key and meaning of the value. -/
def DeveloperExtensionMeans : DeveloperExtensionCall → List (Bytes × (Val → Prop))
  | .baseVersion major minor => [(b!"BaseVersion", IsVersion major minor)]
  | .extensionLevel level => [(b!"ExtensionLevel", IsInt level)]
  | .raw key value => [(key, Denotes value)]

def DeveloperExtensionEntries (calls : List DeveloperExtensionCall) : List (Bytes × (Val → Prop)) := [(b!"Type", IsName b!"DeveloperExtensions")] ++ calls.flatMap DeveloperExtensionMeans

def IsDeveloperExtension (calls : List DeveloperExtensionCall) : Val → Prop := DictIs (DeveloperExtensionEntries calls)

/-- The entries a call of `ViewerPreferences` stands for: key and meaning of the value. -/
def ViewerPreferencesMeans : ViewerPreferencesCall → List (Bytes × (Val → Prop))
  | .hideToolbar hide => [(b!"HideToolbar", IsBool hide)]
  | .hideMenubar hide => [(b!"HideMenubar", IsBool hide)]
  | .fitWindow fit => [(b!"FitWindow", IsBool fit)]
  | .centerWindow center => [(b!"CenterWindow", IsBool center)]
  | .displayDocTitle display => [(b!"DisplayDocTitle", IsBool display)]
  | .nonFullScreenPageMode mode => [(b!"NonFullScreenPageMode", IsName (isoPageMode mode))]
  | .direction dir => [(b!"Direction", IsName (isoDirection dir))]
  | .raw key value => [(key, Denotes value)]

def ViewerPreferencesEntries (calls : List ViewerPreferencesCall) : List (Bytes × (Val → Prop)) := calls.flatMap ViewerPreferencesMeans

def IsViewerPreferences (calls : List ViewerPreferencesCall) : Val → Prop := DictIs (ViewerPreferencesEntries calls)

/-- The entries a call of `Catalog` stands for: key and meaning of the value. -/
def CatalogMeans (rd : Reading) : CatalogCall → List (Bytes × (Val → Prop))
  | .pages r => [(b!"Pages", IsRef r)]
  | .pageLayout layout => [(b!"PageLayout", IsName (isoPageLayout layout))]
  | .pageLabels calls => [(b!"PageLabels", IsNumberTree calls)]
  | .pageMode mode => [(b!"PageMode", IsName (isoPageMode mode))]
  | .viewerPreferences calls => [(b!"ViewerPreferences", IsViewerPreferences calls)]
  | .names calls => [(b!"Names", IsNames rd calls)]
  | .destinations r => [(b!"Dests", IsRef r)]
  | .outlines r => [(b!"Outlines", IsRef r)]
  | .structTreeRoot calls => [(b!"StructTreeRoot", IsStructTreeRoot rd calls)]
  | .markInfo calls => [(b!"MarkInfo", IsMarkInfo calls)]
  | .lang lang' => [(b!"Lang", IsText lang')]
  | .version major minor => [(b!"Version", IsVersion major minor)]
  | .additionalActions calls => [(b!"AA", IsAdditionalActions rd calls)]
  | .form calls => [(b!"AcroForm", IsForm calls)]
  | .metadata r => [(b!"Metadata", IsRef r)]
  | .extensions x => [(b!"Extensions", DictIs (x.map fun e => (e.1, IsDeveloperExtension e.2)))]
  | .separationInfo calls => [(b!"SeparationInfo", IsSeparationInfo calls)]
  | .outputIntents x => [(b!"OutputIntents", ArrayIs (x.map fun x => IsOutputIntent x))]
  | .associatedFiles x => [(b!"AF", ArrayIs (x.map fun x => IsFileSpec x))]
  | .raw key value => [(key, Denotes value)]

def CatalogEntries (rd : Reading) (calls : List CatalogCall) : List (Bytes × (Val → Prop)) := [(b!"Type", IsName b!"Catalog")] ++ calls.flatMap (CatalogMeans rd)

def IsCatalog (rd : Reading) (calls : List CatalogCall) : Val → Prop := DictIs (CatalogEntries rd calls)

/-- Calls whose behaviour is as documented (see `Props/Typed/Defects.lean` for the others). -/
def _root_.PdfW.CatalogCall.conforming : CatalogCall → Bool
  | .names calls => calls.all NamesCall.conforming
  | .structTreeRoot calls => calls.all StructTreeRootCall.conforming
  | .additionalActions calls => calls.all AdditionalActionsCall.conforming
  | _ => true

/-- The entries a call of `Metadata` stands for: key and meaning of the value. -/
def MetadataMeans : MetadataCall → List (Bytes × (Val → Prop))
  | .stream c => StreamMeans c

def MetadataEntries (calls : List MetadataCall) : List (Bytes × (Val → Prop)) := [(b!"Type", IsName b!"Metadata"), (b!"Subtype", IsName b!"XML")] ++ calls.flatMap MetadataMeans

end PdfW.Spec
