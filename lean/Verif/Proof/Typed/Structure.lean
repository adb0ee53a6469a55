-- Generated by tools/typed.py from /repo/src; do not edit.
import Verif.Spec.Typed.Structure
import Verif.Proof.Typed.Enums
import Verif.Proof.Typed.Attributes
import Verif.Proof.Typed.Forms
import Verif.Proof.Typed.XObject
import Verif.Proof.Typed.Pattern
import Verif.Proof.Typed.Transitions

/-! # Structure -/

set_option linter.unusedSimpArgs false
set_option linter.unusedVariables false

namespace PdfW
open Spec Props

theorem markedRef_call (c : MarkedRefCall) : Implied EntryImplied c.entries (MarkedRefMeans c) := by
  cases c with
  | page page' =>
    simp only [MarkedRefCall.entries, MarkedRefMeans]
    implied
  | stream stream' =>
    simp only [MarkedRefCall.entries, MarkedRefMeans]
    implied
  | streamOwner owner =>
    simp only [MarkedRefCall.entries, MarkedRefMeans]
    implied
  | markedContentId r =>
    simp only [MarkedRefCall.entries, MarkedRefMeans]
    implied
  | raw key value =>
    simp only [MarkedRefCall.entries, MarkedRefMeans]
    implied

theorem markedRef_implied (calls : List MarkedRefCall) : Implied EntryImplied (MarkedRef.entries calls) (MarkedRefEntries calls) :=
  Implied.append (by implied) (implied_flatMap calls (fun c h => markedRef_call c))

theorem markedRef_denotes (calls : List MarkedRefCall) : ItemImplied (MarkedRef.prog calls) (IsMarkedRef calls) :=
  l_dict (markedRef_implied calls)

theorem objectRef_call (c : ObjectRefCall) : Implied EntryImplied c.entries (ObjectRefMeans c) := by
  cases c with
  | page page' =>
    simp only [ObjectRefCall.entries, ObjectRefMeans]
    implied
  | object obj =>
    simp only [ObjectRefCall.entries, ObjectRefMeans]
    implied
  | raw key value =>
    simp only [ObjectRefCall.entries, ObjectRefMeans]
    implied

theorem objectRef_implied (calls : List ObjectRefCall) : Implied EntryImplied (ObjectRef.entries calls) (ObjectRefEntries calls) :=
  Implied.append (by implied) (implied_flatMap calls (fun c h => objectRef_call c))

theorem objectRef_denotes (calls : List ObjectRefCall) : ItemImplied (ObjectRef.prog calls) (IsObjectRef calls) :=
  l_dict (objectRef_implied calls)

theorem structChildren_call (c : StructChildrenCall) : Implied ItemImplied c.items (StructChildrenMeans c) := by
  cases c with
  | structElement r =>
    simp only [StructChildrenCall.items, StructChildrenMeans]
    implied
  | markedContentId r =>
    simp only [StructChildrenCall.items, StructChildrenMeans]
    implied
  | markedContentRef calls =>
    simp only [StructChildrenCall.items, StructChildrenMeans]
    have nest := markedRef_denotes
    implied
  | objectRef calls =>
    simp only [StructChildrenCall.items, StructChildrenMeans]
    have nest := objectRef_denotes
    implied
  | raw value =>
    simp only [StructChildrenCall.items, StructChildrenMeans]
    implied

theorem structChildren_implied (calls : List StructChildrenCall) : Implied ItemImplied (StructChildren.items calls) (StructChildrenItems calls) :=
  implied_flatMap calls (fun c h => structChildren_call c)

theorem structChildren_denotes (calls : List StructChildrenCall) : ItemImplied (StructChildren.prog calls) (IsStructChildren calls) :=
  l_array (structChildren_implied calls)

theorem structElement_call (c : StructElementCall) : Implied EntryImplied c.entries (StructElementMeans c) := by
  cases c with
  | kind role =>
    simp only [StructElementCall.entries, StructElementMeans]
    implied
  | kind2 role ns =>
    simp only [StructElementCall.entries, StructElementMeans]
    obtain ⟨p, hp, hi⟩ := l_role20 role; rw [hp]; exact .cons (entry_of rfl hi) (.cons (entry_of rfl (l_ref _)) .nil)
  | customKind name =>
    simp only [StructElementCall.entries, StructElementMeans]
    implied
  | parent parent' =>
    simp only [StructElementCall.entries, StructElementMeans]
    implied
  | id r =>
    simp only [StructElementCall.entries, StructElementMeans]
    implied
  | refs refs' =>
    simp only [StructElementCall.entries, StructElementMeans]
    implied
  | page page' =>
    simp only [StructElementCall.entries, StructElementMeans]
    implied
  | child r =>
    simp only [StructElementCall.entries, StructElementMeans]
    implied
  | markedContentChild calls =>
    simp only [StructElementCall.entries, StructElementMeans]
    have nest := markedRef_denotes
    implied
  | objectChild calls =>
    simp only [StructElementCall.entries, StructElementMeans]
    have nest := objectRef_denotes
    implied
  | children calls =>
    simp only [StructElementCall.entries, StructElementMeans]
    have nest := structChildren_denotes
    implied
  | attributes x =>
    simp only [StructElementCall.entries, StructElementMeans]
    have nest := attributes_denotes
    implied
  | attributeClass x =>
    simp only [StructElementCall.entries, StructElementMeans]
    implied
  | revision revision' =>
    simp only [StructElementCall.entries, StructElementMeans]
    implied
  | title title' =>
    simp only [StructElementCall.entries, StructElementMeans]
    implied
  | lang lang' =>
    simp only [StructElementCall.entries, StructElementMeans]
    implied
  | alt alt' =>
    simp only [StructElementCall.entries, StructElementMeans]
    implied
  | expanded expanded' =>
    simp only [StructElementCall.entries, StructElementMeans]
    implied
  | actualText actualText' =>
    simp only [StructElementCall.entries, StructElementMeans]
    implied
  | associatedFiles x =>
    simp only [StructElementCall.entries, StructElementMeans]
    have nest := fileSpec_denotes
    implied
  | «namespace» ns =>
    simp only [StructElementCall.entries, StructElementMeans]
    implied
  | phoneticAlphabet alphabet =>
    simp only [StructElementCall.entries, StructElementMeans]
    implied
  | phoneme phoneme' =>
    simp only [StructElementCall.entries, StructElementMeans]
    implied
  | raw key value =>
    simp only [StructElementCall.entries, StructElementMeans]
    implied

theorem structElement_implied (calls : List StructElementCall) : Implied EntryImplied (StructElement.entries calls) (StructElementEntries calls) :=
  Implied.append (by implied) (implied_flatMap calls (fun c h => structElement_call c))

theorem structElement_denotes (calls : List StructElementCall) : ItemImplied (StructElement.prog calls) (IsStructElement calls) :=
  l_dict (structElement_implied calls)

theorem roleMap_call (c : RoleMapCall) : Implied EntryImplied c.entries (RoleMapMeans c) := by
  cases c with
  | insert name role =>
    simp only [RoleMapCall.entries, RoleMapMeans]
    implied
  | pair key value =>
    simp only [RoleMapCall.entries, RoleMapMeans]
    implied

theorem roleMap_implied (calls : List RoleMapCall) : Implied EntryImplied (RoleMap.entries calls) (RoleMapEntries calls) :=
  implied_flatMap calls (fun c h => roleMap_call c)

theorem roleMap_denotes (calls : List RoleMapCall) : ItemImplied (RoleMap.prog calls) (IsRoleMap calls) :=
  l_dict (roleMap_implied calls)

theorem classMap_call (c : ClassMapCall) : Implied EntryImplied c.entries (ClassMapMeans c) := by
  cases c with
  | single name calls =>
    simp only [ClassMapCall.entries, ClassMapMeans]
    have nest := attributes_denotes
    implied
  | multiple name xs =>
    simp only [ClassMapCall.entries, ClassMapMeans]
    have nest := attributes_denotes
    implied
  | raw key value =>
    simp only [ClassMapCall.entries, ClassMapMeans]
    implied

theorem classMap_implied (calls : List ClassMapCall) : Implied EntryImplied (ClassMap.entries calls) (ClassMapEntries calls) :=
  implied_flatMap calls (fun c h => classMap_call c)

theorem classMap_denotes (calls : List ClassMapCall) : ItemImplied (ClassMap.prog calls) (IsClassMap calls) :=
  l_dict (classMap_implied calls)

theorem namespaceRoleMap_call (c : NamespaceRoleMapCall) : Implied EntryImplied c.entries (NamespaceRoleMapMeans c) := by
  cases c with
  | toPdf17 name role =>
    simp only [NamespaceRoleMapCall.entries, NamespaceRoleMapMeans]
    implied
  | toNamespace name role ns =>
    simp only [NamespaceRoleMapCall.entries, NamespaceRoleMapMeans]
    implied
  | toPdf20 name role ns =>
    simp only [NamespaceRoleMapCall.entries, NamespaceRoleMapMeans]
    obtain ⟨p, hp, hi⟩ := l_role20 role; rw [hp]; simp only [List.map_cons, List.map_nil]; implied
  | raw key value =>
    simp only [NamespaceRoleMapCall.entries, NamespaceRoleMapMeans]
    implied

theorem namespaceRoleMap_implied (calls : List NamespaceRoleMapCall) : Implied EntryImplied (NamespaceRoleMap.entries calls) (NamespaceRoleMapEntries calls) :=
  implied_flatMap calls (fun c h => namespaceRoleMap_call c)

theorem namespaceRoleMap_denotes (calls : List NamespaceRoleMapCall) : ItemImplied (NamespaceRoleMap.prog calls) (IsNamespaceRoleMap calls) :=
  l_dict (namespaceRoleMap_implied calls)

theorem namespace_call (rd : Reading) (c : NamespaceCall) (hc : rd = .code ∨ c.conforming = true) : Implied EntryImplied c.entries (NamespaceMeans rd c) := by
  cases c with
  | ns identifier =>
    simp only [NamespaceCall.entries, NamespaceMeans]
    implied
  | schema calls =>
    simp only [NamespaceCall.entries, NamespaceMeans]
    have nest := fileSpec_denotes
    implied
  | roleMapNs calls =>
    simp only [NamespaceCall.entries, NamespaceMeans]
    have nest := namespaceRoleMap_denotes
    implied
  | pdf2Ns =>
    obtain rfl : rd = .code := by simpa [NamespaceCall.conforming] using hc
    simp only [NamespaceCall.entries, NamespaceMeans, Reading.pick]

    implied
  | pdf17Ns =>
    obtain rfl : rd = .code := by simpa [NamespaceCall.conforming] using hc
    simp only [NamespaceCall.entries, NamespaceMeans, Reading.pick]

    implied
  | mathml30Ns =>
    obtain rfl : rd = .code := by simpa [NamespaceCall.conforming] using hc
    simp only [NamespaceCall.entries, NamespaceMeans, Reading.pick]

    implied
  | raw key value =>
    simp only [NamespaceCall.entries, NamespaceMeans]
    implied

theorem namespace_implied (rd : Reading) (calls : List NamespaceCall) (hc : rd = .code ∨ calls.all NamespaceCall.conforming = true) : Implied EntryImplied (Namespace.entries calls) (NamespaceEntries rd calls) :=
  Implied.append (by implied) (implied_flatMap calls (fun c h => namespace_call rd c (hc.imp_right fun hc => List.all_eq_true.mp hc c h)))

theorem namespace_denotes (rd : Reading) (calls : List NamespaceCall) (hc : rd = .code ∨ calls.all NamespaceCall.conforming = true) : ItemImplied (Namespace.prog calls) (IsNamespace rd calls) :=
  l_dict (namespace_implied rd calls hc)

theorem structTreeRoot_call (rd : Reading) (c : StructTreeRootCall) (hc : rd = .code ∨ c.conforming = true) : Implied EntryImplied c.entries (StructTreeRootMeans rd c) := by
  cases c with
  | child r =>
    simp only [StructTreeRootCall.entries, StructTreeRootMeans]
    implied
  | children x =>
    simp only [StructTreeRootCall.entries, StructTreeRootMeans]
    implied
  | idTree calls =>
    simp only [StructTreeRootCall.entries, StructTreeRootMeans]
    have nest := nameTree_denotes rd calls (by simpa [StructTreeRootCall.conforming] using hc)
    implied
  | parentTree calls =>
    simp only [StructTreeRootCall.entries, StructTreeRootMeans]
    have nest := numberTree_denotes
    implied
  | parentTreeNextKey key =>
    simp only [StructTreeRootCall.entries, StructTreeRootMeans]
    implied
  | roleMap calls =>
    simp only [StructTreeRootCall.entries, StructTreeRootMeans]
    have nest := roleMap_denotes
    implied
  | classMap calls =>
    simp only [StructTreeRootCall.entries, StructTreeRootMeans]
    have nest := classMap_denotes
    implied
  | namespaces x =>
    simp only [StructTreeRootCall.entries, StructTreeRootMeans]
    implied
  | pronunciationLexicon x =>
    simp only [StructTreeRootCall.entries, StructTreeRootMeans]
    implied
  | associatedFiles x =>
    simp only [StructTreeRootCall.entries, StructTreeRootMeans]
    have nest := fileSpec_denotes
    implied
  | raw key value =>
    simp only [StructTreeRootCall.entries, StructTreeRootMeans]
    implied

theorem structTreeRoot_implied (rd : Reading) (calls : List StructTreeRootCall) (hc : rd = .code ∨ calls.all StructTreeRootCall.conforming = true) : Implied EntryImplied (StructTreeRoot.entries calls) (StructTreeRootEntries rd calls) :=
  Implied.append (by implied) (implied_flatMap calls (fun c h => structTreeRoot_call rd c (hc.imp_right fun hc => List.all_eq_true.mp hc c h)))

theorem structTreeRoot_denotes (rd : Reading) (calls : List StructTreeRootCall) (hc : rd = .code ∨ calls.all StructTreeRootCall.conforming = true) : ItemImplied (StructTreeRoot.prog calls) (IsStructTreeRoot rd calls) :=
  l_dict (structTreeRoot_implied rd calls hc)

theorem markInfo_call (c : MarkInfoCall) : Implied EntryImplied c.entries (MarkInfoMeans c) := by
  cases c with
  | marked conformant =>
    simp only [MarkInfoCall.entries, MarkInfoMeans]
    implied
  | userProperties present =>
    simp only [MarkInfoCall.entries, MarkInfoMeans]
    implied
  | suspects present =>
    simp only [MarkInfoCall.entries, MarkInfoMeans]
    implied
  | raw key value =>
    simp only [MarkInfoCall.entries, MarkInfoMeans]
    implied

theorem markInfo_implied (calls : List MarkInfoCall) : Implied EntryImplied (MarkInfo.entries calls) (MarkInfoEntries calls) :=
  implied_flatMap calls (fun c h => markInfo_call c)

theorem markInfo_denotes (calls : List MarkInfoCall) : ItemImplied (MarkInfo.prog calls) (IsMarkInfo calls) :=
  l_dict (markInfo_implied calls)

theorem pageLabel_call (c : PageLabelCall) : Implied EntryImplied c.entries (PageLabelMeans c) := by
  cases c with
  | style style' =>
    simp only [PageLabelCall.entries, PageLabelMeans]
    implied
  | «prefix» «prefix'» =>
    simp only [PageLabelCall.entries, PageLabelMeans]
    implied
  | offset offset' =>
    simp only [PageLabelCall.entries, PageLabelMeans]
    implied
  | raw key value =>
    simp only [PageLabelCall.entries, PageLabelMeans]
    implied

theorem pageLabel_implied (calls : List PageLabelCall) : Implied EntryImplied (PageLabel.entries calls) (PageLabelEntries calls) :=
  Implied.append (by implied) (implied_flatMap calls (fun c h => pageLabel_call c))

theorem pageLabel_denotes (calls : List PageLabelCall) : ItemImplied (PageLabel.prog calls) (IsPageLabel calls) :=
  l_dict (pageLabel_implied calls)

theorem documentInfo_call (c : DocumentInfoCall) : Implied EntryImplied c.entries (DocumentInfoMeans c) := by
  cases c with
  | title title' =>
    simp only [DocumentInfoCall.entries, DocumentInfoMeans]
    implied
  | author author' =>
    simp only [DocumentInfoCall.entries, DocumentInfoMeans]
    implied
  | subject subject' =>
    simp only [DocumentInfoCall.entries, DocumentInfoMeans]
    implied
  | keywords keywords' =>
    simp only [DocumentInfoCall.entries, DocumentInfoMeans]
    implied
  | creator creator' =>
    simp only [DocumentInfoCall.entries, DocumentInfoMeans]
    implied
  | producer producer' =>
    simp only [DocumentInfoCall.entries, DocumentInfoMeans]
    implied
  | creationDate date =>
    simp only [DocumentInfoCall.entries, DocumentInfoMeans]
    implied
  | modifiedDate date =>
    simp only [DocumentInfoCall.entries, DocumentInfoMeans]
    implied
  | trapped trapped' =>
    simp only [DocumentInfoCall.entries, DocumentInfoMeans]
    implied
  | raw key value =>
    simp only [DocumentInfoCall.entries, DocumentInfoMeans]
    implied

theorem documentInfo_implied (calls : List DocumentInfoCall) : Implied EntryImplied (DocumentInfo.entries calls) (DocumentInfoEntries calls) :=
  implied_flatMap calls (fun c h => documentInfo_call c)

theorem documentInfo_denotes (calls : List DocumentInfoCall) : ItemImplied (DocumentInfo.prog calls) (IsDocumentInfo calls) :=
  l_dict (documentInfo_implied calls)

theorem pages_call (c : PagesCall) : Implied EntryImplied c.entries (PagesMeans c) := by
  cases c with
  | parent parent' =>
    simp only [PagesCall.entries, PagesMeans]
    implied
  | kids kids' =>
    simp only [PagesCall.entries, PagesMeans]
    implied
  | count count' =>
    simp only [PagesCall.entries, PagesMeans]
    implied
  | mediaBox rect =>
    simp only [PagesCall.entries, PagesMeans]
    implied
  | resources calls =>
    simp only [PagesCall.entries, PagesMeans]
    have nest := resources_denotes
    implied
  | raw key value =>
    simp only [PagesCall.entries, PagesMeans]
    implied

theorem pages_implied (calls : List PagesCall) : Implied EntryImplied (Pages.entries calls) (PagesEntries calls) :=
  Implied.append (by implied) (implied_flatMap calls (fun c h => pages_call c))

theorem pages_denotes (calls : List PagesCall) : ItemImplied (Pages.prog calls) (IsPages calls) :=
  l_dict (pages_implied calls)

theorem page_call (rd : Reading) (c : PageCall) (hc : rd = .code ∨ c.conforming = true) : Implied EntryImplied c.entries (PageMeans rd c) := by
  cases c with
  | parent parent' =>
    simp only [PageCall.entries, PageMeans]
    implied
  | lastModified date =>
    simp only [PageCall.entries, PageMeans]
    implied
  | mediaBox rect =>
    simp only [PageCall.entries, PageMeans]
    implied
  | cropBox rect =>
    simp only [PageCall.entries, PageMeans]
    implied
  | bleedBox rect =>
    simp only [PageCall.entries, PageMeans]
    implied
  | trimBox rect =>
    simp only [PageCall.entries, PageMeans]
    implied
  | artBox rect =>
    simp only [PageCall.entries, PageMeans]
    implied
  | resources calls =>
    simp only [PageCall.entries, PageMeans]
    have nest := resources_denotes
    implied
  | contents r =>
    simp only [PageCall.entries, PageMeans]
    implied
  | contentsArray ids =>
    simp only [PageCall.entries, PageMeans]
    implied
  | rotate degrees =>
    simp only [PageCall.entries, PageMeans]
    implied
  | group calls =>
    simp only [PageCall.entries, PageMeans]
    have nest := group_denotes
    implied
  | thumbnail r =>
    simp only [PageCall.entries, PageMeans]
    implied
  | duration seconds =>
    simp only [PageCall.entries, PageMeans]
    implied
  | transition calls =>
    simp only [PageCall.entries, PageMeans]
    have nest := transition_denotes rd calls (by simpa [PageCall.conforming] using hc)
    implied
  | annotations ids =>
    simp only [PageCall.entries, PageMeans]
    implied
  | structParents key =>
    simp only [PageCall.entries, PageMeans]
    implied
  | tabOrder order =>
    simp only [PageCall.entries, PageMeans]
    implied
  | userUnit value =>
    simp only [PageCall.entries, PageMeans]
    implied
  | additionalActions calls =>
    simp only [PageCall.entries, PageMeans]
    have nest := additionalActions_denotes rd calls (by simpa [PageCall.conforming] using hc)
    implied
  | metadata r =>
    simp only [PageCall.entries, PageMeans]
    implied
  | associatedFiles x =>
    simp only [PageCall.entries, PageMeans]
    have nest := fileSpec_denotes
    implied
  | raw key value =>
    simp only [PageCall.entries, PageMeans]
    implied

theorem page_implied (rd : Reading) (calls : List PageCall) (hc : rd = .code ∨ calls.all PageCall.conforming = true) : Implied EntryImplied (Page.entries calls) (PageEntries rd calls) :=
  Implied.append (by implied) (implied_flatMap calls (fun c h => page_call rd c (hc.imp_right fun hc => List.all_eq_true.mp hc c h)))

theorem page_denotes (rd : Reading) (calls : List PageCall) (hc : rd = .code ∨ calls.all PageCall.conforming = true) : ItemImplied (Page.prog calls) (IsPage rd calls) :=
  l_dict (page_implied rd calls hc)

theorem outline_call (c : OutlineCall) : Implied EntryImplied c.entries (OutlineMeans c) := by
  cases c with
  | first item =>
    simp only [OutlineCall.entries, OutlineMeans]
    implied
  | last item =>
    simp only [OutlineCall.entries, OutlineMeans]
    implied
  | count count' =>
    simp only [OutlineCall.entries, OutlineMeans]
    implied
  | raw key value =>
    simp only [OutlineCall.entries, OutlineMeans]
    implied

theorem outline_implied (calls : List OutlineCall) : Implied EntryImplied (Outline.entries calls) (OutlineEntries calls) :=
  Implied.append (by implied) (implied_flatMap calls (fun c h => outline_call c))

theorem outline_denotes (calls : List OutlineCall) : ItemImplied (Outline.prog calls) (IsOutline calls) :=
  l_dict (outline_implied calls)

theorem outlineItem_call (c : OutlineItemCall) : Implied EntryImplied c.entries (OutlineItemMeans c) := by
  cases c with
  | title title' =>
    simp only [OutlineItemCall.entries, OutlineItemMeans]
    implied
  | parent outline =>
    simp only [OutlineItemCall.entries, OutlineItemMeans]
    implied
  | prev outline =>
    simp only [OutlineItemCall.entries, OutlineItemMeans]
    implied
  | next outline =>
    simp only [OutlineItemCall.entries, OutlineItemMeans]
    implied
  | first outline =>
    simp only [OutlineItemCall.entries, OutlineItemMeans]
    implied
  | last outline =>
    simp only [OutlineItemCall.entries, OutlineItemMeans]
    implied
  | count items =>
    simp only [OutlineItemCall.entries, OutlineItemMeans]
    implied
  | dest calls =>
    simp only [OutlineItemCall.entries, OutlineItemMeans]
    have nest := destination_denotes
    implied
  | destName name =>
    simp only [OutlineItemCall.entries, OutlineItemMeans]
    implied
  | colorRgb r g b =>
    simp only [OutlineItemCall.entries, OutlineItemMeans]
    implied
  | flags flags' =>
    simp only [OutlineItemCall.entries, OutlineItemMeans]
    implied
  | raw key value =>
    simp only [OutlineItemCall.entries, OutlineItemMeans]
    implied

theorem outlineItem_implied (calls : List OutlineItemCall) : Implied EntryImplied (OutlineItem.entries calls) (OutlineItemEntries calls) :=
  implied_flatMap calls (fun c h => outlineItem_call c)

theorem outlineItem_denotes (calls : List OutlineItemCall) : ItemImplied (OutlineItem.prog calls) (IsOutlineItem calls) :=
  l_dict (outlineItem_implied calls)

theorem names_call (rd : Reading) (c : NamesCall) (hc : rd = .code ∨ c.conforming = true) : Implied EntryImplied c.entries (NamesMeans rd c) := by
  cases c with
  | destinations calls =>
    simp only [NamesCall.entries, NamesMeans]
    have nest := nameTree_denotes rd calls (by simpa [NamesCall.conforming] using hc)
    implied
  | appearances calls =>
    simp only [NamesCall.entries, NamesMeans]
    have nest := nameTree_denotes rd calls (by simpa [NamesCall.conforming] using hc)
    implied
  | javascript calls =>
    simp only [NamesCall.entries, NamesMeans]
    have nest := nameTree_denotes rd calls (by simpa [NamesCall.conforming] using hc)
    implied
  | pages calls =>
    simp only [NamesCall.entries, NamesMeans]
    have nest := nameTree_denotes rd calls (by simpa [NamesCall.conforming] using hc)
    implied
  | templates calls =>
    simp only [NamesCall.entries, NamesMeans]
    have nest := nameTree_denotes rd calls (by simpa [NamesCall.conforming] using hc)
    implied
  | captureIds calls =>
    simp only [NamesCall.entries, NamesMeans]
    have nest := nameTree_denotes rd calls (by simpa [NamesCall.conforming] using hc)
    implied
  | captureUrls calls =>
    simp only [NamesCall.entries, NamesMeans]
    have nest := nameTree_denotes rd calls (by simpa [NamesCall.conforming] using hc)
    implied
  | embeddedFiles calls =>
    simp only [NamesCall.entries, NamesMeans]
    have nest := nameTree_denotes rd calls (by simpa [NamesCall.conforming] using hc)
    implied
  | alternatePresentations calls =>
    simp only [NamesCall.entries, NamesMeans]
    have nest := nameTree_denotes rd calls (by simpa [NamesCall.conforming] using hc)
    implied
  | renditions calls =>
    simp only [NamesCall.entries, NamesMeans]
    have nest := nameTree_denotes rd calls (by simpa [NamesCall.conforming] using hc)
    implied
  | raw key value =>
    simp only [NamesCall.entries, NamesMeans]
    implied

theorem names_implied (rd : Reading) (calls : List NamesCall) (hc : rd = .code ∨ calls.all NamesCall.conforming = true) : Implied EntryImplied (Names.entries calls) (NamesEntries rd calls) :=
  implied_flatMap calls (fun c h => names_call rd c (hc.imp_right fun hc => List.all_eq_true.mp hc c h))

theorem names_denotes (rd : Reading) (calls : List NamesCall) (hc : rd = .code ∨ calls.all NamesCall.conforming = true) : ItemImplied (Names.prog calls) (IsNames rd calls) :=
  l_dict (names_implied rd calls hc)

theorem developerExtension_call (c : DeveloperExtensionCall) : Implied EntryImplied c.entries (DeveloperExtensionMeans c) := by
  cases c with
  | baseVersion major minor =>
    simp only [DeveloperExtensionCall.entries, DeveloperExtensionMeans]
    implied
  | extensionLevel level =>
    simp only [DeveloperExtensionCall.entries, DeveloperExtensionMeans]
    implied
  | raw key value =>
    simp only [DeveloperExtensionCall.entries, DeveloperExtensionMeans]
    implied

theorem developerExtension_implied (calls : List DeveloperExtensionCall) : Implied EntryImplied (DeveloperExtension.entries calls) (DeveloperExtensionEntries calls) :=
  Implied.append (by implied) (implied_flatMap calls (fun c h => developerExtension_call c))

theorem developerExtension_denotes (calls : List DeveloperExtensionCall) : ItemImplied (DeveloperExtension.prog calls) (IsDeveloperExtension calls) :=
  l_dict (developerExtension_implied calls)

theorem viewerPreferences_call (c : ViewerPreferencesCall) : Implied EntryImplied c.entries (ViewerPreferencesMeans c) := by
  cases c with
  | hideToolbar hide =>
    simp only [ViewerPreferencesCall.entries, ViewerPreferencesMeans]
    implied
  | hideMenubar hide =>
    simp only [ViewerPreferencesCall.entries, ViewerPreferencesMeans]
    implied
  | fitWindow fit =>
    simp only [ViewerPreferencesCall.entries, ViewerPreferencesMeans]
    implied
  | centerWindow center =>
    simp only [ViewerPreferencesCall.entries, ViewerPreferencesMeans]
    implied
  | displayDocTitle display =>
    simp only [ViewerPreferencesCall.entries, ViewerPreferencesMeans]
    implied
  | nonFullScreenPageMode mode =>
    simp only [ViewerPreferencesCall.entries, ViewerPreferencesMeans]
    implied
  | direction dir =>
    simp only [ViewerPreferencesCall.entries, ViewerPreferencesMeans]
    implied
  | raw key value =>
    simp only [ViewerPreferencesCall.entries, ViewerPreferencesMeans]
    implied

theorem viewerPreferences_implied (calls : List ViewerPreferencesCall) : Implied EntryImplied (ViewerPreferences.entries calls) (ViewerPreferencesEntries calls) :=
  implied_flatMap calls (fun c h => viewerPreferences_call c)

theorem viewerPreferences_denotes (calls : List ViewerPreferencesCall) : ItemImplied (ViewerPreferences.prog calls) (IsViewerPreferences calls) :=
  l_dict (viewerPreferences_implied calls)

theorem catalog_call (rd : Reading) (c : CatalogCall) (hc : rd = .code ∨ c.conforming = true) : Implied EntryImplied c.entries (CatalogMeans rd c) := by
  cases c with
  | pages r =>
    simp only [CatalogCall.entries, CatalogMeans]
    implied
  | pageLayout layout =>
    simp only [CatalogCall.entries, CatalogMeans]
    implied
  | pageLabels calls =>
    simp only [CatalogCall.entries, CatalogMeans]
    have nest := numberTree_denotes
    implied
  | pageMode mode =>
    simp only [CatalogCall.entries, CatalogMeans]
    implied
  | viewerPreferences calls =>
    simp only [CatalogCall.entries, CatalogMeans]
    have nest := viewerPreferences_denotes
    implied
  | names calls =>
    simp only [CatalogCall.entries, CatalogMeans]
    have nest := names_denotes rd calls (by simpa [CatalogCall.conforming] using hc)
    implied
  | destinations r =>
    simp only [CatalogCall.entries, CatalogMeans]
    implied
  | outlines r =>
    simp only [CatalogCall.entries, CatalogMeans]
    implied
  | structTreeRoot calls =>
    simp only [CatalogCall.entries, CatalogMeans]
    have nest := structTreeRoot_denotes rd calls (by simpa [CatalogCall.conforming] using hc)
    implied
  | markInfo calls =>
    simp only [CatalogCall.entries, CatalogMeans]
    have nest := markInfo_denotes
    implied
  | lang lang' =>
    simp only [CatalogCall.entries, CatalogMeans]
    implied
  | version major minor =>
    simp only [CatalogCall.entries, CatalogMeans]
    implied
  | additionalActions calls =>
    simp only [CatalogCall.entries, CatalogMeans]
    have nest := additionalActions_denotes rd calls (by simpa [CatalogCall.conforming] using hc)
    implied
  | form calls =>
    simp only [CatalogCall.entries, CatalogMeans]
    have nest := form_denotes
    implied
  | metadata r =>
    simp only [CatalogCall.entries, CatalogMeans]
    implied
  | extensions x =>
    simp only [CatalogCall.entries, CatalogMeans]
    have nest := developerExtension_denotes
    implied
  | separationInfo calls =>
    simp only [CatalogCall.entries, CatalogMeans]
    have nest := separationInfo_denotes
    implied
  | outputIntents x =>
    simp only [CatalogCall.entries, CatalogMeans]
    have nest := outputIntent_denotes
    implied
  | associatedFiles x =>
    simp only [CatalogCall.entries, CatalogMeans]
    have nest := fileSpec_denotes
    implied
  | raw key value =>
    simp only [CatalogCall.entries, CatalogMeans]
    implied

theorem catalog_implied (rd : Reading) (calls : List CatalogCall) (hc : rd = .code ∨ calls.all CatalogCall.conforming = true) : Implied EntryImplied (Catalog.entries calls) (CatalogEntries rd calls) :=
  Implied.append (by implied) (implied_flatMap calls (fun c h => catalog_call rd c (hc.imp_right fun hc => List.all_eq_true.mp hc c h)))

theorem catalog_denotes (rd : Reading) (calls : List CatalogCall) (hc : rd = .code ∨ calls.all CatalogCall.conforming = true) : ItemImplied (Catalog.prog calls) (IsCatalog rd calls) :=
  l_dict (catalog_implied rd calls hc)

theorem metadata_call (c : MetadataCall) : Implied EntryImplied c.entries (MetadataMeans c) := by
  cases c with
  | stream c =>
    simp only [MetadataCall.entries, MetadataMeans]
    exact stream_call c

theorem metadata_implied (calls : List MetadataCall) : Implied EntryImplied (Metadata.entries calls) (MetadataEntries calls) :=
  Implied.append (by implied) (implied_flatMap calls (fun c h => metadata_call c))

end PdfW
