-- Generated by tools/typed.py from /repo/src; do not edit.
import Verif.Proof.Typed.Structure
import Verif.Proof.Typed.Sample

/-! # C42: typed writers of module Structure -/

set_option linter.unusedSimpArgs false
set_option linter.unusedVariables false
set_option maxRecDepth 8192

namespace PdfW.Props
open PdfW PdfW.Spec

/-- Example calls. -/
def exMarkedRef : List MarkedRefCall := [.page ⟨7, by decide, by decide⟩, .streamOwner ⟨7, by decide, by decide⟩, .stream ⟨7, by decide, by decide⟩, .raw b!"A" (pInt 3)]

/-- C42, `MarkedRef`: any sequence of calls writes a dictionary with, in order, the documented entries. -/
theorem C42_marked_ref (calls : List MarkedRefCall) (hok : Ok (MarkedRef.prog calls)) : WrittenAs (MarkedRef.prog calls) (IsMarkedRef calls) :=
  writtenAs_of hok (markedRef_denotes calls)

example : Ok (MarkedRef.prog exMarkedRef) := okB_sound _ (by decide +kernel)
example : compactOut (MarkedRef.prog exMarkedRef) = b!"<</Type/MCR/Pg 7 0 R/StmOwn 7 0 R/Stm 7 0 R/A 3>>" := by decide +kernel

/-- Example calls. -/
def exObjectRef : List ObjectRefCall := [.page ⟨7, by decide, by decide⟩, .object ⟨7, by decide, by decide⟩, .raw b!"A" (pInt 3)]

/-- C42, `ObjectRef`: any sequence of calls writes a dictionary with, in order, the documented entries. -/
theorem C42_object_ref (calls : List ObjectRefCall) (hok : Ok (ObjectRef.prog calls)) : WrittenAs (ObjectRef.prog calls) (IsObjectRef calls) :=
  writtenAs_of hok (objectRef_denotes calls)

example : Ok (ObjectRef.prog exObjectRef) := okB_sound _ (by decide +kernel)
example : compactOut (ObjectRef.prog exObjectRef) = b!"<</Type/OBJR/Pg 7 0 R/Obj 7 0 R/A 3>>" := by decide +kernel

/-- Example calls. -/
def exStructChildren : List StructChildrenCall := [.structElement ⟨7, by decide, by decide⟩, .markedContentId 1, .objectRef [.page ⟨7, by decide, by decide⟩], .raw (pInt 3)]

/-- C42, `StructChildren`: any sequence of calls writes an array with, in order, the documented items. -/
theorem C42_struct_children (calls : List StructChildrenCall) (hok : Ok (StructChildren.prog calls)) : WrittenAs (StructChildren.prog calls) (IsStructChildren calls) :=
  writtenAs_of hok (structChildren_denotes calls)

example : Ok (StructChildren.prog exStructChildren) := okB_sound _ (by decide +kernel)
example : compactOut (StructChildren.prog exStructChildren) = b!"[7 0 R 1<</Type/OBJR/Pg 7 0 R>>3]" := by decide +kernel

/-- Example calls. -/
def exStructElement : List StructElementCall := [.kind .p, .markedContentChild [.page ⟨7, by decide, by decide⟩], .alt (.plain ['a']), .raw b!"A" (pInt 3)]

/-- C42, `StructElement`: any sequence of calls writes a dictionary with, in order, the documented entries. -/
theorem C42_struct_element (calls : List StructElementCall) (hok : Ok (StructElement.prog calls)) : WrittenAs (StructElement.prog calls) (IsStructElement calls) :=
  writtenAs_of hok (structElement_denotes calls)

example : Ok (StructElement.prog exStructElement) := okB_sound _ (by decide +kernel)
example : compactOut (StructElement.prog exStructElement) = b!"<</Type/StructElem/S/P/K<</Type/MCR/Pg 7 0 R>>/Alt(a)/A 3>>" := by decide +kernel

/-- Example calls. -/
def exRoleMap : List RoleMapCall := [.insert b!"A" .p, .pair b!"A" b!"A"]

/-- C42, `RoleMap`: any sequence of calls writes a dictionary with, in order, the documented entries. -/
theorem C42_role_map (calls : List RoleMapCall) (hok : Ok (RoleMap.prog calls)) : WrittenAs (RoleMap.prog calls) (IsRoleMap calls) :=
  writtenAs_of hok (roleMap_denotes calls)

example : Ok (RoleMap.prog exRoleMap) := okB_sound _ (by decide +kernel)
example : compactOut (RoleMap.prog exRoleMap) = b!"<</A/P/A/A>>" := by decide +kernel

/-- Example calls. -/
def exClassMap : List ClassMapCall := [.single b!"A" [.owner .css1 true], .multiple b!"A" [[.owner .css1 true]], .raw b!"A" (pInt 3)]

/-- C42, `ClassMap`: any sequence of calls writes a dictionary with, in order, the documented entries. -/
theorem C42_class_map (calls : List ClassMapCall) (hok : Ok (ClassMap.prog calls)) : WrittenAs (ClassMap.prog calls) (IsClassMap calls) :=
  writtenAs_of hok (classMap_denotes calls)

example : Ok (ClassMap.prog exClassMap) := okB_sound _ (by decide +kernel)
example : compactOut (ClassMap.prog exClassMap) = b!"<</A<</O/CSS-1>>/A[<</O/CSS-1>>]/A 3>>" := by decide +kernel

/-- Example calls. -/
def exNamespaceRoleMap : List NamespaceRoleMapCall := [.toPdf17 b!"A" .p, .toNamespace b!"A" b!"A" ⟨7, by decide, by decide⟩, .toPdf20 b!"A" .em ⟨7, by decide, by decide⟩, .raw b!"A" (pInt 3)]

/-- C42, `NamespaceRoleMap`: any sequence of calls writes a dictionary with, in order, the documented entries. -/
theorem C42_namespace_role_map (calls : List NamespaceRoleMapCall) (hok : Ok (NamespaceRoleMap.prog calls)) : WrittenAs (NamespaceRoleMap.prog calls) (IsNamespaceRoleMap calls) :=
  writtenAs_of hok (namespaceRoleMap_denotes calls)

example : Ok (NamespaceRoleMap.prog exNamespaceRoleMap) := okB_sound _ (by decide +kernel)
example : compactOut (NamespaceRoleMap.prog exNamespaceRoleMap) = b!"<</A/P/A[/A 7 0 R]/A[/Em 7 0 R]/A 3>>" := by decide +kernel

/-- Example calls. -/
def exNamespace : List NamespaceCall := [.ns ['a', 'b'], .schema [.fileSystem b!"A"], .roleMapNs [.toPdf17 b!"A" .p], .raw b!"A" (pInt 3)]

/-- C42, `Namespace`: any sequence of calls writes a dictionary with, in order, the documented entries. If a call with a known defect is used, the entry it writes is the one of the code (see Defects), otherwise all are those of the standard. -/
theorem C42_namespace (rd : Reading) (calls : List NamespaceCall) (hc : rd = .code ∨ calls.all NamespaceCall.conforming = true) (hok : Ok (Namespace.prog calls)) : WrittenAs (Namespace.prog calls) (IsNamespace rd calls) :=
  writtenAs_of hok (namespace_denotes rd calls hc)

example : Ok (Namespace.prog exNamespace) := okB_sound _ (by decide +kernel)
example : exNamespace.all NamespaceCall.conforming = true := by decide +kernel
example : compactOut (Namespace.prog exNamespace) = b!"<</Type/Namespace/NS(ab)/Schema<</Type/Filespec/FS/A>>/RoleMapNS<</A/P>>/A 3>>" := by decide +kernel

/-- Example calls. -/
def exStructTreeRoot : List StructTreeRootCall := [.child ⟨7, by decide, by decide⟩, .parentTree [.kids [⟨7, by decide, by decide⟩]], .namespaces [⟨7, by decide, by decide⟩], .raw b!"A" (pInt 3)]

/-- C42, `StructTreeRoot`: any sequence of calls writes a dictionary with, in order, the documented entries. If a call with a known defect is used, the entry it writes is the one of the code (see Defects), otherwise all are those of the standard. -/
theorem C42_struct_tree_root (rd : Reading) (calls : List StructTreeRootCall) (hc : rd = .code ∨ calls.all StructTreeRootCall.conforming = true) (hok : Ok (StructTreeRoot.prog calls)) : WrittenAs (StructTreeRoot.prog calls) (IsStructTreeRoot rd calls) :=
  writtenAs_of hok (structTreeRoot_denotes rd calls hc)

example : Ok (StructTreeRoot.prog exStructTreeRoot) := okB_sound _ (by decide +kernel)
example : exStructTreeRoot.all StructTreeRootCall.conforming = true := by decide +kernel
example : compactOut (StructTreeRoot.prog exStructTreeRoot) = b!"<</Type/StructTreeRoot/K 7 0 R/ParentTree<</Kids[7 0 R]>>/Namespaces[7 0 R]/A 3>>" := by decide +kernel

/-- Example calls. -/
def exMarkInfo : List MarkInfoCall := [.marked true, .userProperties true, .suspects true, .raw b!"A" (pInt 3)]

/-- C42, `MarkInfo`: any sequence of calls writes a dictionary with, in order, the documented entries. -/
theorem C42_mark_info (calls : List MarkInfoCall) (hok : Ok (MarkInfo.prog calls)) : WrittenAs (MarkInfo.prog calls) (IsMarkInfo calls) :=
  writtenAs_of hok (markInfo_denotes calls)

example : Ok (MarkInfo.prog exMarkInfo) := okB_sound _ (by decide +kernel)
example : compactOut (MarkInfo.prog exMarkInfo) = b!"<</Marked true/UserProperties true/Suspects true/A 3>>" := by decide +kernel

/-- Example calls. -/
def exPageLabel : List PageLabelCall := [.style .upperAlpha, .«prefix» (.plain ['a']), .offset 1, .raw b!"A" (pInt 3)]

/-- C42, `PageLabel`: any sequence of calls writes a dictionary with, in order, the documented entries. -/
theorem C42_page_label (calls : List PageLabelCall) (hok : Ok (PageLabel.prog calls)) : WrittenAs (PageLabel.prog calls) (IsPageLabel calls) :=
  writtenAs_of hok (pageLabel_denotes calls)

example : Ok (PageLabel.prog exPageLabel) := okB_sound _ (by decide +kernel)
example : compactOut (PageLabel.prog exPageLabel) = b!"<</Type/PageLabel/S/A/P(a)/St 1/A 3>>" := by decide +kernel

/-- Example calls. -/
def exDocumentInfo : List DocumentInfoCall := [.title (.plain ['a']), .subject (.plain ['a']), .producer (.plain ['a']), .raw b!"A" (pInt 3)]

/-- C42, `DocumentInfo`: any sequence of calls writes a dictionary with, in order, the documented entries. -/
theorem C42_document_info (calls : List DocumentInfoCall) (hok : Ok (DocumentInfo.prog calls)) : WrittenAs (DocumentInfo.prog calls) (IsDocumentInfo calls) :=
  writtenAs_of hok (documentInfo_denotes calls)

example : Ok (DocumentInfo.prog exDocumentInfo) := okB_sound _ (by decide +kernel)
example : compactOut (DocumentInfo.prog exDocumentInfo) = b!"<</Title(a)/Subject(a)/Producer(a)/A 3>>" := by decide +kernel

/-- Example calls. -/
def exPages : List PagesCall := [.parent ⟨7, by decide, by decide⟩, .count 1, .resources [.xObjects [(b!"A", pInt 3)]], .raw b!"A" (pInt 3)]

/-- C42, `Pages`: any sequence of calls writes a dictionary with, in order, the documented entries. -/
theorem C42_pages (calls : List PagesCall) (hok : Ok (Pages.prog calls)) : WrittenAs (Pages.prog calls) (IsPages calls) :=
  writtenAs_of hok (pages_denotes calls)

example : Ok (Pages.prog exPages) := okB_sound _ (by decide +kernel)
example : compactOut (Pages.prog exPages) = b!"<</Type/Pages/Parent 7 0 R/Count 1/Resources<</XObject<</A 3>>>>/A 3>>" := by decide +kernel

/-- Example calls. -/
def exPage : List PageCall := [.parent ⟨7, by decide, by decide⟩, .contents ⟨7, by decide, by decide⟩, .annotations [⟨7, by decide, by decide⟩], .raw b!"A" (pInt 3)]

/-- C42, `Page`: any sequence of calls writes a dictionary with, in order, the documented entries. If a call with a known defect is used, the entry it writes is the one of the code (see Defects), otherwise all are those of the standard. -/
theorem C42_page (rd : Reading) (calls : List PageCall) (hc : rd = .code ∨ calls.all PageCall.conforming = true) (hok : Ok (Page.prog calls)) : WrittenAs (Page.prog calls) (IsPage rd calls) :=
  writtenAs_of hok (page_denotes rd calls hc)

example : Ok (Page.prog exPage) := okB_sound _ (by decide +kernel)
example : exPage.all PageCall.conforming = true := by decide +kernel
example : compactOut (Page.prog exPage) = b!"<</Type/Page/Parent 7 0 R/Contents 7 0 R/Annots[7 0 R]/A 3>>" := by decide +kernel

/-- Example calls. -/
def exOutline : List OutlineCall := [.first ⟨7, by decide, by decide⟩, .last ⟨7, by decide, by decide⟩, .count 1, .raw b!"A" (pInt 3)]

/-- C42, `Outline`: any sequence of calls without an out-of-range argument writes a dictionary with, in order, the documented entries. -/
theorem C42_outline (calls : List OutlineCall) (p : Prog) (hp : Outline.run calls = some p) (hok : Ok p) : WrittenAs p (IsOutline calls) := by
  unfold Outline.run at hp
  split at hp
  · cases hp
  · cases hp; exact writtenAs_of hok (outline_denotes calls)

example : ∃ p, Outline.run exOutline = some p ∧ Ok p := ⟨_, rfl, okB_sound _ (by decide +kernel)⟩
example : compactOut (Outline.prog exOutline) = b!"<</Type/Outlines/First 7 0 R/Last 7 0 R/Count 1/A 3>>" := by decide +kernel

/-- Example calls. -/
def exOutlineItem : List OutlineItemCall := [.title (.plain ['a']), .first ⟨7, by decide, by decide⟩, .destName b!"A", .raw b!"A" (pInt 3)]

/-- C42, `OutlineItem`: any sequence of calls writes a dictionary with, in order, the documented entries. -/
theorem C42_outline_item (calls : List OutlineItemCall) (hok : Ok (OutlineItem.prog calls)) : WrittenAs (OutlineItem.prog calls) (IsOutlineItem calls) :=
  writtenAs_of hok (outlineItem_denotes calls)

example : Ok (OutlineItem.prog exOutlineItem) := okB_sound _ (by decide +kernel)
example : compactOut (OutlineItem.prog exOutlineItem) = b!"<</Title(a)/First 7 0 R/Dest/A/A 3>>" := by decide +kernel

/-- Example calls. -/
def exNames : List NamesCall := [.destinations [.kids [⟨7, by decide, by decide⟩]], .pages [.kids [⟨7, by decide, by decide⟩]], .embeddedFiles [.kids [⟨7, by decide, by decide⟩]], .raw b!"A" (pInt 3)]

/-- C42, `Names`: any sequence of calls writes a dictionary with, in order, the documented entries. If a call with a known defect is used, the entry it writes is the one of the code (see Defects), otherwise all are those of the standard. -/
theorem C42_names (rd : Reading) (calls : List NamesCall) (hc : rd = .code ∨ calls.all NamesCall.conforming = true) (hok : Ok (Names.prog calls)) : WrittenAs (Names.prog calls) (IsNames rd calls) :=
  writtenAs_of hok (names_denotes rd calls hc)

example : Ok (Names.prog exNames) := okB_sound _ (by decide +kernel)
example : exNames.all NamesCall.conforming = true := by decide +kernel
example : compactOut (Names.prog exNames) = b!"<</Dests<</Kids[7 0 R]>>/Pages<</Kids[7 0 R]>>/EmbeddedFiles<</Kids[7 0 R]>>/A 3>>" := by decide +kernel

/-- Example calls. -/
def exDeveloperExtension : List DeveloperExtensionCall := [.baseVersion 1 1, .extensionLevel 1, .raw b!"A" (pInt 3)]

/-- C42, `DeveloperExtension`: any sequence of calls writes a dictionary with, in order, the documented entries. -/
theorem C42_developer_extension (calls : List DeveloperExtensionCall) (hok : Ok (DeveloperExtension.prog calls)) : WrittenAs (DeveloperExtension.prog calls) (IsDeveloperExtension calls) :=
  writtenAs_of hok (developerExtension_denotes calls)

example : Ok (DeveloperExtension.prog exDeveloperExtension) := okB_sound _ (by decide +kernel)
example : compactOut (DeveloperExtension.prog exDeveloperExtension) = b!"<</Type/DeveloperExtensions/BaseVersion/1.1/ExtensionLevel 1/A 3>>" := by decide +kernel

/-- Example calls. -/
def exViewerPreferences : List ViewerPreferencesCall := [.hideToolbar true, .fitWindow true, .nonFullScreenPageMode .useAttachments, .raw b!"A" (pInt 3)]

/-- C42, `ViewerPreferences`: any sequence of calls without an out-of-range argument writes a dictionary with, in order, the documented entries. -/
theorem C42_viewer_preferences (calls : List ViewerPreferencesCall) (p : Prog) (hp : ViewerPreferences.run calls = some p) (hok : Ok p) : WrittenAs p (IsViewerPreferences calls) := by
  unfold ViewerPreferences.run at hp
  split at hp
  · cases hp
  · cases hp; exact writtenAs_of hok (viewerPreferences_denotes calls)

example : ∃ p, ViewerPreferences.run exViewerPreferences = some p ∧ Ok p := ⟨_, rfl, okB_sound _ (by decide +kernel)⟩
example : compactOut (ViewerPreferences.prog exViewerPreferences) = b!"<</HideToolbar true/FitWindow true/NonFullScreenPageMode/UseAttachments/A 3>>" := by decide +kernel

/-- Example calls. -/
def exCatalog : List CatalogCall := [.pages ⟨7, by decide, by decide⟩, .destinations ⟨7, by decide, by decide⟩, .form [.fields [⟨7, by decide, by decide⟩]], .raw b!"A" (pInt 3)]

/-- C42, `Catalog`: any sequence of calls without an out-of-range argument writes a dictionary with, in order, the documented entries. If a call with a known defect is used, the entry it writes is the one of the code (see Defects), otherwise all are those of the standard. -/
theorem C42_catalog (rd : Reading) (calls : List CatalogCall) (p : Prog) (hp : Catalog.run calls = some p) (hc : rd = .code ∨ calls.all CatalogCall.conforming = true) (hok : Ok p) : WrittenAs p (IsCatalog rd calls) := by
  unfold Catalog.run at hp
  split at hp
  · cases hp
  · cases hp; exact writtenAs_of hok (catalog_denotes rd calls hc)

example : ∃ p, Catalog.run exCatalog = some p ∧ Ok p := ⟨_, rfl, okB_sound _ (by decide +kernel)⟩
example : exCatalog.all CatalogCall.conforming = true := by decide +kernel
example : compactOut (Catalog.prog exCatalog) = b!"<</Type/Catalog/Pages 7 0 R/Dests 7 0 R/AcroForm<</Fields[7 0 R]>>/A 3>>" := by decide +kernel

/-- Example calls. -/
def exMetadata : List MetadataCall := [.stream (.filter .crypt)]

/-- C42, `Metadata`: any sequence of calls without an out-of-range argument writes a stream with the data and, in order, the documented entries. -/
theorem C42_metadata (calls : List MetadataCall) (hp : calls.any MetadataCall.panics = false)
    (hok : OkEntries (Metadata.entries calls)) (hl : ∀ e ∈ Metadata.entries calls, e.1 ≠ b!"Length") :
    StreamWrittenAs (Metadata.write calls) (Metadata.entries calls) (MetadataEntries calls) :=
  streamWrittenAs_of (by intro c r data; rw [Metadata.write, if_neg (by rw [hp]; exact Bool.false_ne_true)]) hok hl (metadata_implied calls)

example : exMetadata.any MetadataCall.panics = false ∧ OkEntries (Metadata.entries exMetadata) ∧ ∀ e ∈ Metadata.entries exMetadata, e.1 ≠ b!"Length" :=
  ⟨by decide +kernel, okEntriesB_sound _ (by decide +kernel), by decide +kernel⟩
example : streamOut (Metadata.write exMetadata) = some b!"5 0 obj\n<</Length 2/Type/Metadata/Subtype/XML/Filter/Crypt>>\nstream\nxy\nendstream\nendobj\n" := by decide +kernel

end PdfW.Props
