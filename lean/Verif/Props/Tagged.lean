import Verif.Proof.Tagged
import Verif.Proof.Fast
import Verif.Props.Interpret
import Verif.Props.Labels

set_option linter.unusedSimpArgs false
set_option linter.unusedVariables false

/-!
# C61: the structure tree

End to end: from the bytes of a file alone a reader obtains the structure tree that was written, with the text that belongs to its
elements.
-/

namespace PdfW.Props
open PdfW Spec

/-- C61. -/
theorem C61_structure (unf : Val → Bytes → Option Bytes) (h : PdfHist) (p : Pdf) (w : Finishing) (bytes : Bytes) (hr : h.run = some p)
    (hf : w.run p = some bytes) (hids : ∀ r ∈ docIds h ++ w.ids, r.get < 2147483647) (hlen : w.Fits p bytes) (hu : w.Undone unf)
    (cid : Ref) (cat : List CatalogCall) (t : PageTree) (hw : DocumentWritten unf h cid cat t)
    (forms : Nat) (shown : List (List Shown)) (ht : t.Draw unf (pdfItems h) forms shown)
    (rootId : Option Ref) (root : List StructTreeRootCall) (roles : List (Bytes × StructRole)) (top : List StructPart)
    (hs : StructureWritten (pdfItems h) cat rootId root roles top) (hloc : partsLocated t.ids top none)
    (depth : Nat) (hd : t.depth ≤ depth) (n : Nat) (hn : forms ≤ n) (structDepth : Nat) (hsd : partsDepth top ≤ structDepth) :
    ∃ rs, fileStructure unf bytes depth n structDepth = some rs ∧ partsMean t.ids shown roles top none rs := by
  obtain ⟨f, h1, hfinds, hroot⟩ := finds_of hr hf hids hlen hu
  obtain ⟨d, hcat, he⟩ := catalog_read hfinds (hroot cid hw.root) hw.catalog hw.noType
  have hpg : (CatalogEntries .code cat).filter (fun e => e.1 == b!"Pages") = [(b!"Pages", IsRef t.id)] := by
    simp only [CatalogEntries, List.filter_append, onlyCall_filter hw.pages]
    rfl
  obtain ⟨w', hl, hw'⟩ := lookup_of he hpg
  simp only [IsRef] at hw'
  subst hw'
  obtain ⟨hlen', hz⟩ := each_zip t none shown ht
  have hpages := tree_each (unf := unf) (page := fun n' res pd => (readPageShown unf f bytes n n' res pd).map fun s => (n', s)) hfinds
    (fun id res calls x rv d ops hx hr hops hm => by
      rw [pageShown_read hfinds n forms hn id res calls x.2 rv d ops hx.2 hr hops hm, Option.map_some, ← hx.1])
    t depth hd hw.tree none none rfl _ hz
  have hmap : (t.leaves.map fun e => e.1.get.toNat) = t.ids.map fun r => r.get.toNat := by
    simp only [PageTree.ids, List.map_map]; rfl
  obtain ⟨rs, q1, q2⟩ := structure_read hfinds hs he (ids := t.ids) (shown := shown) (by simpa [PageTree.ids] using hlen') hloc structDepth hsd
  refine ⟨rs, ?_, q2⟩
  rw [hmap] at hpages
  simp only [fileStructure, h1, Option.bind_some, hcat, hl, refNumber, hpages, q1]

/-- C61: the parent tree, from pages back to the elements. -/
theorem C61_parents (unf : Val → Bytes → Option Bytes) (h : PdfHist) (p : Pdf) (w : Finishing) (bytes : Bytes) (hr : h.run = some p)
    (hf : w.run p = some bytes) (hids : ∀ r ∈ docIds h ++ w.ids, r.get < 2147483647) (hlen : w.Fits p bytes) (hu : w.Undone unf)
    (cid : Ref) (cat : List CatalogCall) (t : PageTree) (hw : DocumentWritten unf h cid cat t)
    (rootId : Option Ref) (root : List StructTreeRootCall) (hs : RootSet (pdfItems h) cat root rootId)
    (tree : Tree NumberTreeCall Int) (ho : OnlyCall (StructTreeRootMeans .code) b!"ParentTree" root (.parentTree tree.calls))
    (ht : tree.Linked numberApi b!"Nums" (pdfItems h)) (hkeys : (tree.pairs.map (·.1)).Nodup)
    (parents : List (Option (List Ref))) (hp : Pairwise (fun e x => ParentsSet (pdfItems h) tree.pairs e.2 x) t.leaves parents)
    (depth : Nat) (hd : t.depth ≤ depth) (treeDepth : Nat) (htd : tree.depth ≤ treeDepth) :
    fileParents unf bytes depth treeDepth = some (parents.map fun x => x.map fun l => l.map fun r => r.get.toNat) := by
  obtain ⟨f, q1, hfi, hrt⟩ := finds_of hr hf hids hlen hu
  obtain ⟨d, q2, he⟩ := catalog_read hfi (hrt cid hw.root) hw.catalog hw.noType
  obtain ⟨v, q3, hv⟩ := lookup_of he (k := b!"Pages") (P := IsRef t.id) (by
    simp only [CatalogEntries, List.filter_append, onlyCall_filter hw.pages]; rfl)
  simp only [IsRef] at hv
  subst hv
  have q4 := tree_numbers (unf := unf) hfi t depth hd hw.tree
  obtain ⟨r, q5, her⟩ := root_read hfi hs he
  obtain ⟨v, q6, td, rfl, htd'⟩ := lookup_of her (k := b!"ParentTree") (P := IsNumberTree tree.calls) (by
    simp only [StructTreeRootEntries, List.filter_append, onlyCall_filter ho]; rfl)
  obtain ⟨rs, q7, q8⟩ := tree_list numberTree_ok hfi tree ht treeDepth htd td htd'
  have q7 : listTree b!"Nums" intOf f bytes treeDepth td = some rs := q7
  have q9 := allParents_read hfi q8 hkeys t.leaves parents (leaves_written (unf := unf) t hw.tree) hp
  simp only [fileParents, q1, q2, q3, q4, q5, q6, q7, q9, refNumber, followDict, followRef, Option.bind_some]

/-! ## A document that meets the hypotheses -/

/-- A font. -/
def tagKind : FontKind := .type3 [.toUnicode (rf 6)] [.pair 65 'Z']
def tagRes : List ResourcesCall := [.fonts [(b!"F1", tagKind.prog)], .xObjects [(b!"X1", .prim (.ref (rf 5)))]]
/-- Two marked-content sequences, and a form. -/
def tagCalls : List ContentCall :=
  [.beginMarkedContentWithProperties b!"P" (.dict [.identify 0]), .setFont b!"F1" F32.zero, .show [65], .endMarkedContent,
   .beginMarkedContentWithProperties b!"Span" (.dict [.identify 1]), .show [65, 66], .endMarkedContent, .xObject b!"X1"]
/-- One in the form. -/
def tagFormCalls : List ContentCall := [.beginMarkedContentWithProperties b!"P" (.dict [.identify 0]), .show [66], .endMarkedContent]
/-- All data are compressed. -/
def tagPart : ContentPart := ⟨rf 4, [.filter .flateDecode], b!"P", true, tagCalls⟩
def tagForm : FormPart := ⟨rf 5, [.stream (.filter .flateDecode)], b!"F", true, tagFormCalls⟩
def tagFont : FontPart := ⟨b!"F1", tagKind, rf 6, [.stream (.filter .flateDecode)], b!"C", b!"Custom", adobeIdentity, .horizontal⟩
def tagUnf : Val → Bytes → Option Bytes
  | .name n, d =>
    if n = b!"FlateDecode" ∧ d = b!"P" then some ((runCalls tagCalls (Content.withSettings true)).get (by decide +kernel)).finish.inner
    else if n = b!"FlateDecode" ∧ d = b!"F" then some ((runCalls tagFormCalls (Content.withSettings true)).get (by decide +kernel)).finish.inner
    else if n = b!"FlateDecode" ∧ d = b!"C" then some (tagKind.cmapData b!"Custom" adobeIdentity .horizontal) else none
  | _, _ => none
def tagPage : List PageCall := [.parent (rf 2), .resources tagRes, .contents (rf 4), .structParents 7]
def tagPages : PageTree := .node (rf 2) [.kids [rf 3], .count 1] [.page (rf 3) tagPage [tagPart]]

def tagParents : Tree NumberTreeCall Int := .leaf (rf 99) [.nums [(2, .ref (rf 9)), (7, .ref (rf 12))]] 0 0 [(2, .ref (rf 9)), (7, .ref (rf 12))]
def tagRoot : List StructTreeRootCall :=
  [.roleMap [.insert b!"Chapter" .sect], .child (rf 9), .parentTree tagParents.calls]
def tag11 : List StructElementCall := [.customKind b!"Chapter", .parent (rf 8), .title (.plain ['Ü']), .page (rf 3),
  .children [.markedContentId 0, .markedContentRef [.stream (rf 5), .markedContentId 0], .structElement (rf 10), .objectRef [.object (rf 7)]]]
def tag12 : List StructElementCall := [.kind2 .em (rf 20), .parent (rf 9), .child (rf 11)]
def tag13 : List StructElementCall :=
  [.kind .p, .parent (rf 10), .alt (.plain ['a']), .id [1, 2], .markedContentChild [.page (rf 3), .markedContentId 1]]
def noTexts : ElemTexts := ⟨none, none, none, none, none, none⟩
def tagTop : List StructPart :=
  [.elem (rf 9) tag11 (.custom b!"Chapter") { noTexts with title := some ['Ü'] } (some (rf 3))
    [.mcid 0, .marked [.stream (rf 5), .markedContentId 0] none (some (rf 5)) 0,
     .elem (rf 10) tag12 (.role2 .em (rf 20)) noTexts none
      [.elem (rf 11) tag13 (.role .p) { noTexts with alt := some ['a'], id := some [1, 2] } none
        [.marked [.page (rf 3), .markedContentId 1] (some (rf 3)) none 1]],
     .object [.object (rf 7)] none (rf 7)]]
def tagRoles : List (Bytes × StructRole) := [(b!"Chapter", .sect)]
def tagCat : List CatalogCall := [.raw b!"StructTreeRoot" (.prim (.ref (rf 8))), .pages (rf 2)]

def tagDoc : PdfHist :=
  .call (.call (.call (.call (.call (.call (.call (.call (.call (.call (.catalog (.new false) (rf 1) (tagCat.flatMap CatalogCall.entries))
    (.indirect (rf 2) (Pages.prog [.kids [rf 3], .count 1])))
    (.indirect (rf 3) (Page.prog tagPage)))
    (.stream (rf 4) (Stream.entries tagPart.stream) tagPart.data))
    (.stream (rf 5) (FormXObject.entries tagForm.calls) tagForm.data))
    (.stream (rf 6) (CmapStream.entries tagFont.stream) tagFont.data))
    (.indirect (rf 8) (StructTreeRoot.prog tagRoot)))
    (.indirect (rf 9) (StructElement.prog tag11)))
    (.indirect (rf 10) (StructElement.prog tag12)))
    (.indirect (rf 11) (StructElement.prog tag13)))
    (.indirect (rf 12) (.array [.prim (.ref (rf 9)), .prim (.ref (rf 11))]))

def tagShown : List (List Shown) :=
  [[(some ⟨none, 0⟩, some ['Z']), (some ⟨none, 1⟩, some ['Z']), (some ⟨none, 1⟩, none), (some ⟨some 5, 0⟩, none)]]

/-- An object of the sample document. -/
macro "tag_has" b:term : tactic => `(tactic| refine ⟨⟨_, $b, false⟩,
  by simp [tagDoc, pdfItems, callItems, chunkItems, chunkPretty, pdfPretty, tagFont, tagPart, tagForm], rfl, rfl,
  by
    simp [ItemOk, Page.prog, Page.entries, PageCall.entries, Pages.prog, Pages.entries, PagesCall.entries, Resources.prog, Resources.entries,
      ResourcesCall.entries, FontKind.prog, Type3Font.prog, PropCall.entry, FormXObject.entries, FormXObjectCall.entries,
      tagForm, tagPage, tagRoot, tag11, tag12, tag13, tagParents, Tree.calls, StructTreeRoot.prog, StructTreeRoot.entries, StructTreeRootCall.entries,
      StructElement.prog, StructElement.entries, StructElementCall.entries, RoleMap.prog, RoleMap.entries, RoleMapCall.entries,
      StructChildren.prog, StructChildren.items, StructChildrenCall.items, MarkedRef.prog, MarkedRef.entries, MarkedRefCall.entries,
      ObjectRef.prog, ObjectRef.entries, ObjectRefCall.entries, NumberTree.prog, NumberTree.entries, NumberTreeCall.entries, TextLike.prog, role20, StructRole2.toName,
      Type3Font.entries, Type3FontCall.entries, tagKind, StreamCall.entries, tagFont, tagPart, Stream.entries, CmapStreamCall.entries, tagRes, CmapStream.entries, filterName,
      Catalog.prog, Catalog.entries, CatalogCall.entries, pName, pRef, pText, pInt, pReal, pStr, Ok, OkItems, OkEntries, PrimOk, NoClash, NoClashItems,
      NoClashEntries, isEmptyName] <;> decide⟩)

theorem tagPart_ok : PartWritten tagUnf (pdfItems tagDoc) tagPart := by
  refine ⟨?_, ⟨(runCalls tagCalls (Content.withSettings true)).get (by decide +kernel), ?_, Or.inr ⟨.flateDecode, rfl, rfl⟩⟩, ?_, Or.inl rfl⟩
  · tag_has (.stream (Stream.entries tagPart.stream) tagPart.data)
  · simp [tagPart]
  · simp [tagPart, tagCalls, CallOk, operandsOf, OkItems, Ok, PrimOk, nam, num, OkEntries, propEntry]; decide

theorem tagForm_ok : tagForm.Written tagUnf (pdfItems tagDoc) where
  object := by tag_has (.stream (FormXObject.entries tagForm.calls) tagForm.data)
  subtype := by simp [NoCall, tagForm, FormXObjectMeans, StreamMeans]
  stored := ⟨(runCalls tagFormCalls (Content.withSettings true)).get (by decide +kernel), by simp [tagForm], Or.inr ⟨.flateDecode, rfl, rfl⟩⟩
  ok := by simp [tagForm, tagFormCalls, CallOk, operandsOf, OkItems, Ok, PrimOk, nam, num, OkEntries, propEntry]
  clash := Or.inl rfl

theorem tagDoc_ok : DocumentWritten tagUnf tagDoc (rf 1) tagCat tagPages where
  root := rfl
  catalog := by
    refine ⟨⟨rf 1, .val (Catalog.prog tagCat), false⟩, ?_, rfl, rfl, ?_⟩
    · simp only [tagDoc, pdfItems, callItems, chunkItems, chunkPretty, pdfPretty, Catalog.prog, Catalog.entries]
      simp [pName]
    · simp [ItemOk, tagCat, Catalog.prog, Catalog.entries, CatalogCall.entries, pName, pRef, Ok, OkItems, OkEntries, PrimOk, NoClash, NoClashItems, NoClashEntries, isEmptyName] <;> decide
  noType := by simp [NoCall, CatalogMeans, tagCat]
  pages := rfl
  tree := by
    simp only [tagPages, PageTree.Written, writtenList]
    refine ⟨?_, ?_, rfl, ⟨?_, ?_, Or.inr (Or.inl ⟨_, rfl, rfl⟩), ?_⟩, trivial⟩
    · tag_has (.val (Pages.prog [.kids [rf 3], .count 1]))
    · simp [NoCall, PagesMeans]
    · tag_has (.val (Page.prog tagPage))
    · simp [NoCall, PageMeans, tagPage]
    · simp only [List.mem_singleton, forall_eq]; exact tagPart_ok

theorem tagFont_ok : FontWritten tagUnf (pdfItems tagDoc) (some tagRes) tagFont := by
  refine ⟨⟨tagRes, _, _, rfl, Or.inl rfl, rfl, Or.inl rfl⟩, ⟨?_, rfl⟩, ?_, Or.inr ⟨.flateDecode, rfl, rfl⟩, ?_⟩
  · simp [NoCall, Type3FontMeans]
  · tag_has (.stream (CmapStream.entries tagFont.stream) tagFont.data)
  · refine ⟨?_, ?_, ?_⟩ <;> (unfold OneLine; simp only [tagFont]; decide)

theorem tagPages_draw : tagPages.Draw tagUnf (pdfItems tagDoc) 1 tagShown := by
  simp only [tagPages, PageTree.Draw, PageTree.Each, eachList]
  refine ⟨none, Or.inl ⟨?_, rfl⟩, [tagShown[0]], [], rfl, ⟨some tagRes, _, rfl, Or.inr ⟨_, rfl, Or.inl rfl⟩, ?_⟩, rfl⟩
  · simp [NoCall, PagesMeans]
  · simp only [List.flatMap_cons, List.flatMap_nil, tagPart, tagCalls, List.append_nil]
    have z : ShowsAs (some tagFont) [65] [some ['Z']] := ⟨_, rfl, [65], by decide, by decide⟩
    have y : ShowsAs (some tagFont) [65, 66] [some ['Z'], none] := ⟨_, rfl, [65, 66], by decide, by decide⟩
    have x : ShowsAs (some tagFont) [66] [none] := ⟨_, rfl, [66], by decide, by decide⟩
    refine draws_eq (.markWith (mcid := some 0) rfl (.font _ tagFont_ok (.show z (.endMark (.markWith (mcid := some 1) rfl (.show y (.endMark
      (.form tagForm (some tagRes) ⟨tagRes, _, rfl, Or.inl rfl, rfl⟩ tagForm_ok (Or.inl ⟨?_, rfl⟩)
        (.markWith (mcid := some 0) rfl (.show x (.endMark .done))) .done)))))))) ?_
    · simp [NoCall, tagForm, FormXObjectMeans, StreamMeans]
    · rfl

/-- All hypotheses about the structure. -/
theorem tagTop_ok : StructureWritten (pdfItems tagDoc) tagCat (some (rf 8)) tagRoot tagRoles tagTop where
  rootSet := ⟨rfl, by tag_has (.val (StructTreeRoot.prog tagRoot))⟩
  rolesSet := Or.inr rfl
  distinct := by decide
  kids := ⟨[rf 9], rfl, Or.inr (Or.inl ⟨_, rfl, rfl⟩)⟩
  written := by
    simp only [tagTop, List.mem_cons, List.not_mem_nil, or_false, forall_eq_or_imp, forall_eq, StructPart.Written, partsWritten, noTexts]
    refine ⟨by tag_has (.val (StructElement.prog tag11)), ⟨rfl, ?_⟩, ⟨?_, rfl, ?_, ?_, ?_, ?_⟩, fun p hp => by cases hp; rfl, rfl, Or.inr (Or.inr rfl), trivial,
        ⟨?_, ?_, rfl, rfl⟩,
        ⟨by tag_has (.val (StructElement.prog tag12)), ⟨rfl, rfl⟩, ⟨?_, ?_, ?_, ?_, ?_, ?_⟩, fun p hp => by cases hp; rfl, ?_, Or.inr (Or.inl ⟨_, _, rfl, rfl, rfl⟩),
          ⟨by tag_has (.val (StructElement.prog tag13)), ⟨rfl, ?_⟩, ⟨rfl, ?_, ?_, rfl, ?_, ?_⟩, fun p hp => by cases hp; rfl, ?_, Or.inr (Or.inl ⟨_, _, rfl, rfl, rfl⟩),
            ⟨?_, rfl, ?_, rfl⟩, trivial⟩, trivial⟩,
        ⟨?_, ?_, rfl⟩, trivial⟩
    all_goals simp [MaybeCall, NoCall, StructElementMeans, MarkedRefMeans, ObjectRefMeans, tag11, tag12, tag13]
    all_goals (rintro a b (⟨rfl, -⟩ | ⟨rfl, -⟩) <;> decide)

theorem tagTop_located : partsLocated tagPages.ids tagTop none := by
  simp [tagTop, partsLocated, StructPart.Located, tagPages, PageTree.ids, PageTree.leaves, leavesList]

/-- The hypotheses about the parent tree. -/
example : OnlyCall (StructTreeRootMeans .code) b!"ParentTree" tagRoot (.parentTree tagParents.calls) := rfl
example : tagParents.Linked numberApi b!"Nums" (pdfItems tagDoc) := rfl
example : (tagParents.pairs.map (·.1)).Nodup := by decide
theorem tagParents_ok : Pairwise (fun e x => ParentsSet (pdfItems tagDoc) tagParents.pairs e.2 x) tagPages.leaves [some [rf 9, rf 11]] :=
  .cons ⟨7, rf 12, rfl, by decide, by tag_has (.val (.array [.prim (.ref (rf 9)), .prim (.ref (rf 11))]))⟩ .nil

/-- The remaining hypotheses. -/
example : ∀ r ∈ docIds tagDoc, r.get < 2147483647 := by decide +kernel
example : tagPages.depth = 2 ∧ partsDepth tagTop = 3 ∧ tagParents.depth = 1 := ⟨rfl, rfl, rfl⟩

/-- The file can be finished and is short enough. -/
theorem tagDoc_finishes : ∃ p bytes, tagDoc.run = some p ∧ p.finish = some bytes ∧ bytes.length < 10 ^ 10 := by
  have h : ((tagDoc.run.bind fun p => p.finish).any fun b => decide (b.length < 10 ^ 10)) = true := by
    rw [← fastRun_eq]
    decide +kernel
  cases hp : tagDoc.run with
  | none => rw [hp] at h; simp at h
  | some p =>
    cases hb : p.finish with
    | none => rw [hp] at h; simp [hb] at h
    | some b => rw [hp] at h; exact ⟨p, b, rfl, hb, by simpa [hb] using h⟩

theorem tag_onPage {r : Option Ref} {i : Nat} {s : List Shown} (h : OnPage tagPages.ids tagShown r i s) : i = 0 ∧ s = tagShown[0] := by
  obtain ⟨r, -, -, h⟩ := h
  cases i with
  | zero => simp only [tagShown, List.getElem?_cons_zero, Option.some.injEq] at h; exact ⟨rfl, h.symm⟩
  | succ n => simp [tagShown] at h

/-- This is read from it. -/
example : ∃ p bytes rs, tagDoc.run = some p ∧ p.finish = some bytes ∧ fileStructure tagUnf bytes 2 1 3 = some rs ∧
    rs = [.elem b!"Chapter" b!"Sect" { noTexts with title := some ['Ü'] }
        [.content 0 [some ['Z']], .content 0 [none],
         .elem b!"Em" b!"Em" noTexts [.elem b!"P" b!"P" { noTexts with alt := some ['a'], id := some [1, 2] } [.content 0 [some ['Z'], none]]],
         .object 0 7]] := by
  obtain ⟨p, bytes, h1, h2, h3⟩ := tagDoc_finishes
  obtain ⟨rs, h4, h5⟩ := C61_structure tagUnf tagDoc p .table bytes h1 h2 (by decide +kernel) h3 trivial (rf 1) tagCat tagPages tagDoc_ok
    1 tagShown tagPages_draw (some (rf 8)) tagRoot tagRoles tagTop tagTop_ok tagTop_located 2 (by decide) 1 (by decide) 3 (by decide)
  refine ⟨p, bytes, rs, h1, h2, h4, ?_⟩
  simp only [tagTop, partsMean, StructPart.Means] at h5
  obtain ⟨_, _, rfl, ⟨_, _, _, rfl, rfl, q1, _, _, rfl, ⟨_, _, o1, rfl⟩, _, _, rfl, ⟨_, _, o2, rfl⟩, _, _, rfl,
    ⟨_, _, _, rfl, q2, rfl, _, _, rfl, ⟨_, _, _, rfl, rfl, q3, _, _, rfl, ⟨_, _, o3, rfl⟩, rfl⟩, rfl⟩, _, _, rfl, ⟨_, _, o4, rfl⟩, rfl⟩, rfl⟩ := h5
  obtain ⟨rfl, rfl⟩ := tag_onPage o1
  obtain ⟨rfl, rfl⟩ := tag_onPage o2
  obtain ⟨rfl, rfl⟩ := tag_onPage o3
  obtain ⟨rfl, rfl⟩ := tag_onPage o4
  have sect : ∀ {role : Bytes}, RoleOf tagRoles (.custom b!"Chapter") b!"Chapter" role → role = b!"Sect" := fun q1 => by
    rcases q1 with ⟨r, hr, e⟩ | ⟨hr, -⟩
    · rw [e]
      simp only [tagRoles, List.mem_singleton, Prod.mk.injEq, true_and] at hr; subst hr; rfl
    · exact absurd rfl (hr _ (List.mem_singleton.mpr rfl))
  have q1 := sect q1
  simp only [GivenType.Named, isoRole20] at q2
  have other : ∀ {n role : Bytes}, n ≠ b!"Chapter" → ((∃ r, (n, r) ∈ tagRoles ∧ role = isoRole17 r) ∨ ((∀ e ∈ tagRoles, e.1 ≠ n) ∧ role = n)) → role = n := by
    rintro n role hn (⟨r, hr, -⟩ | ⟨-, h⟩)
    · simp only [tagRoles, List.mem_singleton, Prod.mk.injEq] at hr; exact absurd hr.1 hn
    · exact h
  have q3 := other (by decide) q3
  subst q1 q2 q3
  rfl

/-- The parents of the marked-content sequences of the page. -/
example : ∃ p bytes, tagDoc.run = some p ∧ p.finish = some bytes ∧ fileParents tagUnf bytes 2 1 = some [some [9, 11]] := by
  obtain ⟨p, bytes, h1, h2, h3⟩ := tagDoc_finishes
  exact ⟨p, bytes, h1, h2, C61_parents tagUnf tagDoc p .table bytes h1 h2 (by decide +kernel) h3 trivial (rf 1) tagCat tagPages tagDoc_ok
    (some (rf 8)) tagRoot tagTop_ok.rootSet tagParents rfl rfl (by decide) [some [rf 9, rf 11]] tagParents_ok 2 (by decide) 1 (by decide)⟩

end PdfW.Props
