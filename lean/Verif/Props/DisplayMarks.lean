import Verif.Proof.DisplayMarks
import Verif.Proof.Fast
import Verif.Proof.ItemOk
import Verif.Props.Display
import Verif.Props.Tagged
import Verif.Proof.Associated

set_option linter.unusedSimpArgs false
set_option linter.unusedVariables false

/-!
# C92: what is painted in marked-content sequences

End to end, as C68: for every page the same elements in the same order with the same graphics states, and for each of them the marked-content
sequences around it, in the content of the page and of the forms through which it is painted, with tags and identifiers.
-/

namespace PdfW.Props
open PdfW Spec Imaging

/-- C92. What is painted is that of C68; now every element has its sequences. -/
theorem C92_marks (unf : Val → Bytes → Option Bytes) (h : PdfHist) (p : Pdf) (w : Finishing) (bytes : Bytes) (hr : h.run = some p)
    (hf : w.run p = some bytes) (hids : ∀ r ∈ docIds h ++ w.ids, r.get < 2147483647) (hlen : w.Fits p bytes) (hu : w.Undone unf)
    (cid : Ref) (cat : List CatalogCall) (t : PageTree) (hw : DocumentWritten unf h cid cat t)
    (forms : Nat) (pages : List (List (Element F32 Prog × List Sequence))) (ht : t.Marks unf (pdfItems h) forms pages) (depth : Nat)
    (hd : t.depth ≤ depth) (n : Nat) (hn : forms ≤ n) :
    ∃ read, fileMarks unf bytes depth n = some read ∧ Pairwise (Pairwise SameMarked) pages read ∧
      fileDisplay unf bytes depth n = some (read.map (List.map Prod.fst)) := by
  obtain ⟨f, h1, hfinds, hroot⟩ := finds_of hr hf hids hlen hu
  obtain ⟨d, hcat, he⟩ := catalog_read hfinds (hroot cid hw.root) hw.catalog hw.noType
  have hpg : (CatalogEntries .code cat).filter (fun e => e.1 == b!"Pages") = [(b!"Pages", IsRef t.id)] := by
    simp only [CatalogEntries, List.filter_append, onlyCall_filter hw.pages]
    rfl
  obtain ⟨w', hl, hw'⟩ := lookup_of he hpg
  simp only [IsRef] at hw'
  subst hw'
  obtain ⟨ys, hy, hym⟩ := tree_means (unf := unf) (R := Pairwise SameMarked) hfinds (pageMarks_read hfinds n forms hn)
    t depth hd hw.tree none none rfl pages ht
  refine ⟨ys, by simp only [fileMarks, h1, Option.bind_some, hcat, hl, refNumber, hy], hym, ?_⟩
  simp only [fileDisplay, h1, Option.bind_some, readDisplay, hcat, hl, refNumber]
  exact pagesWith_map (List.map Prod.fst) (fun _ _ _ _ hx => pageMarks_erase hx) depth none _ ys hy

/-- C92: for every identifier, what is painted in the sequence with this identifier on every page. -/
theorem C92_sequence (unf : Val → Bytes → Option Bytes) (h : PdfHist) (p : Pdf) (w : Finishing) (bytes : Bytes) (hr : h.run = some p)
    (hf : w.run p = some bytes) (hids : ∀ r ∈ docIds h ++ w.ids, r.get < 2147483647) (hlen : w.Fits p bytes) (hu : w.Undone unf)
    (cid : Ref) (cat : List CatalogCall) (t : PageTree) (hw : DocumentWritten unf h cid cat t)
    (forms : Nat) (pages : List (List (Element F32 Prog × List Sequence))) (ht : t.Marks unf (pdfItems h) forms pages) (depth : Nat)
    (hd : t.depth ≤ depth) (n : Nat) (hn : forms ≤ n) :
    ∃ read, fileMarks unf bytes depth n = some read ∧ ∀ mark,
      Pairwise (fun x y => Pairwise (SameElement NumIs Denotes) (paintedIn mark x) (paintedIn mark y)) pages read := by
  obtain ⟨read, h1, h2, -⟩ := C92_marks unf h p w bytes hr hf hids hlen hu cid cat t hw forms pages ht depth hd n hn
  refine ⟨read, h1, fun mark => pairwise_mono (fun x y hxy => ?_) h2⟩
  induction hxy with
  | nil => exact .nil
  | @cons a b as bs hab _ ih =>
    simp only [paintedIn, List.filter_cons, hab.2]
    split
    · exact .cons hab.1 ih
    · exact ih

/-- C92: for everything that is painted, the structure element to which it belongs, from the parent tree of the document. -/
theorem C92_owners (unf : Val → Bytes → Option Bytes) (h : PdfHist) (p : Pdf) (w : Finishing) (bytes : Bytes) (hr : h.run = some p)
    (hf : w.run p = some bytes) (hids : ∀ r ∈ docIds h ++ w.ids, r.get < 2147483647) (hlen : w.Fits p bytes) (hu : w.Undone unf)
    (cid : Ref) (cat : List CatalogCall) (t : PageTree) (hw : DocumentWritten unf h cid cat t)
    (forms : Nat) (pages : List (List (Element F32 Prog × List Sequence))) (ht : t.Marks unf (pdfItems h) forms pages)
    (rootId : Option Ref) (root : List StructTreeRootCall) (hs : RootSet (pdfItems h) cat root rootId)
    (tree : Tree NumberTreeCall Int) (ho : OnlyCall (StructTreeRootMeans .code) b!"ParentTree" root (.parentTree tree.calls))
    (htl : tree.Linked numberApi b!"Nums" (pdfItems h)) (hkeys : (tree.pairs.map (·.1)).Nodup)
    (parents : List (Option (List Ref))) (hp : Pairwise (fun e x => ParentsSet (pdfItems h) tree.pairs e.2 x) t.leaves parents)
    (depth : Nat) (hd : t.depth ≤ depth) (n : Nat) (hn : forms ≤ n) (treeDepth : Nat) (htd : tree.depth ≤ treeDepth) :
    ∃ read, fileOwners unf bytes depth n treeDepth = some read ∧
      Pairwise (Pairwise fun x y => SameElement NumIs Denotes x.1 y.1 ∧ y.2 = x.2.map fun r => r.get.toNat) (owners pages parents) read := by
  obtain ⟨read, h1, h2, -⟩ := C92_marks unf h p w bytes hr hf hids hlen hu cid cat t hw forms pages ht depth hd n hn
  have h3 := C61_parents unf h p w bytes hr hf hids hlen hu cid cat t hw rootId root hs tree ho htl hkeys parents hp depth hd treeDepth htd
  exact ⟨_, by simp only [fileOwners, h1, h3, Option.bind_some, Option.map_some], owners_same h2 parents⟩

/-! ## A document that meets the hypotheses

A figure with a form, an artifact that contains a span whose properties are named, and a shape in no sequence. The figure belongs to the element
with the number 9, the span to the one with the number 11. -/

def mkdRes : List ResourcesCall :=
  [.xObjects [(b!"X", .prim (.ref (rf 5)))], .patterns [(b!"P", .prim (.ref (rf 10)))], .properties [(b!"M", [.identify 3])]]
def mkdCalls : List ContentCall :=
  [.beginMarkedContentWithProperties b!"Figure" (.dict [.identify 0]), .rect F32.zero F32.zero dspOne dspTwo, .fillNonzero, .xObject b!"X",
   .endMarkedContent, .beginMarkedContent b!"Artifact", .beginMarkedContentWithProperties b!"Span" (.named b!"M"), .moveTo dspOne dspTwo,
   .closePath, .stroke, .endMarkedContent, .rect F32.zero F32.zero dspTwo dspTwo, .fillNonzero, .endMarkedContent, .rect F32.zero dspTwo dspOne dspTwo, .fillEvenOdd]
/-- The form has a sequence of its own. -/
def mkdFormCalls : List ContentCall :=
  [.setFillColorSpace .pattern, .setFillPattern [] b!"P", .rect F32.zero F32.zero dspTwo dspTwo, .beginMarkedContentWithProperties b!"P" (.named b!"M"),
   .fillEvenOddAndStroke, .endMarkedContent, .moveTo dspOne dspTwo, .closeAndStroke]
def mkdForm : FormPart := ⟨rf 5, [.bbox ⟨F32.zero, F32.zero, dspOne, dspOne⟩, .matrix [dspOne, F32.zero, F32.zero, dspTwo, dspOne, F32.zero]],
  ((runCalls mkdFormCalls (Content.withSettings false)).get (by decide +kernel)).finish.inner, false, mkdFormCalls⟩
def mkdPart : ContentPart := ⟨rf 4, [], ((runCalls mkdCalls (Content.withSettings true)).get (by decide +kernel)).finish.inner, true, mkdCalls⟩
def mkdPage : List PageCall := [.parent (rf 2), .contents (rf 4), .structParents 7]
def mkdTree : PageTree :=
  .node (rf 2) [.kids [rf 3], .count 1, .resources mkdRes] [.page (rf 3) mkdPage [mkdPart]]
def mkdRoot : List StructTreeRootCall := [.parentTree tagParents.calls]
def mkdCat : List CatalogCall := [.raw b!"StructTreeRoot" (.prim (.ref (rf 8))), .pages (rf 2)]
def mkdOwners : Prog := .array [.prim (.ref (rf 9)), .prim (.ref (rf 9)), .prim (.ref (rf 9)), .prim (.ref (rf 11))]

def mkdDoc : PdfHist :=
  .call (.call (.call (.call (.call (.call (.catalog (.new false) (rf 1) (mkdCat.flatMap CatalogCall.entries))
    (.indirect (rf 2) (Pages.prog [.kids [rf 3], .count 1, .resources mkdRes])))
    (.indirect (rf 3) (Page.prog mkdPage)))
    (.stream (rf 4) [] mkdPart.data))
    (.stream (rf 5) (FormXObject.entries mkdForm.calls) mkdForm.data))
    (.indirect (rf 8) (StructTreeRoot.prog mkdRoot)))
    (.indirect (rf 12) mkdOwners)

/-- An object of the sample document. -/
macro "mkd_has" b:term : tactic => `(tactic| refine ⟨⟨_, $b, false⟩,
  by simp [mkdDoc, pdfItems, callItems, chunkItems, chunkPretty, pdfPretty, mkdPart, mkdForm], rfl, rfl, itemOkB_sound _ (by decide +kernel)⟩)

theorem mkdPart_ok : PartWritten dspUnf (pdfItems mkdDoc) mkdPart := by
  refine ⟨?_, ⟨(runCalls mkdCalls (Content.withSettings true)).get (by decide +kernel), ?_, Or.inl ⟨?_, ?_⟩⟩, ?_, Or.inl rfl⟩
  · mkd_has (.stream [] mkdPart.data)
  · simp [mkdPart]
  · simp [NoCall, mkdPart]
  · simp only [mkdPart]
  · simp [mkdPart, mkdCalls, CallOk, operandsOf, OkItems, Ok, OkEntries, propEntry, PrimOk, nam, num, dspOne, dspTwo]; decide

theorem mkdForm_ok : mkdForm.Written dspUnf (pdfItems mkdDoc) where
  object := by mkd_has (.stream (FormXObject.entries mkdForm.calls) mkdForm.data)
  subtype := by simp [NoCall, mkdForm, FormXObjectMeans]
  stored := ⟨(runCalls mkdFormCalls (Content.withSettings false)).get (by decide +kernel), by simp [mkdForm],
    Or.inl ⟨by simp [NoCall, mkdForm, FormXObjectMeans], by simp only [mkdForm]⟩⟩
  ok := by simp [mkdForm, mkdFormCalls, CallOk, operandsOf, OkItems, Ok, PrimOk, nam, num, dspTwo, dspOne]; decide
  clash := Or.inr (by simp [mkdForm, mkdFormCalls, CallNoClash, operandsOf, NoClashItems, NoClash, isEmptyName, nam, num])

/-- All hypotheses about the document and its tree. -/
theorem mkdDoc_ok : DocumentWritten dspUnf mkdDoc (rf 1) mkdCat mkdTree where
  root := rfl
  catalog := by
    refine ⟨⟨rf 1, .val (Catalog.prog mkdCat), false⟩, ?_, rfl, rfl, ?_⟩
    · simp only [mkdDoc, pdfItems, callItems, chunkItems, chunkPretty, pdfPretty, Catalog.prog, Catalog.entries]
      simp [pName]
    · exact itemOkB_sound _ (by decide +kernel)
  noType := by simp [NoCall, CatalogMeans, mkdCat]
  pages := rfl
  tree := by
    simp only [mkdTree, PageTree.Written, writtenList]
    refine ⟨?_, ?_, rfl, ⟨?_, ?_, Or.inr (Or.inl ⟨_, rfl, rfl⟩), ?_⟩, trivial⟩
    · mkd_has (.val (Pages.prog [.kids [rf 3], .count 1, .resources mkdRes]))
    · simp [NoCall, PagesMeans]
    · mkd_has (.val (Page.prog mkdPage))
    · simp [NoCall, PageMeans, mkdPage]
    · simp only [List.mem_singleton, forall_eq]; exact mkdPart_ok

/-! What is asked for. -/

def mkdBase : GState F32 Prog := initial fun n => .prim (.name n)
def mkdFigure : List Sequence := [⟨none, b!"Figure", some 0⟩]
def mkdArtifact : Sequence := ⟨none, b!"Artifact", none⟩
/-- What the form paints, in any graphics state and in any sequences. -/
def mkdInside (g : GState F32 Prog) (around : List Sequence) : List (Element F32 Prog × List Sequence) :=
  let state := { inside (some [dspOne, F32.zero, F32.zero, dspTwo, dspOne, F32.zero]) [F32.zero, F32.zero, dspOne, dspOne] g with
    filling := ⟨.prim (.name b!"Pattern"), [], some (.prim (.ref (rf 10)))⟩ }
  [(.path [⟨.rectangle, [F32.zero, F32.zero, dspTwo, dspTwo]⟩] (some .evenOdd) true state, ⟨some 5, b!"P", some 3⟩ :: around),
   (.path [⟨.move, [dspOne, dspTwo]⟩, ⟨.close, []⟩] none true state, around)]
def mkdElements : List (Element F32 Prog × List Sequence) :=
  [(.path [⟨.rectangle, [F32.zero, F32.zero, dspOne, dspTwo]⟩] (some .nonzero) false mkdBase, mkdFigure), (.enter 5 mkdBase, mkdFigure)] ++
  mkdInside mkdBase mkdFigure ++ [(.leave 5, mkdFigure),
   (.path [⟨.move, [dspOne, dspTwo]⟩, ⟨.close, []⟩] none true mkdBase, [⟨none, b!"Span", some 3⟩, mkdArtifact]),
   (.path [⟨.rectangle, [F32.zero, F32.zero, dspTwo, dspTwo]⟩] (some .nonzero) false mkdBase, [mkdArtifact]),
   (.path [⟨.rectangle, [F32.zero, dspTwo, dspOne, dspTwo]⟩] (some .evenOdd) false mkdBase, [])]

def mkdResource (c n : Bytes) : Option Prog := if c = b!"Pattern" ∧ n = b!"P" then some (.prim (.ref (rf 10))) else none

theorem mkdResource_ok (c n : Bytes) (v : Prog) (h : mkdResource c n = some v) : ResourceGiven (pdfItems mkdDoc) (some mkdRes) c n v := by
  unfold mkdResource at h
  split at h
  · rename_i hc; obtain ⟨rfl, rfl⟩ := hc; cases h
    exact ⟨.patterns, mkdRes, _, by simp [categoryMethods], rfl, Or.inl rfl, rfl⟩
  · cases h

def mkdObject (n : Bytes) (g : GState F32 Prog) (around : List Sequence) : Option (List (Element F32 Prog × List Sequence)) :=
  if n = b!"X" then some ([(.enter 5 g, around)] ++ mkdInside g around ++ [(.leave 5, around)]) else none

theorem asks_other (o : Option Ref) (c : ContentCall) (h1 : Unrelated c) (h2 : operatorOf c ∉ [b!"BMC", b!"BDC", b!"EMC"]) :
    Asks o (some mkdRes) c ((acts c).map .act) := .other h1 h2
theorem mkdNamed_ok : PropsWritten (some mkdRes) b!"M" [.identify 3] := ⟨mkdRes, _, rfl, rfl, rfl⟩

theorem mkdForm_marks (g : GState F32 Prog) (around : List Sequence) : MarksGiven dspUnf (pdfItems mkdDoc) 0 (some (rf 5)) (some mkdRes)
    (inside (some [dspOne, F32.zero, F32.zero, dspTwo, dspOne, F32.zero]) [F32.zero, F32.zero, dspOne, dspOne] g) around mkdForm.content
    (mkdInside g around) :=
  ⟨⟨fun n => .prim (.name n), mkdResource, fun _ _ => none⟩, fun _ _ _ => none, _, fun _ => rfl, mkdResource_ok, (by intro n g a es h; cases h),
    .cons (asks_other _ _ trivial (by decide)) (.cons (asks_other _ _ trivial (by decide)) (.cons (asks_other _ _ trivial (by decide))
    (.cons (.named (mcid := some 3) mkdNamed_ok rfl) (.cons (asks_other _ _ trivial (by decide)) (.cons .finish
    (.cons (asks_other _ _ trivial (by decide)) (.cons (asks_other _ _ trivial (by decide)) .nil))))))), rfl⟩

theorem mkdObject_marks (n : Bytes) (g : GState F32 Prog) (around : List Sequence) (es : List (Element F32 Prog × List Sequence))
    (h : mkdObject n g around = some es) :
    ObjectMarks dspUnf (pdfItems mkdDoc) (some mkdRes) (fun id => MarksGiven dspUnf (pdfItems mkdDoc) 0 (some id)) n g around es := by
  unfold mkdObject at h
  split at h
  · rename_i hn; subst hn; cases h
    exact Or.inr ⟨mkdForm, some mkdRes, some _, ⟨F32.zero, F32.zero, dspOne, dspOne⟩, mkdInside g around, ⟨mkdRes, _, rfl, Or.inl rfl, rfl⟩, mkdForm_ok,
      Or.inl ⟨by simp [NoCall, mkdForm, FormXObjectMeans], rfl⟩, rfl, rfl, mkdForm_marks g around, rfl⟩
  · cases h

/-- What the calls ask for. -/
theorem mkdTree_marks : mkdTree.Marks dspUnf (pdfItems mkdDoc) 1 [mkdElements] := by
  simp only [mkdTree, PageTree.Marks, PageTree.Each, eachList]
  refine ⟨some mkdRes, Or.inr ⟨_, rfl, Or.inl rfl⟩, [mkdElements], [], rfl, ⟨some mkdRes, _, rfl, Or.inl ⟨by simp [NoCall, PageMeans, mkdPage], rfl⟩, ?_⟩, rfl⟩
  exact ⟨⟨fun n => .prim (.name n), mkdResource, fun _ _ => none⟩, mkdObject, _, fun _ => rfl, mkdResource_ok, mkdObject_marks,
    .cons (.listed (mcid := some 0) rfl) (.cons (asks_other _ _ trivial (by decide)) (.cons (asks_other _ _ trivial (by decide))
    (.cons (asks_other _ _ trivial (by decide)) (.cons .finish (.cons .plain (.cons (.named (mcid := some 3) mkdNamed_ok rfl)
    (.cons (asks_other _ _ trivial (by decide)) (.cons (asks_other _ _ trivial (by decide)) (.cons (asks_other _ _ trivial (by decide))
    (.cons .finish (.cons (asks_other _ _ trivial (by decide)) (.cons (asks_other _ _ trivial (by decide)) (.cons .finish
    (.cons (asks_other _ _ trivial (by decide)) (.cons (asks_other _ _ trivial (by decide)) .nil))))))))))))))), rfl⟩

/-- The hypotheses about the parent tree. -/
theorem mkdRoot_ok : RootSet (pdfItems mkdDoc) mkdCat mkdRoot (some (rf 8)) := ⟨rfl, by mkd_has (.val (StructTreeRoot.prog mkdRoot))⟩
example : OnlyCall (StructTreeRootMeans .code) b!"ParentTree" mkdRoot (.parentTree tagParents.calls) := rfl
example : tagParents.Linked numberApi b!"Nums" (pdfItems mkdDoc) := rfl
theorem mkdParents_ok : Pairwise (fun e x => ParentsSet (pdfItems mkdDoc) tagParents.pairs e.2 x) mkdTree.leaves
    [some [rf 9, rf 9, rf 9, rf 11]] :=
  .cons ⟨7, rf 12, rfl, by decide, by mkd_has (.val mkdOwners)⟩ .nil
example : (owners [mkdElements] [some [rf 9, rf 9, rf 9, rf 11]]).map (fun p => p.map Prod.snd) =
    [[some (rf 9), some (rf 9), none, some (rf 9), some (rf 9), some (rf 11), none, none]] := rfl

/-- The remaining hypotheses. -/
example : ∀ r ∈ docIds mkdDoc, r.get < 2147483647 := by decide +kernel
example : mkdTree.depth = 2 := rfl
example : (paintedIn ⟨none, 0⟩ mkdElements).length = 4 := rfl
example : (paintedIn ⟨none, 3⟩ mkdElements).length = 1 := rfl
example : (paintedIn ⟨some 5, 3⟩ mkdElements).length = 1 := rfl

set_option synthInstance.maxHeartbeats 400000 in
set_option synthInstance.maxSize 2000 in
/-- The file can be finished and is short enough, and this is read from it. -/
example : ((mkdDoc.run.bind fun p => p.finish).bind fun b => if b.length < 10 ^ 10 then
      (fileMarks dspUnf b 2 1).map fun ps => ps.map fun p => p.map fun x => (dspShow x.1, x.2.map fun s => (s.stream, s.tag, s.mcid)) else none) =
    some [[((1, [1, 1, 0], 0, 0, 0), [(none, b!"Figure", some 0)]), ((5, [5], 0, 0, 0), [(none, b!"Figure", some 0)]),
      ((1, [1, 1, 1], 1, 1, 0), [(some 5, b!"P", some 3), (none, b!"Figure", some 0)]), ((1, [2, 0, 1], 1, 1, 0), [(none, b!"Figure", some 0)]),
      ((6, [5], 0, 0, 0), [(none, b!"Figure", some 0)]), ((1, [2, 0, 1], 0, 0, 0), [(none, b!"Span", some 3), (none, b!"Artifact", none)]),
      ((1, [1, 1, 0], 0, 0, 0), [(none, b!"Artifact", none)]), ((1, [1, 1, 0], 0, 0, 0), [])]] := by
  rw [← fastRun_eq]
  decide +kernel

set_option synthInstance.maxHeartbeats 400000 in
set_option synthInstance.maxSize 2000 in
/-- The elements to which it belongs. -/
example : ((mkdDoc.run.bind fun p => p.finish).bind fun b => (fileOwners dspUnf b 2 1 1).map fun ps => ps.map fun p => p.map Prod.snd) =
    some [[some 9, some 9, none, some 9, some 9, some 11, none, none]] := by
  rw [← fastRun_eq]
  decide +kernel

end PdfW.Props
