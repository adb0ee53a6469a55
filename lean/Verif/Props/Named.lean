import Verif.Proof.Named
import Verif.Proof.Fast
import Verif.Proof.ItemOk
import Verif.Props.Annots

set_option linter.unusedSimpArgs false
set_option linter.unusedVariables false

/-!
# C82: named objects

End to end: typed writers for the catalog, name dictionaries and name trees of all ten categories, objects and streams, object layout, cross-reference
section and trailer together. Whatever document was written, a reader that is given only the bytes of the finished file obtains the names of
each category in order, and the objects that have these names.
-/

namespace PdfW.Props
open PdfW Spec

section
variable (unf : Val → Bytes → Option Bytes) (h : PdfHist) (p : Pdf) (w : Finishing) (bytes : Bytes) (hr : h.run = some p)
  (hf : w.run p = some bytes) (hids : ∀ r ∈ docIds h ++ w.ids, r.get < 2147483647) (hlen : w.Fits p bytes) (hu : w.Undone unf)
include hr hf hids hlen hu

/-- C82: all named objects of a category, in order. -/
theorem C82_list (cid : Ref) (hc : catalogId h = some cid) (cat : List CatalogCall)
    (hcat : HasObject (pdfItems h) cid (.val (Catalog.prog cat))) (hn : NoCall (CatalogMeans .code) b!"Type" cat)
    (c : NameCategory) (t : Tree NameTreeCall Bytes) (hs : NamesSet cat c (some t.calls))
    (hw : t.Linked nameApi b!"Names" (pdfItems h)) (depth : Nat) (hd : t.depth ≤ depth)
    (vs : List (Bytes × Body)) (hv : NamedAre (pdfItems h) t.pairs vs) :
    ∃ xs, fileNamed unf bytes c depth = some xs ∧ Pairwise (fun v x => x.1 = v.1 ∧ BodyDenotes v.2 x.2) vs xs := by
  obtain ⟨f, q1, hfi, hrt⟩ := finds_of hr hf hids hlen hu
  obtain ⟨y, q2, q3⟩ := namesRoot_read hfi (hrt cid hc) hcat hn hs
  cases y with
  | none => exact q3.elim
  | some d =>
    obtain ⟨rs, q4, q5⟩ := tree_list nameTree_ok hfi t hw depth hd d q3
    have q4 : listTree b!"Names" strOf f bytes depth d = some rs := q4
    obtain ⟨xs, q6, q7⟩ := named_load hfi hv q5
    exact ⟨xs, by simp only [fileNamed, q1, q2, Option.bind_some, q4, q6], q7⟩

/-- C82: each name leads to its object, and other names to nothing. -/
theorem C82_find (cid : Ref) (hc : catalogId h = some cid) (cat : List CatalogCall)
    (hcat : HasObject (pdfItems h) cid (.val (Catalog.prog cat))) (hn : NoCall (CatalogMeans .code) b!"Type" cat)
    (c : NameCategory) (t : Tree NameTreeCall Bytes) (hs : NamesSet cat c (some t.calls))
    (hw : t.Written nameApi bytesLe b!"Names" (pdfItems h)) (depth : Nat) (hd : t.depth ≤ depth)
    (vs : List (Bytes × Body)) (hv : NamedAre (pdfItems h) t.pairs vs) :
    (∀ v ∈ vs, ∃ x, fileNamedAs unf bytes c depth v.1 = some x ∧ BodyDenotes v.2 x) ∧
    ∀ name, (∀ v ∈ vs, v.1 ≠ name) → fileNamedAs unf bytes c depth name = none := by
  obtain ⟨f, q1, hfi, hrt⟩ := finds_of hr hf hids hlen hu
  obtain ⟨y, q2, q3⟩ := namesRoot_read hfi (hrt cid hc) hcat hn hs
  cases y with
  | none => exact q3.elim
  | some d =>
    obtain ⟨g1, g2⟩ : FindsExactly (lenientNameTrees.search f bytes depth d) t.pairs := tree_search nameTree_ok hfi t hw depth hd d q3
    simp only [fileNamedAs, q1, q2, Option.bind_some]
    constructor
    · intro v hm
      obtain ⟨e, k1, k2, k3⟩ := pairwise_mem hv hm
      obtain ⟨z, k4, k5⟩ := g1 e k1
      obtain ⟨x, k6, k7⟩ := loadNamed_read hfi k3 k5
      exact ⟨x, by rw [k2, k4, Option.bind_some, k6], k7⟩
    · intro name hne
      rw [g2 name fun e he heq => ?_, Option.bind_none]
      obtain ⟨v, k1, k2, -⟩ := pairwise_mem (pairwise_swap (S := fun (v : Bytes × Body) (e : Bytes × Prim) => v.1 = e.1 ∧ NamedValue (pdfItems h) e.2 v.2) (fun _ _ k => k) hv) he
      exact hne v k1 (k2.trans heq)

/-- C82: a category that was not set has no names. -/
theorem C82_unset (cid : Ref) (hc : catalogId h = some cid) (cat : List CatalogCall)
    (hcat : HasObject (pdfItems h) cid (.val (Catalog.prog cat))) (hn : NoCall (CatalogMeans .code) b!"Type" cat)
    (c : NameCategory) (hs : NamesSet cat c none) (depth : Nat) :
    fileNamed unf bytes c depth = some [] ∧ ∀ name, fileNamedAs unf bytes c depth name = none := by
  obtain ⟨f, q1, hfi, hrt⟩ := finds_of hr hf hids hlen hu
  obtain ⟨y, q2, q3⟩ := namesRoot_read hfi (hrt cid hc) hcat hn hs
  cases y with
  | none => exact ⟨by simp only [fileNamed, q1, q2, Option.bind_some], fun _ => by simp only [fileNamedAs, q1, q2, Option.bind_some, Option.bind_none]⟩
  | some d => exact q3.elim

end

/-! ## A document that meets the hypotheses

Renditions in a tree of three nodes, templates in a tree of one node. -/

def nmdTree : Tree NameTreeCall Bytes :=
  .node (rf 99) [.kids [rf 5, rf 6]] [] []
    [.leaf (rf 5) [.limits b!"a" b!"b", .names [(b!"a", .ref (rf 10)), (b!"b", .int 7)]] b!"a" b!"b" [(b!"a", .ref (rf 10)), (b!"b", .int 7)],
     .leaf (rf 6) [.limits b!"c" b!"d", .names [(b!"d", .ref (rf 11))]] b!"c" b!"d" [(b!"d", .ref (rf 11))]]
def nmdFlat : Tree NameTreeCall Bytes := .leaf (rf 98) [.names [(b!"x", .ref (rf 11))]] [] [] [(b!"x", .ref (rf 11))]
def nmdNames : List NamesCall := [.templates nmdFlat.calls, .renditions nmdTree.calls]
def nmdCat : List CatalogCall := [.pages (rf 2), .names nmdNames]

def nmdDoc : PdfHist :=
  .call (.call (.call (.call (.catalog (.new false) (rf 1) (nmdCat.flatMap CatalogCall.entries))
    (.indirect (rf 5) (NameTree.prog [.limits b!"a" b!"b", .names [(b!"a", .ref (rf 10)), (b!"b", .int 7)]])))
    (.indirect (rf 6) (NameTree.prog [.limits b!"c" b!"d", .names [(b!"d", .ref (rf 11))]])))
    (.indirect (rf 10) (.prim (.bool true))))
    (.stream (rf 11) (Stream.entries []) b!"endobj")

/-- An object of the sample document. -/
macro "nmd_has" b:term : tactic => `(tactic| refine ⟨⟨_, $b, false⟩,
  by simp [nmdDoc, pdfItems, callItems, chunkItems, chunkPretty, pdfPretty] <;> rfl, rfl, rfl, itemOkB_sound _ (by decide +kernel)⟩)

theorem nmdCat_ok : HasObject (pdfItems nmdDoc) (rf 1) (.val (Catalog.prog nmdCat)) := by
  refine ⟨⟨rf 1, .val (Catalog.prog nmdCat), false⟩, ?_, rfl, rfl, itemOkB_sound _ (by decide +kernel)⟩
  simp only [nmdDoc, pdfItems, callItems, chunkItems, chunkPretty, pdfPretty, Catalog.prog, Catalog.entries]
  simp [pName]

theorem nmdTree_ok : nmdTree.Written nameApi bytesLe b!"Names" (pdfItems nmdDoc) := by
  simp only [nmdTree, Tree.Written, treesWritten]
  refine ⟨?_, rfl, ?_, ⟨?_, rfl⟩, ?_, ⟨rfl, by decide⟩, ⟨?_, rfl⟩, ?_, ⟨rfl, by decide⟩, trivial⟩
  · simp [NoCall, nameApi, NameTreeMeans]
  · refine List.Pairwise.cons ?_ (List.pairwise_singleton _ _)
    intro t ht k
    rw [List.mem_singleton] at ht
    subst ht
    rintro ⟨⟨-, h2⟩, h3, -⟩
    have : bytesLe b!"c" b!"b" = true := bytesLe_trans h3 h2
    exact absurd this (by decide)
  · nmd_has (.val (NameTree.prog [.limits b!"a" b!"b", .names [(b!"a", .ref (rf 10)), (b!"b", .int 7)]]))
  · simp [Tree.pairs, Tree.Encloses, Tree.lo, Tree.hi, bytesLe]
  · nmd_has (.val (NameTree.prog [.limits b!"c" b!"d", .names [(b!"d", .ref (rf 11))]]))
  · simp [Tree.pairs, Tree.Encloses, Tree.lo, Tree.hi, bytesLe]

def nmdValues : List (Bytes × Body) :=
  [(b!"a", .val (.prim (.bool true))), (b!"b", .val (.prim (.int 7))), (b!"d", .stream (Stream.entries []) b!"endobj")]

theorem nmdValues_ok : NamedAre (pdfItems nmdDoc) nmdTree.pairs nmdValues :=
  .cons ⟨rfl, .object (by nmd_has (.val (.prim (.bool true))))⟩ (.cons ⟨rfl, .direct (by simp)⟩
    (.cons ⟨rfl, .object (by nmd_has (.stream (Stream.entries []) b!"endobj"))⟩ .nil))

/-- C82 applies to the document. -/
example (unf : Val → Bytes → Option Bytes) (p : Pdf) (w : Finishing) (bytes : Bytes) (hr : nmdDoc.run = some p) (hf : w.run p = some bytes)
    (hids : ∀ r ∈ docIds nmdDoc ++ w.ids, r.get < 2147483647) (hlen : w.Fits p bytes) (hu : w.Undone unf) :
    (∃ xs, fileNamed unf bytes .renditions 2 = some xs ∧ Pairwise (fun v x => x.1 = v.1 ∧ BodyDenotes v.2 x.2) nmdValues xs) ∧
    (∃ x, fileNamedAs unf bytes .renditions 2 b!"d" = some x ∧ BodyDenotes (.stream (Stream.entries []) b!"endobj") x) ∧
    fileNamedAs unf bytes .renditions 2 b!"c" = none ∧ fileNamed unf bytes .dests 2 = some [] := by
  have hn : NoCall (CatalogMeans .code) b!"Type" nmdCat := noCall_keys (calls := nmdCat) rfl
  have hs : NamesSet nmdCat .renditions (some nmdTree.calls) := ⟨some nmdNames, rfl, rfl⟩
  have k := C82_find unf nmdDoc p w bytes hr hf hids hlen hu (rf 1) rfl nmdCat nmdCat_ok hn .renditions nmdTree hs nmdTree_ok 2 (by decide) nmdValues nmdValues_ok
  exact ⟨C82_list unf nmdDoc p w bytes hr hf hids hlen hu (rf 1) rfl nmdCat nmdCat_ok hn .renditions nmdTree hs (linked_of_written _ nmdTree_ok) 2 (by decide)
      nmdValues nmdValues_ok,
    k.1 (b!"d", .stream (Stream.entries []) b!"endobj") (by simp [nmdValues]), k.2 _ (by simp [nmdValues]),
    (C82_unset unf nmdDoc p w bytes hr hf hids hlen hu (rf 1) rfl nmdCat nmdCat_ok hn .dests ⟨some nmdNames, rfl, noCall_keys (calls := nmdNames) rfl⟩ 2).1⟩

/-- A short description of an object. -/
def nmdShow : IVal → Bytes
  | .val (.bool b) => if b then b!"true" else b!"false"
  | .val (.int i) => [UInt8.ofNat i.toNat]
  | .stream _ data => data
  | _ => []

/-- The file can be finished and is short enough, and this is read from it. -/
example : ((nmdDoc.run.bind fun p => p.finish).bind fun b => if b.length < 10 ^ 10 then
      (fileNamed (fun _ _ => none) b .renditions 2).map (fun xs => xs.map fun x => (x.1, nmdShow x.2)) else none) =
    some [(b!"a", b!"true"), (b!"b", [7]), (b!"d", b!"endobj")] := by
  rw [← fastRun_eq]
  decide +kernel
example : ((nmdDoc.run.bind fun p => p.finish).bind fun b => (fileNamedAs (fun _ _ => none) b .templates 1 b!"x").map nmdShow) = some b!"endobj" := by
  rw [← fastRun_eq]
  decide +kernel

end PdfW.Props
