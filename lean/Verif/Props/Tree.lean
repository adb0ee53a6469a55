import Verif.Proof.Tree
import Verif.Props.Order

set_option linter.unusedSimpArgs false
set_option linter.unusedVariables false

/-!
# C50: number trees and name trees over several nodes

Look-ups in the finished file, through any number of levels of nodes: every key that was inserted is found with its value, every
other key is not found. For name trees this needs a reader that accepts names as limits: `NameTree::limits` writes names where
the standard asks for strings, so that a reader that follows the standard finds nothing in a name tree with more than one node.
-/

namespace PdfW.Props
open PdfW Spec

theorem finds_of {unf : Val → Bytes → Option Bytes} {h : PdfHist} {p : Pdf} {w : Finishing} {bytes : Bytes} (hr : h.run = some p)
    (hf : w.run p = some bytes) (hids : ∀ r ∈ docIds h ++ w.ids, r.get < 2147483647) (hlen : w.Fits p bytes) (hu : w.Undone unf) :
    ∃ f, readFile unf bytes = some f ∧ Finds f bytes (pdfItems h) ∧ ∀ cid, catalogId h = some cid → lookup b!"Root" f.trailer = some (.ref cid.get.toNat 0) := by
  obtain ⟨f, h1, h2, h3, -⟩ := finishing_exact unf h p w bytes hr hf hids hlen hu
  refine ⟨f, h1, fun it hit hok => ⟨_, h3 it hit hok, bodyVal_denotes it hok⟩, ?_⟩
  intro cid hc
  rw [← lookup_only' (keys := [b!"Size", b!"Root", b!"Info", b!"ID"]) (by decide), h2]
  simp only [wantedTrailer, hc, lookup, List.filter_append, Option.toList_some, List.map_cons, List.map_nil]
  have h1 : List.filter (fun e : Bytes × Val => e.1 == b!"Root") ((infoId h).toList.map fun r => (b!"Info", Val.ref r.get.toNat 0)) = [] := by
    cases infoId h <;> rfl
  have h2 : List.filter (fun e : Bytes × Val => e.1 == b!"Root") ((fileId h).toList.map fun i => (b!"ID", Val.arr [.str i.1, .str i.2])) = [] := by
    cases fileId h <;> rfl
  rw [h1, h2]
  rfl

section
variable (unf : Val → Bytes → Option Bytes) (h : PdfHist) (p : Pdf) (w : Finishing) (bytes : Bytes) (hr : h.run = some p)
  (hf : w.run p = some bytes) (hids : ∀ r ∈ docIds h ++ w.ids, r.get < 2147483647) (hlen : w.Fits p bytes) (hu : w.Undone unf)
include hr hf hids hlen hu

/-- C50: a number tree whose root is an indirect object. -/
theorem C50_number_tree (t : Tree NumberTreeCall Int) (hroot : HasObject (pdfItems h) t.id (.val (NumberTree.prog t.calls)))
    (hw : t.Written numberApi (fun a b => decide (a ≤ b)) b!"Nums" (pdfItems h)) (depth : Nat) (hd : t.depth ≤ depth) :
    ∃ f d, readFile unf bytes = some f ∧ f.object bytes t.id.get.toNat = some (.val (.dict d)) ∧
      FindsExactly (numberTrees.search f bytes depth d) t.pairs := by
  obtain ⟨f, h1, hfi, -⟩ := finds_of hr hf hids hlen hu
  obtain ⟨v, ho, hv⟩ := finds_val hfi hroot
  obtain ⟨d, rfl, he⟩ := numberTree_denotes t.calls v hv
  exact ⟨f, d, h1, ho, tree_search numberTree_ok hfi t hw depth hd d he⟩

/-- C50: the page labels of a document: a number tree whose root is part of the catalog. -/
theorem C50_page_labels (cid : Ref) (hc : catalogId h = some cid) (cat : List CatalogCall)
    (hcat : HasObject (pdfItems h) cid (.val (Catalog.prog cat))) (t : Tree NumberTreeCall Int)
    (ho : OnlyCall (CatalogMeans .code) b!"PageLabels" cat (.pageLabels t.calls))
    (hw : t.Written numberApi (fun a b => decide (a ≤ b)) b!"Nums" (pdfItems h)) (depth : Nat) (hd : t.depth ≤ depth) :
    ∃ f cd d, readFile unf bytes = some f ∧ lookup b!"Root" f.trailer = some (.ref cid.get.toNat 0) ∧
      f.object bytes cid.get.toNat = some (.val (.dict cd)) ∧ lookup b!"PageLabels" cd = some (.dict d) ∧
      FindsExactly (numberTrees.search f bytes depth d) t.pairs := by
  obtain ⟨f, h1, hfi, hrt⟩ := finds_of hr hf hids hlen hu
  obtain ⟨v, hob, hv⟩ := finds_val hfi hcat
  obtain ⟨cd, rfl, he⟩ := catalog_denotes .code cat (Or.inl rfl) v hv
  have hfil : (CatalogEntries .code cat).filter (fun e => e.1 == b!"PageLabels") = [(b!"PageLabels", IsNumberTree t.calls)] := by
    simp only [CatalogEntries, List.filter_append, onlyCall_filter ho]
    rfl
  obtain ⟨v, hl, d, rfl, hde⟩ := lookup_of he hfil
  exact ⟨f, cd, d, h1, hrt cid hc, hob, hl, tree_search numberTree_ok hfi t hw depth hd d hde⟩

/-- C50: a name tree, for a reader that accepts names as limits. -/
theorem C50_name_tree_lenient (t : Tree NameTreeCall Bytes) (hroot : HasObject (pdfItems h) t.id (.val (NameTree.prog t.calls)))
    (hw : t.Written nameApi bytesLe b!"Names" (pdfItems h)) (depth : Nat) (hd : t.depth ≤ depth) :
    ∃ f d, readFile unf bytes = some f ∧ f.object bytes t.id.get.toNat = some (.val (.dict d)) ∧
      FindsExactly (lenientNameTrees.search f bytes depth d) t.pairs := by
  obtain ⟨f, h1, hfi, -⟩ := finds_of hr hf hids hlen hu
  obtain ⟨v, ho, hv⟩ := finds_val hfi hroot
  obtain ⟨d, rfl, he⟩ := nameTree_denotes .code t.calls (Or.inl rfl) v hv
  exact ⟨f, d, h1, ho, tree_search nameTree_ok hfi t hw depth hd d he⟩

/-- C50: a name tree of one node, for a reader that follows the standard. -/
theorem C50_name_tree_single (id : Ref) (calls : List NameTreeCall) (pairs : List (Bytes × Prim))
    (hroot : HasObject (pdfItems h) id (.val (NameTree.prog calls))) (ho : OnlyCall (NameTreeMeans .code) b!"Names" calls (.names pairs))
    (hn : (pairs.map (·.1)).Nodup) :
    ∃ f d, readFile unf bytes = some f ∧ f.object bytes id.get.toNat = some (.val (.dict d)) ∧
      FindsExactly (nameTrees.search f bytes 1 d) pairs := by
  obtain ⟨f, h1, hfi, -⟩ := finds_of hr hf hids hlen hu
  obtain ⟨v, hob, hv⟩ := finds_val hfi hroot
  obtain ⟨d, rfl, he⟩ := nameTree_denotes .code calls (Or.inl rfl) v hv
  have hfil : (NameTreeEntries .code calls).filter (fun e => e.1 == b!"Names") =
      [(b!"Names", ArrayIs (pairs.flatMap fun e => [IsStr e.1, PrimDenotes e.2]))] := by
    rw [show NameTreeEntries .code calls = calls.flatMap (NameTreeMeans .code) from rfl, onlyCall_filter ho]; rfl
  obtain ⟨v, hl, vs, rfl, hvs⟩ := lookup_of he hfil
  refine ⟨f, d, h1, hob, ?_⟩
  have hs : nameTrees.search f bytes 1 d = fun k => nameTrees.find k vs := by
    funext k
    simp only [TreeKind.search]
    rw [if_neg (by rw [show nameTrees.leaf = b!"Names" from rfl, present_of he hfil]; decide), show nameTrees.leaf = b!"Names" from rfl, hl]
  rw [hs]
  exact find_pairs nameTrees pairs hn vs (pairs_imp pairs (fun e => IsStr e.1) _ (fun e => PrimDenotes e.2)
    (fun e v hv => by simp only [IsStr] at hv; subst hv; rfl) hvs)

/-- The defect (object.rs:1469): in a name tree with more than one node, a reader that follows the standard finds no key. -/
theorem C50_name_tree_limits_defect (id : Ref) (calls : List NameTreeCall) (lo hi : Bytes) (kids : List (Tree NameTreeCall Bytes))
    (hroot : HasObject (pdfItems h) id (.val (NameTree.prog calls)))
    (hw : (Tree.node id calls lo hi kids).Written nameApi bytesLe b!"Names" (pdfItems h)) (depth : Nat) :
    ∃ f d, readFile unf bytes = some f ∧ f.object bytes id.get.toNat = some (.val (.dict d)) ∧
      ∀ k, nameTrees.search f bytes depth d k = none := by
  obtain ⟨f, h1, hfi, -⟩ := finds_of hr hf hids hlen hu
  obtain ⟨v, hob, hv⟩ := finds_val hfi hroot
  obtain ⟨d, rfl, he⟩ := nameTree_denotes .code calls (Or.inl rfl) v hv
  refine ⟨f, d, h1, hob, ?_⟩
  intro k
  cases depth with
  | zero => rfl
  | succ n =>
    simp only [Tree.Written] at hw
    obtain ⟨w1, w2, -, w4⟩ := hw
    have hfil : (NameTreeEntries .code calls).filter (fun e => e.1 == b!"Kids") = [(b!"Kids", ArrayIs ((kids.map Tree.id).map fun x => IsRef x))] := by
      rw [show NameTreeEntries .code calls = calls.flatMap nameApi.means from rfl, onlyCall_filter w2]; rfl
    obtain ⟨v, hl, vs, rfl, hvs⟩ := lookup_of he hfil
    have hsel : ∀ ts : List (Tree NameTreeCall Bytes), (∀ t ∈ ts, t.Stored nameApi (pdfItems h)) →
        nameTrees.select f bytes k (ts.map fun t => t.id.get.toNat) = none := by
      intro ts hts
      induction ts with
      | nil => rfl
      | cons t ts ih =>
        obtain ⟨s1, s2⟩ := hts t (by simp)
        obtain ⟨v, hob, hv⟩ := finds_val hfi s1
        obtain ⟨d, rfl, he⟩ := nameTree_denotes .code t.calls (Or.inl rfl) v hv
        have hfil : (NameTreeEntries .code t.calls).filter (fun e => e.1 == b!"Limits") = [(b!"Limits", ArrayIs [IsName t.lo, IsName t.hi])] := by
          rw [show NameTreeEntries .code t.calls = t.calls.flatMap nameApi.means from rfl, onlyCall_filter s2]; rfl
        obtain ⟨v, hl, vs, rfl, a, ws, rfl, ha, b, ws', rfl, hb, hn⟩ := lookup_of he hfil
        simp only [ItemsAre] at hn
        simp only [IsName] at ha hb
        subst hn ha hb
        simp only [List.map_cons, TreeKind.select, hob, hl]
        rw [if_neg (by simp [TreeKind.within, nameTrees, strOf])]
        exact ih (fun t ht => hts t (by simp [ht]))
    simp only [TreeKind.search]
    rw [if_pos (show (d.all fun e => e.1 != nameTrees.leaf) = true from absent_of he (noCall_filter w1)), hl]
    simp only [refNumbers_of _ vs hvs, Option.bind_some, List.map_map, Function.comp_def, hsel kids (fun t ht => (treesWritten_mem w4 t ht).1), Option.bind_none]
end

/-! ## A tree that meets the hypotheses -/

/-- Two leaves under a node under the root. -/
def sampleNums : Tree NumberTreeCall Int :=
  .node (rf 9) [.kids [rf 5, rf 3]] 0 0
    [.leaf (rf 5) [.limits (-2) 4, .nums [(-2, .int 1), (4, .name b!"x")]] (-2) 4 [(-2, .int 1), (4, .name b!"x")],
     .node (rf 3) [.kids [rf 6], .limits 5 70] 5 70 [.leaf (rf 6) [.nums [(7, .bool true)], .limits 6 7] 6 7 [(7, .bool true)]]]

def sampleNumsDoc : PdfHist :=
  .call (.call (.call (.catalog (.new false) (rf 1) ([.pageLabels [.kids [rf 5, rf 3]]].flatMap CatalogCall.entries))
    (.indirect (rf 3) (NumberTree.prog [.kids [rf 6], .limits 5 70])))
    (.indirect (rf 5) (NumberTree.prog [.limits (-2) 4, .nums [(-2, .int 1), (4, .name b!"x")]])))
    (.extend (.call (.new true) (.indirect (rf 6) (NumberTree.prog [.nums [(7, .bool true)], .limits 6 7]))))

macro "nums_mem" : tactic => `(tactic| simp [sampleNumsDoc, pdfItems, callItems, chunkItems, chunkPretty, pdfPretty])
macro "nums_ok" : tactic => `(tactic| simp [ItemOk, numberApi, Tree.calls, NumberTree.prog, NumberTree.entries, NumberTreeCall.entries,
  Catalog.prog, Catalog.entries, CatalogCall.entries, pName, pRef, pInt, Ok, OkItems, OkEntries, PrimOk, NoClash, NoClashItems, NoClashEntries, isEmptyName])

theorem sampleNums_ok : sampleNums.Written numberApi (fun a b => decide (a ≤ b)) b!"Nums" (pdfItems sampleNumsDoc) := by
  simp only [sampleNums, Tree.Written, treesWritten]
  refine ⟨?_, rfl, ?_, ⟨⟨⟨rf 5, _, false⟩, ?_, rfl, rfl, ?_⟩, rfl⟩, ?_, ⟨rfl, by decide⟩, ⟨⟨⟨rf 3, _, false⟩, ?_, rfl, rfl, ?_⟩, rfl⟩, ?_,
    ⟨?_, rfl, by simp, ⟨⟨⟨rf 6, _, true⟩, ?_, rfl, rfl, ?_⟩, rfl⟩, ?_, ⟨rfl, by decide⟩, trivial⟩, trivial⟩
  · simp [NoCall, numberApi, NumberTreeMeans]
  · refine List.Pairwise.cons ?_ (List.pairwise_singleton _ _)
    intro t ht k
    rw [List.mem_singleton] at ht
    subst ht
    rintro ⟨⟨-, h2⟩, h3, -⟩
    have h2 : k ≤ (4 : Int) := of_decide_eq_true h2
    have h3 : (5 : Int) ≤ k := of_decide_eq_true h3
    omega
  · nums_mem; rfl
  · nums_ok
  · simp [Tree.pairs, Tree.Encloses, Tree.lo, Tree.hi]
  · nums_mem; rfl
  · nums_ok
  · simp [Tree.pairs, treesPairs, Tree.Encloses, Tree.lo, Tree.hi]
  · simp [NoCall, numberApi, NumberTreeMeans]
  · nums_mem; rfl
  · nums_ok
  · simp [Tree.pairs, Tree.Encloses, Tree.lo, Tree.hi]

example : HasObject (pdfItems sampleNumsDoc) (rf 1) (.val (Catalog.prog [.pageLabels sampleNums.calls])) ∧
    OnlyCall (CatalogMeans .code) b!"PageLabels" [.pageLabels sampleNums.calls] (.pageLabels sampleNums.calls) := by
  refine ⟨⟨⟨rf 1, _, false⟩, ?_, rfl, rfl, ?_⟩, rfl⟩
  · simp [sampleNumsDoc, pdfItems, callItems, chunkItems, chunkPretty, pdfPretty, Catalog.prog, Catalog.entries, pName]; rfl
  · simp [sampleNums, Tree.calls]; nums_ok

example : (sampleNumsDoc.run.bind Finishing.table.run).isSome = true := by decide +kernel

/-- A name tree of three nodes. -/
def sampleNames : Tree NameTreeCall Bytes :=
  .node (rf 9) [.kids [rf 5, rf 3]] [] []
    [.leaf (rf 5) [.limits b!"a" b!"b", .names [(b!"a", .int 1), (b!"b", .ref (rf 2))]] b!"a" b!"b" [(b!"a", .int 1), (b!"b", .ref (rf 2))],
     .leaf (rf 3) [.limits b!"c" b!"d", .names [(b!"d", .bool true)]] b!"c" b!"d" [(b!"d", .bool true)]]

def sampleNamesDoc : PdfHist :=
  .call (.call (.call (.new false) (.indirect (rf 9) (NameTree.prog [.kids [rf 5, rf 3]])))
    (.indirect (rf 3) (NameTree.prog [.limits b!"c" b!"d", .names [(b!"d", .bool true)]])))
    (.indirect (rf 5) (NameTree.prog [.limits b!"a" b!"b", .names [(b!"a", .int 1), (b!"b", .ref (rf 2))]]))

macro "names_mem" : tactic => `(tactic| simp [sampleNamesDoc, pdfItems, callItems, chunkItems, chunkPretty, pdfPretty])
macro "names_ok" : tactic => `(tactic| simp [ItemOk, nameApi, Tree.calls, NameTree.prog, NameTree.entries, NameTreeCall.entries,
  pName, pRef, pInt, pStr, Ok, OkItems, OkEntries, PrimOk, NoClash, NoClashItems, NoClashEntries, isEmptyName])

theorem bytesLe_trans {a b c : Bytes} (h1 : bytesLe a b = true) (h2 : bytesLe b c = true) : bytesLe a c = true := by
  induction a generalizing b c with
  | nil => rfl
  | cons x a ih =>
    cases b with
    | nil => simp [bytesLe] at h1
    | cons y b =>
      cases c with
      | nil => simp [bytesLe] at h2
      | cons z c =>
        simp only [bytesLe, Bool.or_eq_true, Bool.and_eq_true, decide_eq_true_eq, beq_iff_eq] at h1 h2 ⊢
        rcases h1 with h1 | ⟨rfl, h1⟩
        · rcases h2 with h2 | ⟨rfl, h2⟩
          · exact Or.inl (UInt8.lt_trans h1 h2)
          · exact Or.inl h1
        · rcases h2 with h2 | ⟨rfl, h2⟩
          · exact Or.inl h2
          · exact Or.inr ⟨rfl, ih h1 h2⟩

example : sampleNames.Written nameApi bytesLe b!"Names" (pdfItems sampleNamesDoc) ∧
    HasObject (pdfItems sampleNamesDoc) (rf 9) (.val (NameTree.prog sampleNames.calls)) := by
  constructor
  · simp only [sampleNames, Tree.Written, treesWritten]
    refine ⟨?_, rfl, ?_, ⟨⟨⟨rf 5, _, false⟩, ?_, rfl, rfl, ?_⟩, rfl⟩, ?_, ⟨rfl, by decide⟩, ⟨⟨⟨rf 3, _, false⟩, ?_, rfl, rfl, ?_⟩, rfl⟩, ?_, ⟨rfl, by decide⟩, trivial⟩
    · simp [NoCall, nameApi, NameTreeMeans]
    · refine List.Pairwise.cons ?_ (List.pairwise_singleton _ _)
      intro t ht k
      rw [List.mem_singleton] at ht
      subst ht
      rintro ⟨⟨-, h2⟩, h3, -⟩
      have : bytesLe b!"c" b!"b" = true := bytesLe_trans h3 h2
      exact absurd this (by decide)
    · names_mem; rfl
    · names_ok
    · simp [Tree.pairs, Tree.Encloses, Tree.lo, Tree.hi, bytesLe]
    · names_mem; rfl
    · names_ok
    · simp [Tree.pairs, Tree.Encloses, Tree.lo, Tree.hi, bytesLe]
  · refine ⟨⟨rf 9, _, false⟩, ?_, rfl, rfl, ?_⟩
    · names_mem; rfl
    · simp only [sampleNames]; names_ok

end PdfW.Props
