import Verif.Spec.Document

/-!
# Name trees and number trees over several nodes (ISO 32000-1, 7.9.6 and 7.9.7)

Looking up a key in a file, as the standard describes it: in a leaf among the pairs, in another node in the child whose limits
enclose the key.
-/

namespace PdfW.Spec
open PdfW

/-- What distinguishes the two kinds of trees: the key of the array in leaves, keys, limits and their order. -/
structure TreeKind (K : Type) where
  leaf : Bytes
  key : Val → Option K
  limit : Val → Option K
  le : K → K → Bool

/-- Do the limits enclose the key? -/
def TreeKind.within {K : Type} (T : TreeKind K) (a b : Val) (k : K) : Bool :=
  match T.limit a, T.limit b with
  | some lo, some hi => T.le lo k && T.le k hi
  | _, _ => false

/-- The value for a key in the array of a leaf: key, value, key, value, … -/
def TreeKind.find {K : Type} [DecidableEq K] (T : TreeKind K) (k : K) : List Val → Option Val
  | a :: v :: vs => if T.key a = some k then some v else T.find k vs
  | _ => none

/-- The child whose limits enclose the key. -/
def TreeKind.select {K : Type} (T : TreeKind K) (f : FileEnd) (file : Bytes) (k : K) : List Nat → Option (List (Bytes × Val))
  | [] => none
  | n :: ns =>
    match f.object file n with
    | some (.val (.dict d)) =>
      match lookup b!"Limits" d with
      | some (.arr [a, b]) => if T.within a b k then some d else T.select f file k ns
      | _ => none
    | _ => none

/-- Look up a key below a node; `depth` bounds the depth of the tree. -/
def TreeKind.search {K : Type} [DecidableEq K] (T : TreeKind K) (f : FileEnd) (file : Bytes) : Nat → List (Bytes × Val) → K → Option Val
  | 0, _, _ => none
  | depth + 1, d, k =>
    if d.all fun e => e.1 != T.leaf then
      match lookup b!"Kids" d with
      | some (.arr vs) => ((refNumbers vs).bind (T.select f file k)).bind fun d' => T.search f file depth d' k
      | _ => none
    else
      match lookup T.leaf d with
      | some (.arr vs) => T.find k vs
      | _ => none

/-- An integer. -/
def intOf : Val → Option Int
  | .int i => some i
  | _ => none
/-- A byte string. -/
def strOf : Val → Option Bytes
  | .str s => some s
  | _ => none
/-- A byte string or a name. -/
def strOrName : Val → Option Bytes
  | .str s => some s
  | .name n => some n
  | _ => none

/-- Byte strings in lexical order. -/
def bytesLe : Bytes → Bytes → Bool
  | [], _ => true
  | _ :: _, [] => false
  | a :: as, b :: bs => a < b || (a == b && bytesLe as bs)

/-- Number trees. -/
def numberTrees : TreeKind Int := ⟨b!"Nums", intOf, intOf, fun a b => decide (a ≤ b)⟩
/-- Name trees. -/
def nameTrees : TreeKind Bytes := ⟨b!"Names", strOf, strOf, bytesLe⟩
/-- Name trees, for a reader that also accepts names as limits (see defect 18 in DESIGN.md). -/
def lenientNameTrees : TreeKind Bytes := { nameTrees with limit := strOrName }

/-! ## The tree that was asked for -/

/-- The calls of a writer of tree nodes. -/
structure TreeApi (C K : Type) where
  means : C → List (Bytes × (Val → Prop))
  prog : List C → Prog
  pairs : List (K × Prim) → C
  kids : List Ref → C
  limits : K → K → C

/-- `NumberTree`. -/
def numberApi : TreeApi NumberTreeCall Int := ⟨NumberTreeMeans, NumberTree.prog, .nums, .kids, .limits⟩
/-- `NameTree`. -/
def nameApi : TreeApi NameTreeCall Bytes := ⟨NameTreeMeans .code, NameTree.prog, .names, .kids, .limits⟩

/-- A tree: calls on each node and the limits set on it (if it is not the root). -/
inductive Tree (C K : Type) where
  | leaf (id : Ref) (calls : List C) (lo hi : K) (pairs : List (K × Prim))
  | node (id : Ref) (calls : List C) (lo hi : K) (kids : List (Tree C K))

variable {C K : Type}

def Tree.id : Tree C K → Ref
  | .leaf id .. => id
  | .node id .. => id
def Tree.calls : Tree C K → List C
  | .leaf _ calls .. => calls
  | .node _ calls .. => calls
def Tree.lo : Tree C K → K
  | .leaf _ _ lo .. => lo
  | .node _ _ lo .. => lo
def Tree.hi : Tree C K → K
  | .leaf _ _ _ hi _ => hi
  | .node _ _ _ hi _ => hi

mutual
/-- All pairs in order. -/
def Tree.pairs : Tree C K → List (K × Prim)
  | .leaf _ _ _ _ ps => ps
  | .node _ _ _ _ kids => treesPairs kids
termination_by structural t => t
def treesPairs : List (Tree C K) → List (K × Prim)
  | [] => []
  | t :: ts => t.pairs ++ treesPairs ts
termination_by structural t => t
end

mutual
def Tree.depth : Tree C K → Nat
  | .leaf .. => 1
  | .node _ _ _ _ kids => 1 + treesDepth kids
termination_by structural t => t
def treesDepth : List (Tree C K) → Nat
  | [] => 0
  | t :: ts => Max.max t.depth (treesDepth ts)
termination_by structural t => t
end

/-- The key lies between the limits. -/
def Tree.Encloses (le : K → K → Bool) (t : Tree C K) (k : K) : Prop := le t.lo k = true ∧ le k t.hi = true

/-- The node was written as an indirect object with its limits. -/
def Tree.Stored (A : TreeApi C K) (items : List Item) (t : Tree C K) : Prop :=
  HasObject items t.id (.val (A.prog t.calls)) ∧ OnlyCall A.means b!"Limits" t.calls (A.limits t.lo t.hi)

mutual
/-- The tree was written, each node below the root as an object with limits that enclose its keys and do not overlap with those
of its siblings; no key occurs twice in a leaf. -/
def Tree.Written (A : TreeApi C K) (le : K → K → Bool) (leafKey : Bytes) (items : List Item) : Tree C K → Prop
  | .leaf _ calls _ _ ps => OnlyCall A.means leafKey calls (A.pairs ps) ∧ (ps.map (·.1)).Nodup
  | .node _ calls _ _ kids =>
    NoCall A.means leafKey calls ∧ OnlyCall A.means b!"Kids" calls (A.kids (kids.map Tree.id)) ∧
      kids.Pairwise (fun s t => ∀ k, ¬ (s.Encloses le k ∧ t.Encloses le k)) ∧ treesWritten A le leafKey items kids
termination_by structural t => t
def treesWritten (A : TreeApi C K) (le : K → K → Bool) (leafKey : Bytes) (items : List Item) : List (Tree C K) → Prop
  | [] => True
  | t :: ts => t.Stored A items ∧ (∀ e ∈ t.pairs, t.Encloses le e.1) ∧ t.Written A le leafKey items ∧ treesWritten A le leafKey items ts
termination_by structural t => t
end

/-- Every key that was inserted is found with its value, and no other key. -/
def FindsExactly [DecidableEq K] (search : K → Option Val) (pairs : List (K × Prim)) : Prop :=
  (∀ e ∈ pairs, ∃ v, search e.1 = some v ∧ PrimDenotes e.2 v) ∧ (∀ k, (∀ e ∈ pairs, e.1 ≠ k) → search k = none)

end PdfW.Spec
