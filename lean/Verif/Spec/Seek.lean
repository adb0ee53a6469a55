import Verif.Spec.Colors

/-!
# Finding a page by its number (ISO 32000-1, 7.7.3.2, Table 29)

A reader that wants only one page: it uses `Count` to skip over whole subtrees, and `Parent` to come back from a page to the
root. It knows nothing about the writer.
-/

namespace PdfW.Spec
open PdfW

/-! ## The reader -/

/-- The dictionary with this number. -/
def nodeDict (f : FileEnd) (file : Bytes) (n : Nat) : Option (List (Bytes × Val)) :=
  match f.object file n with
  | some (.val (.dict d)) => some d
  | _ => none

/-- A number of things. -/
def countOf : Val → Option Nat
  | .int i => if 0 ≤ i then some i.toNat else none
  | _ => none

/-- How many pages a node of the page tree stands for: one for a page, otherwise its `Count`. -/
def pagesBelow (f : FileEnd) (file : Bytes) (n : Nat) : Option Nat :=
  (nodeDict f file n).bind fun d => (requiredEntry b!"Type" d nameOf).bind fun t =>
    if t = b!"Page" then some 1 else if t = b!"Pages" then requiredEntry b!"Count" d countOf else none

/-- The kid that contains the page number `k`, and its number within this kid. -/
def pickKid (size : Nat → Option Nat) : List Nat → Nat → Option (Nat × Nat)
  | [], _ => none
  | n :: ns, k => (size n).bind fun s => if k < s then some (n, k) else pickKid size ns (k - s)

/-- The object numbers in an array of references. -/
def kidsOf : Val → Option (List Nat)
  | .arr vs => refNumbers vs
  | _ => none

/-- The object number of the `k`th page (from 0) below a node: only one kid of every node is entered. -/
def seekPage (f : FileEnd) (file : Bytes) : Nat → Nat → Nat → Option Nat
  | 0, _, _ => none
  | depth + 1, n, k =>
    (nodeDict f file n).bind fun d => (requiredEntry b!"Type" d nameOf).bind fun t =>
      if t = b!"Page" then (if k = 0 then some n else none)
      else if t = b!"Pages" then
        (requiredEntry b!"Kids" d kidsOf).bind fun kids => (pickKid (pagesBelow f file) kids k).bind fun x =>
          seekPage f file depth x.1 x.2
      else none

/-- The nodes above a node, from its parent to the root. -/
def nodesAbove (f : FileEnd) (file : Bytes) : Nat → Nat → Option (List Nat)
  | 0, _ => none
  | depth + 1, n =>
    (nodeDict f file n).bind fun d => (optionalEntry b!"Parent" d refNumber).bind fun p =>
      match p with
      | none => some []
      | some p => (nodesAbove f file depth p).map (p :: ·)

/-- The root of the page tree. -/
def pageRoot (unf : Val → Bytes → Option Bytes) (file : Bytes) : Option (FileEnd × Nat) :=
  (readFile unf file).bind fun f => (readCatalog f file).bind fun d => (requiredEntry b!"Pages" d refNumber).map fun n => (f, n)

/-- The number of pages that a file claims to have. -/
def pageCount (unf : Val → Bytes → Option Bytes) (file : Bytes) : Option Nat :=
  (pageRoot unf file).bind fun r => pagesBelow r.1 file r.2

/-- A page that was looked for: its object number, its dictionary and the nodes above it. -/
structure FoundPage where
  number : Nat
  dict : List (Bytes × Val)
  above : List Nat

/-- The `k`th page of a file. -/
def findPage (unf : Val → Bytes → Option Bytes) (file : Bytes) (depth k : Nat) : Option FoundPage :=
  (pageRoot unf file).bind fun r => (seekPage r.1 file depth r.2 k).bind fun n =>
    (nodeDict r.1 file n).bind fun d => (nodesAbove r.1 file depth n).map fun up => ⟨n, d, up⟩

/-! ## The page tree that was asked for -/

mutual
/-- Every page, in order: its id, the calls on it, and the ids of the nodes above it, from its parent to the root. -/
def PageTree.routes : PageTree → List (Ref × List PageCall × List Ref)
  | .page id calls _ => [(id, calls, [])]
  | .node id _ kids => (routesList kids).map fun r => (r.1, r.2.1, r.2.2 ++ [id])
termination_by structural t => t
def routesList : List PageTree → List (Ref × List PageCall × List Ref)
  | [] => []
  | t :: ts => t.routes ++ routesList ts
termination_by structural t => t
end

mutual
/-- Every node has the right count, and every node and page but the root has its parent. -/
def PageTree.Counted : Option Ref → PageTree → Prop
  | parent, .page _ calls _ => MaybeCall (PageMeans .code) b!"Parent" calls parent .parent
  | parent, .node id calls kids =>
    MaybeCall PagesMeans b!"Parent" calls parent .parent ∧
      OnlyCall PagesMeans b!"Count" calls (.count (pagesList kids).length) ∧ countedList (some id) kids
termination_by structural _ t => t
def countedList : Option Ref → List PageTree → Prop
  | _, [] => True
  | parent, t :: ts => t.Counted parent ∧ countedList parent ts
termination_by structural _ t => t
end

end PdfW.Spec
