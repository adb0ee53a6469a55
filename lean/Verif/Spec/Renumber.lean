import Verif.Model.Object

/-!
# Renumbering the arguments of the API

The tree of calls with every indirect reference replaced, visiting the references in the order in which they are
written and threading the state of the closure.
-/

namespace PdfW.Spec
open PdfW

/-- Renumber one primitive. -/
def mapPrim {σ : Type} (m : σ → Ref → Ref × σ) : Prim → σ → Prim × σ
  | .ref r, s => ((.ref (m s r).1), (m s r).2)
  | p, s => (p, s)

mutual
/-- Renumber a tree, in writing order. -/
def mapProg {σ : Type} (m : σ → Ref → Ref × σ) : Prog → σ → Prog × σ
  | .prim p, s => (.prim (mapPrim m p s).1, (mapPrim m p s).2)
  | .array items, s => (.array (mapItems m items s).1, (mapItems m items s).2)
  | .dict entries, s => (.dict (mapEntries m entries s).1, (mapEntries m entries s).2)
  | .unused, s => (.unused, s)
termination_by structural p => p
def mapItems {σ : Type} (m : σ → Ref → Ref × σ) : List Prog → σ → List Prog × σ
  | [], s => ([], s)
  | x :: xs, s => ((mapProg m x s).1 :: (mapItems m xs (mapProg m x s).2).1, (mapItems m xs (mapProg m x s).2).2)
termination_by structural p => p
def mapEntries {σ : Type} (m : σ → Ref → Ref × σ) : List (Bytes × Prog) → σ → List (Bytes × Prog) × σ
  | [], s => ([], s)
  | (k, x) :: xs, s =>
    ((k, (mapProg m x s).1) :: (mapEntries m xs (mapProg m x s).2).1, (mapEntries m xs (mapProg m x s).2).2)
termination_by structural p => p
end

mutual
/-- The references in a tree, in writing order. -/
def progRefs : Prog → List Ref
  | .prim (.ref r) => [r]
  | .prim _ => []
  | .array items => itemsRefs items
  | .dict entries => entriesRefs entries
  | .unused => []
termination_by structural p => p
def itemsRefs : List Prog → List Ref
  | [] => []
  | x :: xs => progRefs x ++ itemsRefs xs
termination_by structural p => p
def entriesRefs : List (Bytes × Prog) → List Ref
  | [] => []
  | (_, x) :: xs => progRefs x ++ entriesRefs xs
termination_by structural p => p
end

mutual
/-- The same tree up to indirect references: same shape, same keys, and every primitive that is not a reference is
the very same. -/
def SameButRefs : Prog → Prog → Prop
  | .prim (.ref _), q => ∃ r, q = .prim (.ref r)
  | .prim p, q => q = .prim p
  | .array items, q => ∃ items', q = .array items' ∧ SameButRefsItems items items'
  | .dict entries, q => ∃ entries', q = .dict entries' ∧ SameButRefsEntries entries entries'
  | .unused, q => q = .unused
termination_by structural p => p
def SameButRefsItems : List Prog → List Prog → Prop
  | [], ys => ys = []
  | x :: xs, ys => ∃ y ys', ys = y :: ys' ∧ SameButRefs x y ∧ SameButRefsItems xs ys'
termination_by structural p => p
def SameButRefsEntries : List (Bytes × Prog) → List (Bytes × Prog) → Prop
  | [], ys => ys = []
  | (k, x) :: xs, ys => ∃ y ys', ys = (k, y) :: ys' ∧ SameButRefs x y ∧ SameButRefsEntries xs ys'
termination_by structural p => p
end

/-- A closure that also records its arguments. -/
def logging {σ : Type} (m : σ → Ref → Ref × σ) : σ × List Ref → Ref → Ref × (σ × List Ref) :=
  fun s r => ((m s.1 r).1, ((m s.1 r).2, s.2 ++ [r]))

/-- Apply one closure after the other. -/
def andThen {σ τ : Type} (f : σ → Ref → Ref × σ) (g : τ → Ref → Ref × τ) : σ × τ → Ref → Ref × (σ × τ) :=
  fun s r => ((g s.2 (f s.1 r).1).1, ((f s.1 r).2, (g s.2 (f s.1 r).1).2))

end PdfW.Spec
