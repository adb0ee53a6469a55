import Verif.Spec.History

/-!
# Merging chunks with the allocating closure of the documentation

`Chunk::renumber` documents one closure (chunk.rs:140-163): "map all old IDs to new consecutive IDs … by allocating a new ID for
each unique ID we have seen and memoizing this mapping in a hash map".
-/

namespace PdfW.Spec
open PdfW

/-- `|old| *map.entry(old).or_insert_with(|| alloc.bump())`, with the state `(alloc, map)`. When the allocator has no id left,
`bump` panics; the theorems exclude this case, and the value returned here then does not matter. -/
def memo : Mapping (Ref × List (Ref × Ref)) := fun s old =>
  match s.2.find? (·.1 == old) with
  | some e => (e.2, s)
  | none =>
    match s.1.bump with
    | some (new, alloc) => (new, (alloc, s.2 ++ [(old, new)]))
    | none => (s.1, s)

/-- The program `for chunk in chunks { let mut map = HashMap::new(); chunk.renumber_into(&mut pdf, …) }` with one allocator and
one map per chunk; the result is the document and the allocator. -/
def mergeInto (p : Pdf) : List Chunk → Ref → Pdf × Ref
  | [], alloc => (p, alloc)
  | c :: cs, alloc =>
    mergeInto { p with chunk := (c.renumberInto p.chunk memo (alloc, [])).1 } cs (c.renumberInto p.chunk memo (alloc, [])).2.1

/-- The distinct members of a list in the order of their first occurrence. -/
def firstSeen (l : List Nat) : List Nat := l.foldl (fun seen r => if r ∈ seen then seen else seen ++ [r]) []

/-- All object numbers that occur in a chunk — of its objects and in references, also to objects that are not in the chunk —
in writing order. -/
def occurring (h : ChunkHist) : List Nat := (callOrder (chunkItems h)).map (·.get.toNat)

/-- Consecutive new numbers, beginning with `start`. -/
def consecutive (start : Nat) (h : ChunkHist) (i : Nat) : Nat := start + (firstSeen (occurring h)).idxOf i

/-- The first number that is free after these chunks were numbered. -/
def nextFree (start : Nat) (hs : List ChunkHist) : Nat := start + (hs.map fun h => (firstSeen (occurring h)).length).sum

mutual
/-- Replace the object numbers of all references in a value. -/
def renameVal (f : Nat → Nat) : Val → Val
  | .ref id gen => .ref (f id) gen
  | .arr vs => .arr (renameVals f vs)
  | .dict es => .dict (renameEntries f es)
  | v => v
termination_by structural v => v
def renameVals (f : Nat → Nat) : List Val → List Val
  | [] => []
  | v :: vs => renameVal f v :: renameVals f vs
termination_by structural vs => vs
def renameEntries (f : Nat → Nat) : List (Bytes × Val) → List (Bytes × Val)
  | [] => []
  | (k, v) :: es => (k, renameVal f v) :: renameEntries f es
termination_by structural es => es
end

/-- Replace the object numbers of all references in an indirect object; the data of a stream stays. -/
def renameIVal (f : Nat → Nat) : IVal → IVal
  | .val v => .val (renameVal f v)
  | .stream d data => .stream (renameEntries f d) data

end PdfW.Spec
