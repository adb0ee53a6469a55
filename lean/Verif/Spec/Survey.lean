import Verif.Spec.Limits
import Verif.Spec.File
import Verif.Spec.Content

/-!
# Surveying a file for implementation limits (ISO 32000-1, Annex C; PDF/A-1, 6.1.12)

What a conformance checker does: it goes through all objects of a file and looks at every value in them, however deep. It knows
nothing about the writer.
-/

namespace PdfW.Spec
open PdfW

mutual
/-- A value, the values in it, and the keys in it (as names). -/
def inside : Val → List Val
  | .arr vs => .arr vs :: insideAll vs
  | .dict es => .dict es :: insideEntries es
  | v => [v]
termination_by structural v => v
def insideAll : List Val → List Val
  | [] => []
  | v :: vs => inside v ++ insideAll vs
termination_by structural vs => vs
def insideEntries : List (Bytes × Val) → List Val
  | [] => []
  | (k, v) :: es => .name k :: (inside v ++ insideEntries es)
termination_by structural es => es
end

/-- The values in an indirect object; for a stream, those in its dictionary. -/
def insideObject : IVal → List Val
  | .val v => inside v
  | .stream d _ => inside (.dict d)

/-- What a value counts as. Whole numbers that are not 32-bit integers count as reals; references count as integers. -/
def CountsAs : Val → Fact → Prop
  | .int i, x => (-2147483648 ≤ i ∧ i ≤ 2147483647 ∧ x = .int i) ∨ (¬ (-2147483648 ≤ i ∧ i ≤ 2147483647) ∧ ∃ y, NumIs y (.int i) ∧ x = .real y)
  | .real m s, x => ∃ y, NumIs y (.real m s) ∧ x = .real y
  | .str s, x => x = .str s.length
  | .name n, x => x = .name n.length
  | .arr vs, x => x = .arr vs.length
  | .dict es, x => x = .dict es.length
  | .ref n _, x => x = .int n
  | .null, _ => False
  | .bool _, _ => False

/-- What a checker comes across in a file, leaving out the objects with numbers in `skip`: object numbers and values. -/
def Encountered (f : FileEnd) (file : Bytes) (skip : List Nat) (x : Fact) : Prop :=
  ∃ n o, n ∉ skip ∧ f.object file n = some o ∧ (x = .int n ∨ ∃ v ∈ insideObject o, CountsAs v x)

/-- What a checker comes across in the operands of a content stream. -/
def EncounteredIn (ops : List ReadOp) (x : Fact) : Prop := ∃ op ∈ ops, ∃ v ∈ insideAll op.2, CountsAs v x

/-- Nothing that the checker comes across is larger than reported. Strings are counted in UTF-8 and written in UTF-16 if they
are not ASCII, dates (of at most 22 bytes) are not counted, and the least 32-bit integer is not. -/
def NotExceeded (l : Limits) : Fact → Prop
  | .name k => k ≤ l.nameLen
  | .str k => k ≤ 2 * l.strLen + 2 ∨ k ≤ 22
  | .arr k => k ≤ l.arrayLen
  | .dict k => k ≤ l.dictEntries
  | .int i => i = -2147483648 ∨ i.natAbs ≤ l.int.natAbs
  | .real x => x.mag.val ≤ l.real.mag.val

/-- The limits are the largest that the checker comes across (strings aside). -/
structure Attained (l : Limits) (seen : Fact → Prop) : Prop where
  name : IsMax (fun k => seen (.name k)) l.nameLen
  arr : IsMax (fun k => seen (.arr k)) l.arrayLen
  dict : IsMax (fun k => seen (.dict k)) l.dictEntries
  int : 0 ≤ l.int ∧ IsMax (fun k => ∃ i, seen (.int i) ∧ i ≠ -2147483648 ∧ i.natAbs = k) l.int.natAbs
  real : l.real.neg = false ∧ IsMax (fun k => ∃ x, seen (.real x) ∧ x.mag.val = k) l.real.mag.val

mutual
/-- Without renumbering and without limits merged by hand. -/
def DirectChunk : ChunkHist → Prop
  | .new _ => True
  | .ofPdf p => DirectPdf p
  | .call h c => DirectChunk h ∧ DirectCall c
termination_by structural h => h
def DirectCall : ChunkCall → Prop
  | .indirect _ _ => True
  | .stream _ _ _ => True
  | .extend o => DirectChunk o
  | .mergeLimits _ => False
  | .renumberFrom _ _ _ _ => False
termination_by structural c => c
def DirectPdf : PdfHist → Prop
  | .new _ => True
  | .call h c => DirectPdf h ∧ DirectCall c
  | .setVersion h _ _ => DirectPdf h
  | .setBinaryMarker h _ => DirectPdf h
  | .setFileId h _ => DirectPdf h
  | .catalog h _ _ => DirectPdf h
  | .documentInfo h _ _ => DirectPdf h
termination_by structural h => h
end

mutual
/-- Strings are given as bytes: no text strings and no dates. -/
def ByteStrings : Prog → Prop
  | .prim p => (∀ t, p ≠ .textStr t) ∧ (∀ t, p ≠ .textStrLang t) ∧ (∀ d, p ≠ .date d)
  | .array items => ByteStringsItems items
  | .dict entries => ByteStringsEntries entries
  | .unused => True
termination_by structural p => p
def ByteStringsItems : List Prog → Prop
  | [] => True
  | x :: xs => ByteStrings x ∧ ByteStringsItems xs
termination_by structural p => p
def ByteStringsEntries : List (Bytes × Prog) → Prop
  | [] => True
  | (_, x) :: xs => ByteStrings x ∧ ByteStringsEntries xs
termination_by structural p => p
end

/-- Strings in the contents of an object are given as bytes. -/
def ByteStringsBody : Body → Prop
  | .val p => ByteStrings p
  | .stream es _ => ByteStringsEntries es

end PdfW.Spec
