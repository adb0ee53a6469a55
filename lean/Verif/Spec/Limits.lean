import Verif.Spec.History

/-!
# What the limits must be

`Limits` reports maxima over everything written. Here the things written are listed, from the arguments of the API
calls alone; the theorems say that each reported number is the maximum over the list.
-/

namespace PdfW.Spec
open PdfW

/-- Something written that the limits are about. -/
inductive Fact where
  /-- a name of this length -/
  | name (len : Nat)
  /-- a string of this length -/
  | str (len : Nat)
  /-- an array with this many items -/
  | arr (len : Nat)
  /-- a dictionary with this many entries -/
  | dict (len : Nat)
  /-- an integer -/
  | int (i : Int)
  /-- a number with a fractional part, or too large for an integer -/
  | real (x : F32)
deriving DecidableEq

/-- The `f32` is a whole number with absolute value at most `2^31`. -/
def wholeNumber (x : F32) : Option Int :=
  if F32.scaled x.mag.val % 2 ^ 149 = 0 ∧ F32.scaled x.mag.val / 2 ^ 149 ≤ 2147483648 then
    some (if x.neg then -((F32.scaled x.mag.val / 2 ^ 149 : Nat) : Int) else (F32.scaled x.mag.val / 2 ^ 149 : Nat))
  else none

/-- Whole numbers are written as integers (`2^31` as `i32::MAX`, which is the same `f32`). -/
def numFacts (x : F32) : List Fact :=
  match wholeNumber x with
  | some i => [.int (Min.min i 2147483647)]
  | none => [.real x]

/-- A primitive. For text strings the code counts UTF-8 bytes (of the text, plus the language codes and two), also
when it writes UTF-16; dates are strings but are not counted. -/
def primFacts : Prim → List Fact
  | .null | .bool _ | .date _ => []
  | .int v => [.int v]
  | .real x => numFacts x
  | .str s => [.str s.length]
  | .textStr t => [.str (String.ofList t).utf8ByteSize]
  | .textStrLang segs => [.str (segs.map fun s => (String.ofList s.2).utf8ByteSize + (if s.1.region.isSome then 4 else 2) + 2).sum]
  | .name n => [.name n.length]
  | .ref r => [.int r.get]
  | .rect r => numFacts r.x1 ++ numFacts r.y1 ++ numFacts r.x2 ++ numFacts r.y2 ++ [.arr 4]

mutual
/-- An object, with everything in it. An item or entry whose `Obj` was dropped unused counts for the length. -/
def progFacts : Prog → List Fact
  | .prim p => primFacts p
  | .array items => itemsFacts items ++ [.arr items.length]
  | .dict entries => entriesFacts entries ++ [.dict entries.length]
  | .unused => []
termination_by structural p => p
def itemsFacts : List Prog → List Fact
  | [] => []
  | x :: xs => progFacts x ++ itemsFacts xs
termination_by structural p => p
def entriesFacts : List (Bytes × Prog) → List Fact
  | [] => []
  | (k, x) :: xs => .name k.length :: (progFacts x ++ entriesFacts xs)
termination_by structural p => p
end

/-- The contents of an indirect object; a stream has the additional entry `/Length`. -/
def bodyFacts : Body → List Fact
  | .val p => progFacts p
  | .stream es data => .name 6 :: .int data.length :: (entriesFacts es ++ [.dict (es.length + 1)])

/-- An indirect object; its number counts as an integer. -/
def itemFacts (it : Item) : List Fact := .int it.id.get :: bodyFacts it.body

/-- The fields of a `Limits` value, as if they had been written. -/
def limitFacts (l : Limits) : List Fact :=
  [.int l.int, .real l.real, .name l.nameLen, .str l.strLen, .arr l.arrayLen, .dict l.dictEntries]

mutual
/-- Everything written by a history. Renumbering counts what the source chunk counted (including the old numbers),
and the new numbers. -/
def chunkFacts : ChunkHist → List Fact
  | .new _ => []
  | .ofPdf p => pdfFacts p
  | .call h c => chunkFacts h ++ callFacts c
termination_by structural h => h
def callFacts : ChunkCall → List Fact
  | .indirect id p => itemFacts ⟨id, .val p, true⟩
  | .stream id es data => itemFacts ⟨id, .stream es data, true⟩
  | .extend o => chunkFacts o
  | .mergeLimits l => limitFacts l
  | .renumberFrom source _ m s =>
    chunkFacts source ++ (callOrder (mapObjs m (chunkItems source) s).1).map fun r => .int r.get
termination_by structural c => c
def pdfFacts : PdfHist → List Fact
  | .new _ => []
  | .call h c => pdfFacts h ++ callFacts c
  | .setVersion h _ _ => pdfFacts h
  | .setBinaryMarker h _ => pdfFacts h
  | .setFileId h _ => pdfFacts h
  | .catalog h id es => pdfFacts h ++ itemFacts ⟨id, .val (.dict ((b!"Type", .prim (.name b!"Catalog")) :: es)), true⟩
  | .documentInfo h id es => pdfFacts h ++ itemFacts ⟨id, .val (.dict es), true⟩
termination_by structural h => h
end

/-- `n` is the largest element of `s`, or 0 if there is none. -/
def IsMax (s : Nat → Prop) (n : Nat) : Prop := (∀ k, s k → k ≤ n) ∧ (n = 0 ∨ s n)

/-- The limits are exact. `i32::MIN` is not counted (its absolute value is not an `i32`), nor is NaN. Non-NaN
magnitudes are ordered like their bit patterns. -/
structure Exact (l : Limits) (fs : List Fact) : Prop where
  name : IsMax (fun k => .name k ∈ fs) l.nameLen
  str : IsMax (fun k => .str k ∈ fs) l.strLen
  arr : IsMax (fun k => .arr k ∈ fs) l.arrayLen
  dict : IsMax (fun k => .dict k ∈ fs) l.dictEntries
  int : 0 ≤ l.int ∧ IsMax (fun k => ∃ i, .int i ∈ fs ∧ i ≠ -2147483648 ∧ i.natAbs = k) l.int.natAbs
  real : l.real.neg = false ∧ IsMax (fun k => ∃ x, .real x ∈ fs ∧ x.isNaN = false ∧ x.mag.val = k) l.real.mag.val

end PdfW.Spec
