import Verif.Spec.History

/-!
# Recovering objects from a damaged or incomplete file

A reader for files whose end is missing or cannot be trusted: it uses neither `startxref` nor the cross-reference section,
but reads indirect objects one after another from the start of the file for as long as it can (ISO 32000-2, 7.5.1 and Annex C of
1.7 recommend readers to be able to reconstruct the cross-reference table in this way). It knows nothing about the writer.
-/

namespace PdfW.Spec
open PdfW

/-! ## The reader -/

/-- An indirect object that was found: number, generation, contents. -/
abbrev FoundObject := Int × Int × IVal

/-- Read objects one after another until something is not an indirect object. -/
def recoverFrom : Nat → Bytes → List FoundObject
  | 0, _ => []
  | fuel + 1, bs =>
    match readIndirect bs with
    | some (id, gen, v, rest) => (id, gen, v) :: recoverFrom fuel rest
    | none => []

/-- The objects at the start of a file. (The lines `%PDF-1.7` and the binary marker are comments, 7.2.4.) -/
def recover (file : Bytes) : List FoundObject := recoverFrom (file.length + 1) file

/-! ## What was asked for -/

/-- The objects found are those that were written, in this order. -/
inductive FoundAre : List Item → List FoundObject → Prop where
  | nil : FoundAre [] []
  | cons {it : Item} {v : IVal} {its : List Item} {vs : List FoundObject} (h : BodyDenotes it.body v) (hs : FoundAre its vs) :
    FoundAre (it :: its) ((it.id.get, 0, v) :: vs)

/-- A marker that stays within its comment line: no line feed and no carriage return. -/
def LineMarker (m : UInt8 × UInt8 × UInt8 × UInt8) : Prop :=
  ∀ b ∈ [m.1, m.2.1, m.2.2.1, m.2.2.2], b ≠ 0x0A ∧ b ≠ 0x0D

mutual
/-- Every marker passed to `set_binary_marker`, also on documents that were copied into this one, stays within its line. -/
def PdfMarkers : PdfHist → Prop
  | .new _ => True
  | .call h c => PdfMarkers h ∧ CallMarkers c
  | .setVersion h _ _ => PdfMarkers h
  | .setBinaryMarker h m => PdfMarkers h ∧ LineMarker m
  | .setFileId h _ => PdfMarkers h
  | .catalog h _ _ => PdfMarkers h
  | .documentInfo h _ _ => PdfMarkers h
termination_by structural h => h
def CallMarkers : ChunkCall → Prop
  | .indirect _ _ | .stream _ _ _ | .mergeLimits _ | .renumberFrom _ _ _ _ => True
  | .extend o => ChunkMarkers o
termination_by structural c => c
def ChunkMarkers : ChunkHist → Prop
  | .new _ => True
  | .ofPdf p => PdfMarkers p
  | .call h c => ChunkMarkers h ∧ CallMarkers c
termination_by structural h => h
end

/-- `h` continues `h'` with further calls: the document was in the state `h'` before. -/
inductive Continues : PdfHist → PdfHist → Prop where
  | refl (h) : Continues h h
  | call {h' h} (c) (k : Continues h' h) : Continues h' (.call h c)
  | setVersion {h' h} (a b) (k : Continues h' h) : Continues h' (.setVersion h a b)
  | setBinaryMarker {h' h} (m) (k : Continues h' h) : Continues h' (.setBinaryMarker h m)
  | setFileId {h' h} (id) (k : Continues h' h) : Continues h' (.setFileId h id)
  | catalog {h' h} (id es) (k : Continues h' h) : Continues h' (.catalog h id es)
  | documentInfo {h' h} (id es) (k : Continues h' h) : Continues h' (.documentInfo h id es)

end PdfW.Spec
