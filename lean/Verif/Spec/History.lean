import Verif.Model.History
import Verif.Spec.Renumber
import Verif.Spec.Denotes
import Verif.Spec.Reader

/-!
# What the calls on a chunk or a document were asked to write

Computed from the arguments of the calls only; no bytes are involved.
-/

namespace PdfW.Spec
open PdfW

/-- The contents of an indirect object. -/
inductive Body where
  | val (p : Prog)
  /-- a stream: entries given by the caller (besides `/Length`) and data -/
  | stream (entries : List (Bytes × Prog)) (data : Bytes)

/-- An indirect object; `pretty` is the mode in which it was spelled (which only matters for the one case in which
compact output is ambiguous, see C10). -/
structure Item where
  id : Ref
  body : Body
  pretty : Bool

/-! ## Renumbering -/

def mapBody {σ : Type} (m : σ → Ref → Ref × σ) : Body → σ → Body × σ
  | .val p, s => (.val (mapProg m p s).1, (mapProg m p s).2)
  | .stream es data, s => (.stream (mapEntries m es s).1 data, (mapEntries m es s).2)

/-- First the id, then the references in the contents, in order. -/
def mapItem {σ : Type} (m : σ → Ref → Ref × σ) (it : Item) (s : σ) : Item × σ :=
  ({ id := (m s it.id).1, body := (mapBody m it.body (m s it.id).2).1, pretty := it.pretty }, (mapBody m it.body (m s it.id).2).2)

/-- Something was written: the object is not just an `Obj` dropped unused. -/
def started : Body → Bool
  | .val .unused => false
  | _ => true

/-- Object by object. An object of which nothing was written is left out, but the closure is called for its id. -/
def mapObjs {σ : Type} (m : σ → Ref → Ref × σ) : List Item → σ → List Item × σ
  | [], s => ([], s)
  | it :: its, s =>
    if started it.body then ((mapItem m it s).1 :: (mapObjs m its (mapItem m it s).2).1, (mapObjs m its (mapItem m it s).2).2)
    else mapObjs m its (m s it.id).2

/-- The references in the contents of an object, in writing order. -/
def bodyRefs : Body → List Ref
  | .val p => progRefs p
  | .stream es _ => entriesRefs es

/-- The order in which a renumbering closure must be called. -/
def callOrder : List Item → List Ref
  | [] => []
  | it :: its => it.id :: (bodyRefs it.body ++ callOrder its)

/-- The same contents up to references; stream data is the very same. -/
def SameBodyButRefs : Body → Body → Prop
  | .val p, .val q => SameButRefs p q
  | .stream es data, .stream es' data' => data' = data ∧ SameButRefsEntries es es'
  | _, _ => False

/-- Write objects directly into a chunk, through `indirect` and `stream`; `none` is a panic. -/
def writeItem (it : Item) (c : Chunk) : Option Chunk :=
  match it.body with
  | .val p => some (c.writeIndirect it.id p)
  | .stream es data => c.writeStream it.id es data

def writeItems : List Item → Chunk → Option Chunk
  | [], c => some c
  | it :: its, c => match writeItem it c with | some c => writeItems its c | none => none

/-! ## The objects written by a history -/

mutual
/-- The settings of a chunk never change. -/
def chunkPretty : ChunkHist → Bool
  | .new pretty => pretty
  | .ofPdf p => pdfPretty p
  | .call h _ => chunkPretty h
termination_by structural h => h
def pdfPretty : PdfHist → Bool
  | .new pretty => pretty
  | .call h _ => pdfPretty h
  | .setVersion h _ _ => pdfPretty h
  | .setBinaryMarker h _ => pdfPretty h
  | .setFileId h _ => pdfPretty h
  | .catalog h _ _ => pdfPretty h
  | .documentInfo h _ _ => pdfPretty h
termination_by structural h => h
end

mutual
/-- Objects in writing order. -/
def chunkItems : ChunkHist → List Item
  | .new _ => []
  | .ofPdf p => pdfItems p
  | .call h c => chunkItems h ++ callItems c (chunkPretty h)
termination_by structural h => h
def callItems : ChunkCall → Bool → List Item
  | .indirect id p, pretty => [⟨id, .val p, pretty⟩]
  | .stream id es data, pretty => [⟨id, .stream es data, pretty⟩]
  | .extend o, _ => chunkItems o
  | .mergeLimits _, _ => []
  | .renumberFrom source _ m s, _ => (mapObjs m (chunkItems source) s).1
termination_by structural c => c
def pdfItems : PdfHist → List Item
  | .new _ => []
  | .call h c => pdfItems h ++ callItems c (pdfPretty h)
  | .setVersion h _ _ => pdfItems h
  | .setBinaryMarker h _ => pdfItems h
  | .setFileId h _ => pdfItems h
  | .catalog h id es => pdfItems h ++ [⟨id, .val (.dict ((b!"Type", .prim (.name b!"Catalog")) :: es)), pdfPretty h⟩]
  | .documentInfo h id es => pdfItems h ++ [⟨id, .val (.dict es), pdfPretty h⟩]
termination_by structural h => h
end

/-! ## What was set on a document -/

/-- The version: each of the two numbers is the last one below ten that was set. -/
def version : PdfHist → UInt8 × UInt8
  | .new _ => (1, 7)
  | .setVersion h a b => (if a < 10 then a else (version h).1, if b < 10 then b else (version h).2)
  | .call h _ | .setBinaryMarker h _ | .setFileId h _ | .catalog h _ _ | .documentInfo h _ _ => version h

/-- The marker bytes set last. -/
def marker : PdfHist → UInt8 × UInt8 × UInt8 × UInt8
  | .new _ => (0x80, 0x80, 0x80, 0x80)
  | .setBinaryMarker _ m => m
  | .call h _ | .setVersion h _ _ | .setFileId h _ | .catalog h _ _ | .documentInfo h _ _ => marker h

/-- The file identifier set last. -/
def fileId : PdfHist → Option (Bytes × Bytes)
  | .new _ => none
  | .setFileId _ id => some id
  | .call h _ | .setVersion h _ _ | .setBinaryMarker h _ | .catalog h _ _ | .documentInfo h _ _ => fileId h

/-- The id given to `catalog` last. -/
def catalogId : PdfHist → Option Ref
  | .new _ => none
  | .catalog _ id _ => some id
  | .call h _ | .setVersion h _ _ | .setBinaryMarker h _ | .setFileId h _ | .documentInfo h _ _ => catalogId h

/-- The id given to `document_info` last. -/
def infoId : PdfHist → Option Ref
  | .new _ => none
  | .documentInfo _ id _ => some id
  | .call h _ | .setVersion h _ _ | .setBinaryMarker h _ | .setFileId h _ | .catalog h _ _ => infoId h

/-- The first 16 bytes of a file: version and binary marker. -/
def header (v : UInt8 × UInt8) (m : UInt8 × UInt8 × UInt8 × UInt8) : Bytes :=
  b!"%PDF-" ++ [48 + v.1] ++ b!"." ++ [48 + v.2] ++ b!"\n%" ++ [m.1, m.2.1, m.2.2.1, m.2.2.2] ++ b!"\n\n"

/-! ## Reading objects back -/

/-- The object read from the file stands for the contents given to the API. -/
def BodyDenotes : Body → IVal → Prop
  | .val p, .val v => Denotes p v
  | .stream es data, .stream d data' =>
    data' = data ∧ ∃ d', d = (b!"Length", .int data.length) :: d' ∧ DenotesEntries es d'
  | _, _ => False

/-- The contents can be represented in PDF (see `Ok`), are not ambiguous in compact mode (see `NoClash`), and the
caller did not insert a second `/Length`. -/
def ItemOk (it : Item) : Prop :=
  match it.body with
  | .val p => Ok p ∧ (it.pretty = true ∨ NoClash p)
  | .stream es _ => OkEntries es ∧ (it.pretty = true ∨ NoClashEntries es) ∧ ∀ e ∈ es, e.1 ≠ b!"Length"

/-- Reading an indirect object at byte position `off` of `bytes` yields this object. -/
def ReadsAt (bytes : Bytes) (off : Nat) (it : Item) : Prop :=
  ∃ v rest, readIndirect (bytes.drop off) = some (it.id.get, 0, v, rest) ∧ BodyDenotes it.body v

end PdfW.Spec
