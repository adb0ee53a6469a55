import Verif.Spec.History

/-!
# Which bytes of a file come from the user verbatim

Only binary markers and stream data are copied into a file as they are; everything else is spelled by the library.
The definitions compute those parts from the arguments of the calls only.
-/

namespace PdfW.Spec
open PdfW

/-- Seven-bit. -/
def Ascii (bs : Bytes) : Prop := ∀ b ∈ bs, b < 0x80

/-- The stream data among objects. -/
def streamData : List Item → List Bytes
  | [] => []
  | ⟨_, .val _, _⟩ :: its => streamData its
  | ⟨_, .stream _ data, _⟩ :: its => data :: streamData its

def markerBytes (m : UInt8 × UInt8 × UInt8 × UInt8) : Bytes := [m.1, m.2.1, m.2.2.1, m.2.2.2]

mutual
/-- The parts of a chunk that are copied verbatim. The chunk inside a document starts with the document's header. -/
def chunkParts : ChunkHist → List Bytes
  | .new _ => []
  | .ofPdf p => markerBytes (marker p) :: pdfParts p
  | .call h c => chunkParts h ++ callParts c
termination_by structural h => h
/-- Renumbering copies objects only, so no header. -/
def callParts : ChunkCall → List Bytes
  | .indirect _ _ => []
  | .stream _ _ data => [data]
  | .extend o => chunkParts o
  | .mergeLimits _ => []
  | .renumberFrom source _ _ _ => streamData (chunkItems source)
termination_by structural c => c
/-- The parts of a document after its own header. -/
def pdfParts : PdfHist → List Bytes
  | .new _ => []
  | .call h c => pdfParts h ++ callParts c
  | .setVersion h _ _ => pdfParts h
  | .setBinaryMarker h _ => pdfParts h
  | .setFileId h _ => pdfParts h
  | .catalog h _ _ => pdfParts h
  | .documentInfo h _ _ => pdfParts h
termination_by structural h => h
end

/-- Everything in the document that the user gave as raw bytes: the marker and the rest. -/
def verbatim (h : PdfHist) : List Bytes := markerBytes (marker h) :: pdfParts h

end PdfW.Spec
