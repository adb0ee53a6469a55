import Verif.Spec.File
import Verif.Spec.History

/-!
# What a finished document must contain
-/

namespace PdfW.Spec
open PdfW

/-- The ids of the objects written, in writing order. -/
def docIds (h : PdfHist) : List Ref := (pdfItems h).map (·.id)

/-- One more than the largest id. -/
def sizeFor (ids : List Ref) : Nat := 1 + (ids.map fun r => r.get.toNat).foldl Max.max 0

/-- Object numbers and offsets recorded in a chunk (what these offsets mean is the subject of C14). -/
def placed (c : Chunk) : List (Nat × Nat) := c.offsets.map fun o => (o.1.get.toNat, o.2)

/-- The trailer entries that refer to the document: `/Size`, and `/Root`, `/Info` and `/ID` if and only if the catalog
was written, the document information was written, the file identifier was set. -/
def wantedTrailer (h : PdfHist) (size : Nat) : List (Bytes × Val) :=
  [(b!"Size", .int size)] ++ (catalogId h).toList.map (fun r => (b!"Root", Val.ref r.get.toNat 0)) ++
    (infoId h).toList.map (fun r => (b!"Info", Val.ref r.get.toNat 0)) ++
    (fileId h).toList.map (fun i => (b!"ID", Val.arr [.str i.1, .str i.2]))

/-- Entries of a dictionary with these keys. -/
def only (keys : List Bytes) (d : List (Bytes × Val)) : List (Bytes × Val) := d.filter fun e => e.1 ∈ keys

/-- The names of the filters (ISO 32000-1, Table 6). -/
def filterName : Filter → Bytes
  | .asciiHexDecode => b!"ASCIIHexDecode" | .ascii85Decode => b!"ASCII85Decode" | .lzwDecode => b!"LZWDecode"
  | .flateDecode => b!"FlateDecode" | .runLengthDecode => b!"RunLengthDecode" | .ccittFaxDecode => b!"CCITTFaxDecode"
  | .jbig2Decode => b!"JBIG2Decode" | .dctDecode => b!"DCTDecode" | .jpxDecode => b!"JPXDecode" | .crypt => b!"Crypt"

/-- The value of the `/Filter` entry: the name of the filter, or an array of names. -/
def filterVal : XRefFilter → Val
  | .single f => .name (filterName f)
  | .multiple fs => .arr (fs.map fun f => .name (filterName f))

end PdfW.Spec
