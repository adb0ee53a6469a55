import Verif.Proof.Typed.Base

/-! # Helpers of the examples -/

namespace PdfW

/-- 1.0 -/
def one : F32 := ⟨false, ⟨0x3f800000, by decide⟩⟩
/-- 2.0 -/
def two : F32 := ⟨false, ⟨0x40000000, by decide⟩⟩

/-- The compact bytes of an object written directly. -/
def compactOut (p : Prog) : Bytes := (p.run (Obj.direct 0 false false) Buf.new).inner

/-- The compact bytes of object 5, a stream with the data `xy`. -/
def streamOut (write : Chunk → Ref → Bytes → Option Chunk) : Option Bytes :=
  (write (Chunk.withSettings false) ⟨5, by decide, by decide⟩ b!"xy").map Chunk.asBytes

end PdfW
