import Verif.Model.Object

/-!
# `Chunk` (`/repo/src/chunk.rs`)

`renumber` is in `Verif/Model/Renumber.lean`.
-/

namespace PdfW

/-- `Chunk` (chunk.rs:34-38); `settings` is reduced to its only field `pretty` (chunk.rs:5-15). -/
structure Chunk where
  buf : Buf
  offsets : List (Ref × Nat)
  pretty : Bool
deriving DecidableEq

namespace Chunk

/-- `Chunk::with_settings` and the other constructors (chunk.rs:44-68); capacity is not observable.
`Chunk::new` is `withSettings true` (chunk.rs:17-21). -/
def withSettings (pretty : Bool) : Chunk := ⟨Buf.new, [], pretty⟩

/-- `Chunk::len` (chunk.rs:73-75). -/
def len (c : Chunk) : Nat := c.buf.len

/-- `Chunk::as_bytes` (chunk.rs:83-85). -/
def asBytes (c : Chunk) : Bytes := c.buf.inner

/-- `Chunk::extend` (chunk.rs:88-93). -/
def extend (c other : Chunk) : Chunk :=
  let base := c.len
  { c with
    buf := c.buf.extendBuf other.buf
    offsets := c.offsets ++ other.offsets.map (fun p => (p.1, base + p.2)) }

/-- `Chunk::refs` (chunk.rs:97-99). -/
def refs (c : Chunk) : List Ref := c.offsets.map (·.1)

/-- `Chunk::limits` (chunk.rs:102-104). -/
def limits (c : Chunk) : Limits := c.buf.limits

/-- `Chunk::merge_limits` (chunk.rs:126-128). -/
def mergeLimits (c : Chunk) (l : Limits) : Chunk := { c with buf := { c.buf with limits := c.buf.limits.merge l } }

/-- `Chunk::indirect` (chunk.rs:193-196): record the offset, start the object. -/
def indirect (c : Chunk) (id : Ref) : Chunk × Obj :=
  let c := { c with offsets := c.offsets ++ [(id, c.buf.len)] }
  let (buf, obj) := Obj.startIndirect id c.pretty c.buf
  ({ c with buf := buf }, obj)

/-- `Chunk::indirect` followed by a complete history of calls on the returned `Obj`. All the typed
constructors (`pages`, `page`, `font`, … chunk.rs:252-…) are of this form. -/
def writeIndirect (c : Chunk) (id : Ref) (p : Prog) : Chunk :=
  let (c, obj) := c.indirect id
  { c with buf := p.run obj c.buf }

/-- `Chunk::stream` (chunk.rs:247-249) followed by inserting the given pairs and dropping the writer;
`none` is the panic. -/
def writeStream (c : Chunk) (id : Ref) (entries : List (Bytes × Prog)) (data : Bytes) : Option Chunk :=
  let (c, obj) := c.indirect id
  match runStream obj entries data c.buf with
  | none => none
  | some buf => some { c with buf := buf }

end Chunk
end PdfW
