import Verif.Model.Prim

/-!
# Object writers: `Obj`, `Array`, `Dict`, `Stream` (`/repo/src/object.rs:636-1170`)

A Rust writer borrows the buffer mutably; here the buffer is passed in and returned separately and the
writer structures hold only their remaining fields.
-/

namespace PdfW

/-- `Obj` without the buffer (object.rs:638-644). `indent` is a `u8`; `settings` is reduced to its only
field `pretty` (chunk.rs:5-15). -/
structure Obj where
  indirect : Bool
  indent : Nat
  pretty : Bool
  needsPadding : Bool
deriving DecidableEq

/-- `Array` without the buffer (object.rs:765-771). `len` is an `i32` in Rust; here it is
unbounded, which `Model/Counts` and C52 justify up to the exact limits. -/
structure Arr where
  indirect : Bool
  indent : Nat
  pretty : Bool
  len : Nat
deriving DecidableEq

/-- `Dict` without the buffer (object.rs:927-933). -/
structure Dict where
  indirect : Bool
  indent : Nat
  pretty : Bool
  len : Nat
deriving DecidableEq

/-- `u8::saturating_add`. -/
def saturatingAdd (a b : Nat) : Nat := Min.min 255 (a + b)

/-- The end of an indirect object (object.rs:709-715, 848-854, 1026-1032). -/
def finishIndirect (indirect pretty : Bool) (buf : Buf) : Buf :=
  if indirect then
    let buf := buf.extend b!"\nendobj\n"
    if pretty then buf.extend b!"\n" else buf
  else buf

namespace Obj

/-- `Obj::direct` (object.rs:648-663). -/
def direct (indent : Nat) (pretty needsPadding : Bool) : Obj := ⟨false, indent, pretty, needsPadding⟩

/-- `Obj::indirect` (object.rs:665-677). -/
def startIndirect (id : Ref) (pretty : Bool) (buf : Buf) : Buf × Obj :=
  let buf := buf.pushInt id.get
  let buf := buf.extend b!" 0 obj\n"
  (buf, ⟨true, 0, pretty, false⟩)

/-- `Obj::primitive` (object.rs:680-716). -/
def primitive (o : Obj) (p : Prim) (buf : Buf) : Buf :=
  let endsWithDelimiter := buf.last?.any isDelimiterCharacter
  let buf := if o.needsPadding && !p.startsWithDelimiter && !endsWithDelimiter then buf.extend b!" " else buf
  let buf := p.write buf
  finishIndirect o.indirect o.pretty buf

end Obj

namespace Arr

/-- `Array` as a `Writer`: start (object.rs:773-782). -/
def start (o : Obj) (buf : Buf) : Buf × Arr := (buf.push ch!"[", ⟨o.indirect, o.indent, o.pretty, 0⟩)

/-- `Array::push` (object.rs:799-813). -/
def push (a : Arr) (buf : Buf) : Buf × Arr × Obj :=
  let (buf, needsPadding) :=
    if a.len != 0 then
      if a.pretty then (buf.push ch!" ", false) else (buf, true)
    else (buf, false)
  let a := { a with len := a.len + 1 }
  (buf, a, Obj.direct a.indent a.pretty needsPadding)

/-- `Drop for Array` (object.rs:843-856). -/
def drop (a : Arr) (buf : Buf) : Buf :=
  let buf := { buf with limits := buf.limits.registerArrayLen a.len }
  let buf := buf.push ch!"]"
  finishIndirect a.indirect a.pretty buf

end Arr

/-- `for _ in 0..n { buf.push(b' ') }`. -/
def pushSpaces (n : Nat) (buf : Buf) : Buf := n.repeat (fun b => b.push ch!" ") buf

namespace Dict

/-- `Dict` as a `Writer`: start (object.rs:935-944). -/
def start (o : Obj) (buf : Buf) : Buf × Dict :=
  (buf.extend b!"<<", ⟨o.indirect, saturatingAdd o.indent 2, o.pretty, 0⟩)

/-- `Dict::insert` (object.rs:961-985). -/
def insert (d : Dict) (key : Bytes) (buf : Buf) : Buf × Dict × Obj :=
  let d := { d with len := d.len + 1 }
  let buf := if d.pretty then pushSpaces d.indent (buf.push ch!"\n") else buf
  let buf := writeName key buf
  let (buf, needsPadding) := if d.pretty then (buf.push ch!" ", false) else (buf, true)
  (buf, d, Obj.direct d.indent d.pretty needsPadding)

/-- `Drop for Dict` (object.rs:1012-1034). -/
def drop (d : Dict) (buf : Buf) : Buf :=
  let buf := { buf with limits := buf.limits.registerDictEntries d.len }
  let buf := if d.len != 0 && d.pretty then pushSpaces (d.indent - 2) (buf.push ch!"\n") else buf
  let buf := buf.extend b!">>"
  finishIndirect d.indirect d.pretty buf

end Dict

/-! ## Complete writer histories

What the borrow checker admits for one object is a tree of calls: a primitive, an array whose items are
written one after the other and then dropped, or a dictionary likewise; or the `Obj` is dropped without being used (it is only
`#[must_use]`, object.rs:637, and a panic drops it). Typed wrappers
(`TypedArray`, `TypedDict`, and all specialised writers) only restrict these calls. -/

/-- The calls made to write one object. -/
inductive Prog where
  | prim (p : Prim)
  | array (items : List Prog)
  | dict (entries : List (Bytes × Prog))
  /-- the `Obj` is dropped unused -/
  | unused

mutual
/-- Write one object through `Obj` (object.rs:680-750); `Obj` has no `Drop` (object.rs:638-746). -/
def Prog.run : Prog → Obj → Buf → Buf
  | .prim p, o, buf => o.primitive p buf
  | .array items, o, buf =>
    let (buf, a) := Arr.start o buf
    let (buf, a) := runItems items a buf
    a.drop buf
  | .dict entries, o, buf =>
    let (buf, d) := Dict.start o buf
    let (buf, d) := runEntries entries d buf
    d.drop buf
  | .unused, _, buf => buf
termination_by structural p => p
/-- Push the items one after the other (object.rs:799-836). -/
def runItems : List Prog → Arr → Buf → Buf × Arr
  | [], a, buf => (buf, a)
  | x :: xs, a, buf =>
    let (buf, a, o) := a.push buf
    runItems xs a (x.run o buf)
termination_by structural p => p
/-- Insert the pairs one after the other (object.rs:961-1006). -/
def runEntries : List (Bytes × Prog) → Dict → Buf → Buf × Dict
  | [], d, buf => (buf, d)
  | (k, v) :: es, d, buf =>
    let (buf, d, o) := d.insert k buf
    runEntries es d (v.run o buf)
termination_by structural p => p
end

/-! ## `Stream` -/

/-- `Stream::start` (object.rs:1119-1131) after `Obj::indirect`; `none` is the panic. -/
def streamStart (o : Obj) (data : Bytes) (buf : Buf) : Option (Buf × Dict) :=
  if o.indirect then
    let (buf, d) := Dict.start o buf
    if data.length ≤ 2147483647 then
      let (buf, d, v) := d.insert b!"Length" buf
      some (v.primitive (.int data.length) buf, d)
    else none
  else none

/-- `Drop for Stream` (object.rs:1149-1168). -/
def streamDrop (d : Dict) (data : Bytes) (buf : Buf) : Buf :=
  let buf := { buf with limits := buf.limits.registerDictEntries d.len }
  let buf := if d.pretty then buf.extend b!"\n" else buf
  let buf := buf.extend b!">>"
  let buf := buf.extend b!"\nstream\n"
  let buf := buf.extend data
  let buf := buf.extend b!"\nendstream"
  let buf := buf.extend b!"\nendobj\n"
  if d.pretty then buf.extend b!"\n" else buf

/-- A complete stream: start, insert the given pairs, drop (object.rs:1119-1168). -/
def runStream (o : Obj) (entries : List (Bytes × Prog)) (data : Bytes) (buf : Buf) : Option Buf :=
  match streamStart o data buf with
  | none => none
  | some (buf, d) =>
    let (buf, d) := runEntries entries d buf
    some (streamDrop d data buf)

/-- `Filter` (object.rs:1174-1198). -/
inductive Filter where
  | asciiHexDecode | ascii85Decode | lzwDecode | flateDecode | runLengthDecode | ccittFaxDecode
  | jbig2Decode | dctDecode | jpxDecode | crypt
deriving DecidableEq

/-- `Filter::to_name` (object.rs:1201-1214). -/
def Filter.toName : Filter → Bytes
  | .asciiHexDecode => b!"ASCIIHexDecode"
  | .ascii85Decode => b!"ASCII85Decode"
  | .lzwDecode => b!"LZWDecode"
  | .flateDecode => b!"FlateDecode"
  | .runLengthDecode => b!"RunLengthDecode"
  | .ccittFaxDecode => b!"CCITTFaxDecode"
  | .jbig2Decode => b!"JBIG2Decode"
  | .dctDecode => b!"DCTDecode"
  | .jpxDecode => b!"JPXDecode"
  | .crypt => b!"Crypt"

end PdfW
