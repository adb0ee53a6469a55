import Verif.Model.Stack
import Verif.Model.Pdf

/-!
# Machine integers

The rest of the model counts items without bound and otherwise has the wrapping arithmetic of a build without overflow checks. This
is the code with the arithmetic of the machine, where `checked` tells whether overflow panics (the default of debug builds) or wraps
(the default of release builds). On `i32` the code computes: `Array::len`, `Dict::len` (object.rs:770, 932) with `+= 1` (object.rs:810,
962); `abs` of every integer that is written (buf.rs:195); ids in `write_offsets` (lib.rs:446-480) and `Ref::next` (object.rs:431). On
`u8`: `indent - 2` (object.rs:1020). C52 relates it to the rest of the model.
-/

namespace PdfW

/-- `len += 1` on an `i32`; `none` is the panic. -/
def incrI32 (checked : Bool) (len : Int) : Option Int :=
  if len = 2147483647 then if checked then none else some (-2147483648) else some (len + 1)

/-- `val.abs()` on an `i32` (buf.rs:195); `none` is the panic. -/
def absIn (checked : Bool) (v : Int) : Option Int :=
  if v = -2147483648 then if checked then none else some (-2147483648) else some v.natAbs

/-- `Buf::push_int` (buf.rs:45-48, 194-196). -/
def Buf.pushIntIn (checked : Bool) (b : Buf) (v : Int) : Option Buf :=
  match absIn checked v with
  | some a => some { limits := { b.limits with int := Max.max b.limits.int a }, inner := b.inner ++ intBytes v }
  | none => none

/-- `Buf::push_float` (buf.rs:51-59). -/
def Buf.pushFloatIn (checked : Bool) (b : Buf) (v : F32) : Option Buf :=
  if (F32.ofI32 v.toI32).eq v then b.pushIntIn checked v.toI32 else some (b.pushDecimal v)

/-- `Ref::write` (object.rs:448-452). -/
def writeRefIn (checked : Bool) (r : Ref) (buf : Buf) : Option Buf :=
  match buf.pushIntIn checked r.get with
  | some buf => some (buf.extend b!" 0 R")
  | none => none

/-- `Rect::write` (object.rs:487-500). -/
def writeRectIn (checked : Bool) (r : Rect) (buf : Buf) : Option Buf := do
  let buf ← (buf.push ch!"[").pushFloatIn checked r.x1
  let buf ← (buf.push ch!" ").pushFloatIn checked r.y1
  let buf ← (buf.push ch!" ").pushFloatIn checked r.x2
  let buf ← (buf.push ch!" ").pushFloatIn checked r.y2
  let buf := buf.push ch!"]"
  return { buf with limits := buf.limits.registerArrayLen 4 }

/-- `Sealed::write` of each implementor (object.rs:23-632); strings, names and dates do no arithmetic on `i32`. -/
def Prim.writeIn (checked : Bool) : Prim → Buf → Option Buf
  | .int v, buf => buf.pushIntIn checked v
  | .real v, buf => buf.pushFloatIn checked v
  | .ref r, buf => writeRefIn checked r buf
  | .rect r, buf => writeRectIn checked r buf
  | p, buf => some (p.write buf)

/-- `Obj::primitive` (object.rs:680-716). -/
def Obj.primitiveIn (checked : Bool) (o : Obj) (p : Prim) (buf : Buf) : Option Buf :=
  let endsWithDelimiter := buf.last?.any isDelimiterCharacter
  let buf := if o.needsPadding && !p.startsWithDelimiter && !endsWithDelimiter then buf.extend b!" " else buf
  match p.writeIn checked buf with
  | some buf => some (finishIndirect o.indirect o.pretty buf)
  | none => none

/-- `len as usize` (object.rs:846, 1017): sign extension to 64 bits. -/
def i32AsUsize (len : Int) : Nat := (len % 18446744073709551616).toNat

/-- `Array` (object.rs:765-771). -/
structure Arr32 where
  indirect : Bool
  indent : Nat
  pretty : Bool
  len : Int
deriving DecidableEq

/-- `Dict` (object.rs:927-933). -/
structure Dict32 where
  indirect : Bool
  indent : Nat
  pretty : Bool
  len : Int
deriving DecidableEq

namespace Arr32

/-- `Array` as a `Writer` (object.rs:773-782). -/
def start (o : Obj) (buf : Buf) : Buf × Arr32 := (buf.push ch!"[", ⟨o.indirect, o.indent, o.pretty, 0⟩)

/-- `Array::push` (object.rs:799-813). -/
def push (checked : Bool) (a : Arr32) (buf : Buf) : Option (Buf × Arr32 × Obj) :=
  let (buf, needsPadding) :=
    if a.len ≠ 0 then
      if a.pretty then (buf.push ch!" ", false) else (buf, true)
    else (buf, false)
  match incrI32 checked a.len with
  | some len => some (buf, { a with len := len }, Obj.direct a.indent a.pretty needsPadding)
  | none => none

/-- `Drop for Array` (object.rs:843-856). -/
def drop (a : Arr32) (buf : Buf) : Buf :=
  let buf := { buf with limits := buf.limits.registerArrayLen (i32AsUsize a.len) }
  let buf := buf.push ch!"]"
  finishIndirect a.indirect a.pretty buf

end Arr32

namespace Dict32

/-- `Dict` as a `Writer` (object.rs:935-944). -/
def start (o : Obj) (buf : Buf) : Buf × Dict32 :=
  (buf.extend b!"<<", ⟨o.indirect, saturatingAdd o.indent 2, o.pretty, 0⟩)

/-- `Dict::insert` (object.rs:961-985). -/
def insert (checked : Bool) (d : Dict32) (key : Bytes) (buf : Buf) : Option (Buf × Dict32 × Obj) :=
  match incrI32 checked d.len with
  | none => none
  | some len =>
    let buf := if d.pretty then pushSpaces d.indent (buf.push ch!"\n") else buf
    let buf := writeName key buf
    let (buf, needsPadding) := if d.pretty then (buf.push ch!" ", false) else (buf, true)
    some (buf, { d with len := len }, Obj.direct d.indent d.pretty needsPadding)

/-- `indent - 2` on a `u8` (object.rs:1020); `none` is the panic. -/
def subTwo (checked : Bool) (indent : Nat) : Option Nat :=
  if indent < 2 then if checked then none else some (indent + 254) else some (indent - 2)

/-- `Drop for Dict` (object.rs:1013-1034). -/
def drop (checked : Bool) (d : Dict32) (buf : Buf) : Option Buf :=
  let buf := { buf with limits := buf.limits.registerDictEntries (i32AsUsize d.len) }
  if d.len ≠ 0 ∧ d.pretty then
    match subTwo checked d.indent with
    | some n => some (finishIndirect d.indirect d.pretty ((pushSpaces n (buf.push ch!"\n")).extend b!">>"))
    | none => none
  else some (finishIndirect d.indirect d.pretty (buf.extend b!">>"))

end Dict32

/-- An open writer. -/
inductive Writer32 where
  | arr (a : Arr32)
  | dict (d : Dict32)

/-- `Array::len` / `Dict::len` (object.rs:786-788, 948-950). -/
def Writer32.len : Writer32 → Int
  | .arr a => a.len
  | .dict d => d.len

/-- Open writers (innermost first), an unused `Obj` if one has been handed out, and the buffer. -/
structure WState32 where
  stack : List Writer32
  pending : Option Obj
  buf : Buf

/-- What a call does. -/
inductive Outcome where
  | ok (w : WState32)
  /-- arithmetic overflow -/
  | panic
  /-- not admitted by the borrow checker or the types -/
  | illegal

/-- One call (see `WState.call`). -/
def WState32.call (checked : Bool) (w : WState32) : Call → Outcome
  | .primitive p =>
    match w.pending with
    | some o =>
      match o.primitiveIn checked p w.buf with
      | some buf => .ok { w with pending := none, buf := buf }
      | none => .panic
    | none => .illegal
  | .array =>
    match w.pending with
    | some o => .ok { stack := .arr (Arr32.start o w.buf).2 :: w.stack, pending := none, buf := (Arr32.start o w.buf).1 }
    | none => .illegal
  | .dict =>
    match w.pending with
    | some o => .ok { stack := .dict (Dict32.start o w.buf).2 :: w.stack, pending := none, buf := (Dict32.start o w.buf).1 }
    | none => .illegal
  | .push =>
    match w.pending, w.stack with
    | none, .arr a :: s =>
      match a.push checked w.buf with
      | some (buf, a, o) => .ok { stack := .arr a :: s, pending := some o, buf := buf }
      | none => .panic
    | _, _ => .illegal
  | .insert key =>
    match w.pending, w.stack with
    | none, .dict d :: s =>
      match d.insert checked key w.buf with
      | some (buf, d, o) => .ok { stack := .dict d :: s, pending := some o, buf := buf }
      | none => .panic
    | _, _ => .illegal
  | .finish =>
    match w.pending, w.stack with
    | none, .arr a :: s => .ok { stack := s, pending := none, buf := a.drop w.buf }
    | none, .dict d :: s =>
      match d.drop checked w.buf with
      | some buf => .ok { stack := s, pending := none, buf := buf }
      | none => .panic
    | _, _ => .illegal
  | .abandon =>
    match w.pending with
    | some _ => .ok { w with pending := none }
    | none => .illegal

/-- A sequence of calls. -/
def WState32.calls (checked : Bool) (w : WState32) : List Call → Outcome
  | [] => .ok w
  | c :: cs =>
    match w.call checked c with
    | .ok w' => w'.calls checked cs
    | o => o

/-! ## Object ids -/

/-- `id + 1` on an `i32`; `none` is the panic. -/
def succIn (checked : Bool) (i : Int) : Option Int := incrI32 checked i

/-- `Ref::next` (object.rs:431-433) and `Ref::new` (object.rs:414-420); `none` is a panic. -/
def Ref.nextIn (checked : Bool) (r : Ref) : Option Ref :=
  match succIn checked r.get with
  | some i => Ref.new i
  | none => none

/-- Find the next free id (lib.rs:462-470). -/
def findNextFreeIn (checked : Bool) (next : Int) : List (Ref × Nat) → Option Int
  | [] => some next
  | (used, _) :: r =>
    if next < used.get then some next
    else
      match succIn checked used.get with
      | some next => findNextFreeIn checked next r
      | none => none

/-- The loop `for free_id in start..object_id` (lib.rs:461-477). -/
def fillFreeIn (checked : Bool) {σ : Type} (w : XRefWriter σ) (xrefLen objectId : Int) (rest : List (Ref × Nat)) :
    Nat → Int → Int → σ → Option (Int × σ)
  | 0, _, written, s => some (written, s)
  | n + 1, freeId, written, s => do
    let next ← succIn checked freeId
    let next ← if next = objectId then findNextFreeIn checked next rest else some next
    let gen := if freeId = 0 then 65535 else 0
    let written ← succIn checked written
    fillFreeIn checked w xrefLen objectId rest n (freeId + 1) written (w.writeFreeEntry (asUsize (next.tmod xrefLen)) gen s)

/-- The main loop (lib.rs:453-481); `none` is a panic. -/
def offsetsLoopIn (checked : Bool) {σ : Type} (w : XRefWriter σ) (xrefLen : Int) : List (Ref × Nat) → Int → σ → Option σ
  | [], _, s => some s
  | (objectId, offset) :: r, written, s =>
    if written > objectId.get then none
    else do
      let n := (objectId.get - written).toNat
      let (written, s) ← fillFreeIn checked w xrefLen objectId.get ((objectId, offset) :: r) n written written s
      let written' ← succIn checked written
      offsetsLoopIn checked w xrefLen r written' (w.writeOccupiedEntry offset 0 s)

/-- `write_offsets` (lib.rs:443-484). -/
def writeOffsetsIn (checked : Bool) {σ : Type} (offsets : List (Ref × Nat)) (w : XRefWriter σ) (s : σ) : Option (Int × σ) := do
  let offsets := sortOffsets offsets
  let xrefLen ← succIn checked (lastId offsets)
  let s := w.prologue xrefLen s
  let s := if offsets.isEmpty then w.writeFreeEntry 0 65535 s else s
  let s ← offsetsLoopIn checked w xrefLen offsets 0 s
  return (xrefLen, s)

/-- `Pdf::finish` (lib.rs:313-328); `none` is a panic. The trailer dictionary holds at most four entries and no negative integer, so
its arithmetic cannot overflow and it is written as in `Pdf.finish`. -/
def Pdf.finishIn (checked : Bool) (p : Pdf) : Option Bytes :=
  let xrefOffset := p.chunk.buf.len
  match writeOffsetsIn checked p.chunk.offsets plainXRefWriter p.chunk.buf with
  | none => none
  | some (xrefLen, buf) =>
    let buf := buf.extend b!"trailer\n"
    let buf := (Prog.dict (p.trailer.entries xrefLen)).run (Obj.direct 0 p.chunk.pretty false) buf
    some (finishTrailer buf xrefOffset b!"\n")

/-- `Pdf::finish_with_xref_stream_inner` (lib.rs:371-421); `none` is a panic. -/
def Pdf.finishXRefStreamInnerIn (checked : Bool) (p : Pdf) (xrefId : Ref) (filter : Bytes → Bytes × Option XRefFilter) : Option Bytes :=
  let buf := p.chunk.buf
  let xrefOffset := buf.len
  let offsets := p.chunk.offsets ++ [(xrefId, xrefOffset)]
  let fieldWidth := determineFieldWidth xrefOffset
  match writeOffsetsIn checked offsets (xrefStreamWriter fieldWidth) [] with
  | none => none
  | some (xrefLen, raw) =>
    let (xrefData, f) := filter raw
    let (buf, obj) := Obj.startIndirect xrefId p.chunk.pretty buf
    let entries := (b!"Type", .prim (.name b!"XRef")) ::
      (xrefFilterEntries f ++
       p.trailer.entries xrefLen ++
       [(b!"W", .array [.prim (.int 1), .prim (.int fieldWidth), .prim (.int 2)])])
    match runStream obj entries xrefData buf with
    | none => none
    | some buf => some (finishTrailer buf xrefOffset [])

end PdfW
