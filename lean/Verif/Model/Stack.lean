import Verif.Model.Object

/-!
# Call sequences on open writers

The Rust writers borrow the buffer mutably, so at any moment only the innermost open writer can be used.
A state is the stack of open arrays and dictionaries (innermost first) and possibly an unused `Obj`.
-/

namespace PdfW

/-- The calls a user can make (object.rs:680-750, 799-1034). -/
inductive Call where
  /-- `Obj::primitive` -/
  | primitive (p : Prim)
  /-- `Obj::array` -/
  | array
  /-- `Obj::dict` -/
  | dict
  /-- `Array::push` on the innermost writer -/
  | push
  /-- `Dict::insert` on the innermost writer -/
  | insert (key : Bytes)
  /-- dropping the innermost `Array` or `Dict` -/
  | finish
  /-- dropping the `Obj` unused -/
  | abandon
deriving DecidableEq

/-- An open writer. -/
inductive Writer where
  | arr (a : Arr)
  | dict (d : Dict)
deriving DecidableEq

/-- `Array::len` / `Dict::len` (object.rs:786-788, 948-950). -/
def Writer.len : Writer → Nat
  | .arr a => a.len
  | .dict d => d.len

/-- Open writers (innermost first), an unused `Obj` if one has been handed out, and the buffer. -/
structure WState where
  stack : List Writer
  pending : Option Obj
  buf : Buf

/-- One call; `none` when the borrow checker or the types do not admit it. `Obj` has no `Drop`: dropping it
unused writes nothing (object.rs:638-746). -/
def WState.call (w : WState) : Call → Option WState
  | .primitive p =>
    match w.pending with
    | some o => some { w with pending := none, buf := o.primitive p w.buf }
    | none => none
  | .array =>
    match w.pending with
    | some o =>
      let (buf, a) := Arr.start o w.buf
      some { stack := .arr a :: w.stack, pending := none, buf := buf }
    | none => none
  | .dict =>
    match w.pending with
    | some o =>
      let (buf, d) := Dict.start o w.buf
      some { stack := .dict d :: w.stack, pending := none, buf := buf }
    | none => none
  | .push =>
    match w.pending, w.stack with
    | none, .arr a :: s =>
      let (buf, a, o) := a.push w.buf
      some { stack := .arr a :: s, pending := some o, buf := buf }
    | _, _ => none
  | .insert key =>
    match w.pending, w.stack with
    | none, .dict d :: s =>
      let (buf, d, o) := d.insert key w.buf
      some { stack := .dict d :: s, pending := some o, buf := buf }
    | _, _ => none
  | .finish =>
    match w.pending, w.stack with
    | none, .arr a :: s => some { stack := s, pending := none, buf := a.drop w.buf }
    | none, .dict d :: s => some { stack := s, pending := none, buf := d.drop w.buf }
    | _, _ => none
  | .abandon =>
    match w.pending with
    | some _ => some { w with pending := none }
    | none => none

/-- A sequence of calls. -/
def WState.calls (w : WState) : List Call → Option WState
  | [] => some w
  | c :: cs =>
    match w.call c with
    | some w' => w'.calls cs
    | none => none

/-- Dropping open writers, innermost first (`Drop for Array` and `Drop for Dict`, object.rs:844-857, 1013-1035). -/
def dropAll : List Writer → Buf → Buf
  | [], buf => buf
  | .arr a :: s, buf => dropAll s (a.drop buf)
  | .dict d :: s, buf => dropAll s (d.drop buf)

/-- Unwinding (a panic in the caller's code, or leaving a scope early with `?` or `return`) when these writers are open:
the unused `Obj`, if any, has no `Drop` and writes nothing; then the writers are dropped, the innermost first
since it borrows from the others. -/
def WState.unwind (w : WState) : Buf := dropAll w.stack w.buf

/-- Unwinding out of an open stream (`Drop for Stream`, object.rs:1148-1167, whose dictionary is `ManuallyDrop`): the writers
nested in the dictionary `d` of the stream are dropped as usual, then the stream. -/
def WState.unwindStream (w : WState) (data : Bytes) : Option Buf :=
  match w.stack.reverse with
  | .dict d :: nested => some (streamDrop d data (dropAll nested.reverse w.buf))
  | _ => none

end PdfW
