import Verif.Model.Content
import Verif.Model.Stack

/-!
# Call sequences on a content stream with open writers

`Content::op` returns an `Operation` that borrows the content stream; `Operation::obj` returns an `Obj` that borrows the
operation. At any moment only the innermost open writer can be used.
-/

namespace PdfW

/-- The calls a user can make on a content stream and the writers obtained from it (content.rs:62-161). -/
inductive CCall where
  /-- a method of `Content` other than `op`, with all calls on the writer it may return -/
  | method (k : ContentCall)
  /-- `Content::op` -/
  | start (name : Bytes)
  /-- `Operation::obj` (`operand` is `obj` followed by `primitive`) -/
  | operand
  /-- a call on the `Obj` of an operand, or a writer obtained from it -/
  | write (c : Call)
  /-- dropping the `Operation` -/
  | done

/-- The content stream, the open operation, and the writers open within an operand (innermost first). -/
structure CState where
  content : Content
  op : Option Operation
  stack : List Writer
  pending : Option Obj

/-- `ContentCall.op` is `start … done`. -/
def ContentCall.isOp : ContentCall → Bool
  | .op _ _ => true
  | _ => false

/-- One call; `none` when the borrow checker or the types do not admit it, or it panics (content.rs:62-161, 215-230). -/
def CState.call (s : CState) : CCall → Option CState
  | .method k =>
    match s.op, k.isOp with
    | none, false => (k.run s.content).map fun c => { s with content := c }
    | _, _ => none
  | .start name =>
    match s.op with
    | none => some { s with op := some (Operation.start name) }
    | some _ => none
  | .operand =>
    match s.op, s.stack, s.pending with
    | some o, [], none =>
      let (buf, o, ob) := o.obj s.content.pretty s.content.buf
      some { content := { s.content with buf := buf }, op := some o, stack := [], pending := some ob }
    | _, _, _ => none
  | .write c =>
    match s.op with
    | some _ =>
      (WState.call ⟨s.stack, s.pending, s.content.buf⟩ c).map fun w =>
        { s with stack := w.stack, pending := w.pending, content := { s.content with buf := w.buf } }
    | none => none
  | .done =>
    match s.op, s.stack, s.pending with
    | some o, [], none => some { s with op := none, content := { s.content with buf := o.drop s.content.pretty s.content.buf } }
    | _, _, _ => none

/-- A sequence of calls. -/
def CState.calls (s : CState) : List CCall → Option CState
  | [] => some s
  | c :: cs => match s.call c with | some s => s.calls cs | none => none

/-- Unwinding: the writers in the operand are dropped, innermost first, then the operation (`Drop for Operation`, content.rs:145-161). -/
def CState.unwind (s : CState) : Content :=
  let buf := WState.unwind ⟨s.stack, s.pending, s.content.buf⟩
  match s.op with
  | some o => { s.content with buf := o.drop s.content.pretty buf }
  | none => { s.content with buf := buf }

end PdfW
