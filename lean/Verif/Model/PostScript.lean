import Verif.Model.Prim

/-!
# `PostScriptOp` (`/repo/src/functions.rs:240-427`)
-/

namespace PdfW

/-- The variants of `PostScriptOp` without data (functions.rs:249-334). -/
inductive PsSimple where
  | abs | add | atan | ceiling | cos | cvi | cvr | div | exp | floor | idiv | ln | log | mod | mul | neg | round | sin | sqrt
  | sub | truncate
  | and | bitshift | eq | false | ge | gt | le | lt | ne | not | or | true | xor
  | copy | dup | exch | index | pop | roll
deriving DecidableEq

/-- `PostScriptOp` (functions.rs:242-335). The variants without data are grouped under `simple`. -/
inductive PostScriptOp where
  | real (v : F32)
  | integer (v : Int)
  | simple (o : PsSimple)
  | if_ (ops : List PostScriptOp)
  | ifElse (ops1 ops2 : List PostScriptOp)

/-- `operator` for the variants without data (functions.rs:383-424). -/
def PsSimple.operator : PsSimple → Bytes
  | .abs => b!"abs"
  | .add => b!"add"
  | .atan => b!"atan"
  | .ceiling => b!"ceiling"
  | .cos => b!"cos"
  | .cvi => b!"cvi"
  | .cvr => b!"cvr"
  | .div => b!"div"
  | .exp => b!"exp"
  | .floor => b!"floor"
  | .idiv => b!"idiv"
  | .ln => b!"ln"
  | .log => b!"log"
  | .mod => b!"mod"
  | .mul => b!"mul"
  | .neg => b!"neg"
  | .round => b!"round"
  | .sin => b!"sin"
  | .sqrt => b!"sqrt"
  | .sub => b!"sub"
  | .truncate => b!"truncate"
  | .and => b!"and"
  | .bitshift => b!"bitshift"
  | .eq => b!"eq"
  | .false => b!"false"
  | .ge => b!"ge"
  | .gt => b!"gt"
  | .le => b!"le"
  | .lt => b!"lt"
  | .ne => b!"ne"
  | .not => b!"not"
  | .or => b!"or"
  | .true => b!"true"
  | .xor => b!"xor"
  | .copy => b!"copy"
  | .dup => b!"dup"
  | .exch => b!"exch"
  | .index => b!"index"
  | .pop => b!"pop"
  | .roll => b!"roll"

/-- `operator` (functions.rs:380-426). -/
def PostScriptOp.operator : PostScriptOp → Bytes
  | .real _ | .integer _ => []
  | .simple o => o.operator
  | .if_ _ => b!"if"
  | .ifElse _ _ => b!"ifelse"

/-- `buf.inner.pop()` -/
def Buf.popLast (b : Buf) : Buf := { b with inner := b.inner.dropLast }

/-- The first part of `write_slice`, before the loop (functions.rs:346-349). -/
def psOpen (n : Nat) (buf : Buf) : Buf :=
  let buf := buf.push ch!"{"
  if n > 1 then buf.push ch!" " else buf

/-- The last part of `write_slice`, after the loop (functions.rs:354-357). -/
def psClose (n : Nat) (buf : Buf) : Buf :=
  let buf := if n = 1 then buf.popLast else buf
  buf.push ch!"}"

mutual
/-- `PostScriptOp::write` (functions.rs:360-378). `write_slice` (functions.rs:345-358) of a nested block is
`psOpen`, the loop `writeOps` and `psClose`. -/
def PostScriptOp.write : PostScriptOp → Buf → Buf
  | .real r, buf => buf.pushDecimal r
  | .integer i, buf => buf.pushInt i
  | .if_ ops, buf =>
    let buf := psClose ops.length (writeOps ops (psOpen ops.length buf))
    let buf := buf.push ch!" "
    buf.extend (PostScriptOp.operator (.if_ ops))
  | .ifElse ops1 ops2, buf =>
    let buf := psClose ops1.length (writeOps ops1 (psOpen ops1.length buf))
    let buf := buf.push ch!" "
    let buf := psClose ops2.length (writeOps ops2 (psOpen ops2.length buf))
    let buf := buf.push ch!" "
    buf.extend (PostScriptOp.operator (.ifElse ops1 ops2))
  | .simple o, buf => buf.extend (PostScriptOp.operator (.simple o))
termination_by structural p => p
/-- The loop of `write_slice` (functions.rs:350-353). -/
def writeOps : List PostScriptOp → Buf → Buf
  | [], buf => buf
  | op :: ops, buf => writeOps ops ((op.write buf).push ch!" ")
termination_by structural p => p
end

/-- `write_slice` (functions.rs:345-358). -/
def writeSlice (ops : List PostScriptOp) (buf : Buf) : Buf :=
  psClose ops.length (writeOps ops (psOpen ops.length buf))

/-- `PostScriptOp::encode` (functions.rs:339-343). -/
def PostScriptOp.encode (ops : List PostScriptOp) : Buf := writeSlice ops Buf.new

end PdfW
