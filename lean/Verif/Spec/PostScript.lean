import Verif.Spec.Cmap
import Verif.Spec.Float
import Verif.Model.PostScript

/-!
# PostScript calculator functions (ISO 32000-1, 7.10.5)

A reader for Type 4 function streams: numbers, the operators of Table 42, and blocks in braces that
must directly serve as operands of `if` and `ifelse`.
-/

namespace PdfW.Spec
open PdfW

/-- Instructions of a calculator program. A real is `m / 10^s`. -/
inductive Calc where
  | int (n : Int)
  | real (m : Int) (s : Nat)
  | op (k : Bytes)
  | cond (body : List Calc)
  | condElse (yes no : List Calc)

/-- The operators of Table 42 other than `if` and `ifelse`. -/
def calcOperators : List Bytes :=
  [-- arithmetic
   b!"abs", b!"add", b!"atan", b!"ceiling", b!"cos", b!"cvi", b!"cvr", b!"div", b!"exp", b!"floor", b!"idiv", b!"ln", b!"log",
   b!"mod", b!"mul", b!"neg", b!"round", b!"sin", b!"sqrt", b!"sub", b!"truncate",
   -- relational, boolean and bitwise
   b!"and", b!"bitshift", b!"eq", b!"false", b!"ge", b!"gt", b!"le", b!"lt", b!"ne", b!"not", b!"or", b!"true", b!"xor",
   -- stack
   b!"copy", b!"dup", b!"exch", b!"index", b!"pop", b!"roll"]

/-- An item of an unfinished block: an instruction, or a block waiting for its conditional operator. -/
inductive CalcItem where
  | ins (c : Calc)
  | block (cs : List Calc)

/-- A block is complete when every inner block was consumed by a conditional operator. Items are given in
reverse order. -/
def closeItems : List CalcItem → List Calc → Option (List Calc)
  | [], acc => some acc
  | .ins c :: r, acc => closeItems r (c :: acc)
  | .block _ :: _, _ => none

/-- Effect of one token on the open blocks, innermost first. -/
def calcStep : Tok → List (List CalcItem) → Option (List (List CalcItem))
  | .braceOpen, st => some ([] :: st)
  | .braceClose, f :: g :: st =>
    match closeItems f [] with
    | some cs => some ((.block cs :: g) :: st)
    | none => none
  | .int n, f :: st => some ((.ins (.int n) :: f) :: st)
  | .real m s, f :: st => some ((.ins (.real m s) :: f) :: st)
  | .kw k, f :: st =>
    if k = b!"if" then
      match f with
      | .block b :: f' => some ((.ins (.cond b) :: f') :: st)
      | _ => none
    else if k = b!"ifelse" then
      match f with
      | .block b :: .block a :: f' => some ((.ins (.condElse a b) :: f') :: st)
      | _ => none
    else if calcOperators.contains k then some ((.ins (.op k) :: f) :: st)
    else none
  | _, _ => none

/-- Effect of all tokens. -/
def calcRun : List Tok → List (List CalcItem) → Option (List (List CalcItem))
  | [], st => some st
  | t :: ts, st => match calcStep t st with
    | some st' => calcRun ts st'
    | none => none

/-- A function stream is exactly one block. -/
def readCalc (bs : Bytes) : Option (List Calc) :=
  match tokens (bs.length + 1) bs with
  | none => none
  | some ts =>
    match calcRun ts [[]] with
    | some [[.block cs]] => some cs
    | _ => none

/-! ## What the operations given to the API mean -/

/-- Table 42 names of the operations without data. -/
def isoName : PsSimple → Bytes
  | .abs => b!"abs" | .add => b!"add" | .atan => b!"atan" | .ceiling => b!"ceiling" | .cos => b!"cos"
  | .cvi => b!"cvi" | .cvr => b!"cvr" | .div => b!"div" | .exp => b!"exp" | .floor => b!"floor"
  | .idiv => b!"idiv" | .ln => b!"ln" | .log => b!"log" | .mod => b!"mod" | .mul => b!"mul"
  | .neg => b!"neg" | .round => b!"round" | .sin => b!"sin" | .sqrt => b!"sqrt" | .sub => b!"sub"
  | .truncate => b!"truncate"
  | .and => b!"and" | .bitshift => b!"bitshift" | .eq => b!"eq" | .false => b!"false" | .ge => b!"ge"
  | .gt => b!"gt" | .le => b!"le" | .lt => b!"lt" | .ne => b!"ne" | .not => b!"not" | .or => b!"or"
  | .true => b!"true" | .xor => b!"xor"
  | .copy => b!"copy" | .dup => b!"dup" | .exch => b!"exch" | .index => b!"index" | .pop => b!"pop" | .roll => b!"roll"

/-- A calculator number as a PDF value. -/
def Calc.val : Calc → Val
  | .int n => .int n
  | .real m s => .real m s
  | _ => .null

/-- Magnitude below `10^12`: `scaled` is the magnitude times `2^149`. -/
def BelowTera (v : F32) : Prop := F32.scaled v.mag.val < 999999995904 * 2 ^ 149

mutual
/-- The instruction `c` is the operation given. A real operand below 10^12 (as an `f32`) is read as a real. -/
def CalcMeans : PostScriptOp → Calc → Prop
  | .real v, c => NumIs v c.val ∧ (BelowTera v → ∃ m s, c = .real m s)
  | .integer i, c => c = .int i
  | .simple o, c => c = .op (isoName o)
  | .if_ ops, c => ∃ cs, c = .cond cs ∧ AllCalcMean ops cs
  | .ifElse a b, c => ∃ as bs, c = .condElse as bs ∧ AllCalcMean a as ∧ AllCalcMean b bs
termination_by structural p => p
def AllCalcMean : List PostScriptOp → List Calc → Prop
  | [], cs => cs = []
  | o :: os, cs => ∃ c r, cs = c :: r ∧ CalcMeans o c ∧ AllCalcMean os r
termination_by structural p => p
end

mutual
/-- All real operands are finite. -/
def PsFinite : PostScriptOp → Prop
  | .real v => v.isFinite = true
  | .integer _ | .simple _ => True
  | .if_ ops => AllPsFinite ops
  | .ifElse a b => AllPsFinite a ∧ AllPsFinite b
termination_by structural p => p
def AllPsFinite : List PostScriptOp → Prop
  | [] => True
  | o :: os => PsFinite o ∧ AllPsFinite os
termination_by structural p => p
end

end PdfW.Spec
