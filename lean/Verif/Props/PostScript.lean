import Verif.Proof.PostScript

/-! # C32: PostScript calculator programs -/

set_option linter.unusedSimpArgs false
set_option linter.unusedVariables false

namespace PdfW.Props
open PdfW Spec

/-- C32: for every program, however deeply nested, with finite real operands, a Type 4 function reader
recovers from the encoded bytes exactly the operations given: same order, same nesting, same numbers. -/
theorem C32_program_reads_back (ops : List PostScriptOp) (hf : AllPsFinite ops) :
    ∃ prog, readCalc (PostScriptOp.encode ops).inner = some prog ∧ AllCalcMean ops prog :=
  ⟨_, readCalc_encode ops hf, ps_allMean ops hf⟩

/-- Different operators have different names, all of them in Table 42. -/
theorem C32_operators_distinct (a b : PsSimple) : (isoName a = isoName b ↔ a = b) ∧ isoName a ∈ calcOperators := by
  have h : ∀ a : PsSimple, isoName a ∈ calcOperators := by intro a; cases a <;> decide
  refine ⟨⟨fun e => ?_, fun e => by rw [e]⟩, h a⟩
  cases a <;> cases b <;> first | rfl | (exact absurd e (by decide))

/-- A program with every kind of operation. -/
def sampleProgram : List PostScriptOp :=
  [.real ⟨false, 1069547520⟩, .integer (-7), .simple .add, .simple .dup, .integer 0, .simple .gt,
   .ifElse [.simple .pop] [.if_ [], .if_ [.real ⟨true, 0⟩, .simple .mul]]]

/-- The hypothesis is met by it. -/
example : AllPsFinite sampleProgram := by
  simp [sampleProgram, AllPsFinite, PsFinite]; decide

/-- What it looks like. -/
example : (PostScriptOp.encode sampleProgram).inner =
    b!"{ 1.5 -7 add dup 0 gt {pop} { {} if { -0.0 mul } if } ifelse }" := by
  decide +kernel

/-- The bound 10^12 is sharp: a real operand of that size is written without a decimal point and so
is read back as an integer. -/
theorem C32_large_real_becomes_integer :
    (PostScriptOp.encode [.real F32.c1e12]).inner = b!"{1000000000000}" ∧ ¬ BelowTera F32.c1e12 := by
  refine ⟨by decide +kernel, by unfold BelowTera; decide +kernel⟩

end PdfW.Props
