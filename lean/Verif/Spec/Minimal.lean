import Verif.Spec.Lex

/-!
# White space and lexemes (ISO 32000-1, 7.2)

The spelling of the tokens of a byte string, and when no byte of white space can be saved.
-/

namespace PdfW.Spec

/-- `ls` are the spellings of all the tokens of `bs`, in order: skip white space and comments; read the next token,
the input in front of what is left over is its spelling; go on with what is left over; until nothing is left. -/
inductive Lexemes : Bytes → List Bytes → Prop
  | nil {bs : Bytes} (h : skipSpace false bs = []) : Lexemes bs []
  | cons {bs l rest : Bytes} {t : Tok} {ls : List Bytes} (h : nextToken bs = some (t, rest))
      (hl : skipSpace false bs = l ++ rest) (hs : Lexemes rest ls) : Lexemes bs (l :: ls)

/-- Nothing shorter has the same tokens, spelled the same way. -/
def Minimal (bs : Bytes) : Prop :=
  ∃ ls, Lexemes bs ls ∧ ∀ other, Lexemes other ls → bs.length ≤ other.length

end PdfW.Spec
