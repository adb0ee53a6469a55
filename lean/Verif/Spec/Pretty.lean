import Verif.Model.Chunk
import Verif.Spec.Content

/-!
# The layout of pretty output

Dictionaries have one line per entry, indented by two spaces per level (at most 255); arrays are on one line, with one
space between the items; operations of content streams have one line each.
-/

namespace PdfW.Spec
open PdfW

/-- The spelling of a primitive on its own. -/
def spell (p : Prim) : Bytes := (p.write Buf.new).inner

/-- Join with a separator. -/
def joinWith (sep : Bytes) : List Bytes → Bytes
  | [] => []
  | [x] => x
  | x :: xs => x ++ (sep ++ joinWith sep xs)

/-- A new line, indented by `n` spaces. -/
def newLine (n : Nat) : Bytes := ch!"\n" :: List.replicate n ch!" "

/-- Two spaces per level, as far as a byte can count. -/
def indentAt (depth : Nat) : Nat := Min.min 255 (2 * depth)

mutual
/-- The layout of an object inside `depth` dictionaries. -/
def layout (depth : Nat) : Prog → Bytes
  | .prim p => spell p
  | .array items => b!"[" ++ (joinWith b!" " (layoutItems depth items) ++ b!"]")
  | .dict entries =>
    b!"<<" ++ (layoutEntries depth entries ++
      ((if entries.isEmpty then [] else newLine (indentAt (depth + 1) - 2)) ++ b!">>"))
  | .unused => []
termination_by structural p => p
/-- The items of an array. -/
def layoutItems (depth : Nat) : List Prog → List Bytes
  | [] => []
  | x :: xs => layout depth x :: layoutItems depth xs
termination_by structural p => p
/-- The lines of a dictionary. -/
def layoutEntries (depth : Nat) : List (Bytes × Prog) → Bytes
  | [] => []
  | (k, v) :: es =>
    newLine (indentAt (depth + 1)) ++ (spell (.name k) ++ (b!" " ++ (layout (depth + 1) v ++ layoutEntries depth es)))
termination_by structural p => p
end

/-- One operation of a content stream: operands and operator on one line. -/
def layoutOp (operator : Bytes) (operands : List Prog) : Bytes := joinWith b!" " (layoutItems 0 operands ++ [operator])

/-- A content stream. -/
def layoutContent (cs : List ContentCall) : Bytes := joinWith b!"\n" (cs.map fun c => layoutOp (operatorOf c) (operandsOf c))

/-- An indirect object. -/
def layoutObject (id : Ref) (body : Bytes) : Bytes := spell (.int id.get) ++ (b!" 0 obj\n" ++ (body ++ b!"\nendobj\n"))

/-- A stream object. -/
def layoutStream (dict data : Bytes) : Bytes := dict ++ (b!"\nstream\n" ++ (data ++ b!"\nendstream"))

end PdfW.Spec
