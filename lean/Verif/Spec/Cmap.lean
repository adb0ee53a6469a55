import Verif.Spec.Text
import Verif.Model.Cmap

/-!
# ToUnicode CMaps (ISO 32000-1, 9.10.3; Adobe Technical Note 5014)

A CMap file is a PostScript program. This is an interpreter for the operators that occur in CMap
files, written without reference to the writer.
-/

namespace PdfW.Spec

/-- All tokens up to the end of the input; the `Nat` bounds their number. -/
def tokens : Nat → Bytes → Option (List Tok)
  | 0, _ => none
  | fuel + 1, bs =>
    if skipSpace false bs = [] then some []
    else match nextToken bs with
      | none => none
      | some (t, r) => (tokens fuel r).map (t :: ·)

/-- Operands on the stack: a literal token, or a dictionary / resource. -/
inductive PsItem where
  | lit (t : Tok)
  | dict
deriving DecidableEq

/-- What an open section collects. -/
inductive CmapSection where
  | bfchar
  | codespace
deriving DecidableEq

/-- State of the interpreter. -/
structure CmapState where
  /-- operand stack, top first -/
  stack : List PsItem := []
  /-- number of open dictionaries -/
  depth : Nat := 0
  /-- definitions in order, with the dictionary depth at which they were made -/
  defs : List (Nat × Bytes × PsItem) := []
  /-- inside `begincmap … endcmap` -/
  inMap : Bool := false
  /-- the open section and its announced number of entries -/
  sect : Option (CmapSection × Nat) := none
  /-- codespace ranges -/
  ranges : List (Bytes × Bytes) := []
  /-- `bfchar` sections, in order -/
  blocks : List (List (Bytes × Bytes)) := []
  /-- defined resources -/
  resources : List (PsItem × Bytes) := []

/-- Split string operands into pairs. -/
def strPairs : List PsItem → Option (List (Bytes × Bytes))
  | [] => some []
  | .lit (.str a) :: .lit (.str b) :: r => (strPairs r).map ((a, b) :: ·)
  | _ => none

/-- A section may announce 1 to 100 entries (Technical Note 5014: at most 100 per section). -/
def sectionSize (n : Int) : Bool := 1 ≤ n && n ≤ 100

/-- Open a section: pops its size. Sections do not nest and start on an otherwise empty stack. -/
def openSection (s : CmapState) (k : CmapSection) : Option CmapState :=
  match s.stack, s.sect, s.inMap with
  | [.lit (.int n)], none, true =>
    if sectionSize n then some { s with stack := [], sect := some (k, n.toNat) } else none
  | _, _, _ => none

/-- Close a section: exactly the announced number of pairs of strings must be on the stack. -/
def closeSection (s : CmapState) (k : CmapSection) : Option (CmapState × List (Bytes × Bytes)) :=
  match s.sect with
  | none => none
  | some (k', n) =>
    if k' = k then
      match strPairs s.stack.reverse with
      | some ps => if ps.length = n then some ({ s with stack := [], sect := none }, ps) else none
      | none => none
    else none

/-- Execute an operator. -/
def cmapOp (s : CmapState) (k : Bytes) : Option CmapState :=
  if k = b!"findresource" then
    match s.stack with
    | .lit (.name _) :: .lit (.name _) :: r => some { s with stack := .dict :: r }
    | _ => none
  else if k = b!"begin" then
    match s.stack with
    | .dict :: r => some { s with stack := r, depth := s.depth + 1 }
    | _ => none
  else if k = b!"end" then
    if s.depth = 0 then none else some { s with depth := s.depth - 1 }
  else if k = b!"dict" then
    match s.stack with
    | .lit (.int n) :: r => if 0 ≤ n then some { s with stack := .dict :: r } else none
    | _ => none
  else if k = b!"dup" then
    match s.stack with
    | x :: r => some { s with stack := x :: x :: r }
    | _ => none
  else if k = b!"pop" then
    match s.stack with
    | _ :: r => some { s with stack := r }
    | _ => none
  else if k = b!"def" then
    match s.stack with
    | v :: .lit (.name n) :: r =>
      if s.depth = 0 then none else some { s with stack := r, defs := s.defs ++ [(s.depth, n, v)] }
    | _ => none
  else if k = b!"begincmap" then
    if s.inMap then none else some { s with inMap := true }
  else if k = b!"endcmap" then
    if s.inMap ∧ s.sect = none then some { s with inMap := false } else none
  else if k = b!"begincodespacerange" then openSection s .codespace
  else if k = b!"endcodespacerange" then
    (closeSection s .codespace).map fun (s, ps) => { s with ranges := s.ranges ++ ps }
  else if k = b!"beginbfchar" then openSection s .bfchar
  else if k = b!"endbfchar" then
    (closeSection s .bfchar).map fun (s, ps) => { s with blocks := s.blocks ++ [ps] }
  else if k = b!"currentdict" then
    if s.depth = 0 then none else some { s with stack := .dict :: s.stack }
  else if k = b!"defineresource" then
    match s.stack with
    | .lit (.name cat) :: v :: key :: r =>
      some { s with stack := v :: r, resources := s.resources ++ [(key, cat)] }
    | _ => none
  else
    -- any other executable name stands for its definition
    match s.defs.reverse.find? (fun d => d.2.1 == k) with
    | some (_, _, v) => some { s with stack := v :: s.stack }
    | none => none

/-- Execute one token. -/
def cmapStep (s : CmapState) : Tok → Option CmapState
  | .kw k => cmapOp s k
  | .int n => some { s with stack := .lit (.int n) :: s.stack }
  | .str x => some { s with stack := .lit (.str x) :: s.stack }
  | .name n => some { s with stack := .lit (.name n) :: s.stack }
  | _ => none

/-- Execute a program. -/
def cmapRun (s : CmapState) : List Tok → Option CmapState
  | [] => some s
  | t :: ts => match cmapStep s t with
    | some s' => cmapRun s' ts
    | none => none

/-- The (last) definition of a name at a dictionary depth. -/
def CmapState.lookup (s : CmapState) (depth : Nat) (n : Bytes) : Option PsItem :=
  (s.defs.reverse.find? (fun d => d.1 == depth && d.2.1 == n)).map (·.2.2)

/-- UTF-16BE text. -/
def utf16be (bs : Bytes) : Option (List Char) := (units bs).bind decodeUtf16

/-- Decode the destination of each entry. -/
def decodeEntries : List (Bytes × Bytes) → Option (List (Bytes × List Char))
  | [] => some []
  | (g, d) :: r => match utf16be d, decodeEntries r with
    | some t, some es => some ((g, t) :: es)
    | _, _ => none

/-- Decode every section. -/
def decodeBlocks : List (List (Bytes × Bytes)) → Option (List (List (Bytes × List Char)))
  | [] => some []
  | b :: r => match decodeEntries b, decodeBlocks r with
    | some x, some xs => some (x :: xs)
    | _, _ => none

/-- The content of a ToUnicode CMap. -/
structure ToUnicode where
  name : Bytes
  registry : Bytes
  ordering : Bytes
  supplement : Int
  wmode : Int
  codespace : List (Bytes × Bytes)
  sections : List (List (Bytes × List Char))
deriving DecidableEq

/-- Read a ToUnicode CMap: run the program; everything must be closed at the end, the CMap must be
registered as a resource under its name, and all header definitions must be there. -/
def readToUnicode (bs : Bytes) : Option ToUnicode :=
  match tokens (bs.length + 1) bs with
  | none => none
  | some ts =>
    match cmapRun {} ts with
    | none => none
    | some s =>
      match s.lookup 2 b!"CMapName", s.lookup 3 b!"Registry", s.lookup 3 b!"Ordering", s.lookup 3 b!"Supplement",
          s.lookup 2 b!"WMode", s.lookup 2 b!"CIDSystemInfo", s.lookup 2 b!"CMapType", decodeBlocks s.blocks with
      | some (.lit (.name name)), some (.lit (.str reg)), some (.lit (.str ord)), some (.lit (.int sup)),
          some (.lit (.int wm)), some .dict, some (.lit (.int _)), some secs =>
        if s.stack = [] ∧ s.depth = 0 ∧ s.inMap = false ∧ s.resources = [(.lit (.name name), b!"CMap")] then
          some ⟨name, reg, ord, sup, wm, s.ranges, secs⟩
        else none
      | _, _, _, _, _, _, _, _ => none

/-- A glyph id as a character code: one byte, or two bytes big-endian. -/
class CharCode (G : Type) where
  code : G → Bytes

instance : CharCode UInt8 := ⟨fun g => [g]⟩
instance : CharCode UInt16 := ⟨fun g => [UInt8.ofNat (g.toNat / 256), UInt8.ofNat (g.toNat % 256)]⟩

/-- Free of line ends. -/
def OneLine (bs : Bytes) : Prop := ∀ b ∈ bs, b ≠ 10 ∧ b ≠ 13

end PdfW.Spec

namespace PdfW

/-- The mapping a call asks for: `pair` maps a glyph to one character, `pair_with_multiple` to a text. -/
def CmapCall.entry {G : Type} : CmapCall G → G × List Char
  | .pair g ch => (g, [ch])
  | .pairWithMultiple g cs => (g, cs)

end PdfW
