import Verif.Spec.Embedded
import Verif.Spec.Display

/-!
# What is painted, under other object numbers

Elements stay as they are, with the graphics states in effect, but for the numbers of XObjects, and for references to other objects in resources.
-/

namespace PdfW.Spec.Imaging
open PdfW Spec

section
variable {N N' V V' : Type} (r : N → N') (q : V → V') (g : Nat → Nat)

def Segment.map (s : Segment N) : Segment N' := ⟨s.kind, s.points.map r⟩

def Value.map : Value N V → Value N' V'
  | .number x => .number (r x)
  | .negated x => .negated (r x)
  | .integer i => .integer i
  | .name n => .name n
  | .dash xs x => .dash (xs.map r) (r x)
  | .font f x => .font (q f) (r x)
  | .dictionary d => .dictionary (q d)

def Setting.map (s : Setting N V) : Setting N' V' := ⟨s.param, s.value.map r q⟩

def Color.map (c : Color N V) : Color N' V' := ⟨q c.space, c.components.map r, c.pattern.map q⟩

def Move.map : Move N V → Move N' V'
  | .by x y => .by (r x) (r y)
  | .matrix m => .matrix (m.map r)
  | .next l => .next (l.map (Value.map r q))

def Text.map : Text N → Text N'
  | .codes s => .codes s
  | .adjust x => .adjust (r x)

def Run.map (x : Run N V) : Run N' V' :=
  ⟨x.moves.map (Move.map r q), x.index, x.shown.map (Text.map r), x.ctm.map (List.map r), x.settings.map (Setting.map r q)⟩

def Clip.map : Clip N V → Clip N' V'
  | .path p rule m => .path (p.map (Segment.map r)) rule (m.map (List.map r))
  | .box b m => .box (b.map r) (m.map (List.map r))
  | .text xs => .text (xs.map (Run.map r q))

def GState.map (s : GState N V) : GState N' V' :=
  ⟨s.ctm.map (List.map r), s.clips.map (Clip.map r q), s.stroking.map r q, s.filling.map r q, s.settings.map (Setting.map r q)⟩

/-- Numbers, resources, and the numbers of XObjects are replaced. -/
def Element.map : Element N V → Element N' V'
  | .path p fill stroke s => .path (p.map (Segment.map r)) fill stroke (s.map r q)
  | .text x s => .text (x.map r q) (s.map r q)
  | .shading v s => .shading (q v) (s.map r q)
  | .image n s => .image (g n) (s.map r q)
  | .enter n s => .enter (g n) (s.map r q)
  | .leave n => .leave (g n)

end

/-- An element with the new object numbers. -/
def renameElement (g : Nat → Nat) : Element Val Val → Element Val Val := Element.map (renameVal g) (renameVal g) g

end PdfW.Spec.Imaging
