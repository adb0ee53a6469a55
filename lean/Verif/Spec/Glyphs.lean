import Verif.Spec.Fonts
import Verif.Spec.Colors

/-!
# What the characters of Type 3 fonts look like (ISO 32000-1, 9.6.5)

A reader that finds, for every Type 3 font named in the resources of a page and every code that its encoding names, the glyph description,
and determines what it paints. It knows nothing about the writer.
-/

namespace PdfW.Spec.Imaging
open PdfW Spec

/-! ## The reader -/

/-- How a glyph description begins (Table 113): with the displacement of the glyph, and for a shape that is painted in the current color with its
bounding box. -/
inductive GlyphStart (ν : Type) where
  | colored (displacement : List ν)
  | shape (displacement box : List ν)

/-- A glyph description must begin with `d0` or `d1`. -/
def readGlyphStart : List ReadOp → Option (GlyphStart Val × List ReadOp)
  | [] => none
  | (k, args) :: ops =>
    if ¬ args.all isNumber then none
    else if k = b!"d0" ∧ args.length = 2 then some (.colored args, ops)
    else if k = b!"d1" ∧ args.length = 6 then some (.shape (args.take 2) (args.drop 2), ops)
    else none

/-- A glyph description: how it begins, and what it paints, in the resources given. -/
def readGlyph (unf : Val → Bytes → Option Bytes) (f : FileEnd) (file : Bytes) (forms : Nat) (res : Option Val) (v : Val) :
    Option (GlyphStart Val × List (Element Val Val)) :=
  (refNumber v).bind fun n => (decodedStream unf f file n).bind fun data => (readContent data).bind fun ops => (readGlyphStart ops).bind fun s =>
    (readAllActs s.2).bind fun acts =>
      (display ⟨.name, namedValue f file res, displayObject unf f file forms res⟩ (blank (initial .name)) acts).map fun es => (s.1, es)

/-- A character of a font: its code, the name of its glyph, and what is painted if the font has this glyph. -/
abbrev Character (ν σ : Type) := Int × Bytes × Option (GlyphStart ν × List (Element ν σ))

/-- The characters of a Type 3 font (Table 112); other fonts have none that are painted in this way. Names are looked up in the resources of the
font, or those of the page if it has none. -/
def readCharacters (unf : Val → Bytes → Option Bytes) (f : FileEnd) (file : Bytes) (forms : Nat) (page : Option Val) (d : List (Bytes × Val)) :
    Option (List (Character Val Val)) :=
  ((lookup b!"Subtype" d).bind nameOf).bind fun t =>
    if t = b!"Type3" then
      (effectiveResources page d).bind fun res => ((lookup b!"Encoding" d).bind readEncoding).bind fun enc =>
        match enc, lookup b!"CharProcs" d with
        | .custom _ ds, some (.dict procs) =>
          readEach (fun e => (optionalEntry e.2 procs (readGlyph unf f file forms res)).map fun g => (e.1, e.2, g)) ds
        | _, _ => none
    else some []

/-- The characters of the fonts in the resources of a page. -/
def readPageCharacters (unf : Val → Bytes → Option Bytes) (f : FileEnd) (file : Bytes) (forms : Nat) (_ : Nat) (resources : Option Val)
    (_ : List (Bytes × Val)) : Option (List (Bytes × List (Character Val Val))) :=
  match resources with
  | none => some []
  | some r => (followDict f file r).bind fun d =>
      readCategory f file d b!"Font" fun v => (followDict f file v).bind (readCharacters unf f file forms resources)

/-- The characters of the fonts of the pages of a document, page by page. -/
def fileCharacters (unf : Val → Bytes → Option Bytes) (file : Bytes) (depth forms : Nat) : Option (List (List (Bytes × List (Character Val Val)))) :=
  (readFile unf file).bind fun f => (readCatalog f file).bind fun d => (lookup b!"Pages" d).bind refNumber |>.bind fun p =>
    readPagesWith (readPageCharacters unf f file forms) f file depth none p

/-- The character codes shown, in order (for simple fonts one byte each). -/
def codesShown {N : Type} : List (Text N) → List UInt8
  | [] => []
  | .codes s :: ts => s ++ codesShown ts
  | .adjust _ :: ts => codesShown ts

/-- The character with this code; if there are several, the last. -/
def characterAt {ν σ : Type} (c : UInt8) : List (Character ν σ) → Option (Character ν σ)
  | [] => none
  | x :: xs =>
    match characterAt c xs with
    | some y => some y
    | none => if x.1 = c.toNat then some x else none

/-- The characters painted where text is shown in a Type 3 font that has its own resources: those with the codes shown, in order. -/
def readShownGlyphs (unf : Val → Bytes → Option Bytes) (f : FileEnd) (file : Bytes) (forms : Nat) (x : Run Val Val) :
    Option (List (Option (Character Val Val))) :=
  match valueOf .font x.settings with
  | some (.font v _) => (followDict f file v).bind fun d => (readCharacters unf f file forms none d).map fun cs =>
      (codesShown x.shown).map fun c => characterAt c cs
  | _ => none

/-! ## What was asked for -/

/-- The calls with which a glyph description begins. -/
inductive Starts : ContentCall → GlyphStart F32 → Prop
  | colored {w} : Starts (.startColorGlyph w) (.colored [w, F32.zero])
  | shape {w a b c d} : Starts (.startShapeGlyph w a b c d) (.shape [w, F32.zero] [a, b, c, d])

/-- The glyph of this name, and what the calls on its `Content` paint; nothing if the font has no such glyph. -/
def GlyphGiven (unf : Val → Bytes → Option Bytes) (items : List Item) (forms : Nat) (res : Option (List ResourcesCall))
    (glyphs : List (Bytes × ContentPart)) (name : Bytes) : Option (GlyphStart F32 × List (Element F32 Prog)) → Prop
  | none => glyphs.filter (fun g => g.1 == name) = []
  | some (s, es) => ∃ part c rest, glyphs.filter (fun g => g.1 == name) = [(name, part)] ∧ PartWritten unf items part ∧ part.calls = c :: rest ∧
      Starts c s ∧ Displays unf items forms res (initial fun n => .prim (.name n)) rest es

/-- The characters of a font: those of the differences of its encoding if it is a Type 3 font. -/
def CharactersGiven (unf : Val → Bytes → Option Bytes) (items : List Item) (forms : Nat) (page : Option (List ResourcesCall)) (p : Prog)
    (chars : List (Character F32 Prog)) : Prop :=
  (∃ calls, Stored items p (Type1Font.prog calls) ∧ NoCall Type1FontMeans b!"Subtype" calls ∧ chars = []) ∨
  (∃ calls, Stored items p (Type0Font.prog calls) ∧ NoCall Type0FontMeans b!"Subtype" calls ∧ chars = []) ∨
  ∃ calls cs base ds glyphs res, Stored items p (Type3Font.prog calls) ∧ NoCall Type3FontMeans b!"Subtype" calls ∧
    OnlyCall Type3FontMeans b!"Encoding" calls (.encodingCustom cs) ∧ (EncodingGiven.custom cs base (some ds)).Right ∧
    OnlyCall Type3FontMeans b!"CharProcs" calls (.charProcs (glyphs.map fun g => (g.1, g.2.id))) ∧
    ResourcesSet Type3FontMeans .resources (fun k v => .raw k v) items calls page res ∧
    Pairwise (fun (e : Int × Bytes) (x : Character F32 Prog) => x.1 = e.1 ∧ x.2.1 = e.2 ∧ GlyphGiven unf items forms res glyphs e.2 x.2.2)
      (ds.flatMap differencesGiven) chars

/-- The characters of the fonts in the resources of a page. -/
def PageCharacters (unf : Val → Bytes → Option Bytes) (items : List Item) (forms : Nat) (res : Option (List ResourcesCall))
    (x : List (Bytes × List (Character F32 Prog))) : Prop :=
  match res with
  | none => x = []
  | some rc => CategoryGiven items rc b!"Font" .fonts (CharactersGiven unf items forms res) x

/-- The characters of the fonts of the pages of the tree. -/
def _root_.PdfW.Spec.PageTree.Characters (unf : Val → Bytes → Option Bytes) (items : List Item) (forms : Nat) (t : PageTree)
    (xs : List (List (Bytes × List (Character F32 Prog)))) : Prop :=
  t.Each (fun _ res _ x => PageCharacters unf items forms res x) items none xs

/-! ## What is read is what was asked for -/

/-- The same beginning. -/
inductive SameStart : GlyphStart F32 → GlyphStart Val → Prop
  | colored {a a'} : Pairwise NumIs a a' → SameStart (.colored a) (.colored a')
  | shape {a a' b b'} : Pairwise NumIs a a' → Pairwise NumIs b b' → SameStart (.shape a b) (.shape a' b')

/-- The same character: the same code, the same name, and the same elements are painted, with the same graphics states. -/
def SameCharacter (x : Character F32 Prog) (y : Character Val Val) : Prop :=
  y.1 = x.1 ∧ y.2.1 = x.2.1 ∧ BothOrNone (fun a b => SameStart a.1 b.1 ∧ Pairwise (SameElement NumIs Denotes) a.2 b.2) x.2.2 y.2.2

/-- The same characters under the same names of fonts. -/
def SameCharacters (xs : List (Bytes × List (Character F32 Prog))) (ys : List (Bytes × List (Character Val Val))) : Prop :=
  Pairwise (fun x y => y.1 = x.1 ∧ Pairwise SameCharacter x.2 y.2) xs ys

/-- If the element is text, every code it shows in a Type 3 font paints, in the element read, the character asked for. -/
def RunsAsAsked (unf : Val → Bytes → Option Bytes) (items : List Item) (f : FileEnd) (file : Bytes) (forms m : Nat) (e : Element F32 Prog)
    (e' : Element Val Val) : Prop :=
  ∀ run state font size chars, e = .text run state → valueOf .font run.settings = some (.font font size) →
    CharactersGiven unf items forms none font chars →
    ∃ run' state' shown, e' = .text run' state' ∧ readShownGlyphs unf f file m run' = some shown ∧
      Pairwise (BothOrNone SameCharacter) ((codesShown run.shown).map fun c => characterAt c chars) shown

end PdfW.Spec.Imaging
