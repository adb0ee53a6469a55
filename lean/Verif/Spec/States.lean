import Verif.Spec.Colors
import Verif.Spec.Geometry

/-!
# Graphics state parameters and transparency (ISO 32000-1, 8.4.5, 10.4, 10.5, 11.6.5 and 11.6.6)

A reader that is given only the bytes of a file and obtains for every page the graphics state parameters its resources name, with everything
they refer to: the functions for black generation, undercolor removal and transfer, and soft masks with the group they are derived from, what
it paints, the color space it is blended in, the backdrop and the transfer function. It knows nothing about the writer.
-/

namespace PdfW.Spec
open PdfW Imaging

/-! ## What there is -/

/-- How lines are drawn (Table 58). -/
structure Lines (ν : Type) where
  width : Option ν
  cap : Option Int
  join : Option Int
  miter : Option ν
  dash : Option (List ν × ν)

/-- A function of the device: the default, or the given one. -/
inductive Device (φ : Type) where
  | default
  | function (f : φ)

/-- How colors are rendered (Table 58). -/
structure Rendering (ν φ : Type) where
  intent : Option Bytes
  overprintStroke : Option Bool
  overprintFill : Option Bool
  overprintMode : Option Int
  black : Option (Device φ)
  undercolor : Option (Device φ)
  transfer : Option (Device φ)
  halftone : Option (Device Nat)
  flatness : Option ν
  smoothness : Option ν
  adjust : Option Bool

/-- The attributes of a group (Tables 96 and 147). -/
structure Attrs (σ : Type) where
  kind : Option Bytes
  space : Option σ
  isolated : Bool
  knockout : Bool

/-- A group a mask is derived from: its number, its attributes, and what it paints. -/
structure Source (σ ε : Type) where
  number : Nat
  attrs : Option (Attrs σ)
  elements : List ε

/-- A soft mask (Table 144), or the name that stands for none. -/
inductive Soft (ν φ σ ε : Type) where
  | named (name : Bytes)
  | mask (kind : Bytes) (group : Source σ ε) (backdrop : Option (List ν)) (transfer : Option φ)

/-- How objects are blended (Table 58). -/
structure Blending (ν φ σ ε : Type) where
  mode : Option Bytes
  soft : Option (Soft ν φ σ ε)
  strokeAlpha : Option ν
  fillAlpha : Option ν
  alphaIsShape : Option Bool
  textKnockout : Option Bool

/-- Parameters of the graphics state. -/
structure Params (ν φ σ ε : Type) where
  lines : Lines ν
  rendering : Rendering ν φ
  blending : Blending ν φ σ ε

/-! ## The reader -/

abbrev ReadParams := Params Val ReadFn ReadSpace (Element Val Val)

/-- A dash pattern: an array of an array and a phase. -/
def dashOf : Val → Option (List Val × Val)
  | .arr [.arr vs, phase] => some (vs, phase)
  | _ => none

def readLines (d : List (Bytes × Val)) : Option (Lines Val) :=
  (optionalEntry b!"LW" d numberOf).bind fun width => (optionalEntry b!"LC" d intOf).bind fun cap => (optionalEntry b!"LJ" d intOf).bind fun join =>
    (optionalEntry b!"ML" d numberOf).bind fun miter => (optionalEntry b!"D" d dashOf).map fun dash => ⟨width, cap, join, miter, dash⟩

/-- The name `Default`, or what is read. -/
def readDefault {φ : Type} (read : Val → Option φ) (v : Val) : Option (Device φ) :=
  if nameOf v = some b!"Default" then some .default else (read v).map .function

/-- The newer entry takes precedence over the older one (Table 58, BG2, UCR2 and TR2). -/
def readDevice {φ : Type} (old new : Bytes) (d : List (Bytes × Val)) (read : Val → Option φ) : Option (Option (Device φ)) :=
  (optionalEntry new d (readDefault read)).bind fun x => match x with
    | some y => some (some y)
    | none => optionalEntry old d fun v => (read v).map .function

def readRendering (fn : Val → Option ReadFn) (d : List (Bytes × Val)) : Option (Rendering Val ReadFn) :=
  (optionalEntry b!"RI" d nameOf).bind fun intent => (optionalEntry b!"OP" d truthOf).bind fun stroke => (optionalEntry b!"op" d truthOf).bind fun fill =>
    (optionalEntry b!"OPM" d intOf).bind fun mode => (readDevice b!"BG" b!"BG2" d fn).bind fun black =>
      (readDevice b!"UCR" b!"UCR2" d fn).bind fun undercolor => (readDevice b!"TR" b!"TR2" d fn).bind fun transfer =>
        (optionalEntry b!"HT" d (readDefault refNumber)).bind fun halftone => (optionalEntry b!"FL" d numberOf).bind fun flatness =>
          (optionalEntry b!"SM" d numberOf).bind fun smoothness => (optionalEntry b!"SA" d truthOf).map fun adjust =>
            ⟨intent, stroke, fill, mode, black, undercolor, transfer, halftone, flatness, smoothness, adjust⟩

/-- The attributes of a group; a group is neither isolated nor a knockout group unless it says so. -/
def readAttrs (f : FileEnd) (file : Bytes) (space : Val → Option ReadSpace) (v : Val) : Option (Attrs ReadSpace) :=
  (followDict f file v).bind fun d => (optionalEntry b!"S" d nameOf).bind fun kind => (optionalEntry b!"CS" d space).bind fun cs =>
    (optionalEntry b!"I" d truthOf).bind fun isolated => (optionalEntry b!"K" d truthOf).map fun knockout =>
      ⟨kind, cs, isolated.getD false, knockout.getD false⟩

/-- The group a mask is derived from: a form, painted like other forms. -/
def readSource (unf : Val → Bytes → Option Bytes) (f : FileEnd) (file : Bytes) (forms : Nat) (space : Val → Option ReadSpace) (v : Val) :
    Option (Source ReadSpace (Element Val Val)) :=
  (loadObject f file v).bind fun o => o.2.bind fun n => (optionalEntry b!"Group" o.1 (readAttrs f file space)).bind fun attrs =>
    (readAppearance unf f file forms n).map fun elements => ⟨n, attrs, elements⟩

/-- A soft mask: a name, or a dictionary, in place or by reference. -/
def readSoft (unf : Val → Bytes → Option Bytes) (f : FileEnd) (file : Bytes) (forms : Nat) (fn : Val → Option ReadFn) (space : Val → Option ReadSpace) :
    Val → Option (Soft Val ReadFn ReadSpace (Element Val Val))
  | .name n => some (.named n)
  | v => (followDict f file v).bind fun d => (requiredEntry b!"S" d nameOf).bind fun kind =>
      (requiredEntry b!"G" d (readSource unf f file forms space)).bind fun group => (optionalEntry b!"BC" d itemsOf).bind fun backdrop =>
        (optionalEntry b!"TR" d fn).map fun transfer => .mask kind group backdrop transfer

def readBlending (soft : Val → Option (Soft Val ReadFn ReadSpace (Element Val Val))) (d : List (Bytes × Val)) :
    Option (Blending Val ReadFn ReadSpace (Element Val Val)) :=
  (optionalEntry b!"BM" d nameOf).bind fun mode => (optionalEntry b!"SMask" d soft).bind fun soft => (optionalEntry b!"CA" d numberOf).bind fun stroke =>
    (optionalEntry b!"ca" d numberOf).bind fun fill => (optionalEntry b!"AIS" d truthOf).bind fun shape => (optionalEntry b!"TK" d truthOf).map fun text =>
      ⟨mode, soft, stroke, fill, shape, text⟩

/-- A graphics state parameter dictionary, in place or by reference. -/
def readParams (unf : Val → Bytes → Option Bytes) (f : FileEnd) (file : Bytes) (depth forms : Nat) (v : Val) : Option ReadParams :=
  (followDict f file v).bind fun d => (readLines d).bind fun lines => (readRendering (readFn unf f file depth) d).bind fun rendering =>
    (readBlending (readSoft unf f file forms (readFn unf f file depth) (readSpace unf f file depth)) d).map fun blending => ⟨lines, rendering, blending⟩

/-- The graphics state parameters the resources in effect on a page name. -/
def readPageStates (unf : Val → Bytes → Option Bytes) (f : FileEnd) (file : Bytes) (depth forms : Nat) (_ : Nat) (resources : Option Val)
    (_ : List (Bytes × Val)) : Option (List (Bytes × ReadParams)) :=
  match resources with
  | none => some []
  | some r => (followDict f file r).bind fun d => readCategory f file d b!"ExtGState" (readParams unf f file depth forms)

/-- The graphics state parameters of the pages of a file, page by page. `tree` bounds the depth of the page tree. -/
def fileStates (unf : Val → Bytes → Option Bytes) (file : Bytes) (tree depth forms : Nat) : Option (List (List (Bytes × ReadParams))) :=
  (readFile unf file).bind fun f => (readCatalog f file).bind fun d => (lookup b!"Pages" d).bind refNumber |>.bind fun p =>
    readPagesWith (readPageStates unf f file depth forms) f file tree none p

/-! ## What was asked for -/

abbrev GivenParams := Params F32 GivenFn GivenSpace (Element F32 Prog)

/-- The entry is set by the one call for it, or not at all. -/
abbrev StateSets {β : Type} (calls : List ExtGraphicsStateCall) (key : Bytes) (x : Option β) (c : β → ExtGraphicsStateCall) : Prop :=
  MaybeCall (ExtGraphicsStateMeans .code) key calls x c

structure LinesSet (calls : List ExtGraphicsStateCall) (x : Lines F32) : Prop where
  width : StateSets calls b!"LW" x.width .lineWidth
  cap : ∃ c, x.cap = c.map isoLineCapStyle ∧ StateSets calls b!"LC" c .lineCap
  join : ∃ c, x.join = c.map isoLineJoinStyle ∧ StateSets calls b!"LJ" c .lineJoin
  miter : StateSets calls b!"ML" x.miter .miterLimit
  dash : StateSets calls b!"D" x.dash fun p => .dashPattern p.1 p.2

/-- Nothing, the default (whatever the older entry says), or a function that was written. -/
inductive DeviceSet (unf : Val → Bytes → Option Bytes) (items : List Item) (depth : Nat) (calls : List ExtGraphicsStateCall) (old new : Bytes)
    (byRef : Ref → ExtGraphicsStateCall) (byDefault : ExtGraphicsStateCall) : Option (Device GivenFn) → Prop
  | none : NoCall (ExtGraphicsStateMeans .code) old calls → NoCall (ExtGraphicsStateMeans .code) new calls →
      DeviceSet unf items depth calls old new byRef byDefault none
  | default : OnlyCall (ExtGraphicsStateMeans .code) new calls byDefault → DeviceSet unf items depth calls old new byRef byDefault (some .default)
  | function {id g} : NoCall (ExtGraphicsStateMeans .code) new calls → OnlyCall (ExtGraphicsStateMeans .code) old calls (byRef id) →
      FnWritten unf items depth (.prim (.ref id)) g → DeviceSet unf items depth calls old new byRef byDefault (some (.function g))

/-- The call for a halftone. -/
def halftoneCall : Option Ref → ExtGraphicsStateCall
  | none => .halftoneDefault
  | some id => .halftone id

/-- The halftone the call asks for. -/
def halftoneIs : Option Ref → Device Nat
  | none => .default
  | some id => .function id.get.toNat

structure RenderingSet (unf : Val → Bytes → Option Bytes) (items : List Item) (depth : Nat) (calls : List ExtGraphicsStateCall)
    (x : Rendering F32 GivenFn) : Prop where
  intent : ∃ i, x.intent = i.map isoRenderingIntent ∧ StateSets calls b!"RI" i .renderingIntent
  overprintStroke : StateSets calls b!"OP" x.overprintStroke .overprint
  overprintFill : StateSets calls b!"op" x.overprintFill .overprintFill
  overprintMode : ∃ m, x.overprintMode = m.map isoOverprintMode ∧ StateSets calls b!"OPM" m .overprintMode
  black : DeviceSet unf items depth calls b!"BG" b!"BG2" .blackGeneration .blackGenerationDefault x.black
  undercolor : DeviceSet unf items depth calls b!"UCR" b!"UCR2" .undercolorRemoval .undercolorRemovalDefault x.undercolor
  transfer : DeviceSet unf items depth calls b!"TR" b!"TR2" .transfer .transferDefault x.transfer
  halftone : ∃ h, x.halftone = h.map halftoneIs ∧ StateSets calls b!"HT" h halftoneCall
  flatness : StateSets calls b!"FL" x.flatness .flatness
  smoothness : StateSets calls b!"SM" x.smoothness .smoothness
  adjust : StateSets calls b!"SA" x.adjust .strokeAdjustment

/-- The attributes these calls on `Group` set. -/
structure AttrsSet (unf : Val → Bytes → Option Bytes) (items : List Item) (depth : Nat) (calls : List GroupCall) (x : Attrs GivenSpace) : Prop where
  kind : (x.kind = none ∧ NoCall GroupMeans b!"S" calls) ∨ (x.kind = some b!"Transparency" ∧ OnlyCall GroupMeans b!"S" calls .transparency)
  space : ∃ p, MaybeCall GroupMeans b!"CS" calls p .colorSpace ∧ BothOrNone (SpaceWritten unf items depth) p x.space
  isolated : ∃ b : Option Bool, x.isolated = b.getD false ∧ MaybeCall GroupMeans b!"I" calls b .isolated
  knockout : ∃ b : Option Bool, x.knockout = b.getD false ∧ MaybeCall GroupMeans b!"K" calls b .knockout

/-- The form that was written is this group. -/
structure SourceSet (unf : Val → Bytes → Option Bytes) (items : List Item) (depth forms : Nat) (form : FormPart)
    (x : Source GivenSpace (Element F32 Prog)) : Prop where
  number : x.number = form.id.get.toNat
  attrs : ∃ calls, MaybeCall FormXObjectMeans b!"Group" form.calls calls .group ∧ BothOrNone (AttrsSet unf items depth) calls x.attrs
  written : GivenStream.Written unf items forms ⟨form, x.elements⟩

/-- The soft mask the call sets. -/
inductive SoftSet (unf : Val → Bytes → Option Bytes) (items : List Item) (depth forms : Nat) :
    ExtGraphicsStateCall → Soft F32 GivenFn GivenSpace (Element F32 Prog) → Prop
  | named {n} : SoftSet unf items depth forms (.softMaskName n) (.named n)
  | mask {calls kind form group backdrop transfer} {fn : Option Ref} :
      OnlyCall SoftMaskMeans b!"S" calls (.subtype kind) → OnlyCall SoftMaskMeans b!"G" calls (.group form.id) →
      SourceSet unf items depth forms form group → MaybeCall SoftMaskMeans b!"BC" calls backdrop .backdrop →
      MaybeCall SoftMaskMeans b!"TR" calls fn .transferFunction →
      BothOrNone (fun id g => FnWritten unf items depth (.prim (.ref id)) g) fn transfer →
      SoftSet unf items depth forms (.softMask calls) (.mask (isoMaskType kind) group backdrop transfer)

structure BlendingSet (unf : Val → Bytes → Option Bytes) (items : List Item) (depth forms : Nat) (calls : List ExtGraphicsStateCall)
    (x : Blending F32 GivenFn GivenSpace (Element F32 Prog)) : Prop where
  mode : ∃ m, x.mode = m.map isoBlendMode ∧ StateSets calls b!"BM" m .blendMode
  soft : ∃ c : Option ExtGraphicsStateCall, StateSets calls b!"SMask" c (fun c => c) ∧ BothOrNone (SoftSet unf items depth forms) c x.soft
  strokeAlpha : StateSets calls b!"CA" x.strokeAlpha .strokingAlpha
  fillAlpha : StateSets calls b!"ca" x.fillAlpha .nonStrokingAlpha
  alphaIsShape : StateSets calls b!"AIS" x.alphaIsShape .alphaSource
  textKnockout : StateSets calls b!"TK" x.textKnockout .textKnockout

/-- The parameters were written, in place or by reference. -/
def ParamsWritten (unf : Val → Bytes → Option Bytes) (items : List Item) (depth forms : Nat) (p : Prog) (x : GivenParams) : Prop :=
  ∃ calls, Stored items p (ExtGraphicsState.prog calls) ∧ LinesSet calls x.lines ∧ RenderingSet unf items depth calls x.rendering ∧
    BlendingSet unf items depth forms calls x.blending

/-- The resources name these. -/
def StatesSet (unf : Val → Bytes → Option Bytes) (items : List Item) (depth forms : Nat) (res : Option (List ResourcesCall))
    (x : List (Bytes × GivenParams)) : Prop :=
  match res with
  | none => x = []
  | some rc => CategoryGiven items rc b!"ExtGState" .extGStates (ParamsWritten unf items depth forms) x

/-- … on the pages of the tree. -/
def PageTree.States (unf : Val → Bytes → Option Bytes) (items : List Item) (depth forms : Nat) (t : PageTree)
    (pages : List (List (Bytes × GivenParams))) : Prop :=
  t.Each (fun _ res _ x => StatesSet unf items depth forms res x) items none pages

/-! ## What is read is what was asked for -/

structure SameLines (g : Lines F32) (r : Lines Val) : Prop where
  width : BothOrNone NumIs g.width r.width
  cap : r.cap = g.cap
  join : r.join = g.join
  miter : BothOrNone NumIs g.miter r.miter
  dash : BothOrNone (fun (a : List F32 × F32) (b : List Val × Val) => Pairwise NumIs a.1 b.1 ∧ NumIs a.2 b.2) g.dash r.dash

inductive SameDevice {φ ψ : Type} (S : φ → ψ → Prop) : Device φ → Device ψ → Prop
  | default : SameDevice S .default .default
  | function {a b} : S a b → SameDevice S (.function a) (.function b)

structure SameRendering (g : Rendering F32 GivenFn) (r : Rendering Val ReadFn) : Prop where
  intent : r.intent = g.intent
  overprint : r.overprintStroke = g.overprintStroke ∧ r.overprintFill = g.overprintFill ∧ r.overprintMode = g.overprintMode
  black : BothOrNone (SameDevice SameFn) g.black r.black
  undercolor : BothOrNone (SameDevice SameFn) g.undercolor r.undercolor
  transfer : BothOrNone (SameDevice SameFn) g.transfer r.transfer
  halftone : r.halftone = g.halftone
  flatness : BothOrNone NumIs g.flatness r.flatness
  smoothness : BothOrNone NumIs g.smoothness r.smoothness
  adjust : r.adjust = g.adjust

structure SameAttrs (g : Attrs GivenSpace) (r : Attrs ReadSpace) : Prop where
  kind : r.kind = g.kind
  space : BothOrNone SameSpace g.space r.space
  isolated : r.isolated = g.isolated
  knockout : r.knockout = g.knockout

structure SameSource (g : Source GivenSpace (Element F32 Prog)) (r : Source ReadSpace (Element Val Val)) : Prop where
  number : r.number = g.number
  attrs : BothOrNone SameAttrs g.attrs r.attrs
  elements : Pairwise (SameElement NumIs Denotes) g.elements r.elements

inductive SameSoft : Soft F32 GivenFn GivenSpace (Element F32 Prog) → Soft Val ReadFn ReadSpace (Element Val Val) → Prop
  | named {n} : SameSoft (.named n) (.named n)
  | mask {k s s' b b' t t'} : SameSource s s' → BothOrNone (Pairwise NumIs) b b' → BothOrNone SameFn t t' → SameSoft (.mask k s b t) (.mask k s' b' t')

structure SameBlending (g : Blending F32 GivenFn GivenSpace (Element F32 Prog)) (r : Blending Val ReadFn ReadSpace (Element Val Val)) : Prop where
  mode : r.mode = g.mode
  soft : BothOrNone SameSoft g.soft r.soft
  strokeAlpha : BothOrNone NumIs g.strokeAlpha r.strokeAlpha
  fillAlpha : BothOrNone NumIs g.fillAlpha r.fillAlpha
  alphaIsShape : r.alphaIsShape = g.alphaIsShape
  textKnockout : r.textKnockout = g.textKnockout

/-- The parameters read are the ones given. -/
structure SameParams (g : GivenParams) (r : ReadParams) : Prop where
  lines : SameLines g.lines r.lines
  rendering : SameRendering g.rendering r.rendering
  blending : SameBlending g.blending r.blending

/-- What was read is what was given, under the same names and in the same order. -/
def StatesRead (g : List (Bytes × GivenParams)) (r : List (Bytes × ReadParams)) : Prop :=
  Pairwise (fun a b => b.1 = a.1 ∧ SameParams a.2 b.2) g r

end PdfW.Spec
