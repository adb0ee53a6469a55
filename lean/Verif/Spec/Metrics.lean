import Verif.Spec.Fonts
import Verif.Spec.Details

/-!
# Font descriptors (ISO 32000-1, 9.8; Tables 122, 123 and 124)

A reader that is given only the bytes of a file and the number of a font descriptor, and obtains the metrics of a class of glyphs: what the descriptor says,
where it has no override for the class. It knows nothing about the writer.
-/

namespace PdfW.Spec
open PdfW

/-! ## What there is -/

/-- What a font descriptor says (Tables 122 and 124); `ν` are numbers, `φ` flags. -/
structure Metrics (ν φ : Type) where
  name : Option Bytes
  family : Option Bytes
  stretch : Option Bytes
  weight : Option Int
  flags : Option φ
  bbox : Option (List ν)
  italicAngle : Option ν
  ascent : Option ν
  descent : Option ν
  leading : Option ν
  capHeight : Option ν
  xHeight : Option ν
  stemV : Option ν
  stemH : Option ν
  avgWidth : Option ν
  maxWidth : Option ν
  missingWidth : Option ν
  charSet : Option Bytes
  /-- Table 124: class and subclass of the family, and ten bytes of PANOSE classification. -/
  panose : Option Bytes

/-- "entries that shall override the corresponding values in the main font descriptor dictionary" (9.8.3.3). -/
def Metrics.over {ν φ : Type} (a b : Metrics ν φ) : Metrics ν φ where
  name := a.name.or b.name
  family := a.family.or b.family
  stretch := a.stretch.or b.stretch
  weight := a.weight.or b.weight
  flags := a.flags.or b.flags
  bbox := a.bbox.or b.bbox
  italicAngle := a.italicAngle.or b.italicAngle
  ascent := a.ascent.or b.ascent
  descent := a.descent.or b.descent
  leading := a.leading.or b.leading
  capHeight := a.capHeight.or b.capHeight
  xHeight := a.xHeight.or b.xHeight
  stemV := a.stemV.or b.stemV
  stemH := a.stemH.or b.stemH
  avgWidth := a.avgWidth.or b.avgWidth
  maxWidth := a.maxWidth.or b.maxWidth
  missingWidth := a.missingWidth.or b.missingWidth
  charSet := a.charSet.or b.charSet
  panose := a.panose.or b.panose

/-! ## The reader -/

def readPanose : Val → Option Bytes
  | .dict d => (lookup b!"Panose" d).bind strOf
  | _ => none

def readMetrics (d : List (Bytes × Val)) : Option (Metrics Val Nat) :=
  (optionalEntry b!"FontName" d nameOf).bind fun name => (optionalEntry b!"FontFamily" d strOf).bind fun family =>
    (optionalEntry b!"FontStretch" d nameOf).bind fun stretch => (optionalEntry b!"FontWeight" d intOf).bind fun weight =>
    (optionalEntry b!"Flags" d flagsOf).bind fun flags => (optionalEntry b!"FontBBox" d itemsOf).bind fun bbox =>
    (optionalEntry b!"ItalicAngle" d numberOf).bind fun italicAngle => (optionalEntry b!"Ascent" d numberOf).bind fun ascent =>
    (optionalEntry b!"Descent" d numberOf).bind fun descent => (optionalEntry b!"Leading" d numberOf).bind fun leading =>
    (optionalEntry b!"CapHeight" d numberOf).bind fun capHeight => (optionalEntry b!"XHeight" d numberOf).bind fun xHeight =>
    (optionalEntry b!"StemV" d numberOf).bind fun stemV => (optionalEntry b!"StemH" d numberOf).bind fun stemH =>
    (optionalEntry b!"AvgWidth" d numberOf).bind fun avgWidth => (optionalEntry b!"MaxWidth" d numberOf).bind fun maxWidth =>
    (optionalEntry b!"MissingWidth" d numberOf).bind fun missingWidth => (optionalEntry b!"CharSet" d strOf).bind fun charSet =>
    (optionalEntry b!"Style" d readPanose).map fun panose =>
      ⟨name, family, stretch, weight, flags, bbox, italicAngle, ascent, descent, leading, capHeight, xHeight, stemV, stemH, avgWidth, maxWidth, missingWidth,
        charSet, panose⟩

/-- Metrics of a class of glyphs, in a font with this descriptor. -/
def classMetrics (f : FileEnd) (file : Bytes) (d : List (Bytes × Val)) (cls : Bytes) : Option (Metrics Val Nat) :=
  (readMetrics d).bind fun base => (optionalEntry b!"FD" d (followDict f file)).bind fun fd =>
    (optionalEntry cls (fd.getD []) fun v => (followDict f file v).bind readMetrics).map fun x =>
      match x with
      | none => base
      | some x => x.over base

/-- The metrics of a class of glyphs of the font with descriptor number `n`. -/
def fileMetrics (unf : Val → Bytes → Option Bytes) (file : Bytes) (n : Nat) (cls : Bytes) : Option (Metrics Val Nat) :=
  (readFile unf file).bind fun f => (dictObject f file n).bind fun d => classMetrics f file d cls

/-- The data that say which glyphs are in the font (Table 124, CIDSet). -/
def fileCids (unf : Val → Bytes → Option Bytes) (file : Bytes) (n : Nat) : Option (Option Bytes) :=
  (readFile unf file).bind fun f => (dictObject f file n).bind fun d => optionalEntry b!"CIDSet" d fun v => (refNumber v).bind (decodedStream unf f file)

/-! ## What was asked for -/

abbrev GivenMetrics := Metrics F32 (List FontFlag)

/-- These calls set these metrics. -/
structure MetricsSet (calls : List FontDescriptorCall) (x : GivenMetrics) : Prop where
  name : MaybeCall FontDescriptorMeans b!"FontName" calls x.name .name
  family : MaybeCall FontDescriptorMeans b!"FontFamily" calls x.family .family
  stretch : ∃ s, x.stretch = s.map isoFontStretch ∧ MaybeCall FontDescriptorMeans b!"FontStretch" calls s .stretch
  weight : ∃ w : Option UInt16, x.weight = w.map (fun w => (w.toNat : Int)) ∧ MaybeCall FontDescriptorMeans b!"FontWeight" calls w .weight
  flags : MaybeCall FontDescriptorMeans b!"Flags" calls x.flags .flags
  bbox : ∃ b : Option Rect, x.bbox = b.map (fun b => [b.x1, b.y1, b.x2, b.y2]) ∧ MaybeCall FontDescriptorMeans b!"FontBBox" calls b .bbox
  italicAngle : MaybeCall FontDescriptorMeans b!"ItalicAngle" calls x.italicAngle .italicAngle
  ascent : MaybeCall FontDescriptorMeans b!"Ascent" calls x.ascent .ascent
  descent : MaybeCall FontDescriptorMeans b!"Descent" calls x.descent .descent
  leading : MaybeCall FontDescriptorMeans b!"Leading" calls x.leading .leading
  capHeight : MaybeCall FontDescriptorMeans b!"CapHeight" calls x.capHeight .capHeight
  xHeight : MaybeCall FontDescriptorMeans b!"XHeight" calls x.xHeight .xHeight
  stemV : MaybeCall FontDescriptorMeans b!"StemV" calls x.stemV .stemV
  stemH : MaybeCall FontDescriptorMeans b!"StemH" calls x.stemH .stemH
  avgWidth : MaybeCall FontDescriptorMeans b!"AvgWidth" calls x.avgWidth .avgWidth
  maxWidth : MaybeCall FontDescriptorMeans b!"MaxWidth" calls x.maxWidth .maxWidth
  missingWidth : MaybeCall FontDescriptorMeans b!"MissingWidth" calls x.missingWidth .missingWidth
  charSet : MaybeCall FontDescriptorMeans b!"CharSet" calls x.charSet .charSet
  panose : ∃ p : Option (UInt8 × UInt8 × (Fin 10 → UInt8)), x.panose = p.map (fun p => p.1 :: p.2.1 :: (List.finRange 10).map p.2.2) ∧
    MaybeCall FontDescriptorMeans b!"Style" calls p (fun p => .style p.1 p.2.1 p.2.2)

/-- This call overrides the descriptor for this class, with a descriptor inside of it or one that was written as an object. -/
inductive OverrideCall (items : List Item) : FontDescriptorOverrideCall → Bytes → List FontDescriptorCall → Prop
  | custom {cls d} : OverrideCall items (.customClass cls (FontDescriptor.prog d)) cls d
  | customRef {cls r d} : HasObject items r (.val (FontDescriptor.prog d)) → OverrideCall items (.customClassRef cls r) cls d
  | cjk {cls d} : OverrideCall items (.cjkClass cls (FontDescriptor.prog d)) (isoCjkClass cls) d
  | cjkRef {cls r d} : HasObject items r (.val (FontDescriptor.prog d)) → OverrideCall items (.cjkClassRef cls r) (isoCjkClass cls) d

/-- A font descriptor: metrics of all glyphs, and those of some classes, each at most once. -/
structure DescriptorSets (items : List Item) (calls : List FontDescriptorCall) (base : GivenMetrics) (overrides : List (Bytes × GivenMetrics)) : Prop where
  all : MetricsSet calls base
  classes : ∃ cs : Option (List FontDescriptorOverrideCall), MaybeCall FontDescriptorMeans b!"FD" calls cs .descriptorOverride ∧
    Pairwise (fun c e => ∃ d, OverrideCall items c e.1 d ∧ MetricsSet d e.2) (cs.getD []) overrides
  distinct : (overrides.map fun e => e.1).Nodup

/-! ## What is the same -/

structure SameMetrics (w : GivenMetrics) (r : Metrics Val Nat) : Prop where
  same : r.name = w.name ∧ r.family = w.family ∧ r.stretch = w.stretch ∧ r.weight = w.weight ∧ r.charSet = w.charSet ∧ r.panose = w.panose
  flags : BothOrNone (FlagsRead isoFontFlag) w.flags r.flags
  bbox : BothOrNone (Pairwise NumIs) w.bbox r.bbox
  italicAngle : BothOrNone NumIs w.italicAngle r.italicAngle
  ascent : BothOrNone NumIs w.ascent r.ascent
  descent : BothOrNone NumIs w.descent r.descent
  leading : BothOrNone NumIs w.leading r.leading
  capHeight : BothOrNone NumIs w.capHeight r.capHeight
  xHeight : BothOrNone NumIs w.xHeight r.xHeight
  stemV : BothOrNone NumIs w.stemV r.stemV
  stemH : BothOrNone NumIs w.stemH r.stemH
  avgWidth : BothOrNone NumIs w.avgWidth r.avgWidth
  maxWidth : BothOrNone NumIs w.maxWidth r.maxWidth
  missingWidth : BothOrNone NumIs w.missingWidth r.missingWidth

end PdfW.Spec
