import Verif.Model.Color
import Verif.Spec.Denotes

/-!
# Color spaces (ISO 32000-1, 8.6) and functions (7.10)

What the calls were asked to write, and which call sequences are in order.
-/

namespace PdfW.Spec
open PdfW

/-- Written through the API in either mode, at any place, the object reads back as a value with property `P`. (In compact
mode provided that no empty name directly precedes a bare token, see C10.) -/
def ReadsBack (p : Prog) (P : Val → Prop) : Prop :=
  ∀ (pretty : Bool) (indent : Nat) (pad : Bool) (buf : Buf), (pretty = false → NoClash p) →
    ∃ out v, (p.run (Obj.direct indent pretty pad) buf).inner = buf.inner ++ out ∧ readOne out = some v ∧ P v

/-- Numbers, in order. -/
def NumsAre : List F32 → List Val → Prop
  | [], vs => vs = []
  | x :: xs, vs => ∃ w ws, vs = w :: ws ∧ NumIs x w ∧ NumsAre xs ws

/-- An array of the given numbers. -/
def NumArray (xs : List F32) (v : Val) : Prop := ∃ vs, v = .arr vs ∧ NumsAre xs vs

/-- All numbers are finite. -/
def AllFinite (xs : List F32) : Prop := ∀ x ∈ xs, x.isFinite = true

/-! ## Functions (7.10.3, 7.10.4) -/

/-- The entry a call on an exponential function stands for: its key in Table 40 (or 38) and what the value must be. -/
def ExponentialMeans : ExponentialCall → Bytes × (Val → Prop)
  | .domain xs => (b!"Domain", NumArray xs)
  | .range xs => (b!"Range", NumArray xs)
  | .c0 xs => (b!"C0", NumArray xs)
  | .c1 xs => (b!"C1", NumArray xs)
  | .n x => (b!"N", NumIs x)
  | .raw k p => (k, Denotes p)

/-- Table 41. -/
def StitchingMeans : StitchingCall → Bytes × (Val → Prop)
  | .domain xs => (b!"Domain", NumArray xs)
  | .range xs => (b!"Range", NumArray xs)
  | .functions ids => (b!"Functions", fun v => v = .arr (ids.map fun r => .ref r.get.toNat 0))
  | .bounds xs => (b!"Bounds", NumArray xs)
  | .encode xs => (b!"Encode", NumArray xs)
  | .raw k p => (k, Denotes p)

/-- A dictionary with exactly these entries, in this order. -/
def EntriesAre : List (Bytes × (Val → Prop)) → List (Bytes × Val) → Prop
  | [], es => es = []
  | m :: ms, es => ∃ w ws, es = (m.1, w) :: ws ∧ m.2 w ∧ EntriesAre ms ws

def DictIs (ms : List (Bytes × (Val → Prop))) (v : Val) : Prop := ∃ es, v = .dict es ∧ EntriesAre ms es

/-- A function dictionary of type 2. -/
def IsExponential (calls : List ExponentialCall) : Val → Prop :=
  DictIs ((b!"FunctionType", (· = .int 2)) :: calls.map ExponentialMeans)

/-- A function dictionary of type 3. -/
def IsStitching (calls : List StitchingCall) : Val → Prop :=
  DictIs ((b!"FunctionType", (· = .int 3)) :: calls.map StitchingMeans)

/-! ## CIE-based, device, indexed and pattern color spaces (8.6.4-8.6.6) -/

/-- An entry that is there only if given. -/
def given {α : Type} (key : Bytes) (P : α → Val → Prop) : Option α → List (Bytes × (Val → Prop))
  | none => []
  | some a => [(key, P a)]

/-- Device color spaces by name (8.6.4). -/
def deviceName : DeviceColorSpace → Bytes
  | .rgb => b!"DeviceRGB"
  | .cmyk => b!"DeviceCMYK"
  | .gray => b!"DeviceGray"

/-! ## Separation and DeviceN (8.6.6.4, 8.6.6.5) -/

def SeparationCall.isAlternate : SeparationCall → Bool
  | .alternateDevice _ | .alternateColorSpace _ | .alternateColorSpaceRef _ => true
  | _ => false

/-- A call that writes the tint transform. -/
def SeparationCall.isTint : SeparationCall → Bool
  | .tintExponential _ | .tintStitching _ | .tintRef _ => true
  | _ => false

/-- What the item written by a call must be. -/
def SeparationMeans : SeparationCall → Val → Prop
  | .alternateDevice d => (· = .name (deviceName d))
  | .alternateColorSpace c => Denotes c
  | .alternateColorSpaceRef r => (· = .ref r.get.toNat 0)
  | .tintExponential calls => IsExponential calls
  | .tintStitching calls => IsStitching calls
  | .tintRef r => (· = .ref r.get.toNat 0)

/-- The documented panics: a second alternate space, or a tint transform before the alternate space. `before` are the
calls made so far. -/
def separationMisuse (before : List SeparationCall) (c : SeparationCall) : Bool :=
  (SeparationCall.isAlternate c && before.any SeparationCall.isAlternate) ||
  (SeparationCall.isTint c && !before.any SeparationCall.isAlternate)

def DeviceNCall.isAlternate : DeviceNCall → Bool
  | .alternateDevice _ | .alternateColorSpace _ | .alternateColorSpaceRef _ => true
  | _ => false

def DeviceNCall.isTint : DeviceNCall → Bool
  | .tintExponential _ | .tintStitching _ | .tintRef _ => true
  | _ => false

def DeviceNCall.isAttrs : DeviceNCall → Bool
  | .attrs _ => true
  | _ => false

/-- Tables 71-73. -/
def ProcessMeans : DeviceNProcessCall → Bytes × (Val → Prop)
  | .colorSpace n => (b!"ColorSpace", (· = .name n))
  | .colorSpaceArray c => (b!"ColorSpace", Denotes c)
  | .components xs => (b!"Components", (· = .arr (xs.map .name)))

def MixingHintsMeans : DeviceNMixingHintsCall → Bytes × (Val → Prop)
  | .solidities ps => (b!"Solidities", DictIs (ps.map fun p => (p.1, NumIs p.2)))
  | .printingOrder xs => (b!"PrintingOrder", (· = .arr (xs.map .name)))
  | .dotGain ps => (b!"DotGain", DictIs (ps.map fun p => (p.1, NumIs p.2)))

def AttrsMeans : DeviceNAttrsCall → Bytes × (Val → Prop)
  | .subtype .deviceN => (b!"Subtype", (· = .name b!"DeviceN"))
  | .subtype .nChannel => (b!"Subtype", (· = .name b!"NChannel"))
  | .colorants ds => (b!"Colorants", DictIs (ds.map fun d => (d.1, Denotes (.dict d.2))))
  | .process calls => (b!"Process", DictIs (calls.map ProcessMeans))
  | .mixingHints calls => (b!"MixingHints", DictIs (calls.map MixingHintsMeans))

def DeviceNMeans : DeviceNCall → Val → Prop
  | .alternateDevice d => (· = .name (deviceName d))
  | .alternateColorSpace c => Denotes c
  | .alternateColorSpaceRef r => (· = .ref r.get.toNat 0)
  | .tintExponential calls => IsExponential calls
  | .tintStitching calls => IsStitching calls
  | .tintRef r => (· = .ref r.get.toNat 0)
  | .attrs calls => DictIs (calls.map AttrsMeans)

/-- The documented panics: "If any function is called out of order, the function panics." A second alternate space; a
tint transform before the alternate space or a second one; attributes before both. -/
def deviceNMisuse (before : List DeviceNCall) (c : DeviceNCall) : Bool :=
  (DeviceNCall.isAlternate c && before.any DeviceNCall.isAlternate) ||
  (DeviceNCall.isTint c && (!before.any DeviceNCall.isAlternate || before.any DeviceNCall.isTint)) ||
  (DeviceNCall.isAttrs c && !(before.any DeviceNCall.isAlternate && before.any DeviceNCall.isTint))

/-- Items, in order. -/
def ItemsAre : List (Val → Prop) → List Val → Prop
  | [], vs => vs = []
  | m :: ms, vs => ∃ w ws, vs = w :: ws ∧ m w ∧ ItemsAre ms ws

def ArrayIs (ms : List (Val → Prop)) (v : Val) : Prop := ∃ vs, v = .arr vs ∧ ItemsAre ms vs

/-- The fixed values of the presets, as in their documentation and source (color.rs:5-14, 238-354): white point, gamma and
matrix. -/
def PresetMeans : ColorPreset → Val → Prop
  | .srgb => (· = .arr [.name b!"CalRGB", .dict [(b!"WhitePoint", .arr [.real 9505 4, .int 1, .real 10888 4]), (b!"Gamma", .arr [.real 22 1, .real 22 1, .real 22 1]),
      (b!"Matrix", .arr [.real 4124 4, .real 2126 4, .real 193 4, .real 3576 4, .real 715 3, .real 1192 4, .real 1805 4, .real 722 4, .real 9505 4])]])
  | .adobeRgb => (· = .arr [.name b!"CalRGB", .dict [(b!"WhitePoint", .arr [.real 9505 4, .int 1, .real 10888 4]), (b!"Gamma", .arr [.real 21992188 7, .real 21992188 7, .real 21992188 7]),
      (b!"Matrix", .arr [.real 57667 5, .real 29734 5, .real 2703 5, .real 18556 5, .real 62736 5, .real 7069 5, .real 18823 5, .real 7529 5, .real 99134 5])]])
  | .displayP3 => (· = .arr [.name b!"CalRGB", .dict [(b!"WhitePoint", .arr [.real 9505 4, .int 1, .real 10888 4]), (b!"Gamma", .arr [.real 26 1, .real 26 1, .real 26 1]),
      (b!"Matrix", .arr [.real 48657 5, .real 2297 4, .int 0, .real 26567 5, .real 69174 5, .real 4511 5, .real 19822 5, .real 7929 5, .real 104394 5])]])
  | .proPhoto => (· = .arr [.name b!"CalRGB", .dict [(b!"WhitePoint", .arr [.real 9642 4, .int 1, .real 82489 5]), (b!"Gamma", .arr [.real 18 1, .real 18 1, .real 18 1]),
      (b!"Matrix", .arr [.real 7976749 7, .real 2880402 7, .int 0, .real 1351917 7, .real 7118741 7, .int 0, .real 313534 7, .real 857 7, .real 82521 5])]])
  | .eciRgb => (· = .arr [.name b!"CalRGB", .dict [(b!"WhitePoint", .arr [.real 9642 4, .int 1, .real 82489 5]), (b!"Gamma", .arr [.real 18 1, .real 18 1, .real 18 1]),
      (b!"Matrix", .arr [.real 6502043 7, .real 3202499 7, .int 0, .real 1780774 7, .real 6020711 7, .real 67839 6, .real 1359384 7, .real 776791 7, .real 757371 6])]])
  | .ntsc => (· = .arr [.name b!"CalRGB", .dict [(b!"WhitePoint", .arr [.real 9807 4, .int 1, .real 11822 4]), (b!"Gamma", .arr [.real 22 1, .real 22 1, .real 22 1]),
      (b!"Matrix", .arr [.real 6068909 7, .real 2989164 7, .int 0, .real 1735011 7, .real 586599 6, .real 660957 7, .real 200348 6, .real 1144845 7, .real 11162243 7])]])
  | .pal => (· = .arr [.name b!"CalRGB", .dict [(b!"WhitePoint", .arr [.real 9505 4, .int 1, .real 10888 4]), (b!"Gamma", .arr [.real 22 1, .real 22 1, .real 22 1]),
      (b!"Matrix", .arr [.real 430619 6, .real 2220379 7, .real 201853 7, .real 3415419 7, .real 7066384 7, .real 1295504 7, .real 1783091 7, .real 713236 7, .real 9390944 7])]])
  | .d65Gray => (· = .arr [.name b!"CalGray", .dict [(b!"WhitePoint", .arr [.real 9505 4, .int 1, .real 10888 4]), (b!"Gamma", .real 22 1)]])
  | .cGray => (· = .arr [.name b!"CalGray", .dict [(b!"WhitePoint", .arr [.real 9807 4, .int 1, .real 11822 4]), (b!"Gamma", .real 22 1)]])
  | .d50Gray g => ArrayIs [(· = .name b!"CalGray"), DictIs ((b!"WhitePoint", (· = .arr [.real 9642 4, .int 1, .real 82489 5])) :: given b!"Gamma" NumIs g)]
  | .eGray g => ArrayIs [(· = .name b!"CalGray"), DictIs ((b!"WhitePoint", (· = .arr [.int 1, .int 1, .int 1])) :: given b!"Gamma" NumIs g)]

/-- What a color space constructor stands for (8.6.4 to 8.6.6). -/
def ColorSpaceMeans : ColorSpaceCall → Val → Prop
  | .calRgb w b g m => ArrayIs [(· = .name b!"CalRGB"), DictIs ((b!"WhitePoint", NumArray w.list) ::
      (given b!"BlackPoint" (fun v => NumArray v.list) b ++ given b!"Gamma" (fun v => NumArray v.list) g ++
       given b!"Matrix" (fun v => NumArray v.list) m))]
  | .calGray w b g => ArrayIs [(· = .name b!"CalGray"), DictIs ((b!"WhitePoint", NumArray w.list) ::
      (given b!"BlackPoint" (fun v => NumArray v.list) b ++ given b!"Gamma" NumIs g))]
  | .lab w b r => ArrayIs [(· = .name b!"Lab"), DictIs ((b!"WhitePoint", NumArray w.list) ::
      (given b!"BlackPoint" (fun v => NumArray v.list) b ++ given b!"Range" (fun v => NumArray v.list) r))]
  | .iccBased r => (· = .arr [.name b!"ICCBased", .ref r.get.toNat 0])
  | .deviceRgb => (· = .name b!"DeviceRGB")
  | .deviceCmyk => (· = .name b!"DeviceCMYK")
  | .deviceGray => (· = .name b!"DeviceGray")
  | .preset p => PresetMeans p
  | .separation n cs => ArrayIs ((· = .name b!"Separation") :: (· = .name n) :: cs.map SeparationMeans)
  | .deviceN ns cs => ArrayIs ((· = .name b!"DeviceN") :: (· = .arr (ns.map .name)) :: cs.map DeviceNMeans)
  | .indexed base hival lookup => (· = .arr [.name b!"Indexed", .name base, .int hival, .str lookup])
  | .pattern base => (· = .arr [.name b!"Pattern", .name base])

/-- The sequence of calls never runs into a documented panic. -/
def noMisuse {α : Type} (bad : List α → α → Bool) : List α → List α → Bool
  | _, [] => true
  | before, c :: cs => !bad before c && noMisuse bad (before ++ [c]) cs

end PdfW.Spec
