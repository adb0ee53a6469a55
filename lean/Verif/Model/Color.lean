import Verif.Model.Function

/-!
# Color spaces (`/repo/src/color.rs:1-770`)

`ColorSpace` consumes its `Obj`, so each history is one constructor call, followed by calls on `Separation` or `DeviceN`.
A nested color space is given by the object its writer writes (a `Prog`): every history of the nested writer is
covered, as the theorems hold for all of them. `none` is a panic.
-/

namespace PdfW

/-- An `f32` constant by its bits (the literals of the source, rounded to nearest; see the examples in Props/Color). -/
def mkF (bits : Nat) : F32 := ⟨false, Fin.ofNat _ bits⟩

/-- `[f32; 3]` (color.rs:5-14). -/
structure Xyz where
  x : F32
  y : F32
  z : F32

/-- The numbers in order (color.rs:5-14, `[f32; 3]`). -/
def Xyz.list (v : Xyz) : List F32 := [v.x, v.y, v.z]

/-- `[f32; 4]` (color.rs:139). -/
structure Four where
  a : F32
  b : F32
  c : F32
  d : F32

/-- The numbers in order (color.rs:139, `[f32; 4]`). -/
def Four.list (v : Four) : List F32 := [v.a, v.b, v.c, v.d]

/-- `[f32; 9]` (color.rs:91). -/
structure Nine where
  a : Xyz
  b : Xyz
  c : Xyz

/-- The numbers in order (color.rs:91, `[f32; 9]`). -/
def Nine.list (v : Nine) : List F32 := v.a.list ++ v.b.list ++ v.c.list

/-- `cieD65` (color.rs:5): 0.9505, 1.0, 1.0888. -/
def cieD65 : Xyz := ⟨mkF 1064522744, mkF 1065353216, mkF 1066098124⟩
/-- `cieD50` (color.rs:8): 0.9642, 1.0, 0.82489. -/
def cieD50 : Xyz := ⟨mkF 1064752592, mkF 1065353216, mkF 1062415358⟩
/-- `cieE` (color.rs:11): 1.000, 1.000, 1.000. -/
def cieE : Xyz := ⟨mkF 1065353216, mkF 1065353216, mkF 1065353216⟩
/-- `cieC` (color.rs:14): 0.9807, 1.0000, 1.1822. -/
def cieC : Xyz := ⟨mkF 1065029416, mkF 1065353216, mkF 1066881620⟩

/-- `ColorSpaceType` (color.rs:19-31). -/
inductive ColorSpaceType where
  | calGray | calRgb | lab | iccBased | deviceRgb | deviceCmyk | deviceGray | indexed | pattern | separation | deviceN
deriving DecidableEq

/-- `ColorSpaceType::to_name` (color.rs:34-48). -/
def ColorSpaceType.toName : ColorSpaceType → Bytes
  | .calRgb => b!"CalRGB"
  | .calGray => b!"CalGray"
  | .lab => b!"Lab"
  | .iccBased => b!"ICCBased"
  | .deviceRgb => b!"DeviceRGB"
  | .deviceCmyk => b!"DeviceCMYK"
  | .deviceGray => b!"DeviceGray"
  | .separation => b!"Separation"
  | .deviceN => b!"DeviceN"
  | .indexed => b!"Indexed"
  | .pattern => b!"Pattern"

/-- `DeviceColorSpace` (color.rs:53-60). -/
inductive DeviceColorSpace where
  | rgb | cmyk | gray
deriving DecidableEq

/-- `DeviceColorSpace::to_name` (color.rs:63-69). -/
def DeviceColorSpace.toName : DeviceColorSpace → Bytes
  | .rgb => b!"DeviceRGB"
  | .cmyk => b!"DeviceCMYK"
  | .gray => b!"DeviceGray"

/-- `if let Some(v) = v { dict.insert(key)… }` -/
def optEntry {α : Type} (key : Bytes) (f : α → Prog) : Option α → List (Bytes × Prog)
  | none => []
  | some v => [(key, f v)]

/-- `ColorSpace::cal_rgb` (color.rs:85-110). -/
def calRgb (white : Xyz) (black gamma : Option Xyz) (matrix : Option Nine) : Prog :=
  .array [.prim (.name ColorSpaceType.calRgb.toName),
    .dict ((b!"WhitePoint", reals white.list) :: (optEntry b!"BlackPoint" (fun v => reals v.list) black ++
      optEntry b!"Gamma" (fun v => reals v.list) gamma ++ optEntry b!"Matrix" (fun v => reals v.list) matrix))]

/-- `ColorSpace::cal_gray` (color.rs:113-132). -/
def calGray (white : Xyz) (black : Option Xyz) (gamma : Option F32) : Prog :=
  .array [.prim (.name ColorSpaceType.calGray.toName),
    .dict ((b!"WhitePoint", reals white.list) :: (optEntry b!"BlackPoint" (fun v => reals v.list) black ++
      optEntry b!"Gamma" (fun v => .prim (.real v)) gamma))]

/-- `ColorSpace::lab` (color.rs:135-154). -/
def lab (white : Xyz) (black : Option Xyz) (range : Option Four) : Prog :=
  .array [.prim (.name ColorSpaceType.lab.toName),
    .dict ((b!"WhitePoint", reals white.list) :: (optEntry b!"BlackPoint" (fun v => reals v.list) black ++
      optEntry b!"Range" (fun v => reals v.list) range))]

/-- Preset (color.rs:238-245): gamma 2.2, matrix 0.4124, 0.2126, 0.0193, 0.3576, 0.715, 0.1192, 0.1805, 0.0722, 0.9505. -/
def srgb : Prog := calRgb cieD65 none (some ⟨mkF 1074580685, mkF 1074580685, mkF 1074580685⟩) (some ⟨⟨mkF 1054025240, mkF 1046066128, mkF 1016994569⟩, ⟨mkF 1052186457, mkF 1060571709, mkF 1039408929⟩, ⟨mkF 1043911934, mkF 1033100696, mkF 1064522744⟩⟩)
/-- Preset (color.rs:250-260): gamma 2.1992188, matrix 0.57667, 0.29734, 0.02703, 0.18556, 0.62736, 0.07069, 0.18823, 0.07529, 0.99134. -/
def adobeRgb : Prog := calRgb cieD65 none (some ⟨mkF 1074577408, mkF 1074577408, mkF 1074577408⟩) (some ⟨⟨mkF 1058250917, mkF 1050164467, mkF 1021144581⟩, ⟨mkF 1044251505, mkF 1059101354, mkF 1032898027⟩, ⟨mkF 1044430685, mkF 1033515429, mkF 1065207925⟩⟩)
/-- Preset (color.rs:265-275): gamma 2.6, matrix 0.48657, 0.2297, 0.0, 0.26567, 0.69174, 0.04511, 0.19822, 0.07929, 1.04394. -/
def displayP3 : Prog := calRgb cieD65 none (some ⟨mkF 1076258406, mkF 1076258406, mkF 1076258406⟩) (some ⟨⟨mkF 1056513972, mkF 1047213690, mkF 0⟩, ⟨mkF 1049101798, mkF 1060181471, mkF 1027130691⟩, ⟨mkF 1045101103, mkF 1034052300, mkF 1065721811⟩⟩)
/-- Preset (color.rs:280-290): gamma 1.8, matrix 0.7976749, 0.2880402, 0.0, 0.1351917, 0.7118741, 0.0, 0.0313534, 0.0000857, 0.82521. -/
def proPhoto : Prog := calRgb cieD50 none (some ⟨mkF 1072064102, mkF 1072064102, mkF 1072064102⟩) (some ⟨⟨mkF 1061958764, mkF 1049852417, mkF 0⟩, ⟨mkF 1040871345, mkF 1060519266, mkF 0⟩, ⟨mkF 1023437932, mkF 951302614, mkF 1062420726⟩⟩)
/-- Preset (color.rs:293-303): gamma 1.8, matrix 0.6502043, 0.3202499, 0.0, 0.1780774, 0.6020711, 0.0678390, 0.1359384, 0.0776791, 0.757371. -/
def eciRgb : Prog := calRgb cieD50 none (some ⟨mkF 1072064102, mkF 1072064102, mkF 1072064102⟩) (some ⟨⟨mkF 1059484618, mkF 1050933195, mkF 0⟩, ⟨mkF 1043749356, mkF 1058677077, mkF 1032515372⟩, ⟨mkF 1040921456, mkF 1033836088, mkF 1061282577⟩⟩)
/-- Preset (color.rs:306-316): gamma 2.2, matrix 0.6068909, 0.2989164, 0.0, 0.1735011, 0.586599, 0.0660957, 0.200348, 0.1144845, 1.1162243. -/
def ntsc : Prog := calRgb cieC none (some ⟨mkF 1074580685, mkF 1074580685, mkF 1074580685⟩) (some ⟨⟨mkF 1058757940, mkF 1050217362, mkF 0⟩, ⟨mkF 1043442246, mkF 1058417498, mkF 1032281391⟩, ⟨mkF 1045243911, mkF 1038776025, mkF 1066328176⟩⟩)
/-- Preset (color.rs:319-329): gamma 2.2, matrix 0.430619, 0.2220379, 0.0201853, 0.3415419, 0.7066384, 0.1295504, 0.1783091, 0.0713236, 0.9390944. -/
def pal : Prog := calRgb cieD65 none (some ⟨mkF 1074580685, mkF 1074580685, mkF 1074580685⟩) (some ⟨⟨mkF 1054636568, mkF 1046699495, mkF 1017469860⟩, ⟨mkF 1051647636, mkF 1060431425, mkF 1040492764⟩, ⟨mkF 1043764905, mkF 1032983068, mkF 1064331390⟩⟩)

/-- Grays (color.rs:333-353). -/
def d65Gray : Prog := calGray cieD65 none (some (mkF 1074580685))
/-- color.rs:333-353 -/
def d50Gray (gamma : Option F32) : Prog := calGray cieD50 none gamma
/-- color.rs:333-353 -/
def cGray : Prog := calGray cieC none (some (mkF 1074580685))
/-- color.rs:333-353 -/
def eGray (gamma : Option F32) : Prog := calGray cieE none gamma

/-! ## `Separation` -/

/-- Methods of `Separation` (color.rs:464-526). -/
inductive SeparationCall where
  | alternateDevice (d : DeviceColorSpace)
  /-- `alternate_color_space`; `c` is what the returned writer writes -/
  | alternateColorSpace (c : Prog)
  | alternateColorSpaceRef (r : Ref)
  | tintExponential (calls : List ExponentialCall)
  | tintStitching (calls : List StitchingCall)
  | tintRef (r : Ref)

/-- `Separation` (color.rs:453-456): the items of the array so far and the flag. -/
structure Separation where
  items : List Prog
  hasAlternate : Bool

/-- `Array::push` and writing `p` into it. -/
def Separation.push (s : Separation) (p : Prog) : Separation := { s with items := s.items ++ [p] }

/-- color.rs:464-526 -/
def Separation.call (s : Separation) : SeparationCall → Option Separation
  | .alternateDevice d =>
    if s.hasAlternate then none else some { s.push (.prim (.name d.toName)) with hasAlternate := true }
  | .alternateColorSpace c =>
    if s.hasAlternate then none else some { s.push c with hasAlternate := true }
  | .alternateColorSpaceRef r =>
    if s.hasAlternate then none else some { s.push (.prim (.ref r)) with hasAlternate := true }
  | .tintExponential calls => if !s.hasAlternate then none else some (s.push (exponentialFunction calls))
  | .tintStitching calls => if !s.hasAlternate then none else some (s.push (stitchingFunction calls))
  | .tintRef r => if !s.hasAlternate then none else some (s.push (.prim (.ref r)))

/-- A sequence of calls (color.rs:464-526). -/
def Separation.calls (s : Separation) : List SeparationCall → Option Separation
  | [] => some s
  | c :: cs => (s.call c).bind fun s => s.calls cs

/-- `ColorSpace::separation` (color.rs:385-390) and `Separation::start` (color.rs:460-462). -/
def Separation.new (colorName : Bytes) : Separation :=
  ⟨[.prim (.name ColorSpaceType.separation.toName), .prim (.name colorName)], false⟩

/-- A complete `Separation` color space: all calls, then drop. -/
def separation (colorName : Bytes) (calls : List SeparationCall) : Option Prog :=
  ((Separation.new colorName).calls calls).map fun s => .array s.items

/-! ## `DeviceN` -/

/-- `DeviceNSubtype` and its `to_name` (color.rs:714-728). -/
inductive DeviceNSubtype where
  | deviceN | nChannel
deriving DecidableEq

/-- color.rs:722-728 -/
def DeviceNSubtype.toName : DeviceNSubtype → Bytes
  | .deviceN => b!"DeviceN"
  | .nChannel => b!"NChannel"

/-- Methods of `DeviceNProcess` (color.rs:684-711); `c` is what the returned color space writer writes. -/
inductive DeviceNProcessCall where
  | colorSpace (name : Bytes)
  | colorSpaceArray (c : Prog)
  | components (xs : List Bytes)

/-- The entry each method inserts (color.rs:684-711). -/
def DeviceNProcessCall.entry : DeviceNProcessCall → Bytes × Prog
  | .colorSpace n => (b!"ColorSpace", .prim (.name n))
  | .colorSpaceArray c => (b!"ColorSpace", c)
  | .components xs => (b!"Components", names xs)

/-- Methods of `DeviceNMixingHints` (color.rs:739-767). -/
inductive DeviceNMixingHintsCall where
  | solidities (pairs : List (Bytes × F32))
  | printingOrder (xs : List Bytes)
  | dotGain (pairs : List (Bytes × F32))

/-- The entry each method inserts (color.rs:739-767). -/
def DeviceNMixingHintsCall.entry : DeviceNMixingHintsCall → Bytes × Prog
  | .solidities ps => (b!"Solidities", .dict (ps.map fun p => (p.1, .prim (.real p.2))))
  | .printingOrder xs => (b!"PrintingOrder", names xs)
  | .dotGain ps => (b!"DotGain", .dict (ps.map fun p => (p.1, .prim (.real p.2))))

/-- Methods of `DeviceNAttrs` (color.rs:646-673). `colorants` is a `TypedDict` of dictionaries. -/
inductive DeviceNAttrsCall where
  | subtype (s : DeviceNSubtype)
  | colorants (ds : List (Bytes × List (Bytes × Prog)))
  | process (calls : List DeviceNProcessCall)
  | mixingHints (calls : List DeviceNMixingHintsCall)

/-- The entry each method inserts (color.rs:646-673). -/
def DeviceNAttrsCall.entry : DeviceNAttrsCall → Bytes × Prog
  | .subtype s => (b!"Subtype", .prim (.name s.toName))
  | .colorants ds => (b!"Colorants", .dict (ds.map fun d => (d.1, .dict d.2)))
  | .process calls => (b!"Process", .dict (calls.map DeviceNProcessCall.entry))
  | .mixingHints calls => (b!"MixingHints", .dict (calls.map DeviceNMixingHintsCall.entry))

/-- Methods of `DeviceN` (color.rs:549-635). -/
inductive DeviceNCall where
  | alternateDevice (d : DeviceColorSpace)
  | alternateColorSpace (c : Prog)
  | alternateColorSpaceRef (r : Ref)
  | tintExponential (calls : List ExponentialCall)
  | tintStitching (calls : List StitchingCall)
  | tintRef (r : Ref)
  | attrs (calls : List DeviceNAttrsCall)

/-- `DeviceN` (color.rs:537-541). -/
structure DeviceN where
  items : List Prog
  hasAlternate : Bool
  hasTint : Bool

/-- `Array::push` and writing `p` into it. -/
def DeviceN.push (s : DeviceN) (p : Prog) : DeviceN := { s with items := s.items ++ [p] }

/-- color.rs:549-635 -/
def DeviceN.call (s : DeviceN) : DeviceNCall → Option DeviceN
  | .alternateDevice d =>
    if s.hasAlternate then none else some { s.push (.prim (.name d.toName)) with hasAlternate := true }
  | .alternateColorSpace c =>
    if s.hasAlternate then none else some { s.push c with hasAlternate := true }
  | .alternateColorSpaceRef r =>
    if s.hasAlternate then none else some { s.push (.prim (.ref r)) with hasAlternate := true }
  | .tintExponential calls =>
    if !s.hasAlternate then none else if s.hasTint then none
    else some { s.push (exponentialFunction calls) with hasTint := true }
  | .tintStitching calls =>
    if !s.hasAlternate then none else if s.hasTint then none
    else some { s.push (stitchingFunction calls) with hasTint := true }
  | .tintRef r =>
    if !s.hasAlternate then none else if s.hasTint then none
    else some { s.push (.prim (.ref r)) with hasTint := true }
  | .attrs calls =>
    if !s.hasAlternate then none else if !s.hasTint then none
    else some (s.push (.dict (calls.map DeviceNAttrsCall.entry)))

/-- A sequence of calls (color.rs:549-635). -/
def DeviceN.calls (s : DeviceN) : List DeviceNCall → Option DeviceN
  | [] => some s
  | c :: cs => (s.call c).bind fun s => s.calls cs

/-- `ColorSpace::device_n` (color.rs:396-401) and `DeviceN::start` (color.rs:545-547). -/
def DeviceN.new (ns : List Bytes) : DeviceN := ⟨[.prim (.name ColorSpaceType.deviceN.toName), names ns], false, false⟩

/-- A complete `DeviceN` color space: all calls, then drop. -/
def deviceN (ns : List Bytes) (calls : List DeviceNCall) : Option Prog :=
  ((DeviceN.new ns).calls calls).map fun s => .array s.items

/-- The constructors with fixed values (color.rs:238-354). -/
inductive ColorPreset where
  | srgb | adobeRgb | displayP3 | proPhoto | eciRgb | ntsc | pal
  | d65Gray | d50Gray (gamma : Option F32) | cGray | eGray (gamma : Option F32)

/-- color.rs:238-354 -/
def ColorPreset.prog : ColorPreset → Prog
  | .srgb => PdfW.srgb
  | .adobeRgb => PdfW.adobeRgb
  | .displayP3 => PdfW.displayP3
  | .proPhoto => PdfW.proPhoto
  | .eciRgb => PdfW.eciRgb
  | .ntsc => PdfW.ntsc
  | .pal => PdfW.pal
  | .d65Gray => PdfW.d65Gray
  | .d50Gray g => PdfW.d50Gray g
  | .cGray => PdfW.cGray
  | .eGray g => PdfW.eGray g

/-! ## `ColorSpace` -/

/-- Methods of `ColorSpace` (color.rs:83-425). -/
inductive ColorSpaceCall where
  | calRgb (white : Xyz) (black gamma : Option Xyz) (matrix : Option Nine)
  | calGray (white : Xyz) (black : Option Xyz) (gamma : Option F32)
  | lab (white : Xyz) (black : Option Xyz) (range : Option Four)
  | iccBased (stream : Ref)
  | deviceRgb | deviceCmyk | deviceGray
  | preset (p : ColorPreset)
  | separation (colorName : Bytes) (calls : List SeparationCall)
  | deviceN (names : List Bytes) (calls : List DeviceNCall)
  | indexed (base : Bytes) (hival : Int) (lookup : Bytes)
  | pattern (base : Bytes)

/-- The object written (color.rs:83-425); `none` is a panic. -/
def ColorSpaceCall.prog : ColorSpaceCall → Option Prog
  | .calRgb w b g m => some (PdfW.calRgb w b g m)
  | .calGray w b g => some (PdfW.calGray w b g)
  | .lab w b r => some (PdfW.lab w b r)
  | .iccBased r => some (.array [.prim (.name ColorSpaceType.iccBased.toName), .prim (.ref r)])
  | .deviceRgb => some (.prim (.name ColorSpaceType.deviceRgb.toName))
  | .deviceCmyk => some (.prim (.name ColorSpaceType.deviceCmyk.toName))
  | .deviceGray => some (.prim (.name ColorSpaceType.deviceGray.toName))
  | .preset p => some p.prog
  | .separation n cs => PdfW.separation n cs
  | .deviceN ns cs => PdfW.deviceN ns cs
  | .indexed base hival lookup => some (.array [.prim (.name ColorSpaceType.indexed.toName), .prim (.name base), .prim (.int hival), .prim (.str lookup)])
  | .pattern base => some (.array [.prim (.name ColorSpaceType.pattern.toName), .prim (.name base)])

end PdfW
