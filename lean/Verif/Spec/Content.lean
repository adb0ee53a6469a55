import Verif.Model.Content
import Verif.Spec.Denotes

/-!
# Content streams (ISO 32000-1, 7.8.2 and annex A): a reader, and what the calls stand for
-/

namespace PdfW.Spec
open PdfW

/-- An operation read from a content stream: operator and operands. -/
abbrev ReadOp := Bytes × List Val

/-- Read operations up to the end of the input: operands, then an operator. -/
def readOps : Nat → Bytes → Option (List ReadOp)
  | 0, _ => none
  | fuel + 1, bs =>
    match skipSpace false bs with
    | [] => some []
    | _ :: _ =>
      match readItems (bs.length + 1) [(.top, [])] bs with
      | some (vs, k, rest) =>
        match readOps fuel rest with
        | some ops => some ((k, vs) :: ops)
        | none => none
      | none => none

/-- The operations of a content stream. -/
def readContent (bs : Bytes) : Option (List ReadOp) := readOps (bs.length + 1) bs

/-- The operator of each method (ISO 32000-1, table A.1). -/
def operatorOf : ContentCall → Bytes
  | .op name _ => name
  | .setLineWidth _ => b!"w" | .setLineCap _ => b!"J" | .setLineJoin _ => b!"j" | .setMiterLimit _ => b!"M"
  | .setDashPattern _ _ => b!"d" | .setRenderingIntent _ => b!"ri" | .setFlatness _ => b!"i" | .setParameters _ => b!"gs"
  | .saveState => b!"q" | .restoreState => b!"Q" | .transform .. => b!"cm"
  | .moveTo .. => b!"m" | .lineTo .. => b!"l" | .cubicTo .. => b!"c" | .cubicToInitial .. => b!"v" | .cubicToFinal .. => b!"y"
  | .closePath => b!"h" | .rect .. => b!"re"
  | .stroke => b!"S" | .closeAndStroke => b!"s" | .fillNonzero => b!"f" | .fillEvenOdd => b!"f*"
  | .fillNonzeroAndStroke => b!"B" | .fillEvenOddAndStroke => b!"B*" | .closeFillNonzeroAndStroke => b!"b"
  | .closeFillEvenOddAndStroke => b!"b*" | .endPath => b!"n" | .clipNonzero => b!"W" | .clipEvenOdd => b!"W*"
  | .beginText => b!"BT" | .endText => b!"ET"
  | .setCharSpacing _ => b!"Tc" | .setWordSpacing _ => b!"Tw" | .setHorizontalScaling _ => b!"Tz" | .setLeading _ => b!"TL"
  | .setFont .. => b!"Tf" | .setTextRenderingMode _ => b!"Tr" | .setRise _ => b!"Ts"
  | .nextLine .. => b!"Td" | .nextLineAndSetLeading .. => b!"TD" | .setTextMatrix .. => b!"Tm" | .nextLineUsingLeading => b!"T*"
  | .show _ => b!"Tj" | .nextLineShow _ => b!"'" | .nextLineShowAndSetWordAndCharSpacing .. => b!"\""
  | .showPositioned _ => b!"TJ"
  | .startColorGlyph _ => b!"d0" | .startShapeGlyph .. => b!"d1"
  | .setStrokeColorSpace _ => b!"CS" | .setFillColorSpace _ => b!"cs"
  | .setStrokeColor _ => b!"SCN" | .setStrokePattern .. => b!"SCN" | .setFillColor _ => b!"scn" | .setFillPattern .. => b!"scn"
  | .setStrokeGray _ => b!"G" | .setFillGray _ => b!"g" | .setStrokeRgb .. => b!"RG" | .setFillRgb .. => b!"rg"
  | .setStrokeCmyk .. => b!"K" | .setFillCmyk .. => b!"k"
  | .shading _ => b!"sh" | .xObject _ => b!"Do"
  | .markedContentPoint _ => b!"MP" | .markedContentPointWithProperties .. => b!"DP" | .beginMarkedContent _ => b!"BMC"
  | .beginMarkedContentWithProperties .. => b!"BDC" | .endMarkedContent => b!"EMC"
  | .beginCompat => b!"BX" | .endCompat => b!"EX"

/-- A number. -/
def num (x : F32) : Prog := .prim (.real x)
/-- A name. -/
def nam (n : Bytes) : Prog := .prim (.name n)

/-- Property lists of marked content (14.6.2, table 330). -/
def propEntry : PropCall → Bytes × Prog
  | .identify i => (b!"MCID", .prim (.int i))
  | .actualText t => (b!"ActualText", .prim (.textStr t))
  | .actualTextLang segs => (b!"ActualText", .prim (.textStrLang segs))
  | .kind .pagination => (b!"Type", nam b!"Pagination")
  | .kind .layout => (b!"Type", nam b!"Layout")
  | .kind .page => (b!"Type", nam b!"Page")
  | .kind .background => (b!"Type", nam b!"Background")
  | .kind .inline => (b!"Type", nam b!"Inline")
  | .subtype .header => (b!"Subtype", nam b!"Header")
  | .subtype .footer => (b!"Subtype", nam b!"Footer")
  | .subtype .watermark => (b!"Subtype", nam b!"Watermark")
  | .subtype .pageNumber => (b!"Subtype", nam b!"PageNum")
  | .subtype .bates => (b!"Subtype", nam b!"Bates")
  | .subtype .lineNumber => (b!"Subtype", nam b!"LineNum")
  | .subtype .redaction => (b!"Subtype", nam b!"Redaction")
  | .subtype (.custom n) => (b!"Subtype", nam n)
  | .boundingBox r => (b!"BBox", .prim (.rect r))
  | .attached a => (b!"Attached", .array (a.map fun
      | .left => nam b!"Left" | .top => nam b!"Top" | .right => nam b!"Right" | .bottom => nam b!"Bottom"))
  | .pair k v => (k, v)

/-- The operands of each method, from its arguments (ISO 32000-1, the tables referred to by table A.1). -/
def operandsOf : ContentCall → List Prog
  | .op _ operands => operands
  | .setLineWidth w => [num w]
  | .setLineCap .buttCap => [.prim (.int 0)] | .setLineCap .roundCap => [.prim (.int 1)]
  | .setLineCap .projectingSquareCap => [.prim (.int 2)]
  | .setLineJoin .miterJoin => [.prim (.int 0)] | .setLineJoin .roundJoin => [.prim (.int 1)] | .setLineJoin .bevelJoin => [.prim (.int 2)]
  | .setMiterLimit l => [num l]
  | .setDashPattern array phase => [.array (array.map num), num phase]
  | .setRenderingIntent .absoluteColorimetric => [nam b!"AbsoluteColorimetric"]
  | .setRenderingIntent .relativeColorimetric => [nam b!"RelativeColorimetric"]
  | .setRenderingIntent .saturation => [nam b!"Saturation"]
  | .setRenderingIntent .perceptual => [nam b!"Perceptual"]
  | .setFlatness t => [.prim (.int t)]
  | .setParameters d => [nam d]
  | .saveState | .restoreState | .closePath | .stroke | .closeAndStroke | .fillNonzero | .fillEvenOdd | .fillNonzeroAndStroke
  | .fillEvenOddAndStroke | .closeFillNonzeroAndStroke | .closeFillEvenOddAndStroke | .endPath | .clipNonzero | .clipEvenOdd
  | .beginText | .endText | .nextLineUsingLeading | .endMarkedContent | .beginCompat | .endCompat => []
  | .transform m0 m1 m2 m3 m4 m5 => [num m0, num m1, num m2, num m3, num m4, num m5]
  | .moveTo x y => [num x, num y]
  | .lineTo x y => [num x, num y]
  | .cubicTo x1 y1 x2 y2 x3 y3 => [num x1, num y1, num x2, num y2, num x3, num y3]
  | .cubicToInitial x2 y2 x3 y3 => [num x2, num y2, num x3, num y3]
  | .cubicToFinal x1 y1 x3 y3 => [num x1, num y1, num x3, num y3]
  | .rect x y w h => [num x, num y, num w, num h]
  | .setCharSpacing s => [num s]
  | .setWordSpacing s => [num s]
  | .setHorizontalScaling s => [num s]
  | .setLeading s => [num s]
  | .setFont f size => [nam f, num size]
  | .setTextRenderingMode .fill => [.prim (.int 0)] | .setTextRenderingMode .stroke => [.prim (.int 1)]
  | .setTextRenderingMode .fillStroke => [.prim (.int 2)] | .setTextRenderingMode .invisible => [.prim (.int 3)]
  | .setTextRenderingMode .fillClip => [.prim (.int 4)] | .setTextRenderingMode .strokeClip => [.prim (.int 5)]
  | .setTextRenderingMode .fillStrokeClip => [.prim (.int 6)] | .setTextRenderingMode .clip => [.prim (.int 7)]
  | .setRise r => [num r]
  | .nextLine x y => [num x, num y]
  | .nextLineAndSetLeading x y => [num x, num y]
  | .setTextMatrix m0 m1 m2 m3 m4 m5 => [num m0, num m1, num m2, num m3, num m4, num m5]
  | .show s => [.prim (.str s)]
  | .nextLineShow s => [.prim (.str s)]
  | .nextLineShowAndSetWordAndCharSpacing ws cs s => [num ws, num cs, .prim (.str s)]
  | .showPositioned items => [.array (items.map fun | .show s => .prim (.str s) | .adjust a => num a)]
  | .startColorGlyph wx => [num wx, num F32.zero]
  | .startShapeGlyph wx llx lly urx ury => [num wx, num F32.zero, num llx, num lly, num urx, num ury]
  | .setStrokeColorSpace s | .setFillColorSpace s =>
    match s with
    | .deviceGray => [nam b!"DeviceGray"]
    | .deviceRgb => [nam b!"DeviceRGB"]
    | .deviceCmyk => [nam b!"DeviceCMYK"]
    | .pattern => [nam b!"Pattern"]
    | .named n => [nam n]
  | .setStrokeColor c => c.map num
  | .setStrokePattern tint n => tint.map num ++ [nam n]
  | .setFillColor c => c.map num
  | .setFillPattern tint n => tint.map num ++ [nam n]
  | .setStrokeGray g => [num g]
  | .setFillGray g => [num g]
  | .setStrokeRgb r g b => [num r, num g, num b]
  | .setFillRgb r g b => [num r, num g, num b]
  | .setStrokeCmyk c m y k => [num c, num m, num y, num k]
  | .setFillCmyk c m y k => [num c, num m, num y, num k]
  | .shading n => [nam n]
  | .xObject n => [nam n]
  | .markedContentPoint t => [nam t]
  | .beginMarkedContent t => [nam t]
  | .markedContentPointWithProperties t p | .beginMarkedContentWithProperties t p =>
    match p with
    | .none => [nam t]
    | .dict calls => [nam t, .dict (calls.map propEntry)]
    | .named n => [nam t, nam n]

/-- An operation read from the stream stands for a call. -/
def Means (c : ContentCall) (op : ReadOp) : Prop := op.1 = operatorOf c ∧ DenotesItems (operandsOf c) op.2

/-- Operation by operation. -/
def AllMean : List ContentCall → List ReadOp → Prop
  | [], ops => ops = []
  | c :: cs, ops => ∃ o os, ops = o :: os ∧ Means c o ∧ AllMean cs os

/-- A word that can be an operator: regular characters, not a number, not a word that forms objects. -/
def OperatorOk (k : Bytes) : Prop :=
  k ≠ [] ∧ k.all isRegular = true ∧ readNumber k = none ∧ k ≠ b!"true" ∧ k ≠ b!"false" ∧ k ≠ b!"null" ∧ k ≠ b!"R"

/-- Arguments that PDF can represent; only the generic method can be given an operator that is none. -/
def CallOk (c : ContentCall) : Prop :=
  OkItems (operandsOf c) ∧ match c with | .op name _ => OperatorOk name | _ => True

/-- For compact mode: no empty name is directly followed by a bare token or by the operator. -/
def CallNoClash (c : ContentCall) : Prop :=
  NoClashItems (operandsOf c) ∧ ∀ y ∈ (operandsOf c).getLast?, isEmptyName y = false

/-- How often an operator occurs. -/
def countOp (k : Bytes) (ops : List ReadOp) : Nat := (ops.filter (fun o => o.1 == k)).length

/-- `d` graphics states are open at the end of the stream: `d` is the greatest excess of `q` over `Q` among all tails
of the stream (a `Q` with nothing to restore has no effect). -/
def OpenStates (ops : List ReadOp) (d : Nat) : Prop :=
  (∀ pre tail, ops = pre ++ tail → countOp b!"q" tail ≤ countOp b!"Q" tail + d) ∧
  (∃ pre tail, ops = pre ++ tail ∧ countOp b!"q" tail = countOp b!"Q" tail + d)

end PdfW.Spec
