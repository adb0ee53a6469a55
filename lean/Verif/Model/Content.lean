import Verif.Model.Object

/-!
# Content streams (`/repo/src/content.rs:5-1233`)
-/

namespace PdfW

/-- `>=` on `f32`. -/
def F32.ge (x y : F32) : Bool := !x.isNaN && !y.isNaN && decide (y.sval ≤ x.sval)

/-- `Content` (content.rs:6-10). -/
structure Content where
  buf : Buf
  pretty : Bool
  qDepth : Nat
deriving DecidableEq

/-- `Operation` without the buffer and settings (content.rs:86-91). -/
structure Operation where
  op : Bytes
  first : Bool
deriving DecidableEq

/-- `usize::MAX` on the 64-bit targets considered. -/
def usizeMax : Nat := 18446744073709551615

namespace Operation

/-- `Operation::start` (content.rs:95-97). -/
def start (op : Bytes) : Operation := ⟨op, true⟩

/-- `Operation::obj` (content.rs:121-142). -/
def obj (o : Operation) (pretty : Bool) (buf : Buf) : Buf × Operation × Obj :=
  let padByte := if o.first then ch!"\n" else ch!" "
  let (buf, needsPadding) :=
    if pretty then ((if !buf.inner.isEmpty then buf.push padByte else buf), false) else (buf, true)
  (buf, { o with first := false }, Obj.direct 0 pretty needsPadding)

/-- `Drop for Operation` (content.rs:145-161). -/
def drop (o : Operation) (pretty : Bool) (buf : Buf) : Buf :=
  let padByte := if o.first then ch!"\n" else ch!" "
  let buf :=
    if (pretty || buf.last?.any fun b => !isDelimiterCharacter b) && !buf.inner.isEmpty
    then buf.push padByte else buf
  buf.extend o.op

/-- Writing the operands one after the other, each through `obj` (content.rs:101-118; `operand` is `obj().primitive`). -/
def writeOperands (pretty : Bool) : List Prog → Operation → Buf → Buf × Operation
  | [], o, buf => (buf, o)
  | x :: xs, o, buf =>
    let (buf, o, ob) := o.obj pretty buf
    writeOperands pretty xs o (x.run ob buf)

end Operation

namespace Content

/-- `Content::with_settings` and the other constructors (content.rs:17-41); the capacity is not observable. -/
def withSettings (pretty : Bool) : Content := ⟨Buf.new, pretty, 0⟩

/-- `Content::op` (content.rs:62-64), the given operands, and the drop at the end of the statement. -/
def op (c : Content) (operator : Bytes) (operands : List Prog) : Content :=
  let o := Operation.start operator
  let (buf, o) := o.writeOperands c.pretty operands c.buf
  { c with buf := o.drop c.pretty buf }

/-- `Content::finish` (content.rs:75-80). -/
def finish (c : Content) : Buf :=
  if c.buf.last? = some ch!"\n" then { c.buf with inner := c.buf.inner.dropLast } else c.buf

end Content

/-! ## Arguments of the operator methods -/

/-- `LineCapStyle` (content.rs:240-249). -/
inductive LineCapStyle where
  | buttCap | roundCap | projectingSquareCap
deriving DecidableEq

/-- content.rs:253-259 -/
def LineCapStyle.toInt : LineCapStyle → Int
  | .buttCap => 0
  | .roundCap => 1
  | .projectingSquareCap => 2

/-- `LineJoinStyle` (content.rs:264-272). -/
inductive LineJoinStyle where
  | miterJoin | roundJoin | bevelJoin
deriving DecidableEq

/-- content.rs:276-282 -/
def LineJoinStyle.toInt : LineJoinStyle → Int
  | .miterJoin => 0
  | .roundJoin => 1
  | .bevelJoin => 2

/-- `RenderingIntent` (content.rs:286-296). -/
inductive RenderingIntent where
  | absoluteColorimetric | relativeColorimetric | saturation | perceptual
deriving DecidableEq

/-- content.rs:300-307 -/
def RenderingIntent.toName : RenderingIntent → Bytes
  | .absoluteColorimetric => b!"AbsoluteColorimetric"
  | .relativeColorimetric => b!"RelativeColorimetric"
  | .saturation => b!"Saturation"
  | .perceptual => b!"Perceptual"

/-- `TextRenderingMode` (content.rs:566-588). -/
inductive TextRenderingMode where
  | fill | stroke | fillStroke | invisible | fillClip | strokeClip | fillStrokeClip | clip
deriving DecidableEq

/-- content.rs:592-603 -/
def TextRenderingMode.toInt : TextRenderingMode → Int
  | .fill => 0
  | .stroke => 1
  | .fillStroke => 2
  | .invisible => 3
  | .fillClip => 4
  | .strokeClip => 5
  | .fillStrokeClip => 6
  | .clip => 7

/-- `ColorSpaceOperand` (content.rs:907-927). -/
inductive ColorSpaceOperand where
  | deviceGray | deviceRgb | deviceCmyk | pattern
  | named (n : Bytes)
deriving DecidableEq

/-- content.rs:931-939 -/
def ColorSpaceOperand.toName : ColorSpaceOperand → Bytes
  | .deviceGray => b!"DeviceGray"
  | .deviceRgb => b!"DeviceRGB"
  | .deviceCmyk => b!"DeviceCMYK"
  | .pattern => b!"Pattern"
  | .named n => n

/-- Calls on `PositionedItems` (content.rs:716-729). -/
inductive PosItem where
  | show (s : Bytes)
  | adjust (amount : F32)
deriving DecidableEq

/-- content.rs:716-729 -/
def PosItem.prog : PosItem → Prog
  | .show s => .prim (.str s)
  | .adjust a => .prim (.real a)

/-- `ArtifactType` (content.rs:1132-1143). -/
inductive ArtifactType where
  | pagination | layout | page | background | inline
deriving DecidableEq

/-- content.rs:1147-1155 -/
def ArtifactType.toName : ArtifactType → Bytes
  | .pagination => b!"Pagination"
  | .layout => b!"Layout"
  | .page => b!"Page"
  | .background => b!"Background"
  | .inline => b!"Inline"

/-- `ArtifactSubtype` (content.rs:1159-1177). -/
inductive ArtifactSubtype where
  | header | footer | watermark | pageNumber | bates | lineNumber | redaction
  | custom (n : Bytes)
deriving DecidableEq

/-- content.rs:1181-1192 -/
def ArtifactSubtype.toName : ArtifactSubtype → Bytes
  | .header => b!"Header"
  | .footer => b!"Footer"
  | .watermark => b!"Watermark"
  | .pageNumber => b!"PageNum"
  | .bates => b!"Bates"
  | .lineNumber => b!"LineNum"
  | .redaction => b!"Redaction"
  | .custom n => n

/-- `ArtifactAttachment` (content.rs:1198-1203). -/
inductive ArtifactAttachment where
  | left | top | right | bottom
deriving DecidableEq

/-- content.rs:1207-1214 -/
def ArtifactAttachment.toName : ArtifactAttachment → Bytes
  | .left => b!"Left"
  | .top => b!"Top"
  | .right => b!"Right"
  | .bottom => b!"Bottom"

/-- Calls on `PropertyList` and `Artifact` (content.rs:1050-1126), and on the `Dict` below them. -/
inductive PropCall where
  | identify (mcid : Int)
  | actualText (t : List Char)
  | actualTextLang (segs : List (LangId × List Char))
  | kind (k : ArtifactType)
  | subtype (s : ArtifactSubtype)
  | boundingBox (r : Rect)
  | attached (a : List ArtifactAttachment)
  | pair (key : Bytes) (value : Prog)

/-- The pair inserted by a call (content.rs:1050-1126). -/
def PropCall.entry : PropCall → Bytes × Prog
  | .identify i => (b!"MCID", .prim (.int i))
  | .actualText t => (b!"ActualText", .prim (.textStr t))
  | .actualTextLang segs => (b!"ActualText", .prim (.textStrLang segs))
  | .kind k => (b!"Type", .prim (.name k.toName))
  | .subtype s => (b!"Subtype", .prim (.name s.toName))
  | .boundingBox r => (b!"BBox", .prim (.rect r))
  | .attached a => (b!"Attached", .array (a.map fun x => .prim (.name x.toName)))
  | .pair k v => (k, v)

/-- What is done with a `MarkContent` (content.rs:1024-1034): nothing, properties, or named properties. -/
inductive MarkProps where
  | none
  | dict (calls : List PropCall)
  | named (n : Bytes)

/-- content.rs:1024-1034 -/
def MarkProps.operands : MarkProps → List Prog
  | .none => []
  | .dict calls => [.dict (calls.map PropCall.entry)]
  | .named n => [.prim (.name n)]

/-- Methods of `Content`. `op` stands for a generic operation with any operands. -/
inductive ContentCall where
  | op (name : Bytes) (operands : List Prog)
  | setLineWidth (w : F32) | setLineCap (c : LineCapStyle) | setLineJoin (j : LineJoinStyle) | setMiterLimit (l : F32)
  | setDashPattern (array : List F32) (phase : F32) | setRenderingIntent (i : RenderingIntent) | setFlatness (t : Int)
  | setParameters (dict : Bytes)
  | saveState | restoreState
  | transform (a b c d e f : F32)
  | moveTo (x y : F32) | lineTo (x y : F32) | cubicTo (x1 y1 x2 y2 x3 y3 : F32) | cubicToInitial (x2 y2 x3 y3 : F32)
  | cubicToFinal (x1 y1 x3 y3 : F32) | closePath | rect (x y w h : F32)
  | stroke | closeAndStroke | fillNonzero | fillEvenOdd | fillNonzeroAndStroke | fillEvenOddAndStroke
  | closeFillNonzeroAndStroke | closeFillEvenOddAndStroke | endPath
  | clipNonzero | clipEvenOdd
  | beginText | endText
  | setCharSpacing (s : F32) | setWordSpacing (s : F32) | setHorizontalScaling (s : F32) | setLeading (l : F32)
  | setFont (font : Bytes) (size : F32) | setTextRenderingMode (m : TextRenderingMode) | setRise (r : F32)
  | nextLine (x y : F32) | nextLineAndSetLeading (x y : F32) | setTextMatrix (a b c d e f : F32) | nextLineUsingLeading
  | show (s : Bytes) | nextLineShow (s : Bytes) | nextLineShowAndSetWordAndCharSpacing (ws cs : F32) (s : Bytes)
  | showPositioned (items : List PosItem)
  | startColorGlyph (wx : F32) | startShapeGlyph (wx llx lly urx ury : F32)
  | setStrokeColorSpace (s : ColorSpaceOperand) | setFillColorSpace (s : ColorSpaceOperand)
  | setStrokeColor (c : List F32) | setStrokePattern (tint : List F32) (n : Bytes)
  | setFillColor (c : List F32) | setFillPattern (tint : List F32) (n : Bytes)
  | setStrokeGray (g : F32) | setFillGray (g : F32) | setStrokeRgb (r g b : F32) | setFillRgb (r g b : F32)
  | setStrokeCmyk (c m y k : F32) | setFillCmyk (c m y k : F32)
  | shading (n : Bytes) | xObject (n : Bytes)
  | markedContentPoint (tag : Bytes) | markedContentPointWithProperties (tag : Bytes) (p : MarkProps)
  | beginMarkedContent (tag : Bytes) | beginMarkedContentWithProperties (tag : Bytes) (p : MarkProps)
  | endMarkedContent
  | beginCompat | endCompat

/-- Numbers as operands (`operands` of `f32`s, content.rs:108-118). -/
def numOperands (xs : List F32) : List Prog := xs.map fun x => .prim (.real x)

/-- A name as an operand. -/
def nameOperand (n : Bytes) : Prog := .prim (.name n)

/-- The methods of `Content`; `none` is a panic. -/
def ContentCall.run (c : Content) : ContentCall → Option Content
  | .op name operands => some (c.op name operands)
  | .setLineWidth w => if w.ge F32.zero then some (c.op b!"w" (numOperands [w])) else none  -- 169-173
  | .setLineCap k => some (c.op b!"J" [.prim (.int k.toInt)])  -- 177-180
  | .setLineJoin j => some (c.op b!"j" [.prim (.int j.toInt)])  -- 184-187
  | .setMiterLimit l => some (c.op b!"M" (numOperands [l]))  -- 191-194
  | .setDashPattern array phase => some (c.op b!"d" (.array (numOperands array) :: numOperands [phase]))  -- 198-208
  | .setRenderingIntent i => some (c.op b!"ri" [nameOperand i.toName])  -- 212-215
  | .setFlatness t => if 0 ≤ t ∧ t ≤ 100 then some (c.op b!"i" [.prim (.int t)]) else none  -- 221-228
  | .setParameters d => some (c.op b!"gs" [nameOperand d])  -- 232-235
  | .saveState => some { c.op b!"q" [] with qDepth := Min.min usizeMax (c.qDepth + 1) }  -- 314-318
  | .restoreState => some { c.op b!"Q" [] with qDepth := c.qDepth - 1 }  -- 322-326
  | .transform m0 m1 m2 m3 m4 m5 => some (c.op b!"cm" (numOperands [m0, m1, m2, m3, m4, m5]))  -- 337-340
  | .moveTo x y => some (c.op b!"m" (numOperands [x, y]))  -- 347-350
  | .lineTo x y => some (c.op b!"l" (numOperands [x, y]))  -- 354-357
  | .cubicTo x1 y1 x2 y2 x3 y3 => some (c.op b!"c" (numOperands [x1, y1, x2, y2, x3, y3]))  -- 362-373
  | .cubicToInitial x2 y2 x3 y3 => some (c.op b!"v" (numOperands [x2, y2, x3, y3]))  -- 378-381
  | .cubicToFinal x1 y1 x3 y3 => some (c.op b!"y" (numOperands [x1, y1, x3, y3]))  -- 386-389
  | .closePath => some (c.op b!"h" [])  -- 393-396
  | .rect x y w h => some (c.op b!"re" (numOperands [x, y, w, h]))  -- 400-403
  | .stroke => some (c.op b!"S" [])  -- 410-413
  | .closeAndStroke => some (c.op b!"s" [])  -- 417-420
  | .fillNonzero => some (c.op b!"f" [])  -- 424-427
  | .fillEvenOdd => some (c.op b!"f*" [])  -- 431-434
  | .fillNonzeroAndStroke => some (c.op b!"B" [])  -- 439-442
  | .fillEvenOddAndStroke => some (c.op b!"B*" [])  -- 446-449
  | .closeFillNonzeroAndStroke => some (c.op b!"b" [])  -- 454-457
  | .closeFillEvenOddAndStroke => some (c.op b!"b*" [])  -- 462-465
  | .endPath => some (c.op b!"n" [])  -- 471-474
  | .clipNonzero => some (c.op b!"W" [])  -- 482-485
  | .clipEvenOdd => some (c.op b!"W*" [])  -- 490-493
  | .beginText => some (c.op b!"BT" [])  -- 500-503
  | .endText => some (c.op b!"ET" [])  -- 507-510
  | .setCharSpacing s => some (c.op b!"Tc" (numOperands [s]))  -- 517-520
  | .setWordSpacing s => some (c.op b!"Tw" (numOperands [s]))  -- 524-527
  | .setHorizontalScaling s => some (c.op b!"Tz" (numOperands [s]))  -- 531-534
  | .setLeading l => some (c.op b!"TL" (numOperands [l]))  -- 538-541
  | .setFont f size => some (c.op b!"Tf" (nameOperand f :: numOperands [size]))  -- 545-548
  | .setTextRenderingMode m => some (c.op b!"Tr" [.prim (.int m.toInt)])  -- 552-555
  | .setRise r => some (c.op b!"Ts" (numOperands [r]))  -- 559-562
  | .nextLine x y => some (c.op b!"Td" (numOperands [x, y]))  -- 610-613
  | .nextLineAndSetLeading x y => some (c.op b!"TD" (numOperands [x, y]))  -- 618-621
  | .setTextMatrix m0 m1 m2 m3 m4 m5 => some (c.op b!"Tm" (numOperands [m0, m1, m2, m3, m4, m5]))  -- 625-628
  | .nextLineUsingLeading => some (c.op b!"T*" [])  -- 633-636
  | .show s => some (c.op b!"Tj" [.prim (.str s)])  -- 645-648
  | .nextLineShow s => some (c.op b!"'" [.prim (.str s)])  -- 652-655
  | .nextLineShowAndSetWordAndCharSpacing ws cs s => some (c.op b!"\"" (numOperands [ws, cs] ++ [.prim (.str s)]))  -- 660-668
  | .showPositioned items => some (c.op b!"TJ" [.array (items.map PosItem.prog)])  -- 672-674, 692-694
  | .startColorGlyph wx => some (c.op b!"d0" (numOperands [wx, F32.zero]))  -- 743-746
  | .startShapeGlyph wx llx lly urx ury => some (c.op b!"d1" (numOperands [wx, F32.zero, llx, lly, urx, ury]))  -- 754-764
  | .setStrokeColorSpace s => some (c.op b!"CS" [nameOperand s.toName])  -- 774-780
  | .setFillColorSpace s => some (c.op b!"cs" [nameOperand s.toName])  -- 787-793
  | .setStrokeColor col => some (c.op b!"SCN" (numOperands col))  -- 798-804
  | .setStrokePattern tint n => some (c.op b!"SCN" (numOperands tint ++ [nameOperand n]))  -- 812-819
  | .setFillColor col => some (c.op b!"scn" (numOperands col))  -- 824-827
  | .setFillPattern tint n => some (c.op b!"scn" (numOperands tint ++ [nameOperand n]))  -- 835-842
  | .setStrokeGray g => some (c.op b!"G" (numOperands [g]))  -- 847-850
  | .setFillGray g => some (c.op b!"g" (numOperands [g]))  -- 855-858
  | .setStrokeRgb r g b => some (c.op b!"RG" (numOperands [r, g, b]))  -- 863-866
  | .setFillRgb r g b => some (c.op b!"rg" (numOperands [r, g, b]))  -- 871-874
  | .setStrokeCmyk cy m y k => some (c.op b!"K" (numOperands [cy, m, y, k]))  -- 879-882
  | .setFillCmyk cy m y k => some (c.op b!"k" (numOperands [cy, m, y, k]))  -- 887-890
  | .shading n => some (c.op b!"sh" [nameOperand n])  -- 952-955
  | .xObject n => some (c.op b!"Do" [nameOperand n])  -- 964-967
  | .markedContentPoint tag => some (c.op b!"MP" [nameOperand tag])  -- 974-977
  | .markedContentPointWithProperties tag p => some (c.op b!"DP" (nameOperand tag :: p.operands))  -- 981-985
  | .beginMarkedContent tag => some (c.op b!"BMC" [nameOperand tag])  -- 989-992
  | .beginMarkedContentWithProperties tag p => some (c.op b!"BDC" (nameOperand tag :: p.operands))  -- 996-1000
  | .endMarkedContent => some (c.op b!"EMC" [])  -- 1004-1007
  | .beginCompat => some (c.op b!"BX" [])  -- 1221-1224
  | .endCompat => some (c.op b!"EX" [])  -- 1228-1231

/-- A sequence of calls. -/
def runCalls : List ContentCall → Content → Option Content
  | [], c => some c
  | k :: ks, c => match k.run c with | some c => runCalls ks c | none => none

end PdfW
