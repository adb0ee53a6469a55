-- Generated by tools/typed.py from /repo/src; do not edit.
import Verif.Model.Typed.Enums

/-! # Typed writers: `Resources`, `SoftMask`, `ExtGraphicsState` -/

namespace PdfW

/-- Calls of public methods of `Resources` (content.rs:1242-1242). -/
inductive ResourcesCall where
  /-- content.rs:1250-1252 -/
  | xObjects (x : List (Bytes × Prog))
  /-- content.rs:1260-1262 -/
  | fonts (x : List (Bytes × Prog))
  /-- content.rs:1268-1270 -/
  | colorSpaces (x : List (Bytes × Prog))
  /-- content.rs:1277-1279 -/
  | patterns (x : List (Bytes × Prog))
  /-- content.rs:1285-1287 -/
  | shadings (x : List (Bytes × Prog))
  /-- content.rs:1293-1295 -/
  | extGStates (x : List (Bytes × Prog))
  /-- content.rs:1302-1307 -/
  | procSets (sets : List ProcSet)
  /-- content.rs:1314-1322 -/
  | procSetsAll
  /-- content.rs:1329-1331 -/
  | properties (es : List (Bytes × List PropCall))
  /-- content.rs:1334 -/
  | raw (key : Bytes) (value : Prog)

/-- The entries each method inserts. -/
def ResourcesCall.entries : ResourcesCall → List (Bytes × Prog)
  | .xObjects x => [(b!"XObject", .dict x)]
  | .fonts x => [(b!"Font", .dict x)]
  | .colorSpaces x => [(b!"ColorSpace", .dict x)]
  | .patterns x => [(b!"Pattern", .dict x)]
  | .shadings x => [(b!"Shading", .dict x)]
  | .extGStates x => [(b!"ExtGState", .dict x)]
  | .procSets sets => [(b!"ProcSet", .array (sets.map fun x => pName x.toName))]
  | .procSetsAll => [(b!"ProcSet", .array ([ProcSet.pdf, .text, .imageGrayscale, .imageColor, .imageIndexed].map fun x => pName x.toName))]
  | .properties es => [(b!"Properties", .dict (es.map fun e => (e.1, .dict (e.2.map PropCall.entry))))]
  | .raw key value => [(key, value)]

/-- All entries of the object: those of the constructor (content.rs:1242-1242), then those of the calls. -/
def Resources.entries (calls : List ResourcesCall) : List (Bytes × Prog) := calls.flatMap ResourcesCall.entries

/-- The object written. -/
def Resources.prog (calls : List ResourcesCall) : Prog := .dict (Resources.entries calls)

/-- Calls of public methods of `SoftMask` (content.rs:1670-1674). -/
inductive SoftMaskCall where
  /-- content.rs:1678-1681 -/
  | subtype (subtype' : MaskType)
  /-- content.rs:1686-1689 -/
  | group (group' : Ref)
  /-- content.rs:1694-1697 -/
  | backdrop (color : List F32)
  /-- content.rs:1701-1704 -/
  | transferFunction (function : Ref)
  /-- content.rs:1707 -/
  | raw (key : Bytes) (value : Prog)

/-- The entries each method inserts. -/
def SoftMaskCall.entries : SoftMaskCall → List (Bytes × Prog)
  | .subtype subtype' => [(b!"S", pName subtype'.toName)]
  | .group group' => [(b!"G", pRef group')]
  | .backdrop color => [(b!"BC", .array (color.map fun x => pReal x))]
  | .transferFunction function => [(b!"TR", pRef function)]
  | .raw key value => [(key, value)]

/-- All entries of the object: those of the constructor (content.rs:1670-1674), then those of the calls. -/
def SoftMask.entries (calls : List SoftMaskCall) : List (Bytes × Prog) := [(b!"Type", pName b!"Mask")] ++ calls.flatMap SoftMaskCall.entries

/-- The object written. -/
def SoftMask.prog (calls : List SoftMaskCall) : Prog := .dict (SoftMask.entries calls)

/-- Calls of public methods of `ExtGraphicsState` (content.rs:1374-1378). -/
inductive ExtGraphicsStateCall where
  /-- content.rs:1382-1385 -/
  | lineWidth (width : F32)
  /-- content.rs:1388-1391 -/
  | lineCap (cap : LineCapStyle)
  /-- content.rs:1394-1397 -/
  | lineJoin (join : LineJoinStyle)
  /-- content.rs:1400-1403 -/
  | miterLimit (limit : F32)
  /-- content.rs:1406-1416 -/
  | dashPattern (pattern : List F32) (phase : F32)
  /-- content.rs:1419-1422 -/
  | renderingIntent (intent : RenderingIntent)
  /-- content.rs:1427-1430 -/
  | overprint (overprint' : Bool)
  /-- content.rs:1434-1437 -/
  | overprintFill (overprint' : Bool)
  /-- content.rs:1443-1446 -/
  | overprintMode (mode : OverprintMode)
  /-- content.rs:1449-1455 -/
  | font (font' : Bytes) (size : F32)
  /-- content.rs:1458-1461 -/
  | blackGeneration (func : Ref)
  /-- content.rs:1466-1469 -/
  | blackGenerationDefault
  /-- content.rs:1472-1475 -/
  | undercolorRemoval (func : Ref)
  /-- content.rs:1480-1483 -/
  | undercolorRemovalDefault
  /-- content.rs:1488-1491 -/
  | transfer (func : Ref)
  /-- content.rs:1495-1498 -/
  | transferDefault
  /-- content.rs:1503-1506 -/
  | halftone (ht : Ref)
  /-- content.rs:1510-1513 -/
  | halftoneDefault
  /-- content.rs:1518-1521 -/
  | flatness (tolerance : F32)
  /-- content.rs:1524-1527 -/
  | smoothness (tolerance : F32)
  /-- content.rs:1530-1533 -/
  | strokeAdjustment (adjust : Bool)
  /-- content.rs:1538-1541 -/
  | blendMode (mode : BlendMode)
  /-- content.rs:1546-1548 -/
  | softMask (calls : List SoftMaskCall)
  /-- content.rs:1553-1556 -/
  | softMaskName (mask : Bytes)
  /-- content.rs:1561-1564 -/
  | strokingAlpha (alpha : F32)
  /-- content.rs:1570-1573 -/
  | nonStrokingAlpha (alpha : F32)
  /-- content.rs:1578-1581 -/
  | alphaSource (source : Bool)
  /-- content.rs:1584-1587 -/
  | textKnockout (knockout : Bool)
  /-- content.rs:1590 -/
  | raw (key : Bytes) (value : Prog)

/-- The entries each method inserts. -/
def ExtGraphicsStateCall.entries : ExtGraphicsStateCall → List (Bytes × Prog)
  | .lineWidth width => [(b!"LW", pReal width)]
  | .lineCap cap => [(b!"LC", pInt cap.toInt)]
  | .lineJoin join => [(b!"LJ", pInt join.toInt)]
  | .miterLimit limit => [(b!"ML", pReal limit)]
  | .dashPattern pattern phase => [(b!"D", .array [.array (pattern.map fun x => pReal x), pReal phase])]
  | .renderingIntent intent => [(b!"RI", pName intent.toName)]
  | .overprint overprint' => [(b!"OP", pBool overprint')]
  | .overprintFill overprint' => [(b!"op", pBool overprint')]
  | .overprintMode mode => [(b!"OPM", pInt mode.toInt)]
  | .font font' size => [(b!"Font", .array [pName font', pReal size])]
  | .blackGeneration func => [(b!"BG", pRef func)]
  | .blackGenerationDefault => [(b!"BG2", pName b!"Default")]
  | .undercolorRemoval func => [(b!"UCR", pRef func)]
  | .undercolorRemovalDefault => [(b!"UCR2", pName b!"Default")]
  | .transfer func => [(b!"TR", pRef func)]
  | .transferDefault => [(b!"TR2", pName b!"Default")]
  | .halftone ht => [(b!"HT", pRef ht)]
  | .halftoneDefault => [(b!"HT", pName b!"Default")]
  | .flatness tolerance => [(b!"FL", pReal tolerance)]
  | .smoothness tolerance => [(b!"SM", pReal tolerance)]
  | .strokeAdjustment adjust => [(b!"SA", pBool adjust)]
  | .blendMode mode => [(b!"BM", pName mode.toName)]
  | .softMask calls => [(b!"SMask", SoftMask.prog calls)]
  | .softMaskName mask => [(b!"SMask", pName mask)]
  | .strokingAlpha alpha => [(b!"CA", pReal alpha)]
  | .nonStrokingAlpha alpha => [(b!"ca", pReal alpha)]
  | .alphaSource source => [(b!"AIS", pBool source)]
  | .textKnockout knockout => [(b!"TK", pBool knockout)]
  | .raw key value => [(key, value)]

/-- All entries of the object: those of the constructor (content.rs:1374-1378), then those of the calls. -/
def ExtGraphicsState.entries (calls : List ExtGraphicsStateCall) : List (Bytes × Prog) := [(b!"Type", pName b!"ExtGState")] ++ calls.flatMap ExtGraphicsStateCall.entries

/-- The object written. -/
def ExtGraphicsState.prog (calls : List ExtGraphicsStateCall) : Prog := .dict (ExtGraphicsState.entries calls)

end PdfW
