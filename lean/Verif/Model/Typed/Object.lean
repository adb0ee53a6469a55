-- Generated by tools/typed.py from /repo/src; do not edit.
import Verif.Model.Typed.Enums

/-! # Typed writers: `DecodeParms`, `Stream`, `NameTree`, `NumberTree` -/

namespace PdfW

/-- Calls of public methods of `DecodeParms` (object.rs:1223-1223). -/
inductive DecodeParmsCall where
  /-- object.rs:1230-1233 -/
  | predictor (predictor' : Predictor)
  /-- object.rs:1239-1246 -/
  | colors (colors' : Int)
  /-- object.rs:1253-1260 -/
  | bitsPerComponent (bits : Int)
  /-- object.rs:1271-1274 -/
  | columns (columns' : Int)
  /-- object.rs:1282-1285 -/
  | earlyChange (earlyChange' : Bool)
  /-- object.rs:1293-1296 -/
  | k (k' : Int)
  /-- object.rs:1302-1305 -/
  | endOfLine (eol : Bool)
  /-- object.rs:1311-1314 -/
  | encodedByteAlign (encodedByteAlign' : Bool)
  /-- object.rs:1319-1322 -/
  | rows (rows' : Int)
  /-- object.rs:1328-1331 -/
  | endOfBlock (endOfBlock' : Bool)
  /-- object.rs:1336-1339 -/
  | blackIs1 (blackIs1' : Bool)
  /-- object.rs:1345-1348 -/
  | damagedRowsBeforeError (count : Int)
  /-- object.rs:1356-1359 -/
  | jbig2Globals (globals : Ref)
  /-- object.rs:1371-1374 -/
  | colorTransform (colorTransform' : Bool)
  /-- object.rs:1380-1383 -/
  | cryptType
  /-- object.rs:1389-1392 -/
  | name (name' : Bytes)
  /-- object.rs:1395 -/
  | raw (key : Bytes) (value : Prog)

/-- The entries each method inserts. -/
def DecodeParmsCall.entries : DecodeParmsCall → List (Bytes × Prog)
  | .predictor predictor' => [(b!"Predictor", pInt predictor'.toInt)]
  | .colors colors' => [(b!"Colors", pInt colors')]
  | .bitsPerComponent bits => [(b!"BitsPerComponent", pInt bits)]
  | .columns columns' => [(b!"Columns", pInt columns')]
  | .earlyChange earlyChange' => [(b!"EarlyChange", pInt (if earlyChange' then 1 else 0))]
  | .k k' => [(b!"K", pInt k')]
  | .endOfLine eol => [(b!"EndOfLine", pBool eol)]
  | .encodedByteAlign encodedByteAlign' => [(b!"EncodedByteAlign", pBool encodedByteAlign')]
  | .rows rows' => [(b!"Rows", pInt rows')]
  | .endOfBlock endOfBlock' => [(b!"EndOfBlock", pBool endOfBlock')]
  | .blackIs1 blackIs1' => [(b!"BlackIs1", pBool blackIs1')]
  | .damagedRowsBeforeError count => [(b!"DamagedRowsBeforeError", pInt count)]
  | .jbig2Globals globals => [(b!"JBIG2Globals", pRef globals)]
  | .colorTransform colorTransform' => [(b!"ColorTransform", pInt (if colorTransform' then 1 else 0))]
  | .cryptType => [(b!"Type", pName b!"CryptFilterDecodeParms")]
  | .name name' => [(b!"Name", pName name')]
  | .raw key value => [(key, value)]

/-- All entries of the object: those of the constructor (object.rs:1223-1223), then those of the calls. -/
def DecodeParms.entries (calls : List DecodeParmsCall) : List (Bytes × Prog) := calls.flatMap DecodeParmsCall.entries

/-- The object written. -/
def DecodeParms.prog (calls : List DecodeParmsCall) : Prog := .dict (DecodeParms.entries calls)

/-- Does the call panic (`assert!`)? -/
def DecodeParmsCall.panics : DecodeParmsCall → Bool
  | .colors colors' => decide (colors' ≤ 0)
  | .bitsPerComponent bits => !([1, 2, 4, 8, 16].contains bits)
  | _ => false

/-- The object written by a sequence of calls; `none` if one of them panics. -/
def DecodeParms.run (calls : List DecodeParmsCall) : Option Prog := if calls.any DecodeParmsCall.panics then none else some (DecodeParms.prog calls)

/-- Calls of public methods of `Stream`. -/
inductive StreamCall where
  /-- object.rs:1133-1136 -/
  | filter (filter' : Filter)
  /-- object.rs:1143-1145 -/
  | decodeParms (calls : List DecodeParmsCall)
  /-- object.rs:1169 -/
  | raw (key : Bytes) (value : Prog)

/-- The entries each method inserts. -/
def StreamCall.entries : StreamCall → List (Bytes × Prog)
  | .filter filter' => [(b!"Filter", pName filter'.toName)]
  | .decodeParms calls => [(b!"DecodeParms", DecodeParms.prog calls)]
  | .raw key value => [(key, value)]

/-- All entries of the object: those of the constructor, then those of the calls. -/
def Stream.entries (calls : List StreamCall) : List (Bytes × Prog) := calls.flatMap StreamCall.entries

/-- Does the call panic (`assert!`)? -/
def StreamCall.panics : StreamCall → Bool
  | .decodeParms calls => calls.any DecodeParmsCall.panics
  | _ => false

/-- The stream written; `none` if one of the calls panics, or the stream is too long. -/
def Stream.write (calls : List StreamCall) (c : Chunk) (r : Ref) (data : Bytes) : Option Chunk :=
  if calls.any StreamCall.panics then none else c.writeStream r (Stream.entries calls) data

/-- Calls of public methods of `NameTree` (object.rs:1445-1449). -/
inductive NameTreeCall where
  /-- object.rs:1457-1459 -/
  | kids (x : List Ref)
  /-- object.rs:1463-1465 -/
  | names (entries : List (Bytes × Prim))
  /-- object.rs:1469-1472 -/
  | limits (min : Bytes) (max : Bytes)

/-- The entries each method inserts. -/
def NameTreeCall.entries : NameTreeCall → List (Bytes × Prog)
  | .kids x => [(b!"Kids", .array (x.map fun x => pRef x))]
  | .names entries => [(b!"Names", .array (entries.flatMap fun e => [pStr e.1, .prim e.2]))]
  | .limits min max => [(b!"Limits", .array [pName min, pName max])]

/-- All entries of the object: those of the constructor (object.rs:1445-1449), then those of the calls. -/
def NameTree.entries (calls : List NameTreeCall) : List (Bytes × Prog) := calls.flatMap NameTreeCall.entries

/-- The object written. -/
def NameTree.prog (calls : List NameTreeCall) : Prog := .dict (NameTree.entries calls)

/-- Calls of public methods of `NumberTree` (object.rs:1521-1525). -/
inductive NumberTreeCall where
  /-- object.rs:1533-1535 -/
  | kids (x : List Ref)
  /-- object.rs:1539-1541 -/
  | nums (entries : List (Int × Prim))
  /-- object.rs:1545-1548 -/
  | limits (min : Int) (max : Int)

/-- The entries each method inserts. -/
def NumberTreeCall.entries : NumberTreeCall → List (Bytes × Prog)
  | .kids x => [(b!"Kids", .array (x.map fun x => pRef x))]
  | .nums entries => [(b!"Nums", .array (entries.flatMap fun e => [pInt e.1, .prim e.2]))]
  | .limits min max => [(b!"Limits", .array [pInt min, pInt max])]

/-- All entries of the object: those of the constructor (object.rs:1521-1525), then those of the calls. -/
def NumberTree.entries (calls : List NumberTreeCall) : List (Bytes × Prog) := calls.flatMap NumberTreeCall.entries

/-- The object written. -/
def NumberTree.prog (calls : List NumberTreeCall) : Prog := .dict (NumberTree.entries calls)

end PdfW
