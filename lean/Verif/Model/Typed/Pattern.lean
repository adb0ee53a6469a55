-- Generated by tools/typed.py from /repo/src; do not edit.
import Verif.Model.Typed.Object
import Verif.Model.Typed.Resources

/-! # Typed writers: `IccProfile`, `TilingPattern`, `FunctionShading`, `ShadingPattern`, `StreamShading`, `SeparationInfo`, `OutputIntent` -/

namespace PdfW

/-- Calls of public methods of `IccProfile` (color.rs:176-178). -/
inductive IccProfileCall where
  /-- color.rs:184-188 -/
  | n (n' : Int)
  /-- color.rs:196-198 -/
  | alternate (x : Prog)
  /-- color.rs:204-207 -/
  | alternateName (name : Bytes)
  /-- color.rs:216-219 -/
  | range (range' : List F32)
  /-- color.rs:225-228 -/
  | metadata (metadata' : Ref)
  /-- color.rs:231 -/
  | stream (c : StreamCall)

/-- The entries each method inserts. -/
def IccProfileCall.entries : IccProfileCall → List (Bytes × Prog)
  | .n n' => [(b!"N", pInt n')]
  | .alternate x => [(b!"Alternate", x)]
  | .alternateName name => [(b!"Alternate", pName name)]
  | .range range' => [(b!"Range", .array (range'.map fun x => pReal x))]
  | .metadata metadata' => [(b!"Metadata", pRef metadata')]
  | .stream c => c.entries

/-- All entries of the object: those of the constructor (color.rs:176-178), then those of the calls. -/
def IccProfile.entries (calls : List IccProfileCall) : List (Bytes × Prog) := calls.flatMap IccProfileCall.entries

/-- Does the call panic (`assert!`)? -/
def IccProfileCall.panics : IccProfileCall → Bool
  | .n n' => !(n' == 1 || n' == 3 || n' == 4)
  | .stream c => c.panics
  | _ => false

/-- The stream written; `none` if one of the calls panics, or the stream is too long. -/
def IccProfile.write (calls : List IccProfileCall) (c : Chunk) (r : Ref) (data : Bytes) : Option Chunk :=
  if calls.any IccProfileCall.panics then none else c.writeStream r (IccProfile.entries calls) data

/-- Calls of public methods of `TilingPattern` (color.rs:777-781). -/
inductive TilingPatternCall where
  /-- color.rs:786-789 -/
  | paintType (paintType' : PaintType)
  /-- color.rs:794-797 -/
  | tilingType (tilingType' : TilingType)
  /-- color.rs:803-806 -/
  | bbox (bbox' : Rect)
  /-- color.rs:813-817 -/
  | xStep (x : F32)
  /-- color.rs:824-828 -/
  | yStep (y : F32)
  /-- color.rs:833-835 -/
  | resources (calls : List ResourcesCall)
  /-- color.rs:841-844 -/
  | matrix (matrix' : List F32)
  /-- color.rs:847 -/
  | stream (c : StreamCall)

/-- The entries each method inserts. -/
def TilingPatternCall.entries : TilingPatternCall → List (Bytes × Prog)
  | .paintType paintType' => [(b!"PaintType", pInt paintType'.toInt)]
  | .tilingType tilingType' => [(b!"TilingType", pInt tilingType'.toInt)]
  | .bbox bbox' => [(b!"BBox", pRect bbox')]
  | .xStep x => [(b!"XStep", pReal x)]
  | .yStep y => [(b!"YStep", pReal y)]
  | .resources calls => [(b!"Resources", Resources.prog calls)]
  | .matrix matrix' => [(b!"Matrix", .array (matrix'.map fun x => pReal x))]
  | .stream c => c.entries

/-- All entries of the object: those of the constructor (color.rs:777-781), then those of the calls. -/
def TilingPattern.entries (calls : List TilingPatternCall) : List (Bytes × Prog) := [(b!"Type", pName b!"Pattern"), (b!"PatternType", pInt PatternType.tiling.toInt)] ++ calls.flatMap TilingPatternCall.entries

/-- Does the call panic (`assert!`)? -/
def TilingPatternCall.panics : TilingPatternCall → Bool
  | .xStep x => x.eq F32.zero
  | .yStep y => y.eq F32.zero
  | .stream c => c.panics
  | _ => false

/-- The stream written; `none` if one of the calls panics, or the stream is too long. -/
def TilingPattern.write (calls : List TilingPatternCall) (c : Chunk) (r : Ref) (data : Bytes) : Option Chunk :=
  if calls.any TilingPatternCall.panics then none else c.writeStream r (TilingPattern.entries calls) data

/-- Calls of public methods of `FunctionShading` (color.rs:938-938). -/
inductive FunctionShadingCall where
  /-- color.rs:945-948 -/
  | shadingType (kind : FunctionShadingType)
  /-- color.rs:954-956 -/
  | colorSpace (x : Prog)
  /-- color.rs:963-966 -/
  | background (background' : List F32)
  /-- color.rs:971-974 -/
  | bbox (bbox' : Rect)
  /-- color.rs:979-982 -/
  | antiAlias (antiAlias' : Bool)
  /-- color.rs:989-992 -/
  | domain (domain' : List F32)
  /-- color.rs:999-1002 -/
  | matrix (matrix' : List F32)
  /-- color.rs:1008-1011 -/
  | function (function' : Ref)
  /-- color.rs:1018-1021 -/
  | coords (coords' : List F32)
  /-- color.rs:1027-1030 -/
  | extend (extend' : List Bool)
  /-- color.rs:1033 -/
  | raw (key : Bytes) (value : Prog)

/-- The entries each method inserts. -/
def FunctionShadingCall.entries : FunctionShadingCall → List (Bytes × Prog)
  | .shadingType kind => [(b!"ShadingType", pInt kind.toInt)]
  | .colorSpace x => [(b!"ColorSpace", x)]
  | .background background' => [(b!"Background", .array (background'.map fun x => pReal x))]
  | .bbox bbox' => [(b!"BBox", pRect bbox')]
  | .antiAlias antiAlias' => [(b!"AntiAlias", pBool antiAlias')]
  | .domain domain' => [(b!"Domain", .array (domain'.map fun x => pReal x))]
  | .matrix matrix' => [(b!"Matrix", .array (matrix'.map fun x => pReal x))]
  | .function function' => [(b!"Function", pRef function')]
  | .coords coords' => [(b!"Coords", .array (coords'.map fun x => pReal x))]
  | .extend extend' => [(b!"Extend", .array (extend'.map fun x => pBool x))]
  | .raw key value => [(key, value)]

/-- All entries of the object: those of the constructor (color.rs:938-938), then those of the calls. -/
def FunctionShading.entries (calls : List FunctionShadingCall) : List (Bytes × Prog) := calls.flatMap FunctionShadingCall.entries

/-- The object written. -/
def FunctionShading.prog (calls : List FunctionShadingCall) : Prog := .dict (FunctionShading.entries calls)

/-- Calls of public methods of `ShadingPattern` (color.rs:895-900). -/
inductive ShadingPatternCall where
  /-- color.rs:904-906 -/
  | functionShading (calls : List FunctionShadingCall)
  /-- color.rs:909-912 -/
  | shadingRef (r : Ref)
  /-- color.rs:917-920 -/
  | matrix (matrix' : List F32)
  /-- color.rs:923-925 -/
  | extGraphics (calls : List ExtGraphicsStateCall)
  /-- color.rs:928 -/
  | raw (key : Bytes) (value : Prog)

/-- The entries each method inserts. -/
def ShadingPatternCall.entries : ShadingPatternCall → List (Bytes × Prog)
  | .functionShading calls => [(b!"Shading", FunctionShading.prog calls)]
  | .shadingRef r => [(b!"Shading", pRef r)]
  | .matrix matrix' => [(b!"Matrix", .array (matrix'.map fun x => pReal x))]
  | .extGraphics calls => [(b!"ExtGState", ExtGraphicsState.prog calls)]
  | .raw key value => [(key, value)]

/-- All entries of the object: those of the constructor (color.rs:895-900), then those of the calls. -/
def ShadingPattern.entries (calls : List ShadingPatternCall) : List (Bytes × Prog) := [(b!"Type", pName b!"Pattern"), (b!"PatternType", pInt PatternType.shading.toInt)] ++ calls.flatMap ShadingPatternCall.entries

/-- The object written. -/
def ShadingPattern.prog (calls : List ShadingPatternCall) : Prog := .dict (ShadingPattern.entries calls)

/-- Calls of public methods of `StreamShading` (color.rs:1044-1046). -/
inductive StreamShadingCall where
  /-- color.rs:1052-1055 -/
  | shadingType (kind : StreamShadingType)
  /-- color.rs:1061-1063 -/
  | colorSpace (x : Prog)
  /-- color.rs:1070-1073 -/
  | background (background' : List F32)
  /-- color.rs:1078-1081 -/
  | bbox (bbox' : Rect)
  /-- color.rs:1086-1089 -/
  | antiAlias (antiAlias' : Bool)
  /-- color.rs:1095-1098 -/
  | function (function' : Ref)
  /-- color.rs:1104-1107 -/
  | bitsPerCoordinate (bits : Int)
  /-- color.rs:1113-1116 -/
  | bitsPerComponent (bits : Int)
  /-- color.rs:1122-1125 -/
  | bitsPerFlag (bits : Int)
  /-- color.rs:1130-1133 -/
  | decode (decode' : List F32)
  /-- color.rs:1139-1142 -/
  | verticesPerRow (vertices : Int)
  /-- color.rs:1145 -/
  | stream (c : StreamCall)

/-- The entries each method inserts. -/
def StreamShadingCall.entries : StreamShadingCall → List (Bytes × Prog)
  | .shadingType kind => [(b!"ShadingType", pInt kind.toInt)]
  | .colorSpace x => [(b!"ColorSpace", x)]
  | .background background' => [(b!"Background", .array (background'.map fun x => pReal x))]
  | .bbox bbox' => [(b!"BBox", pRect bbox')]
  | .antiAlias antiAlias' => [(b!"AntiAlias", pBool antiAlias')]
  | .function function' => [(b!"Function", pRef function')]
  | .bitsPerCoordinate bits => [(b!"BitsPerCoordinate", pInt bits)]
  | .bitsPerComponent bits => [(b!"BitsPerComponent", pInt bits)]
  | .bitsPerFlag bits => [(b!"BitsPerFlag", pInt bits)]
  | .decode decode' => [(b!"Decode", .array (decode'.map fun x => pReal x))]
  | .verticesPerRow vertices => [(b!"VerticesPerRow", pInt vertices)]
  | .stream c => c.entries

/-- All entries of the object: those of the constructor (color.rs:1044-1046), then those of the calls. -/
def StreamShading.entries (calls : List StreamShadingCall) : List (Bytes × Prog) := calls.flatMap StreamShadingCall.entries

/-- Does the call panic (`assert!`)? -/
def StreamShadingCall.panics : StreamShadingCall → Bool
  | .stream c => c.panics
  | _ => false

/-- The stream written; `none` if one of the calls panics, or the stream is too long. -/
def StreamShading.write (calls : List StreamShadingCall) (c : Chunk) (r : Ref) (data : Bytes) : Option Chunk :=
  if calls.any StreamShadingCall.panics then none else c.writeStream r (StreamShading.entries calls) data

/-- Calls of public methods of `SeparationInfo` (color.rs:1204-1204). -/
inductive SeparationInfoCall where
  /-- color.rs:1211-1214 -/
  | pages (pages' : List Ref)
  /-- color.rs:1219-1222 -/
  | deviceColorant (colorant : Bytes)
  /-- color.rs:1227-1230 -/
  | deviceColorantStr (colorant : List Char)
  /-- color.rs:1236-1238 -/
  | colorSpace (x : Prog)

/-- The entries each method inserts. -/
def SeparationInfoCall.entries : SeparationInfoCall → List (Bytes × Prog)
  | .pages pages' => [(b!"Pages", .array (pages'.map fun x => pRef x))]
  | .deviceColorant colorant => [(b!"DeviceColorant", pName colorant)]
  | .deviceColorantStr colorant => [(b!"DeviceColorant", pText colorant)]
  | .colorSpace x => [(b!"ColorSpace", x)]

/-- All entries of the object: those of the constructor (color.rs:1204-1204), then those of the calls. -/
def SeparationInfo.entries (calls : List SeparationInfoCall) : List (Bytes × Prog) := calls.flatMap SeparationInfoCall.entries

/-- The object written. -/
def SeparationInfo.prog (calls : List SeparationInfoCall) : Prog := .dict (SeparationInfo.entries calls)

/-- Calls of public methods of `OutputIntent` (color.rs:1249-1253). -/
inductive OutputIntentCall where
  /-- color.rs:1257-1260 -/
  | subtype (subtype' : OutputIntentSubtype)
  /-- color.rs:1265-1268 -/
  | outputCondition (condition : TextLike)
  /-- color.rs:1273-1279 -/
  | outputConditionIdentifier (identifier : TextLike)
  /-- color.rs:1284-1287 -/
  | registryName (name : List Char)
  /-- color.rs:1292-1295 -/
  | info (info' : TextLike)
  /-- color.rs:1304-1307 -/
  | destOutputProfile (profile : Ref)

/-- The entries each method inserts. -/
def OutputIntentCall.entries : OutputIntentCall → List (Bytes × Prog)
  | .subtype subtype' => [(b!"S", pName subtype'.toName)]
  | .outputCondition condition => [(b!"OutputCondition", condition.prog)]
  | .outputConditionIdentifier identifier => [(b!"OutputConditionIdentifier", identifier.prog)]
  | .registryName name => [(b!"RegistryName", pText name)]
  | .info info' => [(b!"Info", info'.prog)]
  | .destOutputProfile profile => [(b!"DestOutputProfile", pRef profile)]

/-- All entries of the object: those of the constructor (color.rs:1249-1253), then those of the calls. -/
def OutputIntent.entries (calls : List OutputIntentCall) : List (Bytes × Prog) := [(b!"Type", pName b!"OutputIntent")] ++ calls.flatMap OutputIntentCall.entries

/-- The object written. -/
def OutputIntent.prog (calls : List OutputIntentCall) : Prog := .dict (OutputIntent.entries calls)

end PdfW
