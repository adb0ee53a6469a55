-- Generated by tools/typed.py from /repo/src; do not edit.
import Verif.Model.Typed.Files
import Verif.Model.Typed.Resources

/-! # Typed writers: `Group`, `Reference`, `ImageXObject`, `FormXObject` -/

namespace PdfW

/-- Calls of public methods of `Group` (xobject.rs:290-294). -/
inductive GroupCall where
  /-- xobject.rs:299-302 -/
  | transparency
  /-- xobject.rs:310-312 -/
  | colorSpace (x : Prog)
  /-- xobject.rs:319-322 -/
  | isolated (isolated' : Bool)
  /-- xobject.rs:329-332 -/
  | knockout (knockout' : Bool)
  /-- xobject.rs:335 -/
  | raw (key : Bytes) (value : Prog)

/-- The entries each method inserts. -/
def GroupCall.entries : GroupCall → List (Bytes × Prog)
  | .transparency => [(b!"S", pName b!"Transparency")]
  | .colorSpace x => [(b!"CS", x)]
  | .isolated isolated' => [(b!"I", pBool isolated')]
  | .knockout knockout' => [(b!"K", pBool knockout')]
  | .raw key value => [(key, value)]

/-- All entries of the object: those of the constructor (xobject.rs:290-294), then those of the calls. -/
def Group.entries (calls : List GroupCall) : List (Bytes × Prog) := [(b!"Type", pName b!"Group")] ++ calls.flatMap GroupCall.entries

/-- The object written. -/
def Group.prog (calls : List GroupCall) : Prog := .dict (Group.entries calls)

/-- Calls of public methods of `Reference` (xobject.rs:346-346). -/
inductive ReferenceCall where
  /-- xobject.rs:351-353 -/
  | fileSpec (calls : List FileSpecCall)
  /-- xobject.rs:358-361 -/
  | pageNumber (page : Int)
  /-- xobject.rs:365-368 -/
  | pageLabel (label : TextLike)
  /-- xobject.rs:371-374 -/
  | id (r : List Bytes)
  /-- xobject.rs:377 -/
  | raw (key : Bytes) (value : Prog)

/-- The entries each method inserts. -/
def ReferenceCall.entries : ReferenceCall → List (Bytes × Prog)
  | .fileSpec calls => [(b!"F", FileSpec.prog calls)]
  | .pageNumber page => [(b!"Page", pInt page)]
  | .pageLabel label => [(b!"Page", label.prog)]
  | .id r => [(b!"ID", .array (r.map fun x => pStr x))]
  | .raw key value => [(key, value)]

/-- All entries of the object: those of the constructor (xobject.rs:346-346), then those of the calls. -/
def Reference.entries (calls : List ReferenceCall) : List (Bytes × Prog) := calls.flatMap ReferenceCall.entries

/-- The object written. -/
def Reference.prog (calls : List ReferenceCall) : Prog := .dict (Reference.entries calls)

/-- Calls of public methods of `ImageXObject` (xobject.rs:14-18). -/
inductive ImageXObjectCall where
  /-- xobject.rs:21-24 -/
  | width (width' : Int)
  /-- xobject.rs:27-30 -/
  | height (height' : Int)
  /-- xobject.rs:37-39 -/
  | colorSpace (x : Prog)
  /-- xobject.rs:46-49 -/
  | colorSpaceName (name : Bytes)
  /-- xobject.rs:54-57 -/
  | bitsPerComponent (bits : Int)
  /-- xobject.rs:60-63 -/
  | intent (intent' : RenderingIntent)
  /-- xobject.rs:68-71 -/
  | imageMask (mask : Bool)
  /-- xobject.rs:76-79 -/
  | colorMask (colors : List Int)
  /-- xobject.rs:83-86 -/
  | stencilMask (mask : Ref)
  /-- xobject.rs:91-94 -/
  | decode (decode' : List F32)
  /-- xobject.rs:99-102 -/
  | interpolate (interpolate' : Bool)
  /-- xobject.rs:109-112 -/
  | alternates (alternates' : List Ref)
  /-- xobject.rs:119-122 -/
  | sMask (xObject : Ref)
  /-- xobject.rs:128-131 -/
  | sMaskInData (mode : SMaskInData)
  /-- xobject.rs:135-138 -/
  | structParent (key : Int)
  /-- xobject.rs:144-147 -/
  | matte (color : List F32)
  /-- xobject.rs:153-156 -/
  | metadata (r : Ref)
  /-- xobject.rs:160-162 -/
  | associatedFiles (x : List (List FileSpecCall))
  /-- xobject.rs:165 -/
  | stream (c : StreamCall)

/-- The entries each method inserts. -/
def ImageXObjectCall.entries : ImageXObjectCall → List (Bytes × Prog)
  | .width width' => [(b!"Width", pInt width')]
  | .height height' => [(b!"Height", pInt height')]
  | .colorSpace x => [(b!"ColorSpace", x)]
  | .colorSpaceName name => [(b!"ColorSpace", pName name)]
  | .bitsPerComponent bits => [(b!"BitsPerComponent", pInt bits)]
  | .intent intent' => [(b!"Intent", pName intent'.toName)]
  | .imageMask mask => [(b!"ImageMask", pBool mask)]
  | .colorMask colors => [(b!"Mask", .array (colors.map fun x => pInt x))]
  | .stencilMask mask => [(b!"Mask", pRef mask)]
  | .decode decode' => [(b!"Decode", .array (decode'.map fun x => pReal x))]
  | .interpolate interpolate' => [(b!"Interpolate", pBool interpolate')]
  | .alternates alternates' => [(b!"Alternates", .array (alternates'.map fun x => pRef x))]
  | .sMask xObject => [(b!"SMask", pRef xObject)]
  | .sMaskInData mode => [(b!"SMaskInData", pInt mode.toInt)]
  | .structParent key => [(b!"StructParent", pInt key)]
  | .matte color => [(b!"Matte", .array (color.map fun x => pReal x))]
  | .metadata r => [(b!"Metadata", pRef r)]
  | .associatedFiles x => [(b!"AF", .array (x.map fun x => FileSpec.prog x))]
  | .stream c => c.entries

/-- All entries of the object: those of the constructor (xobject.rs:14-18), then those of the calls. -/
def ImageXObject.entries (calls : List ImageXObjectCall) : List (Bytes × Prog) := [(b!"Type", pName b!"XObject"), (b!"Subtype", pName b!"Image")] ++ calls.flatMap ImageXObjectCall.entries

/-- Does the call panic (`assert!`)? -/
def ImageXObjectCall.panics : ImageXObjectCall → Bool
  | .stream c => c.panics
  | _ => false

/-- The stream written; `none` if one of the calls panics, or the stream is too long. -/
def ImageXObject.write (calls : List ImageXObjectCall) (c : Chunk) (r : Ref) (data : Bytes) : Option Chunk :=
  if calls.any ImageXObjectCall.panics then none else c.writeStream r (ImageXObject.entries calls) data

/-- Calls of public methods of `FormXObject` (xobject.rs:202-206). -/
inductive FormXObjectCall where
  /-- xobject.rs:211-214 -/
  | bbox (bbox' : Rect)
  /-- xobject.rs:217-220 -/
  | matrix (matrix' : List F32)
  /-- xobject.rs:225-227 -/
  | resources (calls : List ResourcesCall)
  /-- xobject.rs:231-233 -/
  | group (calls : List GroupCall)
  /-- xobject.rs:238-241 -/
  | structParent (key : Int)
  /-- xobject.rs:246-249 -/
  | structParents (key : Int)
  /-- xobject.rs:255-257 -/
  | reference (calls : List ReferenceCall)
  /-- xobject.rs:263-266 -/
  | metadata (r : Ref)
  /-- xobject.rs:269-272 -/
  | lastModified (lastModified' : Date)
  /-- xobject.rs:276-278 -/
  | associatedFiles (x : List (List FileSpecCall))
  /-- xobject.rs:281 -/
  | stream (c : StreamCall)

/-- The entries each method inserts. -/
def FormXObjectCall.entries : FormXObjectCall → List (Bytes × Prog)
  | .bbox bbox' => [(b!"BBox", pRect bbox')]
  | .matrix matrix' => [(b!"Matrix", .array (matrix'.map fun x => pReal x))]
  | .resources calls => [(b!"Resources", Resources.prog calls)]
  | .group calls => [(b!"Group", Group.prog calls)]
  | .structParent key => [(b!"StructParent", pInt key)]
  | .structParents key => [(b!"StructParents", pInt key)]
  | .reference calls => [(b!"Ref", Reference.prog calls)]
  | .metadata r => [(b!"Metadata", pRef r)]
  | .lastModified lastModified' => [(b!"LastModified", pDate lastModified')]
  | .associatedFiles x => [(b!"AF", .array (x.map fun x => FileSpec.prog x))]
  | .stream c => c.entries

/-- All entries of the object: those of the constructor (xobject.rs:202-206), then those of the calls. -/
def FormXObject.entries (calls : List FormXObjectCall) : List (Bytes × Prog) := [(b!"Type", pName b!"XObject"), (b!"Subtype", pName b!"Form")] ++ calls.flatMap FormXObjectCall.entries

/-- Does the call panic (`assert!`)? -/
def FormXObjectCall.panics : FormXObjectCall → Bool
  | .stream c => c.panics
  | _ => false

/-- The stream written; `none` if one of the calls panics, or the stream is too long. -/
def FormXObject.write (calls : List FormXObjectCall) (c : Chunk) (r : Ref) (data : Bytes) : Option Chunk :=
  if calls.any FormXObjectCall.panics then none else c.writeStream r (FormXObject.entries calls) data

end PdfW
