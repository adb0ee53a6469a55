-- Generated by tools/typed.py from /repo/src; do not edit.
import Verif.Model.Typed.Object

/-! # Typed writers: `FileSpec`, `EmbeddingParams`, `EmbeddedFile` -/

namespace PdfW

/-- Calls of public methods of `FileSpec` (files.rs:12-16). -/
inductive FileSpecCall where
  /-- files.rs:22-25 -/
  | fileSystem (system : Bytes)
  /-- files.rs:29-32 -/
  | path (path' : Bytes)
  /-- files.rs:36-39 -/
  | unicFile (path' : List Char)
  /-- files.rs:42-45 -/
  | volatile (dontCache : Bool)
  /-- files.rs:48-51 -/
  | description (desc : TextLike)
  /-- files.rs:63-66 -/
  | embeddedFile (r : Ref)
  /-- files.rs:73-79 -/
  | embeddedFileWithUnicode (r : Ref)
  /-- files.rs:83-86 -/
  | associationKind (kind : AssociationKind)
  /-- files.rs:89 -/
  | raw (key : Bytes) (value : Prog)

/-- The entries each method inserts. -/
def FileSpecCall.entries : FileSpecCall → List (Bytes × Prog)
  | .fileSystem system => [(b!"FS", pName system)]
  | .path path' => [(b!"F", pStr path')]
  | .unicFile path' => [(b!"UF", pText path')]
  | .volatile dontCache => [(b!"V", pBool dontCache)]
  | .description desc => [(b!"Desc", desc.prog)]
  | .embeddedFile r => [(b!"EF", .dict [(b!"F", pRef r)])]
  | .embeddedFileWithUnicode r => [(b!"EF", .dict [(b!"F", pRef r), (b!"UF", pRef r)])]
  | .associationKind kind => [(b!"AFRelationship", pName kind.toName)]
  | .raw key value => [(key, value)]

/-- All entries of the object: those of the constructor (files.rs:12-16), then those of the calls. -/
def FileSpec.entries (calls : List FileSpecCall) : List (Bytes × Prog) := [(b!"Type", pName b!"Filespec")] ++ calls.flatMap FileSpecCall.entries

/-- The object written. -/
def FileSpec.prog (calls : List FileSpecCall) : Prog := .dict (FileSpec.entries calls)

/-- Calls of public methods of `EmbeddingParams` (files.rs:131-131). -/
inductive EmbeddingParamsCall where
  /-- files.rs:135-138 -/
  | size (size' : Int)
  /-- files.rs:141-144 -/
  | creationDate (date : Date)
  /-- files.rs:147-150 -/
  | modificationDate (date : Date)
  /-- files.rs:155-158 -/
  | checksum (checksum' : Bytes)
  /-- files.rs:161 -/
  | raw (key : Bytes) (value : Prog)

/-- The entries each method inserts. -/
def EmbeddingParamsCall.entries : EmbeddingParamsCall → List (Bytes × Prog)
  | .size size' => [(b!"Size", pInt size')]
  | .creationDate date => [(b!"CreationDate", pDate date)]
  | .modificationDate date => [(b!"ModDate", pDate date)]
  | .checksum checksum' => [(b!"CheckSum", pStr checksum')]
  | .raw key value => [(key, value)]

/-- All entries of the object: those of the constructor (files.rs:131-131), then those of the calls. -/
def EmbeddingParams.entries (calls : List EmbeddingParamsCall) : List (Bytes × Prog) := calls.flatMap EmbeddingParamsCall.entries

/-- The object written. -/
def EmbeddingParams.prog (calls : List EmbeddingParamsCall) : Prog := .dict (EmbeddingParams.entries calls)

/-- Calls of public methods of `EmbeddedFile` (files.rs:100-103). -/
inductive EmbeddedFileCall where
  /-- files.rs:111-114 -/
  | subtype (subtype' : Bytes)
  /-- files.rs:117-119 -/
  | params (calls : List EmbeddingParamsCall)
  /-- files.rs:122 -/
  | stream (c : StreamCall)

/-- The entries each method inserts. -/
def EmbeddedFileCall.entries : EmbeddedFileCall → List (Bytes × Prog)
  | .subtype subtype' => [(b!"Subtype", pName subtype')]
  | .params calls => [(b!"Params", EmbeddingParams.prog calls)]
  | .stream c => c.entries

/-- All entries of the object: those of the constructor (files.rs:100-103), then those of the calls. -/
def EmbeddedFile.entries (calls : List EmbeddedFileCall) : List (Bytes × Prog) := [(b!"Type", pName b!"EmbeddedFile")] ++ calls.flatMap EmbeddedFileCall.entries

/-- Does the call panic (`assert!`)? -/
def EmbeddedFileCall.panics : EmbeddedFileCall → Bool
  | .stream c => c.panics
  | _ => false

/-- The stream written; `none` if one of the calls panics, or the stream is too long. -/
def EmbeddedFile.write (calls : List EmbeddedFileCall) (c : Chunk) (r : Ref) (data : Bytes) : Option Chunk :=
  if calls.any EmbeddedFileCall.panics then none else c.writeStream r (EmbeddedFile.entries calls) data

end PdfW
