-- Generated by tools/typed.py from /repo/src; do not edit.
import Verif.Model.Typed.Files
import Verif.Spec.Typed.Object

/-! # Meaning of the calls of `FileSpec`, `EmbeddingParams`, `EmbeddedFile`

Keys from the documentation of each method, value types from the parameter types and ISO 32000. -/

namespace PdfW.Spec
open PdfW

/-- The entries a call of `FileSpec` stands for: key and meaning of the value. -/
def FileSpecMeans : FileSpecCall → List (Bytes × (Val → Prop))
  | .fileSystem system => [(b!"FS", IsName system)]
  | .path path' => [(b!"F", IsStr path')]
  | .unicFile path' => [(b!"UF", IsText path')]
  | .volatile dontCache => [(b!"V", IsBool dontCache)]
  | .description desc => [(b!"Desc", IsTextLike desc)]
  | .embeddedFile r => [(b!"EF", DictIs [(b!"F", IsRef r)])]
  | .embeddedFileWithUnicode r => [(b!"EF", DictIs [(b!"F", IsRef r), (b!"UF", IsRef r)])]
  | .associationKind kind => [(b!"AFRelationship", IsName (isoAssociationKind kind))]
  | .raw key value => [(key, Denotes value)]

def FileSpecEntries (calls : List FileSpecCall) : List (Bytes × (Val → Prop)) := [(b!"Type", IsName b!"Filespec")] ++ calls.flatMap FileSpecMeans

def IsFileSpec (calls : List FileSpecCall) : Val → Prop := DictIs (FileSpecEntries calls)

/-- The entries a call of `EmbeddingParams` stands for: key and meaning of the value. -/
def EmbeddingParamsMeans : EmbeddingParamsCall → List (Bytes × (Val → Prop))
  | .size size' => [(b!"Size", IsInt size')]
  | .creationDate date => [(b!"CreationDate", IsDate date)]
  | .modificationDate date => [(b!"ModDate", IsDate date)]
  | .checksum checksum' => [(b!"CheckSum", IsStr checksum')]
  | .raw key value => [(key, Denotes value)]

def EmbeddingParamsEntries (calls : List EmbeddingParamsCall) : List (Bytes × (Val → Prop)) := calls.flatMap EmbeddingParamsMeans

def IsEmbeddingParams (calls : List EmbeddingParamsCall) : Val → Prop := DictIs (EmbeddingParamsEntries calls)

/-- The entries a call of `EmbeddedFile` stands for: key and meaning of the value. -/
def EmbeddedFileMeans : EmbeddedFileCall → List (Bytes × (Val → Prop))
  | .subtype subtype' => [(b!"Subtype", IsName subtype')]
  | .params calls => [(b!"Params", IsEmbeddingParams calls)]
  | .stream c => StreamMeans c

def EmbeddedFileEntries (calls : List EmbeddedFileCall) : List (Bytes × (Val → Prop)) := [(b!"Type", IsName b!"EmbeddedFile")] ++ calls.flatMap EmbeddedFileMeans

end PdfW.Spec
