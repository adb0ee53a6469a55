-- Generated by tools/typed.py from /repo/src; do not edit.
import Verif.Proof.Typed.Files
import Verif.Proof.Typed.Sample

/-! # C45: typed writers of module Files -/

set_option linter.unusedSimpArgs false
set_option linter.unusedVariables false
set_option maxRecDepth 8192

namespace PdfW.Props
open PdfW PdfW.Spec

/-- Example calls. -/
def exFileSpec : List FileSpecCall := [.fileSystem b!"A", .volatile true, .embeddedFileWithUnicode ⟨7, by decide, by decide⟩, .raw b!"A" (pInt 3)]

/-- C45, `FileSpec`: any sequence of calls writes a dictionary with, in order, the documented entries. -/
theorem C45_file_spec (calls : List FileSpecCall) (hok : Ok (FileSpec.prog calls)) : WrittenAs (FileSpec.prog calls) (IsFileSpec calls) :=
  writtenAs_of hok (fileSpec_denotes calls)

example : Ok (FileSpec.prog exFileSpec) := okB_sound _ (by decide +kernel)
example : compactOut (FileSpec.prog exFileSpec) = b!"<</Type/Filespec/FS/A/V true/EF<</F 7 0 R/UF 7 0 R>>/A 3>>" := by decide +kernel

/-- Example calls. -/
def exEmbeddingParams : List EmbeddingParamsCall := [.size 1, .checksum b!"A", .raw b!"A" (pInt 3)]

/-- C45, `EmbeddingParams`: any sequence of calls writes a dictionary with, in order, the documented entries. -/
theorem C45_embedding_params (calls : List EmbeddingParamsCall) (hok : Ok (EmbeddingParams.prog calls)) : WrittenAs (EmbeddingParams.prog calls) (IsEmbeddingParams calls) :=
  writtenAs_of hok (embeddingParams_denotes calls)

example : Ok (EmbeddingParams.prog exEmbeddingParams) := okB_sound _ (by decide +kernel)
example : compactOut (EmbeddingParams.prog exEmbeddingParams) = b!"<</Size 1/CheckSum(A)/A 3>>" := by decide +kernel

/-- Example calls. -/
def exEmbeddedFile : List EmbeddedFileCall := [.subtype b!"A", .params [.size 1], .stream (.filter .crypt)]

/-- C45, `EmbeddedFile`: any sequence of calls without an out-of-range argument writes a stream with the data and, in order, the documented entries. -/
theorem C45_embedded_file (calls : List EmbeddedFileCall) (hp : calls.any EmbeddedFileCall.panics = false)
    (hok : OkEntries (EmbeddedFile.entries calls)) (hl : ∀ e ∈ EmbeddedFile.entries calls, e.1 ≠ b!"Length") :
    StreamWrittenAs (EmbeddedFile.write calls) (EmbeddedFile.entries calls) (EmbeddedFileEntries calls) :=
  streamWrittenAs_of (by intro c r data; rw [EmbeddedFile.write, if_neg (by rw [hp]; exact Bool.false_ne_true)]) hok hl (embeddedFile_implied calls)

example : exEmbeddedFile.any EmbeddedFileCall.panics = false ∧ OkEntries (EmbeddedFile.entries exEmbeddedFile) ∧ ∀ e ∈ EmbeddedFile.entries exEmbeddedFile, e.1 ≠ b!"Length" :=
  ⟨by decide +kernel, okEntriesB_sound _ (by decide +kernel), by decide +kernel⟩
example : streamOut (EmbeddedFile.write exEmbeddedFile) = some b!"5 0 obj\n<</Length 2/Type/EmbeddedFile/Subtype/A/Params<</Size 1>>/Filter/Crypt>>\nstream\nxy\nendstream\nendobj\n" := by decide +kernel

end PdfW.Props
