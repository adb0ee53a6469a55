-- Generated by tools/typed.py from /repo/src; do not edit.
import Verif.Spec.Typed.Files
import Verif.Proof.Typed.Enums
import Verif.Proof.Typed.Object

/-! # Files -/

set_option linter.unusedSimpArgs false
set_option linter.unusedVariables false

namespace PdfW
open Spec Props

theorem fileSpec_call (c : FileSpecCall) : Implied EntryImplied c.entries (FileSpecMeans c) := by
  cases c with
  | fileSystem system =>
    simp only [FileSpecCall.entries, FileSpecMeans]
    implied
  | path path' =>
    simp only [FileSpecCall.entries, FileSpecMeans]
    implied
  | unicFile path' =>
    simp only [FileSpecCall.entries, FileSpecMeans]
    implied
  | volatile dontCache =>
    simp only [FileSpecCall.entries, FileSpecMeans]
    implied
  | description desc =>
    simp only [FileSpecCall.entries, FileSpecMeans]
    implied
  | embeddedFile r =>
    simp only [FileSpecCall.entries, FileSpecMeans]
    implied
  | embeddedFileWithUnicode r =>
    simp only [FileSpecCall.entries, FileSpecMeans]
    implied
  | associationKind kind =>
    simp only [FileSpecCall.entries, FileSpecMeans]
    implied
  | raw key value =>
    simp only [FileSpecCall.entries, FileSpecMeans]
    implied

theorem fileSpec_implied (calls : List FileSpecCall) : Implied EntryImplied (FileSpec.entries calls) (FileSpecEntries calls) :=
  Implied.append (by implied) (implied_flatMap calls (fun c h => fileSpec_call c))

theorem fileSpec_denotes (calls : List FileSpecCall) : ItemImplied (FileSpec.prog calls) (IsFileSpec calls) :=
  l_dict (fileSpec_implied calls)

theorem embeddingParams_call (c : EmbeddingParamsCall) : Implied EntryImplied c.entries (EmbeddingParamsMeans c) := by
  cases c with
  | size size' =>
    simp only [EmbeddingParamsCall.entries, EmbeddingParamsMeans]
    implied
  | creationDate date =>
    simp only [EmbeddingParamsCall.entries, EmbeddingParamsMeans]
    implied
  | modificationDate date =>
    simp only [EmbeddingParamsCall.entries, EmbeddingParamsMeans]
    implied
  | checksum checksum' =>
    simp only [EmbeddingParamsCall.entries, EmbeddingParamsMeans]
    implied
  | raw key value =>
    simp only [EmbeddingParamsCall.entries, EmbeddingParamsMeans]
    implied

theorem embeddingParams_implied (calls : List EmbeddingParamsCall) : Implied EntryImplied (EmbeddingParams.entries calls) (EmbeddingParamsEntries calls) :=
  implied_flatMap calls (fun c h => embeddingParams_call c)

theorem embeddingParams_denotes (calls : List EmbeddingParamsCall) : ItemImplied (EmbeddingParams.prog calls) (IsEmbeddingParams calls) :=
  l_dict (embeddingParams_implied calls)

theorem embeddedFile_call (c : EmbeddedFileCall) : Implied EntryImplied c.entries (EmbeddedFileMeans c) := by
  cases c with
  | subtype subtype' =>
    simp only [EmbeddedFileCall.entries, EmbeddedFileMeans]
    implied
  | params calls =>
    simp only [EmbeddedFileCall.entries, EmbeddedFileMeans]
    have nest := embeddingParams_denotes
    implied
  | stream c =>
    simp only [EmbeddedFileCall.entries, EmbeddedFileMeans]
    exact stream_call c

theorem embeddedFile_implied (calls : List EmbeddedFileCall) : Implied EntryImplied (EmbeddedFile.entries calls) (EmbeddedFileEntries calls) :=
  Implied.append (by implied) (implied_flatMap calls (fun c h => embeddedFile_call c))

end PdfW
