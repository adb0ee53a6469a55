-- Generated by tools/typed.py from /repo/src; do not edit.
import Verif.Spec.Typed.Object
import Verif.Proof.Typed.Enums

/-! # Object -/

set_option linter.unusedSimpArgs false
set_option linter.unusedVariables false

namespace PdfW
open Spec Props

theorem decodeParms_call (c : DecodeParmsCall) : Implied EntryImplied c.entries (DecodeParmsMeans c) := by
  cases c with
  | predictor predictor' =>
    simp only [DecodeParmsCall.entries, DecodeParmsMeans]
    implied
  | colors colors' =>
    simp only [DecodeParmsCall.entries, DecodeParmsMeans]
    implied
  | bitsPerComponent bits =>
    simp only [DecodeParmsCall.entries, DecodeParmsMeans]
    implied
  | columns columns' =>
    simp only [DecodeParmsCall.entries, DecodeParmsMeans]
    implied
  | earlyChange earlyChange' =>
    simp only [DecodeParmsCall.entries, DecodeParmsMeans]
    implied
  | k k' =>
    simp only [DecodeParmsCall.entries, DecodeParmsMeans]
    implied
  | endOfLine eol =>
    simp only [DecodeParmsCall.entries, DecodeParmsMeans]
    implied
  | encodedByteAlign encodedByteAlign' =>
    simp only [DecodeParmsCall.entries, DecodeParmsMeans]
    implied
  | rows rows' =>
    simp only [DecodeParmsCall.entries, DecodeParmsMeans]
    implied
  | endOfBlock endOfBlock' =>
    simp only [DecodeParmsCall.entries, DecodeParmsMeans]
    implied
  | blackIs1 blackIs1' =>
    simp only [DecodeParmsCall.entries, DecodeParmsMeans]
    implied
  | damagedRowsBeforeError count =>
    simp only [DecodeParmsCall.entries, DecodeParmsMeans]
    implied
  | jbig2Globals globals =>
    simp only [DecodeParmsCall.entries, DecodeParmsMeans]
    implied
  | colorTransform colorTransform' =>
    simp only [DecodeParmsCall.entries, DecodeParmsMeans]
    implied
  | cryptType =>
    simp only [DecodeParmsCall.entries, DecodeParmsMeans]
    implied
  | name name' =>
    simp only [DecodeParmsCall.entries, DecodeParmsMeans]
    implied
  | raw key value =>
    simp only [DecodeParmsCall.entries, DecodeParmsMeans]
    implied

theorem decodeParms_implied (calls : List DecodeParmsCall) : Implied EntryImplied (DecodeParms.entries calls) (DecodeParmsEntries calls) :=
  implied_flatMap calls (fun c h => decodeParms_call c)

theorem decodeParms_denotes (calls : List DecodeParmsCall) : ItemImplied (DecodeParms.prog calls) (IsDecodeParms calls) :=
  l_dict (decodeParms_implied calls)

theorem stream_call (c : StreamCall) : Implied EntryImplied c.entries (StreamMeans c) := by
  cases c with
  | filter filter' =>
    simp only [StreamCall.entries, StreamMeans]
    implied
  | decodeParms calls =>
    simp only [StreamCall.entries, StreamMeans]
    have nest := decodeParms_denotes
    implied
  | raw key value =>
    simp only [StreamCall.entries, StreamMeans]
    implied

theorem stream_implied (calls : List StreamCall) : Implied EntryImplied (Stream.entries calls) (StreamEntries calls) :=
  implied_flatMap calls (fun c h => stream_call c)

theorem nameTree_call (rd : Reading) (c : NameTreeCall) (hc : rd = .code ∨ c.conforming = true) : Implied EntryImplied c.entries (NameTreeMeans rd c) := by
  cases c with
  | kids x =>
    simp only [NameTreeCall.entries, NameTreeMeans]
    implied
  | names entries =>
    simp only [NameTreeCall.entries, NameTreeMeans]
    implied
  | limits min max =>
    obtain rfl : rd = .code := by simpa [NameTreeCall.conforming] using hc
    simp only [NameTreeCall.entries, NameTreeMeans, Reading.pick]

    implied

theorem nameTree_implied (rd : Reading) (calls : List NameTreeCall) (hc : rd = .code ∨ calls.all NameTreeCall.conforming = true) : Implied EntryImplied (NameTree.entries calls) (NameTreeEntries rd calls) :=
  implied_flatMap calls (fun c h => nameTree_call rd c (hc.imp_right fun hc => List.all_eq_true.mp hc c h))

theorem nameTree_denotes (rd : Reading) (calls : List NameTreeCall) (hc : rd = .code ∨ calls.all NameTreeCall.conforming = true) : ItemImplied (NameTree.prog calls) (IsNameTree rd calls) :=
  l_dict (nameTree_implied rd calls hc)

theorem numberTree_call (c : NumberTreeCall) : Implied EntryImplied c.entries (NumberTreeMeans c) := by
  cases c with
  | kids x =>
    simp only [NumberTreeCall.entries, NumberTreeMeans]
    implied
  | nums entries =>
    simp only [NumberTreeCall.entries, NumberTreeMeans]
    implied
  | limits min max =>
    simp only [NumberTreeCall.entries, NumberTreeMeans]
    implied

theorem numberTree_implied (calls : List NumberTreeCall) : Implied EntryImplied (NumberTree.entries calls) (NumberTreeEntries calls) :=
  implied_flatMap calls (fun c h => numberTree_call c)

theorem numberTree_denotes (calls : List NumberTreeCall) : ItemImplied (NumberTree.prog calls) (IsNumberTree calls) :=
  l_dict (numberTree_implied calls)

end PdfW
