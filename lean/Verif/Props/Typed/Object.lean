-- Generated by tools/typed.py from /repo/src; do not edit.
import Verif.Proof.Typed.Object
import Verif.Proof.Typed.Sample

/-! # C44: typed writers of module Object -/

set_option linter.unusedSimpArgs false
set_option linter.unusedVariables false
set_option maxRecDepth 8192

namespace PdfW.Props
open PdfW PdfW.Spec

/-- Example calls. -/
def exDecodeParms : List DecodeParmsCall := [.predictor .pngOptimum, .k 1, .damagedRowsBeforeError 1, .raw b!"A" (pInt 3)]

/-- C44, `DecodeParms`: any sequence of calls without an out-of-range argument writes a dictionary with, in order, the documented entries. -/
theorem C44_decode_parms (calls : List DecodeParmsCall) (p : Prog) (hp : DecodeParms.run calls = some p) (hok : Ok p) : WrittenAs p (IsDecodeParms calls) := by
  unfold DecodeParms.run at hp
  split at hp
  · cases hp
  · cases hp; exact writtenAs_of hok (decodeParms_denotes calls)

example : ∃ p, DecodeParms.run exDecodeParms = some p ∧ Ok p := ⟨_, rfl, okB_sound _ (by decide +kernel)⟩
example : compactOut (DecodeParms.prog exDecodeParms) = b!"<</Predictor 15/K 1/DamagedRowsBeforeError 1/A 3>>" := by decide +kernel

/-- Example calls. -/
def exStream : List StreamCall := [.filter .crypt, .decodeParms [.predictor .pngOptimum], .raw b!"A" (pInt 3)]

/-- C44, `Stream`: any sequence of calls without an out-of-range argument writes a stream with the data and, in order, the documented entries. -/
theorem C44_stream (calls : List StreamCall) (hp : calls.any StreamCall.panics = false)
    (hok : OkEntries (Stream.entries calls)) (hl : ∀ e ∈ Stream.entries calls, e.1 ≠ b!"Length") :
    StreamWrittenAs (Stream.write calls) (Stream.entries calls) (StreamEntries calls) :=
  streamWrittenAs_of (by intro c r data; rw [Stream.write, if_neg (by rw [hp]; exact Bool.false_ne_true)]) hok hl (stream_implied calls)

example : exStream.any StreamCall.panics = false ∧ OkEntries (Stream.entries exStream) ∧ ∀ e ∈ Stream.entries exStream, e.1 ≠ b!"Length" :=
  ⟨by decide +kernel, okEntriesB_sound _ (by decide +kernel), by decide +kernel⟩
example : streamOut (Stream.write exStream) = some b!"5 0 obj\n<</Length 2/Filter/Crypt/DecodeParms<</Predictor 15>>/A 3>>\nstream\nxy\nendstream\nendobj\n" := by decide +kernel

/-- Example calls. -/
def exNameTree : List NameTreeCall := [.kids [⟨7, by decide, by decide⟩], .names [(b!"A", .int 4)]]

/-- C44, `NameTree`: any sequence of calls writes a dictionary with, in order, the documented entries. If a call with a known defect is used, the entry it writes is the one of the code (see Defects), otherwise all are those of the standard. -/
theorem C44_name_tree (rd : Reading) (calls : List NameTreeCall) (hc : rd = .code ∨ calls.all NameTreeCall.conforming = true) (hok : Ok (NameTree.prog calls)) : WrittenAs (NameTree.prog calls) (IsNameTree rd calls) :=
  writtenAs_of hok (nameTree_denotes rd calls hc)

example : Ok (NameTree.prog exNameTree) := okB_sound _ (by decide +kernel)
example : exNameTree.all NameTreeCall.conforming = true := by decide +kernel
example : compactOut (NameTree.prog exNameTree) = b!"<</Kids[7 0 R]/Names[(A)4]>>" := by decide +kernel

/-- Example calls. -/
def exNumberTree : List NumberTreeCall := [.kids [⟨7, by decide, by decide⟩], .nums [(1, .int 4)], .limits 1 1]

/-- C44, `NumberTree`: any sequence of calls writes a dictionary with, in order, the documented entries. -/
theorem C44_number_tree (calls : List NumberTreeCall) (hok : Ok (NumberTree.prog calls)) : WrittenAs (NumberTree.prog calls) (IsNumberTree calls) :=
  writtenAs_of hok (numberTree_denotes calls)

example : Ok (NumberTree.prog exNumberTree) := okB_sound _ (by decide +kernel)
example : compactOut (NumberTree.prog exNumberTree) = b!"<</Kids[7 0 R]/Nums[1 4]/Limits[1 1]>>" := by decide +kernel

end PdfW.Props
