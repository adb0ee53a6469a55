-- Generated by tools/typed.py from /repo/src; do not edit.
import Verif.Proof.Typed.XObject
import Verif.Proof.Typed.Sample

/-! # C44: typed writers of module XObject -/

set_option linter.unusedSimpArgs false
set_option linter.unusedVariables false
set_option maxRecDepth 8192

namespace PdfW.Props
open PdfW PdfW.Spec

/-- Example calls. -/
def exGroup : List GroupCall := [.transparency, .colorSpace (pInt 3), .knockout true, .raw b!"A" (pInt 3)]

/-- C44, `Group`: any sequence of calls writes a dictionary with, in order, the documented entries. -/
theorem C44_group (calls : List GroupCall) (hok : Ok (Group.prog calls)) : WrittenAs (Group.prog calls) (IsGroup calls) :=
  writtenAs_of hok (group_denotes calls)

example : Ok (Group.prog exGroup) := okB_sound _ (by decide +kernel)
example : compactOut (Group.prog exGroup) = b!"<</Type/Group/S/Transparency/CS 3/K true/A 3>>" := by decide +kernel

/-- Example calls. -/
def exReference : List ReferenceCall := [.fileSpec [.fileSystem b!"A"], .pageNumber 1, .id [b!"A"], .raw b!"A" (pInt 3)]

/-- C44, `Reference`: any sequence of calls writes a dictionary with, in order, the documented entries. -/
theorem C44_reference (calls : List ReferenceCall) (hok : Ok (Reference.prog calls)) : WrittenAs (Reference.prog calls) (IsReference calls) :=
  writtenAs_of hok (reference_denotes calls)

example : Ok (Reference.prog exReference) := okB_sound _ (by decide +kernel)
example : compactOut (Reference.prog exReference) = b!"<</F<</Type/Filespec/FS/A>>/Page 1/ID[(A)]/A 3>>" := by decide +kernel

/-- Example calls. -/
def exImageXObject : List ImageXObjectCall := [.width 1, .imageMask true, .sMask ⟨7, by decide, by decide⟩, .stream (.filter .crypt)]

/-- C44, `ImageXObject`: any sequence of calls without an out-of-range argument writes a stream with the data and, in order, the documented entries. -/
theorem C44_image_x_object (calls : List ImageXObjectCall) (hp : calls.any ImageXObjectCall.panics = false)
    (hok : OkEntries (ImageXObject.entries calls)) (hl : ∀ e ∈ ImageXObject.entries calls, e.1 ≠ b!"Length") :
    StreamWrittenAs (ImageXObject.write calls) (ImageXObject.entries calls) (ImageXObjectEntries calls) :=
  streamWrittenAs_of (by intro c r data; rw [ImageXObject.write, if_neg (by rw [hp]; exact Bool.false_ne_true)]) hok hl (imageXObject_implied calls)

example : exImageXObject.any ImageXObjectCall.panics = false ∧ OkEntries (ImageXObject.entries exImageXObject) ∧ ∀ e ∈ ImageXObject.entries exImageXObject, e.1 ≠ b!"Length" :=
  ⟨by decide +kernel, okEntriesB_sound _ (by decide +kernel), by decide +kernel⟩
example : streamOut (ImageXObject.write exImageXObject) = some b!"5 0 obj\n<</Length 2/Type/XObject/Subtype/Image/Width 1/ImageMask true/SMask 7 0 R/Filter/Crypt>>\nstream\nxy\nendstream\nendobj\n" := by decide +kernel

/-- Example calls. -/
def exFormXObject : List FormXObjectCall := [.bbox ⟨one, one, two, two⟩, .group [.transparency], .reference [.fileSpec [.fileSystem b!"A"]], .stream (.filter .crypt)]

/-- C44, `FormXObject`: any sequence of calls without an out-of-range argument writes a stream with the data and, in order, the documented entries. -/
theorem C44_form_x_object (calls : List FormXObjectCall) (hp : calls.any FormXObjectCall.panics = false)
    (hok : OkEntries (FormXObject.entries calls)) (hl : ∀ e ∈ FormXObject.entries calls, e.1 ≠ b!"Length") :
    StreamWrittenAs (FormXObject.write calls) (FormXObject.entries calls) (FormXObjectEntries calls) :=
  streamWrittenAs_of (by intro c r data; rw [FormXObject.write, if_neg (by rw [hp]; exact Bool.false_ne_true)]) hok hl (formXObject_implied calls)

example : exFormXObject.any FormXObjectCall.panics = false ∧ OkEntries (FormXObject.entries exFormXObject) ∧ ∀ e ∈ FormXObject.entries exFormXObject, e.1 ≠ b!"Length" :=
  ⟨by decide +kernel, okEntriesB_sound _ (by decide +kernel), by decide +kernel⟩
example : streamOut (FormXObject.write exFormXObject) = some b!"5 0 obj\n<</Length 2/Type/XObject/Subtype/Form/BBox[1 1 2 2]/Group<</Type/Group/S/Transparency>>/Ref<</F<</Type/Filespec/FS/A>>>>/Filter/Crypt>>\nstream\nxy\nendstream\nendobj\n" := by decide +kernel

end PdfW.Props
