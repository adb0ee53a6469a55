-- Generated by tools/typed.py from /repo/src; do not edit.
import Verif.Proof.Typed.Attributes
import Verif.Proof.Typed.Sample

/-! # C46: typed writers of module Attributes -/

set_option linter.unusedSimpArgs false
set_option linter.unusedVariables false
set_option maxRecDepth 8192

namespace PdfW.Props
open PdfW PdfW.Spec

/-- Example calls. -/
def exUserProperty : List UserPropertyCall := [.name (.plain ['a']), .value (pInt 3), .hidden true, .raw b!"A" (pInt 3)]

/-- C46, `UserProperty`: any sequence of calls writes a dictionary with, in order, the documented entries. -/
theorem C46_user_property (calls : List UserPropertyCall) (hok : Ok (UserProperty.prog calls)) : WrittenAs (UserProperty.prog calls) (IsUserProperty calls) :=
  writtenAs_of hok (userProperty_denotes calls)

example : Ok (UserProperty.prog exUserProperty) := okB_sound _ (by decide +kernel)
example : compactOut (UserProperty.prog exUserProperty) = b!"<</N(a)/V 3/H true/A 3>>" := by decide +kernel

/-- C46, `TrackSizes`: the call is written as the value it stands for. -/
theorem C46_track_sizes (c : TrackSizes) (hok : Ok c.prog) : WrittenAs c.prog (IsTrackSizes c) := writtenAs_of hok (trackSizes_denotes c)

example : Ok (.individual [one] : TrackSizes).prog := okB_sound _ (by decide +kernel)

/-- Example calls. -/
def exLayoutAttributes : List LayoutAttributesCall := [.placement (.«end»), .endIndent one, .columnWidths (.uniform one), .raw b!"A" (pInt 3)]

/-- C46, `LayoutAttributes`: any sequence of calls writes a dictionary with, in order, the documented entries. -/
theorem C46_layout_attributes (calls : List LayoutAttributesCall) (hok : Ok (LayoutAttributes.prog calls)) : WrittenAs (LayoutAttributes.prog calls) (IsLayoutAttributes calls) :=
  writtenAs_of hok (layoutAttributes_denotes calls)

example : Ok (LayoutAttributes.prog exLayoutAttributes) := okB_sound _ (by decide +kernel)
example : compactOut (LayoutAttributes.prog exLayoutAttributes) = b!"<</O/Layout/Placement/End/EndIndent 1/ColumnWidths 1/A 3>>" := by decide +kernel

/-- Example calls. -/
def exListAttributes : List ListAttributesCall := [.listNumbering .upperAlpha, .continuedList true, .continuedFrom b!"A", .raw b!"A" (pInt 3)]

/-- C46, `ListAttributes`: any sequence of calls writes a dictionary with, in order, the documented entries. -/
theorem C46_list_attributes (calls : List ListAttributesCall) (hok : Ok (ListAttributes.prog calls)) : WrittenAs (ListAttributes.prog calls) (IsListAttributes calls) :=
  writtenAs_of hok (listAttributes_denotes calls)

example : Ok (ListAttributes.prog exListAttributes) := okB_sound _ (by decide +kernel)
example : compactOut (ListAttributes.prog exListAttributes) = b!"<</O/List/ListNumbering/UpperAlpha/ContinuedList true/ContinuedFrom(A)/A 3>>" := by decide +kernel

/-- Example calls. -/
def exFieldAttributes : List FieldAttributesCall := [.role .listBox, .checked .neutral true, .description (.plain ['a']), .raw b!"A" (pInt 3)]

/-- C46, `FieldAttributes`: any sequence of calls writes a dictionary with, in order, the documented entries. -/
theorem C46_field_attributes (calls : List FieldAttributesCall) (hok : Ok (FieldAttributes.prog calls)) : WrittenAs (FieldAttributes.prog calls) (IsFieldAttributes calls) :=
  writtenAs_of hok (fieldAttributes_denotes calls)

example : Ok (FieldAttributes.prog exFieldAttributes) := okB_sound _ (by decide +kernel)
example : compactOut (FieldAttributes.prog exFieldAttributes) = b!"<</O/PrintField/Role/lb/Checked/neutral/Desc(a)/A 3>>" := by decide +kernel

/-- Example calls. -/
def exTableAttributes : List TableAttributesCall := [.rowSpan 1, .headers [b!"A"], .summary (.plain ['a']), .raw b!"A" (pInt 3)]

/-- C46, `TableAttributes`: any sequence of calls writes a dictionary with, in order, the documented entries. -/
theorem C46_table_attributes (calls : List TableAttributesCall) (hok : Ok (TableAttributes.prog calls)) : WrittenAs (TableAttributes.prog calls) (IsTableAttributes calls) :=
  writtenAs_of hok (tableAttributes_denotes calls)

example : Ok (TableAttributes.prog exTableAttributes) := okB_sound _ (by decide +kernel)
example : compactOut (TableAttributes.prog exTableAttributes) = b!"<</O/Table/RowSpan 1/Headers[(A)]/Summary(a)/A 3>>" := by decide +kernel

/-- Example calls. -/
def exArtifactAttributes : List ArtifactAttributesCall := [.artifactType .inline, .bbox ⟨one, one, two, two⟩, .subtype .redaction, .raw b!"A" (pInt 3)]

/-- C46, `ArtifactAttributes`: any sequence of calls writes a dictionary with, in order, the documented entries. -/
theorem C46_artifact_attributes (calls : List ArtifactAttributesCall) (hok : Ok (ArtifactAttributes.prog calls)) : WrittenAs (ArtifactAttributes.prog calls) (IsArtifactAttributes calls) :=
  writtenAs_of hok (artifactAttributes_denotes calls)

example : Ok (ArtifactAttributes.prog exArtifactAttributes) := okB_sound _ (by decide +kernel)
example : compactOut (ArtifactAttributes.prog exArtifactAttributes) = b!"<</O/Artifact/Type/Inline/BBox[1 1 2 2]/Subtype/Redaction/A 3>>" := by decide +kernel

/-- Example calls. -/
def exFENoteAttributes : List FENoteAttributesCall := [.noteType .none, .raw b!"A" (pInt 3)]

/-- C46, `FENoteAttributes`: any sequence of calls writes a dictionary with, in order, the documented entries. -/
theorem C46_fe_note_attributes (calls : List FENoteAttributesCall) (hok : Ok (FENoteAttributes.prog calls)) : WrittenAs (FENoteAttributes.prog calls) (IsFENoteAttributes calls) :=
  writtenAs_of hok (fENoteAttributes_denotes calls)

example : Ok (FENoteAttributes.prog exFENoteAttributes) := okB_sound _ (by decide +kernel)
example : compactOut (FENoteAttributes.prog exFENoteAttributes) = b!"<</O/FENote/NoteType/None/A 3>>" := by decide +kernel

/-- Example calls. -/
def exAttributes : List AttributesCall := [.owner .css1 true, .list [.listNumbering .upperAlpha], .artifact [.artifactType .inline], .raw b!"A" (pInt 3)]

/-- C46, `Attributes`: any sequence of calls writes a dictionary with, in order, the documented entries. -/
theorem C46_attributes (calls : List AttributesCall) (hok : Ok (Attributes.prog calls)) : WrittenAs (Attributes.prog calls) (IsAttributes calls) :=
  writtenAs_of hok (attributes_denotes calls)

example : Ok (Attributes.prog exAttributes) := okB_sound _ (by decide +kernel)
example : compactOut (Attributes.prog exAttributes) = b!"<</O/CSS-1/O/List/ListNumbering/UpperAlpha/O/Artifact/Type/Inline/A 3>>" := by decide +kernel

end PdfW.Props
