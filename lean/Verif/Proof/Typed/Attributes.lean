-- Generated by tools/typed.py from /repo/src; do not edit.
import Verif.Spec.Typed.Attributes
import Verif.Proof.Typed.Enums

/-! # Attributes -/

set_option linter.unusedSimpArgs false
set_option linter.unusedVariables false

namespace PdfW
open Spec Props

theorem userProperty_call (c : UserPropertyCall) : Implied EntryImplied c.entries (UserPropertyMeans c) := by
  cases c with
  | name name' =>
    simp only [UserPropertyCall.entries, UserPropertyMeans]
    implied
  | value x =>
    simp only [UserPropertyCall.entries, UserPropertyMeans]
    implied
  | format format' =>
    simp only [UserPropertyCall.entries, UserPropertyMeans]
    implied
  | hidden hide =>
    simp only [UserPropertyCall.entries, UserPropertyMeans]
    implied
  | raw key value' =>
    simp only [UserPropertyCall.entries, UserPropertyMeans]
    implied

theorem userProperty_implied (calls : List UserPropertyCall) : Implied EntryImplied (UserProperty.entries calls) (UserPropertyEntries calls) :=
  implied_flatMap calls (fun c h => userProperty_call c)

theorem userProperty_denotes (calls : List UserPropertyCall) : ItemImplied (UserProperty.prog calls) (IsUserProperty calls) :=
  l_dict (userProperty_implied calls)

theorem trackSizes_denotes (c : TrackSizes) : ItemImplied c.prog (IsTrackSizes c) := by
  cases c <;> simp only [TrackSizes.prog, IsTrackSizes] <;> leaf

theorem layoutAttributes_call (c : LayoutAttributesCall) : Implied EntryImplied c.entries (LayoutAttributesMeans c) := by
  cases c with
  | placement placement' =>
    simp only [LayoutAttributesCall.entries, LayoutAttributesMeans]
    implied
  | writingMode mode =>
    simp only [LayoutAttributesCall.entries, LayoutAttributesMeans]
    implied
  | backgroundColor color' =>
    simp only [LayoutAttributesCall.entries, LayoutAttributesMeans]
    implied
  | borderColor color' =>
    simp only [LayoutAttributesCall.entries, LayoutAttributesMeans]
    implied
  | borderStyle style =>
    simp only [LayoutAttributesCall.entries, LayoutAttributesMeans]
    implied
  | borderThickness s =>
    simp only [LayoutAttributesCall.entries, LayoutAttributesMeans]
    implied
  | padding s =>
    simp only [LayoutAttributesCall.entries, LayoutAttributesMeans]
    implied
  | color color' =>
    simp only [LayoutAttributesCall.entries, LayoutAttributesMeans]
    implied
  | spaceBefore space =>
    simp only [LayoutAttributesCall.entries, LayoutAttributesMeans]
    implied
  | spaceAfter space =>
    simp only [LayoutAttributesCall.entries, LayoutAttributesMeans]
    implied
  | startIndent indent =>
    simp only [LayoutAttributesCall.entries, LayoutAttributesMeans]
    implied
  | endIndent indent =>
    simp only [LayoutAttributesCall.entries, LayoutAttributesMeans]
    implied
  | textIndent indent =>
    simp only [LayoutAttributesCall.entries, LayoutAttributesMeans]
    implied
  | textAlign align =>
    simp only [LayoutAttributesCall.entries, LayoutAttributesMeans]
    implied
  | width width' =>
    simp only [LayoutAttributesCall.entries, LayoutAttributesMeans]
    implied
  | height height' =>
    simp only [LayoutAttributesCall.entries, LayoutAttributesMeans]
    implied
  | bbox bbox' =>
    simp only [LayoutAttributesCall.entries, LayoutAttributesMeans]
    implied
  | blockAlign align =>
    simp only [LayoutAttributesCall.entries, LayoutAttributesMeans]
    implied
  | inlineAlign align =>
    simp only [LayoutAttributesCall.entries, LayoutAttributesMeans]
    implied
  | tableBorderStyle style =>
    simp only [LayoutAttributesCall.entries, LayoutAttributesMeans]
    implied
  | tablePadding s =>
    simp only [LayoutAttributesCall.entries, LayoutAttributesMeans]
    implied
  | columnCount count =>
    simp only [LayoutAttributesCall.entries, LayoutAttributesMeans]
    implied
  | columnWidths x =>
    simp only [LayoutAttributesCall.entries, LayoutAttributesMeans]
    have nest := trackSizes_denotes
    implied
  | columnGap x =>
    simp only [LayoutAttributesCall.entries, LayoutAttributesMeans]
    have nest := trackSizes_denotes
    implied
  | lineHeight height' =>
    simp only [LayoutAttributesCall.entries, LayoutAttributesMeans]
    implied
  | baselineShift shift =>
    simp only [LayoutAttributesCall.entries, LayoutAttributesMeans]
    implied
  | textPosition position =>
    simp only [LayoutAttributesCall.entries, LayoutAttributesMeans]
    implied
  | textDecorationType decoration =>
    simp only [LayoutAttributesCall.entries, LayoutAttributesMeans]
    implied
  | textDecorationColor color' =>
    simp only [LayoutAttributesCall.entries, LayoutAttributesMeans]
    implied
  | textDecorationThickness thickness =>
    simp only [LayoutAttributesCall.entries, LayoutAttributesMeans]
    implied
  | glyphOrientationVertical o =>
    simp only [LayoutAttributesCall.entries, LayoutAttributesMeans]
    implied
  | rubyAlign align =>
    simp only [LayoutAttributesCall.entries, LayoutAttributesMeans]
    implied
  | rubyPosition position =>
    simp only [LayoutAttributesCall.entries, LayoutAttributesMeans]
    implied
  | raw key value =>
    simp only [LayoutAttributesCall.entries, LayoutAttributesMeans]
    implied

theorem layoutAttributes_implied (calls : List LayoutAttributesCall) : Implied EntryImplied (LayoutAttributes.entries calls) (LayoutAttributesEntries calls) :=
  Implied.append (by implied) (implied_flatMap calls (fun c h => layoutAttributes_call c))

theorem layoutAttributes_denotes (calls : List LayoutAttributesCall) : ItemImplied (LayoutAttributes.prog calls) (IsLayoutAttributes calls) :=
  l_dict (layoutAttributes_implied calls)

theorem listAttributes_call (c : ListAttributesCall) : Implied EntryImplied c.entries (ListAttributesMeans c) := by
  cases c with
  | listNumbering numbering =>
    simp only [ListAttributesCall.entries, ListAttributesMeans]
    implied
  | continuedList continued =>
    simp only [ListAttributesCall.entries, ListAttributesMeans]
    implied
  | continuedFrom r =>
    simp only [ListAttributesCall.entries, ListAttributesMeans]
    implied
  | raw key value =>
    simp only [ListAttributesCall.entries, ListAttributesMeans]
    implied

theorem listAttributes_implied (calls : List ListAttributesCall) : Implied EntryImplied (ListAttributes.entries calls) (ListAttributesEntries calls) :=
  Implied.append (by implied) (implied_flatMap calls (fun c h => listAttributes_call c))

theorem listAttributes_denotes (calls : List ListAttributesCall) : ItemImplied (ListAttributes.prog calls) (IsListAttributes calls) :=
  l_dict (listAttributes_implied calls)

theorem fieldAttributes_call (c : FieldAttributesCall) : Implied EntryImplied c.entries (FieldAttributesMeans c) := by
  cases c with
  | role role' =>
    simp only [FieldAttributesCall.entries, FieldAttributesMeans]
    implied
  | checked checked' pdf2 =>
    simp only [FieldAttributesCall.entries, FieldAttributesMeans]
    implied
  | description desc =>
    simp only [FieldAttributesCall.entries, FieldAttributesMeans]
    implied
  | raw key value =>
    simp only [FieldAttributesCall.entries, FieldAttributesMeans]
    implied

theorem fieldAttributes_implied (calls : List FieldAttributesCall) : Implied EntryImplied (FieldAttributes.entries calls) (FieldAttributesEntries calls) :=
  Implied.append (by implied) (implied_flatMap calls (fun c h => fieldAttributes_call c))

theorem fieldAttributes_denotes (calls : List FieldAttributesCall) : ItemImplied (FieldAttributes.prog calls) (IsFieldAttributes calls) :=
  l_dict (fieldAttributes_implied calls)

theorem tableAttributes_call (c : TableAttributesCall) : Implied EntryImplied c.entries (TableAttributesMeans c) := by
  cases c with
  | rowSpan rowSpan' =>
    simp only [TableAttributesCall.entries, TableAttributesMeans]
    implied
  | colSpan colSpan' =>
    simp only [TableAttributesCall.entries, TableAttributesMeans]
    implied
  | headers x =>
    simp only [TableAttributesCall.entries, TableAttributesMeans]
    implied
  | scope scope' =>
    simp only [TableAttributesCall.entries, TableAttributesMeans]
    implied
  | summary summary' =>
    simp only [TableAttributesCall.entries, TableAttributesMeans]
    implied
  | short short' =>
    simp only [TableAttributesCall.entries, TableAttributesMeans]
    implied
  | raw key value =>
    simp only [TableAttributesCall.entries, TableAttributesMeans]
    implied

theorem tableAttributes_implied (calls : List TableAttributesCall) : Implied EntryImplied (TableAttributes.entries calls) (TableAttributesEntries calls) :=
  Implied.append (by implied) (implied_flatMap calls (fun c h => tableAttributes_call c))

theorem tableAttributes_denotes (calls : List TableAttributesCall) : ItemImplied (TableAttributes.prog calls) (IsTableAttributes calls) :=
  l_dict (tableAttributes_implied calls)

theorem artifactAttributes_call (c : ArtifactAttributesCall) : Implied EntryImplied c.entries (ArtifactAttributesMeans c) := by
  cases c with
  | artifactType artifactType' =>
    simp only [ArtifactAttributesCall.entries, ArtifactAttributesMeans]
    implied
  | bbox bbox' =>
    simp only [ArtifactAttributesCall.entries, ArtifactAttributesMeans]
    implied
  | subtype subtype' =>
    simp only [ArtifactAttributesCall.entries, ArtifactAttributesMeans]
    implied
  | raw key value =>
    simp only [ArtifactAttributesCall.entries, ArtifactAttributesMeans]
    implied

theorem artifactAttributes_implied (calls : List ArtifactAttributesCall) : Implied EntryImplied (ArtifactAttributes.entries calls) (ArtifactAttributesEntries calls) :=
  Implied.append (by implied) (implied_flatMap calls (fun c h => artifactAttributes_call c))

theorem artifactAttributes_denotes (calls : List ArtifactAttributesCall) : ItemImplied (ArtifactAttributes.prog calls) (IsArtifactAttributes calls) :=
  l_dict (artifactAttributes_implied calls)

theorem fENoteAttributes_call (c : FENoteAttributesCall) : Implied EntryImplied c.entries (FENoteAttributesMeans c) := by
  cases c with
  | noteType noteType' =>
    simp only [FENoteAttributesCall.entries, FENoteAttributesMeans]
    implied
  | raw key value =>
    simp only [FENoteAttributesCall.entries, FENoteAttributesMeans]
    implied

theorem fENoteAttributes_implied (calls : List FENoteAttributesCall) : Implied EntryImplied (FENoteAttributes.entries calls) (FENoteAttributesEntries calls) :=
  Implied.append (by implied) (implied_flatMap calls (fun c h => fENoteAttributes_call c))

theorem fENoteAttributes_denotes (calls : List FENoteAttributesCall) : ItemImplied (FENoteAttributes.prog calls) (IsFENoteAttributes calls) :=
  l_dict (fENoteAttributes_implied calls)

theorem attributes_call (c : AttributesCall) : Implied EntryImplied c.entries (AttributesMeans c) := by
  cases c with
  | owner owner' iso2020 =>
    simp only [AttributesCall.entries, AttributesMeans]
    implied
  | user props =>
    simp only [AttributesCall.entries, AttributesMeans]
    have nest := userProperty_denotes
    implied
  | layout calls =>
    simp only [AttributesCall.entries, AttributesMeans]
    exact layoutAttributes_implied _
  | list calls =>
    simp only [AttributesCall.entries, AttributesMeans]
    exact listAttributes_implied _
  | field calls =>
    simp only [AttributesCall.entries, AttributesMeans]
    exact fieldAttributes_implied _
  | table calls =>
    simp only [AttributesCall.entries, AttributesMeans]
    exact tableAttributes_implied _
  | artifact calls =>
    simp only [AttributesCall.entries, AttributesMeans]
    exact artifactAttributes_implied _
  | note calls =>
    simp only [AttributesCall.entries, AttributesMeans]
    exact fENoteAttributes_implied _
  | «namespace» ns es =>
    simp only [AttributesCall.entries, AttributesMeans]
    refine Implied.append (by implied) ?_; have := implied_entries (f := fun e : Bytes × Prog => e) (g := fun e : Bytes × Prog => (e.1, Denotes e.2)) es (fun e => entry_of rfl (l_prog e.2)); simpa using this
  | raw key value =>
    simp only [AttributesCall.entries, AttributesMeans]
    implied

theorem attributes_implied (calls : List AttributesCall) : Implied EntryImplied (Attributes.entries calls) (AttributesEntries calls) :=
  implied_flatMap calls (fun c h => attributes_call c)

theorem attributes_denotes (calls : List AttributesCall) : ItemImplied (Attributes.prog calls) (IsAttributes calls) :=
  l_dict (attributes_implied calls)

end PdfW
