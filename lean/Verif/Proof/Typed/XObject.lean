-- Generated by tools/typed.py from /repo/src; do not edit.
import Verif.Spec.Typed.XObject
import Verif.Proof.Typed.Enums
import Verif.Proof.Typed.Files
import Verif.Proof.Typed.Resources

/-! # XObject -/

set_option linter.unusedSimpArgs false
set_option linter.unusedVariables false

namespace PdfW
open Spec Props

theorem group_call (c : GroupCall) : Implied EntryImplied c.entries (GroupMeans c) := by
  cases c with
  | transparency =>
    simp only [GroupCall.entries, GroupMeans]
    implied
  | colorSpace x =>
    simp only [GroupCall.entries, GroupMeans]
    implied
  | isolated isolated' =>
    simp only [GroupCall.entries, GroupMeans]
    implied
  | knockout knockout' =>
    simp only [GroupCall.entries, GroupMeans]
    implied
  | raw key value =>
    simp only [GroupCall.entries, GroupMeans]
    implied

theorem group_implied (calls : List GroupCall) : Implied EntryImplied (Group.entries calls) (GroupEntries calls) :=
  Implied.append (by implied) (implied_flatMap calls (fun c h => group_call c))

theorem group_denotes (calls : List GroupCall) : ItemImplied (Group.prog calls) (IsGroup calls) :=
  l_dict (group_implied calls)

theorem reference_call (c : ReferenceCall) : Implied EntryImplied c.entries (ReferenceMeans c) := by
  cases c with
  | fileSpec calls =>
    simp only [ReferenceCall.entries, ReferenceMeans]
    have nest := fileSpec_denotes
    implied
  | pageNumber page =>
    simp only [ReferenceCall.entries, ReferenceMeans]
    implied
  | pageLabel label =>
    simp only [ReferenceCall.entries, ReferenceMeans]
    implied
  | id r =>
    simp only [ReferenceCall.entries, ReferenceMeans]
    implied
  | raw key value =>
    simp only [ReferenceCall.entries, ReferenceMeans]
    implied

theorem reference_implied (calls : List ReferenceCall) : Implied EntryImplied (Reference.entries calls) (ReferenceEntries calls) :=
  implied_flatMap calls (fun c h => reference_call c)

theorem reference_denotes (calls : List ReferenceCall) : ItemImplied (Reference.prog calls) (IsReference calls) :=
  l_dict (reference_implied calls)

theorem imageXObject_call (c : ImageXObjectCall) : Implied EntryImplied c.entries (ImageXObjectMeans c) := by
  cases c with
  | width width' =>
    simp only [ImageXObjectCall.entries, ImageXObjectMeans]
    implied
  | height height' =>
    simp only [ImageXObjectCall.entries, ImageXObjectMeans]
    implied
  | colorSpace x =>
    simp only [ImageXObjectCall.entries, ImageXObjectMeans]
    implied
  | colorSpaceName name =>
    simp only [ImageXObjectCall.entries, ImageXObjectMeans]
    implied
  | bitsPerComponent bits =>
    simp only [ImageXObjectCall.entries, ImageXObjectMeans]
    implied
  | intent intent' =>
    simp only [ImageXObjectCall.entries, ImageXObjectMeans]
    implied
  | imageMask mask =>
    simp only [ImageXObjectCall.entries, ImageXObjectMeans]
    implied
  | colorMask colors =>
    simp only [ImageXObjectCall.entries, ImageXObjectMeans]
    implied
  | stencilMask mask =>
    simp only [ImageXObjectCall.entries, ImageXObjectMeans]
    implied
  | decode decode' =>
    simp only [ImageXObjectCall.entries, ImageXObjectMeans]
    implied
  | interpolate interpolate' =>
    simp only [ImageXObjectCall.entries, ImageXObjectMeans]
    implied
  | alternates alternates' =>
    simp only [ImageXObjectCall.entries, ImageXObjectMeans]
    implied
  | sMask xObject =>
    simp only [ImageXObjectCall.entries, ImageXObjectMeans]
    implied
  | sMaskInData mode =>
    simp only [ImageXObjectCall.entries, ImageXObjectMeans]
    implied
  | structParent key =>
    simp only [ImageXObjectCall.entries, ImageXObjectMeans]
    implied
  | matte color =>
    simp only [ImageXObjectCall.entries, ImageXObjectMeans]
    implied
  | metadata r =>
    simp only [ImageXObjectCall.entries, ImageXObjectMeans]
    implied
  | associatedFiles x =>
    simp only [ImageXObjectCall.entries, ImageXObjectMeans]
    have nest := fileSpec_denotes
    implied
  | stream c =>
    simp only [ImageXObjectCall.entries, ImageXObjectMeans]
    exact stream_call c

theorem imageXObject_implied (calls : List ImageXObjectCall) : Implied EntryImplied (ImageXObject.entries calls) (ImageXObjectEntries calls) :=
  Implied.append (by implied) (implied_flatMap calls (fun c h => imageXObject_call c))

theorem formXObject_call (c : FormXObjectCall) : Implied EntryImplied c.entries (FormXObjectMeans c) := by
  cases c with
  | bbox bbox' =>
    simp only [FormXObjectCall.entries, FormXObjectMeans]
    implied
  | matrix matrix' =>
    simp only [FormXObjectCall.entries, FormXObjectMeans]
    implied
  | resources calls =>
    simp only [FormXObjectCall.entries, FormXObjectMeans]
    have nest := resources_denotes
    implied
  | group calls =>
    simp only [FormXObjectCall.entries, FormXObjectMeans]
    have nest := group_denotes
    implied
  | structParent key =>
    simp only [FormXObjectCall.entries, FormXObjectMeans]
    implied
  | structParents key =>
    simp only [FormXObjectCall.entries, FormXObjectMeans]
    implied
  | reference calls =>
    simp only [FormXObjectCall.entries, FormXObjectMeans]
    have nest := reference_denotes
    implied
  | metadata r =>
    simp only [FormXObjectCall.entries, FormXObjectMeans]
    implied
  | lastModified lastModified' =>
    simp only [FormXObjectCall.entries, FormXObjectMeans]
    implied
  | associatedFiles x =>
    simp only [FormXObjectCall.entries, FormXObjectMeans]
    have nest := fileSpec_denotes
    implied
  | stream c =>
    simp only [FormXObjectCall.entries, FormXObjectMeans]
    exact stream_call c

theorem formXObject_implied (calls : List FormXObjectCall) : Implied EntryImplied (FormXObject.entries calls) (FormXObjectEntries calls) :=
  Implied.append (by implied) (implied_flatMap calls (fun c h => formXObject_call c))

end PdfW
