-- Generated by tools/typed.py from /repo/src; do not edit.
import Verif.Spec.Typed.Renditions
import Verif.Proof.Typed.Enums
import Verif.Proof.Typed.Files

/-! # Renditions -/

set_option linter.unusedSimpArgs false
set_option linter.unusedVariables false

namespace PdfW
open Spec Props

theorem mediaPermissions_call (c : MediaPermissionsCall) : Implied EntryImplied c.entries (MediaPermissionsMeans c) := by
  cases c with
  | tempFile tf =>
    simp only [MediaPermissionsCall.entries, MediaPermissionsMeans]
    implied
  | raw key value =>
    simp only [MediaPermissionsCall.entries, MediaPermissionsMeans]
    implied

theorem mediaPermissions_implied (calls : List MediaPermissionsCall) : Implied EntryImplied (MediaPermissions.entries calls) (MediaPermissionsEntries calls) :=
  Implied.append (by implied) (implied_flatMap calls (fun c h => mediaPermissions_call c))

theorem mediaPermissions_denotes (calls : List MediaPermissionsCall) : ItemImplied (MediaPermissions.prog calls) (IsMediaPermissions calls) :=
  l_dict (mediaPermissions_implied calls)

theorem mediaPlayParams_call (c : MediaPlayParamsCall) : Implied EntryImplied c.entries (MediaPlayParamsMeans c) := by
  cases c with
  | controls c =>
    simp only [MediaPlayParamsCall.entries, MediaPlayParamsMeans]
    implied
  | raw key value =>
    simp only [MediaPlayParamsCall.entries, MediaPlayParamsMeans]
    implied

theorem mediaPlayParams_implied (calls : List MediaPlayParamsCall) : Implied EntryImplied (MediaPlayParams.entries calls) (MediaPlayParamsEntries calls) :=
  Implied.append (by implied) (implied_flatMap calls (fun c h => mediaPlayParams_call c))

theorem mediaPlayParams_denotes (calls : List MediaPlayParamsCall) : ItemImplied (MediaPlayParams.prog calls) (IsMediaPlayParams calls) :=
  l_dict (mediaPlayParams_implied calls)

theorem mediaClip_call (c : MediaClipCall) : Implied EntryImplied c.entries (MediaClipMeans c) := by
  cases c with
  | subtype kind =>
    simp only [MediaClipCall.entries, MediaClipMeans]
    implied
  | name text =>
    simp only [MediaClipCall.entries, MediaClipMeans]
    implied
  | data calls =>
    simp only [MediaClipCall.entries, MediaClipMeans]
    have nest := fileSpec_denotes
    implied
  | dataType tf =>
    simp only [MediaClipCall.entries, MediaClipMeans]
    implied
  | permissions calls =>
    simp only [MediaClipCall.entries, MediaClipMeans]
    have nest := mediaPermissions_denotes
    implied
  | altTexts texts =>
    simp only [MediaClipCall.entries, MediaClipMeans]
    implied
  | raw key value =>
    simp only [MediaClipCall.entries, MediaClipMeans]
    implied

theorem mediaClip_implied (calls : List MediaClipCall) : Implied EntryImplied (MediaClip.entries calls) (MediaClipEntries calls) :=
  Implied.append (by implied) (implied_flatMap calls (fun c h => mediaClip_call c))

theorem mediaClip_denotes (calls : List MediaClipCall) : ItemImplied (MediaClip.prog calls) (IsMediaClip calls) :=
  l_dict (mediaClip_implied calls)

theorem rendition_call (c : RenditionCall) : Implied EntryImplied c.entries (RenditionMeans c) := by
  cases c with
  | subtype kind =>
    simp only [RenditionCall.entries, RenditionMeans]
    implied
  | name text =>
    simp only [RenditionCall.entries, RenditionMeans]
    implied
  | mediaClip calls =>
    simp only [RenditionCall.entries, RenditionMeans]
    have nest := mediaClip_denotes
    implied
  | mediaPlayParams calls =>
    simp only [RenditionCall.entries, RenditionMeans]
    have nest := mediaPlayParams_denotes
    implied
  | raw key value =>
    simp only [RenditionCall.entries, RenditionMeans]
    implied

theorem rendition_implied (calls : List RenditionCall) : Implied EntryImplied (Rendition.entries calls) (RenditionEntries calls) :=
  Implied.append (by implied) (implied_flatMap calls (fun c h => rendition_call c))

theorem rendition_denotes (calls : List RenditionCall) : ItemImplied (Rendition.prog calls) (IsRendition calls) :=
  l_dict (rendition_implied calls)

end PdfW
