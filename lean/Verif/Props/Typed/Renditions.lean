-- Generated by tools/typed.py from /repo/src; do not edit.
import Verif.Proof.Typed.Renditions
import Verif.Proof.Typed.Sample

/-! # C45: typed writers of module Renditions -/

set_option linter.unusedSimpArgs false
set_option linter.unusedVariables false
set_option maxRecDepth 8192

namespace PdfW.Props
open PdfW PdfW.Spec

/-- Example calls. -/
def exMediaPermissions : List MediaPermissionsCall := [.tempFile .always, .raw b!"A" (pInt 3)]

/-- C45, `MediaPermissions`: any sequence of calls writes a dictionary with, in order, the documented entries. -/
theorem C45_media_permissions (calls : List MediaPermissionsCall) (hok : Ok (MediaPermissions.prog calls)) : WrittenAs (MediaPermissions.prog calls) (IsMediaPermissions calls) :=
  writtenAs_of hok (mediaPermissions_denotes calls)

example : Ok (MediaPermissions.prog exMediaPermissions) := okB_sound _ (by decide +kernel)
example : compactOut (MediaPermissions.prog exMediaPermissions) = b!"<</Type/MediaPermissions/TF(TEMPALWAYS)/A 3>>" := by decide +kernel

/-- Example calls. -/
def exMediaPlayParams : List MediaPlayParamsCall := [.controls true, .raw b!"A" (pInt 3)]

/-- C45, `MediaPlayParams`: any sequence of calls writes a dictionary with, in order, the documented entries. -/
theorem C45_media_play_params (calls : List MediaPlayParamsCall) (hok : Ok (MediaPlayParams.prog calls)) : WrittenAs (MediaPlayParams.prog calls) (IsMediaPlayParams calls) :=
  writtenAs_of hok (mediaPlayParams_denotes calls)

example : Ok (MediaPlayParams.prog exMediaPlayParams) := okB_sound _ (by decide +kernel)
example : compactOut (MediaPlayParams.prog exMediaPlayParams) = b!"<</Type/MediaPlayParams/BE<</C true>>/A 3>>" := by decide +kernel

/-- Example calls. -/
def exMediaClip : List MediaClipCall := [.subtype (.«section»), .data [.fileSystem b!"A"], .permissions [.tempFile .always], .raw b!"A" (pInt 3)]

/-- C45, `MediaClip`: any sequence of calls writes a dictionary with, in order, the documented entries. -/
theorem C45_media_clip (calls : List MediaClipCall) (hok : Ok (MediaClip.prog calls)) : WrittenAs (MediaClip.prog calls) (IsMediaClip calls) :=
  writtenAs_of hok (mediaClip_denotes calls)

example : Ok (MediaClip.prog exMediaClip) := okB_sound _ (by decide +kernel)
example : compactOut (MediaClip.prog exMediaClip) = b!"<</Type/MediaClip/S/MCS/D<</Type/Filespec/FS/A>>/P<</Type/MediaPermissions/TF(TEMPALWAYS)>>/A 3>>" := by decide +kernel

/-- Example calls. -/
def exRendition : List RenditionCall := [.subtype .selector, .name (.plain ['a']), .mediaPlayParams [.controls true], .raw b!"A" (pInt 3)]

/-- C45, `Rendition`: any sequence of calls writes a dictionary with, in order, the documented entries. -/
theorem C45_rendition (calls : List RenditionCall) (hok : Ok (Rendition.prog calls)) : WrittenAs (Rendition.prog calls) (IsRendition calls) :=
  writtenAs_of hok (rendition_denotes calls)

example : Ok (Rendition.prog exRendition) := okB_sound _ (by decide +kernel)
example : compactOut (Rendition.prog exRendition) = b!"<</Type/Rendition/S/SR/N(a)/P<</Type/MediaPlayParams/BE<</C true>>>>/A 3>>" := by decide +kernel

end PdfW.Props
