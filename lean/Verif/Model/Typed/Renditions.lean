-- Generated by tools/typed.py from /repo/src; do not edit.
import Verif.Model.Typed.Files

/-! # Typed writers: `MediaPermissions`, `MediaPlayParams`, `MediaClip`, `Rendition` -/

namespace PdfW

/-- Calls of public methods of `MediaPermissions` (renditions.rs:159-163). -/
inductive MediaPermissionsCall where
  /-- renditions.rs:167-170 -/
  | tempFile (tf : TempFileType)
  /-- renditions.rs:173 -/
  | raw (key : Bytes) (value : Prog)

/-- The entries each method inserts. -/
def MediaPermissionsCall.entries : MediaPermissionsCall → List (Bytes × Prog)
  | .tempFile tf => [(b!"TF", pStr tf.toStr)]
  | .raw key value => [(key, value)]

/-- All entries of the object: those of the constructor (renditions.rs:159-163), then those of the calls. -/
def MediaPermissions.entries (calls : List MediaPermissionsCall) : List (Bytes × Prog) := [(b!"Type", pName b!"MediaPermissions")] ++ calls.flatMap MediaPermissionsCall.entries

/-- The object written. -/
def MediaPermissions.prog (calls : List MediaPermissionsCall) : Prog := .dict (MediaPermissions.entries calls)

/-- Calls of public methods of `MediaPlayParams` (renditions.rs:131-135). -/
inductive MediaPlayParamsCall where
  /-- renditions.rs:144-147 -/
  | controls (c : Bool)
  /-- renditions.rs:150 -/
  | raw (key : Bytes) (value : Prog)

/-- The entries each method inserts. -/
def MediaPlayParamsCall.entries : MediaPlayParamsCall → List (Bytes × Prog)
  | .controls c => [(b!"BE", .dict [(b!"C", pBool c)])]
  | .raw key value => [(key, value)]

/-- All entries of the object: those of the constructor (renditions.rs:131-135), then those of the calls. -/
def MediaPlayParams.entries (calls : List MediaPlayParamsCall) : List (Bytes × Prog) := [(b!"Type", pName b!"MediaPlayParams")] ++ calls.flatMap MediaPlayParamsCall.entries

/-- The object written. -/
def MediaPlayParams.prog (calls : List MediaPlayParamsCall) : Prog := .dict (MediaPlayParams.entries calls)

/-- Calls of public methods of `MediaClip` (renditions.rs:73-77). -/
inductive MediaClipCall where
  /-- renditions.rs:81-84 -/
  | subtype (kind : MediaClipType)
  /-- renditions.rs:88-91 -/
  | name (text : TextLike)
  /-- renditions.rs:94-96 -/
  | data (calls : List FileSpecCall)
  /-- renditions.rs:100-103 -/
  | dataType (tf : Bytes)
  /-- renditions.rs:106-108 -/
  | permissions (calls : List MediaPermissionsCall)
  /-- renditions.rs:113-119 -/
  | altTexts (texts : List (List Char))
  /-- renditions.rs:122 -/
  | raw (key : Bytes) (value : Prog)

/-- The entries each method inserts. -/
def MediaClipCall.entries : MediaClipCall → List (Bytes × Prog)
  | .subtype kind => [(b!"S", pName kind.toName)]
  | .name text => [(b!"N", text.prog)]
  | .data calls => [(b!"D", FileSpec.prog calls)]
  | .dataType tf => [(b!"CT", pStr tf)]
  | .permissions calls => [(b!"P", MediaPermissions.prog calls)]
  | .altTexts texts => [(b!"Alt", .array (texts.map fun x => pText x))]
  | .raw key value => [(key, value)]

/-- All entries of the object: those of the constructor (renditions.rs:73-77), then those of the calls. -/
def MediaClip.entries (calls : List MediaClipCall) : List (Bytes × Prog) := [(b!"Type", pName b!"MediaClip")] ++ calls.flatMap MediaClipCall.entries

/-- The object written. -/
def MediaClip.prog (calls : List MediaClipCall) : Prog := .dict (MediaClip.entries calls)

/-- Calls of public methods of `Rendition` (renditions.rs:11-15). -/
inductive RenditionCall where
  /-- renditions.rs:19-22 -/
  | subtype (kind : RenditionType)
  /-- renditions.rs:26-29 -/
  | name (text : TextLike)
  /-- renditions.rs:33-35 -/
  | mediaClip (calls : List MediaClipCall)
  /-- renditions.rs:40-42 -/
  | mediaPlayParams (calls : List MediaPlayParamsCall)
  /-- renditions.rs:45 -/
  | raw (key : Bytes) (value : Prog)

/-- The entries each method inserts. -/
def RenditionCall.entries : RenditionCall → List (Bytes × Prog)
  | .subtype kind => [(b!"S", pName kind.toName)]
  | .name text => [(b!"N", text.prog)]
  | .mediaClip calls => [(b!"C", MediaClip.prog calls)]
  | .mediaPlayParams calls => [(b!"P", MediaPlayParams.prog calls)]
  | .raw key value => [(key, value)]

/-- All entries of the object: those of the constructor (renditions.rs:11-15), then those of the calls. -/
def Rendition.entries (calls : List RenditionCall) : List (Bytes × Prog) := [(b!"Type", pName b!"Rendition")] ++ calls.flatMap RenditionCall.entries

/-- The object written. -/
def Rendition.prog (calls : List RenditionCall) : Prog := .dict (Rendition.entries calls)

end PdfW
