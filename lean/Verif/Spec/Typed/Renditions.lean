-- Generated by tools/typed.py from /repo/src; do not edit.
import Verif.Model.Typed.Renditions
import Verif.Spec.Typed.Files

/-! # Meaning of the calls of `MediaPermissions`, `MediaPlayParams`, `MediaClip`, `Rendition`

Keys from the documentation of each method, value types from the parameter types and ISO 32000. -/

namespace PdfW.Spec
open PdfW

/-- The entries a call of `MediaPermissions` stands for: key and meaning of the value. -/
def MediaPermissionsMeans : MediaPermissionsCall → List (Bytes × (Val → Prop))
  | .tempFile tf => [(b!"TF", IsStr (isoTempFileType tf))]
  | .raw key value => [(key, Denotes value)]

def MediaPermissionsEntries (calls : List MediaPermissionsCall) : List (Bytes × (Val → Prop)) := [(b!"Type", IsName b!"MediaPermissions")] ++ calls.flatMap MediaPermissionsMeans

def IsMediaPermissions (calls : List MediaPermissionsCall) : Val → Prop := DictIs (MediaPermissionsEntries calls)

/-- The entries a call of `MediaPlayParams` stands for: key and meaning of the value. -/
def MediaPlayParamsMeans : MediaPlayParamsCall → List (Bytes × (Val → Prop))
  | .controls c => [(b!"BE", DictIs [(b!"C", IsBool c)])]
  | .raw key value => [(key, Denotes value)]

def MediaPlayParamsEntries (calls : List MediaPlayParamsCall) : List (Bytes × (Val → Prop)) := [(b!"Type", IsName b!"MediaPlayParams")] ++ calls.flatMap MediaPlayParamsMeans

def IsMediaPlayParams (calls : List MediaPlayParamsCall) : Val → Prop := DictIs (MediaPlayParamsEntries calls)

/-- The entries a call of `MediaClip` stands for: key and meaning of the value. -/
def MediaClipMeans : MediaClipCall → List (Bytes × (Val → Prop))
  | .subtype kind => [(b!"S", IsName (isoMediaClipType kind))]
  | .name text => [(b!"N", IsTextLike text)]
  | .data calls => [(b!"D", IsFileSpec calls)]
  | .dataType tf => [(b!"CT", IsStr tf)]
  | .permissions calls => [(b!"P", IsMediaPermissions calls)]
  | .altTexts texts => [(b!"Alt", ArrayIs (texts.map fun x => IsText x))]
  | .raw key value => [(key, Denotes value)]

def MediaClipEntries (calls : List MediaClipCall) : List (Bytes × (Val → Prop)) := [(b!"Type", IsName b!"MediaClip")] ++ calls.flatMap MediaClipMeans

def IsMediaClip (calls : List MediaClipCall) : Val → Prop := DictIs (MediaClipEntries calls)

/-- The entries a call of `Rendition` stands for: key and meaning of the value. -/
def RenditionMeans : RenditionCall → List (Bytes × (Val → Prop))
  | .subtype kind => [(b!"S", IsName (isoRenditionType kind))]
  | .name text => [(b!"N", IsTextLike text)]
  | .mediaClip calls => [(b!"C", IsMediaClip calls)]
  | .mediaPlayParams calls => [(b!"P", IsMediaPlayParams calls)]
  | .raw key value => [(key, Denotes value)]

def RenditionEntries (calls : List RenditionCall) : List (Bytes × (Val → Prop)) := [(b!"Type", IsName b!"Rendition")] ++ calls.flatMap RenditionMeans

def IsRendition (calls : List RenditionCall) : Val → Prop := DictIs (RenditionEntries calls)

end PdfW.Spec
