-- Generated by tools/typed.py from /repo/src; do not edit.
import Verif.Model.Typed.XObject
import Verif.Spec.Typed.Files
import Verif.Spec.Typed.Resources

/-! # Meaning of the calls of `Group`, `Reference`, `ImageXObject`, `FormXObject`

Keys from the documentation of each method, value types from the parameter types and ISO 32000. -/

namespace PdfW.Spec
open PdfW

/-- The entries a call of `Group` stands for: key and meaning of the value. -/
def GroupMeans : GroupCall → List (Bytes × (Val → Prop))
  | .transparency => [(b!"S", IsName b!"Transparency")]
  | .colorSpace x => [(b!"CS", Denotes x)]
  | .isolated isolated' => [(b!"I", IsBool isolated')]
  | .knockout knockout' => [(b!"K", IsBool knockout')]
  | .raw key value => [(key, Denotes value)]

def GroupEntries (calls : List GroupCall) : List (Bytes × (Val → Prop)) := [(b!"Type", IsName b!"Group")] ++ calls.flatMap GroupMeans

def IsGroup (calls : List GroupCall) : Val → Prop := DictIs (GroupEntries calls)

/-- The entries a call of `Reference` stands for: key and meaning of the value. -/
def ReferenceMeans : ReferenceCall → List (Bytes × (Val → Prop))
  | .fileSpec calls => [(b!"F", IsFileSpec calls)]
  | .pageNumber page => [(b!"Page", IsInt page)]
  | .pageLabel label => [(b!"Page", IsTextLike label)]
  | .id r => [(b!"ID", ArrayIs (r.map fun x => IsStr x))]
  | .raw key value => [(key, Denotes value)]

def ReferenceEntries (calls : List ReferenceCall) : List (Bytes × (Val → Prop)) := calls.flatMap ReferenceMeans

def IsReference (calls : List ReferenceCall) : Val → Prop := DictIs (ReferenceEntries calls)

/-- The entries a call of `ImageXObject` stands for: key and meaning of the value. -/
def ImageXObjectMeans : ImageXObjectCall → List (Bytes × (Val → Prop))
  | .width width' => [(b!"Width", IsInt width')]
  | .height height' => [(b!"Height", IsInt height')]
  | .colorSpace x => [(b!"ColorSpace", Denotes x)]
  | .colorSpaceName name => [(b!"ColorSpace", IsName name)]
  | .bitsPerComponent bits => [(b!"BitsPerComponent", IsInt bits)]
  | .intent intent' => [(b!"Intent", IsName (isoRenderingIntent intent'))]
  | .imageMask mask => [(b!"ImageMask", IsBool mask)]
  | .colorMask colors => [(b!"Mask", ArrayIs (colors.map fun x => IsInt x))]
  | .stencilMask mask => [(b!"Mask", IsRef mask)]
  | .decode decode' => [(b!"Decode", ArrayIs (decode'.map fun x => NumIs x))]
  | .interpolate interpolate' => [(b!"Interpolate", IsBool interpolate')]
  | .alternates alternates' => [(b!"Alternates", ArrayIs (alternates'.map fun x => IsRef x))]
  | .sMask xObject => [(b!"SMask", IsRef xObject)]
  | .sMaskInData mode => [(b!"SMaskInData", IsInt (isoSMaskInData mode))]
  | .structParent key => [(b!"StructParent", IsInt key)]
  | .matte color => [(b!"Matte", ArrayIs (color.map fun x => NumIs x))]
  | .metadata r => [(b!"Metadata", IsRef r)]
  | .associatedFiles x => [(b!"AF", ArrayIs (x.map fun x => IsFileSpec x))]
  | .stream c => StreamMeans c

def ImageXObjectEntries (calls : List ImageXObjectCall) : List (Bytes × (Val → Prop)) := [(b!"Type", IsName b!"XObject"), (b!"Subtype", IsName b!"Image")] ++ calls.flatMap ImageXObjectMeans

/-- The entries a call of `FormXObject` stands for: key and meaning of the value. -/
def FormXObjectMeans : FormXObjectCall → List (Bytes × (Val → Prop))
  | .bbox bbox' => [(b!"BBox", IsRect bbox')]
  | .matrix matrix' => [(b!"Matrix", ArrayIs (matrix'.map fun x => NumIs x))]
  | .resources calls => [(b!"Resources", IsResources calls)]
  | .group calls => [(b!"Group", IsGroup calls)]
  | .structParent key => [(b!"StructParent", IsInt key)]
  | .structParents key => [(b!"StructParents", IsInt key)]
  | .reference calls => [(b!"Ref", IsReference calls)]
  | .metadata r => [(b!"Metadata", IsRef r)]
  | .lastModified lastModified' => [(b!"LastModified", IsDate lastModified')]
  | .associatedFiles x => [(b!"AF", ArrayIs (x.map fun x => IsFileSpec x))]
  | .stream c => StreamMeans c

def FormXObjectEntries (calls : List FormXObjectCall) : List (Bytes × (Val → Prop)) := [(b!"Type", IsName b!"XObject"), (b!"Subtype", IsName b!"Form")] ++ calls.flatMap FormXObjectMeans

end PdfW.Spec
