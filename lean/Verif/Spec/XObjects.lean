import Verif.Spec.Associated
import Verif.Spec.Properties
import Verif.Spec.Typed.Pattern

/-!
# Details of images and form XObjects, and metadata of objects (ISO 32000-1, Tables 89, 91, 95, 146; 14.3.2)

A reader that is given only the bytes of a file and the number of an image, a form XObject or another object with metadata. It knows nothing about the
writer.
-/

namespace PdfW.Spec
open PdfW

/-! ## The reader -/

/-- The metadata of an object, if it has any (14.3.2, Table 315). -/
def fileMetadata (unf : Val → Bytes → Option Bytes) (file : Bytes) (n : Nat) : Option (Option Bytes) :=
  (readFile unf file).bind fun f => (anyDict f file n).bind fun d => optionalEntry b!"Metadata" d (readXmp unf f file)

/-- Another version of an image (Table 91): its number, and whether it is the one to print. -/
abbrev Alternate := Nat × Bool

/-- "The default value is false" (Table 91). -/
def readAlternate (f : FileEnd) (file : Bytes) (v : Val) : Option Alternate :=
  (followDict f file v).bind fun d => (requiredEntry b!"Image" d refNumber).bind fun n => (optionalEntry b!"DefaultForPrinting" d truthOf).map fun p => (n, p.getD false)

/-- Details of an image (Tables 89 and 146), with the default values of the tables; `ν` are numbers. -/
structure ImageDetails (ν : Type) where
  intent : Option Bytes
  smooth : Bool
  /-- What to do with opacity that is part of the data: ignore it (0), use it (1), use it for colors that are blended with a background already (2). -/
  opacity : Int
  alternates : List Alternate
  tag : Option Int
  matte : Option (List ν)

def readImageDetails (f : FileEnd) (file : Bytes) (d : List (Bytes × Val)) : Option (ImageDetails Val) :=
  (optionalEntry b!"Intent" d nameOf).bind fun intent => (optionalEntry b!"Interpolate" d truthOf).bind fun smooth =>
    (optionalEntry b!"SMaskInData" d intOf).bind fun opacity =>
    (optionalEntry b!"Alternates" d fun v => (itemsOf v).bind (readEach (readAlternate f file))).bind fun alternates =>
    (optionalEntry b!"StructParent" d intOf).bind fun tag => (optionalEntry b!"Matte" d itemsOf).map fun matte =>
      ⟨intent, smooth.getD false, opacity.getD 0, alternates.getD [], tag, matte⟩

/-- Details of the image with this number. -/
def fileImageDetails (unf : Val → Bytes → Option Bytes) (file : Bytes) (n : Nat) : Option (ImageDetails Val) :=
  (readFile unf file).bind fun f => (anyDict f file n).bind (readImageDetails f file)

/-- Details of a form XObject (Table 95): when it was modified, its key in the parent tree, if it is one item of content or if its content has
several of them. -/
structure FormDetails where
  modified : Option DateVal
  tag : Option Int
  tags : Option Int
deriving DecidableEq

/-- Details of the form XObject with this number. -/
def fileFormDetails (unf : Val → Bytes → Option Bytes) (file : Bytes) (n : Nat) : Option FormDetails :=
  (readFile unf file).bind fun f => (anyDict f file n).bind fun d =>
    (optionalEntry b!"LastModified" d dateOf).bind fun modified => (optionalEntry b!"StructParent" d intOf).bind fun tag =>
      (optionalEntry b!"StructParents" d intOf).map fun tags => ⟨modified, tag, tags⟩

/-! ## What was asked for -/

/-- Another version of an image, as the caller writes it: the object it has, the number of the image, and whether it is the one to print. -/
structure GivenAlternate where
  id : Ref
  image : Ref
  printing : Option Bool

/-- Its dictionary. -/
def GivenAlternate.prog (a : GivenAlternate) : Prog :=
  .dict ([(b!"Image", .prim (.ref a.image))] ++ a.printing.toList.map fun p => (b!"DefaultForPrinting", .prim (.bool p)))

/-- The calls set these details. What is not set has its default value. -/
structure ImageDetailsSet (items : List Item) (calls : List ImageXObjectCall) (x : ImageDetails F32) : Prop where
  intent : ∃ i, x.intent = i.map isoRenderingIntent ∧ MaybeCall ImageXObjectMeans b!"Intent" calls i .intent
  smooth : ∃ s, x.smooth = s.getD false ∧ MaybeCall ImageXObjectMeans b!"Interpolate" calls s .interpolate
  opacity : ∃ o, x.opacity = (o.map isoSMaskInData).getD 0 ∧ MaybeCall ImageXObjectMeans b!"SMaskInData" calls o .sMaskInData
  alternates : ∃ as : Option (List GivenAlternate), (x.alternates = (as.getD []).map fun a => (a.image.get.toNat, a.printing.getD false)) ∧
    (∀ a ∈ as.getD [], HasObject items a.id (.val a.prog)) ∧ MaybeCall ImageXObjectMeans b!"Alternates" calls as fun as => .alternates (as.map GivenAlternate.id)
  tag : MaybeCall ImageXObjectMeans b!"StructParent" calls x.tag .structParent
  matte : MaybeCall ImageXObjectMeans b!"Matte" calls x.matte .matte

/-- What is read is what was given. -/
structure SameImageDetails (x : ImageDetails F32) (r : ImageDetails Val) : Prop where
  same : r.intent = x.intent ∧ r.smooth = x.smooth ∧ r.opacity = x.opacity ∧ r.alternates = x.alternates ∧ r.tag = x.tag
  matte : BothOrNone (Pairwise NumIs) x.matte r.matte

/-- The calls set these details. -/
structure FormDetailsSet (calls : List FormXObjectCall) (x : FormDetails) : Prop where
  modified : ∃ m, x.modified = m.map expectedDate ∧ MaybeCall FormXObjectMeans b!"LastModified" calls m .lastModified
  tag : MaybeCall FormXObjectMeans b!"StructParent" calls x.tag .structParent
  tags : MaybeCall FormXObjectMeans b!"StructParents" calls x.tags .structParents

/-- This object of the document has this metadata, or none. -/
inductive MetadataOf (items : List Item) (id : Ref) : Option Ref → Prop
  | catalog {calls m} : HasObject items id (.val (Catalog.prog calls)) → MaybeCall (CatalogMeans .code) b!"Metadata" calls m .metadata → MetadataOf items id m
  | page {calls m} : HasObject items id (.val (Page.prog calls)) → MaybeCall (PageMeans .code) b!"Metadata" calls m .metadata → MetadataOf items id m
  | image {calls data m} : HasObject items id (.stream (ImageXObject.entries calls) data) → MaybeCall ImageXObjectMeans b!"Metadata" calls m .metadata →
      MetadataOf items id m
  | form {calls data m} : HasObject items id (.stream (FormXObject.entries calls) data) → MaybeCall FormXObjectMeans b!"Metadata" calls m .metadata →
      MetadataOf items id m
  | profile {calls data m} : HasObject items id (.stream (IccProfile.entries calls) data) → MaybeCall IccProfileMeans b!"Metadata" calls m .metadata →
      MetadataOf items id m

end PdfW.Spec
