import Verif.Spec.Attach
import Verif.Spec.Typed.Forms
import Verif.Spec.Typed.Structure

/-!
# Interactive forms (ISO 32000-1, 12.7)

A reader that is given only the bytes of a file and obtains the fields of its interactive form: for every terminal field its fully qualified
name, type, flags, value and default value (with what it inherits from the fields above it), and its widgets, each with its page and its
rectangle. It knows nothing about the writer.

It insists that fields and widgets point back to their parents. It tells the kids of a field that are fields from those that are only widgets by
the partial name (12.7.3.2). Values may be names, text strings, arrays of text strings, or null; rich text, signatures and appearances are not
looked at.
-/

namespace PdfW.Spec
open PdfW

/-! ## The reader -/

/-- The value of a field (Tables 220, 229, 231). -/
inductive FieldValue where
  | name (n : Bytes)
  | text (t : List Char)
  | texts (ts : List (List Char))
deriving DecidableEq

/-- A value; null is the same as no value (7.3.9). -/
def readFieldValue : Val → Option (Option FieldValue)
  | .name n => some (some (.name n))
  | .str s => (decodeText s).map fun t => some (.text t)
  | .arr vs => (readEach readText vs).map fun ts => some (.texts ts)
  | .null => some none
  | _ => none

/-- A set of flags. -/
def flagsOf : Val → Option Nat
  | .int (.ofNat n) => some n
  | _ => none

/-- An array of references. -/
def refArray : Val → Option (List Nat)
  | .arr vs => refNumbers vs
  | _ => none

/-- A widget: the index of the page on which it is, its object number and its rectangle. -/
structure ReadWidget where
  page : Option Nat
  number : Nat
  rect : Val

/-- A terminal field. -/
structure ReadField where
  number : Nat
  name : List Char
  type : Option Bytes
  flags : Nat
  value : Option FieldValue
  default : Option FieldValue
  widgets : List ReadWidget

/-- What a field has, or inherits from those above it (Table 220: FT, Ff, V, DV are inheritable): the partial names from the top, type, flags,
value and default value. -/
structure ReadState where
  names : List (List Char)
  type : Option Bytes
  flags : Option Nat
  value : Option FieldValue
  default : Option FieldValue

/-- Nothing is inherited at the top. -/
def ReadState.top : ReadState := ⟨[], none, none, none, none⟩

/-- The fully qualified name (12.7.3.2): the partial names separated by periods. -/
def qualified : List (List Char) → List Char
  | [] => []
  | [n] => n
  | n :: ns => n ++ '.' :: qualified ns

/-- What a field has. -/
def readFieldState (above : ReadState) (d : List (Bytes × Val)) : Option ReadState :=
  (optionalEntry b!"T" d readText).bind fun t => (optionalEntry b!"FT" d nameOf).bind fun ft => (optionalEntry b!"Ff" d flagsOf).bind fun ff =>
    (optionalEntry b!"V" d readFieldValue).bind fun v => (optionalEntry b!"DV" d readFieldValue).map fun dv =>
      ⟨above.names ++ t.toList, ft.or above.type, ff.or above.flags, v.join.or above.value, dv.join.or above.default⟩

/-- A dictionary object. -/
def dictObject (f : FileEnd) (file : Bytes) (n : Nat) : Option (List (Bytes × Val)) :=
  match f.object file n with
  | some (.val (.dict d)) => some d
  | _ => none

/-- A kid with a partial name is a field. -/
def isField (f : FileEnd) (file : Bytes) (n : Nat) : Option Bool := (dictObject f file n).map fun d => !d.all fun e => e.1 != b!"T"

/-- The page of an annotation: the first that lists it (Table 30, Annots). -/
def annotPage (annots : List (List Nat)) (n : Nat) : Option Nat := annots.findIdx? fun l => l.contains n

/-- A widget annotation dictionary (Table 188). -/
def widgetOf (annots : List (List Nat)) (n : Nat) (d : List (Bytes × Val)) : Option ReadWidget :=
  (lookup b!"Subtype" d).bind nameOf |>.bind fun t =>
    if t = b!"Widget" then (lookup b!"Rect" d).map fun r => ⟨annotPage annots n, n, r⟩ else none

/-- A widget below a field. -/
def readWidget (f : FileEnd) (file : Bytes) (annots : List (List Nat)) (parent n : Nat) : Option ReadWidget :=
  (dictObject f file n).bind fun d =>
    if optionalEntry b!"Parent" d refNumber = some (some parent) then widgetOf annots n d else none

/-- The terminal field. -/
def ReadState.field (s : ReadState) (n : Nat) (ws : List ReadWidget) : ReadField :=
  ⟨n, qualified s.names, s.type, s.flags.getD 0, s.value, s.default, ws⟩

/-- The terminal fields at and below a field. A field without kids may be its own widget (12.5.6.19). `depth` bounds the depth of the tree. -/
def readFields (f : FileEnd) (file : Bytes) (annots : List (List Nat)) : Nat → Option Nat → ReadState → Nat → Option (List ReadField)
  | 0, _, _, _ => none
  | depth + 1, parent, above, n =>
    (dictObject f file n).bind fun d =>
      if optionalEntry b!"Parent" d refNumber = some parent then
        (readFieldState above d).bind fun s =>
          match optionalEntry b!"Kids" d refArray with
          | none => none
          | some none =>
            if d.all fun e => e.1 != b!"Subtype" then some [s.field n []] else (widgetOf annots n d).map fun w => [s.field n [w]]
          | some (some ks) => (readEach (isField f file) ks).bind fun bs =>
            if bs.all (· == false) then (readEach (readWidget f file annots n) ks).map fun ws => [s.field n ws]
            else if bs.all (· == true) then collect (readFields f file annots depth (some n) s) ks
            else none
      else none

/-- The annotations of a page. -/
def pageAnnots (f : FileEnd) (file : Bytes) (n : Nat) : Option (List Nat) :=
  (dictObject f file n).bind fun d => (optionalEntry b!"Annots" d refArray).map fun l => l.getD []

/-- The form dictionary of the catalog (Tables 28 and 218): the numbers of the fields at the top. -/
def readForm (f : FileEnd) (file : Bytes) (d : List (Bytes × Val)) : Option (List Nat) :=
  (optionalEntry b!"AcroForm" d (followDict f file)).bind fun form =>
    match form with
    | none => some []
    | some fd => (lookup b!"Fields" fd).bind refArray

/-- The fields of the form of a file. `depth` bounds the depth of the page tree, `fieldDepth` that of the fields. -/
def fileFields (unf : Val → Bytes → Option Bytes) (file : Bytes) (depth fieldDepth : Nat) : Option (List ReadField) :=
  (readFile unf file).bind fun f => (readCatalog f file).bind fun d => (lookup b!"Pages" d).bind refNumber |>.bind fun p =>
    (readPageNumbers f file depth p).bind fun ns => (readEach (pageAnnots f file) ns).bind fun annots =>
      (readForm f file d).bind fun tops => collect (readFields f file annots fieldDepth none ReadState.top) tops

/-! ## The form that was asked for -/

/-- A value as given to the API. -/
inductive GivenValue where
  | checkbox (s : CheckBoxState)
  | radio (n : Bytes)
  | text (t : List Char)
  | choice (t : Option (List Char))
  | choices (ts : List (List Char))

/-- The method that sets it. -/
def GivenValue.call : GivenValue → FieldCall
  | .checkbox s => .checkboxValue s
  | .radio n => .radioValue n
  | .text t => .textValue (.plain t)
  | .choice t => .choiceValue t
  | .choices ts => .choiceValues ts

/-- The method that sets it as the default. -/
def GivenValue.defaultCall : GivenValue → FieldCall
  | .checkbox s => .checkboxDefaultValue s
  | .radio n => .radioDefaultValue n
  | .text t => .textDefaultValue (.plain t)
  | .choice t => .choiceDefaultValue t
  | .choices ts => .choiceDefaultValues ts

/-- The value it stands for; choosing nothing is no value. -/
def GivenValue.value : GivenValue → Option FieldValue
  | .checkbox s => some (.name (isoCheckBoxState s))
  | .radio n => some (.name n)
  | .text t => some (.text t)
  | .choice t => t.map .text
  | .choices ts => some (.texts ts)

/-- What a field says about itself. -/
structure OwnField where
  name : Option (List Char)
  type : Option FieldType
  flags : Option (List FieldFlag)
  value : Option GivenValue
  default : Option GivenValue

/-- The calls say this and no other about name, type, flags, value and default value. -/
structure OwnField.Set (calls : List FieldCall) (o : OwnField) : Prop where
  name : MaybeCall (FieldMeans .code) b!"T" calls o.name .partialName
  type : MaybeCall (FieldMeans .code) b!"FT" calls o.type .fieldType
  flags : MaybeCall (FieldMeans .code) b!"Ff" calls o.flags .fieldFlags
  value : MaybeCall (FieldMeans .code) b!"V" calls o.value GivenValue.call
  default : MaybeCall (FieldMeans .code) b!"DV" calls o.default GivenValue.defaultCall

/-- The field was made a widget with these calls, and these set its rectangle. -/
structure WidgetSet (calls : List FieldCall) (annot : List AnnotationCall) (r : Rect) : Prop where
  subtype : OnlyCall (FieldMeans .code) b!"Subtype" calls (.intoAnnotation annot)
  noSubtype : NoCall (AnnotationMeans .code) b!"Subtype" annot
  rect : OnlyCall (FieldMeans .code) b!"Rect" calls (.intoAnnotation annot)
  rectCall : OnlyCall (AnnotationMeans .code) b!"Rect" annot (.rect r)

/-- A widget below a field: written as a field that is only a widget. -/
structure WidgetPart where
  id : Ref
  calls : List FieldCall
  annot : List AnnotationCall
  rect : Rect

/-- A field as given to the API: with fields below it, with widgets below it, as its own widget, or without any widget. -/
inductive FieldTree where
  | node (id : Ref) (calls : List FieldCall) (own : OwnField) (kids : List FieldTree)
  | widgets (id : Ref) (calls : List FieldCall) (own : OwnField) (ws : List WidgetPart)
  | merged (id : Ref) (calls : List FieldCall) (own : OwnField) (annot : List AnnotationCall) (rect : Rect)
  | invisible (id : Ref) (calls : List FieldCall) (own : OwnField)

def FieldTree.id : FieldTree → Ref
  | .node id .. => id
  | .widgets id .. => id
  | .merged id .. => id
  | .invisible id .. => id

def FieldTree.own : FieldTree → OwnField
  | .node _ _ o _ => o
  | .widgets _ _ o _ => o
  | .merged _ _ o _ _ => o
  | .invisible _ _ o => o

mutual
def FieldTree.depth : FieldTree → Nat
  | .node _ _ _ kids => 1 + fieldsDepth kids
  | _ => 1
termination_by structural t => t
def fieldsDepth : List FieldTree → Nat
  | [] => 0
  | t :: ts => Max.max t.depth (fieldsDepth ts)
termination_by structural t => t
end

/-- The field itself was written, and points to the field above it. -/
def FieldWritten (items : List Item) (parent : Option Ref) (id : Ref) (calls : List FieldCall) (own : OwnField) : Prop :=
  HasObject items id (.val (Field.prog calls)) ∧ own.Set calls ∧ MaybeCall (FieldMeans .code) b!"Parent" calls parent .parent

/-- The widget was written. -/
def WidgetPart.Written (items : List Item) (parent : Ref) (w : WidgetPart) : Prop :=
  HasObject items w.id (.val (Field.prog w.calls)) ∧ NoCall (FieldMeans .code) b!"T" w.calls ∧
    OnlyCall (FieldMeans .code) b!"Parent" w.calls (.parent parent) ∧ WidgetSet w.calls w.annot w.rect

mutual
/-- The field was written with all that is below it; fields below a field have names. -/
def FieldTree.Written (items : List Item) (parent : Option Ref) : FieldTree → Prop
  | .node id calls own kids => FieldWritten items parent id calls own ∧ kids ≠ [] ∧ (∀ k ∈ kids, k.own.name ≠ none) ∧
      OnlyCall (FieldMeans .code) b!"Kids" calls (.children (kids.map FieldTree.id)) ∧ fieldsWritten items id kids
  | .widgets id calls own ws => FieldWritten items parent id calls own ∧
      OnlyCall (FieldMeans .code) b!"Kids" calls (.children (ws.map WidgetPart.id)) ∧ ∀ w ∈ ws, w.Written items id
  | .merged id calls own annot rect => FieldWritten items parent id calls own ∧ NoCall (FieldMeans .code) b!"Kids" calls ∧ WidgetSet calls annot rect
  | .invisible id calls own => FieldWritten items parent id calls own ∧ NoCall (FieldMeans .code) b!"Kids" calls ∧
      NoCall (FieldMeans .code) b!"Subtype" calls
termination_by structural t => t
def fieldsWritten (items : List Item) (parent : Ref) : List FieldTree → Prop
  | [] => True
  | t :: ts => t.Written items (some parent) ∧ fieldsWritten items parent ts
termination_by structural t => t
end

/-- The form was written: in place, or as an object to which the catalog refers; or there is none. -/
def FormWritten (items : List Item) (cat : List CatalogCall) (tops : List FieldTree) : Prop :=
  (tops = [] ∧ NoCall (CatalogMeans .code) b!"AcroForm" cat) ∨
  ∃ form, OnlyCall FormMeans b!"Fields" form (.fields (tops.map FieldTree.id)) ∧
    (OnlyCall (CatalogMeans .code) b!"AcroForm" cat (.form form) ∨
     ∃ id, OnlyCall (CatalogMeans .code) b!"AcroForm" cat (.raw b!"AcroForm" (.prim (.ref id))) ∧ HasObject items id (.val (Form.prog form)))

/-- A page with these calls has these annotations. -/
def AnnotsSet (page : List PageCall) (annots : List Ref) : Prop :=
  (annots = [] ∧ NoCall (PageMeans .code) b!"Annots" page) ∨ OnlyCall (PageMeans .code) b!"Annots" page (.annotations annots)

/-- What is said about a terminal field, by itself or by those above it. -/
structure WantedField where
  id : Ref
  names : List (List Char)
  type : Option FieldType
  flags : List FieldFlag
  value : Option FieldValue
  default : Option FieldValue
  widgets : List (Ref × Rect)

/-- What is said above. -/
structure Above where
  names : List (List Char)
  type : Option FieldType
  flags : Option (List FieldFlag)
  value : Option FieldValue
  default : Option FieldValue

/-- A field overrides what is said above it. -/
def OwnField.below (o : OwnField) (a : Above) : Above :=
  ⟨a.names ++ o.name.toList, o.type.or a.type, o.flags.or a.flags, (o.value.bind GivenValue.value).or a.value,
    (o.default.bind GivenValue.value).or a.default⟩

def Above.wanted (a : Above) (id : Ref) (ws : List (Ref × Rect)) : WantedField := ⟨id, a.names, a.type, a.flags.getD [], a.value, a.default, ws⟩

mutual
/-- The terminal fields, in order. -/
def FieldTree.wanted (a : Above) : FieldTree → List WantedField
  | .node _ _ o kids => wantedFields (o.below a) kids
  | .widgets id _ o ws => [(o.below a).wanted id (ws.map fun w => (w.id, w.rect))]
  | .merged id _ o _ rect => [(o.below a).wanted id [(id, rect)]]
  | .invisible id _ o => [(o.below a).wanted id []]
termination_by structural t => t
def wantedFields (a : Above) : List FieldTree → List WantedField
  | [] => []
  | t :: ts => t.wanted a ++ wantedFields a ts
termination_by structural t => t
end

/-- The widget read is the one wanted: its number, its rectangle and the first page that lists it. -/
def WidgetReads (annots : List (List Ref)) (w : Ref × Rect) (r : ReadWidget) : Prop :=
  r.number = w.1.get.toNat ∧ IsRect w.2 r.rect ∧ r.page = annots.findIdx? fun l => decide (w.1 ∈ l)

/-- The field read is the one wanted. -/
structure FieldReads (annots : List (List Ref)) (w : WantedField) (r : ReadField) : Prop where
  number : r.number = w.id.get.toNat
  name : r.name = qualified w.names
  type : r.type = w.type.map isoFieldType
  flags : ∀ i, r.flags.testBit i = true ↔ i + 1 ∈ w.flags.map isoFieldFlag
  value : r.value = w.value
  default : r.default = w.default
  widgets : Pairwise (WidgetReads annots) w.widgets r.widgets

end PdfW.Spec
