import Verif.Spec.Display
import Verif.Spec.Fields
import Verif.Spec.Properties

/-!
# Annotations (ISO 32000-1, 12.5)

A reader that is given only the bytes of a file and obtains the annotations of every page: their data (Tables 164, 170, 172, 175, 179), and
what their appearances paint (12.5.5): each appearance stream is a form, run by the machine of `Spec/Display.lean`. It knows nothing about the
writer.

Border styles and appearance characteristics are those of `Spec/Borders.lean`; actions of links are those of `Spec/Navigate.lean`, and
fields those of `Spec/Fields.lean`. The entry T is the author of a markup annotation; in a widget it is the name of the field.
-/

namespace PdfW.Spec
open PdfW Imaging

/-! ## The reader -/

/-- An appearance (Table 168): an appearance stream, or one for each appearance state; with the number of the object and what it paints. -/
inductive ReadLook where
  | single (number : Nat) (elements : List (Element Val Val))
  | states (looks : List (Bytes × Nat × List (Element Val Val)))

/-- An annotation. -/
structure ReadAnnot where
  number : Nat
  subtype : Bytes
  rect : List Val
  flags : Nat
  contents : Option (List Char)
  author : Option (List Char)
  subject : Option (List Char)
  name : Option (List Char)
  modified : Option DateVal
  page : Option Nat
  structParent : Option Int
  icon : Option Bytes
  highlight : Option Bytes
  color : Option (List Val)
  quads : Option (List Val)
  line : Option (List Val)
  border : Option (List Val)
  state : Option Bytes
  normal : Option ReadLook
  rollover : Option ReadLook
  down : Option ReadLook

/-- What an appearance stream paints (12.5.5): it is a form (8.10), with its own resources. -/
def readAppearance (unf : Val → Bytes → Option Bytes) (f : FileEnd) (file : Bytes) (forms : Nat) (n : Nat) : Option (List (Element Val Val)) :=
  match f.object file n with
  | some (.stream d _) =>
    if (lookup b!"Subtype" d).bind nameOf = some b!"Form" then
      (optionalEntry b!"Matrix" d itemsOf).bind fun matrix => ((lookup b!"BBox" d).bind itemsOf).bind fun box =>
        (effectiveResources none d).bind fun res => (decodedStream unf f file n).bind fun data =>
          (readContent data).bind fun ops => (readAllActs ops).bind fun acts =>
            display ⟨.name, namedValue f file res, displayObject unf f file forms res⟩ (blank (inside matrix box (initial .name))) acts
    else none
  | _ => none

/-- An appearance: a reference to a stream, or a dictionary of such references. -/
def readLook (unf : Val → Bytes → Option Bytes) (f : FileEnd) (file : Bytes) (forms : Nat) : Val → Option ReadLook
  | .dict es => (readEach (fun e : Bytes × Val => (refNumber e.2).bind fun n => (readAppearance unf f file forms n).map fun l => (e.1, n, l)) es).map .states
  | v => (refNumber v).bind fun n => (readAppearance unf f file forms n).map (.single n)

/-- The appearances (Table 168). -/
def readLooks (unf : Val → Bytes → Option Bytes) (f : FileEnd) (file : Bytes) (forms : Nat) (d : List (Bytes × Val)) :
    Option (Option ReadLook × Option ReadLook × Option ReadLook) :=
  (optionalEntry b!"AP" d (followDict f file)).bind fun ap =>
    (optionalEntry b!"N" (ap.getD []) (readLook unf f file forms)).bind fun n => (optionalEntry b!"R" (ap.getD []) (readLook unf f file forms)).bind fun r =>
      (optionalEntry b!"D" (ap.getD []) (readLook unf f file forms)).map fun d => (n, r, d)

/-- An annotation dictionary. -/
def readAnnot (unf : Val → Bytes → Option Bytes) (f : FileEnd) (file : Bytes) (forms : Nat) (n : Nat) : Option ReadAnnot :=
  (dictObject f file n).bind fun d => ((lookup b!"Subtype" d).bind nameOf).bind fun subtype => ((lookup b!"Rect" d).bind itemsOf).bind fun rect =>
    (optionalEntry b!"F" d flagsOf).bind fun flags => (optionalEntry b!"Contents" d readText).bind fun contents =>
    (if subtype = b!"Widget" then some none else optionalEntry b!"T" d readText).bind fun author =>
    (optionalEntry b!"Subj" d readText).bind fun subject => (optionalEntry b!"NM" d readText).bind fun name =>
    (optionalEntry b!"M" d dateOf).bind fun modified => (optionalEntry b!"P" d refNumber).bind fun page =>
    (optionalEntry b!"StructParent" d intOf).bind fun structParent => (optionalEntry b!"Name" d nameOf).bind fun icon =>
    (optionalEntry b!"H" d nameOf).bind fun highlight => (optionalEntry b!"C" d itemsOf).bind fun color =>
    (optionalEntry b!"QuadPoints" d itemsOf).bind fun quads => (optionalEntry b!"L" d itemsOf).bind fun line =>
    (optionalEntry b!"Border" d itemsOf).bind fun border => (optionalEntry b!"AS" d nameOf).bind fun state =>
    (readLooks unf f file forms d).map fun looks =>
      ⟨n, subtype, rect, flags.getD 0, contents, author, subject, name, modified, page, structParent, icon, highlight, color, quads, line, border,
        state, looks.1, looks.2.1, looks.2.2⟩

/-- The annotations of the pages of a file, page by page. `depth` bounds the depth of the page tree, `forms` how deep forms are nested in
appearance streams. -/
def fileAnnots (unf : Val → Bytes → Option Bytes) (file : Bytes) (depth forms : Nat) : Option (List (List ReadAnnot)) :=
  (readFile unf file).bind fun f => (readCatalog f file).bind fun d => (lookup b!"Pages" d).bind refNumber |>.bind fun p =>
    (readPageNumbers f file depth p).bind (readEach fun n => (pageAnnots f file n).bind (readEach (readAnnot unf f file forms)))

/-! ## What was asked for -/

/-- An appearance stream as given to the API, and what it should paint. -/
structure GivenStream where
  form : FormPart
  elements : List (Element F32 Prog)

/-- It was written, and the calls on its `Content` paint these elements in the form's own coordinate system, restricted to its box. -/
def GivenStream.Written (unf : Val → Bytes → Option Bytes) (items : List Item) (forms : Nat) (g : GivenStream) : Prop :=
  g.form.Written unf items ∧ ∃ (res : Option (List ResourcesCall)) (matrix : Option (List F32)) (r : Rect),
    ResourcesSet FormXObjectMeans .resources (fun k v => .stream (.raw k v)) items g.form.calls none res ∧
    MaybeCall FormXObjectMeans b!"Matrix" g.form.calls matrix .matrix ∧ OnlyCall FormXObjectMeans b!"BBox" g.form.calls (.bbox r) ∧
    Displays unf items forms res (inside matrix [r.x1, r.y1, r.x2, r.y2] (initial fun n => .prim (.name n))) g.form.content g.elements

/-- An appearance as given to the API. -/
inductive GivenLook where
  | single (s : GivenStream)
  | states (l : List (Bytes × GivenStream))

/-- The streams. -/
def GivenLook.streams : GivenLook → List GivenStream
  | .single s => [s]
  | .states l => l.map Prod.snd

/-- What is given to `AppearanceEntry`. -/
def GivenLook.entry : GivenLook → AppearanceEntry
  | .single s => .stream s.form.id
  | .states l => .streams (l.map fun e => (e.1, e.2.form.id))

/-- Colors of annotations. -/
inductive GivenColor where
  | transparent
  | gray (g : F32)
  | rgb (r g b : F32)
  | cmyk (c m y k : F32)

/-- The method that sets it. -/
def GivenColor.call : GivenColor → AnnotationCall
  | .transparent => .colorTransparent
  | .gray g => .colorGray g
  | .rgb r g b => .colorRgb r g b
  | .cmyk c m y k => .colorCmyk c m y k

/-- Its components (Table 164, C). -/
def GivenColor.components : GivenColor → List F32
  | .transparent => []
  | .gray g => [g]
  | .rgb r g b => [r, g, b]
  | .cmyk c m y k => [c, m, y, k]

/-- A border: corner radii, width, and perhaps a dash pattern. -/
structure GivenBorder where
  horizontal : F32
  vertical : F32
  width : F32
  dashes : Option (List F32)

/-- The two ends of a line. -/
structure GivenLine where
  x1 : F32
  y1 : F32
  x2 : F32
  y2 : F32

/-- How an annotation was written: through `Annotation`, or as a field that was made a widget by `into_annotation`. -/
inductive AnnotSource where
  | annotation (calls : List AnnotationCall)
  | widget (field : List FieldCall) (calls : List AnnotationCall)

/-- The dictionary. -/
def AnnotSource.body : AnnotSource → Prog
  | .annotation calls => Annotation.prog calls
  | .widget field _ => Field.prog field

/-- The entry is set by this call on the `Annotation`, or not at all. -/
def AnnotSource.Sets {β : Type} (s : AnnotSource) (key : Bytes) (x : Option β) (c : β → AnnotationCall) : Prop :=
  match s, x with
  | .annotation calls, x => MaybeCall (AnnotationMeans .code) key calls x c
  | .widget field _, none => NoCall (FieldMeans .code) key field
  | .widget field calls, some b => OnlyCall (FieldMeans .code) key field (.intoAnnotation calls) ∧ OnlyCall (AnnotationMeans .code) key calls (c b)

/-- The type of the annotation; `into_annotation` makes it a widget. -/
def AnnotSource.HasType (s : AnnotSource) (kind : AnnotationType) : Prop :=
  match s with
  | .annotation calls => OnlyCall (AnnotationMeans .code) b!"Subtype" calls (.subtype kind)
  | .widget field calls => kind = .widget ∧ OnlyCall (FieldMeans .code) b!"Subtype" field (.intoAnnotation calls) ∧
      NoCall (AnnotationMeans .code) b!"Subtype" calls

/-- An annotation as given to the API. -/
structure GivenAnnot where
  id : Ref
  source : AnnotSource
  kind : AnnotationType
  rect : Rect
  flags : Option (List AnnotationFlag)
  contents : Option (List Char)
  author : Option (List Char)
  subject : Option (List Char)
  name : Option (List Char)
  modified : Option Date
  page : Option Ref
  structParent : Option Int
  icon : Option AnnotationIcon
  highlight : Option HighlightEffect
  color : Option GivenColor
  quads : Option (List F32)
  line : Option GivenLine
  border : Option GivenBorder
  state : Option Bytes
  appearance : Option (List AppearanceCall)
  normal : Option GivenLook
  rollover : Option GivenLook
  down : Option GivenLook

/-- It was written: each entry by the one call that sets it, and all appearance streams. -/
structure GivenAnnot.Written (unf : Val → Bytes → Option Bytes) (items : List Item) (forms : Nat) (g : GivenAnnot) : Prop where
  object : HasObject items g.id (.val g.source.body)
  kind : g.source.HasType g.kind
  rect : g.source.Sets b!"Rect" (some g.rect) .rect
  flags : g.source.Sets b!"F" g.flags .flags
  contents : g.source.Sets b!"Contents" g.contents fun t => .contents (.plain t)
  author : if g.kind = .widget then g.author = none else g.source.Sets b!"T" g.author fun t => .author (.plain t)
  subject : g.source.Sets b!"Subj" g.subject fun t => .subject (.plain t)
  name : g.source.Sets b!"NM" g.name fun t => .name (.plain t)
  modified : g.source.Sets b!"M" g.modified .modified
  page : g.source.Sets b!"P" g.page .page
  structParent : g.source.Sets b!"StructParent" g.structParent .structParent
  icon : g.source.Sets b!"Name" g.icon .icon
  highlight : g.source.Sets b!"H" g.highlight .highlight
  color : g.source.Sets b!"C" g.color GivenColor.call
  quads : g.source.Sets b!"QuadPoints" g.quads .quadPoints
  line : g.source.Sets b!"L" g.line fun l => .lineTo l.x1 l.y1 l.x2 l.y2
  border : g.source.Sets b!"Border" g.border fun b => .border b.horizontal b.vertical b.width b.dashes
  state : g.source.Sets b!"AS" g.state .appearanceState
  appearance : g.source.Sets b!"AP" g.appearance .appearance
  normal : MaybeCall AppearanceMeans b!"N" (g.appearance.getD []) (g.normal.map GivenLook.entry) .normal
  rollover : MaybeCall AppearanceMeans b!"R" (g.appearance.getD []) (g.rollover.map GivenLook.entry) .rollover
  down : MaybeCall AppearanceMeans b!"D" (g.appearance.getD []) (g.down.map GivenLook.entry) .alternate
  looks : ∀ l ∈ g.normal.toList ++ g.rollover.toList ++ g.down.toList, ∀ s ∈ l.streams, s.Written unf items forms

/-- The page lists these annotations, and they were written. -/
def AnnotsGiven (unf : Val → Bytes → Option Bytes) (items : List Item) (forms : Nat) (page : List PageCall) (gs : List GivenAnnot) : Prop :=
  AnnotsSet page (gs.map GivenAnnot.id) ∧ ∀ g ∈ gs, g.Written unf items forms

/-! ## What is read is what was asked for -/

/-- The appearance read is the one given. -/
inductive LookReads : GivenLook → ReadLook → Prop
  | single {s n es} : n = s.form.id.get.toNat → Pairwise (SameElement NumIs Denotes) s.elements es → LookReads (.single s) (.single n es)
  | states {l rs} : Pairwise (fun (e : Bytes × GivenStream) (r : Bytes × Nat × List (Element Val Val)) => r.1 = e.1 ∧ r.2.1 = e.2.form.id.get.toNat ∧
      Pairwise (SameElement NumIs Denotes) e.2.elements r.2.2) l rs → LookReads (.states l) (.states rs)

/-- The annotation read is the one given. -/
structure AnnotReads (g : GivenAnnot) (r : ReadAnnot) : Prop where
  number : r.number = g.id.get.toNat
  subtype : r.subtype = isoAnnotationType g.kind
  rect : Pairwise NumIs [g.rect.x1, g.rect.y1, g.rect.x2, g.rect.y2] r.rect
  flags : ∀ i, r.flags.testBit i = true ↔ i + 1 ∈ (g.flags.getD []).map isoAnnotationFlag
  contents : r.contents = g.contents
  author : r.author = g.author
  subject : r.subject = g.subject
  name : r.name = g.name
  modified : r.modified = g.modified.map expectedDate
  page : r.page = g.page.map fun x => x.get.toNat
  structParent : r.structParent = g.structParent
  icon : r.icon = g.icon.map isoAnnotationIcon
  highlight : r.highlight = g.highlight.map isoHighlightEffect
  color : BothOrNone (fun c vs => Pairwise NumIs c.components vs) g.color r.color
  quads : BothOrNone (Pairwise NumIs) g.quads r.quads
  line : BothOrNone (fun l vs => Pairwise NumIs [l.x1, l.y1, l.x2, l.y2] vs) g.line r.line
  border : BothOrNone (fun b vs => ItemsAre ([NumIs b.horizontal, NumIs b.vertical, NumIs b.width] ++
    (b.dashes.map fun p => ArrayIs (p.map fun x => NumIs x)).toList) vs) g.border r.border
  state : r.state = g.state
  normal : BothOrNone LookReads g.normal r.normal
  rollover : BothOrNone LookReads g.rollover r.rollover
  down : BothOrNone LookReads g.down r.down

end PdfW.Spec
