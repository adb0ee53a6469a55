import Verif.Spec.Navigate
import Verif.Spec.Typed.XObject

/-!
# Text with forms and marked content (ISO 32000-1, 8.10, 14.6 and 14.7.4)

A reader that is given only the bytes of a file and obtains the text of every page including that of the form XObjects painted on
it, and for every character code the marked-content sequence it belongs to: the innermost one around it that has an identifier
(MCID), with the stream in which the identifier is valid. It knows nothing about the writer.

It extends the reader of `Spec/Extract.lean`: `Do` paints an XObject, `BMC` and `BDC` begin a marked-content sequence, `EMC` ends one.
-/

namespace PdfW.Spec
open PdfW

/-! ## The reader -/

/-- A marked-content identifier (14.7.4.2), and the form XObject in which it is valid (14.7.4.2, Stm; none for the content of the page). -/
structure Mark where
  stream : Option Nat
  mcid : Int
deriving DecidableEq

/-- A character code shown: the marked-content sequence to which it belongs, and its text. -/
abbrev Shown := Option Mark × Option (List Char)

/-- What the operators of a stream refer to: fonts, graphics states, property lists, and what painting an XObject with a font selected
and in a marked-content sequence shows. -/
structure Scene where
  stream : Option Nat
  font : Bytes → Option FontText
  gstate : Bytes → Option (List (Bytes × Val))
  props : Bytes → Option (List (Bytes × Val))
  xobject : Bytes → Option FontText → Option Mark → Option (List Shown)

/-- The innermost sequence with an identifier, else the one around the stream. -/
def innermost (base : Option Mark) : List (Option Mark) → Option Mark
  | [] => base
  | some m :: _ => some m
  | none :: ms => innermost base ms

/-- The identifier in a property list, if there is one (Table 324, MCID). -/
def markIn (s : Scene) (d : List (Bytes × Val)) : Option (Option Mark) :=
  (optionalEntry b!"MCID" d intOf).map fun m => m.map fun i => ⟨s.stream, i⟩

/-- The identifier of a marked-content sequence, from the operands of `BDC` (Table 320): a tag, and a property list or its name in the
resources. -/
def markOf (s : Scene) : List Val → Option (Option Mark)
  | [.name _, .dict d] => markIn s d
  | [.name _, .name n] => (s.props n).bind (markIn s)
  | _ => none

/-- Text that belongs to a marked-content sequence. -/
def shownIn (m : Option Mark) (text : PageText) : List Shown := text.map fun x => (m, x)

/-- Interpret the operators that matter, given the font selected, those saved, and the marked-content sequences that are open. -/
def interpret (s : Scene) (base : Option Mark) :
    Option FontText → List (Option FontText) → List (Option Mark) → List ReadOp → Option (List Shown)
  | _, _, _, [] => some []
  | cur, saved, marks, (k, args) :: ops =>
    if k = b!"Tf" then
      match args with
      | [.name n, _] => (s.font n).bind fun t => interpret s base (some t) saved marks ops
      | _ => none
    else if k = b!"q" then interpret s base cur (cur :: saved) marks ops
    else if k = b!"Q" then
      match saved with
      | [] => interpret s base cur [] marks ops
      | c :: saved => interpret s base c saved marks ops
    else if k = b!"gs" then
      match args with
      | [.name n] => (s.gstate n).bind fun d => if d.all (fun e => e.1 != b!"Font") then interpret s base cur saved marks ops else none
      | _ => none
    else if k = b!"Tj" ∨ k = b!"'" then
      match args with
      | [.str t] => (shownText cur t).bind fun a => (interpret s base cur saved marks ops).map (shownIn (innermost base marks) a ++ ·)
      | _ => none
    else if k = b!"\"" then
      match args with
      | [_, _, .str t] => (shownText cur t).bind fun a => (interpret s base cur saved marks ops).map (shownIn (innermost base marks) a ++ ·)
      | _ => none
    else if k = b!"TJ" then
      match args with
      | [.arr vs] => (shownArray cur vs).bind fun a => (interpret s base cur saved marks ops).map (shownIn (innermost base marks) a ++ ·)
      | _ => none
    else if k = b!"BMC" then interpret s base cur saved (none :: marks) ops
    else if k = b!"BDC" then (markOf s args).bind fun m => interpret s base cur saved (m :: marks) ops
    else if k = b!"EMC" then
      match marks with
      | [] => none
      | _ :: marks => interpret s base cur saved marks ops
    else if k = b!"Do" then
      match args with
      | [.name n] => (s.xobject n cur (innermost base marks)).bind fun a => (interpret s base cur saved marks ops).map (a ++ ·)
      | _ => none
    else interpret s base cur saved marks ops

/-- The number of the object to which a resource of a category refers. -/
def resourceNumber (f : FileEnd) (file : Bytes) (resources : Option Val) (category name : Bytes) : Option Nat :=
  resources.bind fun r => (followDict f file r).bind fun d => (lookup category d).bind fun c => (followDict f file c).bind fun es =>
    (lookup name es).bind refNumber

/-- What operators refer to, given the resources. An image shows no text. A form (8.10.1) is a content stream of its own with its own
resources (or those of the stream that paints it); it starts with the graphics state of the stream that paints it. `forms` bounds how deep
forms are nested. -/
def sceneOf (unf : Val → Bytes → Option Bytes) (f : FileEnd) (file : Bytes) : Nat → Option Nat → Option Val → Scene
  | forms, stream, resources =>
    { stream := stream
      font := fun n => (namedResource f file resources b!"Font" n).bind (readFontText unf f file)
      gstate := namedResource f file resources b!"ExtGState"
      props := namedResource f file resources b!"Properties"
      xobject := fun name cur mark =>
        match forms with
        | 0 => none
        | forms + 1 =>
          (resourceNumber f file resources b!"XObject" name).bind fun n =>
            match f.object file n with
            | some (.stream d _) =>
              match lookup b!"Subtype" d with
              | some (.name t) =>
                if t = b!"Image" then some []
                else if t = b!"Form" then
                  (effectiveResources resources d).bind fun res => (decodedStream unf f file n).bind fun data => (readContent data).bind fun ops =>
                    interpret (sceneOf unf f file forms (some n) res) mark cur [] [] ops
                else none
              | _ => none
            | _ => none }

/-- Apply a reader to every page below a node of the page tree, in order: it is given the number of the page, the resources in effect and
the dictionary. -/
def readPagesWith {α : Type} (page : Nat → Option Val → List (Bytes × Val) → Option α) (f : FileEnd) (file : Bytes) :
    Nat → Option Val → Nat → Option (List α)
  | 0, _, _ => none
  | depth + 1, inherited, n =>
    match f.object file n with
    | some (.val (.dict d)) =>
      (effectiveResources inherited d).bind fun resources =>
        match lookup b!"Type" d with
        | some (.name t) =>
          if t = b!"Page" then (page n resources d).map fun x => [x]
          else if t = b!"Pages" then
            match lookup b!"Kids" d with
            | some (.arr vs) => (refNumbers vs).bind (collect (readPagesWith page f file depth resources))
            | _ => none
          else none
        | _ => none
    | _ => none

/-- What is shown on a page. -/
def readPageShown (unf : Val → Bytes → Option Bytes) (f : FileEnd) (file : Bytes) (forms : Nat) (_ : Nat) (resources : Option Val)
    (d : List (Bytes × Val)) : Option (List Shown) :=
  (pageOperations unf f file d).bind (interpret (sceneOf unf f file forms none resources) none none [] [])

/-- What is shown on the pages of a document, page by page. -/
def readShown (unf : Val → Bytes → Option Bytes) (f : FileEnd) (file : Bytes) (depth forms : Nat) : Option (List (List Shown)) :=
  (readCatalog f file).bind fun d => (lookup b!"Pages" d).bind refNumber |>.bind fun p =>
    readPagesWith (readPageShown unf f file forms) f file depth none p

/-- What is shown on the pages of a file. -/
def fileShown (unf : Val → Bytes → Option Bytes) (file : Bytes) (depth forms : Nat) : Option (List (List Shown)) :=
  (readFile unf file).bind fun f => readShown unf f file depth forms

/-! ## What was asked for -/

/-- The entry a call on a property list stands for. -/
def PropMeans (c : PropCall) : List (Bytes × (Val → Prop)) := [((propEntry c).1, Denotes (propEntry c).2)]

/-- The identifier set by the calls on a property list, if there is one. -/
def McidSet (calls : List PropCall) (mcid : Option Int) : Prop := MaybeCall PropMeans b!"MCID" calls mcid .identify

/-- The property list is in the resources under this name. -/
def PropsWritten (res : Option (List ResourcesCall)) (name : Bytes) (calls : List PropCall) : Prop :=
  ∃ rc es, res = some rc ∧ OnlyCall ResourcesMeans b!"Properties" rc (.properties es) ∧ es.filter (fun e => e.1 == name) = [(name, calls)]

/-- The name refers to this object among the XObjects of the resources. -/
def XObjectNamed (items : List Item) (res : Option (List ResourcesCall)) (name : Bytes) (id : Ref) : Prop :=
  ∃ rc es, res = some rc ∧ CategorySet items rc b!"XObject" .xObjects es ∧ es.filter (fun e => e.1 == name) = [(name, .prim (.ref id))]

/-- A form XObject as given to the API: the calls on the writer, its data, and the operations issued with the setting of the `Content`. -/
structure FormPart where
  id : Ref
  calls : List FormXObjectCall
  data : Bytes
  pretty : Bool
  content : List ContentCall

/-- The form was written with this content. -/
structure FormPart.Written (unf : Val → Bytes → Option Bytes) (items : List Item) (p : FormPart) : Prop where
  object : HasObject items p.id (.stream (FormXObject.entries p.calls) p.data)
  subtype : NoCall FormXObjectMeans b!"Subtype" p.calls
  stored : ∃ content, runCalls p.content (Content.withSettings p.pretty) = some content ∧
    ((NoCall FormXObjectMeans b!"Filter" p.calls ∧ p.data = content.finish.inner) ∨
     ∃ flt, OnlyCall FormXObjectMeans b!"Filter" p.calls (.stream (.filter flt)) ∧ unf (.name (isoFilter flt)) p.data = some content.finish.inner)
  ok : ∀ k ∈ p.content, CallOk k
  clash : p.pretty = true ∨ ∀ k ∈ p.content, CallNoClash k

/-- Calls that neither show text nor influence which text is shown or to which marked-content sequence it belongs. -/
def Neutral : ContentCall → Prop
  | .setFont .. | .saveState | .restoreState | .setParameters _ | .show _ | .nextLineShow _ | .nextLineShowAndSetWordAndCharSpacing ..
  | .showPositioned _ | .beginMarkedContent _ | .beginMarkedContentWithProperties .. | .endMarkedContent | .xObject _ => False
  | .op name _ => name ∉ [b!"Tf", b!"q", b!"Q", b!"gs", b!"Tj", b!"'", b!"\"", b!"TJ", b!"BMC", b!"BDC", b!"EMC", b!"Do"]
  | _ => True

/-- `Draws … depth stream res base cur saved marks calls shown`: with forms nested at most `depth` deep, the calls on the `Content` of a page
(`stream = none`) or of a form show `shown`, if the resources are `res`, the stream is painted in the marked-content sequence `base`, the font
`cur` is selected, `saved` are the saved ones, and `marks` are the open marked-content sequences, the innermost first. -/
inductive Draws (unf : Val → Bytes → Option Bytes) (items : List Item) :
    Nat → Option Ref → Option (List ResourcesCall) → Option Mark → Option FontPart → List (Option FontPart) → List (Option Mark) →
    List ContentCall → List Shown → Prop
  | done {depth o res base cur saved marks} : Draws unf items depth o res base cur saved marks [] []
  | neutral {depth o res base cur saved marks c cs t} : Neutral c → Draws unf items depth o res base cur saved marks cs t →
      Draws unf items depth o res base cur saved marks (c :: cs) t
  | font {depth o res base cur saved marks size cs t} (p : FontPart) : FontWritten unf items res p →
      Draws unf items depth o res base (some p) saved marks cs t →
      Draws unf items depth o res base cur saved marks (.setFont p.name size :: cs) t
  | save {depth o res base cur saved marks cs t} : Draws unf items depth o res base cur (cur :: saved) marks cs t →
      Draws unf items depth o res base cur saved marks (.saveState :: cs) t
  | restore {depth o res base cur c saved marks cs t} : Draws unf items depth o res base c saved marks cs t →
      Draws unf items depth o res base cur (c :: saved) marks (.restoreState :: cs) t
  | restoreNone {depth o res base cur marks cs t} : Draws unf items depth o res base cur [] marks cs t →
      Draws unf items depth o res base cur [] marks (.restoreState :: cs) t
  | parameters {depth o res base cur saved marks cs t} (g : GStatePart) : GStateWritten items res g →
      Draws unf items depth o res base cur saved marks cs t →
      Draws unf items depth o res base cur saved marks (.setParameters g.name :: cs) t
  | «show» {depth o res base cur saved marks s cs a t} : ShowsAs cur s a → Draws unf items depth o res base cur saved marks cs t →
      Draws unf items depth o res base cur saved marks (.show s :: cs) (shownIn (innermost base marks) a ++ t)
  | nextLineShow {depth o res base cur saved marks s cs a t} : ShowsAs cur s a → Draws unf items depth o res base cur saved marks cs t →
      Draws unf items depth o res base cur saved marks (.nextLineShow s :: cs) (shownIn (innermost base marks) a ++ t)
  | nextLineShowSpaced {depth o res base cur saved marks w x s cs a t} : ShowsAs cur s a →
      Draws unf items depth o res base cur saved marks cs t →
      Draws unf items depth o res base cur saved marks (.nextLineShowAndSetWordAndCharSpacing w x s :: cs) (shownIn (innermost base marks) a ++ t)
  | positioned {depth o res base cur saved marks its cs a t} : ShowsItems cur its a → Draws unf items depth o res base cur saved marks cs t →
      Draws unf items depth o res base cur saved marks (.showPositioned its :: cs) (shownIn (innermost base marks) a ++ t)
  | mark {depth o res base cur saved marks tag cs t} : Draws unf items depth o res base cur saved (none :: marks) cs t →
      Draws unf items depth o res base cur saved marks (.beginMarkedContent tag :: cs) t
  | markWith {depth o res base cur saved marks tag ps mcid cs t} : McidSet ps mcid →
      Draws unf items depth o res base cur saved (mcid.map (fun i => ⟨o.map fun r => r.get.toNat, i⟩) :: marks) cs t →
      Draws unf items depth o res base cur saved marks (.beginMarkedContentWithProperties tag (.dict ps) :: cs) t
  | markNamed {depth o res base cur saved marks tag n ps mcid cs t} : PropsWritten res n ps → McidSet ps mcid →
      Draws unf items depth o res base cur saved (mcid.map (fun i => ⟨o.map fun r => r.get.toNat, i⟩) :: marks) cs t →
      Draws unf items depth o res base cur saved marks (.beginMarkedContentWithProperties tag (.named n) :: cs) t
  | endMark {depth o res base cur saved m marks cs t} : Draws unf items depth o res base cur saved marks cs t →
      Draws unf items depth o res base cur saved (m :: marks) (.endMarkedContent :: cs) t
  | image {depth o res base cur saved marks n cs t} (id : Ref) (calls : List ImageXObjectCall) (data : Bytes) : XObjectNamed items res n id →
      HasObject items id (.stream (ImageXObject.entries calls) data) → NoCall ImageXObjectMeans b!"Subtype" calls →
      Draws unf items (depth + 1) o res base cur saved marks cs t →
      Draws unf items (depth + 1) o res base cur saved marks (.xObject n :: cs) t
  | form {depth o res base cur saved marks n cs a t} (p : FormPart) (res' : Option (List ResourcesCall)) : XObjectNamed items res n p.id →
      p.Written unf items → ResourcesSet FormXObjectMeans .resources (fun k v => .stream (.raw k v)) items p.calls res res' →
      Draws unf items depth (some p.id) res' (innermost base marks) cur [] [] p.content a →
      Draws unf items (depth + 1) o res base cur saved marks cs t →
      Draws unf items (depth + 1) o res base cur saved marks (.xObject n :: cs) (a ++ t)

mutual
/-- Page by page, in order: `P` relates the id of the page, its resources, the calls on the page and its operations with what is asked for. -/
def PageTree.Each {α : Type} (P : Ref → Option (List ResourcesCall) → List ContentCall → α → Prop) (items : List Item) :
    PageTree → Option (List ResourcesCall) → List α → Prop
  | .page id calls contents, inherited, xs =>
    ∃ res x, xs = [x] ∧ ResourcesSet (PageMeans .code) .resources .raw items calls inherited res ∧ P id res (contents.flatMap ContentPart.calls) x
  | .node _ calls kids, inherited, xs =>
    ∃ res, ResourcesSet PagesMeans .resources .raw items calls inherited res ∧ eachList P items kids res xs
termination_by structural t => t
def eachList {α : Type} (P : Ref → Option (List ResourcesCall) → List ContentCall → α → Prop) (items : List Item) :
    List PageTree → Option (List ResourcesCall) → List α → Prop
  | [], _, xs => xs = []
  | t :: ts, inherited, xs => ∃ a b, xs = a ++ b ∧ t.Each P items inherited a ∧ eachList P items ts inherited b
termination_by structural t => t
end

/-- What is shown on the pages of the tree. -/
def PageTree.Draw (unf : Val → Bytes → Option Bytes) (items : List Item) (forms : Nat) (t : PageTree) (shown : List (List Shown)) : Prop :=
  t.Each (fun _ res calls x => Draws unf items forms none res none none [] [] calls x) items none shown

end PdfW.Spec
