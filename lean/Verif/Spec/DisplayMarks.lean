import Verif.Spec.Display
import Verif.Spec.Tagged

/-!
# What is painted in marked-content sequences (ISO 32000-1, 14.6)

The reader of `Spec/Display.lean` with, for every element painted, the marked-content sequences around it: those of the content stream that
paints it, and for the content of a form XObject also those in which the form is painted. It knows nothing about the writer.
-/

namespace PdfW.Spec.Imaging
open PdfW Spec

/-- A marked-content sequence: the form in whose content it is (none for the content of the page), its tag, and its identifier if its property
list has one. -/
structure Sequence where
  stream : Option Nat
  tag : Bytes
  mcid : Option Int
deriving DecidableEq

/-- What operators ask for: something of the machine, or a sequence begins or ends. -/
inductive MarkEvent (N V : Type) where
  | act (a : Act N V)
  | start (s : Sequence)
  | finish

/-- Elements in these sequences. -/
def within {N V : Type} (marks : List Sequence) (es : List (Element N V)) : List (Element N V × List Sequence) := es.map fun x => (x, marks)

/-- One step of the machine, in these sequences; `object` says what painting an XObject paints in a graphics state and in sequences. -/
def stepMarks {N V : Type} (e : Env N V) (object : Bytes → GState N V → List Sequence → Option (List (Element N V × List Sequence)))
    (m : Canvas N V) (marks : List Sequence) : Act N V → Option (Canvas N V × List (Element N V × List Sequence))
  | .object n => (object n m.state marks).map fun es => (m, es)
  | a => (step e m a).map fun r => (r.1, within marks r.2)

/-- What a content stream paints, and in which sequences, the innermost first: those open in the stream, and those around it. Sequences must be
nested (14.6.1): each is ended in the stream, and none is ended that was not begun in it. -/
def displayMarks {N V : Type} (e : Env N V) (object : Bytes → GState N V → List Sequence → Option (List (Element N V × List Sequence)))
    (around : List Sequence) : Canvas N V → List Sequence → List (MarkEvent N V) → Option (List (Element N V × List Sequence))
  | _, own, [] => if own.isEmpty then some [] else none
  | m, own, .act a :: evs =>
    (stepMarks e object m (own ++ around) a).bind fun r => (displayMarks e object around r.1 own evs).map (r.2 ++ ·)
  | m, own, .start s :: evs => displayMarks e object around m (s :: own) evs
  | m, own, .finish :: evs => if own.isEmpty then none else displayMarks e object around m (own.drop 1) evs

/-! ## The reader -/

/-- A sequence, from the operands of `BDC` (Table 320): a tag, and a property list or its name in the resources. -/
def readSequence (f : FileEnd) (file : Bytes) (stream : Option Nat) (resources : Option Val) : List Val → Option Sequence
  | [.name t, .dict d] => (optionalEntry b!"MCID" d intOf).map fun m => ⟨stream, t, m⟩
  | [.name t, .name n] => (namedResource f file resources b!"Properties" n).bind fun d => (optionalEntry b!"MCID" d intOf).map fun m => ⟨stream, t, m⟩
  | _ => none

/-- The operators of marked-content sequences (Table 320), and those of the machine. -/
def readMarkEvents (f : FileEnd) (file : Bytes) (stream : Option Nat) (resources : Option Val) (op : ReadOp) : Option (List (MarkEvent Val Val)) :=
  if op.1 = b!"BMC" then
    match op.2 with
    | [.name t] => some [.start ⟨stream, t, none⟩]
    | _ => none
  else if op.1 = b!"BDC" then (readSequence f file stream resources op.2).map fun s => [.start s]
  else if op.1 = b!"EMC" then
    match op.2 with
    | [] => some [.finish]
    | _ => none
  else (readActs op).map fun as => as.map .act

/-- Those of all operators. -/
def readAllMarkEvents (f : FileEnd) (file : Bytes) (stream : Option Nat) (resources : Option Val) : List ReadOp → Option (List (MarkEvent Val Val))
  | [] => some []
  | o :: os => (readMarkEvents f file stream resources o).bind fun a => (readAllMarkEvents f file stream resources os).map (a ++ ·)

/-- What painting an XObject paints, as in `displayObject`, with the sequences. -/
def displayObjectMarks (unf : Val → Bytes → Option Bytes) (f : FileEnd) (file : Bytes) :
    Nat → Option Val → Bytes → GState Val Val → List Sequence → Option (List (Element Val Val × List Sequence))
  | forms, resources, name, g, around =>
    (resourceNumber f file resources b!"XObject" name).bind fun n =>
      match f.object file n with
      | some (.stream d _) =>
        match lookup b!"Subtype" d with
        | some (.name t) =>
          if t = b!"Image" then some [(.image n g, around)]
          else if t = b!"Form" then
            match forms with
            | 0 => none
            | forms + 1 =>
              (optionalEntry b!"Matrix" d itemsOf).bind fun matrix => ((lookup b!"BBox" d).bind itemsOf).bind fun box =>
                (effectiveResources resources d).bind fun res => (decodedStream unf f file n).bind fun data =>
                  (readContent data).bind fun ops => (readAllMarkEvents f file (some n) res ops).bind fun evs =>
                    (displayMarks ⟨.name, namedValue f file res, fun _ _ => none⟩ (displayObjectMarks unf f file forms res) around
                      (blank (inside matrix box g)) [] evs).map fun es => [(.enter n g, around)] ++ es ++ [(.leave n, around)]
          else none
        | _ => none
      | _ => none
termination_by structural forms => forms

/-- What is painted on a page, and in which sequences. -/
def readPageMarks (unf : Val → Bytes → Option Bytes) (f : FileEnd) (file : Bytes) (forms : Nat) (_ : Nat) (resources : Option Val)
    (d : List (Bytes × Val)) : Option (List (Element Val Val × List Sequence)) :=
  (pageOperations unf f file d).bind fun ops => (readAllMarkEvents f file none resources ops).bind
    (displayMarks ⟨.name, namedValue f file resources, fun _ _ => none⟩ (displayObjectMarks unf f file forms resources) []
      (blank (initial .name)) [])

/-- What is painted on the pages of a document, page by page. -/
def fileMarks (unf : Val → Bytes → Option Bytes) (file : Bytes) (depth forms : Nat) : Option (List (List (Element Val Val × List Sequence))) :=
  (readFile unf file).bind fun f => (readCatalog f file).bind fun d => (lookup b!"Pages" d).bind refNumber |>.bind fun p =>
    readPagesWith (readPageMarks unf f file forms) f file depth none p

/-- The identifier to which something in these sequences belongs: that of the innermost sequence that has one (14.7.4.2), with the stream in
which it is valid. -/
def identifierOf : List Sequence → Option Mark
  | [] => none
  | s :: ss => match s.mcid with
    | some m => some ⟨s.stream, m⟩
    | none => identifierOf ss

/-- What is painted in the sequence with this identifier. -/
def paintedIn {N V : Type} (mark : Mark) (page : List (Element N V × List Sequence)) : List (Element N V) :=
  (page.filter fun x => identifierOf x.2 == some mark).map Prod.fst

/-- The structure element to which something in these sequences belongs, given the elements to which the sequences of the page belong, in the
order of their identifiers (14.7.4.4). (Sequences of a form belong to the elements given for the form.) -/
def ownerOf {α : Type} (parents : Option (List α)) (marks : List Sequence) : Option α :=
  match parents, identifierOf marks with
  | some ps, some ⟨none, m⟩ => if m < 0 then none else ps[m.toNat]?
  | _, _ => none

/-- Everything on the pages, and the element to which it belongs. -/
def owners {N V α : Type} (pages : List (List (Element N V × List Sequence))) (parents : List (Option (List α))) :
    List (List (Element N V × Option α)) :=
  List.zipWith (fun page ps => page.map fun x => (x.1, ownerOf ps x.2)) pages parents

/-- What is painted on the pages of a file, and the numbers of the structure elements to which it belongs. -/
def fileOwners (unf : Val → Bytes → Option Bytes) (file : Bytes) (depth forms treeDepth : Nat) :
    Option (List (List (Element Val Val × Option Nat))) :=
  (fileMarks unf file depth forms).bind fun pages => (fileParents unf file depth treeDepth).map (owners pages)

/-! ## What was asked for -/

/-- What a call on the `Content` of a page (`stream = none`) or of a form asks for, given the resources. -/
inductive Asks (stream : Option Ref) (res : Option (List ResourcesCall)) : ContentCall → List (MarkEvent F32 Prog) → Prop
  | plain {tag} : Asks stream res (.beginMarkedContent tag) [.start ⟨stream.map fun r => r.get.toNat, tag, none⟩]
  | listed {tag ps mcid} : McidSet ps mcid →
      Asks stream res (.beginMarkedContentWithProperties tag (.dict ps)) [.start ⟨stream.map fun r => r.get.toNat, tag, mcid⟩]
  | named {tag n ps mcid} : PropsWritten res n ps → McidSet ps mcid →
      Asks stream res (.beginMarkedContentWithProperties tag (.named n)) [.start ⟨stream.map fun r => r.get.toNat, tag, mcid⟩]
  | finish : Asks stream res .endMarkedContent [.finish]
  | other {c} : Unrelated c → operatorOf c ∉ [b!"BMC", b!"BDC", b!"EMC"] → Asks stream res c ((acts c).map .act)

/-- What painting the XObject of this name paints in a graphics state and in sequences, as in `ObjectGiven`. -/
def ObjectMarks (unf : Val → Bytes → Option Bytes) (items : List Item) (res : Option (List ResourcesCall))
    (below : Ref → Option (List ResourcesCall) → GState F32 Prog → List Sequence → List ContentCall → List (Element F32 Prog × List Sequence) → Prop)
    (name : Bytes) (g : GState F32 Prog) (around : List Sequence) (es : List (Element F32 Prog × List Sequence)) : Prop :=
  (∃ id calls data, XObjectNamed items res name id ∧ HasObject items id (.stream (ImageXObject.entries calls) data) ∧
    NoCall ImageXObjectMeans b!"Subtype" calls ∧ es = [(.image id.get.toNat g, around)]) ∨
  ∃ (p : FormPart) (res' : Option (List ResourcesCall)) (matrix : Option (List F32)) (r : Rect) (inner : List (Element F32 Prog × List Sequence)),
    XObjectNamed items res name p.id ∧ p.Written unf items ∧
    ResourcesSet FormXObjectMeans .resources (fun k v => .stream (.raw k v)) items p.calls res res' ∧
    MaybeCall FormXObjectMeans b!"Matrix" p.calls matrix .matrix ∧ OnlyCall FormXObjectMeans b!"BBox" p.calls (.bbox r) ∧
    below p.id res' (inside matrix [r.x1, r.y1, r.x2, r.y2] g) around p.content inner ∧
    es = [(.enter p.id.get.toNat g, around)] ++ inner ++ [(.leave p.id.get.toNat, around)]

/-- With forms nested at most `depth` deep, the calls on the `Content` of a page or a form paint `elements`, each in the sequences given, if the
resources are `res`, the graphics state is `g` at the beginning, and the stream is painted in the sequences `around`. -/
def MarksGiven (unf : Val → Bytes → Option Bytes) (items : List Item) : Nat → Option Ref → Option (List ResourcesCall) → GState F32 Prog →
    List Sequence → List ContentCall → List (Element F32 Prog × List Sequence) → Prop
  | depth, stream, res, g, around, calls, elements =>
    ∃ (e : Env F32 Prog) (object : Bytes → GState F32 Prog → List Sequence → Option (List (Element F32 Prog × List Sequence)))
      (evs : List (List (MarkEvent F32 Prog))), (∀ n, e.device n = .prim (.name n)) ∧
      (∀ category n v, e.resource category n = some v → ResourceGiven items res category n v) ∧
      (∀ n g around es, object n g around = some es → ObjectMarks unf items res
        (match depth with | 0 => fun _ _ _ _ _ _ => False | depth + 1 => fun id => MarksGiven unf items depth (some id)) n g around es) ∧
      Pairwise (Asks stream res) calls evs ∧ displayMarks e object around (blank g) [] evs.flatten = some elements
termination_by structural depth => depth

/-- What is painted on the pages of the tree. -/
def _root_.PdfW.Spec.PageTree.Marks (unf : Val → Bytes → Option Bytes) (items : List Item) (forms : Nat) (t : PageTree)
    (pages : List (List (Element F32 Prog × List Sequence))) : Prop :=
  t.Each (fun _ res calls x => MarksGiven unf items forms none res (initial fun n => .prim (.name n)) [] calls x) items none pages

/-- The same element in the same sequences. -/
def SameMarked (x : Element F32 Prog × List Sequence) (y : Element Val Val × List Sequence) : Prop :=
  SameElement NumIs Denotes x.1 y.1 ∧ y.2 = x.2

end PdfW.Spec.Imaging
