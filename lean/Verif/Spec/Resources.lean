import Verif.Spec.Colors
import Verif.Spec.Associated
import Verif.Spec.Typed.Pattern

/-!
# Resources (ISO 32000-1, 7.8.3)

A reader that is given only the bytes of a file and the number of something that has resources, and lists what each category of its resources names. It knows
nothing about the writer.
-/

namespace PdfW.Spec
open PdfW

/-- A resource dictionary (Table 33): what each category names, in order, and the procedure sets. -/
structure ResourceLists where
  xObjects : List (Bytes × Val)
  fonts : List (Bytes × Val)
  spaces : List (Bytes × Val)
  patterns : List (Bytes × Val)
  shadings : List (Bytes × Val)
  states : List (Bytes × Val)
  properties : List (Bytes × Val)
  procSets : Option (List Bytes)

/-! ## The reader -/

def readResourceLists (f : FileEnd) (file : Bytes) (v : Val) : Option ResourceLists :=
  (followDict f file v).bind fun d => (readCategory f file d b!"XObject" some).bind fun xObjects => (readCategory f file d b!"Font" some).bind fun fonts =>
    (readCategory f file d b!"ColorSpace" some).bind fun spaces => (readCategory f file d b!"Pattern" some).bind fun patterns =>
    (readCategory f file d b!"Shading" some).bind fun shadings => (readCategory f file d b!"ExtGState" some).bind fun states =>
    (readCategory f file d b!"Properties" some).bind fun properties => (optionalEntry b!"ProcSet" d (arrayOf nameOf)).map fun procSets =>
      ⟨xObjects, fonts, spaces, patterns, shadings, states, properties, procSets⟩

/-- The resources of an object, if it has any. -/
def fileResources (unf : Val → Bytes → Option Bytes) (file : Bytes) (n : Nat) : Option (Option ResourceLists) :=
  (readFile unf file).bind fun f => (anyDict f file n).bind fun d => optionalEntry b!"Resources" d (readResourceLists f file)

/-! ## What was asked for -/

/-- This object of the document has these resources, or none: a page, a node of the page tree, a form XObject, a tiling pattern, a Type 3 font. -/
inductive ResourcesOf (items : List Item) (id : Ref) : Option (List ResourcesCall) → Prop
  | page {calls r} : HasObject items id (.val (Page.prog calls)) → MaybeCall (PageMeans .code) b!"Resources" calls r .resources → ResourcesOf items id r
  | pages {calls r} : HasObject items id (.val (Pages.prog calls)) → MaybeCall PagesMeans b!"Resources" calls r .resources → ResourcesOf items id r
  | form {calls data r} : HasObject items id (.stream (FormXObject.entries calls) data) → MaybeCall FormXObjectMeans b!"Resources" calls r .resources →
      ResourcesOf items id r
  | pattern {calls data r} : HasObject items id (.stream (TilingPattern.entries calls) data) → MaybeCall TilingPatternMeans b!"Resources" calls r .resources →
      ResourcesOf items id r
  | type3 {calls r} : HasObject items id (.val (Type3Font.prog calls)) → MaybeCall Type3FontMeans b!"Resources" calls r .resources → ResourcesOf items id r

/-- What is named, category by category. -/
structure GivenResources where
  xObjects : List (Bytes × Prog)
  fonts : List (Bytes × Prog)
  spaces : List (Bytes × Prog)
  patterns : List (Bytes × Prog)
  shadings : List (Bytes × Prog)
  states : List (Bytes × Prog)
  properties : List (Bytes × List PropCall)
  procSets : Option (List ProcSet)

/-- A category was given in place or as an object of its own, with these entries. -/
def CategoryIs (items : List Item) (rc : List ResourcesCall) (key : Bytes) (method : List (Bytes × Prog) → ResourcesCall) (xs : List (Bytes × Prog)) : Prop :=
  (NoCall ResourcesMeans key rc ∧ xs = []) ∨ CategorySet items rc key method xs

/-- The calls set this. -/
structure ResourcesGiven (items : List Item) (rc : List ResourcesCall) (x : GivenResources) : Prop where
  xObjects : CategoryIs items rc b!"XObject" .xObjects x.xObjects
  fonts : CategoryIs items rc b!"Font" .fonts x.fonts
  spaces : CategoryIs items rc b!"ColorSpace" .colorSpaces x.spaces
  patterns : CategoryIs items rc b!"Pattern" .patterns x.patterns
  shadings : CategoryIs items rc b!"Shading" .shadings x.shadings
  states : CategoryIs items rc b!"ExtGState" .extGStates x.states
  properties : (NoCall ResourcesMeans b!"Properties" rc ∧ x.properties = []) ∨ OnlyCall ResourcesMeans b!"Properties" rc (.properties x.properties)
  procSets : MaybeCall ResourcesMeans b!"ProcSet" rc x.procSets .procSets ∨
    (OnlyCall ResourcesMeans b!"ProcSet" rc .procSetsAll ∧ x.procSets = some [.pdf, .text, .imageGrayscale, .imageColor, .imageIndexed])

/-- The names, and what they name, are as given. -/
def NamesMean (xs : List (Bytes × Prog)) (rs : List (Bytes × Val)) : Prop := Pairwise (fun x r => r.1 = x.1 ∧ Denotes x.2 r.2) xs rs

/-- What is read is what was given. -/
structure GivenResources.Means (x : GivenResources) (r : ResourceLists) : Prop where
  xObjects : NamesMean x.xObjects r.xObjects
  fonts : NamesMean x.fonts r.fonts
  spaces : NamesMean x.spaces r.spaces
  patterns : NamesMean x.patterns r.patterns
  shadings : NamesMean x.shadings r.shadings
  states : NamesMean x.states r.states
  properties : NamesMean (x.properties.map fun e => (e.1, .dict (e.2.map propEntry))) r.properties
  procSets : r.procSets = x.procSets.map fun l => l.map isoProcSet

end PdfW.Spec
