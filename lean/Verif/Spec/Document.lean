import Verif.Spec.Typed.Structure
import Verif.Spec.Typed.Object
import Verif.Spec.History
import Verif.Spec.Finish
import Verif.Spec.File
import Verif.Spec.Content

/-!
# Documents (ISO 32000-1, 7.7.2, 7.7.3 and 7.8.2): reading a file page by page

A reader that starts at the trailer, follows `Root`, `Pages` and `Kids` to the pages in order, and reads the content of each
page. It knows nothing about the writer.
-/

namespace PdfW.Spec
open PdfW

/-- A reference to an object, by its number. -/
def refNumber : Val → Option Nat
  | .ref n 0 => some n
  | _ => none

/-- All elements are references. -/
def refNumbers : List Val → Option (List Nat)
  | [] => some []
  | v :: vs => (refNumber v).bind fun n => (refNumbers vs).map (n :: ·)

/-- The decoded data of the stream with this number (7.3.8, 7.4); `unf` undoes filters. -/
def decodedStream (unf : Val → Bytes → Option Bytes) (f : FileEnd) (file : Bytes) (n : Nat) : Option Bytes :=
  match f.object file n with
  | some (.stream d data) => unfiltered unf d data
  | _ => none

/-- The decoded data of several streams, with white space between them (7.8.2). -/
def decodedStreams (unf : Val → Bytes → Option Bytes) (f : FileEnd) (file : Bytes) : List Nat → Option Bytes
  | [] => some []
  | [n] => decodedStream unf f file n
  | n :: ns => (decodedStream unf f file n).bind fun a => (decodedStreams unf f file ns).map fun b => a ++ [0x0A] ++ b

/-- The operations of a page (Table 30, Contents): none, one stream, or an array of streams. -/
def pageOperations (unf : Val → Bytes → Option Bytes) (f : FileEnd) (file : Bytes) (d : List (Bytes × Val)) : Option (List ReadOp) :=
  if d.all fun e => e.1 != b!"Contents" then some []
  else match lookup b!"Contents" d with
    | some (.arr vs) => (refNumbers vs).bind fun ns => (decodedStreams unf f file ns).bind readContent
    | some v => (refNumber v).bind fun n => (decodedStream unf f file n).bind readContent
    | none => none

/-- A page as read: its dictionary and its operations. -/
structure ReadPage where
  dict : Val
  ops : List ReadOp

/-- One list after the other. -/
def collect {α : Type} (f : Nat → Option (List α)) : List Nat → Option (List α)
  | [] => some []
  | n :: ns => (f n).bind fun a => (collect f ns).map (a ++ ·)

/-- The pages below a node of the page tree (7.7.3), in order; `depth` bounds the depth of the tree. -/
def readPageTree (unf : Val → Bytes → Option Bytes) (f : FileEnd) (file : Bytes) : Nat → Nat → Option (List ReadPage)
  | 0, _ => none
  | depth + 1, n =>
    match f.object file n with
    | some (.val (.dict d)) =>
      match lookup b!"Type" d with
      | some (.name t) =>
        if t = b!"Page" then (pageOperations unf f file d).map fun ops => [⟨.dict d, ops⟩]
        else if t = b!"Pages" then
          match lookup b!"Kids" d with
          | some (.arr vs) => (refNumbers vs).bind (collect (readPageTree unf f file depth))
          | _ => none
        else none
      | _ => none
    | _ => none

/-- The pages of a document: trailer, catalog (7.7.2), page tree. -/
def readPages (unf : Val → Bytes → Option Bytes) (f : FileEnd) (file : Bytes) (depth : Nat) : Option (List ReadPage) :=
  match lookup b!"Root" f.trailer with
  | some (.ref n 0) =>
    match f.object file n with
    | some (.val (.dict d)) =>
      match lookup b!"Type" d, lookup b!"Pages" d with
      | some (.name t), some (.ref p 0) => if t = b!"Catalog" then readPageTree unf f file depth p else none
      | _, _ => none
    | _ => none
  | _ => none

/-- Read a whole file from its end, page by page. -/
def readDocument (unf : Val → Bytes → Option Bytes) (file : Bytes) (depth : Nat) : Option (List ReadPage) :=
  (readFile unf file).bind fun f => readPages unf f file depth

/-! ## The document that was asked for -/

/-- Exactly one of the calls writes an entry with this key, namely `c`. -/
def OnlyCall {α : Type} (means : α → List (Bytes × (Val → Prop))) (key : Bytes) (calls : List α) (c : α) : Prop :=
  calls.filter (fun x => (means x).any fun e => e.1 == key) = [c]

/-- None of the calls writes an entry with this key. -/
def NoCall {α : Type} (means : α → List (Bytes × (Val → Prop))) (key : Bytes) (calls : List α) : Prop :=
  ∀ c ∈ calls, ∀ e ∈ means c, e.1 ≠ key

/-- A content stream: its id, the calls made on the stream, the operations issued and the setting of the `Content`. -/
structure ContentPart where
  id : Ref
  stream : List StreamCall
  data : Bytes
  pretty : Bool
  calls : List ContentCall

/-- A page tree as given to the API: ids, calls on the writers, kids, and the contents of pages. -/
inductive PageTree where
  | page (id : Ref) (calls : List PageCall) (contents : List ContentPart)
  | node (id : Ref) (calls : List PagesCall) (kids : List PageTree)

/-- The id of a node. -/
def PageTree.id : PageTree → Ref
  | .page id _ _ => id
  | .node id _ _ => id

mutual
/-- The pages in order, with the operations issued for each. -/
def PageTree.pages : PageTree → List (List PageCall × List ContentCall)
  | .page _ calls contents => [(calls, contents.flatMap ContentPart.calls)]
  | .node _ _ kids => pagesList kids
termination_by structural t => t
def pagesList : List PageTree → List (List PageCall × List ContentCall)
  | [] => []
  | t :: ts => t.pages ++ pagesList ts
termination_by structural t => t
end

mutual
/-- How deep the tree is. -/
def PageTree.depth : PageTree → Nat
  | .page _ _ _ => 1
  | .node _ _ kids => 1 + depthList kids
termination_by structural t => t
def depthList : List PageTree → Nat
  | [] => 0
  | t :: ts => Max.max t.depth (depthList ts)
termination_by structural t => t
end

/-- The document contains this object, and it can be represented in PDF (see `ItemOk`). -/
def HasObject (items : List Item) (id : Ref) (body : Body) : Prop := ∃ it ∈ items, it.id = id ∧ it.body = body ∧ ItemOk it

/-- The data of the stream is the finished content, or what the filter that was declared decodes to it. -/
def PartStored (unf : Val → Bytes → Option Bytes) (c : ContentPart) : Prop :=
  ∃ content, runCalls c.calls (Content.withSettings c.pretty) = some content ∧
    ((NoCall StreamMeans b!"Filter" c.stream ∧ c.data = content.finish.inner) ∨
     ∃ flt, OnlyCall StreamMeans b!"Filter" c.stream (.filter flt) ∧ unf (.name (isoFilter flt)) c.data = some content.finish.inner)

/-- A content stream of the document: written as a stream object, with operands that PDF can represent. -/
def PartWritten (unf : Val → Bytes → Option Bytes) (items : List Item) (c : ContentPart) : Prop :=
  HasObject items c.id (.stream (Stream.entries c.stream) c.data) ∧ PartStored unf c ∧
    (∀ k ∈ c.calls, CallOk k) ∧ (c.pretty = true ∨ ∀ k ∈ c.calls, CallNoClash k)

/-- The calls that set the contents of a page. -/
def ContentsSet (calls : List PageCall) (contents : List ContentPart) : Prop :=
  (contents = [] ∧ NoCall (PageMeans .code) b!"Contents" calls) ∨
  (∃ c, contents = [c] ∧ OnlyCall (PageMeans .code) b!"Contents" calls (.contents c.id)) ∨
  OnlyCall (PageMeans .code) b!"Contents" calls (.contentsArray (contents.map ContentPart.id))

mutual
/-- The page tree was written: every node with its kids, every page with its contents, in any order and mixed with anything
else. -/
def PageTree.Written (unf : Val → Bytes → Option Bytes) (items : List Item) : PageTree → Prop
  | .page id calls contents =>
    HasObject items id (.val (Page.prog calls)) ∧ NoCall (PageMeans .code) b!"Type" calls ∧ ContentsSet calls contents ∧
      ∀ c ∈ contents, PartWritten unf items c
  | .node id calls kids =>
    HasObject items id (.val (Pages.prog calls)) ∧ NoCall PagesMeans b!"Type" calls ∧
      OnlyCall PagesMeans b!"Kids" calls (.kids (kids.map PageTree.id)) ∧ writtenList unf items kids
termination_by structural t => t
def writtenList (unf : Val → Bytes → Option Bytes) (items : List Item) : List PageTree → Prop
  | [] => True
  | t :: ts => t.Written unf items ∧ writtenList unf items ts
termination_by structural t => t
end

/-- The pages read are those asked for: dictionary by dictionary, operation by operation. -/
def PagesMean (rd : Reading) : List (List PageCall × List ContentCall) → List ReadPage → Prop
  | [], ps => ps = []
  | w :: ws, ps => ∃ p qs, ps = p :: qs ∧ IsPage rd w.1 p.dict ∧ AllMean w.2 p.ops ∧ PagesMean rd ws qs

end PdfW.Spec
