import Verif.Spec.Fonts
import Verif.Spec.Properties

/-!
# Pages: boundaries, orientation and presentation (ISO 32000-1, 7.7.3.3, 7.7.3.4, 12.4.4 and 14.11.2)

A reader that is given only the bytes of a file and obtains, for every page, the boundaries in effect (inherited from the nodes of the page
tree, or defaulting to one another), its orientation and unit, its transparency group, and how it is presented. It knows nothing about the
writer.
-/

namespace PdfW.Spec
open PdfW

/-! ## The reader -/

/-- Entries of Table 30 that a page inherits from its ancestors (7.7.3.4); resources are read by `readPagesWith`. -/
structure Inherits where
  media : Option (List Val)
  crop : Option (List Val)
  rotate : Option Int

/-- The entries in effect at an object of the page tree: its own, if it has them. -/
def effective (i : Inherits) (d : List (Bytes × Val)) : Option Inherits :=
  (optionalEntry b!"MediaBox" d itemsOf).bind fun media => (optionalEntry b!"CropBox" d itemsOf).bind fun crop =>
    (optionalEntry b!"Rotate" d intOf).map fun rotate => ⟨media.or i.media, crop.or i.crop, rotate.or i.rotate⟩

/-- A transition (Table 162). -/
structure ReadTransition where
  style : Option Bytes
  duration : Option Val
  dimension : Option Bytes
  motion : Option Bytes
  direction : Option Val
  scale : Option Val

/-- A transition dictionary. -/
def readTransition : Val → Option ReadTransition
  | .dict d =>
    (optionalEntry b!"S" d nameOf).bind fun style => (optionalEntry b!"D" d numberOf).bind fun duration =>
      (optionalEntry b!"Dm" d nameOf).bind fun dimension => (optionalEntry b!"M" d nameOf).bind fun motion =>
        (optionalEntry b!"Di" d some).bind fun direction => (optionalEntry b!"SS" d numberOf).map fun scale =>
          ⟨style, duration, dimension, motion, direction, scale⟩
  | _ => none

/-- A group (Tables 96 and 147): its kind, color space, and whether it is isolated or a knockout group. -/
structure ReadGroup where
  kind : Option Bytes
  space : Option Val
  isolated : Bool
  knockout : Bool

/-- A group attributes dictionary. -/
def readGroup : Val → Option ReadGroup
  | .dict d =>
    (optionalEntry b!"S" d nameOf).bind fun kind => (optionalEntry b!"CS" d some).bind fun space =>
      (optionalEntry b!"I" d truthOf).bind fun isolated => (optionalEntry b!"K" d truthOf).map fun knockout =>
        ⟨kind, space, isolated.getD false, knockout.getD false⟩
  | _ => none

/-- A page (Table 30): its boundaries (14.11.2), how it is turned (clockwise, in degrees), the size of its unit, and more. -/
structure ReadSetup where
  number : Nat
  media : List Val
  crop : List Val
  bleed : List Val
  trim : List Val
  art : List Val
  rotate : Int
  unit : Option Val
  modified : Option DateVal
  structParents : Option Int
  tabs : Option Bytes
  thumbnail : Option Nat
  metadata : Option Nat
  duration : Option Val
  transition : Option ReadTransition
  group : Option ReadGroup

/-- A page with these entries in effect. The crop box defaults to the media box, the bleed, trim and art box to the crop box, the
rotation to 0 (Table 30); the unit is 1/72 inch if none is given. -/
def readSetup (n : Nat) (i : Inherits) (d : List (Bytes × Val)) : Option ReadSetup :=
  i.media.bind fun media => (optionalEntry b!"BleedBox" d itemsOf).bind fun bleed => (optionalEntry b!"TrimBox" d itemsOf).bind fun trim =>
    (optionalEntry b!"ArtBox" d itemsOf).bind fun art => (optionalEntry b!"UserUnit" d numberOf).bind fun unit =>
    (optionalEntry b!"LastModified" d dateOf).bind fun modified => (optionalEntry b!"StructParents" d intOf).bind fun structParents =>
    (optionalEntry b!"Tabs" d nameOf).bind fun tabs => (optionalEntry b!"Thumb" d refNumber).bind fun thumbnail =>
    (optionalEntry b!"Metadata" d refNumber).bind fun metadata => (optionalEntry b!"Dur" d numberOf).bind fun duration =>
    (optionalEntry b!"Trans" d readTransition).bind fun transition => (optionalEntry b!"Group" d readGroup).map fun group =>
      let crop := i.crop.getD media
      ⟨n, media, crop, bleed.getD crop, trim.getD crop, art.getD crop, i.rotate.getD 0, unit, modified, structParents, tabs, thumbnail,
        metadata, duration, transition, group⟩

/-- The pages below an object of the page tree, in order; `depth` bounds the depth of the tree. -/
def readSetups (f : FileEnd) (file : Bytes) : Nat → Inherits → Nat → Option (List ReadSetup)
  | 0, _, _ => none
  | depth + 1, inherited, n =>
    match f.object file n with
    | some (.val (.dict d)) =>
      (effective inherited d).bind fun i =>
        match lookup b!"Type" d with
        | some (.name t) =>
          if t = b!"Page" then (readSetup n i d).map fun x => [x]
          else if t = b!"Pages" then
            match lookup b!"Kids" d with
            | some (.arr vs) => (refNumbers vs).bind (collect (readSetups f file depth i))
            | _ => none
          else none
        | _ => none
    | _ => none

/-- The pages of a file. -/
def fileSetups (unf : Val → Bytes → Option Bytes) (file : Bytes) (depth : Nat) : Option (List ReadSetup) :=
  (readFile unf file).bind fun f => (readCatalog f file).bind fun d => (lookup b!"Pages" d).bind refNumber |>.bind fun p =>
    readSetups f file depth ⟨none, none, none⟩ p

/-! ## What was asked for -/

/-- What the pages below an object of the page tree inherit. -/
structure Frame where
  media : Option Rect
  crop : Option Rect
  rotate : Option Int

/-- A transition as given to `Transition`. -/
structure GivenTransition where
  calls : List TransitionCall
  style : Option TransitionStyle
  duration : Option F32
  vertical : Option Bool
  outward : Option Bool
  angle : Option TransitionAngle
  scale : Option F32

/-- Each entry is set by the one call for it, or not at all. -/
structure GivenTransition.Set (g : GivenTransition) : Prop where
  style : MaybeCall (TransitionMeans .code) b!"S" g.calls g.style .style
  duration : MaybeCall (TransitionMeans .code) b!"D" g.calls g.duration .duration
  vertical : MaybeCall (TransitionMeans .code) b!"Dm" g.calls g.vertical .dimension
  outward : MaybeCall (TransitionMeans .code) b!"M" g.calls g.outward .direction
  angle : MaybeCall (TransitionMeans .code) b!"Di" g.calls g.angle .angle
  scale : MaybeCall (TransitionMeans .code) b!"SS" g.calls g.scale .scale

/-- A group as given to `Group`. -/
structure GivenGroup where
  calls : List GroupCall
  transparency : Bool
  space : Option Prog
  isolated : Option Bool
  knockout : Option Bool

/-- Each entry is set by the one call for it, or not at all. -/
structure GivenGroup.Set (g : GivenGroup) : Prop where
  transparency : MaybeCall GroupMeans b!"S" g.calls (if g.transparency then some () else none) fun _ => .transparency
  space : MaybeCall GroupMeans b!"CS" g.calls g.space .colorSpace
  isolated : MaybeCall GroupMeans b!"I" g.calls g.isolated .isolated
  knockout : MaybeCall GroupMeans b!"K" g.calls g.knockout .knockout

/-- A page as given to `Page`: the entries it sets itself, and what it inherits. -/
structure GivenSetup where
  id : Ref
  inherited : Frame
  media : Option Rect
  crop : Option Rect
  bleed : Option Rect
  trim : Option Rect
  art : Option Rect
  rotate : Option Int
  unit : Option F32
  modified : Option Date
  structParents : Option Int
  tabs : Option TabOrder
  thumbnail : Option Ref
  metadata : Option Ref
  duration : Option F32
  transition : Option GivenTransition
  group : Option GivenGroup

/-- The boundaries in effect: those of the page, those inherited, or the default. -/
def GivenSetup.mediaBox (g : GivenSetup) : Option Rect := g.media.or g.inherited.media
def GivenSetup.cropBox (g : GivenSetup) : Option Rect := (g.crop.or g.inherited.crop).or g.mediaBox
def GivenSetup.bleedBox (g : GivenSetup) : Option Rect := g.bleed.or g.cropBox
def GivenSetup.trimBox (g : GivenSetup) : Option Rect := g.trim.or g.cropBox
def GivenSetup.artBox (g : GivenSetup) : Option Rect := g.art.or g.cropBox
/-- The rotation in effect. -/
def GivenSetup.turned (g : GivenSetup) : Int := (g.rotate.or g.inherited.rotate).getD 0

/-- Each entry is set by the one call for it, or not at all; and the page has a media box, its own or an inherited one. -/
structure GivenSetup.Set (g : GivenSetup) (calls : List PageCall) : Prop where
  hasMedia : g.mediaBox.isSome = true
  media : MaybeCall (PageMeans .code) b!"MediaBox" calls g.media .mediaBox
  crop : MaybeCall (PageMeans .code) b!"CropBox" calls g.crop .cropBox
  bleed : MaybeCall (PageMeans .code) b!"BleedBox" calls g.bleed .bleedBox
  trim : MaybeCall (PageMeans .code) b!"TrimBox" calls g.trim .trimBox
  art : MaybeCall (PageMeans .code) b!"ArtBox" calls g.art .artBox
  rotate : MaybeCall (PageMeans .code) b!"Rotate" calls g.rotate .rotate
  unit : MaybeCall (PageMeans .code) b!"UserUnit" calls g.unit .userUnit
  modified : MaybeCall (PageMeans .code) b!"LastModified" calls g.modified .lastModified
  structParents : MaybeCall (PageMeans .code) b!"StructParents" calls g.structParents .structParents
  tabs : MaybeCall (PageMeans .code) b!"Tabs" calls g.tabs .tabOrder
  thumbnail : MaybeCall (PageMeans .code) b!"Thumb" calls g.thumbnail .thumbnail
  metadata : MaybeCall (PageMeans .code) b!"Metadata" calls g.metadata .metadata
  duration : MaybeCall (PageMeans .code) b!"Dur" calls g.duration .duration
  transition : MaybeCall (PageMeans .code) b!"Trans" calls g.transition fun t => .transition t.calls
  transitionSet : ∀ t, g.transition = some t → t.Set
  group : MaybeCall (PageMeans .code) b!"Group" calls g.group fun t => .group t.calls
  groupSet : ∀ t, g.group = some t → t.Set

mutual
/-- The pages of the tree, with what each sets and inherits. A node sets the media box through `Pages::media_box`; there is no method for its
crop box and rotation, so these are set through `Dict::pair`. -/
def PageTree.Setups : PageTree → Frame → List GivenSetup → Prop
  | .page id calls _, frame, gs => ∃ g, gs = [g] ∧ g.id = id ∧ g.inherited = frame ∧ g.Set calls
  | .node _ calls kids, frame, gs => ∃ media crop rotate, MaybeCall PagesMeans b!"MediaBox" calls media .mediaBox ∧
      MaybeCall PagesMeans b!"CropBox" calls crop (fun r => .raw b!"CropBox" (.prim (.rect r))) ∧
      MaybeCall PagesMeans b!"Rotate" calls rotate (fun n => .raw b!"Rotate" (.prim (.int n))) ∧
      setupsList kids ⟨media.or frame.media, crop.or frame.crop, rotate.or frame.rotate⟩ gs
termination_by structural t => t
def setupsList : List PageTree → Frame → List GivenSetup → Prop
  | [], _, gs => gs = []
  | t :: ts, frame, gs => ∃ a b, gs = a ++ b ∧ t.Setups frame a ∧ setupsList ts frame b
termination_by structural t => t
end

/-! ## What is read is what was asked for -/

/-- The numbers read are the corners of the rectangle. -/
def RectReads (r : Rect) (vs : List Val) : Prop := Pairwise NumIs [r.x1, r.y1, r.x2, r.y2] vs

/-- The transition read is the one given. -/
structure TransitionReads (g : GivenTransition) (r : ReadTransition) : Prop where
  style : r.style = g.style.map isoTransitionStyle
  duration : BothOrNone NumIs g.duration r.duration
  dimension : r.dimension = g.vertical.map fun v => if v then b!"V" else b!"H"
  motion : r.motion = g.outward.map fun o => if o then b!"O" else b!"I"
  direction : BothOrNone IsAngle g.angle r.direction
  scale : BothOrNone NumIs g.scale r.scale

/-- The group read is the one given. -/
structure GroupReads (g : GivenGroup) (r : ReadGroup) : Prop where
  kind : r.kind = if g.transparency then some b!"Transparency" else none
  space : BothOrNone Denotes g.space r.space
  isolated : r.isolated = g.isolated.getD false
  knockout : r.knockout = g.knockout.getD false

/-- The page read is the one given. -/
structure SetupReads (g : GivenSetup) (r : ReadSetup) : Prop where
  number : r.number = g.id.get.toNat
  media : ∃ b, g.mediaBox = some b ∧ RectReads b r.media
  crop : ∃ b, g.cropBox = some b ∧ RectReads b r.crop
  bleed : ∃ b, g.bleedBox = some b ∧ RectReads b r.bleed
  trim : ∃ b, g.trimBox = some b ∧ RectReads b r.trim
  art : ∃ b, g.artBox = some b ∧ RectReads b r.art
  rotate : r.rotate = g.turned
  unit : BothOrNone NumIs g.unit r.unit
  modified : r.modified = g.modified.map expectedDate
  structParents : r.structParents = g.structParents
  tabs : r.tabs = g.tabs.map isoTabOrder
  thumbnail : r.thumbnail = g.thumbnail.map fun x => x.get.toNat
  metadata : r.metadata = g.metadata.map fun x => x.get.toNat
  duration : BothOrNone NumIs g.duration r.duration
  transition : BothOrNone TransitionReads g.transition r.transition
  group : BothOrNone GroupReads g.group r.group

end PdfW.Spec
