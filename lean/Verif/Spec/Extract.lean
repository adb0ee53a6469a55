import Verif.Spec.Document
import Verif.Spec.Cmap
import Verif.Spec.Typed.Fonts

/-!
# Text extraction (ISO 32000-1, 7.7.3.4, 7.8.3, 9.4.3 and 9.10.2)

A reader that is given only the bytes of a file and extracts the text of every page: it follows the page tree with inherited
resources, interprets the operators that select fonts and show text, splits shown strings into character codes and maps each
code to Unicode through the ToUnicode CMap of the font. It knows nothing about the writer.

It reports for every character code shown its text, or nothing if the CMap has no mapping. If a CMap maps a code several times, the
last mapping counts. It does not descend into form XObjects and does not look at `ActualText`.
-/

namespace PdfW.Spec
open PdfW

/-- The text of one page: for every code shown, in order, its text (if it has a mapping). -/
abbrev PageText := List (Option (List Char))

/-! ## The reader -/

/-- Follow a reference to a value that is not a stream (7.3.10). -/
def followRef (f : FileEnd) (file : Bytes) : Val → Option Val
  | .ref n 0 => match f.object file n with
    | some (.val v) => some v
    | _ => none
  | .ref _ _ => none
  | v => some v

/-- A dictionary, or a reference to one. -/
def followDict (f : FileEnd) (file : Bytes) (v : Val) : Option (List (Bytes × Val)) :=
  match followRef f file v with
  | some (.dict d) => some d
  | _ => none

/-- The named resource of a category (7.8.3): a dictionary. -/
def namedResource (f : FileEnd) (file : Bytes) (resources : Option Val) (category name : Bytes) : Option (List (Bytes × Val)) :=
  resources.bind fun r => (followDict f file r).bind fun d => (lookup category d).bind fun c => (followDict f file c).bind fun es =>
    (lookup name es).bind (followDict f file)

/-- What extraction needs to know about a font: how many bytes a code has, and the text of codes. -/
structure FontText where
  width : Nat
  entries : List (Bytes × List Char)

/-- The number of bytes of a character code: one for simple fonts (9.4.3), two for composite fonts with an identity encoding
(Table 118). -/
def codeWidth (subtype : Bytes) (encoding : Option Val) : Option Nat :=
  if subtype = b!"Type0" then
    match encoding with
    | some (.name e) => if e = b!"Identity-H" ∨ e = b!"Identity-V" then some 2 else none
    | _ => none
  else if subtype = b!"Type1" ∨ subtype = b!"Type3" ∨ subtype = b!"TrueType" ∨ subtype = b!"MMType1" then some 1
  else none

/-- Read a font for extraction (9.10.2): its ToUnicode CMap must be for codes of the font's width. -/
def readFontText (unf : Val → Bytes → Option Bytes) (f : FileEnd) (file : Bytes) (d : List (Bytes × Val)) : Option FontText :=
  match lookup b!"Subtype" d, lookup b!"ToUnicode" d with
  | some (.name t), some (.ref n 0) =>
    (codeWidth t (lookup b!"Encoding" d)).bind fun w => (decodedStream unf f file n).bind fun data => (readToUnicode data).bind fun u =>
      if u.codespace.all (fun r => r.1.length == w && r.2.length == w) then some ⟨w, u.sections.flatten⟩ else none
  | _, _ => none

/-- Split a shown string into codes of one or two bytes. -/
def splitCodes : Nat → Bytes → Option (List Bytes)
  | 1, bs => some (bs.map fun b => [b])
  | 2, [] => some []
  | 2, a :: b :: r => (splitCodes 2 r).map ([a, b] :: ·)
  | _, _ => none

/-- The text of a code: that of its last mapping. -/
def FontText.text (t : FontText) (code : Bytes) : Option (List Char) := (t.entries.reverse.find? (fun e => e.1 == code)).map (·.2)

/-- The text of a shown string. -/
def shownText (font : Option FontText) (s : Bytes) : Option PageText :=
  font.bind fun t => (splitCodes t.width s).map fun cs => cs.map t.text

/-- The text of the elements of a `TJ` array (Table 109): strings; numbers only move. -/
def shownArray (font : Option FontText) : List Val → Option PageText
  | [] => some []
  | .str s :: r => (shownText font s).bind fun a => (shownArray font r).map (a ++ ·)
  | _ :: r => shownArray font r

/-- Interpret the operators that matter for text: `Tf` selects a font, `q` and `Q` save and restore it, `gs` could select one as
well (Table 58; only graphics states that do not are supported here), `Tj`, `'`, `"` and `TJ` show text. -/
def textOf (font : Bytes → Option FontText) (gstate : Bytes → Option (List (Bytes × Val))) :
    Option FontText → List (Option FontText) → List ReadOp → Option PageText
  | _, _, [] => some []
  | cur, saved, (k, args) :: ops =>
    if k = b!"Tf" then
      match args with
      | [.name n, _] => (font n).bind fun t => textOf font gstate (some t) saved ops
      | _ => none
    else if k = b!"q" then textOf font gstate cur (cur :: saved) ops
    else if k = b!"Q" then
      match saved with
      | [] => textOf font gstate cur [] ops
      | s :: saved => textOf font gstate s saved ops
    else if k = b!"gs" then
      match args with
      | [.name n] => (gstate n).bind fun d => if d.all (fun e => e.1 != b!"Font") then textOf font gstate cur saved ops else none
      | _ => none
    else if k = b!"Tj" ∨ k = b!"'" then
      match args with
      | [.str s] => (shownText cur s).bind fun a => (textOf font gstate cur saved ops).map (a ++ ·)
      | _ => none
    else if k = b!"\"" then
      match args with
      | [_, _, .str s] => (shownText cur s).bind fun a => (textOf font gstate cur saved ops).map (a ++ ·)
      | _ => none
    else if k = b!"TJ" then
      match args with
      | [.arr vs] => (shownArray cur vs).bind fun a => (textOf font gstate cur saved ops).map (a ++ ·)
      | _ => none
    else textOf font gstate cur saved ops

/-- The text of a page, given its dictionary and its resources. -/
def readPageText (unf : Val → Bytes → Option Bytes) (f : FileEnd) (file : Bytes) (resources : Option Val) (d : List (Bytes × Val)) : Option PageText :=
  (pageOperations unf f file d).bind
    (textOf (fun n => (namedResource f file resources b!"Font" n).bind (readFontText unf f file))
      (namedResource f file resources b!"ExtGState") none [])

/-- The resources in effect: those of the node itself, or else the inherited ones (7.7.3.4). -/
def effectiveResources (inherited : Option Val) (d : List (Bytes × Val)) : Option (Option Val) :=
  if d.all fun e => e.1 != b!"Resources" then some inherited else (lookup b!"Resources" d).map some

/-- The text of the pages below a node of the page tree, page by page. -/
def readTextTree (unf : Val → Bytes → Option Bytes) (f : FileEnd) (file : Bytes) : Nat → Option Val → Nat → Option (List PageText)
  | 0, _, _ => none
  | depth + 1, inherited, n =>
    match f.object file n with
    | some (.val (.dict d)) =>
      (effectiveResources inherited d).bind fun resources =>
        match lookup b!"Type" d with
        | some (.name t) =>
          if t = b!"Page" then (readPageText unf f file resources d).map fun text => [text]
          else if t = b!"Pages" then
            match lookup b!"Kids" d with
            | some (.arr vs) => (refNumbers vs).bind (collect (readTextTree unf f file depth resources))
            | _ => none
          else none
        | _ => none
    | _ => none

/-- The text of a document, page by page: trailer, catalog, page tree. -/
def readTexts (unf : Val → Bytes → Option Bytes) (f : FileEnd) (file : Bytes) (depth : Nat) : Option (List PageText) :=
  match lookup b!"Root" f.trailer with
  | some (.ref n 0) =>
    match f.object file n with
    | some (.val (.dict d)) =>
      match lookup b!"Type" d, lookup b!"Pages" d with
      | some (.name t), some (.ref p 0) => if t = b!"Catalog" then readTextTree unf f file depth none p else none
      | _, _ => none
    | _ => none
  | _ => none

/-- Extract the text of a file. -/
def extractText (unf : Val → Bytes → Option Bytes) (file : Bytes) (depth : Nat) : Option (List PageText) :=
  (readFile unf file).bind fun f => readTexts unf f file depth

/-! ## The text that was asked for -/

/-- A font as given to the API: which writer with which calls, and the mappings of its ToUnicode CMap. -/
inductive FontKind where
  | type0 (calls : List Type0FontCall) (mappings : List (CmapCall UInt16))
  | type1 (calls : List Type1FontCall) (mappings : List (CmapCall UInt8))
  | type3 (calls : List Type3FontCall) (mappings : List (CmapCall UInt8))

/-- The finished data of the CMap. -/
def FontKind.cmapData (name : Bytes) (info : SystemInfo) (mode : WMode) : FontKind → Bytes
  | .type0 _ m => (runCmap (UnicodeCmap.withWritingMode UInt16 name info mode) m).finish.inner
  | .type1 _ m | .type3 _ m => (runCmap (UnicodeCmap.withWritingMode UInt8 name info mode) m).finish.inner

/-- The object of the font. -/
def FontKind.prog : FontKind → Prog
  | .type0 calls _ => Type0Font.prog calls
  | .type1 calls _ => Type1Font.prog calls
  | .type3 calls _ => Type3Font.prog calls

/-- A font with its name in the resources, and its CMap: a CMap stream object and the arguments of the `UnicodeCmap`. -/
structure FontPart where
  name : Bytes
  kind : FontKind
  cmapId : Ref
  stream : List CmapStreamCall
  data : Bytes
  cmapName : Bytes
  info : SystemInfo
  mode : WMode

/-- A graphics state with its name in the resources. -/
structure GStatePart where
  name : Bytes
  calls : List ExtGraphicsStateCall

/-- The value is what was written: directly, or as an object of its own to which the value refers. -/
def Stored (items : List Item) (v : Prog) (content : Prog) : Prop := v = content ∨ ∃ id, v = .prim (.ref id) ∧ HasObject items id (.val content)

/-- The methods on the font: one that sets the CMap, for composite fonts one that sets an identity encoding, and none that
overrides the subtype. -/
def FontKind.Set (cmapId : Ref) : FontKind → Prop
  | .type0 calls _ => NoCall Type0FontMeans b!"Subtype" calls ∧ OnlyCall Type0FontMeans b!"ToUnicode" calls (.toUnicode cmapId) ∧
      (OnlyCall Type0FontMeans b!"Encoding" calls (.encodingPredefined b!"Identity-H") ∨
       OnlyCall Type0FontMeans b!"Encoding" calls (.encodingPredefined b!"Identity-V"))
  | .type1 calls _ => NoCall Type1FontMeans b!"Subtype" calls ∧ OnlyCall Type1FontMeans b!"ToUnicode" calls (.toUnicode cmapId)
  | .type3 calls _ => NoCall Type3FontMeans b!"Subtype" calls ∧ OnlyCall Type3FontMeans b!"ToUnicode" calls (.toUnicode cmapId)

/-- The data of the CMap stream is the finished CMap, or what the filter that was declared decodes to it. -/
def CmapStored (unf : Val → Bytes → Option Bytes) (p : FontPart) : Prop :=
  (NoCall CmapStreamMeans b!"Filter" p.stream ∧ p.data = p.kind.cmapData p.cmapName p.info p.mode) ∨
  ∃ flt, OnlyCall CmapStreamMeans b!"Filter" p.stream (.stream (.filter flt)) ∧
    unf (.name (isoFilter flt)) p.data = some (p.kind.cmapData p.cmapName p.info p.mode)

/-- The entries of a category of resources: given in place or as an object of its own. -/
def CategorySet (items : List Item) (rc : List ResourcesCall) (key : Bytes) (inPlace : List (Bytes × Prog) → ResourcesCall)
    (es : List (Bytes × Prog)) : Prop :=
  OnlyCall ResourcesMeans key rc (inPlace es) ∨
  ∃ id, OnlyCall ResourcesMeans key rc (.raw key (.prim (.ref id))) ∧ HasObject items id (.val (.dict es))

/-- The font is in the resources under its name, and it and its CMap were written. -/
def FontWritten (unf : Val → Bytes → Option Bytes) (items : List Item) (res : Option (List ResourcesCall)) (p : FontPart) : Prop :=
  (∃ rc es v, res = some rc ∧ CategorySet items rc b!"Font" .fonts es ∧ es.filter (fun e => e.1 == p.name) = [(p.name, v)] ∧
    Stored items v p.kind.prog) ∧
  p.kind.Set p.cmapId ∧ HasObject items p.cmapId (.stream (CmapStream.entries p.stream) p.data) ∧ CmapStored unf p ∧
  OneLine p.cmapName ∧ OneLine p.info.registry ∧ OneLine p.info.ordering

/-- The graphics state is in the resources under its name and does not select a font. -/
def GStateWritten (items : List Item) (res : Option (List ResourcesCall)) (g : GStatePart) : Prop :=
  (∃ rc es v, res = some rc ∧ CategorySet items rc b!"ExtGState" .extGStates es ∧ es.filter (fun e => e.1 == g.name) = [(g.name, v)] ∧
    Stored items v (ExtGraphicsState.prog g.calls)) ∧
  NoCall (ExtGraphicsStateMeans .code) b!"Font" g.calls

/-- The resources in effect: set on the node in place or by reference, or else inherited. -/
def ResourcesSet {α : Type} (means : α → List (Bytes × (Val → Prop))) (inPlace : List ResourcesCall → α) (raw : Bytes → Prog → α)
    (items : List Item) (calls : List α) (inherited res : Option (List ResourcesCall)) : Prop :=
  (NoCall means b!"Resources" calls ∧ res = inherited) ∨
  ∃ rc, res = some rc ∧ (OnlyCall means b!"Resources" calls (inPlace rc) ∨
    ∃ id, OnlyCall means b!"Resources" calls (raw b!"Resources" (.prim (.ref id))) ∧ HasObject items id (.val (Resources.prog rc)))

/-- The text asked for a glyph: that of the last call for it. -/
def textFor {G : Type} [BEq G] (mappings : List (CmapCall G)) (g : G) : Option (List Char) :=
  ((mappings.map CmapCall.entry).reverse.find? (fun e => e.1 == g)).map (·.2)

/-- A shown string consists of the codes of glyphs of the font, with these texts. -/
def ShowsAs (font : Option FontPart) (s : Bytes) (text : PageText) : Prop :=
  ∃ p, font = some p ∧ match p.kind with
    | .type0 _ m => ∃ gs : List UInt16, s = gs.flatMap CharCode.code ∧ text = gs.map (textFor m)
    | .type1 _ m | .type3 _ m => ∃ gs : List UInt8, s = gs.flatMap CharCode.code ∧ text = gs.map (textFor m)

/-- The strings among the items of `show_positioned`, one after the other. -/
def ShowsItems (font : Option FontPart) : List PosItem → PageText → Prop
  | [], text => text = []
  | .show s :: r, text => ∃ a b, text = a ++ b ∧ ShowsAs font s a ∧ ShowsItems font r b
  | .adjust _ :: r, text => ShowsItems font r text

/-- The text shown by calls on a `Content`, given the font selected and those saved. -/
def Shows (fonts : List FontPart) (gstates : List GStatePart) : Option FontPart → List (Option FontPart) → List ContentCall → PageText → Prop
  | _, _, [], text => text = []
  | cur, saved, c :: cs, text =>
    match c with
    | .setFont n _ => ∃ p ∈ fonts, p.name = n ∧ Shows fonts gstates (some p) saved cs text
    | .saveState => Shows fonts gstates cur (cur :: saved) cs text
    | .restoreState =>
      match saved with
      | [] => Shows fonts gstates cur [] cs text
      | s :: saved => Shows fonts gstates s saved cs text
    | .setParameters n => (∃ g ∈ gstates, g.name = n) ∧ Shows fonts gstates cur saved cs text
    | .show s | .nextLineShow s | .nextLineShowAndSetWordAndCharSpacing _ _ s =>
      ∃ a b, text = a ++ b ∧ ShowsAs cur s a ∧ Shows fonts gstates cur saved cs b
    | .showPositioned items => ∃ a b, text = a ++ b ∧ ShowsItems cur items a ∧ Shows fonts gstates cur saved cs b
    | .op name _ => name ∉ [b!"Tf", b!"q", b!"Q", b!"gs", b!"Tj", b!"'", b!"\"", b!"TJ"] ∧ Shows fonts gstates cur saved cs text
    | _ => Shows fonts gstates cur saved cs text

mutual
/-- The text of the pages of a tree, page by page, given the inherited resources. -/
def PageTree.Texts (unf : Val → Bytes → Option Bytes) (items : List Item) : PageTree → Option (List ResourcesCall) → List PageText → Prop
  | .page _ calls contents, inherited, texts =>
    ∃ res fonts gstates text, texts = [text] ∧ ResourcesSet (PageMeans .code) .resources .raw items calls inherited res ∧
      (∀ p ∈ fonts, FontWritten unf items res p) ∧ (∀ g ∈ gstates, GStateWritten items res g) ∧
      Shows fonts gstates none [] (contents.flatMap ContentPart.calls) text
  | .node _ calls kids, inherited, texts =>
    ∃ res, ResourcesSet PagesMeans .resources .raw items calls inherited res ∧ textsList unf items kids res texts
termination_by structural t => t
def textsList (unf : Val → Bytes → Option Bytes) (items : List Item) : List PageTree → Option (List ResourcesCall) → List PageText → Prop
  | [], _, texts => texts = []
  | t :: ts, inherited, texts => ∃ a b, texts = a ++ b ∧ t.Texts unf items inherited a ∧ textsList unf items ts inherited b
termination_by structural t => t
end

end PdfW.Spec
