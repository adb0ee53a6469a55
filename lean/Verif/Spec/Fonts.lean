import Verif.Spec.Images
import Verif.Spec.Typed.Maps

/-!
# Fonts (ISO 32000-1, 9.6 to 9.9)

A reader that is given only the bytes of a file and obtains for every page the fonts in its resources: what a processor needs to draw
text with them, that is the widths of glyphs, the names of glyphs of codes or the glyph indices of CIDs, the descriptor, the embedded font
program, and for Type 3 fonts the operations that draw each glyph. It knows nothing about the writer.
-/

namespace PdfW.Spec
open PdfW

/-! ## The reader -/

/-- A number. -/
def numberOf (v : Val) : Option Val := if isNumber v then some v else none

/-- An embedded font program (Table 126): under which key it was found, its subtype, and the data after undoing filters. -/
structure ReadProgram where
  key : Bytes
  subtype : Option Bytes
  data : Bytes

/-- The font program under a key of a font descriptor. -/
def readProgramAt (unf : Val → Bytes → Option Bytes) (f : FileEnd) (file : Bytes) (d : List (Bytes × Val)) (key : Bytes) : Option (Option ReadProgram) :=
  optionalEntry key d fun v => (refNumber v).bind fun n =>
    match f.object file n with
    | some (.stream sd _) => (optionalEntry b!"Subtype" sd nameOf).bind fun t => (decodedStream unf f file n).map fun data => ⟨key, t, data⟩
    | _ => none

/-- The font program of a descriptor: there can be at most one. -/
def readProgram (unf : Val → Bytes → Option Bytes) (f : FileEnd) (file : Bytes) (d : List (Bytes × Val)) : Option (Option ReadProgram) :=
  (readProgramAt unf f file d b!"FontFile").bind fun a => (readProgramAt unf f file d b!"FontFile2").bind fun b =>
    (readProgramAt unf f file d b!"FontFile3").bind fun c =>
      match a.toList ++ b.toList ++ c.toList with
      | [] => some none
      | [p] => some (some p)
      | _ => none

/-- A font descriptor (Table 122). -/
structure ReadDescriptor where
  name : Option Bytes
  flags : Option Nat
  bbox : Option (List Val)
  italicAngle : Option Val
  ascent : Option Val
  descent : Option Val
  capHeight : Option Val
  stemV : Option Val
  program : Option ReadProgram

/-- Read a font descriptor. -/
def readDescriptor (unf : Val → Bytes → Option Bytes) (f : FileEnd) (file : Bytes) (n : Nat) : Option ReadDescriptor :=
  match f.object file n with
  | some (.val (.dict d)) =>
    (optionalEntry b!"FontName" d nameOf).bind fun name => (optionalEntry b!"Flags" d flagsOf).bind fun flags =>
      (optionalEntry b!"FontBBox" d itemsOf).bind fun bbox => (optionalEntry b!"ItalicAngle" d numberOf).bind fun italicAngle =>
        (optionalEntry b!"Ascent" d numberOf).bind fun ascent => (optionalEntry b!"Descent" d numberOf).bind fun descent =>
          (optionalEntry b!"CapHeight" d numberOf).bind fun capHeight => (optionalEntry b!"StemV" d numberOf).bind fun stemV =>
            (readProgram unf f file d).map fun program => ⟨name, flags, bbox, italicAngle, ascent, descent, capHeight, stemV, program⟩
  | _ => none

/-- The encoding of a simple font (9.6.6.1): predefined, or a base encoding with differences. -/
inductive ReadEncoding where
  | predefined (name : Bytes)
  | custom (base : Option Bytes) (differences : List (Int × Bytes))
deriving DecidableEq

/-- Read an encoding: a name or a dictionary. -/
def readEncoding : Val → Option ReadEncoding
  | .name n => some (.predefined n)
  | .dict d => (optionalEntry b!"BaseEncoding" d nameOf).bind fun base =>
      (optionalEntry b!"Differences" d fun v => (itemsOf v).bind (readDifferences none)).map fun ds => .custom base (ds.getD [])
  | _ => none

/-- The widths of a simple font (9.6.2.1), code by code. -/
def readSimpleWidths (d : List (Bytes × Val)) : Option (List (Int × Val)) :=
  (optionalEntry b!"Widths" d fun v => (itemsOf v).bind fun ws => if ws.all isNumber then some ws else none).bind fun ws =>
    match ws with
    | none => some []
    | some ws => ((lookup b!"FirstChar" d).bind intOf).bind fun first => ((lookup b!"LastChar" d).bind intOf).bind fun last =>
        if (ws.length : Int) = last - first + 1 then some (consecutiveFrom first ws) else none

/-- How a CID selects a glyph of an embedded TrueType program (9.7.4.2): by a predefined map, or by a stream with two bytes per CID. -/
inductive ReadGids where
  | predefined (name : Bytes)
  | map (gids : List Nat)
deriving DecidableEq

/-- Numbers of two bytes. -/
def pairsOf : Bytes → Option (List Nat)
  | [] => some []
  | a :: b :: r => (pairsOf r).map ((a.toNat * 256 + b.toNat) :: ·)
  | _ => none

/-- Read a map from CIDs to glyphs. -/
def readGids (unf : Val → Bytes → Option Bytes) (f : FileEnd) (file : Bytes) : Val → Option ReadGids
  | .name n => some (.predefined n)
  | .ref n _ => ((decodedStream unf f file n).bind pairsOf).map .map
  | _ => none

/-- A CIDFont (Table 117). -/
structure ReadCidFont where
  subtype : Bytes
  base : Option Bytes
  registry : Bytes
  ordering : Bytes
  supplement : Int
  defaultWidth : Option Val
  widths : List (Int × Val)
  gids : Option ReadGids
  descriptor : Option ReadDescriptor

/-- Read a CIDFont. -/
def readCidFont (unf : Val → Bytes → Option Bytes) (f : FileEnd) (file : Bytes) (n : Nat) : Option ReadCidFont :=
  match f.object file n with
  | some (.val (.dict d)) =>
    ((lookup b!"Subtype" d).bind nameOf).bind fun subtype => (optionalEntry b!"BaseFont" d nameOf).bind fun base =>
      match lookup b!"CIDSystemInfo" d with
      | some (.dict s) =>
        ((lookup b!"Registry" s).bind strOf).bind fun registry => ((lookup b!"Ordering" s).bind strOf).bind fun ordering =>
          ((lookup b!"Supplement" s).bind intOf).bind fun supplement => (optionalEntry b!"DW" d numberOf).bind fun dw =>
            (optionalEntry b!"W" d fun v => (itemsOf v).bind readW).bind fun w => (optionalEntry b!"CIDToGIDMap" d (readGids unf f file)).bind fun gids =>
              (optionalEntry b!"FontDescriptor" d fun v => (refNumber v).bind (readDescriptor unf f file)).map fun desc =>
                ⟨subtype, base, registry, ordering, supplement, dw, w.getD [], gids, desc⟩
      | _ => none
  | _ => none

/-- The operations that draw each glyph of a Type 3 font (Table 112, CharProcs). -/
def readGlyphs (unf : Val → Bytes → Option Bytes) (f : FileEnd) (file : Bytes) : Val → Option (List (Bytes × List ReadOp))
  | .dict d => readEach (fun e => (refNumber e.2).bind fun n => ((decodedStream unf f file n).bind readContent).map fun ops => (e.1, ops)) d
  | _ => none

/-- A font (9.5). -/
inductive ReadFont where
  | type1 (base : Option Bytes) (encoding : Option ReadEncoding) (widths : List (Int × Val)) (descriptor : Option ReadDescriptor)
  | type3 (matrix : Option (List Val)) (encoding : Option ReadEncoding) (widths : List (Int × Val)) (glyphs : List (Bytes × List ReadOp))
  | type0 (base : Option Bytes) (encoding : Bytes) (descendant : ReadCidFont)

/-- Read a font, given its dictionary. -/
def readFont (unf : Val → Bytes → Option Bytes) (f : FileEnd) (file : Bytes) (d : List (Bytes × Val)) : Option ReadFont :=
  ((lookup b!"Subtype" d).bind nameOf).bind fun t =>
    if t = b!"Type1" then
      (optionalEntry b!"BaseFont" d nameOf).bind fun base => (optionalEntry b!"Encoding" d readEncoding).bind fun enc =>
        (readSimpleWidths d).bind fun ws => (optionalEntry b!"FontDescriptor" d fun v => (refNumber v).bind (readDescriptor unf f file)).map fun desc =>
          .type1 base enc ws desc
    else if t = b!"Type3" then
      (optionalEntry b!"FontMatrix" d itemsOf).bind fun matrix => (optionalEntry b!"Encoding" d readEncoding).bind fun enc =>
        (readSimpleWidths d).bind fun ws => ((lookup b!"CharProcs" d).bind (readGlyphs unf f file)).map fun glyphs => .type3 matrix enc ws glyphs
    else if t = b!"Type0" then
      (optionalEntry b!"BaseFont" d nameOf).bind fun base => ((lookup b!"Encoding" d).bind nameOf).bind fun enc =>
        match lookup b!"DescendantFonts" d with
        | some (.arr [v]) => ((refNumber v).bind (readCidFont unf f file)).map fun cid => .type0 base enc cid
        | _ => none
    else none

/-- The fonts in the resources of a page, with their names. -/
def readPageFonts (unf : Val → Bytes → Option Bytes) (f : FileEnd) (file : Bytes) (_ : Nat) (resources : Option Val)
    (_ : List (Bytes × Val)) : Option (List (Bytes × ReadFont)) :=
  match resources with
  | none => some []
  | some r => (followDict f file r).bind fun d =>
      (optionalEntry b!"Font" d fun v => (followDict f file v).bind
        (readEach fun e => ((followDict f file e.2).bind (readFont unf f file)).map fun x => (e.1, x))).map fun fs => fs.getD []

/-- The fonts of the pages of a document, page by page. -/
def readFonts (unf : Val → Bytes → Option Bytes) (f : FileEnd) (file : Bytes) (depth : Nat) : Option (List (List (Bytes × ReadFont))) :=
  (readCatalog f file).bind fun d => (lookup b!"Pages" d).bind refNumber |>.bind fun p =>
    readPagesWith (readPageFonts unf f file) f file depth none p

/-- The fonts of the pages of a file. -/
def fileFonts (unf : Val → Bytes → Option Bytes) (file : Bytes) (depth : Nat) : Option (List (List (Bytes × ReadFont))) :=
  (readFile unf file).bind fun f => readFonts unf f file depth

/-! ## What was asked for -/

/-- The data of a stream is as given, or what the declared filter decodes to it. -/
def DataStored (unf : Val → Bytes → Option Bytes) (calls : List StreamCall) (stored data : Bytes) : Prop :=
  (NoCall StreamMeans b!"Filter" calls ∧ stored = data) ∨
  ∃ flt, OnlyCall StreamMeans b!"Filter" calls (.filter flt) ∧ unf (.name (isoFilter flt)) stored = some data

/-- The method that embeds a font program. -/
inductive ProgramKind where
  | fontFile | fontFile2 | fontFile3
deriving DecidableEq

/-- The key of a font program (Table 126). -/
def ProgramKind.key : ProgramKind → Bytes
  | .fontFile => b!"FontFile"
  | .fontFile2 => b!"FontFile2"
  | .fontFile3 => b!"FontFile3"

/-- The method. -/
def ProgramKind.call : ProgramKind → Ref → FontDescriptorCall
  | .fontFile => .fontFile
  | .fontFile2 => .fontFile2
  | .fontFile3 => .fontFile3

/-- A font program as given to the API. -/
structure ProgramGiven where
  kind : ProgramKind
  id : Ref
  calls : List StreamCall
  stored : Bytes
  subtype : Option Bytes
  data : Bytes

/-- The font program was written. -/
structure ProgramGiven.Written (unf : Val → Bytes → Option Bytes) (items : List Item) (p : ProgramGiven) : Prop where
  object : HasObject items p.id (.stream (Stream.entries p.calls) p.stored)
  subtype : MaybeCall StreamMeans b!"Subtype" p.calls p.subtype (fun n => .raw b!"Subtype" (.prim (.name n)))
  data : DataStored unf p.calls p.stored p.data

/-- A font descriptor as given to the API. -/
structure DescriptorGiven where
  id : Ref
  calls : List FontDescriptorCall
  name : Option Bytes
  flags : Option (List FontFlag)
  bbox : Option Rect
  italicAngle : Option F32
  ascent : Option F32
  descent : Option F32
  capHeight : Option F32
  stemV : Option F32
  program : Option ProgramGiven

/-- The descriptor was written, and these are its values. -/
structure DescriptorGiven.Written (unf : Val → Bytes → Option Bytes) (items : List Item) (g : DescriptorGiven) : Prop where
  object : HasObject items g.id (.val (FontDescriptor.prog g.calls))
  name : MaybeCall FontDescriptorMeans b!"FontName" g.calls g.name .name
  flags : MaybeCall FontDescriptorMeans b!"Flags" g.calls g.flags .flags
  bbox : MaybeCall FontDescriptorMeans b!"FontBBox" g.calls g.bbox .bbox
  italicAngle : MaybeCall FontDescriptorMeans b!"ItalicAngle" g.calls g.italicAngle .italicAngle
  ascent : MaybeCall FontDescriptorMeans b!"Ascent" g.calls g.ascent .ascent
  descent : MaybeCall FontDescriptorMeans b!"Descent" g.calls g.descent .descent
  capHeight : MaybeCall FontDescriptorMeans b!"CapHeight" g.calls g.capHeight .capHeight
  stemV : MaybeCall FontDescriptorMeans b!"StemV" g.calls g.stemV .stemV
  program : ∀ k : ProgramKind, MaybeCall FontDescriptorMeans k.key g.calls ((g.program.filter fun p => p.kind == k).map ProgramGiven.id) k.call
  programWritten : ∀ p, g.program = some p → p.Written unf items

/-- The descriptor is the one set, if any. -/
def DescriptorSet {α : Type} (means : α → List (Bytes × (Val → Prop))) (call : Ref → α) (unf : Val → Bytes → Option Bytes) (items : List Item)
    (calls : List α) (g : Option DescriptorGiven) : Prop :=
  MaybeCall means b!"FontDescriptor" calls (g.map DescriptorGiven.id) call ∧ ∀ x, g = some x → x.Written unf items

/-- An encoding as given to the API. -/
inductive EncodingGiven where
  | predefined (name : Bytes)
  | custom (calls : List EncodingCall) (base : Option Bytes) (differences : Option (List DifferencesCall))

/-- The calls on a custom encoding. -/
def EncodingGiven.Right : EncodingGiven → Prop
  | .predefined _ => True
  | .custom calls base ds => MaybeCall EncodingMeans b!"BaseEncoding" calls base .baseEncoding ∧
      MaybeCall EncodingMeans b!"Differences" calls ds .differences ∧ ∀ x, ds = some x → ∀ c ∈ x, c.typed

/-- The encoding is the one set, if any. -/
def EncodingSet {α : Type} (means : α → List (Bytes × (Val → Prop))) (named : Bytes → α) (custom : List EncodingCall → α) (calls : List α)
    (g : Option EncodingGiven) : Prop :=
  (match g with
  | none => NoCall means b!"Encoding" calls
  | some (.predefined n) => OnlyCall means b!"Encoding" calls (named n)
  | some (.custom cs _ _) => OnlyCall means b!"Encoding" calls (custom cs)) ∧ ∀ x, g = some x → x.Right

/-- The encoding that a reader should see. -/
def EncodingGiven.value : EncodingGiven → ReadEncoding
  | .predefined n => .predefined n
  | .custom _ base ds => .custom base ((ds.getD []).flatMap differencesGiven)

/-- The widths of a simple font: none, or for the codes from the first to the last. -/
def SimpleWidthsSet {α : Type} (means : α → List (Bytes × (Val → Prop))) (first last : UInt8 → α) (widths : List F32 → α) (calls : List α)
    (ws : List (Int × F32)) : Prop :=
  (NoCall means b!"Widths" calls ∧ ws = []) ∨
  ∃ a b xs, OnlyCall means b!"FirstChar" calls (first a) ∧ OnlyCall means b!"LastChar" calls (last b) ∧ OnlyCall means b!"Widths" calls (widths xs) ∧
    (xs.length : Int) = b.toNat - a.toNat + 1 ∧ ws = consecutiveFrom a.toNat xs

/-- A map from CIDs to glyphs as given to the API. -/
inductive GidsGiven where
  | predefined (name : Bytes)
  | map (id : Ref) (calls : List StreamCall) (stored : Bytes) (gids : List UInt16)

/-- The map from CIDs to glyphs is the one set, if any. -/
def GidsSet (unf : Val → Bytes → Option Bytes) (items : List Item) (calls : List CidFontCall) : Option GidsGiven → Prop
  | none => NoCall CidFontMeans b!"CIDToGIDMap" calls
  | some (.predefined n) => OnlyCall CidFontMeans b!"CIDToGIDMap" calls (.cidToGidMapPredefined n)
  | some (.map id cs stored gids) => OnlyCall CidFontMeans b!"CIDToGIDMap" calls (.cidToGidMapStream id) ∧
      HasObject items id (.stream (Stream.entries cs) stored) ∧
      DataStored unf cs stored (gids.flatMap fun g => [UInt8.ofNat (g.toNat / 256), UInt8.ofNat (g.toNat % 256)])

/-- The map that a reader should see. -/
def GidsGiven.value : GidsGiven → ReadGids
  | .predefined n => .predefined n
  | .map _ _ _ gids => .map (gids.map UInt16.toNat)

/-- A CIDFont as given to the API. -/
structure CidFontGiven where
  id : Ref
  calls : List CidFontCall
  subtype : CidFontType
  base : Option Bytes
  info : SystemInfo
  defaultWidth : Option F32
  widths : Option (List WidthsCall)
  gids : Option GidsGiven
  descriptor : Option DescriptorGiven

/-- The CIDFont was written, and these are its values. -/
structure CidFontGiven.Written (unf : Val → Bytes → Option Bytes) (items : List Item) (g : CidFontGiven) : Prop where
  object : HasObject items g.id (.val (CidFont.prog g.calls))
  subtype : OnlyCall CidFontMeans b!"Subtype" g.calls (.subtype g.subtype)
  base : MaybeCall CidFontMeans b!"BaseFont" g.calls g.base .baseFont
  info : OnlyCall CidFontMeans b!"CIDSystemInfo" g.calls (.systemInfo g.info)
  defaultWidth : MaybeCall CidFontMeans b!"DW" g.calls g.defaultWidth .defaultWidth
  widths : MaybeCall CidFontMeans b!"W" g.calls g.widths .widths
  widthsTyped : ∀ x, g.widths = some x → ∀ c ∈ x, c.typed
  gids : GidsSet unf items g.calls g.gids
  descriptor : DescriptorSet CidFontMeans .fontDescriptor unf items g.calls g.descriptor

/-- A font as given to the API. -/
inductive FontGiven where
  | type1 (calls : List Type1FontCall) (base : Option Bytes) (encoding : Option EncodingGiven) (widths : List (Int × F32))
      (descriptor : Option DescriptorGiven)
  | type3 (calls : List Type3FontCall) (matrix : Option (List F32)) (encoding : Option EncodingGiven) (widths : List (Int × F32))
      (glyphs : List (Bytes × ContentPart))
  | type0 (calls : List Type0FontCall) (base : Option Bytes) (encoding : Bytes) (descendant : CidFontGiven)

/-- The object of the font. -/
def FontGiven.prog : FontGiven → Prog
  | .type1 calls .. => Type1Font.prog calls
  | .type3 calls .. => Type3Font.prog calls
  | .type0 calls .. => Type0Font.prog calls

/-- What belongs to the font was written, and these are its values. -/
def FontGiven.Written (unf : Val → Bytes → Option Bytes) (items : List Item) : FontGiven → Prop
  | .type1 calls base enc ws desc => NoCall Type1FontMeans b!"Subtype" calls ∧ MaybeCall Type1FontMeans b!"BaseFont" calls base .baseFont ∧
      EncodingSet Type1FontMeans .encodingPredefined .encodingCustom calls enc ∧
      SimpleWidthsSet Type1FontMeans .firstChar .lastChar .widths calls ws ∧ DescriptorSet Type1FontMeans .fontDescriptor unf items calls desc
  | .type3 calls matrix enc ws glyphs => NoCall Type3FontMeans b!"Subtype" calls ∧ MaybeCall Type3FontMeans b!"FontMatrix" calls matrix .matrix ∧
      EncodingSet Type3FontMeans .encodingPredefined .encodingCustom calls enc ∧
      SimpleWidthsSet Type3FontMeans .firstChar .lastChar .widths calls ws ∧
      OnlyCall Type3FontMeans b!"CharProcs" calls (.charProcs (glyphs.map fun g => (g.1, g.2.id))) ∧ ∀ g ∈ glyphs, PartWritten unf items g.2
  | .type0 calls base enc cid => NoCall Type0FontMeans b!"Subtype" calls ∧ MaybeCall Type0FontMeans b!"BaseFont" calls base .baseFont ∧
      OnlyCall Type0FontMeans b!"Encoding" calls (.encodingPredefined enc) ∧
      OnlyCall Type0FontMeans b!"DescendantFonts" calls (.descendantFont cid.id) ∧ cid.Written unf items

/-- The fonts in the resources of a page. -/
def FontsSet (unf : Val → Bytes → Option Bytes) (items : List Item) (res : Option (List ResourcesCall)) (fonts : List (Bytes × FontGiven)) : Prop :=
  match res with
  | none => fonts = []
  | some rc => (NoCall ResourcesMeans b!"Font" rc ∧ fonts = []) ∨
      ∃ es, CategorySet items rc b!"Font" .fonts es ∧
        Pairwise (fun e g => e.1 = g.1 ∧ Stored items e.2 g.2.prog ∧ g.2.Written unf items) es fonts

/-- The fonts of the pages of the tree. -/
def PageTree.Fonts (unf : Val → Bytes → Option Bytes) (items : List Item) (t : PageTree) (fonts : List (List (Bytes × FontGiven))) : Prop :=
  t.Each (fun _ res _ x => FontsSet unf items res x) items none fonts

/-! ## What is read is what was asked for -/

/-- The widths read are those given, code by code. -/
def WidthsMean (ws : List (Int × F32)) (rs : List (Int × Val)) : Prop := Pairwise (fun w r => r.1 = w.1 ∧ NumIs w.2 r.2) ws rs

/-- The font program read is the one given. -/
structure ProgramGiven.Means (p : ProgramGiven) (r : ReadProgram) : Prop where
  key : r.key = p.kind.key
  subtype : r.subtype = p.subtype
  data : r.data = p.data

/-- The descriptor read is the one given. -/
structure DescriptorGiven.Means (g : DescriptorGiven) (r : ReadDescriptor) : Prop where
  name : r.name = g.name
  flags : BothOrNone (fun fl (n : Nat) => ∀ i, n.testBit i = true ↔ i + 1 ∈ fl.map isoFontFlag) g.flags r.flags
  bbox : BothOrNone (fun (b : Rect) vs => Pairwise NumIs [b.x1, b.y1, b.x2, b.y2] vs) g.bbox r.bbox
  italicAngle : BothOrNone NumIs g.italicAngle r.italicAngle
  ascent : BothOrNone NumIs g.ascent r.ascent
  descent : BothOrNone NumIs g.descent r.descent
  capHeight : BothOrNone NumIs g.capHeight r.capHeight
  stemV : BothOrNone NumIs g.stemV r.stemV
  program : BothOrNone ProgramGiven.Means g.program r.program

/-- The CIDFont read is the one given. -/
structure CidFontGiven.Means (g : CidFontGiven) (r : ReadCidFont) : Prop where
  subtype : r.subtype = isoCidFontType g.subtype
  base : r.base = g.base
  registry : r.registry = g.info.registry
  ordering : r.ordering = g.info.ordering
  supplement : r.supplement = g.info.supplement
  defaultWidth : BothOrNone NumIs g.defaultWidth r.defaultWidth
  widths : WidthsMean ((g.widths.getD []).flatMap widthsGiven) r.widths
  gids : r.gids = g.gids.map GidsGiven.value
  descriptor : BothOrNone DescriptorGiven.Means g.descriptor r.descriptor

/-- The font read is the one given. -/
def FontGiven.Means : FontGiven → ReadFont → Prop
  | .type1 _ base enc ws desc, r => ∃ ws' desc', r = .type1 base (enc.map EncodingGiven.value) ws' desc' ∧ WidthsMean ws ws' ∧
      BothOrNone DescriptorGiven.Means desc desc'
  | .type3 _ matrix enc ws glyphs, r => ∃ matrix' ws' glyphs', r = .type3 matrix' (enc.map EncodingGiven.value) ws' glyphs' ∧
      BothOrNone (Pairwise NumIs) matrix matrix' ∧ WidthsMean ws ws' ∧
      Pairwise (fun g (r : Bytes × List ReadOp) => r.1 = g.1 ∧ AllMean g.2.calls r.2) glyphs glyphs'
  | .type0 _ base enc cid, r => ∃ cid', r = .type0 base enc cid' ∧ cid.Means cid'

/-- The fonts read are those given, under their names. -/
def FontsMean (gs : List (Bytes × FontGiven)) (rs : List (Bytes × ReadFont)) : Prop := Pairwise (fun g r => r.1 = g.1 ∧ g.2.Means r.2) gs rs

end PdfW.Spec
