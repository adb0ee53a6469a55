import Verif.Model.Prim

/-!
# `UnicodeCmap` (`/repo/src/font.rs:832-1053`)
-/

namespace PdfW

/-- `WMode` (font.rs:835-839). -/
inductive WMode where
  | horizontal
  | vertical
deriving DecidableEq

/-- `WMode::to_int` (font.rs:842-847). -/
def WMode.toInt : WMode → Int
  | .horizontal => 0
  | .vertical => 1

/-- `SystemInfo` (font.rs:1037-1044). -/
structure SystemInfo where
  registry : Bytes
  ordering : Bytes
  supplement : Int

/-- The sealed trait `GlyphId` / `private::Sealed` (font.rs:1000-1014). -/
class GlyphId (G : Type) where
  min : G
  max : G
  push : G → Buf → Buf

/-- font.rs:1016-1023 -/
instance : GlyphId UInt8 where
  min := 0
  max := 255
  push g buf := buf.pushHex g

/-- font.rs:1025-1032 -/
instance : GlyphId UInt16 where
  min := 0
  max := 65535
  push g buf := buf.pushHexU16 g

/-- `UnicodeCmap` (font.rs:851-856). -/
structure UnicodeCmap where
  buf : Buf
  mappings : Buf
  count : Int

namespace UnicodeCmap

/-- The header part of `with_writing_mode` (font.rs:875-895). -/
def header (name : Bytes) (info : SystemInfo) (buf : Buf) : Buf :=
  let buf := buf.extend b!"%!PS-Adobe-3.0 Resource-CMap\n"
  let buf := buf.extend b!"%%DocumentNeededResources: procset CIDInit\n"
  let buf := buf.extend b!"%%IncludeResource: procset CIDInit\n"
  let buf := buf.extend b!"%%BeginResource: CMap "
  let buf := buf.extend name
  let buf := buf.push 10
  let buf := buf.extend b!"%%Title: ("
  let buf := buf.extend name
  let buf := buf.push ch!" "
  let buf := buf.extend info.registry
  let buf := buf.push ch!" "
  let buf := buf.extend info.ordering
  let buf := buf.push ch!" "
  let buf := buf.pushInt info.supplement
  let buf := buf.extend b!")\n"
  let buf := buf.extend b!"%%Version: 1\n"
  buf.extend b!"%%EndComments\n"

/-- The body part of `with_writing_mode` (font.rs:897-920). -/
def body (name : Bytes) (info : SystemInfo) (mode : WMode) (buf : Buf) : Buf :=
  let buf := buf.extend b!"/CIDInit /ProcSet findresource begin\n"
  let buf := buf.extend b!"12 dict begin\n"
  let buf := buf.extend b!"begincmap\n"
  let buf := buf.extend b!"/CIDSystemInfo 3 dict dup begin\n"
  let buf := buf.extend b!"    /Registry "
  let buf := writeStr info.registry buf
  let buf := buf.extend b!" def\n"
  let buf := buf.extend b!"    /Ordering "
  let buf := writeStr info.ordering buf
  let buf := buf.extend b!" def\n"
  let buf := buf.extend b!"    /Supplement "
  let buf := buf.pushInt info.supplement
  let buf := buf.extend b!" def\n"
  let buf := buf.extend b!"end def\n"
  let buf := buf.extend b!"/CMapName "
  let buf := writeName name buf
  let buf := buf.extend b!" def\n"
  let buf := buf.extend b!"/CMapVersion 1 def\n"
  let buf := buf.extend b!"/CMapType 0 def\n"
  let buf := buf.extend b!"/WMode "
  let buf := buf.pushInt mode.toInt
  buf.extend b!" def\n"

/-- The codespace part of `with_writing_mode` (font.rs:922-929). -/
def codespace (G : Type) [GlyphId G] (buf : Buf) : Buf :=
  let buf := buf.extend b!"1 begincodespacerange\n"
  let buf := buf.push ch!"<"
  let buf := GlyphId.push (GlyphId.min : G) buf
  let buf := buf.extend b!"> <"
  let buf := GlyphId.push (GlyphId.max : G) buf
  let buf := buf.extend b!">\n"
  buf.extend b!"endcodespacerange\n"

/-- `UnicodeCmap::with_writing_mode` (font.rs:870-938). -/
def withWritingMode (G : Type) [GlyphId G] (name : Bytes) (info : SystemInfo) (mode : WMode) : UnicodeCmap :=
  { buf := codespace G (body name info mode (header name info Buf.new))
    mappings := Buf.new
    count := 0 }

/-- `UnicodeCmap::new` (font.rs:864-866). -/
def new (G : Type) [GlyphId G] (name : Bytes) (info : SystemInfo) : UnicodeCmap :=
  withWritingMode G name info .horizontal

/-- `flush_range` (font.rs:988-998). -/
def flushRange (c : UnicodeCmap) : UnicodeCmap :=
  let buf :=
    if c.count > 0 then
      let buf := c.buf.pushInt c.count
      let buf := buf.extend b!" beginbfchar\n"
      let buf := buf.extend c.mappings.inner
      buf.extend b!"endbfchar\n"
    else c.buf
  { buf := buf, mappings := { c.mappings with inner := [] }, count := 0 }

/-- `pair_with_multiple` (font.rs:946-969). The iterator of `char`s is a list. -/
def pairWithMultiple {G : Type} [GlyphId G] (c : UnicodeCmap) (glyph : G) (codepoints : List Char) : UnicodeCmap :=
  let m := c.mappings.push ch!"<"
  let m := GlyphId.push glyph m
  let m := m.extend b!"> <"
  let m := codepoints.foldl (fun m ch => (utf16Char ch).foldl Buf.pushHexU16 m) m
  let m := m.extend b!">\n"
  let c := { c with mappings := m, count := c.count + 1 }
  if c.count ≥ 100 then c.flushRange else c

/-- `pair` (font.rs:941-943). -/
def pair {G : Type} [GlyphId G] (c : UnicodeCmap) (glyph : G) (codepoint : Char) : UnicodeCmap :=
  c.pairWithMultiple glyph [codepoint]

/-- `finish` (font.rs:972-986). -/
def finish (c : UnicodeCmap) : Buf :=
  let c := c.flushRange
  let buf := c.buf.extend b!"endcmap\n"
  let buf := buf.extend b!"CMapName currentdict /CMap defineresource pop\n"
  let buf := buf.extend b!"end\n"
  let buf := buf.extend b!"end\n"
  let buf := buf.extend b!"%%EndResource\n"
  buf.extend b!"%%EOF"

end UnicodeCmap

/-- A call on a `UnicodeCmap`. -/
inductive CmapCall (G : Type) where
  | pair (glyph : G) (codepoint : Char)
  | pairWithMultiple (glyph : G) (codepoints : List Char)

/-- Run one call (font.rs:941-969). -/
def CmapCall.run {G : Type} [GlyphId G] (c : UnicodeCmap) : CmapCall G → UnicodeCmap
  | .pair g ch => c.pair g ch
  | .pairWithMultiple g cs => c.pairWithMultiple g cs

/-- Run calls one after the other. -/
def runCmap {G : Type} [GlyphId G] (c : UnicodeCmap) (calls : List (CmapCall G)) : UnicodeCmap :=
  calls.foldl CmapCall.run c

end PdfW
