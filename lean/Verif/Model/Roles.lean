import Verif.Base
import Verif.Model.F32

/-!
# Structure roles (`/repo/src/structure.rs:771-1441`)
-/

namespace PdfW

/-- `StructRole` (structure.rs:771-871). -/
inductive StructRole where
  | document | part | art | sect | div | blockQuote | caption | toc | toci | index | nonStruct | priv | p | structuredHeading | h1 | h2 | h3 | h4 | h5 | h6 | l | li | lbl | lBody | table | tr | th | td | tHead | tBody | tFoot | span | quote | note | reference | bibEntry | code | link | annot | ruby | warichu | rb | rt | rp | wt | wp | figure | formula | form
deriving DecidableEq

/-- `StructRole::to_name` (structure.rs:875-927). -/
def StructRole.toName : StructRole → Bytes
  | .document => b!"Document"
  | .part => b!"Part"
  | .art => b!"Art"
  | .sect => b!"Sect"
  | .div => b!"Div"
  | .blockQuote => b!"BlockQuote"
  | .caption => b!"Caption"
  | .toc => b!"TOC"
  | .toci => b!"TOCI"
  | .index => b!"Index"
  | .nonStruct => b!"NonStruct"
  | .priv => b!"Private"
  | .p => b!"P"
  | .structuredHeading => b!"H"
  | .h1 => b!"H1"
  | .h2 => b!"H2"
  | .h3 => b!"H3"
  | .h4 => b!"H4"
  | .h5 => b!"H5"
  | .h6 => b!"H6"
  | .l => b!"L"
  | .li => b!"LI"
  | .lbl => b!"Lbl"
  | .lBody => b!"LBody"
  | .table => b!"Table"
  | .tr => b!"TR"
  | .th => b!"TH"
  | .td => b!"TD"
  | .tHead => b!"THead"
  | .tBody => b!"TBody"
  | .tFoot => b!"TFoot"
  | .span => b!"Span"
  | .quote => b!"Quote"
  | .note => b!"Note"
  | .reference => b!"Reference"
  | .bibEntry => b!"BibEntry"
  | .code => b!"Code"
  | .link => b!"Link"
  | .annot => b!"Annot"
  | .ruby => b!"Ruby"
  | .warichu => b!"Warichu"
  | .rb => b!"RB"
  | .rt => b!"RT"
  | .rp => b!"RP"
  | .wt => b!"WT"
  | .wp => b!"WP"
  | .figure => b!"Figure"
  | .formula => b!"Formula"
  | .form => b!"Form"

/-- `StructRole2` (structure.rs:1095-1179). A `NonZeroU16` is a natural number `n` with `1 ≤ n < 65536`. -/
inductive StructRole2 where
  | document
  | documentFragment
  | part
  | sect
  | div
  | aside
  | nonStruct
  | p
  | heading (level : Nat) (pos : 1 ≤ level) (lt : level < 65536)
  | structuredHeading
  | title
  | feNote
  | sub
  | lbl
  | span
  | em
  | strong
  | link
  | annot
  | form
  | ruby
  | rb
  | rt
  | rp
  | warichu
  | wt
  | wp
  | l
  | li
  | lBody
  | table
  | tr
  | th
  | td
  | tHead
  | tBody
  | tFoot
  | caption
  | figure
  | formula
  | artifact
deriving DecidableEq

/-- `write!(cursor, "H{}", level)` into a buffer of six bytes (structure.rs:1196-1201); `none` is the panic on a full buffer. -/
def headingName (level : Nat) : Option Bytes :=
  let name := ch!"H" :: natBytes level
  if name.length ≤ 6 then some name else none

/-- `StructRole2::to_name` (structure.rs:1186-1235); `none` is a panic. -/
def StructRole2.toName : StructRole2 → Option Bytes
  | .document => some b!"Document"
  | .documentFragment => some b!"DocumentFragment"
  | .part => some b!"Part"
  | .sect => some b!"Sect"
  | .div => some b!"Div"
  | .aside => some b!"Aside"
  | .nonStruct => some b!"NonStruct"
  | .p => some b!"P"
  | .heading level _ _ => headingName level
  | .structuredHeading => some b!"H"
  | .title => some b!"Title"
  | .feNote => some b!"FENote"
  | .sub => some b!"Sub"
  | .lbl => some b!"Lbl"
  | .span => some b!"Span"
  | .em => some b!"Em"
  | .strong => some b!"Strong"
  | .link => some b!"Link"
  | .annot => some b!"Annot"
  | .form => some b!"Form"
  | .ruby => some b!"Ruby"
  | .rb => some b!"RB"
  | .rt => some b!"RT"
  | .rp => some b!"RP"
  | .warichu => some b!"Warichu"
  | .wt => some b!"WT"
  | .wp => some b!"WP"
  | .l => some b!"L"
  | .li => some b!"LI"
  | .lBody => some b!"LBody"
  | .table => some b!"Table"
  | .tr => some b!"TR"
  | .th => some b!"TH"
  | .td => some b!"TD"
  | .tHead => some b!"THead"
  | .tBody => some b!"TBody"
  | .tFoot => some b!"TFoot"
  | .caption => some b!"Caption"
  | .figure => some b!"Figure"
  | .formula => some b!"Formula"
  | .artifact => some b!"Artifact"

/-- `StructRole::into_pdf_2_0` (structure.rs:931-983). -/
def StructRole.intoPdf20 : StructRole → Option StructRole2
  | .document => some .document
  | .part => some .part
  | .art => none
  | .sect => some .sect
  | .div => some .div
  | .blockQuote => none
  | .caption => some .caption
  | .toc => none
  | .toci => none
  | .index => none
  | .nonStruct => some .nonStruct
  | .priv => none
  | .p => some .p
  | .structuredHeading => some .structuredHeading
  | .h1 => some (.heading 1 (by decide) (by decide))
  | .h2 => some (.heading 2 (by decide) (by decide))
  | .h3 => some (.heading 3 (by decide) (by decide))
  | .h4 => some (.heading 4 (by decide) (by decide))
  | .h5 => some (.heading 5 (by decide) (by decide))
  | .h6 => some (.heading 6 (by decide) (by decide))
  | .l => some .l
  | .li => some .li
  | .lbl => some .lbl
  | .lBody => some .lBody
  | .table => some .table
  | .tr => some .tr
  | .th => some .th
  | .td => some .td
  | .tHead => some .tHead
  | .tBody => some .tBody
  | .tFoot => some .tFoot
  | .span => some .span
  | .quote => some .em
  | .note => some .feNote
  | .reference => some .link
  | .bibEntry => none
  | .code => some .strong
  | .link => some .link
  | .annot => some .annot
  | .ruby => some .ruby
  | .warichu => some .warichu
  | .rb => some .rb
  | .rt => some .rt
  | .rp => some .wp
  | .wt => some .wt
  | .wp => some .wp
  | .figure => some .figure
  | .formula => some .formula
  | .form => some .form

/-- `RoleMapOpts` (structure.rs:1372-1385): a set of flags. -/
structure RoleMapOpts where
  mapHnToH6 : Bool
  mapTitleToH1 : Bool
  mapSubToSpan : Bool
deriving DecidableEq

/-- `Default for RoleMapOpts` (structure.rs:1387-1391). -/
def RoleMapOpts.default : RoleMapOpts := ⟨false, false, false⟩

/-- `StructRole2Compat` (structure.rs:1395-1401). -/
inductive StructRole2Compat where
  | compatible (r : StructRole)
  | roleMapping (r : StructRole)
deriving DecidableEq

/-- `StructRole2::compatibility_1_7` (structure.rs:1241-1323). -/
def StructRole2.compatibility17 (opts : RoleMapOpts) : StructRole2 → StructRole2Compat
  | .document => .compatible .document
  | .documentFragment => .roleMapping .div
  | .part => .compatible .part
  | .sect => .compatible .sect
  | .div => .compatible .div
  | .aside => .roleMapping .div
  | .nonStruct => .compatible .nonStruct
  | .p => .compatible .p
  | .heading level _ _ =>
    if level = 1 then .compatible .h1
    else if level = 2 then .compatible .h2
    else if level = 3 then .compatible .h3
    else if level = 4 then .compatible .h4
    else if level = 5 then .compatible .h5
    else if level = 6 then .compatible .h6
    else .roleMapping (if opts.mapHnToH6 then .h6 else .p)
  | .structuredHeading => .compatible .structuredHeading
  | .title => .roleMapping (if opts.mapTitleToH1 then .h1 else .p)
  | .feNote => .roleMapping .note
  | .sub => .roleMapping (if opts.mapSubToSpan then .span else .div)
  | .lbl => .compatible .lbl
  | .span => .compatible .span
  | .em => .roleMapping .span
  | .strong => .roleMapping .span
  | .link => .compatible .link
  | .annot => .compatible .annot
  | .form => .compatible .form
  | .ruby => .compatible .ruby
  | .rb => .compatible .rb
  | .rt => .compatible .rt
  | .rp => .compatible .rp
  | .warichu => .compatible .warichu
  | .wt => .compatible .wt
  | .wp => .compatible .wp
  | .l => .compatible .l
  | .li => .compatible .li
  | .lBody => .compatible .lBody
  | .table => .compatible .table
  | .tr => .compatible .tr
  | .th => .compatible .th
  | .td => .compatible .td
  | .tHead => .compatible .tHead
  | .tBody => .compatible .tBody
  | .tFoot => .compatible .tFoot
  | .caption => .compatible .caption
  | .figure => .compatible .figure
  | .formula => .compatible .formula
  | .artifact => .roleMapping .priv

/-- `StructRole2Compat::into_pdf_1_7` (structure.rs:1406-1411). -/
def StructRole2Compat.intoPdf17 : StructRole2Compat → Option StructRole
  | .compatible r => some r
  | .roleMapping _ => none

/-- `StructRole2Compat::role_mapped_1_7` (structure.rs:1417-1422). -/
def StructRole2Compat.roleMapped17 : StructRole2Compat → Option StructRole
  | .compatible _ => none
  | .roleMapping r => some r

/-- `StructRole2Compat::role` (structure.rs:1425-1430). -/
def StructRole2Compat.role : StructRole2Compat → StructRole
  | .compatible r => r
  | .roleMapping r => r

/-- `TryFrom<StructRole2> for StructRole` (structure.rs:1433-1441). -/
def StructRole.tryFrom (r : StructRole2) : Option StructRole := (r.compatibility17 RoleMapOpts.default).intoPdf17

/-- `TryFrom<StructRole> for StructRole2` (structure.rs:1081-1087). -/
def StructRole2.tryFrom (r : StructRole) : Option StructRole2 := r.intoPdf20

/-- `BlockLevelRoleSubtype`, `InlineLevelRoleSubtype`, `StructRoleType` (structure.rs:1042-1079). -/
inductive StructRoleType where
  | grouping | paragraphLike | list | tableBlock | genericInline | link | annotation | rubyWarichu | illustration | table
deriving DecidableEq

/-- `StructRole::role_type` (structure.rs:986-1036). -/
def StructRole.roleType : StructRole → StructRoleType
  | .document | .part | .art | .sect | .div | .blockQuote | .caption | .toc | .toci | .index | .nonStruct | .priv => .grouping
  | .p | .structuredHeading | .h1 | .h2 | .h3 | .h4 | .h5 | .h6 => .paragraphLike
  | .l | .li | .lbl | .lBody => .list
  | .table => .tableBlock
  | .tr | .th | .td | .tHead | .tBody | .tFoot => .table
  | .span | .quote | .note | .reference | .bibEntry | .code | .ruby | .warichu => .genericInline
  | .link => .link
  | .annot => .annotation
  | .rb | .rt | .rp | .wt | .wp => .rubyWarichu
  | .figure | .formula | .form => .illustration

/-- `StructRoleType2`, `InlineLevelRoleSubtype2` (structure.rs:1446-1479). -/
inductive StructRoleType2 where
  | document | grouping | blockLevel | subBlockLevel | genericInline | rubyWarichu | list | table | caption | figure | formula | artifact
deriving DecidableEq

/-- `StructRole2::role_type` (structure.rs:1326-1369). -/
def StructRole2.roleType : StructRole2 → StructRoleType2
  | .document | .documentFragment => .document
  | .part | .sect | .div | .aside | .nonStruct => .grouping
  | .p | .heading _ _ _ | .structuredHeading | .title | .feNote => .blockLevel
  | .sub => .subBlockLevel
  | .lbl | .span | .em | .strong | .link | .annot | .form => .genericInline
  | .ruby | .rb | .rp | .rt | .warichu | .wt | .wp => .rubyWarichu
  | .l | .li | .lBody => .list
  | .table | .tr | .th | .td | .tHead | .tBody | .tFoot => .table
  | .caption => .caption
  | .figure => .figure
  | .formula => .formula
  | .artifact => .artifact

end PdfW
