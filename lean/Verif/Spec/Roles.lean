import Verif.Model.Roles
import Verif.Spec.Lex

/-!
# Standard structure types (ISO 32000-1, 14.8.4; ISO 32000-2, 14.8.4)

The names are copied from the standards' tables, not from the code.
-/

namespace PdfW.Spec
open PdfW

/-! ## PDF 1.7 -/

/-- Table 333: grouping elements. -/
def groupingTypes : List Bytes :=
  [b!"Document", b!"Part", b!"Art", b!"Sect", b!"Div", b!"BlockQuote", b!"Caption", b!"TOC", b!"TOCI", b!"Index",
   b!"NonStruct", b!"Private"]

/-- Table 334/335: paragraph-like block-level elements. -/
def paragraphTypes : List Bytes := [b!"P", b!"H", b!"H1", b!"H2", b!"H3", b!"H4", b!"H5", b!"H6"]

/-- Table 336: list elements. -/
def listTypes : List Bytes := [b!"L", b!"LI", b!"Lbl", b!"LBody"]

/-- Table 337: the table element itself, which is block-level. -/
def tableTypes : List Bytes := [b!"Table"]

/-- Table 337: the parts of a table. -/
def tablePartTypes : List Bytes := [b!"TR", b!"TH", b!"TD", b!"THead", b!"TBody", b!"TFoot"]

/-- Table 338: inline-level elements other than links and annotations. -/
def inlineTypes : List Bytes :=
  [b!"Span", b!"Quote", b!"Note", b!"Reference", b!"BibEntry", b!"Code", b!"Ruby", b!"Warichu"]

/-- Table 339: the parts of ruby and warichu elements. -/
def rubyWarichuTypes : List Bytes := [b!"RB", b!"RT", b!"RP", b!"WT", b!"WP"]

/-- Table 340: illustration elements. -/
def illustrationTypes : List Bytes := [b!"Figure", b!"Formula", b!"Form"]

/-- All standard structure types of PDF 1.7. -/
def types17 : List Bytes :=
  groupingTypes ++ paragraphTypes ++ listTypes ++ tableTypes ++ tablePartTypes ++ inlineTypes ++ [b!"Link"] ++
    [b!"Annot"] ++ rubyWarichuTypes ++ illustrationTypes

/-- The table of the standard each type class stands for. -/
def class17 : StructRoleType → List Bytes
  | .grouping => groupingTypes
  | .paragraphLike => paragraphTypes
  | .list => listTypes
  | .tableBlock => tableTypes
  | .table => tablePartTypes
  | .genericInline => inlineTypes
  | .link => [b!"Link"]
  | .annotation => [b!"Annot"]
  | .rubyWarichu => rubyWarichuTypes
  | .illustration => illustrationTypes

/-! ## PDF 2.0 -/

/-- The standard structure types of PDF 2.0 by class (14.8.4.3 to 14.8.4.8), headings with a level aside. -/
def class20 : StructRoleType2 → List Bytes
  | .document => [b!"Document", b!"DocumentFragment"]
  | .grouping => [b!"Part", b!"Sect", b!"Div", b!"Aside", b!"NonStruct"]
  | .blockLevel => [b!"P", b!"H", b!"Title", b!"FENote"]
  | .subBlockLevel => [b!"Sub"]
  | .genericInline => [b!"Lbl", b!"Span", b!"Em", b!"Strong", b!"Link", b!"Annot", b!"Form"]
  | .rubyWarichu => [b!"Ruby", b!"RB", b!"RT", b!"RP", b!"Warichu", b!"WT", b!"WP"]
  | .list => [b!"L", b!"LI", b!"LBody"]
  | .table => [b!"Table", b!"TR", b!"TH", b!"TD", b!"THead", b!"TBody", b!"TFoot"]
  | .caption => [b!"Caption"]
  | .figure => [b!"Figure"]
  | .formula => [b!"Formula"]
  | .artifact => [b!"Artifact"]

def types20 : List Bytes :=
  [StructRoleType2.document, .grouping, .blockLevel, .subBlockLevel, .genericInline, .rubyWarichu, .list, .table, .caption,
    .figure, .formula, .artifact].flatMap class20

/-- The level of an explicitly numbered heading, `Hn` (14.8.4.5): `H` and then the decimal digits of a positive integer
without leading zeros. -/
def headingLevel : Bytes → Option Nat
  | h :: d :: ds =>
    if h = ch!"H" ∧ d ≠ ch!"0" ∧ (d :: ds).all isDigit = true then some (digitsVal (d :: ds)) else none
  | _ => none

end PdfW.Spec
