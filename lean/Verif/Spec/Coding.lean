import Verif.Spec.Images
import Verif.Spec.Typed.Files
import Verif.Spec.Typed.Fonts
import Verif.Spec.Typed.Functions
import Verif.Spec.Typed.Pattern
import Verif.Spec.Typed.Structure
import Verif.Spec.Typed.XObject

/-!
# Filters and their parameters (ISO 32000-1, 7.4; Tables 5, 8, 11, 12, 13 and 14)

A reader that is given only the bytes of a file and the number of a stream, and decodes its data: with the filter it names, and the parameters of the filter
that hold for it, those that are not given with their default values. The filters themselves are unknown to it. It knows nothing about the writer.
-/

namespace PdfW.Spec
open PdfW

/-! ## What there is -/

/-- What a decoder has to know. -/
structure Coding where
  /-- Flate and LZW (Table 8). -/
  predictor : Int
  colors : Int
  bits : Int
  columns : Int
  earlyChange : Int
  /-- CCITT fax (Table 11). -/
  k : Int
  endOfLine : Bool
  byteAlign : Bool
  rows : Int
  endOfBlock : Bool
  blackIs1 : Bool
  damagedRows : Int
  /-- JBIG2 (Table 12): the data of the global segments. -/
  globals : Option Bytes
  /-- DCT (Table 13); what holds if there is none depends on the data. -/
  colorTransform : Option Int
  /-- Crypt filters (Table 14). -/
  name : Bytes
deriving DecidableEq

/-- The default value of Columns is 1 (Table 8), for fax 1728 (Table 11). -/
def defaultColumns (filter : Bytes) : Int := if filter = b!"CCITTFaxDecode" then 1728 else 1

/-! ## The reader -/

/-- Data of a stream without filters. -/
def plainData (f : FileEnd) (file : Bytes) (v : Val) : Option Bytes :=
  (refNumber v).bind fun n =>
    match f.object file n with
    | some (.stream d data) => if d.all fun e => e.1 != b!"Filter" then some data else none
    | _ => none

/-- Parameters of this filter. -/
def readCoding (f : FileEnd) (file : Bytes) (filter : Bytes) (d : List (Bytes × Val)) : Option Coding :=
  (optionalEntry b!"Predictor" d intOf).bind fun predictor => (optionalEntry b!"Colors" d intOf).bind fun colors =>
    (optionalEntry b!"BitsPerComponent" d intOf).bind fun bits => (optionalEntry b!"Columns" d intOf).bind fun columns =>
    (optionalEntry b!"EarlyChange" d intOf).bind fun earlyChange => (optionalEntry b!"K" d intOf).bind fun k =>
    (optionalEntry b!"EndOfLine" d truthOf).bind fun endOfLine => (optionalEntry b!"EncodedByteAlign" d truthOf).bind fun byteAlign =>
    (optionalEntry b!"Rows" d intOf).bind fun rows => (optionalEntry b!"EndOfBlock" d truthOf).bind fun endOfBlock =>
    (optionalEntry b!"BlackIs1" d truthOf).bind fun blackIs1 => (optionalEntry b!"DamagedRowsBeforeError" d intOf).bind fun damagedRows =>
    (optionalEntry b!"JBIG2Globals" d (plainData f file)).bind fun globals => (optionalEntry b!"ColorTransform" d intOf).bind fun colorTransform =>
    (optionalEntry b!"Name" d nameOf).map fun name =>
      ⟨predictor.getD 1, colors.getD 1, bits.getD 8, columns.getD (defaultColumns filter), earlyChange.getD 1, k.getD 0, endOfLine.getD false,
        byteAlign.getD false, rows.getD 0, endOfBlock.getD true, blackIs1.getD false, damagedRows.getD 0, globals, colorTransform, name.getD b!"Identity"⟩

/-- Data of a stream with this dictionary. -/
def decodeData (codec : Bytes → Coding → Bytes → Option Bytes) (f : FileEnd) (file : Bytes) (d : List (Bytes × Val)) (data : Bytes) : Option Bytes :=
  (optionalEntry b!"Filter" d nameOf).bind fun filter => (optionalEntry b!"DecodeParms" d (followDict f file)).bind fun parms =>
    match filter with
    | none => some data
    | some filter => (readCoding f file filter (parms.getD [])).bind fun coding => codec filter coding data

/-- Decode stream number `n` of a file. -/
def fileStream (unf : Val → Bytes → Option Bytes) (codec : Bytes → Coding → Bytes → Option Bytes) (file : Bytes) (n : Nat) : Option Bytes :=
  (readFile unf file).bind fun f =>
    match f.object file n with
    | some (.stream d data) => decodeData codec f file d data
    | _ => none

/-! ## What was asked for -/

/-- These calls set the filter and its parameters. -/
def CodingCalls {α : Type} (means : α → List (Bytes × (Val → Prop))) (stream : StreamCall → α) (calls : List α) (filter : Option Filter)
    (parms : Option (List DecodeParmsCall)) : Prop :=
  MaybeCall means b!"Filter" calls filter (fun x => stream (.filter x)) ∧ MaybeCall means b!"DecodeParms" calls parms (fun x => stream (.decodeParms x))

/-- A stream was written, through one of the writers for streams, with this filter, these parameters, and these data. -/
inductive StreamHas (items : List Item) (id : Ref) (stored : Bytes) (filter : Option Filter) (parms : Option (List DecodeParmsCall)) : Prop
  | plain {calls} : HasObject items id (.stream (Stream.entries calls) stored) → CodingCalls StreamMeans (fun c => c) calls filter parms →
      StreamHas items id stored filter parms
  | embedded {calls} : HasObject items id (.stream (EmbeddedFile.entries calls) stored) → CodingCalls EmbeddedFileMeans .stream calls filter parms →
      StreamHas items id stored filter parms
  | cmap {calls} : HasObject items id (.stream (CmapStream.entries calls) stored) → CodingCalls CmapStreamMeans .stream calls filter parms →
      StreamHas items id stored filter parms
  | sampled {calls} : HasObject items id (.stream (SampledFunction.entries calls) stored) → CodingCalls SampledFunctionMeans .stream calls filter parms →
      StreamHas items id stored filter parms
  | postScript {calls} : HasObject items id (.stream (PostScriptFunction.entries calls) stored) → CodingCalls PostScriptFunctionMeans .stream calls filter parms →
      StreamHas items id stored filter parms
  | icc {calls} : HasObject items id (.stream (IccProfile.entries calls) stored) → CodingCalls IccProfileMeans .stream calls filter parms →
      StreamHas items id stored filter parms
  | tiling {calls} : HasObject items id (.stream (TilingPattern.entries calls) stored) → CodingCalls TilingPatternMeans .stream calls filter parms →
      StreamHas items id stored filter parms
  | shading {calls} : HasObject items id (.stream (StreamShading.entries calls) stored) → CodingCalls StreamShadingMeans .stream calls filter parms →
      StreamHas items id stored filter parms
  | metadata {calls} : HasObject items id (.stream (Metadata.entries calls) stored) → CodingCalls MetadataMeans .stream calls filter parms →
      StreamHas items id stored filter parms
  | image {calls} : HasObject items id (.stream (ImageXObject.entries calls) stored) → CodingCalls ImageXObjectMeans .stream calls filter parms →
      StreamHas items id stored filter parms
  | form {calls} : HasObject items id (.stream (FormXObject.entries calls) stored) → CodingCalls FormXObjectMeans .stream calls filter parms →
      StreamHas items id stored filter parms

/-- The parameter is set by this call to this value, or not, and then has its default value. -/
def ParmIs {β γ : Type} (key : Bytes) (calls : List DecodeParmsCall) (c : β → DecodeParmsCall) (value : β → γ) (default : γ) (x : γ) : Prop :=
  ∃ b, MaybeCall DecodeParmsMeans key calls b c ∧ x = (b.map value).getD default

/-- These calls set these parameters for this filter. -/
structure CodingSet (items : List Item) (filter : Bytes) (calls : List DecodeParmsCall) (x : Coding) : Prop where
  predictor : ParmIs b!"Predictor" calls .predictor isoPredictor 1 x.predictor
  colors : ParmIs b!"Colors" calls .colors (fun n => n) 1 x.colors
  bits : ParmIs b!"BitsPerComponent" calls .bitsPerComponent (fun n => n) 8 x.bits
  columns : ParmIs b!"Columns" calls .columns (fun n => n) (defaultColumns filter) x.columns
  earlyChange : ParmIs b!"EarlyChange" calls .earlyChange (fun b => if b then 1 else 0) 1 x.earlyChange
  k : ParmIs b!"K" calls .k (fun n => n) 0 x.k
  endOfLine : ParmIs b!"EndOfLine" calls .endOfLine (fun b => b) false x.endOfLine
  byteAlign : ParmIs b!"EncodedByteAlign" calls .encodedByteAlign (fun b => b) false x.byteAlign
  rows : ParmIs b!"Rows" calls .rows (fun n => n) 0 x.rows
  endOfBlock : ParmIs b!"EndOfBlock" calls .endOfBlock (fun b => b) true x.endOfBlock
  blackIs1 : ParmIs b!"BlackIs1" calls .blackIs1 (fun b => b) false x.blackIs1
  damagedRows : ParmIs b!"DamagedRowsBeforeError" calls .damagedRowsBeforeError (fun n => n) 0 x.damagedRows
  globals : ∃ r, MaybeCall DecodeParmsMeans b!"JBIG2Globals" calls r .jbig2Globals ∧ BothOrNone (fun r data => StreamHas items r data none none) r x.globals
  colorTransform : ParmIs b!"ColorTransform" calls .colorTransform (fun b => some (if b then 1 else 0)) none x.colorTransform
  name : ParmIs b!"Name" calls .name (fun n => n) b!"Identity" x.name

/-- What was stored stands for these data, if data are decoded like this: without a filter for themselves. -/
def Decodes (codec : Bytes → Coding → Bytes → Option Bytes) (items : List Item) (filter : Option Filter) (parms : Option (List DecodeParmsCall))
    (stored data : Bytes) : Prop :=
  match filter with
  | none => data = stored
  | some filter => ∃ coding, CodingSet items (isoFilter filter) (parms.getD []) coding ∧ codec (isoFilter filter) coding stored = some data

end PdfW.Spec
