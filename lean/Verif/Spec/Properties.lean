import Verif.Spec.Attach

/-!
# Properties of a document (ISO 32000-1, 7.5.2, 7.5.5, 7.7.2, 14.3 and 14.4)

A reader that is given only the bytes of a file and obtains its version, file identifier, document information, language and XMP
metadata. It knows nothing about the writer.
-/

namespace PdfW.Spec
open PdfW

/-! ## The reader -/

/-- What a reader shows about a document. -/
structure Properties where
  version : Nat × Nat
  id : Option (Bytes × Bytes)
  title : Option (List Char)
  author : Option (List Char)
  subject : Option (List Char)
  keywords : Option (List Char)
  creator : Option (List Char)
  producer : Option (List Char)
  created : Option DateVal
  modified : Option DateVal
  trapped : Option Bytes
  lang : Option (List Char)
  xmp : Option Bytes
deriving DecidableEq

/-- The version in the header line (7.5.2). -/
def headerVersion (file : Bytes) : Option (Nat × Nat) :=
  if file.take 5 = b!"%PDF-" then readVersion ((file.drop 5).takeWhile fun b => b != 0x0A && b != 0x0D) else none

/-- The later one of two versions (Table 28, Version). -/
def laterVersion (a b : Nat × Nat) : Nat × Nat := if a.1 < b.1 ∨ (a.1 = b.1 ∧ a.2 < b.2) then b else a

/-- A name that is a version. -/
def versionOf : Val → Option (Nat × Nat)
  | .name n => readVersion n
  | _ => none

/-- A date (7.9.4). -/
def dateOf : Val → Option DateVal
  | .str s => readDate s
  | _ => none

/-- A file identifier (14.4). -/
def fileIdOf : Val → Option (Bytes × Bytes)
  | .arr [.str a, .str b] => some (a, b)
  | _ => none

/-- A metadata stream (Table 315). -/
def readXmp (unf : Val → Bytes → Option Bytes) (f : FileEnd) (file : Bytes) : Val → Option Bytes
  | .ref n 0 =>
    match f.object file n with
    | some (.stream d data) =>
      match lookup b!"Type" d, lookup b!"Subtype" d with
      | some (.name t), some (.name s) => if t = b!"Metadata" ∧ s = b!"XML" then unfiltered unf d data else none
      | _, _ => none
    | _ => none
  | _ => none

/-- The properties of a file. A document information dictionary that is missing counts as an empty one (Tables 15, 28 and 317). -/
def fileProperties (unf : Val → Bytes → Option Bytes) (file : Bytes) : Option Properties :=
  (readFile unf file).bind fun f => (readCatalog f file).bind fun d => (headerVersion file).bind fun hv =>
  (optionalEntry b!"Version" d versionOf).bind fun cv => (optionalEntry b!"ID" f.trailer fileIdOf).bind fun fid =>
  (optionalEntry b!"Info" f.trailer (followDict f file)).bind fun info =>
  let i := info.getD []
  (optionalEntry b!"Title" i readText).bind fun title => (optionalEntry b!"Author" i readText).bind fun author =>
  (optionalEntry b!"Subject" i readText).bind fun subject => (optionalEntry b!"Keywords" i readText).bind fun keywords =>
  (optionalEntry b!"Creator" i readText).bind fun creator => (optionalEntry b!"Producer" i readText).bind fun producer =>
  (optionalEntry b!"CreationDate" i dateOf).bind fun created => (optionalEntry b!"ModDate" i dateOf).bind fun modified =>
  (optionalEntry b!"Trapped" i nameOf).bind fun trapped => (optionalEntry b!"Lang" d readText).bind fun lang =>
  (optionalEntry b!"Metadata" d (readXmp unf f file)).map fun xmp =>
    ⟨laterVersion hv (cv.getD (0, 0)), fid, title, author, subject, keywords, creator, producer, created, modified, trapped, lang, xmp⟩

/-! ## The properties that were asked for -/

/-- The document information as given to the API. -/
structure GivenInfo where
  title : Option (List Char)
  author : Option (List Char)
  subject : Option (List Char)
  keywords : Option (List Char)
  creator : Option (List Char)
  producer : Option (List Char)
  created : Option Date
  modified : Option Date
  trapped : Option TrappingStatus

/-- It was set by these calls. -/
structure GivenInfo.Set (g : GivenInfo) (calls : List DocumentInfoCall) : Prop where
  title : MaybeCall DocumentInfoMeans b!"Title" calls g.title (fun t => .title (.plain t))
  author : MaybeCall DocumentInfoMeans b!"Author" calls g.author (fun t => .author (.plain t))
  subject : MaybeCall DocumentInfoMeans b!"Subject" calls g.subject (fun t => .subject (.plain t))
  keywords : MaybeCall DocumentInfoMeans b!"Keywords" calls g.keywords (fun t => .keywords (.plain t))
  creator : MaybeCall DocumentInfoMeans b!"Creator" calls g.creator (fun t => .creator (.plain t))
  producer : MaybeCall DocumentInfoMeans b!"Producer" calls g.producer (fun t => .producer (.plain t))
  created : MaybeCall DocumentInfoMeans b!"CreationDate" calls g.created .creationDate
  modified : MaybeCall DocumentInfoMeans b!"ModDate" calls g.modified .modifiedDate
  trapped : MaybeCall DocumentInfoMeans b!"Trapped" calls g.trapped .trapped

/-- The document information was written through `document_info`, or not at all. -/
def InfoWritten (h : PdfHist) (g : GivenInfo) : Prop :=
  match infoId h with
  | none => g = ⟨none, none, none, none, none, none, none, none, none⟩
  | some id => ∃ calls, HasObject (pdfItems h) id (.val (DocumentInfo.prog calls)) ∧ g.Set calls

/-- A metadata stream as given to the API, and the data. -/
structure GivenXmp where
  id : Ref
  calls : List MetadataCall
  stored : Bytes
  data : Bytes

/-- It was written. The data are stored as they are, or the filter that was declared decodes what is stored to them. -/
structure GivenXmp.Written (unf : Val → Bytes → Option Bytes) (items : List Item) (g : GivenXmp) : Prop where
  object : HasObject items g.id (.stream (Metadata.entries g.calls) g.stored)
  noType : NoCall MetadataMeans b!"Type" g.calls
  noSubtype : NoCall MetadataMeans b!"Subtype" g.calls
  data : (NoCall MetadataMeans b!"Filter" g.calls ∧ g.stored = g.data) ∨
    ∃ flt, OnlyCall MetadataMeans b!"Filter" g.calls (.stream (.filter flt)) ∧ unf (.name (isoFilter flt)) g.stored = some g.data

/-- What a reader should obtain; `v` is the version given to the catalog, if any. -/
def wantedProperties (h : PdfHist) (v : Option (UInt8 × UInt8)) (lang : Option (List Char)) (info : GivenInfo) (xmp : Option GivenXmp) : Properties where
  version := laterVersion ((version h).1.toNat, (version h).2.toNat) ((v.map fun v => (v.1.toNat, v.2.toNat)).getD (0, 0))
  id := fileId h
  title := info.title
  author := info.author
  subject := info.subject
  keywords := info.keywords
  creator := info.creator
  producer := info.producer
  created := info.created.map expectedDate
  modified := info.modified.map expectedDate
  trapped := info.trapped.map isoTrappingStatus
  lang := lang
  xmp := xmp.map GivenXmp.data

end PdfW.Spec
