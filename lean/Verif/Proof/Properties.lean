import Verif.Spec.Properties
import Verif.Proof.Attach

set_option linter.unusedSimpArgs false
set_option linter.unusedVariables false

/-! # Reading the properties of a document -/

namespace PdfW
open Spec

variable {unf : Val → Bytes → Option Bytes} {f : FileEnd} {bytes : Bytes} {items : List Item}

theorem headerVersion_read (v : UInt8 × UInt8) (m : UInt8 × UInt8 × UInt8 × UInt8) (h1 : v.1 < 10) (h2 : v.2 < 10) (rest : Bytes) :
    headerVersion (header v m ++ rest) = some (v.1.toNat, v.2.toNat) := by
  obtain ⟨a, b⟩ := v
  have key : ∀ a b : UInt8, a < 10 → b < 10 → (48 + a != 0x0A && 48 + a != 0x0D) = true ∧ (48 + b != 0x0A && 48 + b != 0x0D) = true ∧
      readVersion [48 + a, ch!".", 48 + b] = some (a.toNat, b.toNat) := by
    intro a b ha hb
    have ha' : a.toNat < 10 := ha
    have hb' : b.toNat < 10 := hb
    obtain ⟨x, hx, rfl⟩ : ∃ x < 10, a = UInt8.ofNat x := ⟨a.toNat, ha', by simp⟩
    obtain ⟨y, hy, rfl⟩ : ∃ y < 10, b = UInt8.ofNat y := ⟨b.toNat, hb', by simp⟩
    have all : ∀ x < 10, ∀ y < 10, (48 + UInt8.ofNat x != 10 && 48 + UInt8.ofNat x != 13) = true ∧
        (48 + UInt8.ofNat y != 10 && 48 + UInt8.ofNat y != 13) = true ∧
        readVersion [48 + UInt8.ofNat x, 46, 48 + UInt8.ofNat y] = some ((UInt8.ofNat x).toNat, (UInt8.ofNat y).toNat) := by decide +kernel
    exact all x hx y hy
  obtain ⟨k1, k2, k3⟩ := key a b h1 h2
  have e : header (a, b) m ++ rest = b!"%PDF-" ++ (48 + a) :: ch!"." :: (48 + b) :: 0x0A ::
      (b!"%" ++ [m.1, m.2.1, m.2.2.1, m.2.2.2] ++ b!"\n\n" ++ rest) := by
    simp [header]
  rw [e]
  have h3 : (ch!"." != 0x0A && ch!"." != 0x0D) = true := by decide
  have h4 : ((0x0A : UInt8) != 0x0A && (0x0A : UInt8) != 0x0D) = false := by decide
  simp only [headerVersion]
  rw [if_pos (by simp), List.drop_left' (by decide), List.takeWhile_cons, if_pos k1, List.takeWhile_cons, if_pos h3, List.takeWhile_cons,
    if_pos k2, List.takeWhile_cons, if_neg (by rw [h4]; decide), k3]

theorem xmp_read (hf : Finds f bytes items) (g : GivenXmp) (hg : g.Written unf items) (v : Val) (hv : IsRef g.id v) :
    readXmp unf f bytes v = some g.data := by
  simp only [IsRef] at hv
  subst hv
  obtain ⟨sd, hso, hsd⟩ := finds_stream hf hg.object
  have hse := entriesAre_of (metadata_implied g.calls) hsd
  have e1 : lookup b!"Type" ((b!"Length", Val.int g.stored.length) :: sd) = some (.name b!"Metadata") := by
    obtain ⟨w, hl, hw⟩ := lookup_of hse (k := b!"Type") (P := IsName b!"Metadata") (by
      simp only [MetadataEntries, List.filter_append, noCall_filter hg.noType]; rfl)
    simp only [IsName] at hw
    subst hw
    rw [← hl]
    unfold lookup
    rw [List.filter_cons_of_neg (Bool.eq_false_iff.mp rfl)]
  have e2 : lookup b!"Subtype" ((b!"Length", Val.int g.stored.length) :: sd) = some (.name b!"XML") := by
    obtain ⟨w, hl, hw⟩ := lookup_of hse (k := b!"Subtype") (P := IsName b!"XML") (by
      simp only [MetadataEntries, List.filter_append, noCall_filter hg.noSubtype]; rfl)
    simp only [IsName] at hw
    subst hw
    rw [← hl]
    unfold lookup
    rw [List.filter_cons_of_neg (Bool.eq_false_iff.mp rfl)]
  have e8 : unfiltered unf ((b!"Length", .int g.stored.length) :: sd) g.stored = some g.data := by
    have hfl : (MetadataEntries g.calls).filter (fun e => e.1 == b!"Filter") =
        (g.calls.flatMap MetadataMeans).filter (fun e => e.1 == b!"Filter") := by
      simp only [MetadataEntries, List.filter_append]; rfl
    have hdec : decodedStream unf f bytes g.id.get.toNat = some g.data := by
      rcases hg.data with ⟨hn, hd⟩ | ⟨flt, hc, hu⟩
      · rw [noCall_filter hn] at hfl
        rw [decoded_plain hso hse hfl, hd]
      · rw [onlyCall_filter hc] at hfl
        rw [decoded_filtered (name := isoFilter flt) hso hse (by rw [hfl]; rfl), hu]
    simpa only [decodedStream, hso] using hdec
  simp only [readXmp, hso, e1, e2]
  rw [if_pos (by decide), e8]

theorem dateOf_isDate (d : Date) (v : Val) (hv : IsDate d v) : dateOf v = some (expectedDate d) := by
  obtain ⟨s, rfl, hs⟩ := hv
  exact hs

/-- What is read from a document information dictionary. -/
structure InfoReads (i : List (Bytes × Val)) (g : GivenInfo) : Prop where
  title : optionalEntry b!"Title" i readText = some g.title
  author : optionalEntry b!"Author" i readText = some g.author
  subject : optionalEntry b!"Subject" i readText = some g.subject
  keywords : optionalEntry b!"Keywords" i readText = some g.keywords
  creator : optionalEntry b!"Creator" i readText = some g.creator
  producer : optionalEntry b!"Producer" i readText = some g.producer
  created : optionalEntry b!"CreationDate" i dateOf = some (g.created.map expectedDate)
  modified : optionalEntry b!"ModDate" i dateOf = some (g.modified.map expectedDate)
  trapped : optionalEntry b!"Trapped" i nameOf = some (g.trapped.map isoTrappingStatus)

theorem info_read (g : GivenInfo) (calls : List DocumentInfoCall) (hg : g.Set calls) (d : List (Bytes × Val))
    (he : EntriesAre (DocumentInfoEntries calls) d) : InfoReads d g := by
  have he : EntriesAre ([] ++ calls.flatMap DocumentInfoMeans) d := he
  have text : ∀ b v, IsText b v → readText v = some (id b) := fun b v hv => readText_isText b v hv
  refine ⟨?_, ?_, ?_, ?_, ?_, ?_, ?_, ?_, ?_⟩
  · simpa using optional_eq (read := readText) IsText id he rfl hg.title (fun _ => rfl) text
  · simpa using optional_eq (read := readText) IsText id he rfl hg.author (fun _ => rfl) text
  · simpa using optional_eq (read := readText) IsText id he rfl hg.subject (fun _ => rfl) text
  · simpa using optional_eq (read := readText) IsText id he rfl hg.keywords (fun _ => rfl) text
  · simpa using optional_eq (read := readText) IsText id he rfl hg.creator (fun _ => rfl) text
  · simpa using optional_eq (read := readText) IsText id he rfl hg.producer (fun _ => rfl) text
  · exact optional_eq (read := dateOf) IsDate expectedDate he rfl hg.created (fun _ => rfl) dateOf_isDate
  · exact optional_eq (read := dateOf) IsDate expectedDate he rfl hg.modified (fun _ => rfl) dateOf_isDate
  · exact optional_eq (read := nameOf) (fun k => IsName (isoTrappingStatus k)) isoTrappingStatus he rfl hg.trapped (fun _ => rfl)
      (fun b v hv => by simp only [IsName] at hv; subst hv; rfl)

end PdfW
