import Verif.Proof.Properties
import Verif.Proof.Fast
import Verif.Props.Attach

set_option linter.unusedSimpArgs false
set_option linter.unusedVariables false

/-!
# C59: the properties of a document

End to end: from the bytes of the finished file a reader obtains the version, the file identifier, the document information, the language
and the XMP metadata that the calls ask for.
-/

namespace PdfW.Props
open PdfW Spec

/-- However a file is finished, it starts with what was written before. -/
theorem finishing_prefix {unf : Val → Bytes → Option Bytes} {h : PdfHist} {p : Pdf} {w : Finishing} {bytes : Bytes} (hr : h.run = some p)
    (hf : w.run p = some bytes) (hids : ∀ r ∈ docIds h ++ w.ids, r.get < 2147483647) (hlen : w.Fits p bytes) (hu : w.Undone unf) :
    p.chunk.asBytes <+: bytes := by
  cases w with
  | table =>
    simp only [Finishing.ids, List.append_nil] at hids
    obtain ⟨-, rfl⟩ := finish_bytes hr hf hids
    rw [List.append_assoc]
    exact List.prefix_append _ _
  | stream xid =>
    have hf : p.finishWithXRefStream xid = some bytes := hf
    obtain ⟨f, q1, q2, -⟩ := streamFile_ok unf xid _ hr hf hids hlen rfl
    obtain ⟨w, -, -, -, q5, -⟩ := q2
    exact q5
  | filtered xid filter =>
    have hf : p.finishWithXRefStreamAndFilter xid filter = some bytes := hf
    obtain ⟨f, q1, q2, -⟩ := streamFile_ok unf xid _ hr hf hids hlen (hu _)
    obtain ⟨w, -, -, -, q5, -⟩ := q2
    exact q5

/-- C59. -/
theorem C59_properties (unf : Val → Bytes → Option Bytes) (h : PdfHist) (p : Pdf) (w : Finishing) (bytes : Bytes) (hr : h.run = some p)
    (hf : w.run p = some bytes) (hids : ∀ r ∈ docIds h ++ w.ids, r.get < 2147483647) (hlen : w.Fits p bytes) (hu : w.Undone unf)
    (cid : Ref) (hc : catalogId h = some cid) (cat : List CatalogCall) (hcat : HasObject (pdfItems h) cid (.val (Catalog.prog cat)))
    (hty : NoCall (CatalogMeans .code) b!"Type" cat)
    (v : Option (UInt8 × UInt8)) (hv : MaybeCall (CatalogMeans .code) b!"Version" cat v (fun v => .version v.1 v.2))
    (lang : Option (List Char)) (hl : MaybeCall (CatalogMeans .code) b!"Lang" cat lang .lang)
    (info : GivenInfo) (hi : InfoWritten h info)
    (xmp : Option GivenXmp) (hx : MaybeCall (CatalogMeans .code) b!"Metadata" cat xmp (fun x => .metadata x.id))
    (hxw : ∀ x, xmp = some x → x.Written unf (pdfItems h)) :
    fileProperties unf bytes = some (wantedProperties h v lang info xmp) := by
  obtain ⟨f, q1, htr, hfx, -⟩ := finishing_exact unf h p w bytes hr hf hids hlen hu
  have hfi : Finds f bytes (pdfItems h) := fun it hit hok => ⟨_, hfx it hit hok, bodyVal_denotes it hok⟩
  have htr' : ∀ k ∈ [b!"Size", b!"Root", b!"Info", b!"ID"], lookup k f.trailer = lookup k (wantedTrailer h (sizeFor (docIds h ++ w.ids))) ∧
      (f.trailer.all fun e => e.1 != k) = ((wantedTrailer h (sizeFor (docIds h ++ w.ids))).all fun e => e.1 != k) := by
    intro k hk
    rw [← htr]
    refine ⟨(lookup_only' hk _).symm, ?_⟩
    unfold only
    rw [List.all_filter]
    congr 1
    funext e
    by_cases he : e.1 = k
    · subst he; simp [hk]
    · simp [he]
  have t1 : lookup b!"Root" f.trailer = some (.ref cid.get.toNat 0) := by
    rw [(htr' _ (by decide)).1]
    simp only [wantedTrailer, hc]
    cases infoId h <;> cases fileId h <;> rfl
  obtain ⟨d, q2, he⟩ := catalog_read hfi t1 hcat hty
  obtain ⟨rest, hb⟩ := finishing_prefix hr hf hids hlen hu
  obtain ⟨⟨rest', hb'⟩, v1, v2⟩ := C16_header h p hr
  have q3 : headerVersion bytes = some ((version h).1.toNat, (version h).2.toNat) := by
    rw [← hb, hb', List.append_assoc]
    exact headerVersion_read _ _ v1 v2 _
  have e1 := optional_eq (read := versionOf) (fun v : UInt8 × UInt8 => IsVersion v.1 v.2) (fun v => (v.1.toNat, v.2.toNat)) he rfl hv (fun _ => rfl)
    (fun b w hw => by obtain ⟨n, rfl, hn⟩ := hw; exact hn)
  have e2 : optionalEntry b!"ID" f.trailer fileIdOf = some (fileId h) := by
    simp only [optionalEntry, (htr' b!"ID" (by decide)).1, (htr' b!"ID" (by decide)).2]
    simp only [wantedTrailer, hc]
    cases infoId h <;> cases fileId h <;> rfl
  have e3 : ∃ i, optionalEntry b!"Info" f.trailer (followDict f bytes) = some i ∧ InfoReads (i.getD []) info := by
    simp only [optionalEntry, (htr' b!"Info" (by decide)).1, (htr' b!"Info" (by decide)).2]
    simp only [wantedTrailer, hc]
    simp only [InfoWritten] at hi
    cases hid : infoId h with
    | none =>
      rw [hid] at hi
      subst hi
      refine ⟨none, by cases fileId h <;> rfl, ?_⟩
      exact ⟨rfl, rfl, rfl, rfl, rfl, rfl, rfl, rfl, rfl⟩
    | some iid =>
      rw [hid] at hi
      obtain ⟨calls, ho, hs⟩ := hi
      obtain ⟨w, hw, hden⟩ := finds_val hfi ho
      obtain ⟨i, rfl, hie⟩ := documentInfo_denotes calls w hden
      refine ⟨some i, ?_, info_read info calls hs i hie⟩
      have : followDict f bytes (.ref iid.get.toNat 0) = some i := by simp only [followDict, followRef, hw]
      cases fileId h <;> exact congrArg (Option.map some) this
  obtain ⟨i, e3, ir⟩ := e3
  have e4 := optional_eq (read := readText) IsText id he rfl hl (fun _ => rfl) (fun b v hv => readText_isText b v hv)
  have e5 : optionalEntry b!"Metadata" d (readXmp unf f bytes) = some (xmp.map GivenXmp.data) := by
    obtain ⟨y, hy, hb⟩ := optional_call (read := readXmp unf f bytes) (P := fun x : GivenXmp => IsRef x.id) (R := fun x a => a = x.data) he rfl hx
      (fun b _ => rfl) (fun b hb v hv => ⟨_, xmp_read hfi b (hxw b hb) v hv, rfl⟩)
    rw [hy]
    cases xmp <;> cases y <;> simp_all [BothOrNone]
  simp only [fileProperties, q1, q2, q3, e1, e2, e3, e4, e5, ir.title, ir.author, ir.subject, ir.keywords, ir.creator, ir.producer, ir.created,
    ir.modified, ir.trapped, Option.bind_some, Option.map_some, Option.map_id, id]
  rfl

/-! ## A document that meets the hypotheses -/

def propDate : Date := ((((Date.new 2026).setMonth 11).setDay 18).setHour 5).setUtcOffsetHour (-3)
def propCat : List CatalogCall := [.lang ['d', 'e'], .version 2 0, .metadata (rf 5), .pages (rf 2)]
def propInfo : List DocumentInfoCall :=
  [.title (.plain ['Ä', '1']), .creationDate propDate, .producer (.plain ['x', '(']), .trapped .unknown]
def propGiven : GivenInfo := ⟨some ['Ä', '1'], none, none, none, none, some ['x', '('], some propDate, none, some .unknown⟩
def propXmp : GivenXmp := ⟨rf 5, [], b!"<x/>", b!"<x/>"⟩

def propDoc : PdfHist :=
  .setFileId (.setVersion (.documentInfo (.call (.call (.catalog (.new true) (rf 1) (propCat.flatMap CatalogCall.entries))
    (.indirect (rf 2) (Pages.prog [.kids [], .count 0])))
    (.stream (rf 5) (Metadata.entries []) b!"<x/>"))
    (rf 9) (propInfo.flatMap DocumentInfoCall.entries)) 1 4) (b!"ab", b!"c\xff")

theorem propDoc_catalog : HasObject (pdfItems propDoc) (rf 1) (.val (Catalog.prog propCat)) := by
  refine ⟨⟨rf 1, .val (Catalog.prog propCat), true⟩, ?_, rfl, rfl, ?_⟩
  · simp only [propDoc, pdfItems, callItems, chunkItems, chunkPretty, pdfPretty, Catalog.prog, Catalog.entries]
    simp [pName]
  · simp only [propCat]
    simp [ItemOk, Catalog.prog, Catalog.entries, CatalogCall.entries, pName, pRef, pText, pVersion,
      Ok, OkItems, OkEntries, PrimOk, NoClash, NoClashItems, NoClashEntries, isEmptyName]

theorem propDoc_info : InfoWritten propDoc propGiven := by
  show ∃ calls, _
  refine ⟨propInfo, ?_, ?_⟩
  · refine ⟨⟨rf 9, .val (DocumentInfo.prog propInfo), true⟩, ?_, rfl, rfl, ?_⟩
    · simp only [propDoc, pdfItems, callItems, chunkItems, chunkPretty, pdfPretty, DocumentInfo.prog, DocumentInfo.entries]
      simp
    · simp only [propInfo]
      simp [ItemOk, DocumentInfo.prog, DocumentInfo.entries, DocumentInfoCall.entries, pName, pRef, pText, pDate, TextLike.prog, pStr,
        Ok, OkItems, OkEntries, PrimOk, NoClash, NoClashItems, NoClashEntries, isEmptyName, DateInRange, propDate, Date.new, Date.setMonth, Date.setDay, Date.setHour, Date.setUtcOffsetHour, Date.clamp] <;> decide
  · constructor <;> first | rfl | simp [MaybeCall, NoCall, DocumentInfoMeans, propInfo, propGiven]

theorem propDoc_xmp : propXmp.Written (fun _ _ => none) (pdfItems propDoc) where
  object := by
    refine ⟨⟨rf 5, .stream (Metadata.entries []) b!"<x/>", true⟩, ?_, rfl, rfl, ?_⟩
    · simp [propDoc, pdfItems, callItems, chunkItems, chunkPretty, pdfPretty]
    · simp [ItemOk, Metadata.entries, pName, Ok, OkItems, OkEntries, PrimOk, NoClash, NoClashItems, NoClashEntries, isEmptyName]
  noType := by simp [NoCall, propXmp]
  noSubtype := by simp [NoCall, propXmp]
  data := Or.inl ⟨by simp [NoCall, propXmp], rfl⟩

example : catalogId propDoc = some (rf 1) ∧ NoCall (CatalogMeans .code) b!"Type" propCat ∧
    MaybeCall (CatalogMeans .code) b!"Version" propCat (some (2, 0)) (fun v => .version v.1 v.2) ∧
    MaybeCall (CatalogMeans .code) b!"Lang" propCat (some ['d', 'e']) .lang ∧
    MaybeCall (CatalogMeans .code) b!"Metadata" propCat (some propXmp) (fun x => .metadata x.id) ∧
    (∀ x, some propXmp = some x → x.Written (fun _ _ => none) (pdfItems propDoc)) ∧ ∀ r ∈ docIds propDoc, r.get < 2147483647 :=
  ⟨rfl, by simp [NoCall, CatalogMeans, propCat], rfl, rfl, rfl, by rintro x ⟨⟩; exact propDoc_xmp, by decide +kernel⟩


/-- The file can be finished and is short enough, and this is read from it. -/
example : (((propDoc.run.bind fun p => p.finish).bind fun b => if b.length < 10 ^ 10 then fileProperties (fun _ _ => none) b else none).any fun p =>
    p.version == (2, 0) && p.id == some (b!"ab", b!"c\xff") && p.title == some ['Ä', '1'] && p.author == none && p.subject == none &&
    p.keywords == none && p.creator == none && p.producer == some ['x', '('] &&
    p.created.isSome && p.modified == none && p.trapped == some b!"Unknown" &&
    p.lang == some ['d', 'e'] && p.xmp == some b!"<x/>") = true := by
  rw [← fastRun_eq]
  decide +kernel

end PdfW.Props
