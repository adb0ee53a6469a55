import Verif.Proof.Constructors

set_option linter.unusedSimpArgs false
set_option linter.unusedVariables false
set_option maxRecDepth 8192

/-!
# C62: documents written with the typed methods only
-/

namespace PdfW.Props
open PdfW Spec

/-- C62: in a document built by any sequence of typed calls (and other calls) and finished in any way, every typed object that PDF
can represent is found under its id and is the documented kind of object with, in order, what the calls on its writer stand for,
streams with exactly their data; the catalog and the document information likewise; and the trailer names the last catalog,
document information and identifier. Nothing is found under numbers that were not written. -/
theorem C62_typed_document (unf : Val → Bytes → Option Bytes) (pretty : Bool) (calls : List DocCall) (p : Pdf) (w : Finishing) (bytes : Bytes)
    (hb : Builds pretty calls p) (hf : w.run p = some bytes) (hids : ∀ r ∈ p.chunk.refs ++ w.ids, r.get < 2147483647)
    (hlen : w.Fits p bytes) (hu : w.Undone unf) (rd : Reading) :
    ∃ f, readFile unf bytes = some f ∧
      (∀ id o, DocCall.object id o ∈ calls → TypedObject.Representable id o pretty → (rd = .code ∨ o.conforming = true) →
        ∃ v, f.object bytes id.get.toNat = some v ∧ TypedObject.IsA rd o v) ∧
      (∀ id cs, DocCall.catalog id cs ∈ calls → ItemOk ⟨id, .val (Catalog.prog cs), pretty⟩ → (rd = .code ∨ cs.all CatalogCall.conforming = true) →
        ∃ v, f.object bytes id.get.toNat = some v ∧ IsDirect (IsCatalog rd cs) v) ∧
      (∀ id cs, DocCall.documentInfo id cs ∈ calls → ItemOk ⟨id, .val (DocumentInfo.prog cs), pretty⟩ →
        ∃ v, f.object bytes id.get.toNat = some v ∧ IsDirect (IsDocumentInfo cs) v) ∧
      only [b!"Size", b!"Root", b!"Info", b!"ID"] f.trailer = docTrailer calls (sizeFor (p.chunk.refs ++ w.ids)) ∧
      (∀ i : Nat, (∀ r ∈ p.chunk.refs ++ w.ids, r.get ≠ i) → f.object bytes i = none) := by
  have hr : (docHist (.new pretty) calls).run = some p := runDoc_hist calls (.new pretty) _ p rfl hb
  have e : p.chunk.refs = docIds (docHist (.new pretty) calls) := (docFacts _ p hr).ids
  rw [e] at hids ⊢
  obtain ⟨f, h1, h2, h3, h4⟩ := finishing_exact unf _ p w bytes hr hf hids hlen hu
  refine ⟨f, h1, ?_, ?_, ?_, by rw [h2, docHist_trailer], h4⟩
  · intro id o hm hok hc
    obtain ⟨h', hp, hi⟩ := docHist_has calls (.new pretty) _ hm
    have hp' : pdfPretty h' = pretty := hp
    cases hbd : TypedObject.body o with
    | none => exact absurd hbd (runDoc_body calls _ p hb id o hm)
    | some b =>
      have hmem : (⟨id, b, pretty⟩ : Item) ∈ pdfItems (docHist (.new pretty) calls) := by
        apply hi
        simp only [DocCall.hist, hbd]
        cases b <;> simp [pdfItems, bodyCall, callItems, hp']
      exact ⟨_, h3 _ hmem (hok b hbd), typed_isA rd o hc hbd (hok b hbd)⟩
  · intro id cs hm hok hc
    obtain ⟨h', hp, hi⟩ := docHist_has calls (.new pretty) _ hm
    have hp' : pdfPretty h' = pretty := hp
    refine ⟨_, h3 ⟨id, .val (Catalog.prog cs), pretty⟩ (hi _ ?_) hok, isDirect_of (catalog_denotes rd cs hc) hok.1⟩
    simp [DocCall.hist, pdfItems, hp', Catalog.prog, Catalog.entries, pName]
  · intro id cs hm hok
    obtain ⟨h', hp, hi⟩ := docHist_has calls (.new pretty) _ hm
    have hp' : pdfPretty h' = pretty := hp
    refine ⟨_, h3 ⟨id, .val (DocumentInfo.prog cs), pretty⟩ (hi _ ?_) hok, isDirect_of (documentInfo_denotes cs) hok.1⟩
    simp [DocCall.hist, pdfItems, hp', DocumentInfo.prog, DocumentInfo.entries, pName]

/-- C62: with typed calls only, the objects of the document are, in order, exactly those of the calls. -/
theorem C62_refs (pretty : Bool) (calls : List DocCall) (p : Pdf) (hb : Builds pretty calls p) (ht : ∀ c ∈ calls, docCallTyped c = true) :
    p.chunk.refs = calls.filterMap docCallId := by
  have hr : (docHist (.new pretty) calls).run = some p := runDoc_hist calls (.new pretty) _ p rfl hb
  have e : p.chunk.refs = docIds (docHist (.new pretty) calls) := (docFacts _ p hr).ids
  rw [e, docHist_ids calls (.new pretty) _ p hb ht]
  rfl

/-! ## A concrete document -/

def typedSample : List DocCall :=
  [.setVersion 1 4, .catalog (rf 1) [.pages (rf 2)], .object (rf 2) (.pages [.kids [rf 3], .count 1]),
   .object (rf 3) (.page [.parent (rf 2), .contents (rf 4)]), .object (rf 4) (.stream [] b!"q Q"),
   .object (rf 5) (.colorSpace (.preset .srgb)), .object (rf 6) (.imageXObject [.width 1, .height 1] b!"x"),
   .object (rf 7) (.destinations [(b!"a", [.page (rf 3), .fit])]), .documentInfo (rf 8) [.title (.plain "t".toList)]]

/-- The sample can be built and finished, and meets the conditions of the theorem. -/
example : ∃ p bytes, Builds false typedSample p ∧ Finishing.run .table p = some bytes ∧
    (∀ r ∈ p.chunk.refs ++ Finishing.ids .table, r.get < 2147483647) ∧ Finishing.Fits p bytes .table ∧
    Finishing.Undone (fun _ _ => none) .table ∧ (∀ c ∈ typedSample, docCallTyped c = true) := by
  refine ⟨_, _, rfl, rfl, ?_, ?_, trivial, by decide⟩
  · decide +kernel
  · show _ < _
    decide +kernel

macro "typed_clash" : tactic => `(tactic| simp [Pages.prog, Pages.entries, PagesCall.entries, Page.prog, Page.entries, PageCall.entries,
  Stream.entries, ImageXObject.entries, ImageXObjectCall.entries, Destination.prog, Destination.items, DestinationCall.items, ColorPreset.prog, srgb,
  calRgb, optEntry, reals, Xyz.list, Nine.list, cieD65, pName, pRef, pInt, refs, NoClash, NoClashItems, NoClashEntries, isEmptyName, ColorSpaceType.toName])

example : ∀ id o, DocCall.object id o ∈ typedSample → TypedObject.Representable id o false ∧ o.conforming = true := by
  intro id o h
  simp only [typedSample, List.mem_cons, DocCall.object.injEq, reduceCtorEq, false_or, List.not_mem_nil, or_false] at h
  rcases h with ⟨rfl, rfl⟩ | ⟨rfl, rfl⟩ | ⟨rfl, rfl⟩ | ⟨rfl, rfl⟩ | ⟨rfl, rfl⟩ | ⟨rfl, rfl⟩ <;> refine ⟨?_, by decide⟩ <;> intro b hb <;>
    simp only [TypedObject.body, ColorSpaceCall.prog, Option.map_some, Option.some.injEq] at hb <;> subst hb
  · exact ⟨okB_sound _ (by decide +kernel), Or.inr (by typed_clash)⟩
  · exact ⟨okB_sound _ (by decide +kernel), Or.inr (by typed_clash)⟩
  · exact ⟨okEntriesB_sound _ (by decide +kernel), Or.inr (by typed_clash), by decide⟩
  · exact ⟨okB_sound _ (by decide +kernel), Or.inr (by typed_clash)⟩
  · exact ⟨okEntriesB_sound _ (by decide +kernel), Or.inr (by typed_clash), by decide⟩
  · exact ⟨okB_sound _ (by decide +kernel), Or.inr (by typed_clash)⟩

/-- A constructor whose calls panic leaves no document. -/
example : runDoc (Pdf.withSettings false) [.object (rf 1) (.outline [.count (-1)])] = none := by decide +kernel

end PdfW.Props
