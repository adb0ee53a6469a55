import Verif.Spec.Constructors
import Verif.Props.Tree
import Verif.Props.Color
import Verif.Proof.Typed.Annotations
import Verif.Proof.Typed.Destination
import Verif.Proof.Typed.Files
import Verif.Proof.Typed.Fonts
import Verif.Proof.Typed.Forms
import Verif.Proof.Typed.Functions
import Verif.Proof.Typed.Object
import Verif.Proof.Typed.Pattern
import Verif.Proof.Typed.Resources
import Verif.Proof.Typed.Structure
import Verif.Proof.Typed.XObject

set_option linter.unusedSimpArgs false
set_option linter.unusedVariables false

/-! # Typed constructors: proofs -/

namespace PdfW
open PdfW.Spec

theorem isDirect_of {p : Prog} {P : Val → Prop} (h : ItemImplied p P) (hok : Ok p) : IsDirect P (bodyVal (.val p)) :=
  h _ (progVal_denotes p hok)

theorem isStream_of {es : List (Bytes × Prog)} {ms : List (Bytes × (Val → Prop))} (h : Implied EntryImplied es ms) (hok : OkEntries es)
    (data : Bytes) : IsStream ms data (bodyVal (.stream es data)) :=
  ⟨rfl, _, rfl, entriesAre_of h (entriesVal_denotes es hok)⟩

theorem destinations_denotes (named : List (Bytes × List DestinationCall)) :
    ItemImplied (.dict (named.map fun e => (e.1, Destination.prog e.2))) (DictIs (named.map fun e => (e.1, IsDestination e.2))) :=
  dictIs_of (Implied.map _ _ (fun e => ⟨rfl, destination_denotes e.2⟩) named)

theorem typed_isA (rd : Reading) (o : TypedObject) (hc : rd = .code ∨ TypedObject.conforming o = true) {b : Body} (hb : TypedObject.body o = some b)
    {id : Ref} {pretty : Bool} (hok : ItemOk ⟨id, b, pretty⟩) : TypedObject.IsA rd o (bodyVal b) := by
  cases o with
  | pages calls => simp only [TypedObject.body, Option.some.injEq] at hb; subst hb; exact isDirect_of (pages_denotes calls) hok.1
  | page calls => simp only [TypedObject.body, Option.some.injEq] at hb; subst hb; exact isDirect_of (page_denotes rd calls hc) hok.1
  | outlineItem calls => simp only [TypedObject.body, Option.some.injEq] at hb; subst hb; exact isDirect_of (outlineItem_denotes calls) hok.1
  | destination calls => simp only [TypedObject.body, Option.some.injEq] at hb; subst hb; exact isDirect_of (destination_denotes calls) hok.1
  | fileSpec calls => simp only [TypedObject.body, Option.some.injEq] at hb; subst hb; exact isDirect_of (fileSpec_denotes calls) hok.1
  | structElement calls => simp only [TypedObject.body, Option.some.injEq] at hb; subst hb; exact isDirect_of (structElement_denotes calls) hok.1
  | namespaceDict calls => simp only [TypedObject.body, Option.some.injEq] at hb; subst hb; exact isDirect_of (namespace_denotes rd calls hc) hok.1
  | extGraphics calls => simp only [TypedObject.body, Option.some.injEq] at hb; subst hb; exact isDirect_of (extGraphicsState_denotes rd calls hc) hok.1
  | type1Font calls => simp only [TypedObject.body, Option.some.injEq] at hb; subst hb; exact isDirect_of (type1Font_denotes calls) hok.1
  | type3Font calls => simp only [TypedObject.body, Option.some.injEq] at hb; subst hb; exact isDirect_of (type3Font_denotes calls) hok.1
  | type0Font calls => simp only [TypedObject.body, Option.some.injEq] at hb; subst hb; exact isDirect_of (type0Font_denotes calls) hok.1
  | cidFont calls => simp only [TypedObject.body, Option.some.injEq] at hb; subst hb; exact isDirect_of (cidFont_denotes calls) hok.1
  | fontDescriptor calls => simp only [TypedObject.body, Option.some.injEq] at hb; subst hb; exact isDirect_of (fontDescriptor_denotes calls) hok.1
  | functionShading calls => simp only [TypedObject.body, Option.some.injEq] at hb; subst hb; exact isDirect_of (functionShading_denotes calls) hok.1
  | shadingPattern calls => simp only [TypedObject.body, Option.some.injEq] at hb; subst hb; exact isDirect_of (shadingPattern_denotes rd calls hc) hok.1
  | nameTree calls => simp only [TypedObject.body, Option.some.injEq] at hb; subst hb; exact isDirect_of (nameTree_denotes rd calls hc) hok.1
  | numberTree calls => simp only [TypedObject.body, Option.some.injEq] at hb; subst hb; exact isDirect_of (numberTree_denotes calls) hok.1
  | annotation calls => simp only [TypedObject.body, Option.some.injEq] at hb; subst hb; exact isDirect_of (annotation_denotes rd calls hc) hok.1
  | formField calls => simp only [TypedObject.body, Option.some.injEq] at hb; subst hb; exact isDirect_of (field_denotes rd calls hc) hok.1
  | signatureFieldLock calls => simp only [TypedObject.body, Option.some.injEq] at hb; subst hb; exact isDirect_of (signatureFieldLock_denotes calls) hok.1
  | signatureSeedValue calls => simp only [TypedObject.body, Option.some.injEq] at hb; subst hb; exact isDirect_of (signatureSeedValue_denotes rd calls hc) hok.1
  | outline calls => simp only [TypedObject.body, Option.some.injEq] at hb; subst hb; exact isDirect_of (outline_denotes calls) hok.1
  | destinations named => simp only [TypedObject.body, Option.some.injEq] at hb; subst hb; exact isDirect_of (destinations_denotes named) hok.1
  | colorSpace call =>
    simp only [TypedObject.body, Option.map_eq_some_iff] at hb
    obtain ⟨p, hp, rfl⟩ := hb
    exact Props.colorSpace_val call p hp hok.1
  | exponentialFunction calls => simp only [TypedObject.body, Option.some.injEq] at hb; subst hb; exact isDirect_of (exponential_denotes calls) hok.1
  | stitchingFunction calls => simp only [TypedObject.body, Option.some.injEq] at hb; subst hb; exact isDirect_of (stitching_denotes calls) hok.1
  | embeddedFile calls data => simp only [TypedObject.body, Option.some.injEq] at hb; subst hb; exact isStream_of (embeddedFile_implied calls) hok.1 data
  | metadata calls data => simp only [TypedObject.body, Option.some.injEq] at hb; subst hb; exact isStream_of (metadata_implied calls) hok.1 data
  | imageXObject calls data => simp only [TypedObject.body, Option.some.injEq] at hb; subst hb; exact isStream_of (imageXObject_implied calls) hok.1 data
  | formXObject calls data => simp only [TypedObject.body, Option.some.injEq] at hb; subst hb; exact isStream_of (formXObject_implied calls) hok.1 data
  | cmap calls data => simp only [TypedObject.body, Option.some.injEq] at hb; subst hb; exact isStream_of (cmapStream_implied calls) hok.1 data
  | streamShading calls data => simp only [TypedObject.body, Option.some.injEq] at hb; subst hb; exact isStream_of (streamShading_implied calls) hok.1 data
  | tilingPattern calls data => simp only [TypedObject.body, Option.some.injEq] at hb; subst hb; exact isStream_of (tilingPattern_implied calls) hok.1 data
  | iccProfile calls data => simp only [TypedObject.body, Option.some.injEq] at hb; subst hb; exact isStream_of (iccProfile_implied calls) hok.1 data
  | sampledFunction calls data => simp only [TypedObject.body, Option.some.injEq] at hb; subst hb; exact isStream_of (sampledFunction_implied calls) hok.1 data
  | postScriptFunction calls data => simp only [TypedObject.body, Option.some.injEq] at hb; subst hb; exact isStream_of (postScriptFunction_implied calls) hok.1 data
  | stream calls data => simp only [TypedObject.body, Option.some.injEq] at hb; subst hb; exact isStream_of (stream_implied calls) hok.1 data

/-- The call of a history that a typed constructor amounts to. -/
def bodyCall (id : Ref) : Body → ChunkCall
  | .val p => .indirect id p
  | .stream es data => .stream id es data

theorem typed_run (id : Ref) (ch ch' : Chunk) (o : TypedObject) (h : o.run id ch = some ch') :
    ∃ b, TypedObject.body o = some b ∧ (bodyCall id b).run ch = some ch' := by
  cases o with
  | pages calls => exact ⟨_, rfl, h⟩
  | page calls => exact ⟨_, rfl, h⟩
  | outlineItem calls => exact ⟨_, rfl, h⟩
  | destination calls => exact ⟨_, rfl, h⟩
  | fileSpec calls => exact ⟨_, rfl, h⟩
  | structElement calls => exact ⟨_, rfl, h⟩
  | namespaceDict calls => exact ⟨_, rfl, h⟩
  | extGraphics calls => exact ⟨_, rfl, h⟩
  | type1Font calls => exact ⟨_, rfl, h⟩
  | type3Font calls => exact ⟨_, rfl, h⟩
  | type0Font calls => exact ⟨_, rfl, h⟩
  | cidFont calls => exact ⟨_, rfl, h⟩
  | fontDescriptor calls => exact ⟨_, rfl, h⟩
  | functionShading calls => exact ⟨_, rfl, h⟩
  | shadingPattern calls => exact ⟨_, rfl, h⟩
  | nameTree calls => exact ⟨_, rfl, h⟩
  | numberTree calls => exact ⟨_, rfl, h⟩
  | annotation calls => exact ⟨_, rfl, h⟩
  | formField calls => exact ⟨_, rfl, h⟩
  | signatureFieldLock calls => exact ⟨_, rfl, h⟩
  | signatureSeedValue calls => exact ⟨_, rfl, h⟩
  | outline calls =>
    simp only [TypedObject.run, Outline.run] at h
    split at h
    · simp at h
    · simp only [Option.map_some] at h
      exact ⟨_, rfl, h⟩
  | destinations named => exact ⟨_, rfl, h⟩
  | colorSpace call =>
    simp only [TypedObject.run, Option.map_eq_some_iff] at h
    obtain ⟨p, hp, rfl⟩ := h
    exact ⟨.val p, by simp [TypedObject.body, hp], rfl⟩
  | exponentialFunction calls => exact ⟨_, rfl, h⟩
  | stitchingFunction calls => exact ⟨_, rfl, h⟩
  | embeddedFile calls data =>
    simp only [TypedObject.run, EmbeddedFile.write] at h
    split at h
    · simp at h
    · exact ⟨_, rfl, h⟩
  | metadata calls data =>
    simp only [TypedObject.run, Metadata.write] at h
    split at h
    · simp at h
    · exact ⟨_, rfl, h⟩
  | imageXObject calls data =>
    simp only [TypedObject.run, ImageXObject.write] at h
    split at h
    · simp at h
    · exact ⟨_, rfl, h⟩
  | formXObject calls data =>
    simp only [TypedObject.run, FormXObject.write] at h
    split at h
    · simp at h
    · exact ⟨_, rfl, h⟩
  | cmap calls data =>
    simp only [TypedObject.run, CmapStream.write] at h
    split at h
    · simp at h
    · exact ⟨_, rfl, h⟩
  | streamShading calls data =>
    simp only [TypedObject.run, StreamShading.write] at h
    split at h
    · simp at h
    · exact ⟨_, rfl, h⟩
  | tilingPattern calls data =>
    simp only [TypedObject.run, TilingPattern.write] at h
    split at h
    · simp at h
    · exact ⟨_, rfl, h⟩
  | iccProfile calls data =>
    simp only [TypedObject.run, IccProfile.write] at h
    split at h
    · simp at h
    · exact ⟨_, rfl, h⟩
  | sampledFunction calls data =>
    simp only [TypedObject.run, SampledFunction.write] at h
    split at h
    · simp at h
    · exact ⟨_, rfl, h⟩
  | postScriptFunction calls data =>
    simp only [TypedObject.run, PostScriptFunction.write] at h
    split at h
    · simp at h
    · exact ⟨_, rfl, h⟩
  | stream calls data =>
    simp only [TypedObject.run, Stream.write] at h
    split at h
    · simp at h
    · exact ⟨_, rfl, h⟩

/-- The history of a document with these further calls. -/
def DocCall.hist (h : PdfHist) : DocCall → PdfHist
  | .object id o => match TypedObject.body o with | some b => .call h (bodyCall id b) | none => h
  | .chunk c => .call h c
  | .setVersion a b => .setVersion h a b
  | .setBinaryMarker m => .setBinaryMarker h m
  | .setFileId id => .setFileId h id
  | .catalog id calls => .catalog h id (calls.flatMap CatalogCall.entries)
  | .documentInfo id calls => .documentInfo h id (calls.flatMap DocumentInfoCall.entries)

def docHist : PdfHist → List DocCall → PdfHist
  | h, [] => h
  | h, c :: cs => docHist (c.hist h) cs

theorem docCall_run (h : PdfHist) (p p' : Pdf) (hr : h.run = some p) (c : DocCall) (hc : c.run p = some p') : (c.hist h).run = some p' := by
  cases c with
  | object id o =>
    simp only [DocCall.run, Option.map_eq_some_iff] at hc
    obtain ⟨ch, h1, rfl⟩ := hc
    obtain ⟨b, h2, h3⟩ := typed_run id _ _ o h1
    simp only [DocCall.hist, h2, PdfHist.run, hr, h3]
  | chunk c =>
    simp only [DocCall.run, Option.map_eq_some_iff] at hc
    obtain ⟨ch, h1, rfl⟩ := hc
    simp only [DocCall.hist, PdfHist.run, hr, h1]
  | setVersion a b => simpa only [DocCall.hist, PdfHist.run, hr, DocCall.run] using hc
  | setBinaryMarker m => simpa only [DocCall.hist, PdfHist.run, hr, DocCall.run] using hc
  | setFileId id => simpa only [DocCall.hist, PdfHist.run, hr, DocCall.run] using hc
  | catalog id calls =>
    simp only [DocCall.run] at hc
    split at hc
    · simp at hc
    · simpa only [DocCall.hist, PdfHist.run, hr] using hc
  | documentInfo id calls => simpa only [DocCall.hist, PdfHist.run, hr, DocCall.run] using hc

theorem runDoc_hist : ∀ (calls : List DocCall) (h : PdfHist) (p p' : Pdf), h.run = some p → runDoc p calls = some p' → (docHist h calls).run = some p'
  | [], h, p, p', hr, hc => by simp only [runDoc, Option.some.injEq] at hc; subst hc; exact hr
  | c :: cs, h, p, p', hr, hc => by
    simp only [runDoc] at hc
    split at hc
    · rename_i q hq
      exact runDoc_hist cs _ q p' (docCall_run h p q hr c hq) hc
    · simp at hc

/-- A call that panics does not leave a document. -/
theorem runDoc_body : ∀ (calls : List DocCall) (p p' : Pdf), runDoc p calls = some p' → ∀ id o, DocCall.object id o ∈ calls →
    TypedObject.body o ≠ none
  | [], p, p', hc, id, o, hm => nomatch hm
  | c :: cs, p, p', hc, id, o, hm => by
    simp only [runDoc] at hc
    split at hc
    · rename_i q hq
      rcases List.mem_cons.mp hm with rfl | hm
      · simp only [DocCall.run, Option.map_eq_some_iff] at hq
        obtain ⟨ch, h1, rfl⟩ := hq
        obtain ⟨b, h2, h3⟩ := typed_run id _ _ o h1
        simp [h2]
      · exact runDoc_body cs q p' hc id o hm
    · simp at hc

theorem docHist_pretty : ∀ (calls : List DocCall) (h : PdfHist), pdfPretty (docHist h calls) = pdfPretty h
  | [], h => rfl
  | c :: cs, h => by
    rw [docHist, docHist_pretty cs]
    cases c with
    | object id o => simp only [DocCall.hist]; split <;> rfl
    | _ => rfl

theorem hist_prefix (c : DocCall) (h : PdfHist) : ∀ it ∈ pdfItems h, it ∈ pdfItems (c.hist h) := by
  intro it hit
  cases c with
  | object id o =>
    simp only [DocCall.hist]; split
    · exact List.mem_append_left _ hit
    · exact hit
  | chunk c => exact List.mem_append_left _ hit
  | setVersion a b => exact hit
  | setBinaryMarker m => exact hit
  | setFileId id => exact hit
  | catalog id calls => exact List.mem_append_left _ hit
  | documentInfo id calls => exact List.mem_append_left _ hit

theorem docHist_prefix : ∀ (calls : List DocCall) (h : PdfHist), ∀ it ∈ pdfItems h, it ∈ pdfItems (docHist h calls)
  | [], h, it, hit => hit
  | c :: cs, h, it, hit => docHist_prefix cs _ it (hist_prefix c h it hit)

/-- The objects a call contributes are in the document. -/
theorem docHist_has : ∀ (calls : List DocCall) (h : PdfHist) (c : DocCall), c ∈ calls →
    ∃ h', pdfPretty h' = pdfPretty h ∧ ∀ it ∈ pdfItems (c.hist h'), it ∈ pdfItems (docHist h calls)
  | [], h, c, hm => nomatch hm
  | d :: ds, h, c, hm => by
    rcases List.mem_cons.mp hm with rfl | hm
    · exact ⟨h, rfl, fun it hit => docHist_prefix ds _ it hit⟩
    · obtain ⟨h', h1, h2⟩ := docHist_has ds (d.hist h) c hm
      refine ⟨h', ?_, h2⟩
      rw [h1]
      exact docHist_pretty [d] h

theorem lastOf_cons {β : Type u} {γ : Type v} (g : γ → Option β) (c : γ) (cs : List γ) : lastOf g (c :: cs) = (lastOf g cs).or (g c) := by
  simp only [lastOf, List.reverse_cons, List.findSome?_append, List.findSome?_cons, List.findSome?_nil]
  cases g c <;> rfl

theorem docHist_last {β : Type} (sel : PdfHist → Option β) (g : DocCall → Option β) (h1 : ∀ h c, sel (c.hist h) = (g c).or (sel h)) :
    ∀ (calls : List DocCall) (h : PdfHist), sel (docHist h calls) = (lastOf g calls).or (sel h)
  | [], h => rfl
  | c :: cs, h => by
    rw [docHist, docHist_last sel g h1 cs, h1, lastOf_cons, Option.or_assoc]

theorem docHist_trailer (calls : List DocCall) (pretty : Bool) (size : Nat) :
    wantedTrailer (docHist (.new pretty) calls) size = docTrailer calls size := by
  have e1 := docHist_last catalogId (fun c => match c with | DocCall.catalog id _ => some id | _ => none) (by
    intro h c; cases c with | object id o => simp only [DocCall.hist]; split <;> rfl | _ => rfl) calls (.new pretty)
  have e2 := docHist_last infoId (fun c => match c with | DocCall.documentInfo id _ => some id | _ => none) (by
    intro h c; cases c with | object id o => simp only [DocCall.hist]; split <;> rfl | _ => rfl) calls (.new pretty)
  have e3 := docHist_last fileId (fun c => match c with | DocCall.setFileId id => some id | _ => none) (by
    intro h c; cases c with | object id o => simp only [DocCall.hist]; split <;> rfl | _ => rfl) calls (.new pretty)
  simp only [catalogId, infoId, fileId, Option.or_none] at e1 e2 e3
  simp only [wantedTrailer, docTrailer, e1, e2, e3]
  rfl

theorem docCall_ids (h : PdfHist) (p p' : Pdf) (c : DocCall) (hc : c.run p = some p') (ht : docCallTyped c = true) :
    docIds (c.hist h) = docIds h ++ (docCallId c).toList := by
  cases c with
  | object id o =>
    simp only [DocCall.run, Option.map_eq_some_iff] at hc
    obtain ⟨ch, h1, rfl⟩ := hc
    obtain ⟨b, h2, h3⟩ := typed_run id _ _ o h1
    simp only [DocCall.hist, h2]
    cases b <;> simp [docIds, pdfItems, bodyCall, callItems, docCallId]
  | chunk c => exact absurd ht (by simp [docCallTyped])
  | setVersion a b => simp [DocCall.hist, docIds, pdfItems, docCallId]
  | setBinaryMarker m => simp [DocCall.hist, docIds, pdfItems, docCallId]
  | setFileId id => simp [DocCall.hist, docIds, pdfItems, docCallId]
  | catalog id calls => simp [DocCall.hist, docIds, pdfItems, docCallId]
  | documentInfo id calls => simp [DocCall.hist, docIds, pdfItems, docCallId]

theorem docHist_ids : ∀ (calls : List DocCall) (h : PdfHist) (p p' : Pdf), runDoc p calls = some p' → (∀ c ∈ calls, docCallTyped c = true) →
    docIds (docHist h calls) = docIds h ++ calls.filterMap docCallId
  | [], h, p, p', hc, ht => by simp [docHist]
  | c :: cs, h, p, p', hc, ht => by
    simp only [runDoc] at hc
    split at hc
    · rename_i q hq
      rw [docHist, docHist_ids cs _ q p' hc (fun c hm => ht c (List.mem_cons_of_mem _ hm)), docCall_ids h p q c hq (ht c (List.mem_cons_self ..)),
        List.append_assoc]
      congr 1
      cases h : docCallId c <;> simp [h]
    · simp at hc

end PdfW
