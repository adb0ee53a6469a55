import Verif.Spec.Coding
import Verif.Proof.Attach
import Verif.Proof.Details
import Verif.Proof.States
import Verif.Proof.Typed.Fonts
import Verif.Proof.Typed.Functions
import Verif.Proof.Typed.Pattern
import Verif.Proof.Typed.XObject

set_option linter.unusedSimpArgs false
set_option linter.unusedVariables false

/-! # Filters and their parameters: proofs -/

namespace PdfW
open Spec

variable {unf : Val → Bytes → Option Bytes} {f : FileEnd} {bytes : Bytes} {items : List Item}

/-- The dictionary of a stream says this about its filter. -/
structure CodingEntries (f : FileEnd) (bytes : Bytes) (d : List (Bytes × Val)) (filter : Option Filter) (parms : Option (List DecodeParmsCall)) : Prop where
  named : optionalEntry b!"Filter" d nameOf = some (filter.map isoFilter)
  absent : filter = none → (d.all fun e => e.1 != b!"Filter") = true
  parms : ∃ y, optionalEntry b!"DecodeParms" d (followDict f bytes) = some y ∧ BothOrNone (fun p d => EntriesAre (DecodeParmsEntries p) d) parms y

theorem codingCalls_entries {α : Type} {means : α → List (Bytes × (Val → Prop))} {stream : StreamCall → α} {calls : List α} {filter : Option Filter}
    {parms : Option (List DecodeParmsCall)} (h : CodingCalls means stream calls filter parms) {pre : List (Bytes × (Val → Prop))} {d : List (Bytes × Val)}
    (he : EntriesAre (pre ++ calls.flatMap means) d) (hp : pre.filter (fun e => e.1 == b!"Filter") = []) (hp' : pre.filter (fun e => e.1 == b!"DecodeParms") = [])
    (hs : ∀ c, means (stream c) = StreamMeans c) (n : Nat) : CodingEntries f bytes ((b!"Length", .int n) :: d) filter parms := by
  obtain ⟨h1, h2⟩ := h
  refine ⟨?_, ?_, ?_⟩
  · rw [optional_cons (by decide)]
    exact optional_eq (read := nameOf) (fun x => IsName (isoFilter x)) isoFilter he hp h1 (fun b => by rw [hs]; rfl) (fun b => isName_nameOf _)
  · rintro rfl
    have := absent_of (k := b!"Filter") he (by rw [List.filter_append, hp, noCall_filter h1]; rfl)
    simp only [List.all_cons, this, Bool.and_true]
    decide
  · rw [optional_cons (by decide)]
    exact optional_call (R := fun p d => EntriesAre (DecodeParmsEntries p) d) (P := IsDecodeParms) he hp' h2 (fun b _ => by rw [hs]; rfl)
      (fun b _ v hv => by obtain ⟨d, rfl, he⟩ := hv; exact ⟨d, rfl, he⟩)

theorem streamHas_read (hf : Finds f bytes items) {id : Ref} {stored : Bytes} {filter : Option Filter} {parms : Option (List DecodeParmsCall)}
    (h : StreamHas items id stored filter parms) :
    ∃ d, f.object bytes id.get.toNat = some (.stream d stored) ∧ CodingEntries f bytes d filter parms := by
  cases h with
  | plain ho h =>
    obtain ⟨d, q, hd⟩ := finds_stream hf ho
    exact ⟨_, q, codingCalls_entries (pre := []) h (entriesAre_of (stream_implied _) hd) rfl rfl (fun _ => rfl) _⟩
  | embedded ho h =>
    obtain ⟨d, q, hd⟩ := finds_stream hf ho
    exact ⟨_, q, codingCalls_entries h (entriesAre_of (embeddedFile_implied _) hd) rfl rfl (fun _ => rfl) _⟩
  | cmap ho h =>
    obtain ⟨d, q, hd⟩ := finds_stream hf ho
    exact ⟨_, q, codingCalls_entries h (entriesAre_of (cmapStream_implied _) hd) rfl rfl (fun _ => rfl) _⟩
  | sampled ho h =>
    obtain ⟨d, q, hd⟩ := finds_stream hf ho
    exact ⟨_, q, codingCalls_entries h (entriesAre_of (sampledFunction_implied _) hd) rfl rfl (fun _ => rfl) _⟩
  | postScript ho h =>
    obtain ⟨d, q, hd⟩ := finds_stream hf ho
    exact ⟨_, q, codingCalls_entries h (entriesAre_of (postScriptFunction_implied _) hd) rfl rfl (fun _ => rfl) _⟩
  | icc ho h =>
    obtain ⟨d, q, hd⟩ := finds_stream hf ho
    exact ⟨_, q, codingCalls_entries (pre := []) h (entriesAre_of (iccProfile_implied _) hd) rfl rfl (fun _ => rfl) _⟩
  | tiling ho h =>
    obtain ⟨d, q, hd⟩ := finds_stream hf ho
    exact ⟨_, q, codingCalls_entries h (entriesAre_of (tilingPattern_implied _) hd) rfl rfl (fun _ => rfl) _⟩
  | shading ho h =>
    obtain ⟨d, q, hd⟩ := finds_stream hf ho
    exact ⟨_, q, codingCalls_entries (pre := []) h (entriesAre_of (streamShading_implied _) hd) rfl rfl (fun _ => rfl) _⟩
  | metadata ho h =>
    obtain ⟨d, q, hd⟩ := finds_stream hf ho
    exact ⟨_, q, codingCalls_entries h (entriesAre_of (metadata_implied _) hd) rfl rfl (fun _ => rfl) _⟩
  | image ho h =>
    obtain ⟨d, q, hd⟩ := finds_stream hf ho
    exact ⟨_, q, codingCalls_entries h (entriesAre_of (imageXObject_implied _) hd) rfl rfl (fun _ => rfl) _⟩
  | form ho h =>
    obtain ⟨d, q, hd⟩ := finds_stream hf ho
    exact ⟨_, q, codingCalls_entries h (entriesAre_of (formXObject_implied _) hd) rfl rfl (fun _ => rfl) _⟩

/-- One parameter. -/
theorem parm_read {β γ δ : Type} {key : Bytes} {calls : List DecodeParmsCall} {c : β → DecodeParmsCall} {value : β → γ} {default x : γ}
    (h : ParmIs key calls c value default x) {read : Val → Option δ} (P : β → Val → Prop) (g : β → δ) {d : List (Bytes × Val)}
    (he : EntriesAre ([] ++ calls.flatMap DecodeParmsMeans) d) (hc : ∀ b, (DecodeParmsMeans (c b)).filter (fun e => e.1 == key) = [(key, P b)])
    (hP : ∀ b v, P b v → read v = some (g b)) : ∃ b : Option β, optionalEntry key d read = some (b.map g) ∧ x = (b.map value).getD default := by
  obtain ⟨b, h1, h2⟩ := h
  exact ⟨b, optional_eq (read := read) P g he rfl h1 hc hP, h2⟩

theorem coding_read (hf : Finds f bytes items) {filter : Bytes} {calls : List DecodeParmsCall} {x : Coding} (h : CodingSet items filter calls x)
    {d : List (Bytes × Val)} (he : EntriesAre (DecodeParmsEntries calls) d) : readCoding f bytes filter d = some x := by
  have he : EntriesAre ([] ++ calls.flatMap DecodeParmsMeans) d := he
  obtain ⟨b1, r1, e1⟩ := parm_read h.predictor (read := intOf) (fun b => IsInt (isoPredictor b)) isoPredictor he (fun _ => rfl) (fun b => int_read _)
  obtain ⟨b2, r2, e2⟩ := parm_read h.colors (read := intOf) IsInt (fun n => n) he (fun _ => rfl) int_read
  obtain ⟨b3, r3, e3⟩ := parm_read h.bits (read := intOf) IsInt (fun n => n) he (fun _ => rfl) int_read
  obtain ⟨b4, r4, e4⟩ := parm_read h.columns (read := intOf) IsInt (fun n => n) he (fun _ => rfl) int_read
  obtain ⟨b5, r5, e5⟩ := parm_read h.earlyChange (read := intOf) (fun b => IsInt (if b then 1 else 0)) (fun b => if b then 1 else 0) he (fun _ => rfl)
    (fun b => int_read _)
  obtain ⟨b6, r6, e6⟩ := parm_read h.k (read := intOf) IsInt (fun n => n) he (fun _ => rfl) int_read
  obtain ⟨b7, r7, e7⟩ := parm_read h.endOfLine (read := truthOf) IsBool (fun n => n) he (fun _ => rfl) bool_read
  obtain ⟨b8, r8, e8⟩ := parm_read h.byteAlign (read := truthOf) IsBool (fun n => n) he (fun _ => rfl) bool_read
  obtain ⟨b9, r9, e9⟩ := parm_read h.rows (read := intOf) IsInt (fun n => n) he (fun _ => rfl) int_read
  obtain ⟨b10, r10, e10⟩ := parm_read h.endOfBlock (read := truthOf) IsBool (fun n => n) he (fun _ => rfl) bool_read
  obtain ⟨b11, r11, e11⟩ := parm_read h.blackIs1 (read := truthOf) IsBool (fun n => n) he (fun _ => rfl) bool_read
  obtain ⟨b12, r12, e12⟩ := parm_read h.damagedRows (read := intOf) IsInt (fun n => n) he (fun _ => rfl) int_read
  obtain ⟨b13, r13, e13⟩ := parm_read h.colorTransform (read := intOf) (fun b => IsInt (if b then 1 else 0)) (fun b => if b then 1 else 0) he (fun _ => rfl)
    (fun b => int_read _)
  obtain ⟨b14, r14, e14⟩ := parm_read h.name (read := nameOf) IsName (fun n => n) he (fun _ => rfl) (fun b => isName_nameOf b)
  obtain ⟨r, hg, hg'⟩ := h.globals
  obtain ⟨y, r15, m15⟩ := optional_both (read := plainData f bytes) (R := fun a b => b = a) (P := IsRef) he rfl hg hg' (fun _ _ _ => rfl)
    (fun b g hw v hv => by
      obtain ⟨d, q1, q2⟩ := streamHas_read hf hw
      simp only [IsRef] at hv
      subst hv
      exact ⟨g, by simp only [plainData, refNumber, Option.bind_some, q1, q2.absent rfl, if_true], rfl⟩)
  have m15 := bothOrNone_same m15
  subst m15
  have e13 : x.colorTransform = b13.map fun b => if b then 1 else 0 := by rw [e13]; cases b13 <;> rfl
  simp only [readCoding, r1, r2, r3, r4, r5, r6, r7, r8, r9, r10, r11, r12, r13, r14, r15, Option.bind_some, Option.map_some, ← e1, ← e2, ← e3, ← e4, ← e5, ← e6,
    ← e7, ← e8, ← e9, ← e10, ← e11, ← e12, ← e13, ← e14]

theorem decodes_read (hf : Finds f bytes items) {codec : Bytes → Coding → Bytes → Option Bytes} {id : Ref} {stored data : Bytes} {filter : Option Filter}
    {parms : Option (List DecodeParmsCall)} (h : StreamHas items id stored filter parms) (hd : Decodes codec items filter parms stored data) :
    ∃ d, f.object bytes id.get.toNat = some (.stream d stored) ∧ decodeData codec f bytes d stored = some data := by
  obtain ⟨d, q, h1, -, y, h2, h3⟩ := streamHas_read hf h
  refine ⟨d, q, ?_⟩
  cases filter with
  | none =>
    simp only [Decodes] at hd
    rw [decodeData, h1, Option.bind_some, h2, hd]
    rfl
  | some flt =>
    obtain ⟨coding, h4, h5⟩ := hd
    have h6 : EntriesAre (DecodeParmsEntries (parms.getD [])) (y.getD []) := by
      cases parms with
      | none => cases y with
        | none => exact rfl
        | some y => exact h3.elim
      | some p => cases y with
        | none => exact h3.elim
        | some y => exact h3
    rw [decodeData, h1, Option.bind_some, h2, Option.bind_some]
    simp only [Option.map_some, coding_read hf h4 h6, Option.bind_some, h5]

end PdfW
