import Verif.Spec.CharMaps
import Verif.Proof.Fonts
import Verif.Proof.Colors
import Verif.Proof.XObjects

set_option linter.unusedSimpArgs false
set_option linter.unusedVariables false

/-! # Proofs for `Spec/CharMaps.lean`. -/

namespace PdfW
open Spec

variable {f : FileEnd} {bytes : Bytes} {items : List Item} {unf : Val → Bytes → Option Bytes}

theorem vertical_read (m : WMode) (v : Val) (h : IsInt (isoWMode m) v) : readVertical v = some (m == .vertical) := by
  cases m <;> (simp only [IsInt, isoWMode] at h; subst h; rfl)

theorem charMap_read (hf : Finds f bytes items) {g : GivenCharMap} (h : g.Written unf items) :
    ∃ d, anyDict f bytes g.id.get.toNat = some d ∧ readCharMap unf f bytes g.id.get.toNat d = some g.expected ∧
      EntriesAre ([(b!"Length", fun _ => True), (b!"Type", IsName b!"CMap")] ++ g.calls.flatMap CmapStreamMeans) d := by
  obtain ⟨d, q1, -, he, hd⟩ := loadObject_stream (pre := [(b!"Type", IsName b!"CMap")]) (wrap := .stream) hf h.object (cmapStream_implied g.calls) (fun _ => rfl)
    (by decide) h.holds
  have he : EntriesAre ([(b!"Length", fun _ => True), (b!"Type", IsName b!"CMap")] ++ g.calls.flatMap CmapStreamMeans) d := he
  refine ⟨d, by rw [anyDict, q1], ?_, he⟩
  have r0 : requiredEntry b!"Type" d nameOf = some b!"CMap" :=
    required_pre (IsName b!"CMap") b!"CMap" he rfl h.noType (isName_nameOf _)
  have r1 : requiredEntry b!"CMapName" d nameOf = some g.name := required_eq (IsName g.name) g.name he (by decide) h.name rfl (isName_nameOf _)
  obtain ⟨s, r2, hs⟩ := required_call (read := followDict f bytes) (P := IsSystemInfo g.info) (Q := fun s =>
    EntriesAre [(b!"Registry", IsStr g.info.registry), (b!"Ordering", IsStr g.info.ordering), (b!"Supplement", IsInt g.info.supplement)] s)
    he (by decide) h.info rfl (by rintro v ⟨s, rfl, hs⟩; exact ⟨s, rfl, hs⟩)
  obtain ⟨s1, t1, u1⟩ := lookup_of hs (k := b!"Registry") rfl
  obtain ⟨s2, t2, u2⟩ := lookup_of hs (k := b!"Ordering") rfl
  obtain ⟨s3, t3, u3⟩ := lookup_of hs (k := b!"Supplement") rfl
  simp only [IsStr, IsInt] at u1 u2 u3
  subst u1 u2 u3
  have r3 := optional_eq (read := readVertical) (fun m => IsInt (isoWMode m)) (fun m => m == .vertical) he (by decide) h.mode (fun _ => rfl) vertical_read
  have e : (g.mode.map fun m => m == .vertical).getD false = (g.mode == some .vertical) := by cases g.mode <;> rfl
  simp only [readCharMap, r0, Option.bind_some]
  rw [if_pos (by simp)]
  have k1 : requiredEntry b!"Registry" s strOf = some g.info.registry := by rw [requiredEntry, t1]; rfl
  have k2 : requiredEntry b!"Ordering" s strOf = some g.info.ordering := by rw [requiredEntry, t2]; rfl
  have k3 : requiredEntry b!"Supplement" s intOf = some g.info.supplement := by rw [requiredEntry, t3]; rfl
  simp only [r1, r2, Option.bind_some, k1, k2, k3, r3, hd, Option.map_some, e, GivenCharMap.expected]

theorem charMaps_read (hf : Finds f bytes items) : ∀ (gs : List GivenCharMap) (g : GivenCharMap) (base : Option Bytes), CharMapsWritten unf items (g :: gs) base →
    ∀ (depth : Nat), gs.length < depth →
      readCharMaps unf f bytes depth (.ref g.id.get.toNat 0) = some ⟨(g :: gs).map GivenCharMap.expected, base⟩ := by
  intro gs
  induction gs with
  | nil =>
    intro g base h depth hd
    obtain ⟨n, rfl⟩ : ∃ n, depth = n + 1 := ⟨depth - 1, by simp at hd; omega⟩
    obtain ⟨hw, hu, -⟩ := h
    obtain ⟨d, q1, q2, he⟩ := charMap_read hf hw
    cases base with
    | none =>
      have q3 : optionalEntry b!"UseCMap" d some = some none := optional_absent he (by rw [List.filter_append, noCall_filter hu]; rfl)
      simp only [readCharMaps, q1, Option.bind_some, q2, q3, List.map_cons, List.map_nil]
    | some b =>
      obtain ⟨v, q3, q4⟩ := optional_present (k := b!"UseCMap") (read := some) (P := IsName b) (Q := fun v => v = .name b) he
        (by rw [List.filter_append, onlyCall_filter (show OnlyCall CmapStreamMeans b!"UseCMap" g.calls (.useCmapPredefined b) from hu)]; rfl)
        (fun v hv => ⟨v, rfl, by simpa only [IsName] using hv⟩)
      subst q4
      simp only [readCharMaps, q1, Option.bind_some, q2, q3, List.map_cons, List.map_nil]
      cases n <;> rfl
  | cons k gs ih =>
    intro g base h depth hd
    obtain ⟨n, rfl⟩ : ∃ n, depth = n + 1 := ⟨depth - 1, by simp at hd; omega⟩
    obtain ⟨hw, hu, hr⟩ := h
    obtain ⟨d, q1, q2, he⟩ := charMap_read hf hw
    obtain ⟨v, q3, q4⟩ := optional_present (k := b!"UseCMap") (read := some) (P := IsRef k.id) (Q := fun v => v = .ref k.id.get.toNat 0) he
      (by rw [List.filter_append, onlyCall_filter (show OnlyCall CmapStreamMeans b!"UseCMap" g.calls (.useCmapStream k.id) from hu)]; rfl)
      (fun v hv => ⟨v, rfl, by simpa only [IsRef] using hv⟩)
    subst q4
    simp only [readCharMaps, q1, Option.bind_some, q2, q3, ih k base hr n (by simp at hd; omega), Option.map_some, List.map_cons]

theorem fontCharMaps_read (hf : Finds f bytes items) {calls : List Type0FontCall} {gs : List GivenCharMap} {base : Option Bytes}
    (hs : CharMapsSet calls gs base) (hw : CharMapsWritten unf items gs base) {d : List (Bytes × Val)} (he : EntriesAre (Type0FontEntries calls) d)
    (depth : Nat) (hd : gs.length ≤ depth) :
    (requiredEntry b!"Encoding" d some).bind (readCharMaps unf f bytes depth) = some ⟨gs.map GivenCharMap.expected, base⟩ := by
  have he : EntriesAre ([(b!"Type", IsName b!"Font"), (b!"Subtype", IsName b!"Type0")] ++ calls.flatMap Type0FontMeans) d := he
  cases gs with
  | nil =>
    cases base with
    | none => exact hs.elim
    | some n =>
      have q := required_eq (read := some) (IsName n) (.name n) he (by decide) (show OnlyCall _ _ _ _ from hs) rfl (fun v hv => by
        simp only [IsName] at hv; rw [hv])
      rw [q, Option.bind_some]
      cases depth <;> rfl
  | cons g gs =>
    have q := required_eq (read := some) (IsRef g.id) (.ref g.id.get.toNat 0) he (by decide) (show OnlyCall _ _ _ _ from hs) rfl (fun v hv => by
      simp only [IsRef] at hv; rw [hv])
    rw [q, Option.bind_some]
    exact charMaps_read hf gs g base hw depth (by simp at hd; omega)

end PdfW
