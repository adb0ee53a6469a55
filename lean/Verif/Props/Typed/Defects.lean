import Verif.Props.Typed.Structure
import Verif.Props.Typed.Forms
import Verif.Props.Typed.Object
import Verif.Props.Typed.Annotations
import Verif.Props.Typed.Transitions
import Verif.Props.Typed.Actions
import Verif.Props.Primitives
import Verif.Props.Typed.Resources
import Verif.Proof.Typed.Maps

/-!
# C42, C44, C45: the calls whose entries are not those of the standard

For each call with a known defect: whatever its arguments, the object written is not the one the standard asks for. (What it
is instead is in `C42_…`, `C44_…`, `C45_…` with the reading `.code`.)
-/

set_option linter.unusedSimpArgs false
set_option linter.unusedVariables false

namespace PdfW.Props
open PdfW PdfW.Spec

/-- The value of a number object is unique. -/
theorem numIs_unique {x y : F32} {v : Val} (hx : NumIs x v) (hy : NumIs y v) : x.sval = y.sval := by
  have aux : ∀ (n : Int) (D : Nat), 0 < D → RoundsTo n.natAbs D x.mag.val → RoundsTo n.natAbs D y.mag.val →
      (n ≠ 0 → x.neg = decide (n < 0)) → (n ≠ 0 → y.neg = decide (n < 0)) → x.sval = y.sval := by
    intro n D hD h1 h2 h3 h4
    have e := C07_rounding_unique _ _ _ _ hD h1 h2
    by_cases hn : n = 0
    · subst hn
      have z := C07_rounding_unique _ _ _ _ hD h1 (F32.RoundsTo_zero D hD)
      have z' := C07_rounding_unique _ _ _ _ hD h2 (F32.RoundsTo_zero D hD)
      simp [F32.sval, z, z', F32.scaled_zero]
    · simp [F32.sval, e, h3 hn, h4 hn]
  cases v with
  | int n => exact aux n 1 (by decide) hx.1 hy.1 hx.2 hy.2
  | real m s => exact aux m (10 ^ s) (Nat.pow_pos (by decide)) hx.1 hy.1 hx.2 hy.2
  | _ => exact hx.elim

/-- C44: `NameTree::limits` writes names; keys of name trees are strings (7.9.6). -/
theorem C44_defect_name_tree_limits (min max : Bytes) (hok : Ok (NameTree.prog [.limits min max])) :
    WrittenAs (NameTree.prog [.limits min max]) fun v => ¬ IsNameTree .standard [.limits min max] v := by
  refine WrittenAs.imp (C44_name_tree .code _ (Or.inl rfl) hok) ?_
  rintro v ⟨es, rfl, w, ws, rfl, ⟨items, rfl, a, as, rfl, rfl, _⟩, _⟩ ⟨es', h, w', ws', e, ⟨items', rfl, b, bs, rfl, rfl, _⟩, _⟩
  cases h; simp at e

/-- C45: `border_color_cymk` writes its second and third argument in the wrong order: if they differ, the color is another one. -/
theorem C45_defect_border_color_cymk (c y m k : F32) (h : m.sval ≠ y.sval)
    (hok : Ok (AppearanceCharacteristics.prog [.borderColorCymk c y m k])) :
    WrittenAs (AppearanceCharacteristics.prog [.borderColorCymk c y m k])
      fun v => ¬ IsAppearanceCharacteristics .standard [.borderColorCymk c y m k] v := by
  refine WrittenAs.imp (C45_appearance_characteristics .code _ (Or.inl rfl) hok) ?_
  rintro v ⟨es, rfl, w, ws, rfl, ⟨items, rfl, a, _, rfl, _, b, _, rfl, hb, _⟩, _⟩
    ⟨es', h', w', ws', e, ⟨items', rfl, a', _, rfl, _, b', _, rfl, hb', _⟩, _⟩
  cases h'; simp at e
  obtain ⟨⟨_, rfl, _⟩, _⟩ := e
  exact h (numIs_unique hb' hb)

/-- C45: the same for `background_color_cymk`. -/
theorem C45_defect_background_color_cymk (c y m k : F32) (h : m.sval ≠ y.sval)
    (hok : Ok (AppearanceCharacteristics.prog [.backgroundColorCymk c y m k])) :
    WrittenAs (AppearanceCharacteristics.prog [.backgroundColorCymk c y m k])
      fun v => ¬ IsAppearanceCharacteristics .standard [.backgroundColorCymk c y m k] v := by
  refine WrittenAs.imp (C45_appearance_characteristics .code _ (Or.inl rfl) hok) ?_
  rintro v ⟨es, rfl, w, ws, rfl, ⟨items, rfl, a, _, rfl, _, b, _, rfl, hb, _⟩, _⟩
    ⟨es', h', w', ws', e, ⟨items', rfl, a', _, rfl, _, b', _, rfl, hb', _⟩, _⟩
  cases h'; simp at e
  obtain ⟨⟨_, rfl, _⟩, _⟩ := e
  exact h (numIs_unique hb' hb)

/-- C45: `Transition::opaque` writes a number under `F` instead of a boolean under `B` (Table 162). -/
theorem C45_defect_transition_opaque (x : F32) (hok : Ok (Transition.prog [.«opaque» x])) :
    WrittenAs (Transition.prog [.«opaque» x]) fun v => ¬ IsTransition .standard [.«opaque» x] v := by
  refine WrittenAs.imp (C45_transition .code _ (Or.inl rfl) hok) ?_
  rintro v ⟨es, rfl, w, _, rfl, _, a, _, rfl, _⟩ ⟨es', h', w', _, e, _, a', _, rfl, _⟩
  cases h'; simp at e

/-- C45: `SignatureSeedValue::appearance_filter` writes `LockDocument` instead of `AppearanceFilter`. -/
theorem C45_defect_appearance_filter (x : List Char) (hok : Ok (SignatureSeedValue.prog [.appearanceFilter x])) :
    WrittenAs (SignatureSeedValue.prog [.appearanceFilter x]) fun v => ¬ IsSignatureSeedValue .standard [.appearanceFilter x] v := by
  refine WrittenAs.imp (C45_signature_seed_value .code _ (Or.inl rfl) hok) ?_
  rintro v ⟨es, rfl, w, _, rfl, _, a, _, rfl, _⟩ ⟨es', h', w', _, e, _, a', _, rfl, _⟩
  cases h'; simp at e

/-- C45: `CertificateSeedValue::signature_policy_commitment_type` writes the key of the hash algorithm. -/
theorem C45_defect_signature_policy_commitment_type (x : List Bytes)
    (hok : Ok (CertificateSeedValue.prog [.signaturePolicyCommitmentType x])) :
    WrittenAs (CertificateSeedValue.prog [.signaturePolicyCommitmentType x])
      fun v => ¬ IsCertificateSeedValue .standard [.signaturePolicyCommitmentType x] v := by
  refine WrittenAs.imp (C45_certificate_seed_value .code _ (Or.inl rfl) hok) ?_
  rintro v ⟨es, rfl, w, _, rfl, _, a, _, rfl, _⟩ ⟨es', h', w', _, e, _, a', _, rfl, _⟩
  cases h'; simp at e

/-- C45: `AdditionalActions::annot_page_close` writes `PV` (page visible) instead of `PC`. -/
theorem C45_defect_annot_page_close (calls : List ActionCall) (hok : Ok (AdditionalActions.prog [.annotPageClose calls])) :
    WrittenAs (AdditionalActions.prog [.annotPageClose calls]) fun v => ¬ IsAdditionalActions .standard [.annotPageClose calls] v := by
  refine WrittenAs.imp (C45_additional_actions .code _ (Or.inl rfl) hok) ?_
  rintro v ⟨es, rfl, w, _, rfl, _⟩ ⟨es', h', w', _, e, _⟩
  cases h'; simp at e

/-- C45: it is thereby indistinguishable from `annot_page_visible`. -/
theorem C45_defect_annot_page_close_is_visible (calls : List ActionCall) :
    AdditionalActions.prog [.annotPageClose calls] = AdditionalActions.prog [.annotPageVisible calls] := rfl

/-- C42: the presets of namespaces write URLs that differ from the namespaces of the standard (14.8.6), so a reader does not
recognise them. -/
theorem C42_defect_namespace_presets (c : NamespaceCall) (h : c = .pdf2Ns ∨ c = .pdf17Ns ∨ c = .mathml30Ns)
    (hok : Ok (Namespace.prog [c])) : WrittenAs (Namespace.prog [c]) fun v => ¬ IsNamespace .standard [c] v := by
  refine WrittenAs.imp (C42_namespace .code _ (Or.inl rfl) hok) ?_
  rcases h with rfl | rfl | rfl <;>
  · rintro v ⟨es, rfl, w, _, rfl, _, a, _, rfl, ⟨s, rfl, hs⟩, _⟩ ⟨es', h', w', _, e, _, a', _, rfl, ⟨s', rfl, hs'⟩, _⟩
    cases h'; simp at e
    obtain ⟨_, rfl, _⟩ := e
    rw [hs] at hs'
    revert hs'; decide +kernel

/-- C44: `ExtGraphicsState::font` writes a name where an indirect reference is required (Table 58). -/
theorem C44_defect_ext_graphics_state_font (font : Bytes) (size : F32) (hok : Ok (ExtGraphicsState.prog [.font font size])) :
    WrittenAs (ExtGraphicsState.prog [.font font size]) fun v => ¬ IsExtGraphicsState .standard [.font font size] v := by
  refine WrittenAs.imp (C44_ext_graphics_state .code _ (Or.inl rfl) hok) ?_
  rintro v ⟨es, rfl, w, _, rfl, _, a, _, rfl, ⟨items, rfl, b, _, rfl, rfl, _⟩, _⟩
    ⟨es', h', w', _, e, _, a', _, rfl, ⟨items', rfl, b', _, rfl, ⟨n, g, rfl⟩, _⟩, _⟩
  cases h'; simp at e

example : Ok (NameTree.prog [.limits b!"a" b!"z"]) ∧ one.sval ≠ two.sval ∧
    Ok (AppearanceCharacteristics.prog [.borderColorCymk one one two one]) ∧
    Ok (AppearanceCharacteristics.prog [.backgroundColorCymk one one two one]) ∧
    Ok (Transition.prog [.«opaque» one]) ∧ Ok (SignatureSeedValue.prog [.appearanceFilter ['a']]) ∧
    Ok (CertificateSeedValue.prog [.signaturePolicyCommitmentType [b!"x"]]) ∧
    Ok (AdditionalActions.prog [.annotPageClose [.uri b!"x"]]) ∧ Ok (Namespace.prog [.pdf2Ns]) ∧
    Ok (ExtGraphicsState.prog [.font b!"F1" two]) := by
  refine ⟨okB_sound _ ?_, ?_, okB_sound _ ?_, okB_sound _ ?_, okB_sound _ ?_, okB_sound _ ?_, okB_sound _ ?_, okB_sound _ ?_, okB_sound _ ?_, okB_sound _ ?_⟩ <;> decide +kernel

end PdfW.Props
