import Verif.Proof.Color
import Verif.Props.Chunks

/-!
# C34: color spaces
-/

set_option linter.unusedSimpArgs false
set_option linter.unusedVariables false

namespace PdfW.Props
open PdfW.Spec

/-- C34, `Separation`: a sequence of calls panics exactly at the first call that is documented to: a second alternate
space or a tint transform before the alternate space. -/
theorem C34_separation_panics (name : Bytes) (calls : List SeparationCall) :
    separation name calls = none ↔
      ∃ before c after, calls = before ++ c :: after ∧ separationMisuse before c = true := by
  rw [separation_eq]
  have key : ∀ (cs pre : List SeparationCall), noMisuse separationMisuse pre cs = false ↔
      ∃ before c after, cs = before ++ c :: after ∧ separationMisuse (pre ++ before) c = true := by
    intro cs
    induction cs with
    | nil => intro pre; simp [noMisuse]
    | cons c cs ih =>
      intro pre
      rw [noMisuse, Bool.and_eq_false_iff, ih]
      constructor
      · rintro (h | ⟨b, d, a, rfl, h⟩)
        · exact ⟨[], c, cs, rfl, by simpa using h⟩
        · exact ⟨c :: b, d, a, rfl, by simpa using h⟩
      · rintro ⟨b, d, a, h, hm⟩
        cases b with
        | nil =>
          simp only [List.nil_append, List.cons.injEq] at h
          obtain ⟨rfl, rfl⟩ := h
          left; simpa using hm
        | cons x b =>
          simp only [List.cons_append, List.cons.injEq] at h
          obtain ⟨rfl, rfl⟩ := h
          right; exact ⟨b, d, a, rfl, by simpa using hm⟩
  have := key calls []
  simp only [List.nil_append] at this
  rw [← this]
  cases noMisuse separationMisuse [] calls <;> simp

/-- C34, `Separation`: the sequences that do not panic are: nothing, or the alternate space followed by tint transforms
only. (More than one tint transform is not refused.) -/
theorem C34_separation_order (name : Bytes) (calls : List SeparationCall) :
    (separation name calls).isSome = true ↔
      calls = [] ∨ ∃ a ts, calls = a :: ts ∧ SeparationCall.isAlternate a = true ∧ ∀ t ∈ ts, SeparationCall.isTint t = true := by
  have tints : ∀ (cs pre : List SeparationCall), pre.any SeparationCall.isAlternate = true →
      (noMisuse separationMisuse pre cs = true ↔ ∀ t ∈ cs, SeparationCall.isTint t = true) := by
    intro cs
    induction cs with
    | nil => intro pre _; simp [noMisuse]
    | cons c cs ih =>
      intro pre hp
      have hp' : (pre ++ [c]).any SeparationCall.isAlternate = true := by simp [hp]
      rw [noMisuse, Bool.and_eq_true, ih _ hp', List.forall_mem_cons]
      simp only [separationMisuse, hp]
      cases c <;> simp [SeparationCall.isAlternate, SeparationCall.isTint]
  rw [separation_eq]
  cases calls with
  | nil => simp [noMisuse]
  | cons c cs =>
    have e : noMisuse separationMisuse [] (c :: cs) = (!separationMisuse [] c && noMisuse separationMisuse [c] cs) := rfl
    by_cases ha : SeparationCall.isAlternate c = true
    · have h1 : separationMisuse [] c = false := by cases c <;> simp_all [separationMisuse, SeparationCall.isAlternate, SeparationCall.isTint]
      have h2 := tints cs [c] (by simp [ha])
      constructor
      · intro h
        right
        refine ⟨c, cs, rfl, ha, h2.mp ?_⟩
        split at h
        · rename_i h'; rw [e, h1] at h'; simpa using h'
        · simp at h
      · rintro (h | ⟨a, ts, h, -, ht⟩)
        · simp at h
        · simp only [List.cons.injEq] at h
          obtain ⟨rfl, rfl⟩ := h
          rw [if_pos (by rw [e, h1, h2.mpr ht]; rfl)]; rfl
    · have h1 : separationMisuse [] c = true := by cases c <;> simp_all [separationMisuse, SeparationCall.isAlternate, SeparationCall.isTint]
      rw [if_neg (by rw [e, h1]; simp)]
      constructor
      · intro h; simp at h
      · rintro (h | ⟨a, ts, h, hs, -⟩)
        · simp at h
        · simp only [List.cons.injEq] at h
          rw [h.1] at ha; exact absurd hs ha

/-- C34, `DeviceN`: a sequence of calls panics exactly at the first call that is out of order. -/
theorem C34_device_n_panics (ns : List Bytes) (calls : List DeviceNCall) :
    deviceN ns calls = none ↔
      ∃ before c after, calls = before ++ c :: after ∧ deviceNMisuse before c = true := by
  rw [deviceN_eq]
  have key : ∀ (cs pre : List DeviceNCall), noMisuse deviceNMisuse pre cs = false ↔
      ∃ before c after, cs = before ++ c :: after ∧ deviceNMisuse (pre ++ before) c = true := by
    intro cs
    induction cs with
    | nil => intro pre; simp [noMisuse]
    | cons c cs ih =>
      intro pre
      rw [noMisuse, Bool.and_eq_false_iff, ih]
      constructor
      · rintro (h | ⟨b, d, a, rfl, h⟩)
        · exact ⟨[], c, cs, rfl, by simpa using h⟩
        · exact ⟨c :: b, d, a, rfl, by simpa using h⟩
      · rintro ⟨b, d, a, h, hm⟩
        cases b with
        | nil =>
          simp only [List.nil_append, List.cons.injEq] at h
          obtain ⟨rfl, rfl⟩ := h
          left; simpa using hm
        | cons x b =>
          simp only [List.cons_append, List.cons.injEq] at h
          obtain ⟨rfl, rfl⟩ := h
          right; exact ⟨b, d, a, rfl, by simpa using hm⟩
  have := key calls []
  simp only [List.nil_append] at this
  rw [← this]
  cases noMisuse deviceNMisuse [] calls <;> simp

/-- C34, `DeviceN`: the sequences that do not panic are a prefix of: the alternate space, one tint transform,
attributes (any number of times). -/
theorem C34_device_n_order (ns : List Bytes) (calls : List DeviceNCall) :
    (deviceN ns calls).isSome = true ↔
      calls = [] ∨ (∃ a, calls = [a] ∧ DeviceNCall.isAlternate a = true) ∨
      ∃ a t xs, calls = a :: t :: xs ∧ DeviceNCall.isAlternate a = true ∧ DeviceNCall.isTint t = true ∧
        ∀ x ∈ xs, DeviceNCall.isAttrs x = true := by
  have attrs : ∀ (cs pre : List DeviceNCall), pre.any DeviceNCall.isAlternate = true → pre.any DeviceNCall.isTint = true →
      (noMisuse deviceNMisuse pre cs = true ↔ ∀ t ∈ cs, DeviceNCall.isAttrs t = true) := by
    intro cs
    induction cs with
    | nil => intro pre _ _; simp [noMisuse]
    | cons c cs ih =>
      intro pre hp hq
      have hp' : (pre ++ [c]).any DeviceNCall.isAlternate = true := by simp [hp]
      have hq' : (pre ++ [c]).any DeviceNCall.isTint = true := by simp [hq]
      rw [noMisuse, Bool.and_eq_true, ih _ hp' hq', List.forall_mem_cons]
      simp only [deviceNMisuse, hp, hq]
      cases c <;> simp [DeviceNCall.isAlternate, DeviceNCall.isTint, DeviceNCall.isAttrs]
  rw [deviceN_eq]
  have hS : ∀ (b : Bool) (x : Prog), (if b = true then some x else none).isSome = true ↔ b = true := by
    intro b x; cases b <;> simp
  rw [hS]
  match calls with
  | [] => simp [noMisuse]
  | [a] => cases a <;> simp [noMisuse, deviceNMisuse, DeviceNCall.isAlternate, DeviceNCall.isTint, DeviceNCall.isAttrs]
  | a :: t :: xs =>
    have e : noMisuse deviceNMisuse [] (a :: t :: xs) = (!deviceNMisuse [] a && (!deviceNMisuse [a] t && noMisuse deviceNMisuse [a, t] xs)) := rfl
    have h := attrs xs [a, t]
    have kind : ∀ c : DeviceNCall,
        (DeviceNCall.isAlternate c = true ∧ DeviceNCall.isTint c = false ∧ DeviceNCall.isAttrs c = false) ∨
        (DeviceNCall.isAlternate c = false ∧ DeviceNCall.isTint c = true ∧ DeviceNCall.isAttrs c = false) ∨
        (DeviceNCall.isAlternate c = false ∧ DeviceNCall.isTint c = false ∧ DeviceNCall.isAttrs c = true) := by
      intro c; cases c <;> simp [DeviceNCall.isAlternate, DeviceNCall.isTint, DeviceNCall.isAttrs]
    have r : (a :: t :: xs = [] ∨ (∃ a', a :: t :: xs = [a'] ∧ DeviceNCall.isAlternate a' = true) ∨
      ∃ a' t' xs', a :: t :: xs = a' :: t' :: xs' ∧ DeviceNCall.isAlternate a' = true ∧ DeviceNCall.isTint t' = true ∧
        ∀ x ∈ xs', DeviceNCall.isAttrs x = true) ↔
        DeviceNCall.isAlternate a = true ∧ DeviceNCall.isTint t = true ∧ ∀ x ∈ xs, DeviceNCall.isAttrs x = true := by
      constructor
      · rintro (h | ⟨a', h, -⟩ | ⟨a', t', xs', h, h'⟩)
        · simp at h
        · simp at h
        · simp only [List.cons.injEq] at h
          obtain ⟨rfl, rfl, rfl⟩ := h
          exact h'
      · intro h; exact .inr (.inr ⟨a, t, xs, rfl, h⟩)
    rw [r, e]
    generalize noMisuse deviceNMisuse [a, t] xs = nm at h ⊢
    simp only [List.any_cons, List.any_nil, Bool.or_false] at h
    rcases kind a with ⟨a1, a2, a3⟩ | ⟨a1, a2, a3⟩ | ⟨a1, a2, a3⟩ <;>
    rcases kind t with ⟨t1, t2, t3⟩ | ⟨t1, t2, t3⟩ | ⟨t1, t2, t3⟩ <;>
    simp [deviceNMisuse, a1, a2, a3, t1, t2, t3] at h ⊢
    exact h

theorem colorSpace_val (c : ColorSpaceCall) (p : Prog) (hp : c.prog = some p) (hok : Ok p) :
    ColorSpaceMeans c (progVal p) := by
  by_cases hq : ∃ q, c = .preset q
  · obtain ⟨q, rfl⟩ := hq
    simp only [ColorSpaceCall.prog, Option.some.injEq] at hp; subst hp
    exact preset_val q hok
  refine (?_ : ItemImplied p (ColorSpaceMeans c)) _ (progVal_denotes p hok)
  cases c with
  | preset q => exact absurd ⟨q, rfl⟩ hq
  | calRgb w b g m =>
    simp only [ColorSpaceCall.prog, Option.some.injEq] at hp; subst hp
    exact arrayIs_of (.cons (denotes_name _) (.cons (dictIs_of (.cons ⟨rfl, denotes_reals _⟩
      (((given_implied _ _ _ (fun a => denotes_reals _) b).append (given_implied _ _ _ (fun a => denotes_reals _) g)).append
        (given_implied _ _ _ (fun a => denotes_reals _) m)))) .nil))
  | calGray w b g =>
    simp only [ColorSpaceCall.prog, Option.some.injEq] at hp; subst hp
    exact arrayIs_of (.cons (denotes_name _) (.cons (dictIs_of (.cons ⟨rfl, denotes_reals _⟩
      ((given_implied _ _ _ (fun a => denotes_reals _) b).append (given_implied _ _ _ (fun a => denotes_real _) g)))) .nil))
  | lab w b r =>
    simp only [ColorSpaceCall.prog, Option.some.injEq] at hp; subst hp
    exact arrayIs_of (.cons (denotes_name _) (.cons (dictIs_of (.cons ⟨rfl, denotes_reals _⟩
      ((given_implied _ _ _ (fun a => denotes_reals _) b).append (given_implied _ _ _ (fun a => denotes_reals _) r)))) .nil))
  | iccBased r =>
    simp only [ColorSpaceCall.prog, Option.some.injEq] at hp; subst hp
    intro v hv
    simpa [Denotes, DenotesItems, PrimDenotes, ColorSpaceType.toName, ColorSpaceMeans] using hv
  | deviceRgb => simp only [ColorSpaceCall.prog, Option.some.injEq] at hp; subst hp; exact denotes_name _
  | deviceCmyk => simp only [ColorSpaceCall.prog, Option.some.injEq] at hp; subst hp; exact denotes_name _
  | deviceGray => simp only [ColorSpaceCall.prog, Option.some.injEq] at hp; subst hp; exact denotes_name _
  | separation n cs =>
    simp only [ColorSpaceCall.prog, separation_eq] at hp
    split at hp
    · simp only [Option.some.injEq] at hp; subst hp
      exact arrayIs_of (.cons (denotes_name _) (.cons (denotes_name _) (Implied.map _ _ sepItem_implied cs)))
    · simp at hp
  | deviceN ns cs =>
    simp only [ColorSpaceCall.prog, deviceN_eq] at hp
    split at hp
    · simp only [Option.some.injEq] at hp; subst hp
      exact arrayIs_of (.cons (denotes_name _) (.cons (denotes_names _) (Implied.map _ _ devnItem_implied cs)))
    · simp at hp
  | indexed base hival lookup =>
    simp only [ColorSpaceCall.prog, Option.some.injEq] at hp; subst hp
    intro v hv
    simpa [Denotes, DenotesItems, PrimDenotes, ColorSpaceType.toName, ColorSpaceMeans] using hv
  | pattern base =>
    simp only [ColorSpaceCall.prog, Option.some.injEq] at hp; subst hp
    intro v hv
    simpa [Denotes, DenotesItems, PrimDenotes, ColorSpaceType.toName, ColorSpaceMeans] using hv

/-- C34: every color space that can be written reads back, in both modes, as the color space array (or name) that
ISO 32000 defines for it, with exactly the arguments given: a finished `Separation` as `[/Separation name alternate
tint]`, a finished `DeviceN` as `[/DeviceN names alternate tint attributes]`. -/
theorem C34_color_spaces_read_back (c : ColorSpaceCall) (p : Prog) (hp : c.prog = some p) (hok : Ok p) :
    ReadsBack p (ColorSpaceMeans c) := readsBack_val hok (colorSpace_val c p hp hok)

/-! ## Concrete cases -/

def sampleSeparation : List SeparationCall :=
  [.alternateDevice .cmyk, .tintExponential [.domain [mkF 0, mkF 1065353216], .n (mkF 1065353216)]]

example : (separation b!"Gold" sampleSeparation).map (fun p => (p.run (Obj.direct 0 false false) Buf.new).inner) =
    some b!"[/Separation/Gold/DeviceCMYK<</FunctionType 2/Domain[0 1]/N 1>>]" := by decide +kernel

example : ∀ p, separation b!"Gold" sampleSeparation = some p → Ok p ∧ NoClash p := by
  intro p hp
  simp [separation, sampleSeparation, Separation.calls, Separation.call, Separation.new, Separation.push] at hp
  subst hp
  refine ⟨?_, ?_⟩ <;> simp [Ok, OkItems, OkEntries, NoClash, NoClashItems, NoClashEntries, PrimOk, exponentialFunction, ExponentialCall.entry, reals,
    isEmptyName, DeviceColorSpace.toName, ColorSpaceType.toName] <;> decide

/-- Two alternate spaces; a tint transform too early; attributes before the tint transform. -/
example : separation b!"Gold" [.alternateDevice .cmyk, .alternateDevice .rgb] = none := rfl
example : separation b!"Gold" [.tintRef (rf 3)] = none := rfl
example : deviceN [b!"A", b!"B"] [.alternateDevice .cmyk, .attrs []] = none := rfl

example : (deviceN [b!"A", b!"B"] [.alternateColorSpaceRef (rf 5), .tintRef (rf 3),
      .attrs [.subtype .nChannel, .mixingHints [.solidities [(b!"A", mkF 1065353216)]]]]).map
        (fun p => (p.run (Obj.direct 0 false false) Buf.new).inner) =
    some b!"[/DeviceN[/A/B]5 0 R 3 0 R<</Subtype/NChannel/MixingHints<</Solidities<</A 1>>>>>>]" := by decide +kernel

/-- The constants of the presets are spelled as in the source. -/
example : (srgb.run (Obj.direct 0 false false) Buf.new).inner =
    b!"[/CalRGB<</WhitePoint[0.9505 1 1.0888]/Gamma[2.2 2.2 2.2]/Matrix[0.4124 0.2126 0.0193 0.3576 0.715 0.1192 0.1805 0.0722 0.9505]>>]" := by
  decide +kernel
example : (adobeRgb.run (Obj.direct 0 false false) Buf.new).inner =
    b!"[/CalRGB<</WhitePoint[0.9505 1 1.0888]/Gamma[2.1992188 2.1992188 2.1992188]/Matrix[0.57667 0.29734 0.02703 0.18556 0.62736 0.07069 0.18823 0.07529 0.99134]>>]" := by
  decide +kernel
example : (proPhoto.run (Obj.direct 0 false false) Buf.new).inner =
    b!"[/CalRGB<</WhitePoint[0.9642 1 0.82489]/Gamma[1.8 1.8 1.8]/Matrix[0.7976749 0.2880402 0 0.1351917 0.7118741 0 0.0313534 0.0000857 0.82521]>>]" := by
  decide +kernel
example : (ntsc.run (Obj.direct 0 false false) Buf.new).inner =
    b!"[/CalRGB<</WhitePoint[0.9807 1 1.1822]/Gamma[2.2 2.2 2.2]/Matrix[0.6068909 0.2989164 0 0.1735011 0.586599 0.0660957 0.200348 0.1144845 1.1162243]>>]" := by
  decide +kernel

/-- The presets meet the hypotheses of `C34_color_spaces_read_back`. -/
example : (Ok srgb ∧ NoClash srgb) ∧ (Ok displayP3 ∧ NoClash displayP3) ∧ (Ok (ColorPreset.eGray (some (mkF 1074580685))).prog ∧ NoClash (ColorPreset.eGray none).prog) := by
  refine ⟨⟨?_, ?_⟩, ⟨?_, ?_⟩, ?_, ?_⟩ <;>
  simp [Ok, OkItems, OkEntries, NoClash, NoClashItems, NoClashEntries, PrimOk, srgb, displayP3, ColorPreset.prog, eGray, calRgb, calGray, optEntry,
    reals, Xyz.list, Nine.list, isEmptyName, ColorSpaceType.toName] <;> decide

end PdfW.Props
