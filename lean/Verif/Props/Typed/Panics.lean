import Verif.Props.Typed.Structure
import Verif.Props.Typed.Functions
import Verif.Props.Typed.Fonts
import Verif.Props.Content

/-!
# C37: checked setters panic exactly outside their documented range

`none` is a panic. The values that are accepted are written unchanged: C44, C42 (`C44_decode_parms`, …), C27.
-/

set_option linter.unusedSimpArgs false
set_option linter.unusedVariables false

namespace PdfW.Props
open PdfW PdfW.Spec

/-- C37: `Ref::new` panics exactly for numbers that are not positive (of the `i32` values); otherwise the number is kept. -/
theorem C37_ref_new (n : Int) (h : n ≤ 2147483647) :
    (Ref.new n = none ↔ n ≤ 0) ∧ ∀ r, Ref.new n = some r → r.get = n := by
  unfold Ref.new
  constructor
  · split <;> simp <;> omega
  · intro r hr
    split at hr
    · cases hr; rfl
    · cases hr

example : Ref.new 0 = none ∧ (Ref.new 1).isSome = true := by decide

/-- C37: `Content::set_line_width` panics exactly for negative numbers and NaN (negative zero is accepted). -/
theorem C37_line_width (c : Content) (w : F32) :
    ContentCall.run c (.setLineWidth w) = none ↔ w.isNaN = true ∨ (w.neg = true ∧ w.mag.val ≠ 0) := by
  have hz : F32.zero.isNaN = false := by decide
  have hs : F32.zero.sval = 0 := by decide
  have key : w.ge F32.zero = true ↔ ¬ (w.isNaN = true ∨ (w.neg = true ∧ w.mag.val ≠ 0)) := by
    have z : ∀ m, F32.scaled m = 0 ↔ m = 0 := fun m =>
      ⟨fun hm => F32.scaled_inj (by rw [hm, F32.scaled_zero]), fun hm => by rw [hm, F32.scaled_zero]⟩
    simp only [F32.ge, hz, hs]
    have := z w.mag.val
    have hv : w.sval = if w.neg then -(F32.scaled w.mag.val : Int) else F32.scaled w.mag.val := rfl
    rw [hv]
    generalize F32.scaled w.mag.val = k at *
    rcases hn : w.isNaN <;> rcases hg : w.neg <;> simp <;> omega
  simp only [ContentCall.run]
  constructor
  · intro h
    by_cases hk : w.ge F32.zero = true
    · rw [if_pos hk] at h; cases h
    · rw [key] at hk; exact Classical.not_not.mp hk
  · intro h
    rw [if_neg (fun hk => (key.mp hk) h)]

/-- C37: `Content::set_flatness` panics exactly outside 0 to 100. -/
theorem C37_flatness (c : Content) (t : Int) : ContentCall.run c (.setFlatness t) = none ↔ t < 0 ∨ 100 < t := by
  simp only [ContentCall.run]
  by_cases h : 0 ≤ t ∧ t ≤ 100
  · rw [if_pos h]; simp; omega
  · rw [if_neg h]; simp; omega

example : ContentCall.run (Content.withSettings true) (.setFlatness 101) = none ∧ (ContentCall.run (Content.withSettings true) (.setFlatness 100)).isSome = true := by decide +kernel

theorem run_none {α : Type} (calls : List α) (f : α → Bool) {β : Type} (x : β) :
    (if calls.any f then none else some x) = none ↔ ∃ c ∈ calls, f c = true := by
  split
  · rename_i h; simpa using h
  · rename_i h; simpa using h

/-- C37: `DecodeParms` panics exactly if a number of colors is not positive or a number of bits is not 1, 2, 4, 8 or 16. -/
theorem C37_decode_parms (calls : List DecodeParmsCall) :
    DecodeParms.run calls = none ↔
      (∃ n, DecodeParmsCall.colors n ∈ calls ∧ n ≤ 0) ∨
      (∃ n, DecodeParmsCall.bitsPerComponent n ∈ calls ∧ n ≠ 1 ∧ n ≠ 2 ∧ n ≠ 4 ∧ n ≠ 8 ∧ n ≠ 16) := by
  unfold DecodeParms.run
  rw [run_none]
  constructor
  · rintro ⟨c, hc, h⟩
    cases c <;> simp [DecodeParmsCall.panics] at h
    · exact Or.inl ⟨_, hc, h⟩
    · exact Or.inr ⟨_, hc, by omega⟩
  · rintro (⟨n, hc, h⟩ | ⟨n, hc, h⟩)
    · exact ⟨_, hc, by simpa [DecodeParmsCall.panics] using h⟩
    · exact ⟨_, hc, by simp [DecodeParmsCall.panics]; omega⟩

example : DecodeParms.run [.colors 3, .bitsPerComponent 3] = none ∧ (DecodeParms.run [.colors 3, .bitsPerComponent 16]).isSome = true := by
  decide +kernel

/-- C37: a stream is refused exactly if it is too long or its decoding parameters are out of range. -/
theorem C37_stream (calls : List StreamCall) (c : Chunk) (r : Ref) (data : Bytes) :
    Stream.write calls c r data = none ↔
      data.length > 2147483647 ∨ ∃ ps, StreamCall.decodeParms ps ∈ calls ∧ DecodeParms.run ps = none := by
  unfold Stream.write DecodeParms.run
  have key : calls.any StreamCall.panics = true ↔ ∃ ps, StreamCall.decodeParms ps ∈ calls ∧ (if ps.any DecodeParmsCall.panics then none else some (DecodeParms.prog ps)) = (none : Option Prog) := by
    simp only [run_none]; simp only [List.any_eq_true]
    constructor
    · rintro ⟨s, hs, h⟩
      cases s <;> simp [StreamCall.panics] at h
      exact ⟨_, hs, h⟩
    · rintro ⟨ps, hs, h⟩
      exact ⟨_, hs, by simpa [StreamCall.panics] using h⟩
  rw [← key]
  split
  · rename_i h; simp [h]
  · rename_i h; rw [C13_stream_panics_iff]; simp only [h]; simp

/-- C37: `IccProfile::n` panics exactly if the number of components is not 1, 3 or 4. -/
theorem C37_icc_profile (calls : List IccProfileCall) (c : Chunk) (r : Ref) (data : Bytes) :
    IccProfile.write calls c r data = none ↔
      data.length > 2147483647 ∨ (∃ n, IccProfileCall.n n ∈ calls ∧ n ≠ 1 ∧ n ≠ 3 ∧ n ≠ 4) ∨
      ∃ ps, IccProfileCall.stream (.decodeParms ps) ∈ calls ∧ DecodeParms.run ps = none := by
  unfold IccProfile.write DecodeParms.run
  have key : calls.any IccProfileCall.panics = true ↔ (∃ n, IccProfileCall.n n ∈ calls ∧ n ≠ 1 ∧ n ≠ 3 ∧ n ≠ 4) ∨ ∃ ps, IccProfileCall.stream (.decodeParms ps) ∈ calls ∧ (if ps.any DecodeParmsCall.panics then none else some (DecodeParms.prog ps)) = (none : Option Prog) := by
    simp only [run_none]; simp only [List.any_eq_true]
    constructor
    · rintro ⟨s, hs, h⟩
      cases s <;> simp [IccProfileCall.panics] at h
      · exact Or.inl ⟨_, hs, by omega⟩
      · rename_i s
        cases s <;> simp [StreamCall.panics] at h
        exact Or.inr ⟨_, hs, h⟩
    · rintro (⟨n, hs, h⟩ | ⟨ps, hs, h⟩)
      · exact ⟨_, hs, by simp [IccProfileCall.panics]; omega⟩
      · exact ⟨_, hs, by simpa [IccProfileCall.panics, StreamCall.panics] using h⟩
  rw [← key]
  split
  · rename_i h; simp [h]
  · rename_i h; rw [C13_stream_panics_iff]; simp only [h]; simp

theorem eq_zero_iff (x : F32) : x.eq F32.zero = true ↔ x.mag.val = 0 := by
  have hz : F32.zero.isNaN = false := by decide
  have hs : F32.zero.sval = 0 := by decide
  have z : ∀ m, F32.scaled m = 0 ↔ m = 0 := fun m =>
    ⟨fun hm => F32.scaled_inj (by rw [hm, F32.scaled_zero]), fun hm => by rw [hm, F32.scaled_zero]⟩
  have := z x.mag.val
  have hv : x.sval = if x.neg then -(F32.scaled x.mag.val : Int) else F32.scaled x.mag.val := rfl
  have hn : x.isNaN = decide (F32.infMag < x.mag.val) := rfl
  have hi : F32.infMag = 2139095040 := rfl
  simp only [F32.eq, hz, hs, hv, hn, hi]
  generalize F32.scaled x.mag.val = k at *
  cases x.neg <;> simp <;> omega

/-- C37: `TilingPattern::x_step` and `y_step` panic exactly for a zero of either sign. -/
theorem C37_tiling_pattern (calls : List TilingPatternCall) (c : Chunk) (r : Ref) (data : Bytes) :
    TilingPattern.write calls c r data = none ↔
      data.length > 2147483647 ∨ (∃ x, TilingPatternCall.xStep x ∈ calls ∧ x.mag.val = 0) ∨ (∃ y, TilingPatternCall.yStep y ∈ calls ∧ y.mag.val = 0) ∨
      ∃ ps, TilingPatternCall.stream (.decodeParms ps) ∈ calls ∧ DecodeParms.run ps = none := by
  unfold TilingPattern.write DecodeParms.run
  have key : calls.any TilingPatternCall.panics = true ↔ (∃ x, TilingPatternCall.xStep x ∈ calls ∧ x.mag.val = 0) ∨ (∃ y, TilingPatternCall.yStep y ∈ calls ∧ y.mag.val = 0) ∨ ∃ ps, TilingPatternCall.stream (.decodeParms ps) ∈ calls ∧ (if ps.any DecodeParmsCall.panics then none else some (DecodeParms.prog ps)) = (none : Option Prog) := by
    simp only [run_none]; simp only [List.any_eq_true]
    constructor
    · rintro ⟨s, hs, h⟩
      cases s <;> simp only [TilingPatternCall.panics, Bool.false_eq_true] at h
      · exact Or.inl ⟨_, hs, (eq_zero_iff _).mp h⟩
      · exact Or.inr (Or.inl ⟨_, hs, (eq_zero_iff _).mp h⟩)
      · rename_i s
        cases s <;> simp [StreamCall.panics] at h
        exact Or.inr (Or.inr ⟨_, hs, h⟩)
    · rintro (⟨n, hs, h⟩ | ⟨n, hs, h⟩ | ⟨ps, hs, h⟩)
      · exact ⟨_, hs, by simp only [TilingPatternCall.panics]; exact (eq_zero_iff _).mpr h⟩
      · exact ⟨_, hs, by simp only [TilingPatternCall.panics]; exact (eq_zero_iff _).mpr h⟩
      · exact ⟨_, hs, by simpa [TilingPatternCall.panics, StreamCall.panics] using h⟩
  rw [← key]
  split
  · rename_i h; simp [h]
  · rename_i h; rw [C13_stream_panics_iff]; simp only [h]; simp

example : TilingPattern.write [.xStep F32.zero] (Chunk.withSettings true) ⟨5, by decide, by decide⟩ [] = none := by rw [C37_tiling_pattern]; exact Or.inr (Or.inl ⟨F32.zero, by simp, rfl⟩)

/-- C37: `Outline::count` panics exactly for negative counts. -/
theorem C37_outline (calls : List OutlineCall) : Outline.run calls = none ↔ ∃ n, OutlineCall.count n ∈ calls ∧ n < 0 := by
  unfold Outline.run
  rw [run_none]
  constructor
  · rintro ⟨c, hc, h⟩
    cases c <;> simp [OutlineCall.panics] at h
    exact ⟨_, hc, by omega⟩
  · rintro ⟨n, hc, h⟩
    exact ⟨_, hc, by simp [OutlineCall.panics]; omega⟩

/-- C37: `ViewerPreferences::non_full_screen_page_mode` panics exactly for the mode `FullScreen`. -/
theorem C37_viewer_preferences (calls : List ViewerPreferencesCall) :
    ViewerPreferences.run calls = none ↔ ViewerPreferencesCall.nonFullScreenPageMode .fullScreen ∈ calls := by
  unfold ViewerPreferences.run
  rw [run_none]
  constructor
  · rintro ⟨c, hc, h⟩
    cases c <;> simp [ViewerPreferencesCall.panics] at h
    subst h; exact hc
  · intro hc
    exact ⟨_, hc, by simp [ViewerPreferencesCall.panics]⟩

/-- C37: the document catalog panics exactly if its viewer preferences do. -/
theorem C37_catalog (calls : List CatalogCall) :
    Catalog.run calls = none ↔ ∃ vs, CatalogCall.viewerPreferences vs ∈ calls ∧ ViewerPreferences.run vs = none := by
  unfold Catalog.run ViewerPreferences.run
  simp only [run_none]
  constructor
  · rintro ⟨c, hc, h⟩
    cases c <;> simp [CatalogCall.panics] at h
    exact ⟨_, hc, h⟩
  · rintro ⟨n, hc, h⟩
    exact ⟨_, hc, by simpa [CatalogCall.panics] using h⟩

/-- C37: a stream written by `EmbeddedFile` is refused exactly if it is too long or its decoding parameters are out of range. -/
theorem C37_embedded_file (calls : List EmbeddedFileCall) (c : Chunk) (r : Ref) (data : Bytes) :
    EmbeddedFile.write calls c r data = none ↔
      data.length > 2147483647 ∨ ∃ ps, EmbeddedFileCall.stream (.decodeParms ps) ∈ calls ∧ DecodeParms.run ps = none := by
  unfold EmbeddedFile.write DecodeParms.run
  have key : calls.any EmbeddedFileCall.panics = true ↔ ∃ ps, EmbeddedFileCall.stream (.decodeParms ps) ∈ calls ∧ (if ps.any DecodeParmsCall.panics then none else some (DecodeParms.prog ps)) = (none : Option Prog) := by
    simp only [run_none]; simp only [List.any_eq_true]
    constructor
    · rintro ⟨s, hs, h⟩
      cases s <;> simp only [EmbeddedFileCall.panics, Bool.false_eq_true] at h
      rename_i s
      cases s <;> simp [StreamCall.panics] at h
      exact ⟨_, hs, h⟩
    · rintro ⟨ps, hs, h⟩
      exact ⟨_, hs, by simpa [EmbeddedFileCall.panics, StreamCall.panics] using h⟩
  rw [← key]
  split
  · rename_i h; simp [h]
  · rename_i h; rw [C13_stream_panics_iff]; simp only [h]; simp

/-- C37: a stream written by `ImageXObject` is refused exactly if it is too long or its decoding parameters are out of range. -/
theorem C37_image_x_object (calls : List ImageXObjectCall) (c : Chunk) (r : Ref) (data : Bytes) :
    ImageXObject.write calls c r data = none ↔
      data.length > 2147483647 ∨ ∃ ps, ImageXObjectCall.stream (.decodeParms ps) ∈ calls ∧ DecodeParms.run ps = none := by
  unfold ImageXObject.write DecodeParms.run
  have key : calls.any ImageXObjectCall.panics = true ↔ ∃ ps, ImageXObjectCall.stream (.decodeParms ps) ∈ calls ∧ (if ps.any DecodeParmsCall.panics then none else some (DecodeParms.prog ps)) = (none : Option Prog) := by
    simp only [run_none]; simp only [List.any_eq_true]
    constructor
    · rintro ⟨s, hs, h⟩
      cases s <;> simp only [ImageXObjectCall.panics, Bool.false_eq_true] at h
      rename_i s
      cases s <;> simp [StreamCall.panics] at h
      exact ⟨_, hs, h⟩
    · rintro ⟨ps, hs, h⟩
      exact ⟨_, hs, by simpa [ImageXObjectCall.panics, StreamCall.panics] using h⟩
  rw [← key]
  split
  · rename_i h; simp [h]
  · rename_i h; rw [C13_stream_panics_iff]; simp only [h]; simp

/-- C37: a stream written by `FormXObject` is refused exactly if it is too long or its decoding parameters are out of range. -/
theorem C37_form_x_object (calls : List FormXObjectCall) (c : Chunk) (r : Ref) (data : Bytes) :
    FormXObject.write calls c r data = none ↔
      data.length > 2147483647 ∨ ∃ ps, FormXObjectCall.stream (.decodeParms ps) ∈ calls ∧ DecodeParms.run ps = none := by
  unfold FormXObject.write DecodeParms.run
  have key : calls.any FormXObjectCall.panics = true ↔ ∃ ps, FormXObjectCall.stream (.decodeParms ps) ∈ calls ∧ (if ps.any DecodeParmsCall.panics then none else some (DecodeParms.prog ps)) = (none : Option Prog) := by
    simp only [run_none]; simp only [List.any_eq_true]
    constructor
    · rintro ⟨s, hs, h⟩
      cases s <;> simp only [FormXObjectCall.panics, Bool.false_eq_true] at h
      rename_i s
      cases s <;> simp [StreamCall.panics] at h
      exact ⟨_, hs, h⟩
    · rintro ⟨ps, hs, h⟩
      exact ⟨_, hs, by simpa [FormXObjectCall.panics, StreamCall.panics] using h⟩
  rw [← key]
  split
  · rename_i h; simp [h]
  · rename_i h; rw [C13_stream_panics_iff]; simp only [h]; simp

/-- C37: a stream written by `StreamShading` is refused exactly if it is too long or its decoding parameters are out of range. -/
theorem C37_stream_shading (calls : List StreamShadingCall) (c : Chunk) (r : Ref) (data : Bytes) :
    StreamShading.write calls c r data = none ↔
      data.length > 2147483647 ∨ ∃ ps, StreamShadingCall.stream (.decodeParms ps) ∈ calls ∧ DecodeParms.run ps = none := by
  unfold StreamShading.write DecodeParms.run
  have key : calls.any StreamShadingCall.panics = true ↔ ∃ ps, StreamShadingCall.stream (.decodeParms ps) ∈ calls ∧ (if ps.any DecodeParmsCall.panics then none else some (DecodeParms.prog ps)) = (none : Option Prog) := by
    simp only [run_none]; simp only [List.any_eq_true]
    constructor
    · rintro ⟨s, hs, h⟩
      cases s <;> simp only [StreamShadingCall.panics, Bool.false_eq_true] at h
      rename_i s
      cases s <;> simp [StreamCall.panics] at h
      exact ⟨_, hs, h⟩
    · rintro ⟨ps, hs, h⟩
      exact ⟨_, hs, by simpa [StreamShadingCall.panics, StreamCall.panics] using h⟩
  rw [← key]
  split
  · rename_i h; simp [h]
  · rename_i h; rw [C13_stream_panics_iff]; simp only [h]; simp

/-- C37: a stream written by `SampledFunction` is refused exactly if it is too long or its decoding parameters are out of range. -/
theorem C37_sampled_function (calls : List SampledFunctionCall) (c : Chunk) (r : Ref) (data : Bytes) :
    SampledFunction.write calls c r data = none ↔
      data.length > 2147483647 ∨ ∃ ps, SampledFunctionCall.stream (.decodeParms ps) ∈ calls ∧ DecodeParms.run ps = none := by
  unfold SampledFunction.write DecodeParms.run
  have key : calls.any SampledFunctionCall.panics = true ↔ ∃ ps, SampledFunctionCall.stream (.decodeParms ps) ∈ calls ∧ (if ps.any DecodeParmsCall.panics then none else some (DecodeParms.prog ps)) = (none : Option Prog) := by
    simp only [run_none]; simp only [List.any_eq_true]
    constructor
    · rintro ⟨s, hs, h⟩
      cases s <;> simp only [SampledFunctionCall.panics, Bool.false_eq_true] at h
      rename_i s
      cases s <;> simp [StreamCall.panics] at h
      exact ⟨_, hs, h⟩
    · rintro ⟨ps, hs, h⟩
      exact ⟨_, hs, by simpa [SampledFunctionCall.panics, StreamCall.panics] using h⟩
  rw [← key]
  split
  · rename_i h; simp [h]
  · rename_i h; rw [C13_stream_panics_iff]; simp only [h]; simp

/-- C37: a stream written by `PostScriptFunction` is refused exactly if it is too long or its decoding parameters are out of range. -/
theorem C37_post_script_function (calls : List PostScriptFunctionCall) (c : Chunk) (r : Ref) (data : Bytes) :
    PostScriptFunction.write calls c r data = none ↔
      data.length > 2147483647 ∨ ∃ ps, PostScriptFunctionCall.stream (.decodeParms ps) ∈ calls ∧ DecodeParms.run ps = none := by
  unfold PostScriptFunction.write DecodeParms.run
  have key : calls.any PostScriptFunctionCall.panics = true ↔ ∃ ps, PostScriptFunctionCall.stream (.decodeParms ps) ∈ calls ∧ (if ps.any DecodeParmsCall.panics then none else some (DecodeParms.prog ps)) = (none : Option Prog) := by
    simp only [run_none]; simp only [List.any_eq_true]
    constructor
    · rintro ⟨s, hs, h⟩
      cases s <;> simp only [PostScriptFunctionCall.panics, Bool.false_eq_true] at h
      rename_i s
      cases s <;> simp [StreamCall.panics] at h
      exact ⟨_, hs, h⟩
    · rintro ⟨ps, hs, h⟩
      exact ⟨_, hs, by simpa [PostScriptFunctionCall.panics, StreamCall.panics] using h⟩
  rw [← key]
  split
  · rename_i h; simp [h]
  · rename_i h; rw [C13_stream_panics_iff]; simp only [h]; simp

/-- C37: a stream written by `CmapStream` is refused exactly if it is too long or its decoding parameters are out of range. -/
theorem C37_cmap_stream (calls : List CmapStreamCall) (c : Chunk) (r : Ref) (data : Bytes) :
    CmapStream.write calls c r data = none ↔
      data.length > 2147483647 ∨ ∃ ps, CmapStreamCall.stream (.decodeParms ps) ∈ calls ∧ DecodeParms.run ps = none := by
  unfold CmapStream.write DecodeParms.run
  have key : calls.any CmapStreamCall.panics = true ↔ ∃ ps, CmapStreamCall.stream (.decodeParms ps) ∈ calls ∧ (if ps.any DecodeParmsCall.panics then none else some (DecodeParms.prog ps)) = (none : Option Prog) := by
    simp only [run_none]; simp only [List.any_eq_true]
    constructor
    · rintro ⟨s, hs, h⟩
      cases s <;> simp only [CmapStreamCall.panics, Bool.false_eq_true] at h
      rename_i s
      cases s <;> simp [StreamCall.panics] at h
      exact ⟨_, hs, h⟩
    · rintro ⟨ps, hs, h⟩
      exact ⟨_, hs, by simpa [CmapStreamCall.panics, StreamCall.panics] using h⟩
  rw [← key]
  split
  · rename_i h; simp [h]
  · rename_i h; rw [C13_stream_panics_iff]; simp only [h]; simp

/-- C37: a stream written by `Metadata` is refused exactly if it is too long or its decoding parameters are out of range. -/
theorem C37_metadata (calls : List MetadataCall) (c : Chunk) (r : Ref) (data : Bytes) :
    Metadata.write calls c r data = none ↔
      data.length > 2147483647 ∨ ∃ ps, MetadataCall.stream (.decodeParms ps) ∈ calls ∧ DecodeParms.run ps = none := by
  unfold Metadata.write DecodeParms.run
  have key : calls.any MetadataCall.panics = true ↔ ∃ ps, MetadataCall.stream (.decodeParms ps) ∈ calls ∧ (if ps.any DecodeParmsCall.panics then none else some (DecodeParms.prog ps)) = (none : Option Prog) := by
    simp only [run_none]; simp only [List.any_eq_true]
    constructor
    · rintro ⟨s, hs, h⟩
      cases s <;> simp only [MetadataCall.panics, Bool.false_eq_true] at h
      rename_i s
      cases s <;> simp [StreamCall.panics] at h
      exact ⟨_, hs, h⟩
    · rintro ⟨ps, hs, h⟩
      exact ⟨_, hs, by simpa [MetadataCall.panics, StreamCall.panics] using h⟩
  rw [← key]
  split
  · rename_i h; simp [h]
  · rename_i h; rw [C13_stream_panics_iff]; simp only [h]; simp

end PdfW.Props
