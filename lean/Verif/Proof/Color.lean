import Verif.Props.Objects
import Verif.Spec.Color

/-! # Lemmas: typed objects -/

set_option linter.unusedSimpArgs false
set_option linter.unusedVariables false

namespace PdfW
open Spec Props

theorem readsBack_of {p : Prog} {P : Val → Prop} (hok : Ok p) (h : ∀ v, Denotes p v → P v) : ReadsBack p P := by
  intro pretty indent pad buf hc
  refine ⟨_, _, run_direct p indent pretty pad buf, reads_enc pretty p hok ?_ indent pad _, h _ (progVal_denotes p hok)⟩
  cases pretty
  · exact Or.inr (hc rfl)
  · exact Or.inl rfl

theorem denotes_reals (xs : List F32) : ∀ v, Denotes (reals xs) v → NumArray xs v := by
  intro v h
  simp only [reals, Denotes] at h
  obtain ⟨vs, rfl, h⟩ := h
  refine ⟨vs, rfl, ?_⟩
  induction xs generalizing vs with
  | nil => simpa [DenotesItems, NumsAre] using h
  | cons x xs ih =>
    simp only [List.map_cons, DenotesItems] at h
    obtain ⟨w, ws, rfl, h1, h2⟩ := h
    exact ⟨w, ws, rfl, by simpa [Denotes, PrimDenotes] using h1, ih ws h2⟩

theorem denotes_real (x : F32) : ∀ v, Denotes (.prim (.real x)) v → NumIs x v := by
  intro v h; simpa [Denotes, PrimDenotes] using h

theorem denotes_name (n : Bytes) : ∀ v, Denotes (.prim (.name n)) v → v = .name n := by
  intro v h; simpa [Denotes, PrimDenotes] using h

theorem denotes_int (n : Int) : ∀ v, Denotes (.prim (.int n)) v → v = .int n := by
  intro v h; simpa [Denotes, PrimDenotes] using h

theorem denotes_str (n : Bytes) : ∀ v, Denotes (.prim (.str n)) v → v = .str n := by
  intro v h; simpa [Denotes, PrimDenotes] using h

theorem denotes_ref (r : Ref) : ∀ v, Denotes (.prim (.ref r)) v → v = .ref r.get.toNat 0 := by
  intro v h; simpa [Denotes, PrimDenotes] using h

theorem denotes_refs (ids : List Ref) : ∀ v, Denotes (refs ids) v → v = .arr (ids.map fun r => .ref r.get.toNat 0) := by
  intro v h
  simp only [refs, Denotes] at h
  obtain ⟨vs, rfl, h⟩ := h
  congr 1
  induction ids generalizing vs with
  | nil => simpa [DenotesItems] using h
  | cons x xs ih =>
    simp only [List.map_cons, DenotesItems] at h
    obtain ⟨w, ws, rfl, h1, h2⟩ := h
    rw [ih ws h2, denotes_ref _ _ h1, List.map_cons]

theorem denotes_names (ns : List Bytes) : ∀ v, Denotes (names ns) v → v = .arr (ns.map .name) := by
  intro v h
  simp only [names, Denotes] at h
  obtain ⟨vs, rfl, h⟩ := h
  congr 1
  induction ns generalizing vs with
  | nil => simpa [DenotesItems] using h
  | cons x xs ih =>
    simp only [List.map_cons, DenotesItems] at h
    obtain ⟨w, ws, rfl, h1, h2⟩ := h
    rw [ih ws h2, denotes_name _ _ h1, List.map_cons]

/-- Items and their meanings, one by one. -/
inductive Implied {α β : Type} (R : α → β → Prop) : List α → List β → Prop
  | nil : Implied R [] []
  | cons {a b as bs} : R a b → Implied R as bs → Implied R (a :: as) (b :: bs)

theorem Implied.map {γ α β : Type} {R : α → β → Prop} (f : γ → α) (g : γ → β) (h : ∀ c, R (f c) (g c)) (l : List γ) :
    Implied R (l.map f) (l.map g) := by
  induction l with
  | nil => exact .nil
  | cons c l ih => exact .cons (h c) ih

theorem Implied.append {α β : Type} {R : α → β → Prop} {a c : List α} {b d : List β} (h : Implied R a b) (h' : Implied R c d) :
    Implied R (a ++ c) (b ++ d) := by
  induction h with
  | nil => exact h'
  | cons h _ ih => exact .cons h ih

def EntryImplied (e : Bytes × Prog) (m : Bytes × (Val → Prop)) : Prop := e.1 = m.1 ∧ ∀ v, Denotes e.2 v → m.2 v

def ItemImplied (e : Prog) (m : Val → Prop) : Prop := ∀ v, Denotes e v → m v

theorem dictIs_of {es : List (Bytes × Prog)} {ms : List (Bytes × (Val → Prop))} (h : Implied EntryImplied es ms) :
    ∀ v, Denotes (.dict es) v → DictIs ms v := by
  intro v hv
  simp only [Denotes] at hv
  obtain ⟨vs, rfl, hv⟩ := hv
  refine ⟨vs, rfl, ?_⟩
  induction h generalizing vs with
  | nil => simpa [DenotesEntries, EntriesAre] using hv
  | @cons a b as bs h1 h2 ih =>
    obtain ⟨k, x⟩ := a
    simp only [DenotesEntries] at hv
    obtain ⟨w, ws, rfl, k1, k2⟩ := hv
    obtain ⟨e, h1⟩ := h1
    simp only at e
    subst e
    exact ⟨w, ws, rfl, h1 w k1, ih ws k2⟩

theorem arrayIs_of {es : List Prog} {ms : List (Val → Prop)} (h : Implied ItemImplied es ms) :
    ∀ v, Denotes (.array es) v → ArrayIs ms v := by
  intro v hv
  simp only [Denotes] at hv
  obtain ⟨vs, rfl, hv⟩ := hv
  refine ⟨vs, rfl, ?_⟩
  induction h generalizing vs with
  | nil => simpa [DenotesItems, ItemsAre] using hv
  | cons h1 h2 ih =>
    simp only [DenotesItems] at hv
    obtain ⟨w, ws, rfl, k1, k2⟩ := hv
    exact ⟨w, ws, rfl, h1 w k1, ih ws k2⟩

theorem exponential_entry (c : ExponentialCall) : EntryImplied c.entry (ExponentialMeans c) := by
  cases c <;> refine ⟨rfl, ?_⟩ <;> simp only [ExponentialCall.entry, ExponentialMeans]
  · exact denotes_reals _
  · exact denotes_reals _
  · exact denotes_reals _
  · exact denotes_reals _
  · exact denotes_real _
  · exact fun v h => h

theorem stitching_entry (c : StitchingCall) : EntryImplied c.entry (StitchingMeans c) := by
  cases c <;> refine ⟨rfl, ?_⟩ <;> simp only [StitchingCall.entry, StitchingMeans]
  · exact denotes_reals _
  · exact denotes_reals _
  · exact denotes_refs _
  · exact denotes_reals _
  · exact denotes_reals _
  · exact fun v h => h

theorem exponential_denotes (calls : List ExponentialCall) : ItemImplied (exponentialFunction calls) (IsExponential calls) :=
  dictIs_of (.cons ⟨rfl, denotes_int _⟩ (Implied.map _ _ exponential_entry calls))

theorem stitching_denotes (calls : List StitchingCall) : ItemImplied (stitchingFunction calls) (IsStitching calls) :=
  dictIs_of (.cons ⟨rfl, denotes_int _⟩ (Implied.map _ _ stitching_entry calls))

/-- What a call adds to the array. -/
def sepItem : SeparationCall → Prog
  | .alternateDevice d => .prim (.name d.toName)
  | .alternateColorSpace c => c
  | .alternateColorSpaceRef r => .prim (.ref r)
  | .tintExponential calls => exponentialFunction calls
  | .tintStitching calls => stitchingFunction calls
  | .tintRef r => .prim (.ref r)

theorem device_name (d : DeviceColorSpace) : d.toName = deviceName d := by cases d <;> rfl

theorem sepItem_implied (c : SeparationCall) : ItemImplied (sepItem c) (SeparationMeans c) := by
  cases c with
  | alternateDevice d => intro v h; rw [denotes_name _ _ h, device_name]; rfl
  | alternateColorSpace c => exact fun v h => h
  | alternateColorSpaceRef r => exact denotes_ref _
  | tintExponential cs => exact exponential_denotes cs
  | tintStitching cs => exact stitching_denotes cs
  | tintRef r => exact denotes_ref _

/-- State after calls: items and flags. -/
theorem sep_call (n : Bytes) (before : List SeparationCall) (c : SeparationCall) (s : Separation)
    (hs : s = ⟨(Separation.new n).items ++ before.map sepItem, before.any SeparationCall.isAlternate⟩) :
    s.call c = if separationMisuse before c then none else
      some ⟨(Separation.new n).items ++ (before ++ [c]).map sepItem, (before ++ [c]).any SeparationCall.isAlternate⟩ := by
  subst hs
  generalize hb : before.any SeparationCall.isAlternate = b
  cases c <;> cases b <;>
    simp [Separation.call, separationMisuse, SeparationCall.isAlternate, SeparationCall.isTint, Separation.push, hb, sepItem]

theorem sep_calls (n : Bytes) (calls before : List SeparationCall) (s : Separation)
    (hs : s = ⟨(Separation.new n).items ++ before.map sepItem, before.any SeparationCall.isAlternate⟩) :
    s.calls calls = if noMisuse separationMisuse before calls then
      some ⟨(Separation.new n).items ++ (before ++ calls).map sepItem, (before ++ calls).any SeparationCall.isAlternate⟩ else none := by
  induction calls generalizing before s with
  | nil => simp [Separation.calls, noMisuse, hs]
  | cons c cs ih =>
    rw [Separation.calls, sep_call n before c s hs, noMisuse]
    by_cases hm : separationMisuse before c = true
    · rw [if_pos hm, if_neg (by simp [hm])]; rfl
    · rw [if_neg hm]
      rw [Option.bind_some, eq_false_of_ne_true hm, Bool.not_false, Bool.true_and, ih (before ++ [c]) _ rfl]
      rw [List.append_assoc]; rfl

theorem separation_eq (n : Bytes) (calls : List SeparationCall) :
    separation n calls = if noMisuse separationMisuse [] calls then
      some (.array (.prim (.name b!"Separation") :: .prim (.name n) :: calls.map sepItem)) else none := by
  have := sep_calls n calls [] (Separation.new n) (by simp [Separation.new])
  rw [separation, this]
  split <;> simp [Separation.new, ColorSpaceType.toName]

def devnItem : DeviceNCall → Prog
  | .alternateDevice d => .prim (.name d.toName)
  | .alternateColorSpace c => c
  | .alternateColorSpaceRef r => .prim (.ref r)
  | .tintExponential calls => exponentialFunction calls
  | .tintStitching calls => stitchingFunction calls
  | .tintRef r => .prim (.ref r)
  | .attrs calls => .dict (calls.map DeviceNAttrsCall.entry)

theorem process_entry (c : DeviceNProcessCall) : EntryImplied c.entry (ProcessMeans c) := by
  cases c <;> refine ⟨rfl, ?_⟩ <;> simp only [DeviceNProcessCall.entry, ProcessMeans]
  · exact denotes_name _
  · exact fun v h => h
  · exact denotes_names _

theorem hints_entry (c : DeviceNMixingHintsCall) : EntryImplied c.entry (MixingHintsMeans c) := by
  cases c <;> refine ⟨rfl, ?_⟩ <;> simp only [DeviceNMixingHintsCall.entry, MixingHintsMeans]
  · exact dictIs_of (Implied.map _ _ (fun p => ⟨rfl, denotes_real _⟩) _)
  · exact denotes_names _
  · exact dictIs_of (Implied.map _ _ (fun p => ⟨rfl, denotes_real _⟩) _)

theorem attrs_entry (c : DeviceNAttrsCall) : EntryImplied c.entry (AttrsMeans c) := by
  cases c with
  | subtype s => cases s <;> exact ⟨rfl, denotes_name _⟩
  | colorants ds => exact ⟨rfl, dictIs_of (Implied.map _ _ (fun p => ⟨rfl, fun v h => h⟩) _)⟩
  | process cs => exact ⟨rfl, dictIs_of (Implied.map _ _ process_entry _)⟩
  | mixingHints cs => exact ⟨rfl, dictIs_of (Implied.map _ _ hints_entry _)⟩

theorem devnItem_implied (c : DeviceNCall) : ItemImplied (devnItem c) (DeviceNMeans c) := by
  cases c with
  | alternateDevice d => intro v h; rw [denotes_name _ _ h, device_name]; rfl
  | alternateColorSpace c => exact fun v h => h
  | alternateColorSpaceRef r => exact denotes_ref _
  | tintExponential cs => exact exponential_denotes cs
  | tintStitching cs => exact stitching_denotes cs
  | tintRef r => exact denotes_ref _
  | attrs cs => exact dictIs_of (Implied.map _ _ attrs_entry _)

theorem devn_call (ns : List Bytes) (before : List DeviceNCall) (c : DeviceNCall) (s : DeviceN)
    (hs : s = ⟨(DeviceN.new ns).items ++ before.map devnItem, before.any DeviceNCall.isAlternate, before.any DeviceNCall.isTint⟩) :
    s.call c = if deviceNMisuse before c then none else
      some ⟨(DeviceN.new ns).items ++ (before ++ [c]).map devnItem, (before ++ [c]).any DeviceNCall.isAlternate, (before ++ [c]).any DeviceNCall.isTint⟩ := by
  subst hs
  generalize hb : before.any DeviceNCall.isAlternate = b
  generalize ht : before.any DeviceNCall.isTint = t
  cases c <;> cases b <;> cases t <;>
    simp [DeviceN.call, deviceNMisuse, DeviceNCall.isAlternate, DeviceNCall.isTint, DeviceNCall.isAttrs, DeviceN.push, hb, ht, devnItem]

theorem devn_calls (ns : List Bytes) (calls before : List DeviceNCall) (s : DeviceN)
    (hs : s = ⟨(DeviceN.new ns).items ++ before.map devnItem, before.any DeviceNCall.isAlternate, before.any DeviceNCall.isTint⟩) :
    s.calls calls = if noMisuse deviceNMisuse before calls then
      some ⟨(DeviceN.new ns).items ++ (before ++ calls).map devnItem, (before ++ calls).any DeviceNCall.isAlternate, (before ++ calls).any DeviceNCall.isTint⟩ else none := by
  induction calls generalizing before s with
  | nil => simp [DeviceN.calls, noMisuse, hs]
  | cons c cs ih =>
    rw [DeviceN.calls, devn_call ns before c s hs, noMisuse]
    by_cases hm : deviceNMisuse before c = true
    · rw [if_pos hm, if_neg (by simp [hm])]; rfl
    · rw [if_neg hm]
      rw [Option.bind_some, eq_false_of_ne_true hm, Bool.not_false, Bool.true_and, ih (before ++ [c]) _ rfl]
      rw [List.append_assoc]; rfl

theorem deviceN_eq (ns : List Bytes) (calls : List DeviceNCall) :
    deviceN ns calls = if noMisuse deviceNMisuse [] calls then
      some (.array (.prim (.name b!"DeviceN") :: names ns :: calls.map devnItem)) else none := by
  have := devn_calls ns calls [] (DeviceN.new ns) (by simp [DeviceN.new])
  rw [deviceN, this]
  split <;> simp [DeviceN.new, ColorSpaceType.toName]

theorem given_implied {α : Type} (key : Bytes) (f : α → Prog) (P : α → Val → Prop) (h : ∀ a v, Denotes (f a) v → P a v) (o : Option α) :
    Implied EntryImplied (optEntry key f o) (given key P o) := by
  cases o with
  | none => exact .nil
  | some a => exact .cons ⟨rfl, h a⟩ .nil

/-- The value read is `progVal`, whatever the mode. -/
theorem readsBack_val {p : Prog} {P : Val → Prop} (hok : Ok p) (h : P (progVal p)) : ReadsBack p P := by
  intro pretty indent pad buf hc
  refine ⟨_, _, run_direct p indent pretty pad buf, reads_enc pretty p hok ?_ indent pad _, h⟩
  cases pretty
  · exact Or.inr (hc rfl)
  · exact Or.inl rfl

theorem gamma_entry (g : Option F32) (h : ∀ x, g = some x → PrimOk (.real x)) :
    EntriesAre (given b!"Gamma" NumIs g) (entriesVal (optEntry b!"Gamma" (fun v => .prim (.real v)) g)) := by
  cases g with
  | none => rfl
  | some x => exact ⟨_, _, rfl, denotes_real x _ (by simp only [Denotes]; exact primVal_denotes _ (h x rfl)), rfl⟩

theorem preset_val (q : ColorPreset) (hok : Ok q.prog) : PresetMeans q (progVal q.prog) := by
  cases q with
  | srgb => exact (rfl : progVal srgb = _)
  | adobeRgb => exact (rfl : progVal adobeRgb = _)
  | displayP3 => exact (rfl : progVal displayP3 = _)
  | proPhoto => exact (rfl : progVal proPhoto = _)
  | eciRgb => exact (rfl : progVal eciRgb = _)
  | ntsc => exact (rfl : progVal ntsc = _)
  | pal => exact (rfl : progVal pal = _)
  | d65Gray => exact (rfl : progVal d65Gray = _)
  | cGray => exact (rfl : progVal cGray = _)
  | d50Gray g =>
    refine ⟨_, rfl, _, _, rfl, rfl, _, _, rfl, ⟨_, rfl, _, _, rfl, rfl, gamma_entry g ?_⟩, rfl⟩
    intro x hx; subst hx
    simp only [ColorPreset.prog, d50Gray, calGray, optEntry, Ok, OkItems, OkEntries] at hok
    have h2 := hok.2.1.2
    simp [OkEntries, Ok] at h2
    exact h2
  | eGray g =>
    refine ⟨_, rfl, _, _, rfl, rfl, _, _, rfl, ⟨_, rfl, _, _, rfl, rfl, gamma_entry g ?_⟩, rfl⟩
    intro x hx; subst hx
    simp only [ColorPreset.prog, eGray, calGray, optEntry, Ok, OkItems, OkEntries] at hok
    have h2 := hok.2.1.2
    simp [OkEntries, Ok] at h2
    exact h2

end PdfW
