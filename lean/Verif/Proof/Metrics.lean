import Verif.Spec.Metrics
import Verif.Proof.Fonts
import Verif.Proof.Details
import Verif.Proof.Semantics
import Verif.Proof.Geometry

set_option linter.unusedSimpArgs false
set_option linter.unusedVariables false

/-! # Font descriptors: proofs -/

namespace PdfW
open Spec

variable {unf : Val → Bytes → Option Bytes} {f : FileEnd} {bytes : Bytes} {items : List Item}

theorem panose_read (p : UInt8 × UInt8 × (Fin 10 → UInt8)) (v : Val) (h : DictIs [(b!"Panose", IsPanose p.1 p.2.1 p.2.2)] v) :
    readPanose v = some (p.1 :: p.2.1 :: (List.finRange 10).map p.2.2) := by
  obtain ⟨d, rfl, w, ws, rfl, ⟨s, rfl, hl, h0, h1, h2⟩, hn⟩ := h
  simp only [EntriesAre] at hn
  subst hn
  have : s = p.1 :: p.2.1 :: (List.finRange 10).map p.2.2 := by
    apply List.ext_getElem?
    intro i
    match i with
    | 0 => simpa using h0
    | 1 => simpa using h1
    | i + 2 =>
      by_cases hi : i < 10
      · rw [h2 ⟨i, hi⟩]
        simp [hi]
      · rw [List.getElem?_eq_none (by omega), List.getElem?_eq_none (by simp; omega)]
  subst this
  rfl

theorem metrics_read {calls : List FontDescriptorCall} {x : GivenMetrics} (h : MetricsSet calls x) {d : List (Bytes × Val)}
    (he : EntriesAre (FontDescriptorEntries calls) d) : ∃ r, readMetrics d = some r ∧ SameMetrics x r := by
  have he : EntriesAre ([(b!"Type", IsName b!"FontDescriptor")] ++ calls.flatMap FontDescriptorMeans) d := he
  obtain ⟨h1, h2, ⟨s3, e3, h3⟩, ⟨s4, e4, h4⟩, h5, ⟨s6, e6, h6⟩, h7, h8, h9, h10, h11, h12, h13, h14, h15, h16, h17, h18, ⟨s19, e19, h19⟩⟩ := h
  have r1 := optional_eq (read := nameOf) IsName (fun x => x) he rfl h1 (fun _ => rfl) (fun b => isName_nameOf b)
  have r2 := optional_eq (read := strOf) IsStr (fun x => x) he rfl h2 (fun _ => rfl) str_read
  have r3 := optional_eq (read := nameOf) (fun s => IsName (isoFontStretch s)) isoFontStretch he rfl h3 (fun _ => rfl) (fun b => isName_nameOf _)
  have r4 := optional_eq (read := intOf) (fun w : UInt16 => IsInt w.toNat) (fun w => (w.toNat : Int)) he rfl h4 (fun _ => rfl) (fun b => int_read _)
  obtain ⟨y5, r5, m5⟩ := optional_call (read := flagsOf) (R := FlagsRead isoFontFlag) (P := fun fl => FlagsAre (fl.map isoFontFlag)) he rfl h5 (fun _ _ => rfl)
    (fun b _ v hv => flagsRead_of isoFontFlag b v hv)
  obtain ⟨y6, r6, m6⟩ := optional_call (read := itemsOf) (R := fun (b : Rect) vs => Pairwise NumIs [b.x1, b.y1, b.x2, b.y2] vs) (P := IsRect) he rfl h6
    (fun _ _ => rfl) (fun b _ v hv => rect_read b v hv)
  obtain ⟨y7, r7, m7⟩ := optional_call (read := numberOf) (R := NumIs) (P := NumIs) he rfl h7 (fun _ _ => rfl) (fun b _ v hv => numberOf_read b v hv)
  obtain ⟨y8, r8, m8⟩ := optional_call (read := numberOf) (R := NumIs) (P := NumIs) he rfl h8 (fun _ _ => rfl) (fun b _ v hv => numberOf_read b v hv)
  obtain ⟨y9, r9, m9⟩ := optional_call (read := numberOf) (R := NumIs) (P := NumIs) he rfl h9 (fun _ _ => rfl) (fun b _ v hv => numberOf_read b v hv)
  obtain ⟨y10, r10, m10⟩ := optional_call (read := numberOf) (R := NumIs) (P := NumIs) he rfl h10 (fun _ _ => rfl) (fun b _ v hv => numberOf_read b v hv)
  obtain ⟨y11, r11, m11⟩ := optional_call (read := numberOf) (R := NumIs) (P := NumIs) he rfl h11 (fun _ _ => rfl) (fun b _ v hv => numberOf_read b v hv)
  obtain ⟨y12, r12, m12⟩ := optional_call (read := numberOf) (R := NumIs) (P := NumIs) he rfl h12 (fun _ _ => rfl) (fun b _ v hv => numberOf_read b v hv)
  obtain ⟨y13, r13, m13⟩ := optional_call (read := numberOf) (R := NumIs) (P := NumIs) he rfl h13 (fun _ _ => rfl) (fun b _ v hv => numberOf_read b v hv)
  obtain ⟨y14, r14, m14⟩ := optional_call (read := numberOf) (R := NumIs) (P := NumIs) he rfl h14 (fun _ _ => rfl) (fun b _ v hv => numberOf_read b v hv)
  obtain ⟨y15, r15, m15⟩ := optional_call (read := numberOf) (R := NumIs) (P := NumIs) he rfl h15 (fun _ _ => rfl) (fun b _ v hv => numberOf_read b v hv)
  obtain ⟨y16, r16, m16⟩ := optional_call (read := numberOf) (R := NumIs) (P := NumIs) he rfl h16 (fun _ _ => rfl) (fun b _ v hv => numberOf_read b v hv)
  obtain ⟨y17, r17, m17⟩ := optional_call (read := numberOf) (R := NumIs) (P := NumIs) he rfl h17 (fun _ _ => rfl) (fun b _ v hv => numberOf_read b v hv)
  have r18 := optional_eq (read := strOf) IsStr (fun x => x) he rfl h18 (fun _ => rfl) str_read
  have r19 := optional_eq (read := readPanose) (fun p : UInt8 × UInt8 × (Fin 10 → UInt8) => DictIs [(b!"Panose", IsPanose p.1 p.2.1 p.2.2)])
    (fun p => p.1 :: p.2.1 :: (List.finRange 10).map p.2.2) he rfl h19 (fun _ => rfl) panose_read
  simp only [Option.map_id_fun', id] at r1 r2 r18
  refine ⟨⟨x.name, x.family, s3.map isoFontStretch, s4.map fun w => (w.toNat : Int), y5, y6, y7, y8, y9, y10, y11, y12, y13, y14, y15, y16, y17, x.charSet,
    s19.map fun p => p.1 :: p.2.1 :: (List.finRange 10).map p.2.2⟩, ?_, ?_⟩
  · simp only [readMetrics, r1, r2, r3, r4, r5, r6, r7, r8, r9, r10, r11, r12, r13, r14, r15, r16, r17, r18, r19, Option.bind_some, Option.map_some]
  · exact ⟨⟨rfl, rfl, e3.symm, e4.symm, rfl, e19.symm⟩, m5,
      by rw [e6]; exact bothOrNone_map (R := Pairwise NumIs) (h := fun b : Rect => [b.x1, b.y1, b.x2, b.y2]) m6, m7, m8, m9, m10, m11, m12, m13, m14, m15, m16, m17⟩

theorem sameMetrics_over {a b : GivenMetrics} {x y : Metrics Val Nat} (h : SameMetrics a x) (h' : SameMetrics b y) : SameMetrics (a.over b) (x.over y) := by
  obtain ⟨⟨a1, a2, a3, a4, a5, a6⟩, p5, p6, p7, p8, p9, p10, p11, p12, p13, p14, p15, p16, p17⟩ := h
  obtain ⟨⟨b1, b2, b3, b4, b5, b6⟩, q5, q6, q7, q8, q9, q10, q11, q12, q13, q14, q15, q16, q17⟩ := h'
  refine ⟨⟨?_, ?_, ?_, ?_, ?_, ?_⟩, bothOrNone_or p5 q5, bothOrNone_or p6 q6, bothOrNone_or p7 q7, bothOrNone_or p8 q8, bothOrNone_or p9 q9, bothOrNone_or p10 q10,
    bothOrNone_or p11 q11, bothOrNone_or p12 q12, bothOrNone_or p13 q13, bothOrNone_or p14 q14, bothOrNone_or p15 q15, bothOrNone_or p16 q16, bothOrNone_or p17 q17⟩
  all_goals simp only [Metrics.over, a1, a2, a3, a4, a5, a6, b1, b2, b3, b4, b5, b6]

/-! ## Overrides -/

/-- The class of a call, and the value it writes. -/
def overrideKey : FontDescriptorOverrideCall → Bytes
  | .customClass cls _ => cls
  | .customClassRef cls _ => cls
  | .cjkClass cls _ => isoCjkClass cls
  | .cjkClassRef cls _ => isoCjkClass cls
  | .raw key _ => key
def overrideIs : FontDescriptorOverrideCall → Val → Prop
  | .customClass _ d => Denotes d
  | .customClassRef _ r => IsRef r
  | .cjkClass _ d => Denotes d
  | .cjkClassRef _ r => IsRef r
  | .raw _ value => Denotes value

theorem override_means (cs : List FontDescriptorOverrideCall) :
    FontDescriptorOverrideEntries cs = (cs.map fun c => (overrideKey c, c)).map fun e => (e.1, overrideIs e.2) := by
  induction cs with
  | nil => rfl
  | cons c cs ih =>
    have hc : FontDescriptorOverrideMeans c = [(overrideKey c, overrideIs c)] := by cases c <;> rfl
    simp only [FontDescriptorOverrideEntries, List.flatMap_cons, List.map_cons, hc] at ih ⊢
    rw [ih]
    rfl

theorem override_read (hf : Finds f bytes items) {c : FontDescriptorOverrideCall} {cls : Bytes} {d : List FontDescriptorCall} (h : OverrideCall items c cls d) :
    overrideKey c = cls ∧ ∀ v, overrideIs c v → ∃ d', followDict f bytes v = some d' ∧ EntriesAre (FontDescriptorEntries d) d' := by
  have key : ∀ v, Denotes (FontDescriptor.prog d) v → ∃ d', followDict f bytes v = some d' ∧ EntriesAre (FontDescriptorEntries d) d' := by
    intro v hv
    obtain ⟨d', rfl, he⟩ := fontDescriptor_denotes d v hv
    exact ⟨d', rfl, he⟩
  have key' : ∀ r, HasObject items r (.val (FontDescriptor.prog d)) → ∀ v, IsRef r v → ∃ d', followDict f bytes v = some d' ∧ EntriesAre (FontDescriptorEntries d) d' := by
    intro r ho v hv
    obtain ⟨w, q, hw⟩ := finds_val hf ho
    obtain ⟨d', rfl, he⟩ := fontDescriptor_denotes d w hw
    simp only [IsRef] at hv
    subst hv
    exact ⟨d', by simp only [followDict, followRef, q, Option.bind_some], he⟩
  cases h with
  | custom => exact ⟨rfl, key⟩
  | customRef ho => exact ⟨rfl, key' _ ho⟩
  | cjk => exact ⟨rfl, key⟩
  | cjkRef ho => exact ⟨rfl, key' _ ho⟩

theorem overrides_keys (hf : Finds f bytes items) {cs : List FontDescriptorOverrideCall} {overrides : List (Bytes × GivenMetrics)}
    (h : Pairwise (fun c e => ∃ d, OverrideCall items c e.1 d ∧ MetricsSet d e.2) cs overrides) : cs.map overrideKey = overrides.map fun e => e.1 := by
  induction h with
  | nil => rfl
  | cons ha _ ih =>
    obtain ⟨d, h1, -⟩ := ha
    simp only [List.map_cons, ih, (override_read hf h1).1]

theorem overrides_mem {cs : List FontDescriptorOverrideCall} {overrides : List (Bytes × GivenMetrics)}
    (h : Pairwise (fun c e => ∃ d, OverrideCall items c e.1 d ∧ MetricsSet d e.2) cs overrides) {e : Bytes × GivenMetrics} (he : e ∈ overrides) :
    ∃ c ∈ cs, ∃ d, OverrideCall items c e.1 d ∧ MetricsSet d e.2 := by
  induction h with
  | nil => cases he
  | cons ha _ ih =>
    rcases List.mem_cons.mp he with rfl | he
    · exact ⟨_, by simp, ha⟩
    · obtain ⟨c, hc, k⟩ := ih he
      exact ⟨c, by simp [hc], k⟩

/-- What the reader finds for a class. -/
theorem classMetrics_read (hf : Finds f bytes items) {calls : List FontDescriptorCall} {base : GivenMetrics} {overrides : List (Bytes × GivenMetrics)}
    (h : DescriptorSets items calls base overrides) {d : List (Bytes × Val)} (he : EntriesAre (FontDescriptorEntries calls) d) :
    (∀ e ∈ overrides, ∃ r, classMetrics f bytes d e.1 = some r ∧ SameMetrics (e.2.over base) r) ∧
    ∀ cls, (∀ e ∈ overrides, e.1 ≠ cls) → ∃ r, classMetrics f bytes d cls = some r ∧ SameMetrics base r := by
  obtain ⟨hb, ⟨cs, h1, h2⟩, hd⟩ := h
  obtain ⟨b, rb, mb⟩ := metrics_read hb he
  have he : EntriesAre ([(b!"Type", IsName b!"FontDescriptor")] ++ calls.flatMap FontDescriptorMeans) d := he
  obtain ⟨y, ry, my⟩ := optional_call (read := followDict f bytes) (R := fun cs d => EntriesAre (FontDescriptorOverrideEntries cs) d) (P := IsFontDescriptorOverride)
    he rfl h1 (fun _ _ => rfl) (fun b _ v hv => by obtain ⟨d, rfl, he⟩ := hv; exact ⟨d, rfl, he⟩)
  have hfd : EntriesAre (FontDescriptorOverrideEntries (cs.getD [])) (y.getD []) := by
    cases cs with
    | none => cases y with
      | none => exact rfl
      | some y => exact my.elim
    | some c => cases y with
      | none => exact my.elim
      | some y => exact my
  rw [override_means] at hfd
  have hk := overrides_keys hf h2
  have hnd : (((cs.getD []).map fun c => (overrideKey c, c)).map (·.1)).Nodup := by
    rw [List.map_map, show ((fun e : Bytes × FontDescriptorOverrideCall => e.1) ∘ fun c => (overrideKey c, c)) = overrideKey from rfl, hk]
    exact hd
  refine ⟨fun e hm => ?_, fun cls hn => ?_⟩
  · obtain ⟨c, hc, dd, h3, h4⟩ := overrides_mem h2 hm
    obtain ⟨h5, h6⟩ := override_read hf h3
    obtain ⟨x, q1, q2⟩ := keyed_present (P := fun e => overrideIs e.2) hfd hnd (n := e.1) (a := c)
      (List.mem_map.mpr ⟨c, hc, by rw [h5]⟩) (read := fun v => (followDict f bytes v).bind readMetrics) (Q := SameMetrics e.2)
      (fun v hv => by
        obtain ⟨d', q, hq⟩ := h6 v hv
        obtain ⟨r, k1, k2⟩ := metrics_read h4 hq
        exact ⟨r, by simp only [q, Option.bind_some, k1], k2⟩)
    exact ⟨x.over b, by simp only [classMetrics, rb, ry, q1, Option.bind_some, Option.map_some], sameMetrics_over q2 mb⟩
  · have q1 := keyed_absent (P := fun e => overrideIs e.2) hfd (n := cls) (read := fun v => (followDict f bytes v).bind readMetrics) (by
      intro e he
      obtain ⟨c, hc, rfl⟩ := List.mem_map.mp he
      have : overrideKey c ∈ overrides.map fun e => e.1 := by rw [← hk]; exact List.mem_map_of_mem hc
      obtain ⟨e', h', e''⟩ := List.mem_map.mp this
      rw [← e'']
      exact hn e' h')
    exact ⟨b, by simp only [classMetrics, rb, ry, q1, Option.bind_some, Option.map_some], mb⟩

end PdfW
