import Verif.Spec.Survey
import Verif.Props.Limits
import Verif.Props.Primitives
import Verif.Props.Order
import Verif.Proof.Spelling

set_option linter.unusedSimpArgs false
set_option linter.unusedVariables false

/-! # Lemmas: what a checker comes across, and what was counted -/

namespace PdfW
open Spec

/-- The same fact; reals up to their sign. -/
def SameFact (a b : Fact) : Prop := a = b ∨ ∃ x y, a = .real x ∧ b = .real y ∧ x.mag = y.mag ∧ x.isNaN = false

/-- A fact that the checker comes across is backed by one that was counted. -/
def Accounted (fs : List Fact) : Fact → Prop
  | .str k => (∃ j, .str j ∈ fs ∧ k ≤ 2 * j + 2) ∨ k ≤ 22
  | f => ∃ g ∈ fs, SameFact g f

theorem Accounted.mono {fs gs : List Fact} {f : Fact} (h : Accounted fs f) (hs : ∀ g ∈ fs, g ∈ gs) : Accounted gs f := by
  cases f <;> simp only [Accounted] at h ⊢
  case str => rcases h with ⟨j, h1, h2⟩ | h
              · exact Or.inl ⟨j, hs _ h1, h2⟩
              · exact Or.inr h
  all_goals obtain ⟨g, h1, h2⟩ := h; exact ⟨g, hs g h1, h2⟩

theorem accounted_same {fs : List Fact} {g f : Fact} (hg : g ∈ fs) (h : SameFact g f) : Accounted fs f := by
  cases f <;> simp only [Accounted]
  case str k =>
    rcases h with rfl | ⟨x, y, -, e, -⟩
    · exact Or.inl ⟨k, hg, by omega⟩
    · cases e
  all_goals exact ⟨g, hg, h⟩

/-! ## Numbers -/

namespace F32

theorem scaled_two23 : scaled 1258291200 = 2 ^ 172 := by decide +kernel

/-- A 32-bit integer is read as a whole number. -/
theorem whole_of_int (x : F32) (n : Int) (h : NumIs x (.int n)) (h1 : -2147483648 ≤ n) (h2 : n ≤ 2147483647) : (wholeNumber x).isSome := by
  have hP : (0 : Nat) < 2 ^ 149 := Nat.two_pow_pos _
  obtain ⟨hr, -⟩ := h
  have hN : n.natAbs ≤ 2147483648 := by omega
  obtain ⟨s1, s2⟩ := magOfNat_spec n.natAbs hN
  have hb := RoundsTo_bool (by decide) hr
  have e : x.mag.val = magOfNat n.natAbs :=
    PdfW.Props.C07_rounding_unique _ 1 _ _ (by decide) hr (roundsTo_spec _ _ _ (by decide) (by have : infMag = 2139095040 := rfl
                                                                                               omega) s1)
  have hle : scaled x.mag.val ≤ 2147483648 * 2 ^ 149 := by
    rw [← scaled_max, e]; exact scaled_le s2
  have hdiv : scaled x.mag.val / 2 ^ 149 ≤ 2147483648 :=
    (Nat.div_le_iff_le_mul_add_pred hP).mpr (by rw [Nat.mul_comm]; omega)
  have hmod : scaled x.mag.val % 2 ^ 149 = 0 := by
    rcases Nat.eq_zero_or_pos n.natAbs with h0 | h0
    · rw [e, h0]; decide +kernel
    · rcases Nat.lt_or_ge n.natAbs 16777216 with h3 | h3
      · rw [e, scaled_magOfNat _ h0 h3]; exact Nat.mul_mod_left _ _
      · apply scaled_large
        rcases Nat.lt_or_ge (scaled x.mag.val) (2 ^ 172) with h4 | h4
        · exfalso
          have hlt : x.mag.val < 1258291200 := by
            rcases Nat.lt_or_ge x.mag.val 1258291200 with h5 | h5
            · exact h5
            · have := scaled_le h5
              rw [scaled_two23] at this
              omega
          have h6 := scaled_le (show x.mag.val + 1 ≤ 1258291200 by omega)
          rw [scaled_two23] at h6
          unfold roundsTo at hb
          simp only [Bool.and_eq_true, Bool.or_eq_true, decide_eq_true_eq, beq_iff_eq, Nat.mul_one] at hb
          have h7 : 2 * (n.natAbs * 2 ^ 149) ≤ scaled x.mag.val + scaled (x.mag.val + 1) := by omega
          have h8 : 16777216 * 2 ^ 149 ≤ n.natAbs * 2 ^ 149 := Nat.mul_le_mul_right _ h3
          have h9 : 16777216 * 2 ^ 149 = 2 * 2 ^ 172 := by decide +kernel
          have : (0 : Nat) < 2 ^ 172 := Nat.two_pow_pos _
          omega
        · exact h4
  unfold wholeNumber
  rw [if_pos ⟨hmod, hdiv⟩]
  rfl

end F32

/-- A number counts as what was counted for it. -/
theorem num_counts (x : F32) (hf : x.isFinite = true) : ∃ g, numFacts x = [g] ∧ (∀ k, g ≠ .str k) ∧
    (∀ f, CountsAs (F32.tokVal (readRun x.realBytes)) f → SameFact g f) ∧ ∃ f, CountsAs (F32.tokVal (readRun x.realBytes)) f ∧ SameFact g f := by
  obtain ⟨i1, i2⟩ := F32.integral_whole x
  obtain ⟨h1, h2⟩ := readRun_real x hf
  have hnan : x.isNaN = false := by
    unfold F32.isFinite at hf
    unfold F32.isNaN
    simp at hf ⊢
    omega
  cases hw : wholeNumber x with
  | some w =>
    have hi : x.isIntegral = true := by rw [i1, hw]; rfl
    have hr := F32.toI32_range x
    have e : F32.tokVal (readRun x.realBytes) = .int x.toI32 := by
      simp [F32.realBytes, hi, readRun, readNumber_intBytes, F32.tokVal]
    refine ⟨.int (Min.min w 2147483647), by simp [numFacts, hw], by simp, ?_, .int x.toI32, ?_, ?_⟩
    · intro f hcf
      rw [e] at hcf
      rcases hcf with ⟨-, -, rfl⟩ | ⟨hn, -⟩
      · exact Or.inl (by rw [i2 w (by simp [hw])])
      · exact absurd (by omega) hn
    · rw [e]; exact Or.inl ⟨by omega, by omega, rfl⟩
    · exact Or.inl (by rw [i2 w (by simp [hw])])
  | none =>
    refine ⟨.real x, by simp [numFacts, hw], by simp, ?_, .real x, ?_, Or.inl rfl⟩
    · intro f hcf
      rcases h1 with ⟨n, e⟩ | ⟨m, s, e⟩
      · rw [e] at hcf h2
        rcases hcf with ⟨b1, b2, rfl⟩ | ⟨hn, y, hy, rfl⟩
        · have := F32.whole_of_int x n h2 b1 b2
          rw [hw] at this; cases this
        · exact Or.inr ⟨x, y, rfl, rfl, Fin.ext (Props.C07_rounding_unique _ 1 _ _ (by decide) h2.1 hy.1), hnan⟩
      · rw [e] at hcf h2
        obtain ⟨y, hy, rfl⟩ := hcf
        exact Or.inr ⟨x, y, rfl, rfl, Fin.ext (Props.C07_rounding_unique _ _ _ _ (Nat.pow_pos (by decide)) h2.1 hy.1), hnan⟩
    · rcases h1 with ⟨n, e⟩ | ⟨m, s, e⟩
      · rw [e] at h2 ⊢
        refine Or.inr ⟨?_, x, h2, rfl⟩
        rintro ⟨b1, b2⟩
        have := F32.whole_of_int x n h2 b1 b2
        rw [hw] at this; cases this
      · rw [e] at h2 ⊢
        exact ⟨x, h2, rfl⟩

theorem inside_num (x : F32) (hf : x.isFinite = true) : inside (F32.tokVal (readRun x.realBytes)) = [F32.tokVal (readRun x.realBytes)] := by
  rcases (readRun_real x hf).1 with ⟨n, e⟩ | ⟨m, s, e⟩ <;> rw [e] <;> rfl

/-! ## Lengths of strings -/

theorem utf16Char_length (c : Char) : (utf16Char c).length ≤ (utf8Char c).length := by
  unfold utf16Char utf8Char
  simp only
  split <;> split <;> (try split) <;> (try split) <;> simp <;> omega

theorem utf16_length (t : List Char) : (utf16 t).length ≤ (utf8 t).length := by
  induction t with
  | nil => exact Nat.le_refl _
  | cons c t ih =>
    have := utf16Char_length c
    simp only [utf16, utf8, List.flatMap_cons, List.length_append] at ih ⊢
    omega

theorem unitBytes_length (us : List UInt16) : (unitBytes us).length = 2 * us.length := by
  induction us with
  | nil => rfl
  | cons u us ih => simp only [unitBytes, List.flatMap_cons, List.length_append, List.length_cons, List.length_nil] at ih ⊢; omega

theorem textContent_length (t : List Char) : (textContent t).length ≤ 2 * (utf8 t).length + 2 := by
  unfold textContent
  split
  · omega
  · have := utf16_length t
    simp only [List.length_cons, unitBytes_length]; omega

theorem langContent_length (segs : List (LangId × List Char)) : (langContent segs).length ≤
    2 * (segs.map fun s => (String.ofList s.2).utf8ByteSize + (if s.1.region.isSome then 4 else 2) + 2).sum + 2 := by
  unfold langContent
  simp only [List.length_cons, unitBytes_length]
  have : (segs.flatMap segUnits).length ≤ (segs.map fun s => (String.ofList s.2).utf8ByteSize + (if s.1.region.isSome then 4 else 2) + 2).sum := by
    induction segs with
    | nil => exact Nat.le_refl _
    | cons s segs ih =>
      have h := utf16_length s.2
      rw [utf8_length] at h
      simp only [List.flatMap_cons, List.length_append, List.map_cons, List.sum_cons, segUnits, langUnits]
      cases s.1.region <;> simp [-List.length_flatMap] <;> omega
  omega

theorem dateContent_length (d : Date) (h : DateInRange d) : (dateContent d).length ≤ 22 := by
  obtain ⟨hy, hmo, hda, hho, hmi, hse, hoh, hom⟩ := h
  have two : ∀ n, n ≤ 99 → (Date.padNat 2 n).length = 2 := fun n hn => padNat_length 2 n (by omega) (by omega)
  have y4 : (Date.padNat 4 d.year).length = 4 := padNat_length 4 d.year (by omega) (by omega)
  unfold dateContent dateText
  have d2 : (b!"D:").length = 2 := rfl
  have z1 : (b!"Z").length = 1 := rfl
  have q1 : (b!"'").length = 1 := rfl
  simp only [List.length_append, y4, d2]
  cases e1 : d.month with
  | none => simp
  | some mo =>
  have := two mo (by have := hmo mo (by simp [e1]); omega)
  cases e2 : d.day with
  | none => simp [this]
  | some da =>
  have := two da (by have := hda da (by simp [e2]); omega)
  cases e3 : d.hour with
  | none => simp [*]
  | some ho =>
  have := two ho (by have := hho ho (by simp [e3]); omega)
  cases e4 : d.minute with
  | none => simp [*]
  | some mi =>
  have := two mi (by have := hmi mi (by simp [e4]); omega)
  cases e5 : d.second with
  | none => simp [*]
  | some se =>
  have := two se (by have := hse se (by simp [e5]); omega)
  cases e6 : d.utcOffsetHour with
  | none => simp [*]
  | some off =>
  have h7 := two off.natAbs (by have := hoh off (by simp [e6]); omega)
  have h8 := two d.utcOffsetMinute (by omega)
  simp only [List.length_append, *]
  split
  · rw [z1]; omega
  · simp only [Date.padSigned, List.length_append, List.length_cons, h7, h8, q1]; omega

/-! ## Objects -/

/-- 32-bit integers. -/
def In32 (fs : List Fact) : Prop := ∀ i, Fact.int i ∈ fs → -2147483648 ≤ i ∧ i ≤ 2147483647

theorem In32.left {a b : List Fact} (h : In32 (a ++ b)) : In32 a := fun i hi => h i (List.mem_append_left _ hi)
theorem In32.right {a b : List Fact} (h : In32 (a ++ b)) : In32 b := fun i hi => h i (List.mem_append_right _ hi)

theorem ref_counts (r : Ref) : ∀ f, CountsAs (.ref r.id.toNat 0) f ↔ f = .int r.get := by
  intro f
  have h1 := r.pos
  have : ((r.id.toNat : Nat) : Int) = r.get := by
    show _ = r.id
    omega
  simp only [CountsAs, this]

theorem prim_accounted (p : Prim) (hok : PrimOk p) (hi : In32 (primFacts p)) :
    ∀ v ∈ inside (primVal p), ∀ f, CountsAs v f → Accounted (primFacts p) f := by
  intro v hv f hf
  cases p with
  | null => simp [primVal, inside] at hv; subst hv; exact hf.elim
  | bool b => simp [primVal, inside] at hv; subst hv; exact hf.elim
  | int i =>
    simp [primVal, inside] at hv; subst hv
    rcases hf with ⟨-, -, rfl⟩ | ⟨hn, -⟩
    · exact accounted_same (g := .int i) (by simp [primFacts]) (Or.inl rfl)
    · exact absurd (hi i (by simp [primFacts])) hn
  | real x =>
    obtain ⟨g, e, -, h1, -⟩ := num_counts x hok
    rw [primVal, inside_num x hok, List.mem_singleton] at hv
    subst hv
    exact accounted_same (g := g) (by rw [primFacts, e]; simp) (h1 f hf)
  | str s => simp [primVal, inside] at hv; subst hv; exact accounted_same (g := f) (by rw [hf]; simp [primFacts]) (Or.inl rfl)
  | textStr t =>
    simp [primVal, inside] at hv; subst hv
    rw [show f = .str (textContent t).length from hf]
    exact Or.inl ⟨(String.ofList t).utf8ByteSize, List.mem_singleton.mpr rfl, by rw [← utf8_length]; exact textContent_length t⟩
  | textStrLang segs =>
    simp [primVal, inside] at hv; subst hv
    rw [show f = .str (langContent segs).length from hf]
    exact Or.inl ⟨_, List.mem_singleton.mpr rfl, langContent_length segs⟩
  | name n => simp [primVal, inside] at hv; subst hv; exact accounted_same (g := f) (by rw [hf]; simp [primFacts]) (Or.inl rfl)
  | ref r =>
    simp [primVal, inside] at hv; subst hv
    rw [ref_counts] at hf
    exact accounted_same (g := f) (by rw [hf]; simp [primFacts]) (Or.inl rfl)
  | rect r =>
    obtain ⟨o1, o2, o3, o4⟩ := hok
    obtain ⟨g1, e1, -, h1, -⟩ := num_counts r.x1 o1
    obtain ⟨g2, e2, -, h2, -⟩ := num_counts r.y1 o2
    obtain ⟨g3, e3, -, h3, -⟩ := num_counts r.x2 o3
    obtain ⟨g4, e4, -, h4, -⟩ := num_counts r.y2 o4
    simp only [primVal, inside, insideAll, inside_num _ o1, inside_num _ o2, inside_num _ o3, inside_num _ o4, List.mem_cons, List.mem_append,
      List.not_mem_nil, or_false] at hv
    simp only [primFacts, e1, e2, e3, e4]
    rcases hv with rfl | rfl | rfl | rfl | rfl
    · exact accounted_same (g := f) (by rw [show f = .arr 4 from hf]; simp) (Or.inl rfl)
    · exact accounted_same (g := g1) (by simp) (h1 f hf)
    · exact accounted_same (g := g2) (by simp) (h2 f hf)
    · exact accounted_same (g := g3) (by simp) (h3 f hf)
    · exact accounted_same (g := g4) (by simp) (h4 f hf)
  | date d =>
    simp [primVal, inside] at hv; subst hv
    rw [show f = .str (dateContent d).length from hf]
    exact Or.inr (dateContent_length d hok)

theorem itemsVal_length (xs : List Prog) : (itemsVal xs).length = xs.length := by
  induction xs with
  | nil => rfl
  | cons x xs ih => simp [itemsVal, ih]

theorem entriesVal_length (xs : List (Bytes × Prog)) : (entriesVal xs).length = xs.length := by
  induction xs with
  | nil => rfl
  | cons x xs ih => obtain ⟨k, x⟩ := x; simp [entriesVal, ih]

mutual
theorem inside_accounted : ∀ (p : Prog), Ok p → In32 (progFacts p) → ∀ v ∈ inside (progVal p), ∀ f, CountsAs v f → Accounted (progFacts p) f
  | .prim p, hok, hi, v, hv, f, hf => by
    rw [progVal] at hv; rw [progFacts] at hi ⊢; rw [Ok] at hok
    exact prim_accounted p hok hi v hv f hf
  | .array items, hok, hi, v, hv, f, hf => by
    rw [progVal, inside, List.mem_cons] at hv
    rw [progFacts] at hi ⊢; rw [Ok] at hok
    rcases hv with rfl | hv
    · exact accounted_same (g := f) (by rw [show f = .arr _ from hf, itemsVal_length]; simp) (Or.inl rfl)
    · exact (inside_accountedItems items hok hi.left v hv f hf).mono fun g hg => List.mem_append_left _ hg
  | .dict entries, hok, hi, v, hv, f, hf => by
    rw [progVal, inside, List.mem_cons] at hv
    rw [progFacts] at hi ⊢; rw [Ok] at hok
    rcases hv with rfl | hv
    · exact accounted_same (g := f) (by rw [show f = .dict _ from hf, entriesVal_length]; simp) (Or.inl rfl)
    · exact (inside_accountedEntries entries hok hi.left v hv f hf).mono fun g hg => List.mem_append_left _ hg
  | .unused, hok, _, _, _, _, _ => by rw [Ok] at hok; exact hok.elim
termination_by structural p => p
theorem inside_accountedItems : ∀ (xs : List Prog), OkItems xs → In32 (itemsFacts xs) → ∀ v ∈ insideAll (itemsVal xs), ∀ f, CountsAs v f →
    Accounted (itemsFacts xs) f
  | [], _, _, v, hv, _, _ => by simp [itemsVal, insideAll] at hv
  | x :: xs, hok, hi, v, hv, f, hf => by
    rw [itemsVal, insideAll, List.mem_append] at hv
    rw [itemsFacts] at hi ⊢; rw [OkItems] at hok
    rcases hv with hv | hv
    · exact (inside_accounted x hok.1 hi.left v hv f hf).mono fun g hg => List.mem_append_left _ hg
    · exact (inside_accountedItems xs hok.2 hi.right v hv f hf).mono fun g hg => List.mem_append_right _ hg
termination_by structural p => p
theorem inside_accountedEntries : ∀ (xs : List (Bytes × Prog)), OkEntries xs → In32 (entriesFacts xs) → ∀ v ∈ insideEntries (entriesVal xs),
    ∀ f, CountsAs v f → Accounted (entriesFacts xs) f
  | [], _, _, v, hv, _, _ => by simp [entriesVal, insideEntries] at hv
  | (k, x) :: xs, hok, hi, v, hv, f, hf => by
    rw [entriesVal, insideEntries, List.mem_cons, List.mem_append] at hv
    rw [entriesFacts] at hi ⊢; rw [OkEntries] at hok
    have hi' : In32 (progFacts x ++ entriesFacts xs) := fun i h => hi i (List.mem_cons_of_mem _ h)
    rcases hv with rfl | hv | hv
    · exact accounted_same (g := f) (by rw [show f = .name _ from hf]; simp) (Or.inl rfl)
    · exact (inside_accounted x hok.1 hi'.left v hv f hf).mono fun g hg => List.mem_cons_of_mem _ (List.mem_append_left _ hg)
    · exact (inside_accountedEntries xs hok.2 hi'.right v hv f hf).mono fun g hg => List.mem_cons_of_mem _ (List.mem_append_right _ hg)
termination_by structural p => p
end

/-- A value in a list of values that counts as a fact. -/
def Shows (vs : List Val) (g : Fact) : Prop := ∃ v ∈ vs, ∃ f, CountsAs v f ∧ SameFact g f

theorem Shows.mono {vs ws : List Val} {g : Fact} (h : Shows vs g) (hs : ∀ v ∈ vs, v ∈ ws) : Shows ws g := by
  obtain ⟨v, hv, h⟩ := h; exact ⟨v, hs v hv, h⟩

theorem prim_shown (p : Prim) (hok : PrimOk p) (hi : In32 (primFacts p)) (g : Fact) (hg : g ∈ primFacts p)
    (hs : ∀ k, g = .str k → ByteStrings (.prim p)) : Shows (inside (primVal p)) g := by
  cases p with
  | null => simp [primFacts] at hg
  | bool b => simp [primFacts] at hg
  | date d => simp [primFacts] at hg
  | int i =>
    have := hi i (by simp [primFacts])
    simp [primFacts] at hg; subst hg
    exact ⟨.int i, by simp [primVal, inside], .int i, Or.inl ⟨this.1, this.2, rfl⟩, Or.inl rfl⟩
  | real x =>
    obtain ⟨g', e, -, -, f, h2, h3⟩ := num_counts x hok
    rw [primFacts, e, List.mem_singleton] at hg; subst hg
    exact ⟨_, by rw [primVal, inside_num x hok]; exact List.mem_singleton.mpr rfl, f, h2, h3⟩
  | str s => simp [primFacts] at hg; subst hg; exact ⟨.str s, by simp [primVal, inside], _, rfl, Or.inl rfl⟩
  | textStr t =>
    simp only [primFacts, List.mem_singleton] at hg
    have := hs _ hg
    rw [ByteStrings] at this
    exact absurd rfl (this.1 t)
  | textStrLang t =>
    simp only [primFacts, List.mem_singleton] at hg
    have := hs _ hg
    rw [ByteStrings] at this
    exact absurd rfl (this.2.1 t)
  | name n => simp [primFacts] at hg; subst hg; exact ⟨.name n, by simp [primVal, inside], _, rfl, Or.inl rfl⟩
  | ref r => simp [primFacts] at hg; subst hg; exact ⟨.ref r.id.toNat 0, by simp [primVal, inside], _, (ref_counts r _).mpr rfl, Or.inl rfl⟩
  | rect r =>
    obtain ⟨o1, o2, o3, o4⟩ := hok
    obtain ⟨g1, e1, -, -, f1, h1, k1⟩ := num_counts r.x1 o1
    obtain ⟨g2, e2, -, -, f2, h2, k2⟩ := num_counts r.y1 o2
    obtain ⟨g3, e3, -, -, f3, h3, k3⟩ := num_counts r.x2 o3
    obtain ⟨g4, e4, -, -, f4, h4, k4⟩ := num_counts r.y2 o4
    simp only [primFacts, e1, e2, e3, e4, List.mem_append, List.mem_singleton] at hg
    unfold Shows
    simp only [primVal, inside, insideAll, inside_num _ o1, inside_num _ o2, inside_num _ o3, inside_num _ o4, List.append_nil]
    rcases hg with (((rfl | rfl) | rfl) | rfl) | rfl
    · exact ⟨_, by simp, f1, h1, k1⟩
    · exact ⟨_, by simp, f2, h2, k2⟩
    · exact ⟨_, by simp, f3, h3, k3⟩
    · exact ⟨_, by simp, f4, h4, k4⟩
    · exact ⟨_, List.mem_cons_self, .arr 4, rfl, Or.inl rfl⟩

mutual
theorem fact_shown : ∀ (p : Prog), Ok p → In32 (progFacts p) → ∀ g ∈ progFacts p, (∀ k, g = .str k → ByteStrings p) → Shows (inside (progVal p)) g
  | .prim p, hok, hi, g, hg, hs => by
    rw [progFacts] at hi hg; rw [Ok] at hok; rw [progVal]
    exact prim_shown p hok hi g hg hs
  | .array items, hok, hi, g, hg, hs => by
    rw [progFacts] at hi hg; rw [Ok] at hok; rw [progVal, inside]
    rcases List.mem_append.mp hg with hg | hg
    · exact (fact_shownItems items hok hi.left g hg fun k e => by have := hs k e; rw [ByteStrings] at this; exact this).mono
        fun v hv => List.mem_cons_of_mem _ hv
    · rw [List.mem_singleton] at hg; subst hg
      exact ⟨_, List.mem_cons_self, .arr _, rfl, Or.inl (by rw [itemsVal_length])⟩
  | .dict entries, hok, hi, g, hg, hs => by
    rw [progFacts] at hi hg; rw [Ok] at hok; rw [progVal, inside]
    rcases List.mem_append.mp hg with hg | hg
    · exact (fact_shownEntries entries hok hi.left g hg fun k e => by have := hs k e; rw [ByteStrings] at this; exact this).mono
        fun v hv => List.mem_cons_of_mem _ hv
    · rw [List.mem_singleton] at hg; subst hg
      exact ⟨_, List.mem_cons_self, .dict _, rfl, Or.inl (by rw [entriesVal_length])⟩
  | .unused, hok, _, _, _, _ => by rw [Ok] at hok; exact hok.elim
termination_by structural p => p
theorem fact_shownItems : ∀ (xs : List Prog), OkItems xs → In32 (itemsFacts xs) → ∀ g ∈ itemsFacts xs, (∀ k, g = .str k → ByteStringsItems xs) →
    Shows (insideAll (itemsVal xs)) g
  | [], _, _, g, hg, _ => by simp [itemsFacts] at hg
  | x :: xs, hok, hi, g, hg, hs => by
    rw [itemsFacts] at hi hg; rw [OkItems] at hok; rw [itemsVal, insideAll]
    rcases List.mem_append.mp hg with hg | hg
    · exact (fact_shown x hok.1 hi.left g hg fun k e => by have := hs k e; rw [ByteStringsItems] at this; exact this.1).mono
        fun v hv => List.mem_append_left _ hv
    · exact (fact_shownItems xs hok.2 hi.right g hg fun k e => by have := hs k e; rw [ByteStringsItems] at this; exact this.2).mono
        fun v hv => List.mem_append_right _ hv
termination_by structural p => p
theorem fact_shownEntries : ∀ (xs : List (Bytes × Prog)), OkEntries xs → In32 (entriesFacts xs) → ∀ g ∈ entriesFacts xs,
    (∀ k, g = .str k → ByteStringsEntries xs) → Shows (insideEntries (entriesVal xs)) g
  | [], _, _, g, hg, _ => by simp [entriesFacts] at hg
  | (k, x) :: xs, hok, hi, g, hg, hs => by
    rw [entriesFacts] at hi hg; rw [OkEntries] at hok; rw [entriesVal, insideEntries]
    have hi' : In32 (progFacts x ++ entriesFacts xs) := fun i h => hi i (List.mem_cons_of_mem _ h)
    rcases List.mem_cons.mp hg with rfl | hg
    · exact ⟨_, List.mem_cons_self, .name _, rfl, Or.inl rfl⟩
    rcases List.mem_append.mp hg with hg | hg
    · exact (fact_shown x hok.1 hi'.left g hg fun k e => by have := hs k e; rw [ByteStringsEntries] at this; exact this.1).mono
        fun v hv => List.mem_cons_of_mem _ (List.mem_append_left _ hv)
    · exact (fact_shownEntries xs hok.2 hi'.right g hg fun k e => by have := hs k e; rw [ByteStringsEntries] at this; exact this.2).mono
        fun v hv => List.mem_cons_of_mem _ (List.mem_append_right _ hv)
termination_by structural p => p
end

theorem num_not_str (x : F32) (hf : x.isFinite = true) (s : Bytes) : F32.tokVal (readRun x.realBytes) ≠ .str s := by
  rcases (readRun_real x hf).1 with ⟨n, e⟩ | ⟨m, k, e⟩ <;> rw [e] <;> simp [F32.tokVal]

mutual
theorem bytes_counted : ∀ (p : Prog), Ok p → ByteStrings p → ∀ s, .str s ∈ inside (progVal p) → .str s.length ∈ progFacts p
  | .prim p, hok, hb, s, hs => by
    rw [progVal] at hs; rw [progFacts]; rw [Ok] at hok; rw [ByteStrings] at hb
    cases p with
    | str t => simp [primVal, inside] at hs; subst hs; simp [primFacts]
    | textStr t => exact absurd rfl (hb.1 t)
    | textStrLang t => exact absurd rfl (hb.2.1 t)
    | date t => exact absurd rfl (hb.2.2 t)
    | real x => rw [primVal, inside_num x hok, List.mem_singleton] at hs; exact absurd hs.symm (num_not_str x hok s)
    | rect r =>
      obtain ⟨o1, o2, o3, o4⟩ := hok
      simp only [primVal, inside, insideAll, inside_num _ o1, inside_num _ o2, inside_num _ o3, inside_num _ o4, List.mem_cons, List.mem_append,
        List.not_mem_nil, or_false] at hs
      rcases hs with h | h | h | h | h
      · cases h
      · exact absurd h.symm (num_not_str _ o1 s)
      · exact absurd h.symm (num_not_str _ o2 s)
      · exact absurd h.symm (num_not_str _ o3 s)
      · exact absurd h.symm (num_not_str _ o4 s)
    | null => simp [primVal, inside] at hs
    | bool b => simp [primVal, inside] at hs
    | int i => simp [primVal, inside] at hs
    | name n => simp [primVal, inside] at hs
    | ref r => simp [primVal, inside] at hs
  | .array items, hok, hb, s, hs => by
    rw [progVal, inside, List.mem_cons] at hs; rw [progFacts]; rw [Ok] at hok; rw [ByteStrings] at hb
    rcases hs with h | hs
    · cases h
    · exact List.mem_append_left _ (bytes_countedItems items hok hb s hs)
  | .dict entries, hok, hb, s, hs => by
    rw [progVal, inside, List.mem_cons] at hs; rw [progFacts]; rw [Ok] at hok; rw [ByteStrings] at hb
    rcases hs with h | hs
    · cases h
    · exact List.mem_append_left _ (bytes_countedEntries entries hok hb s hs)
  | .unused, hok, _, _, _ => by rw [Ok] at hok; exact hok.elim
termination_by structural p => p
theorem bytes_countedItems : ∀ (xs : List Prog), OkItems xs → ByteStringsItems xs → ∀ s, .str s ∈ insideAll (itemsVal xs) → .str s.length ∈ itemsFacts xs
  | [], _, _, s, hs => by simp [itemsVal, insideAll] at hs
  | x :: xs, hok, hb, s, hs => by
    rw [itemsVal, insideAll, List.mem_append] at hs; rw [itemsFacts]; rw [OkItems] at hok; rw [ByteStringsItems] at hb
    rcases hs with hs | hs
    · exact List.mem_append_left _ (bytes_counted x hok.1 hb.1 s hs)
    · exact List.mem_append_right _ (bytes_countedItems xs hok.2 hb.2 s hs)
termination_by structural p => p
theorem bytes_countedEntries : ∀ (xs : List (Bytes × Prog)), OkEntries xs → ByteStringsEntries xs → ∀ s, .str s ∈ insideEntries (entriesVal xs) →
    .str s.length ∈ entriesFacts xs
  | [], _, _, s, hs => by simp [entriesVal, insideEntries] at hs
  | (k, x) :: xs, hok, hb, s, hs => by
    rw [entriesVal, insideEntries, List.mem_cons, List.mem_append] at hs; rw [entriesFacts]; rw [OkEntries] at hok; rw [ByteStringsEntries] at hb
    rcases hs with h | hs | hs
    · cases h
    · exact List.mem_cons_of_mem _ (List.mem_append_left _ (bytes_counted x hok.1 hb.1 s hs))
    · exact List.mem_cons_of_mem _ (List.mem_append_right _ (bytes_countedEntries xs hok.2 hb.2 s hs))
termination_by structural p => p
end

/-! ## Indirect objects -/

/-- The contents can be represented. -/
def OkBody : Body → Prop
  | .val p => Ok p
  | .stream es _ => OkEntries es

theorem okBody_of {it : Item} (h : ItemOk it) : OkBody it.body := by
  unfold ItemOk at h
  cases e : it.body <;> rw [e] at h <;> exact h.1

theorem body_accounted (b : Body) (hok : OkBody b) (hi : In32 (bodyFacts b)) :
    ∀ v ∈ insideObject (bodyVal b), ∀ f, CountsAs v f → Accounted (bodyFacts b) f := by
  intro v hv f hf
  cases b with
  | val p => exact inside_accounted p hok hi v hv f hf
  | stream es data =>
    simp only [bodyVal, insideObject, inside, insideEntries, List.mem_cons, List.mem_append, List.not_mem_nil, or_false] at hv
    have hd : -2147483648 ≤ (data.length : Int) ∧ (data.length : Int) ≤ 2147483647 := hi _ (by simp [bodyFacts])
    have hi' : In32 (entriesFacts es) := fun i h => hi i (by simp [bodyFacts, h])
    rcases hv with rfl | rfl | rfl | hv
    · exact accounted_same (g := f) (by rw [show f = .dict _ from hf, List.length_cons, entriesVal_length]; simp [bodyFacts]) (Or.inl rfl)
    · exact accounted_same (g := f) (by rw [show f = .name 6 from hf]; simp [bodyFacts]) (Or.inl rfl)
    · rcases hf with ⟨-, -, rfl⟩ | ⟨hn, -⟩
      · exact accounted_same (g := .int data.length) (by simp [bodyFacts]) (Or.inl rfl)
      · exact absurd hd hn
    · exact (inside_accountedEntries es hok hi' v hv f hf).mono fun g hg => by simp [bodyFacts, hg]

theorem body_shown (b : Body) (hok : OkBody b) (hi : In32 (bodyFacts b)) :
    ∀ g ∈ bodyFacts b, (∀ k, g = .str k → ByteStringsBody b) → Shows (insideObject (bodyVal b)) g := by
  intro g hg hs
  cases b with
  | val p => exact fact_shown p hok hi g hg hs
  | stream es data =>
    have hd : -2147483648 ≤ (data.length : Int) ∧ (data.length : Int) ≤ 2147483647 := hi _ (by simp [bodyFacts])
    have hi' : In32 (entriesFacts es) := fun i h => hi i (by simp [bodyFacts, h])
    simp only [bodyFacts, List.mem_cons, List.mem_append, List.not_mem_nil, or_false] at hg
    rcases hg with rfl | rfl | hg | rfl
    · exact ⟨.name b!"Length", by simp [bodyVal, insideObject, inside, insideEntries], .name 6, rfl, Or.inl rfl⟩
    · exact ⟨.int data.length, by simp [bodyVal, insideObject, inside, insideEntries], .int data.length, Or.inl ⟨hd.1, hd.2, rfl⟩, Or.inl rfl⟩
    · exact (fact_shownEntries es hok hi' g hg hs).mono fun v hv => by simp [bodyVal, insideObject, inside, insideEntries, hv]
    · exact ⟨_, List.mem_cons_self, .dict _, rfl, Or.inl (by rw [List.length_cons, entriesVal_length])⟩

theorem body_bytes (b : Body) (hok : OkBody b) (hb : ByteStringsBody b) : ∀ s, .str s ∈ insideObject (bodyVal b) → .str s.length ∈ bodyFacts b := by
  intro s hs
  cases b with
  | val p => exact bytes_counted p hok hb s hs
  | stream es data =>
    simp only [bodyVal, insideObject, inside, insideEntries, List.mem_cons, List.mem_append, List.not_mem_nil, or_false, reduceCtorEq, false_or] at hs
    have := bytes_countedEntries es hok hb s hs
    simp [bodyFacts, this]

/-! ## Histories -/

theorem mapItems_length {σ : Type} (m : σ → Ref → Ref × σ) (xs : List Prog) (s : σ) : (mapItems m xs s).1.length = xs.length := by
  induction xs generalizing s with
  | nil => rfl
  | cons x xs ih => simp [mapItems, ih]

theorem mapEntries_length {σ : Type} (m : σ → Ref → Ref × σ) (xs : List (Bytes × Prog)) (s : σ) : (mapEntries m xs s).1.length = xs.length := by
  induction xs generalizing s with
  | nil => rfl
  | cons x xs ih => obtain ⟨k, x⟩ := x; simp [mapEntries, ih]

mutual
theorem mapProg_facts {σ : Type} (m : σ → Ref → Ref × σ) : ∀ (p : Prog) (s : σ) (f : Fact), f ∈ progFacts (mapProg m p s).1 →
    f ∈ progFacts p ∨ ∃ r ∈ progRefs (mapProg m p s).1, f = .int r.get
  | .prim p, s, f, hf => by
    rw [mapProg] at hf ⊢
    cases p with
    | ref r => simp only [mapPrim, progFacts, primFacts, List.mem_singleton] at hf; exact Or.inr ⟨_, by simp [mapPrim, progRefs], hf⟩
    | _ => exact Or.inl hf
  | .array items, s, f, hf => by
    rw [mapProg, progFacts, List.mem_append] at hf
    rw [mapProg, progFacts, progRefs]
    rcases hf with hf | hf
    · rcases mapItems_facts m items s f hf with h | h
      · exact Or.inl (List.mem_append_left _ h)
      · exact Or.inr h
    · rw [mapItems_length] at hf
      exact Or.inl (List.mem_append_right _ hf)
  | .dict entries, s, f, hf => by
    rw [mapProg, progFacts, List.mem_append] at hf
    rw [mapProg, progFacts, progRefs]
    rcases hf with hf | hf
    · rcases mapEntries_facts m entries s f hf with h | h
      · exact Or.inl (List.mem_append_left _ h)
      · exact Or.inr h
    · rw [mapEntries_length] at hf
      exact Or.inl (List.mem_append_right _ hf)
  | .unused, s, f, hf => by rw [mapProg, progFacts] at hf; cases hf
termination_by structural p => p
theorem mapItems_facts {σ : Type} (m : σ → Ref → Ref × σ) : ∀ (xs : List Prog) (s : σ) (f : Fact), f ∈ itemsFacts (mapItems m xs s).1 →
    f ∈ itemsFacts xs ∨ ∃ r ∈ itemsRefs (mapItems m xs s).1, f = .int r.get
  | [], s, f, hf => by rw [mapItems, itemsFacts] at hf; cases hf
  | x :: xs, s, f, hf => by
    rw [mapItems, itemsFacts, List.mem_append] at hf
    rw [mapItems, itemsFacts, itemsRefs]
    rcases hf with hf | hf
    · rcases mapProg_facts m x s f hf with h | ⟨r, h, e⟩
      · exact Or.inl (List.mem_append_left _ h)
      · exact Or.inr ⟨r, List.mem_append_left _ h, e⟩
    · rcases mapItems_facts m xs _ f hf with h | ⟨r, h, e⟩
      · exact Or.inl (List.mem_append_right _ h)
      · exact Or.inr ⟨r, List.mem_append_right _ h, e⟩
termination_by structural p => p
theorem mapEntries_facts {σ : Type} (m : σ → Ref → Ref × σ) : ∀ (xs : List (Bytes × Prog)) (s : σ) (f : Fact), f ∈ entriesFacts (mapEntries m xs s).1 →
    f ∈ entriesFacts xs ∨ ∃ r ∈ entriesRefs (mapEntries m xs s).1, f = .int r.get
  | [], s, f, hf => by rw [mapEntries, entriesFacts] at hf; cases hf
  | (k, x) :: xs, s, f, hf => by
    rw [mapEntries, entriesFacts, List.mem_cons, List.mem_append] at hf
    rw [mapEntries, entriesFacts, entriesRefs]
    rcases hf with rfl | hf | hf
    · exact Or.inl List.mem_cons_self
    · rcases mapProg_facts m x s f hf with h | ⟨r, h, e⟩
      · exact Or.inl (List.mem_cons_of_mem _ (List.mem_append_left _ h))
      · exact Or.inr ⟨r, List.mem_append_left _ h, e⟩
    · rcases mapEntries_facts m xs _ f hf with h | ⟨r, h, e⟩
      · exact Or.inl (List.mem_cons_of_mem _ (List.mem_append_right _ h))
      · exact Or.inr ⟨r, List.mem_append_right _ h, e⟩
termination_by structural p => p
end

theorem mapBody_facts {σ : Type} (m : σ → Ref → Ref × σ) (b : Body) (s : σ) (f : Fact) (hf : f ∈ bodyFacts (mapBody m b s).1) :
    f ∈ bodyFacts b ∨ ∃ r ∈ bodyRefs (mapBody m b s).1, f = .int r.get := by
  cases b with
  | val p => exact mapProg_facts m p s f hf
  | stream es data =>
    simp only [mapBody, bodyFacts, bodyRefs, List.mem_cons, List.mem_append, List.not_mem_nil, or_false, mapEntries_length] at hf ⊢
    rcases hf with rfl | rfl | hf | rfl
    · exact Or.inl (Or.inl rfl)
    · exact Or.inl (Or.inr (Or.inl rfl))
    · rcases mapEntries_facts m es s f hf with h | h
      · exact Or.inl (Or.inr (Or.inr (Or.inl h)))
      · exact Or.inr h
    · exact Or.inl (Or.inr (Or.inr (Or.inr rfl)))

theorem mapObjs_facts {σ : Type} (m : σ → Ref → Ref × σ) (its : List Item) (s : σ) : ∀ it ∈ (mapObjs m its s).1, ∀ f ∈ itemFacts it,
    (∃ it' ∈ its, f ∈ itemFacts it') ∨ ∃ r ∈ callOrder (mapObjs m its s).1, f = .int r.get := by
  induction its generalizing s with
  | nil => intro it hit; simp [mapObjs] at hit
  | cons x xs ih =>
    intro it hit f hf
    rw [mapObjs] at hit ⊢
    split at hit
    · rename_i hst
      rw [if_pos hst]
      rcases List.mem_cons.mp hit with rfl | hit
      · simp only [itemFacts, List.mem_cons] at hf
        rcases hf with rfl | hf
        · exact Or.inr ⟨_, by simp [callOrder], rfl⟩
        · rcases mapBody_facts m x.body _ f hf with h | ⟨r, h, e⟩
          · exact Or.inl ⟨x, by simp, by simp [itemFacts, h]⟩
          · exact Or.inr ⟨r, by simp only [callOrder, List.mem_cons, List.mem_append]; exact Or.inr (Or.inl h), e⟩
      · rcases ih _ it hit f hf with ⟨y, hy, h⟩ | ⟨r, h, e⟩
        · exact Or.inl ⟨y, List.mem_cons_of_mem _ hy, h⟩
        · exact Or.inr ⟨r, by simp [callOrder, h], e⟩
    · rename_i hst
      rw [if_neg hst]
      rcases ih _ it hit f hf with ⟨y, hy, h⟩ | h
      · exact Or.inl ⟨y, List.mem_cons_of_mem _ hy, h⟩
      · exact Or.inr h

mutual
theorem items_counted : ∀ (h : ChunkHist), ∀ it ∈ chunkItems h, ∀ f ∈ itemFacts it, f ∈ chunkFacts h
  | .new _, it, hit, f, hf => by rw [chunkItems] at hit; cases hit
  | .ofPdf p, it, hit, f, hf => by rw [chunkItems] at hit; rw [chunkFacts]; exact items_countedPdf p it hit f hf
  | .call h c, it, hit, f, hf => by
    rw [chunkItems] at hit; rw [chunkFacts]
    rcases List.mem_append.mp hit with hit | hit
    · exact List.mem_append_left _ (items_counted h it hit f hf)
    · exact List.mem_append_right _ (items_countedCall c _ it hit f hf)
termination_by structural h => h
theorem items_countedCall : ∀ (c : ChunkCall) (pretty : Bool), ∀ it ∈ callItems c pretty, ∀ f ∈ itemFacts it, f ∈ callFacts c
  | .indirect id p, pretty, it, hit, f, hf => by rw [callItems, List.mem_singleton] at hit; subst hit; rw [callFacts]; exact hf
  | .stream id es data, pretty, it, hit, f, hf => by rw [callItems, List.mem_singleton] at hit; subst hit; rw [callFacts]; exact hf
  | .extend o, pretty, it, hit, f, hf => by rw [callItems] at hit; rw [callFacts]; exact items_counted o it hit f hf
  | .mergeLimits l, pretty, it, hit, f, hf => by rw [callItems] at hit; cases hit
  | .renumberFrom source _ m s, pretty, it, hit, f, hf => by
    rw [callItems] at hit; rw [callFacts]
    rcases mapObjs_facts m (chunkItems source) s it hit f hf with ⟨y, hy, h⟩ | ⟨r, h, e⟩
    · exact List.mem_append_left _ (items_counted source y hy f h)
    · exact List.mem_append_right _ (List.mem_map.mpr ⟨r, h, e.symm⟩)
termination_by structural c => c
theorem items_countedPdf : ∀ (h : PdfHist), ∀ it ∈ pdfItems h, ∀ f ∈ itemFacts it, f ∈ pdfFacts h
  | .new _, it, hit, f, hf => by rw [pdfItems] at hit; cases hit
  | .call h c, it, hit, f, hf => by
    rw [pdfItems] at hit; rw [pdfFacts]
    rcases List.mem_append.mp hit with hit | hit
    · exact List.mem_append_left _ (items_countedPdf h it hit f hf)
    · exact List.mem_append_right _ (items_countedCall c _ it hit f hf)
  | .setVersion h _ _, it, hit, f, hf => by rw [pdfItems] at hit; rw [pdfFacts]; exact items_countedPdf h it hit f hf
  | .setBinaryMarker h _, it, hit, f, hf => by rw [pdfItems] at hit; rw [pdfFacts]; exact items_countedPdf h it hit f hf
  | .setFileId h _, it, hit, f, hf => by rw [pdfItems] at hit; rw [pdfFacts]; exact items_countedPdf h it hit f hf
  | .catalog h id es, it, hit, f, hf => by
    rw [pdfItems] at hit; rw [pdfFacts]
    rcases List.mem_append.mp hit with hit | hit
    · exact List.mem_append_left _ (items_countedPdf h it hit f hf)
    · rw [List.mem_singleton] at hit; subst hit; exact List.mem_append_right _ hf
  | .documentInfo h id es, it, hit, f, hf => by
    rw [pdfItems] at hit; rw [pdfFacts]
    rcases List.mem_append.mp hit with hit | hit
    · exact List.mem_append_left _ (items_countedPdf h it hit f hf)
    · rw [List.mem_singleton] at hit; subst hit; exact List.mem_append_right _ hf
termination_by structural h => h
end

mutual
theorem direct_items : ∀ (h : ChunkHist), DirectChunk h → ∀ f ∈ chunkFacts h, ∃ it ∈ chunkItems h, f ∈ itemFacts it
  | .new _, _, f, hf => by rw [chunkFacts] at hf; cases hf
  | .ofPdf p, hd, f, hf => by rw [chunkFacts] at hf; rw [chunkItems]; rw [DirectChunk] at hd; exact direct_itemsPdf p hd f hf
  | .call h c, hd, f, hf => by
    rw [chunkFacts] at hf; rw [chunkItems]; rw [DirectChunk] at hd
    rcases List.mem_append.mp hf with hf | hf
    · obtain ⟨it, h1, h2⟩ := direct_items h hd.1 f hf; exact ⟨it, List.mem_append_left _ h1, h2⟩
    · obtain ⟨it, h1, h2⟩ := direct_itemsCall c (chunkPretty h) hd.2 f hf; exact ⟨it, List.mem_append_right _ h1, h2⟩
termination_by structural h => h
theorem direct_itemsCall : ∀ (c : ChunkCall) (pretty : Bool), DirectCall c → ∀ f ∈ callFacts c, ∃ it ∈ callItems c pretty, f ∈ itemFacts it
  | .indirect id p, pretty, _, f, hf => by rw [callFacts] at hf; rw [callItems]; exact ⟨_, List.mem_singleton.mpr rfl, hf⟩
  | .stream id es data, pretty, _, f, hf => by rw [callFacts] at hf; rw [callItems]; exact ⟨_, List.mem_singleton.mpr rfl, hf⟩
  | .extend o, pretty, hd, f, hf => by rw [callFacts] at hf; rw [callItems]; rw [DirectCall] at hd; exact direct_items o hd f hf
  | .mergeLimits l, pretty, hd, f, hf => by rw [DirectCall] at hd; exact hd.elim
  | .renumberFrom source _ m s, pretty, hd, f, hf => by rw [DirectCall] at hd; exact hd.elim
termination_by structural c => c
theorem direct_itemsPdf : ∀ (h : PdfHist), DirectPdf h → ∀ f ∈ pdfFacts h, ∃ it ∈ pdfItems h, f ∈ itemFacts it
  | .new _, _, f, hf => by rw [pdfFacts] at hf; cases hf
  | .call h c, hd, f, hf => by
    rw [pdfFacts] at hf; rw [pdfItems]; rw [DirectPdf] at hd
    rcases List.mem_append.mp hf with hf | hf
    · obtain ⟨it, h1, h2⟩ := direct_itemsPdf h hd.1 f hf; exact ⟨it, List.mem_append_left _ h1, h2⟩
    · obtain ⟨it, h1, h2⟩ := direct_itemsCall c (pdfPretty h) hd.2 f hf; exact ⟨it, List.mem_append_right _ h1, h2⟩
  | .setVersion h _ _, hd, f, hf => by rw [pdfFacts] at hf; rw [pdfItems]; rw [DirectPdf] at hd; exact direct_itemsPdf h hd f hf
  | .setBinaryMarker h _, hd, f, hf => by rw [pdfFacts] at hf; rw [pdfItems]; rw [DirectPdf] at hd; exact direct_itemsPdf h hd f hf
  | .setFileId h _, hd, f, hf => by rw [pdfFacts] at hf; rw [pdfItems]; rw [DirectPdf] at hd; exact direct_itemsPdf h hd f hf
  | .catalog h id es, hd, f, hf => by
    rw [pdfFacts] at hf; rw [pdfItems]; rw [DirectPdf] at hd
    rcases List.mem_append.mp hf with hf | hf
    · obtain ⟨it, h1, h2⟩ := direct_itemsPdf h hd f hf; exact ⟨it, List.mem_append_left _ h1, h2⟩
    · exact ⟨_, List.mem_append_right _ (List.mem_singleton.mpr rfl), hf⟩
  | .documentInfo h id es, hd, f, hf => by
    rw [pdfFacts] at hf; rw [pdfItems]; rw [DirectPdf] at hd
    rcases List.mem_append.mp hf with hf | hf
    · obtain ⟨it, h1, h2⟩ := direct_itemsPdf h hd f hf; exact ⟨it, List.mem_append_left _ h1, h2⟩
    · exact ⟨_, List.mem_append_right _ (List.mem_singleton.mpr rfl), hf⟩
termination_by structural h => h
end

/-! ## The limits -/

theorem counts_notNaN {v : Val} {x : F32} (h : CountsAs v (.real x)) : x.isNaN = false := by
  have fin : ∀ N D, RoundsTo N D x.mag.val → x.isNaN = false := by
    intro N D h
    have := h.1
    unfold F32.isNaN
    simp
    omega
  cases v <;> simp only [CountsAs, reduceCtorEq, and_false, false_or] at h
  · obtain ⟨-, y, hy, e⟩ := h; cases e; exact fin _ _ hy.1
  · obtain ⟨y, hy, e⟩ := h; cases e; exact fin _ _ hy.1

theorem notExceeded_of {l : Limits} {fs : List Fact} (he : Exact l fs) {f : Fact} (h : Accounted fs f) (hn : ∀ x, f = .real x → x.isNaN = false) :
    NotExceeded l f := by
  cases f with
  | str k =>
    rcases h with ⟨j, h1, h2⟩ | h
    · have := he.str.1 j h1
      exact Or.inl (by omega)
    · exact Or.inr h
  | name k => obtain ⟨g, hg, rfl | ⟨x, y, -, e, -⟩⟩ := h; · exact he.name.1 k hg
              · cases e
  | arr k => obtain ⟨g, hg, rfl | ⟨x, y, -, e, -⟩⟩ := h; · exact he.arr.1 k hg
             · cases e
  | dict k => obtain ⟨g, hg, rfl | ⟨x, y, -, e, -⟩⟩ := h; · exact he.dict.1 k hg
              · cases e
  | int i =>
    obtain ⟨g, hg, rfl | ⟨x, y, -, e, -⟩⟩ := h
    · by_cases hm : i = -2147483648
      · exact Or.inl hm
      · exact Or.inr (he.int.2.1 _ ⟨i, hg, hm, rfl⟩)
    · cases e
  | real x =>
    obtain ⟨g, hg, rfl | ⟨y, z, rfl, e, hm, hy⟩⟩ := h
    · exact he.real.2.1 _ ⟨x, hg, hn x rfl, rfl⟩
    · cases e
      exact he.real.2.1 _ ⟨y, hg, hy, by rw [hm]⟩

theorem encountered_accounted {f : FileEnd} {file : Bytes} {skip : List Nat} {h : PdfHist} (hok : ∀ it ∈ pdfItems h, ItemOk it)
    (hi : In32 (pdfFacts h)) (hobj : ∀ n o, n ∉ skip → f.object file n = some o → ∃ it ∈ pdfItems h, it.id.get.toNat = n ∧ o = bodyVal it.body)
    {x : Fact} (hx : Encountered f file skip x) : Accounted (pdfFacts h) x ∧ ∀ y, x = .real y → y.isNaN = false := by
  obtain ⟨n, o, h1, h2, h3⟩ := hx
  obtain ⟨it, hit, rfl, rfl⟩ := hobj n o h1 h2
  have hsub := items_countedPdf h it hit
  rcases h3 with rfl | ⟨v, hv, hc⟩
  · refine ⟨accounted_same (g := .int it.id.get) (hsub _ (by simp [itemFacts])) (Or.inl ?_), by simp⟩
    have := it.id.pos
    have e : it.id.get = it.id.id := rfl
    congr 1; omega
  · refine ⟨(body_accounted it.body (okBody_of (hok it hit)) (fun i h' => hi i (hsub _ (by simp [itemFacts, h']))) v hv x hc).mono
      fun g hg => hsub g (by simp [itemFacts, hg]), ?_⟩
    rintro y rfl
    exact counts_notNaN hc

theorem encountered_of {f : FileEnd} {file : Bytes} {skip : List Nat} {h : PdfHist} (hok : ∀ it ∈ pdfItems h, ItemOk it)
    (hi : In32 (pdfFacts h)) (hd : DirectPdf h)
    (hobj : ∀ it ∈ pdfItems h, it.id.get.toNat ∉ skip ∧ f.object file it.id.get.toNat = some (bodyVal it.body)) {g : Fact} (hg : g ∈ pdfFacts h)
    (hs : ∀ k, g = .str k → ∀ it ∈ pdfItems h, ByteStringsBody it.body) : ∃ x, Encountered f file skip x ∧ SameFact g x := by
  obtain ⟨it, hit, hf⟩ := direct_itemsPdf h hd g hg
  obtain ⟨o1, o2⟩ := hobj it hit
  have hsub := items_countedPdf h it hit
  simp only [itemFacts, List.mem_cons] at hf
  rcases hf with rfl | hf
  · refine ⟨.int it.id.get, ⟨_, _, o1, o2, Or.inl ?_⟩, Or.inl rfl⟩
    have := it.id.pos
    have e : it.id.get = it.id.id := rfl
    congr 1; omega
  · obtain ⟨v, hv, x, hc, hsame⟩ := body_shown it.body (okBody_of (hok it hit)) (fun i h' => hi i (hsub _ (by simp [itemFacts, h']))) g hf
      (fun k e => hs k e it hit)
    exact ⟨x, ⟨_, _, o1, o2, Or.inr ⟨v, hv, hc⟩⟩, hsame⟩

theorem isMax_iff {s t : Nat → Prop} {n : Nat} (h : IsMax s n) (st : ∀ k, s k ↔ t k) : IsMax t n :=
  ⟨fun k hk => h.1 k ((st k).mpr hk), h.2.imp_right (st n).mp⟩

theorem attained_of {l : Limits} {fs : List Fact} {seen : Fact → Prop} (he : Exact l fs)
    (fwd : ∀ x, seen x → Accounted fs x ∧ ∀ y, x = .real y → y.isNaN = false)
    (bwd : ∀ g ∈ fs, (∀ k, g ≠ .str k) → ∃ x, seen x ∧ SameFact g x) : Attained l seen := by
  have iff : ∀ x, (∀ y, x ≠ .real y) → (∀ k, x ≠ .str k) → (x ∈ fs ↔ seen x) := by
    intro x h1 h2
    constructor
    · intro hx
      obtain ⟨y, s1, rfl | ⟨a, b, e, -⟩⟩ := bwd x hx h2
      · exact s1
      · exact absurd e (h1 a)
    · intro hx
      obtain ⟨a, -⟩ := fwd x hx
      have : ∃ g ∈ fs, SameFact g x := by
        cases x with
        | str k => exact absurd rfl (h2 k)
        | _ => exact a
      obtain ⟨g, hg, rfl | ⟨a, b, -, e, -⟩⟩ := this
      · exact hg
      · exact absurd e (h1 b)
  refine ⟨isMax_iff he.name fun k => iff (.name k) (by simp) (by simp), isMax_iff he.arr fun k => iff (.arr k) (by simp) (by simp),
    isMax_iff he.dict fun k => iff (.dict k) (by simp) (by simp), ⟨he.int.1, isMax_iff he.int.2 fun k => ?_⟩, he.real.1, isMax_iff he.real.2 fun k => ?_⟩
  · exact exists_congr fun i => and_congr_left fun _ => iff (.int i) (by simp) (by simp)
  · constructor
    · rintro ⟨x, h1, h2, rfl⟩
      obtain ⟨y, s1, rfl | ⟨a, b, e, rfl, e2, -⟩⟩ := bwd _ h1 (by simp)
      · exact ⟨x, s1, rfl⟩
      · cases e; exact ⟨b, s1, by rw [e2]⟩
    · rintro ⟨x, h1, rfl⟩
      obtain ⟨⟨g, hg, rfl | ⟨a, b, rfl, e, e2, e3⟩⟩, hn⟩ := fwd _ h1
      · exact ⟨x, hg, hn x rfl, rfl⟩
      · cases e; exact ⟨a, hg, e3, by rw [e2]⟩
end PdfW
