import Verif.Props.Objects
import Verif.Spec.Counts

set_option linter.unusedSimpArgs false
set_option linter.unusedVariables false

/-!
# C52: the 32-bit item counters

The model counts the items of arrays and dictionaries without bound; the code counts with an `i32`.
-/

namespace PdfW.Props
open PdfW Spec

/-! ## Lemmas -/

theorem wrapI32_succ (n : Nat) : incrI32 false (wrapI32 n) = some (wrapI32 (n + 1)) := by
  unfold incrI32 wrapI32
  by_cases h1 : n % 4294967296 < 2147483648
  · rw [if_pos h1]
    by_cases h2 : n % 4294967296 = 2147483647
    · rw [if_pos (by omega), if_neg (by decide), if_neg (by omega)]
      congr 1; omega
    · rw [if_neg (by omega), if_pos (by omega)]
      congr 1; omega
  · rw [if_neg h1, if_neg (by omega)]
    by_cases h2 : n % 4294967296 = 4294967295
    · rw [if_pos (by omega)]
      congr 1; omega
    · rw [if_neg (by omega)]
      congr 1; omega

theorem wrapI32_succ_checked (n : Nat) (h : n < 2147483647) : incrI32 true (wrapI32 n) = some (wrapI32 (n + 1)) := by
  rw [← wrapI32_succ n]
  have e : wrapI32 n = n := by
    unfold wrapI32
    rw [if_pos (by omega)]; omega
  unfold incrI32
  rw [e, if_neg (by omega), if_neg (by omega)]

theorem wrapI32_small (n : Nat) (h : n ≤ 2147483647) : wrapI32 n = n := by
  unfold wrapI32
  rw [if_pos (by omega)]
  omega

theorem wrapI32_zero (n : Nat) (h : n ≤ 4294967295) : wrapI32 n = 0 ↔ n = 0 := by
  unfold wrapI32
  split <;> omega

theorem i32AsUsize_small (n : Nat) (h : n ≤ 2147483647) : i32AsUsize (wrapI32 n) = n := by
  rw [wrapI32_small n h]; unfold i32AsUsize; omega

/-- The same writer with a wrapped counter. -/
def wrapWriter : Writer → Writer32
  | .arr a => .arr ⟨a.indirect, a.indent, a.pretty, wrapI32 a.len⟩
  | .dict d => .dict ⟨d.indirect, d.indent, d.pretty, wrapI32 d.len⟩

/-- The indentation inside a dictionary. -/
def indentOk : Writer → Prop
  | .arr _ => True
  | .dict d => 2 ≤ d.indent

/-- Same writers, same bytes. -/
structure SameState (w : WState) (v : WState32) : Prop where
  indent : ∀ x ∈ w.stack, indentOk x
  stack : v.stack = w.stack.map wrapWriter
  pending : v.pending = w.pending
  bytes : v.buf.inner = w.buf.inner

theorem toI32_min (x : F32) : ((F32.ofI32 x.toI32).eq x = true ∧ x.toI32 = -2147483648) ↔ x = minReal := by
  constructor
  · rintro ⟨h1, h2⟩
    rw [h2] at h1
    unfold F32.eq at h1
    simp only [Bool.and_eq_true, beq_iff_eq] at h1
    have h3 := h1.2
    have e : (F32.ofI32 (-2147483648)) = minReal := by decide +kernel
    rw [e] at h3
    have hp : 0 < F32.scaled 1325400064 := by
      have := F32.scaled_lt (show 0 < 1325400064 by decide); omega
    unfold F32.sval minReal at h3
    simp only [if_true] at h3
    obtain ⟨neg, mag⟩ := x
    have hval : ((1325400064 : Fin 2147483648) : Nat) = 1325400064 := rfl
    rw [hval] at h3
    cases neg with
    | false => simp only [Bool.false_eq_true, if_false] at h3; omega
    | true =>
      simp only [if_true] at h3
      have := F32.scaled_inj (a := 1325400064) (b := mag.val) (by omega)
      unfold minReal
      congr 1
      exact Fin.ext this.symm
  · rintro rfl
    constructor <;> decide +kernel

theorem absIn_ok (checked : Bool) (v : Int) (h : checked = true → v ≠ -2147483648) : absIn checked v = some (Limits.absI32 v) := by
  unfold absIn Limits.absI32
  by_cases hv : v = -2147483648
  · cases checked
    · simp [hv]
    · exact absurd hv (h rfl)
  · simp [hv]

theorem pushIntIn_ok (checked : Bool) (b : Buf) (v : Int) (h : checked = true → v ≠ -2147483648) :
    b.pushIntIn checked v = some (b.pushInt v) := by
  simp [Buf.pushIntIn, absIn_ok checked v h, pushInt_eq, Limits.registerInt]

theorem pushFloatIn_ok (checked : Bool) (b : Buf) (v : F32) (h : checked = true → v ≠ minReal) :
    b.pushFloatIn checked v = some (b.pushFloat v) := by
  unfold Buf.pushFloatIn Buf.pushFloat
  by_cases hi : (F32.ofI32 v.toI32).eq v = true
  · rw [if_pos hi, if_pos hi]
    exact pushIntIn_ok checked b _ (fun hc hm => h hc ((toI32_min v).mp ⟨hi, hm⟩))
  · rw [if_neg hi, if_neg hi]

theorem pushFloatIn_min (b : Buf) : b.pushFloatIn true minReal = none := by
  have h := (toI32_min minReal).mpr rfl
  unfold Buf.pushFloatIn
  rw [if_pos h.1, h.2]
  rfl

theorem writeIn_ok (checked : Bool) (p : Prim) (b : Buf) (h : checked = true → ¬ HoldsMin p) : p.writeIn checked b = some (p.write b) := by
  cases p with
  | int v => exact pushIntIn_ok checked b v h
  | real v => exact pushFloatIn_ok checked b v h
  | ref r =>
    have := r.pos
    simp [Prim.writeIn, writeRefIn, Prim.write, writeRef, pushIntIn_ok checked b r.get (fun _ => by simp [Ref.get]; omega)]
  | rect r =>
    simp only [HoldsMin] at h
    simp only [Prim.writeIn, writeRectIn, Prim.write, writeRect]
    rw [pushFloatIn_ok checked _ r.x1 (fun hc e => h hc (by simp [e]))]
    simp only [Option.bind_eq_bind, Option.bind_some]
    rw [pushFloatIn_ok checked _ r.y1 (fun hc e => h hc (by simp [e]))]
    simp only [Option.bind_some]
    rw [pushFloatIn_ok checked _ r.x2 (fun hc e => h hc (by simp [e]))]
    simp only [Option.bind_some]
    rw [pushFloatIn_ok checked _ r.y2 (fun hc e => h hc (by simp [e]))]
    rfl
  | null => rfl
  | bool _ => rfl
  | str _ => rfl
  | textStr _ => rfl
  | textStrLang _ => rfl
  | name _ => rfl
  | date _ => rfl

theorem pushFloatIn_some (b : Buf) (v : F32) : b.pushFloatIn true v = if v = minReal then none else some (b.pushFloat v) := by
  by_cases h : v = minReal
  · rw [if_pos h, h, pushFloatIn_min]
  · rw [if_neg h, pushFloatIn_ok true b v (fun _ => h)]

theorem writeIn_min (p : Prim) (b : Buf) (h : HoldsMin p) : p.writeIn true b = none := by
  cases p <;> simp only [HoldsMin] at h
  · subst h; rfl
  · subst h; exact pushFloatIn_min b
  · rename_i r
    simp only [Prim.writeIn, writeRectIn, pushFloatIn_some, Option.bind_eq_bind]
    by_cases h1 : r.x1 = minReal
    · simp [h1]
    · by_cases h2 : r.y1 = minReal
      · simp [h1, h2]
      · by_cases h3 : r.x2 = minReal
        · simp [h1, h2, h3]
        · have h4 : r.y2 = minReal := by simpa [h1, h2, h3] using h
          simp [h1, h2, h3, h4]

theorem primitiveIn_ok (checked : Bool) (o : Obj) (p : Prim) (b : Buf) (h : checked = true → ¬ HoldsMin p) :
    o.primitiveIn checked p b = some (o.primitive p b) := by
  simp only [Obj.primitiveIn, Obj.primitive, writeIn_ok checked p _ h]

theorem primitiveIn_min (o : Obj) (p : Prim) (b : Buf) (h : HoldsMin p) : o.primitiveIn true p b = none := by
  simp only [Obj.primitiveIn, writeIn_min p _ h]

theorem primitive_inner (o : Obj) (p : Prim) (b b' : Buf) (h : b'.inner = b.inner) : (o.primitive p b').inner = (o.primitive p b).inner := by
  have e1 := run_eq (.prim p) o b
  have e2 := run_eq (.prim p) o b'
  simp only [Prog.run] at e1 e2
  rw [e1, e2]
  simp only [h]

/-- The bound for a build. -/
def boundFor (checked : Bool) : Nat := if checked then 2147483647 else 4294967295

theorem incr_ok (checked : Bool) (n : Nat) (h : n + 1 ≤ boundFor checked) : incrI32 checked (wrapI32 n) = some (wrapI32 (n + 1)) := by
  cases checked
  · exact wrapI32_succ n
  · simp [boundFor] at h; exact wrapI32_succ_checked n (by omega)

theorem call_indent (w w' : WState) (c : Call) (h : w.call c = some w') (hin : ∀ x ∈ w.stack, indentOk x) : ∀ x ∈ w'.stack, indentOk x := by
  obtain ⟨stack, pending, buf⟩ := w
  simp only at hin
  cases c with
  | primitive p => cases pending <;> simp [WState.call] at h; subst h; exact hin
  | abandon => cases pending <;> simp [WState.call] at h; subst h; exact hin
  | array =>
    cases pending <;> simp [WState.call] at h
    subst h; simp only [List.forall_mem_cons]; exact ⟨trivial, hin⟩
  | dict =>
    cases pending <;> simp [WState.call] at h
    subst h; simp only [List.forall_mem_cons]
    refine ⟨?_, hin⟩
    simp [indentOk, Dict.start, saturatingAdd]; omega
  | push =>
    cases pending with
    | some o => simp [WState.call] at h
    | none =>
      match stack with
      | [] => simp [WState.call] at h
      | .dict d :: s => simp [WState.call] at h
      | .arr a :: s =>
        simp [WState.call, arrPush_eq] at h
        subst h
        rw [List.forall_mem_cons] at hin
        simp only [List.forall_mem_cons]; exact ⟨trivial, hin.2⟩
  | insert k =>
    cases pending with
    | some o => simp [WState.call] at h
    | none =>
      match stack with
      | [] => simp [WState.call] at h
      | .arr d :: s => simp [WState.call] at h
      | .dict d :: s =>
        simp [WState.call, insert_eq] at h
        subst h
        rw [List.forall_mem_cons] at hin
        simp only [List.forall_mem_cons]; exact ⟨hin.1, hin.2⟩
  | finish =>
    cases pending with
    | some o => simp [WState.call] at h
    | none =>
      match stack with
      | [] => simp [WState.call] at h
      | .arr a :: s => simp [WState.call] at h; subst h; rw [List.forall_mem_cons] at hin; exact hin.2
      | .dict a :: s => simp [WState.call] at h; subst h; rw [List.forall_mem_cons] at hin; exact hin.2

theorem step_same (checked : Bool) (w w' : WState) (v : WState32) (c : Call) (h : w.call c = some w') (hs : SameState w v)
    (hmin : checked = true → ∀ p, c = .primitive p → ¬ HoldsMin p)
    (hb : ∀ x ∈ w.stack, x.len ≤ boundFor checked) (hb' : ∀ x ∈ w'.stack, x.len ≤ boundFor checked) :
    ∃ v', v.call checked c = .ok v' ∧ SameState w' v' ∧
      (v.buf = w.buf → (∀ x ∈ w.stack, x.len ≤ 2147483647) → v'.buf = w'.buf) := by
  have hin' := call_indent w w' c h hs.indent
  obtain ⟨stack, pending, buf⟩ := w
  obtain ⟨vstack, vpending, vbuf⟩ := v
  obtain ⟨hin, h1, h2, h3⟩ := hs
  simp only at hin h1 h2 h3
  subst h1; subst h2
  have hle : boundFor checked ≤ 4294967295 := by cases checked <;> simp [boundFor]
  cases c with
  | primitive p =>
    cases vpending <;> simp [WState.call] at h
    subst h
    simp only [WState32.call, primitiveIn_ok checked _ p _ (fun hc => hmin hc p rfl)]
    exact ⟨_, rfl, ⟨hin', rfl, rfl, primitive_inner _ _ _ _ h3⟩, fun e _ => by simp_all⟩
  | abandon =>
    cases vpending <;> simp [WState.call] at h
    subst h
    exact ⟨_, rfl, ⟨hin', rfl, rfl, h3⟩, fun e _ => e⟩
  | array =>
    cases vpending <;> simp [WState.call] at h
    subst h
    refine ⟨_, rfl, ⟨hin', ?_, rfl, ?_⟩, fun e _ => ?_⟩
    · simp [Arr32.start, Arr.start, wrapWriter, wrapI32]
    · simp [Arr32.start, Arr.start, h3]
    · have e : vbuf = buf := e
      simp [Arr32.start, Arr.start, e]
  | dict =>
    cases vpending <;> simp [WState.call] at h
    subst h
    refine ⟨_, rfl, ⟨hin', ?_, rfl, ?_⟩, fun e _ => ?_⟩
    · simp [Dict32.start, Dict.start, wrapWriter, wrapI32]
    · simp [Dict32.start, Dict.start, h3]
    · have e : vbuf = buf := e
      simp [Dict32.start, Dict.start, e]
  | push =>
    cases vpending with
    | some o => simp [WState.call] at h
    | none =>
      match stack with
      | [] => simp [WState.call] at h
      | .dict d :: s => simp [WState.call] at h
      | .arr a :: s =>
        simp [WState.call, arrPush_eq] at h
        subst h
        have hlen := hb' _ (List.mem_cons_self)
        have hlen0 := hb _ (List.mem_cons_self)
        simp only [Writer.len] at hlen hlen0
        have hz := wrapI32_zero a.len (by omega)
        simp only [WState32.call, List.map_cons, wrapWriter, Arr32.push, incr_ok checked a.len hlen]
        refine ⟨_, rfl, ⟨hin', ?_, ?_, ?_⟩, fun e _ => ?_⟩
        · simp [wrapWriter]
        · by_cases h0 : a.len = 0
          · simp [h0, wrapI32]
          · have : wrapI32 a.len ≠ 0 := fun e => h0 (hz.mp e)
            cases hp : a.pretty <;> simp [this, h0, beq_eq_false_iff_ne.mpr h0]
        · by_cases h0 : a.len = 0
          · simp [h0, wrapI32, itemSep, h3]
          · have : wrapI32 a.len ≠ 0 := fun e => h0 (hz.mp e)
            cases hp : a.pretty <;> simp [this, h0, beq_eq_false_iff_ne.mpr h0, itemSep, h3]
        · have e : vbuf = buf := e
          subst e
          by_cases h0 : a.len = 0
          · simp [h0, wrapI32, itemSep]
          · have : wrapI32 a.len ≠ 0 := fun e => h0 (hz.mp e)
            cases hp : a.pretty <;> simp [this, h0, beq_eq_false_iff_ne.mpr h0, itemSep, Buf.push]
  | insert k =>
    cases vpending with
    | some o => simp [WState.call] at h
    | none =>
      match stack with
      | [] => simp [WState.call] at h
      | .arr d :: s => simp [WState.call] at h
      | .dict d :: s =>
        simp [WState.call, insert_eq] at h
        subst h
        have hlen := hb' _ (List.mem_cons_self)
        simp only [Writer.len] at hlen
        simp only [WState32.call, List.map_cons, wrapWriter, Dict32.insert, incr_ok checked d.len hlen, lineSep_eq, writeName_eq]
        refine ⟨_, rfl, ⟨hin', ?_, ?_, ?_⟩, fun e _ => ?_⟩
        · simp [wrapWriter]
        · cases hp : d.pretty <;> simp
        · cases hp : d.pretty <;> simp [h3, keySep]
        · have e : vbuf = buf := e
          subst e
          cases hp : d.pretty <;> simp [keySep, Buf.push, Buf.extend]
  | finish =>
    cases vpending with
    | some o => simp [WState.call] at h
    | none =>
      match stack with
      | [] => simp [WState.call] at h
      | .arr a :: s =>
        simp [WState.call] at h
        subst h
        refine ⟨_, rfl, ⟨hin', rfl, rfl, ?_⟩, fun e hs => ?_⟩
        · simp [Arr32.drop, Arr.drop, finishIndirect_eq, h3]
        · have e : vbuf = buf := e
          have := hs _ (List.mem_cons_self)
          simp only [Writer.len] at this
          simp [Arr32.drop, Arr.drop, e, i32AsUsize_small _ this]
      | .dict d :: s =>
        simp [WState.call] at h
        subst h
        have hlen0 := hb _ (List.mem_cons_self)
        simp only [Writer.len] at hlen0
        have hz := wrapI32_zero d.len (by omega)
        have hi : 2 ≤ d.indent := hin _ (List.mem_cons_self)
        have hd : ∀ b : Buf, Dict32.drop checked ⟨d.indirect, d.indent, d.pretty, wrapI32 d.len⟩ b =
            some (finishIndirect d.indirect d.pretty ((if d.len ≠ 0 ∧ d.pretty then
              pushSpaces (d.indent - 2) (({ b with limits := b.limits.registerDictEntries (i32AsUsize (wrapI32 d.len)) } : Buf).push ch!"\n")
              else { b with limits := b.limits.registerDictEntries (i32AsUsize (wrapI32 d.len)) }).extend b!">>")) := by
          intro b
          have h2 : Dict32.subTwo checked d.indent = some (d.indent - 2) := by
            unfold Dict32.subTwo; rw [if_neg (by omega)]
          simp only [Dict32.drop]
          by_cases h0 : d.len ≠ 0 ∧ d.pretty = true
          · rw [if_pos ⟨fun e => h0.1 (hz.mp e), h0.2⟩, if_pos h0]
            simp only [h2]
          · rw [if_neg (fun e => h0 ⟨fun e' => e.1 (hz.mpr e'), e.2⟩), if_neg h0]
        simp only [WState32.call, List.map_cons, wrapWriter, hd]
        refine ⟨_, rfl, ⟨hin', rfl, rfl, ?_⟩, fun e hs => ?_⟩
        · by_cases h0 : d.len = 0
          · simp [Dict.drop, finishIndirect_eq, h3, h0]
          · cases hp : d.pretty <;> simp [Dict.drop, finishIndirect_eq, h3, h0, hp, pushSpaces_eq]
        · have e : vbuf = buf := e
          subst e
          have hl := hs _ (List.mem_cons_self)
          simp only [Writer.len] at hl
          simp only [i32AsUsize_small _ hl, Dict.drop]
          by_cases h0 : d.len = 0
          · simp [h0]
          · cases hp : d.pretty <;> simp [h0]

/-- A primitive that overflows. -/
theorem prim_panics (w w' : WState) (v : WState32) (p : Prim) (h : w.call (.primitive p) = some w') (hs : SameState w v)
    (hm : HoldsMin p) : v.call true (.primitive p) = .panic := by
  have h2 := hs.pending
  cases hp : w.pending with
  | none => simp [WState.call, hp] at h
  | some o =>
    rw [hp] at h2
    simp [WState32.call, h2, primitiveIn_min _ _ _ hm]

/-- The counter that overflows. -/
theorem step_panics (w w' : WState) (v : WState32) (c : Call) (h : w.call c = some w') (hs : SameState w v)
    (hb : ∀ x ∈ w.stack, x.len ≤ 2147483647) (hb' : ¬ ∀ x ∈ w'.stack, x.len ≤ 2147483647) : v.call true c = .panic := by
  obtain ⟨stack, pending, buf⟩ := w
  obtain ⟨vstack, vpending, vbuf⟩ := v
  obtain ⟨hin, h1, h2, h3⟩ := hs
  simp only at hin h1 h2 h3
  subst h1; subst h2
  cases c with
  | primitive p =>
    cases vpending <;> simp [WState.call] at h
    subst h; exact absurd hb hb'
  | abandon =>
    cases vpending <;> simp [WState.call] at h
    subst h; exact absurd hb hb'
  | array =>
    cases vpending <;> simp [WState.call] at h
    subst h
    exact absurd (by
      intro x hx
      rcases List.mem_cons.mp hx with rfl | hx
      · simp [Writer.len, Arr.start]
      · exact hb x hx) hb'
  | dict =>
    cases vpending <;> simp [WState.call] at h
    subst h
    exact absurd (by
      intro x hx
      rcases List.mem_cons.mp hx with rfl | hx
      · simp [Writer.len, Dict.start]
      · exact hb x hx) hb'
  | push =>
    cases vpending with
    | some o => simp [WState.call] at h
    | none =>
      match stack with
      | [] => simp [WState.call] at h
      | .dict d :: s => simp [WState.call] at h
      | .arr a :: s =>
        simp [WState.call, arrPush_eq] at h
        subst h
        have h0 := hb _ (List.mem_cons_self)
        simp only [Writer.len] at h0
        have : a.len = 2147483647 := by
          refine Nat.le_antisymm h0 (Nat.le_of_not_lt fun hlt => hb' ?_)
          intro x hx
          rcases List.mem_cons.mp hx with rfl | hx
          · simp only [Writer.len]; omega
          · exact hb x (by simp [hx])
        simp [WState32.call, wrapWriter, Arr32.push, this, wrapI32, incrI32]
  | insert k =>
    cases vpending with
    | some o => simp [WState.call] at h
    | none =>
      match stack with
      | [] => simp [WState.call] at h
      | .arr d :: s => simp [WState.call] at h
      | .dict d :: s =>
        simp [WState.call, insert_eq] at h
        subst h
        have h0 := hb _ (List.mem_cons_self)
        simp only [Writer.len] at h0
        have : d.len = 2147483647 := by
          refine Nat.le_antisymm h0 (Nat.le_of_not_lt fun hlt => hb' ?_)
          intro x hx
          rcases List.mem_cons.mp hx with rfl | hx
          · simp only [Writer.len]; omega
          · exact hb x (by simp [hx])
        simp [WState32.call, wrapWriter, Dict32.insert, this, wrapI32, incrI32]
  | finish =>
    cases vpending with
    | some o => simp [WState.call] at h
    | none =>
      match stack with
      | [] => simp [WState.call] at h
      | .arr a :: s => simp [WState.call] at h; subst h; exact absurd (fun x hx => hb x (by simp [hx])) hb'
      | .dict a :: s => simp [WState.call] at h; subst h; exact absurd (fun x hx => hb x (by simp [hx])) hb'

/-- All counters stay within the bound, from a given state on. -/
def AtMostFrom (n : Nat) (cs : List Call) (ns : List Nat) : Prop := ∀ k, ∀ c ∈ openCounts (cs.take k) ns, c ≤ n

theorem atMostFrom_cons (n : Nat) (c : Call) (cs : List Call) (ns : List Nat) :
    AtMostFrom n (c :: cs) ns ↔ (∀ x ∈ ns, x ≤ n) ∧ AtMostFrom n cs (openCounts [c] ns) := by
  constructor
  · intro h
    refine ⟨by simpa [openCounts] using h 0, ?_⟩
    intro k
    have := h (k + 1)
    rw [List.take_succ_cons, openCounts_cons] at this
    exact this
  · rintro ⟨h1, h2⟩ k
    cases k with
    | zero => simpa [openCounts] using h1
    | succ k => rw [List.take_succ_cons, openCounts_cons]; exact h2 k

theorem atMostFrom_here {n : Nat} {cs : List Call} {ns : List Nat} (h : AtMostFrom n cs ns) : ∀ x ∈ ns, x ≤ n := by
  simpa [openCounts] using h 0

theorem lens_le {w : WState} {n : Nat} (h : ∀ x ∈ w.stack.map Writer.len, x ≤ n) : ∀ x ∈ w.stack, x.len ≤ n :=
  fun x hx => h _ (List.mem_map_of_mem hx)

theorem calls_same (checked : Bool) (cs : List Call) (w w' : WState) (v : WState32) (h : w.calls cs = some w') (hs : SameState w v)
    (hmin : checked = true → ∀ p, Call.primitive p ∈ cs → ¬ HoldsMin p)
    (hb : AtMostFrom (boundFor checked) cs (w.stack.map Writer.len)) :
    ∃ v', v.calls checked cs = .ok v' ∧ SameState w' v' ∧
      (v.buf = w.buf → AtMostFrom 2147483647 cs (w.stack.map Writer.len) → v'.buf = w'.buf) := by
  induction cs generalizing w v with
  | nil => simp [WState.calls] at h; subst h; exact ⟨v, rfl, hs, fun e _ => e⟩
  | cons c cs ih =>
    simp only [WState.calls] at h
    cases hc : w.call c with
    | none => simp [hc] at h
    | some w1 =>
      simp only [hc] at h
      have hcount := call_counts w w1 c hc
      rw [atMostFrom_cons, ← hcount] at hb
      obtain ⟨v1, k1, k2, k3⟩ := step_same checked w w1 v c hc hs (fun hk p e => hmin hk p (by simp [e]))
        (lens_le hb.1) (lens_le (atMostFrom_here hb.2))
      obtain ⟨v', j1, j2, j3⟩ := ih w1 v1 h k2 (fun hk p hp => hmin hk p (List.mem_cons_of_mem _ hp)) hb.2
      refine ⟨v', by simp [WState32.calls, k1, j1], j2, ?_⟩
      intro e ha
      rw [atMostFrom_cons, ← hcount] at ha
      exact j3 (k3 e (lens_le ha.1)) ha.2

theorem calls_panic (cs : List Call) (w w' : WState) (v : WState32) (h : w.calls cs = some w') (hs : SameState w v)
    (hb : ∀ x ∈ w.stack, x.len ≤ 2147483647)
    (hn : ¬ (AtMostFrom 2147483647 cs (w.stack.map Writer.len) ∧ ∀ p, Call.primitive p ∈ cs → ¬ HoldsMin p)) : v.calls true cs = .panic := by
  induction cs generalizing w v with
  | nil =>
    exact absurd ⟨by intro k c hc; simp [openCounts] at hc; obtain ⟨x, hx, rfl⟩ := hc; exact hb x hx, by simp⟩ hn
  | cons c cs ih =>
    simp only [WState.calls] at h
    cases hc : w.call c with
    | none => simp [hc] at h
    | some w1 =>
      simp only [hc] at h
      have hcount := call_counts w w1 c hc
      have hb0 : ∀ x ∈ w.stack.map Writer.len, x ≤ 2147483647 := by
        intro x hx; obtain ⟨y, hy, rfl⟩ := List.mem_map.mp hx; exact hb y hy
      rw [atMostFrom_cons, ← hcount] at hn
      by_cases hm : ∃ p, c = .primitive p ∧ HoldsMin p
      · obtain ⟨p, rfl, hm⟩ := hm
        simp [WState32.calls, prim_panics w w1 v p hc hs hm]
      · by_cases hb1 : ∀ x ∈ w1.stack, x.len ≤ 2147483647
        · obtain ⟨v1, k1, k2, -⟩ := step_same true w w1 v c hc hs (fun _ p e hp => hm ⟨p, e, hp⟩) hb hb1
          simp only [WState32.calls, k1]
          refine ih w1 v1 h k2 hb1 (fun ha => hn ⟨⟨hb0, ha.1⟩, ?_⟩)
          intro p hp hh
          rcases List.mem_cons.mp hp with e | hp
          · exact hm ⟨p, e.symm, hh⟩
          · exact ha.2 p hp hh
        · simp [WState32.calls, step_panics w w1 v c hc hs hb hb1]

/-! ## The statements -/

/-- C52, with overflow checks: a legal sequence of calls panics exactly if some array or dictionary receives more than `i32::MAX`
items or `i32::MIN` is written; otherwise the code does what the model with unbounded counters does: same bytes, same limits, same
lengths. -/
theorem C52_checked (cs : List Call) (o : Obj) (buf : Buf) (w : WState) (h : WState.calls ⟨[], some o, buf⟩ cs = some w) :
    (Fits cs → ∃ v, WState32.calls true ⟨[], some o, buf⟩ cs = .ok v ∧ v.buf = w.buf ∧ v.pending = w.pending ∧
      v.stack.map Writer32.len = (openCounts cs []).map Int.ofNat) ∧
    (¬ Fits cs → WState32.calls true ⟨[], some o, buf⟩ cs = .panic) := by
  constructor
  · intro ⟨ha, hm⟩
    obtain ⟨v, h1, h2, h3⟩ := calls_same true cs _ w ⟨[], some o, buf⟩ h ⟨by simp, rfl, rfl, rfl⟩ (fun _ => hm) ha
    refine ⟨v, h1, h3 rfl ha, h2.pending, ?_⟩
    rw [h2.stack, ← C12_len_counts_calls cs o buf w h, List.map_map, List.map_map]
    apply List.map_congr_left
    intro x hx
    have hx' : x.len ≤ 2147483647 := by
      apply ha cs.length
      rw [List.take_length, ← C12_len_counts_calls cs o buf w h]
      exact List.mem_map_of_mem hx
    cases x with
    | arr a => exact wrapI32_small a.len hx'
    | dict d => exact wrapI32_small d.len hx'
  · exact calls_panic cs _ w _ h ⟨by simp, rfl, rfl, rfl⟩ (by simp)

/-- C52, without overflow checks: a legal sequence of calls never panics, and as long as no array or dictionary receives 2^32 items
or more, the bytes are those of the model; lengths are reported modulo 2^32, and the limits are those of the model as long as
no array or dictionary receives more than `i32::MAX` items. -/
theorem C52_unchecked (cs : List Call) (o : Obj) (buf : Buf) (w : WState) (h : WState.calls ⟨[], some o, buf⟩ cs = some w)
    (ha : AtMost 4294967295 cs) :
    ∃ v, WState32.calls false ⟨[], some o, buf⟩ cs = .ok v ∧ v.buf.inner = w.buf.inner ∧ v.pending = w.pending ∧
      v.stack.map Writer32.len = (openCounts cs []).map wrapI32 ∧
      (AtMost 2147483647 cs → v.buf = w.buf) := by
  obtain ⟨v, h1, h2, h3⟩ := calls_same false cs _ w ⟨[], some o, buf⟩ h ⟨by simp, rfl, rfl, rfl⟩ (by simp) ha
  refine ⟨v, h1, h2.bytes, h2.pending, ?_, fun ha => h3 rfl ha⟩
  rw [h2.stack, ← C12_len_counts_calls cs o buf w h, List.map_map, List.map_map]
  apply List.map_congr_left
  intro x hx
  cases x <;> rfl

/-- C52, without overflow checks: no sequence of calls panics, however many items there are and whatever is written. -/
theorem C52_unchecked_never_panics (cs : List Call) (w : WState32) : w.calls false cs ≠ .panic := by
  induction cs generalizing w with
  | nil => simp [WState32.calls]
  | cons c cs ih =>
    simp only [WState32.calls]
    have hc : w.call false c ≠ .panic := by
      obtain ⟨stack, pending, buf⟩ := w
      have hi : ∀ l, ∃ l', incrI32 false l = some l' := by
        intro l; unfold incrI32; by_cases h : l = 2147483647 <;> simp [h]
      have hp : ∀ o p, Obj.primitiveIn false o p buf = some (Obj.primitive o p buf) := fun o p => primitiveIn_ok false o p buf (by simp)
      have hd : ∀ d, ∃ b, Dict32.drop false d buf = some b := by
        intro d
        have h2 : ∃ n, Dict32.subTwo false d.indent = some n := by
          unfold Dict32.subTwo; by_cases h : d.indent < 2 <;> simp [h]
        obtain ⟨n, h2⟩ := h2
        simp only [Dict32.drop, h2]
        split <;> exact ⟨_, rfl⟩
      cases c <;> cases pending <;> (try simp [WState32.call, hp]) <;>
        (match stack with
         | [] => simp
         | .arr a :: s => obtain ⟨l', e⟩ := hi a.len; simp [Arr32.push, e]
         | .dict a :: s => obtain ⟨l', e⟩ := hi a.len; obtain ⟨b, e'⟩ := hd a; simp [Dict32.insert, e, e'])
    cases h : w.call false c with
    | ok w' => exact ih w'
    | panic => exact absurd h hc
    | illegal => simp

/-- `n` calls of `array.push().primitive(0)`. -/
def pushZeros (n : Nat) : List Call := (List.replicate n [Call.push, Call.primitive (.int 0)]).flatten

/-- The bytes the code writes for the `n` items after `k` items, with the separator dropped at every multiple of 2^32. -/
def zerosBytes (k : Nat) : Nat → Bytes
  | 0 => []
  | n + 1 => (if k % 4294967296 = 0 then b!"0" else b!" 0") ++ zerosBytes (k + 1) n

theorem wrapI32_eq_zero (n : Nat) : wrapI32 n = 0 ↔ n % 4294967296 = 0 := by
  unfold wrapI32
  split <;> omega

theorem calls32_append (checked : Bool) (cs ds : List Call) (w w' : WState32) (h : w.calls checked cs = .ok w') :
    w.calls checked (cs ++ ds) = w'.calls checked ds := by
  induction cs generalizing w with
  | nil => simp [WState32.calls] at h; subst h; rfl
  | cons c cs ih =>
    simp only [WState32.calls, List.cons_append] at h ⊢
    cases hc : w.call checked c with
    | ok w1 => simp only [hc] at h ⊢; exact ih w1 h
    | panic => simp [hc] at h
    | illegal => simp [hc] at h

theorem pushZeros_run (n k : Nat) (buf : Buf) (hlast : k ≠ 0 → buf.inner.getLast? = some ch!"0") :
    ∃ buf', WState32.calls false ⟨[.arr ⟨false, 0, false, wrapI32 k⟩], none, buf⟩ (pushZeros n) =
      .ok ⟨[.arr ⟨false, 0, false, wrapI32 (k + n)⟩], none, buf'⟩ ∧ buf'.inner = buf.inner ++ zerosBytes k n := by
  induction n generalizing k buf with
  | zero => exact ⟨buf, rfl, by simp [zerosBytes]⟩
  | succ n ih =>
    have hstep : ∃ buf1, WState32.calls false ⟨[.arr ⟨false, 0, false, wrapI32 k⟩], none, buf⟩ [Call.push, Call.primitive (.int 0)] =
        .ok ⟨[.arr ⟨false, 0, false, wrapI32 (k + 1)⟩], none, buf1⟩ ∧
        buf1.inner = buf.inner ++ (if k % 4294967296 = 0 then b!"0" else b!" 0") := by
      simp only [WState32.calls, WState32.call, Arr32.push, wrapI32_succ, primitiveIn_ok false _ (.int 0) _ (by simp)]
      refine ⟨_, rfl, ?_⟩
      have e := run_eq (.prim (.int 0))
      simp only [Prog.run] at e
      by_cases h0 : k % 4294967296 = 0
      · have hz := (wrapI32_eq_zero k).mpr h0
        simp [hz, h0, e, Obj.direct, enc, padOf, tailBytes]
        decide +kernel
      · have hz : wrapI32 k ≠ 0 := fun e => h0 ((wrapI32_eq_zero k).mp e)
        have hl := hlast (by intro e; subst e; simp at h0)
        simp [hz, h0, e, Obj.direct, enc, padOf, tailBytes, hl]
        decide +kernel
    obtain ⟨buf1, h1, h2⟩ := hstep
    have hl1 : buf1.inner.getLast? = some ch!"0" := by
      rw [h2]; split <;> simp
    obtain ⟨buf', j1, j2⟩ := ih (k + 1) buf1 (fun _ => hl1)
    refine ⟨buf', ?_, ?_⟩
    · have : pushZeros (n + 1) = [Call.push, Call.primitive (.int 0)] ++ pushZeros n := by
        simp [pushZeros, List.replicate_succ]
      rw [this, calls32_append _ _ _ _ _ h1, j1]
      rw [show k + 1 + n = k + (n + 1) by omega]
    · rw [j2, h2, zerosBytes, List.append_assoc]

theorem zerosBytes_append (k n m : Nat) : zerosBytes k (n + m) = zerosBytes k n ++ zerosBytes (k + n) m := by
  induction n generalizing k with
  | zero => simp [zerosBytes]
  | succ n ih => rw [show n + 1 + m = (n + m) + 1 by omega]; simp [zerosBytes, ih, show k + 1 + n = k + (n + 1) by omega]

/-- C52, the bound of `C52_unchecked` is exact: without overflow checks, an array of `2^32 + 1` zeros ends with `00]`: the separator
between the last two items is missing, so the array reads as one item less than were pushed. -/
theorem C52_unchecked_defect (N : Nat) (hN : N = 4294967296) (buf : Buf) :
    ∃ v, WState32.calls false ⟨[], some (Obj.direct 0 false false), buf⟩ (.array :: (pushZeros (N + 1) ++ [.finish])) = .ok v ∧
      v.stack = [] ∧ v.pending = none ∧ v.buf.inner = buf.inner ++ b!"[0" ++ (List.replicate (N - 1) b!" 0").flatten ++ b!"0]" := by
  obtain ⟨buf', h1, h2⟩ := pushZeros_run (N + 1) 0 (buf.push ch!"[") (by simp)
  have hmid : ∀ n, n + 1 ≤ N → zerosBytes (N - n) n = (List.replicate n b!" 0").flatten := by
    intro n hn
    induction n with
    | zero => rfl
    | succ n ih =>
      rw [zerosBytes, if_neg (by omega), show N - (n + 1) + 1 = N - n by omega, ih (by omega), List.replicate_succ, List.flatten_cons]
  have e1 : zerosBytes 0 (N + 1) = b!"0" ++ (List.replicate (N - 1) b!" 0").flatten ++ b!"0" := by
    rw [show N + 1 = 1 + ((N - 1) + 1) by omega, zerosBytes_append, zerosBytes_append]
    have h3 := hmid (N - 1) (by omega)
    rw [show N - (N - 1) = 0 + 1 by omega] at h3
    have h4 : zerosBytes (0 + 1 + (N - 1)) 1 = b!"0" := by
      rw [zerosBytes, if_pos (by omega)]; rfl
    have h5 : zerosBytes 0 1 = b!"0" := rfl
    rw [h3, h4, h5, List.append_assoc]
  have e2 : wrapI32 0 = 0 := rfl
  rw [e2] at h1
  simp only [WState32.calls, WState32.call, Arr32.start, Obj.direct]
  rw [calls32_append _ _ _ _ _ h1]
  simp only [WState32.calls, WState32.call]
  refine ⟨_, rfl, rfl, rfl, ?_⟩
  simp [Arr32.drop, finishIndirect_eq, h2, e1, tailBytes]

/-! Cases that meet the hypotheses. -/

/-- `<< /A [1 true] >>` as calls. -/
def countedCalls : List Call := [.dict, .insert b!"A", .array, .push, .primitive (.int 1), .push, .primitive (.bool true), .finish, .finish]

theorem atMost_of_length (n : Nat) (cs : List Call) (h : cs.length ≤ n) : AtMost n cs := by
  have key : ∀ (cs : List Call) (ns : List Nat) (m : Nat), (∀ x ∈ ns, x ≤ m) → ∀ x ∈ openCounts cs ns, x ≤ m + cs.length := by
    intro cs
    induction cs with
    | nil => intro ns m hm x hx; simpa [openCounts] using hm x hx
    | cons c cs ih =>
      intro ns m hm x hx
      rw [openCounts_cons] at hx
      have := ih (openCounts [c] ns) (m + 1) (by
        intro y hy
        cases c <;> cases ns <;> simp [openCounts] at hy hm <;> (try omega)
        all_goals (first
          | (rcases hy with rfl | rfl | hy <;> (try have := hm.2 _ hy) <;> omega)
          | (rcases hy with rfl | hy <;> (try have := hm.2 _ hy) <;> omega)
          | (have := hm.2 _ hy; omega))) x hx
      simp only [List.length_cons]; omega
  intro k c hc
  have := key (cs.take k) [] 0 (by simp) c hc
  have : (cs.take k).length ≤ cs.length := by simp; omega
  omega

example : ∃ w, WState.calls ⟨[], some (Obj.direct 0 false false), Buf.new⟩ countedCalls = some w ∧ Fits countedCalls ∧
    w.buf.inner = b!"<</A[1 true]>>" :=
  ⟨_, rfl, ⟨atMost_of_length _ _ (by decide), by intro p hp; simp [countedCalls] at hp; rcases hp with rfl | rfl <;> simp [HoldsMin]⟩,
    by decide +kernel⟩

/-- `i32::MIN` is a legal argument, and panics in a build with overflow checks. -/
example : (∃ w, WState.calls ⟨[], some (Obj.direct 0 false false), Buf.new⟩ [.primitive (.int (-2147483648))] = some w) ∧
    ¬ Fits [.primitive (.int (-2147483648))] :=
  ⟨⟨_, rfl⟩, fun h => h.2 _ (List.mem_singleton.mpr rfl) rfl⟩

/-- The panic case is reachable too: an array that receives 2^31 items. -/
example (N : Nat) (hN : N = 2147483648) : ¬ AtMost 2147483647 (.array :: pushZeros N) := by
  intro h
  have key : ∀ n k, openCounts (pushZeros n) [k] = [k + n] := by
    intro n
    induction n with
    | zero => intro k; rfl
    | succ n ih =>
      intro k
      have : pushZeros (n + 1) = Call.push :: Call.primitive (.int 0) :: pushZeros n := by simp [pushZeros, List.replicate_succ]
      rw [this]; simp [openCounts, ih]; omega
  have := h (Call.array :: pushZeros N).length
  rw [List.take_length] at this
  simp only [openCounts, key] at this
  have := this _ (List.mem_singleton.mpr rfl)
  omega

end PdfW.Props
