import Verif.Spec.Colors
import Verif.Proof.Annots
import Verif.Proof.PostScript
import Verif.Proof.Color
import Verif.Proof.Typed.Functions
import Verif.Proof.Typed.Pattern
import Verif.Proof.Typed.Resources

set_option linter.unusedSimpArgs false
set_option linter.unusedVariables false

/-! # Color spaces, functions, shadings and patterns: proofs -/

namespace PdfW
open Spec Imaging

variable {unf : Val → Bytes → Option Bytes} {f : FileEnd} {bytes : Bytes} {items : List Item}

/-! ## Entries -/

theorem required_call {α γ : Type} {means : α → List (Bytes × (Val → Prop))} {pre : List (Bytes × (Val → Prop))} {calls : List α}
    {d : List (Bytes × Val)} {k : Bytes} {c : α} {read : Val → Option γ} {P : Val → Prop} {Q : γ → Prop}
    (he : EntriesAre (pre ++ calls.flatMap means) d) (hp : pre.filter (fun e => e.1 == k) = []) (hx : OnlyCall means k calls c)
    (hc : (means c).filter (fun e => e.1 == k) = [(k, P)]) (hP : ∀ v, P v → ∃ a, read v = some a ∧ Q a) :
    ∃ a, requiredEntry k d read = some a ∧ Q a := by
  obtain ⟨w, hl, hw⟩ := lookup_of he (k := k) (P := P) (by rw [List.filter_append, hp, onlyCall_filter hx, hc, List.nil_append])
  obtain ⟨a, ha, hq⟩ := hP w hw
  exact ⟨a, by simp only [requiredEntry, hl, Option.bind_some, ha], hq⟩

theorem required_eq {α γ : Type} {means : α → List (Bytes × (Val → Prop))} {pre : List (Bytes × (Val → Prop))} {calls : List α}
    {d : List (Bytes × Val)} {k : Bytes} {c : α} {read : Val → Option γ} (P : Val → Prop) (g : γ)
    (he : EntriesAre (pre ++ calls.flatMap means) d) (hp : pre.filter (fun e => e.1 == k) = []) (hx : OnlyCall means k calls c)
    (hc : (means c).filter (fun e => e.1 == k) = [(k, P)]) (hP : ∀ v, P v → read v = some g) : requiredEntry k d read = some g := by
  obtain ⟨a, ha, rfl⟩ := required_call (Q := fun a => a = g) he hp hx hc (fun v hv => ⟨g, hP v hv, rfl⟩)
  exact ha

theorem required_pre {α γ : Type} {means : α → List (Bytes × (Val → Prop))} {pre : List (Bytes × (Val → Prop))} {calls : List α}
    {d : List (Bytes × Val)} {k : Bytes} {read : Val → Option γ} (P : Val → Prop) (g : γ)
    (he : EntriesAre (pre ++ calls.flatMap means) d) (hp : pre.filter (fun e => e.1 == k) = [(k, P)]) (hx : NoCall means k calls)
    (hP : ∀ v, P v → read v = some g) : requiredEntry k d read = some g := by
  obtain ⟨w, hl, hw⟩ := lookup_of he (k := k) (P := P) (by rw [List.filter_append, hp, noCall_filter hx, List.append_nil])
  simp only [requiredEntry, hl, Option.bind_some, hP w hw]

theorem int_read (n : Int) (v : Val) (h : IsInt n v) : intOf v = some n := by
  simp only [IsInt] at h; subst h; rfl

theorem bool_read (n : Bool) (v : Val) (h : IsBool n v) : truthOf v = some n := by
  simp only [IsBool] at h; subst h; rfl

theorem ints_read (ns : List Int) (v : Val) (h : ArrayIs (ns.map fun x => IsInt x) v) : integersOf v = some ns := by
  obtain ⟨vs, rfl, hv⟩ := h
  exact integers_of ns vs hv

theorem truths_read (ns : List Bool) (v : Val) (h : ArrayIs (ns.map fun x => IsBool x) v) : truths v = some ns := by
  obtain ⟨vs, rfl, hv⟩ := h
  simp only [truths]
  induction ns generalizing vs with
  | nil => simp only [List.map_nil, ItemsAre] at hv; subst hv; rfl
  | cons n ns ih =>
    simp only [List.map_cons, ItemsAre] at hv
    obtain ⟨w, ws, rfl, hw, hr⟩ := hv
    simp only [readEach, bool_read n w hw, Option.bind_some, ih ws hr, Option.map_some]

theorem numsAre_pairwise (xs : List F32) (vs : List Val) (h : NumsAre xs vs) : Pairwise NumIs xs vs := by
  induction xs generalizing vs with
  | nil => simp only [NumsAre] at h; subst h; exact .nil
  | cons x xs ih =>
    simp only [NumsAre] at h
    obtain ⟨w, ws, rfl, hw, hr⟩ := h
    exact .cons hw (ih ws hr)

theorem numArray_read (xs : List F32) (v : Val) (h : NumArray xs v) : ∃ vs, itemsOf v = some vs ∧ Pairwise NumIs xs vs := by
  obtain ⟨vs, rfl, hv⟩ := h
  exact ⟨vs, rfl, numsAre_pairwise xs vs hv⟩

theorem flatMap_single {α β : Type} (g : α → β) (l : List α) : l.flatMap (fun c => [g c]) = l.map g := by
  induction l with
  | nil => rfl
  | cons a l ih => rw [List.flatMap_cons, ih]; rfl

/-! ## Objects -/

theorem loadObject_stored (hf : Finds f bytes items) {v : Prog} {es : List (Bytes × Prog)} {w : Val} (h : Stored items v (.dict es))
    (hw : Denotes v w) : ∃ d, loadObject f bytes w = some (d, none) ∧ DenotesEntries es d := by
  rcases h with rfl | ⟨id, rfl, ho⟩
  · simp only [Denotes] at hw
    obtain ⟨d, rfl, hd⟩ := hw
    exact ⟨d, rfl, hd⟩
  · obtain ⟨v, h1, h2⟩ := finds_val hf ho
    simp only [Denotes] at h2
    obtain ⟨d, rfl, hd⟩ := h2
    rw [denotes_ref id w hw]
    exact ⟨d, by simp only [loadObject, h1], hd⟩

/-- A stream: its dictionary, with the entry for the length in front, and its data. -/
theorem loadObject_stream (hf : Finds f bytes items) {α : Type} {means : α → List (Bytes × (Val → Prop))} {wrap : StreamCall → α} {id : Ref}
    {es : List (Bytes × Prog)} {pre : List (Bytes × (Val → Prop))} {calls : List α} {stored data : Bytes}
    (ho : HasObject items id (.stream es stored)) (hi : Implied EntryImplied es (pre ++ calls.flatMap means))
    (hwrap : ∀ c, means (wrap c) = StreamMeans c) (hp : pre.filter (fun e => e.1 == b!"Filter") = []) (hs : StreamHolds means wrap unf calls stored data) :
    ∃ d, f.object bytes id.get.toNat = some (.stream d stored) ∧ loadObject f bytes (.ref id.get.toNat 0) = some (d, some id.get.toNat) ∧
      EntriesAre (((b!"Length", fun _ => True) :: pre) ++ calls.flatMap means) d ∧ decodedStream unf f bytes id.get.toNat = some data := by
  obtain ⟨d, h1, h2⟩ := finds_stream hf ho
  have he := entriesAre_of hi h2
  refine ⟨_, h1, by simp only [loadObject, h1], ⟨_, _, rfl, trivial, he⟩, ?_⟩
  rcases hs with ⟨hn, rfl⟩ | ⟨flt, hc, hu⟩
  · exact decoded_plain h1 he (by rw [List.filter_append, hp, noCall_filter hn]; rfl)
  · rw [decoded_filtered (name := isoFilter flt) h1 he (by rw [List.filter_append, hp, onlyCall_filter hc, hwrap]; rfl), hu]

theorem readEach_pairwise {α β γ : Type} {P : α → γ → Prop} {Q : γ → β → Prop} {g : α → Val} {read : Val → Option β} {xs : List α} {ys : List γ}
    (h : Pairwise P xs ys) (hr : ∀ x y, P x y → ∃ b, read (g x) = some b ∧ Q y b) : ∃ bs, readEach read (xs.map g) = some bs ∧ Pairwise Q ys bs := by
  induction h with
  | nil => exact ⟨[], rfl, .nil⟩
  | cons h _ ih =>
    obtain ⟨b, h1, h2⟩ := hr _ _ h
    obtain ⟨bs, h3, h4⟩ := ih
    exact ⟨b :: bs, by simp only [List.map_cons, readEach, h1, Option.bind_some, h3, Option.map_some], .cons h2 h4⟩

/-! ## Functions -/

theorem fnStream_read (hf : Finds f bytes items) (n : Nat) (id : Ref) (g : GivenFn) (h : FnStream unf items id g) :
    ∃ r, readFn unf f bytes (n + 1) (.ref id.get.toNat 0) = some r ∧ SameFn g r := by
  cases h with
  | @sampled calls stored domain range size bits encode decode data order ho h1 h2 h3 h4 h5 h6 h7 h8 h9 =>
    obtain ⟨d, q1, q2, he, q3⟩ := loadObject_stream hf ho (sampledFunction_implied calls) (fun _ => rfl) rfl h9
    have r1 := required_pre (read := intOf) (IsInt 0) 0 he rfl h1 (int_read 0)
    obtain ⟨vd, r2, m2⟩ := required_call (read := itemsOf) he rfl h2 rfl (numbers_read domain)
    obtain ⟨vr, r3, m3⟩ := required_call (read := itemsOf) he rfl h3 rfl (numbers_read range)
    have r4 := required_eq (read := integersOf) _ size he rfl h4 rfl (ints_read size)
    have r5 := required_eq (read := intOf) _ bits he rfl h5 rfl (int_read bits)
    have r6 := optional_eq (read := intOf) (fun o => IsInt (isoInterpolationOrder o)) isoInterpolationOrder he rfl h6 (fun _ => rfl) (fun b => int_read _)
    obtain ⟨ve, r7, m7⟩ := optional_call (read := itemsOf) (R := Pairwise NumIs) he rfl h7 (fun _ _ => rfl) (fun b _ => numbers_read b)
    obtain ⟨vc, r8, m8⟩ := optional_call (read := itemsOf) (R := Pairwise NumIs) he rfl h8 (fun _ _ => rfl) (fun b _ => numbers_read b)
    refine ⟨_, ?_, .sampled m2 m3 m7 m8⟩
    simp only [readFn, q2, Option.bind_some, r1, r2, if_true, r3, r4, r5, r6, r7, r8, q3, Option.map_some]
  | @calculator calls stored domain range ops ho h1 h2 h3 h4 h5 =>
    obtain ⟨d, q1, q2, he, q3⟩ := loadObject_stream hf ho (postScriptFunction_implied calls) (fun _ => rfl) rfl h5
    have r1 := required_pre (read := intOf) (IsInt 4) 4 he rfl h1 (int_read 4)
    obtain ⟨vd, r2, m2⟩ := required_call (read := itemsOf) he rfl h2 rfl (numbers_read domain)
    obtain ⟨vr, r3, m3⟩ := required_call (read := itemsOf) he rfl h3 rfl (numbers_read range)
    refine ⟨_, ?_, .calculator m2 m3 (ps_allMean ops h4)⟩
    simp only [readFn, q2, Option.bind_some, r1, r2]
    rw [if_neg (by decide), if_neg (by decide), if_neg (by decide), if_true]
    simp only [r3, q3, Option.bind_some, readCalc_encode ops h4, Option.map_some]

theorem exponential_entriesAre {calls : List ExponentialCall} {es : List (Bytes × Prog)} (he : exponentialFunction calls = .dict es) {d : List (Bytes × Val)}
    (hd : DenotesEntries es d) : EntriesAre ([(b!"FunctionType", IsInt 2)] ++ calls.flatMap exponentialMeans) d := by
  have h := exponential_denotes calls (.dict d) (by rw [he]; simp only [Denotes]; exact ⟨d, rfl, hd⟩)
  obtain ⟨d', e, h'⟩ := h
  cases e
  rw [show calls.flatMap exponentialMeans = calls.map ExponentialMeans from flatMap_single ExponentialMeans calls]
  exact h'

theorem stitching_entriesAre {calls : List StitchingCall} {es : List (Bytes × Prog)} (he : stitchingFunction calls = .dict es) {d : List (Bytes × Val)}
    (hd : DenotesEntries es d) : EntriesAre ([(b!"FunctionType", IsInt 3)] ++ calls.flatMap stitchingMeans) d := by
  have h := stitching_denotes calls (.dict d) (by rw [he]; simp only [Denotes]; exact ⟨d, rfl, hd⟩)
  obtain ⟨d', e, h'⟩ := h
  cases e
  rw [show calls.flatMap stitchingMeans = calls.map StitchingMeans from flatMap_single StitchingMeans calls]
  exact h'

theorem fn_read (hf : Finds f bytes items) (depth : Nat) : ∀ (n : Nat), depth ≤ n → ∀ (p : Prog) (g : GivenFn), FnWritten unf items depth p g →
    ∀ v, Denotes p v → ∃ r, readFn unf f bytes n v = some r ∧ SameFn g r := by
  induction depth with
  | zero => intro n _ p g h; simp only [FnWritten] at h
  | succ depth ih =>
    intro n hn p g h v hv
    obtain ⟨n, rfl⟩ : ∃ m, n = m + 1 := ⟨n - 1, by omega⟩
    simp only [FnWritten] at h
    rcases h with ⟨q, hs, hg⟩ | ⟨id, rfl, hg⟩
    · cases hg with
      | @exponential calls domain range c0 c1 x h1 h2 h3 h4 h5 h6 =>
        obtain ⟨d, q1, q2⟩ := loadObject_stored hf (es := _) (by exact hs) hv
        have he := exponential_entriesAre rfl q2
        have r1 := required_pre (read := intOf) (IsInt 2) 2 he rfl h1 (int_read 2)
        obtain ⟨vd, r2, m2⟩ := required_call (read := itemsOf) he rfl h2 rfl (numArray_read domain)
        obtain ⟨vr, r3, m3⟩ := optional_call (read := itemsOf) (R := Pairwise NumIs) he rfl h3 (fun _ _ => rfl) (fun b _ => numArray_read b)
        obtain ⟨v0, r4, m4⟩ := optional_call (read := itemsOf) (R := Pairwise NumIs) he rfl h4 (fun _ _ => rfl) (fun b _ => numArray_read b)
        obtain ⟨v1, r5, m5⟩ := optional_call (read := itemsOf) (R := Pairwise NumIs) he rfl h5 (fun _ _ => rfl) (fun b _ => numArray_read b)
        obtain ⟨vn, r6, m6⟩ := required_call (read := numberOf) he rfl h6 rfl (numberOf_read x)
        refine ⟨_, ?_, .exponential m2 m3 m4 m5 m6⟩
        simp only [readFn, q1, Option.bind_some, r1, r2]
        rw [if_neg (by decide), if_true]
        simp only [r3, r4, r5, r6, Option.bind_some, Option.map_some]
      | @stitching calls domain range ids functions bounds encode h1 h2 h3 h4 h5 h6 h7 =>
        obtain ⟨d, q1, q2⟩ := loadObject_stored hf (es := _) (by exact hs) hv
        have he := stitching_entriesAre rfl q2
        have r1 := required_pre (read := intOf) (IsInt 3) 3 he rfl h1 (int_read 3)
        obtain ⟨vd, r2, m2⟩ := required_call (read := itemsOf) he rfl h2 rfl (numArray_read domain)
        obtain ⟨vr, r3, m3⟩ := optional_call (read := itemsOf) (R := Pairwise NumIs) he rfl h3 (fun _ _ => rfl) (fun b _ => numArray_read b)
        have r4 := required_eq (read := itemsOf) _ (ids.map fun r => .ref r.get.toNat 0) he rfl h4 rfl (fun v hv => by subst hv; rfl)
        obtain ⟨fs, r5, m5⟩ := readEach_pairwise (g := fun r : Ref => .ref r.get.toNat 0) (read := readFn unf f bytes n) (Q := SameFn) h5
          (fun id g hg => ih n (by omega) _ g hg _ (by simp only [Denotes, PrimDenotes]))
        obtain ⟨vb, r6, m6⟩ := required_call (read := itemsOf) he rfl h6 rfl (numArray_read bounds)
        obtain ⟨ve, r7, m7⟩ := required_call (read := itemsOf) he rfl h7 rfl (numArray_read encode)
        refine ⟨_, ?_, .stitching m2 m3 m5 m6 m7⟩
        simp only [readFn, q1, Option.bind_some, r1, r2]
        rw [if_neg (by decide), if_neg (by decide), if_true]
        simp only [r3, r4, r5, r6, r7, Option.bind_some, Option.map_some]
    · rw [denotes_ref id v hv]
      exact fnStream_read hf n id g hg


/-! ## Color spaces -/

theorem optional_given {β γ : Type} {ms : List (Bytes × (Val → Prop))} {d : List (Bytes × Val)} {k : Bytes} {x : Option β} {read : Val → Option γ}
    {P : β → Val → Prop} {R : β → γ → Prop} (he : EntriesAre ms d) (hm : ms.filter (fun e => e.1 == k) = given k P x)
    (hP : ∀ b v, P b v → ∃ a, read v = some a ∧ R b a) : ∃ y, optionalEntry k d read = some y ∧ BothOrNone R x y := by
  cases x with
  | none => exact ⟨none, optional_absent he hm, trivial⟩
  | some b =>
    obtain ⟨a, h1, h2⟩ := optional_present (Q := R b) he hm (hP b)
    exact ⟨some a, h1, h2⟩

theorem required_head {γ : Type} {ms : List (Bytes × (Val → Prop))} {d : List (Bytes × Val)} {k : Bytes} {read : Val → Option γ} {P : Val → Prop}
    {Q : γ → Prop} (he : EntriesAre ms d) (hm : ms.filter (fun e => e.1 == k) = [(k, P)]) (hP : ∀ v, P v → ∃ a, read v = some a ∧ Q a) :
    ∃ a, requiredEntry k d read = some a ∧ Q a := by
  obtain ⟨w, hl, hw⟩ := lookup_of he hm
  obtain ⟨a, ha, hq⟩ := hP w hw
  exact ⟨a, by simp only [requiredEntry, hl, Option.bind_some, ha], hq⟩

theorem bothOrNone_map {α β γ : Type} {R : β → γ → Prop} {h : α → β} {x : Option α} {y : Option γ} (hb : BothOrNone (fun a c => R (h a) c) x y) :
    BothOrNone R (x.map h) y := by
  cases x <;> cases y <;> first | trivial | exact hb | exact hb.elim

theorem spaceGiven_array {space : Prog → GivenSpace → Prop} {fn : Prog → GivenFn → Prop} {p : Prog} {s : GivenSpace}
    (h : SpaceGiven unf items space fn p s) : ∃ es, p = .array es := by
  cases h with
  | calGray h | calRgb h | lab h | icc h | iccOr h | iccOrNamed h | indexed h | pattern h =>
    simp only [ColorSpaceCall.prog, Option.some.injEq] at h; exact ⟨_, h.symm⟩
  | separation h =>
    simp only [ColorSpaceCall.prog, separation_eq] at h
    split at h
    · simp only [Option.some.injEq] at h; exact ⟨_, h.symm⟩
    · simp at h
  | deviceN h =>
    simp only [ColorSpaceCall.prog, deviceN_eq] at h
    split at h
    · simp only [Option.some.injEq] at h; exact ⟨_, h.symm⟩
    · simp at h

theorem profile_read (hf : Finds f bytes items) {id : Ref} {calls : List IccProfileCall} {n : Int} {range : Option (List F32)} {profile : Bytes}
    (h : ProfileWritten unf items id calls n range profile) :
    ∃ d stored y, f.object bytes id.get.toNat = some (.stream d stored) ∧
      EntriesAre ([(b!"Length", fun _ => True)] ++ calls.flatMap IccProfileMeans) d ∧ requiredEntry b!"N" d intOf = some n ∧
      optionalEntry b!"Range" d itemsOf = some y ∧ BothOrNone (Pairwise NumIs) range y ∧ decodedStream unf f bytes id.get.toNat = some profile := by
  obtain ⟨⟨stored, ho, hs⟩, hn, hr⟩ := h
  obtain ⟨d, q1, q2, he, q3⟩ := loadObject_stream (pre := []) hf ho (iccProfile_implied calls) (fun _ => rfl) rfl hs
  have r1 := required_eq (read := intOf) _ n he rfl hn rfl (int_read n)
  obtain ⟨y, r2, m2⟩ := optional_call (read := itemsOf) (R := Pairwise NumIs) he rfl hr (fun _ _ => rfl) (fun b _ => numbers_read b)
  exact ⟨d, stored, y, q1, he, r1, r2, m2, q3⟩

theorem names_read (ns : List Bytes) : namesOf (ns.map .name) = some ns := by
  induction ns with
  | nil => rfl
  | cons n ns ih =>
    simp only [namesOf] at ih
    simp only [namesOf, List.map_cons, readEach, nameOf, Option.bind_some, ih, Option.map_some]

theorem spaceGiven_read (hf : Finds f bytes items) {space : Prog → GivenSpace → Prop} {fn : Prog → GivenFn → Prop} {rs : Val → Option ReadSpace}
    {rf : Val → Option ReadFn} (hsp : ∀ p s, space p s → ∀ v, Denotes p v → ∃ r, rs v = some r ∧ SameSpace s r)
    (hnm : ∀ n, rs (.name n) = some (.named n))
    (hfn : ∀ p g, fn p g → ∀ v, Denotes p v → ∃ r, rf v = some r ∧ SameFn g r) {p : Prog} {s : GivenSpace} (h : SpaceGiven unf items space fn p s)
    {w : Val} (hw : Denotes p w) :
    ∃ family args r, w = .arr (.name family :: args) ∧ readFamily unf f bytes rs rf family args = some r ∧ SameSpace s r := by
  cases h with
  | @calGray wh b g _ hp =>
    simp only [ColorSpaceCall.prog, Option.some.injEq] at hp; subst hp
    have hmean : ColorSpaceMeans (.calGray wh b g) w := arrayIs_of (.cons (denotes_name _) (.cons (dictIs_of (.cons ⟨rfl, denotes_reals _⟩
      ((given_implied _ _ _ (fun a => denotes_reals _) b).append (given_implied _ _ _ (fun a => denotes_real _) g)))) .nil)) w hw
    obtain ⟨vs, rfl, _, _, rfl, rfl, _, _, rfl, ⟨d, rfl, he⟩, rfl⟩ := hmean
    obtain ⟨y1, q1, m1⟩ := required_head (k := b!"WhitePoint") (read := itemsOf) he (by cases b <;> cases g <;> rfl) (numArray_read _)
    obtain ⟨y2, q2, m2⟩ := optional_given (k := b!"BlackPoint") (read := itemsOf) (x := b) (R := fun (a : Xyz) v => Pairwise NumIs a.list v) he
      (by cases b <;> cases g <;> rfl) (fun a => numArray_read a.list)
    obtain ⟨y3, q3, m3⟩ := optional_given (k := b!"Gamma") (read := numberOf) (x := g) (R := NumIs) he (by cases b <;> cases g <;> rfl) numberOf_read
    refine ⟨_, _, _, rfl, ?_, .calGray m1 (bothOrNone_map m2) m3⟩
    simp only [readFamily, ColorSpaceType.toName]
    rw [if_pos (by simp)]
    simp only [followDict, followRef, Option.bind_some, q1, q2, q3, Option.map_some]
  | @calRgb wh b g m _ hp =>
    simp only [ColorSpaceCall.prog, Option.some.injEq] at hp; subst hp
    have hmean : ColorSpaceMeans (.calRgb wh b g m) w := arrayIs_of (.cons (denotes_name _) (.cons (dictIs_of (.cons ⟨rfl, denotes_reals _⟩
      (((given_implied _ _ _ (fun a => denotes_reals _) b).append (given_implied _ _ _ (fun a => denotes_reals _) g)).append (given_implied _ _ _ (fun a => denotes_reals _) m)))) .nil)) w hw
    obtain ⟨vs, rfl, _, _, rfl, rfl, _, _, rfl, ⟨d, rfl, he⟩, rfl⟩ := hmean
    obtain ⟨y1, q1, m1⟩ := required_head (k := b!"WhitePoint") (read := itemsOf) he (by cases b <;> cases g <;> cases m <;> rfl) (numArray_read _)
    obtain ⟨y2, q2, m2⟩ := optional_given (k := b!"BlackPoint") (read := itemsOf) (x := b) (R := fun (a : Xyz) v => Pairwise NumIs a.list v) he
      (by cases b <;> cases g <;> cases m <;> rfl) (fun a => numArray_read a.list)
    obtain ⟨y3, q3, m3⟩ := optional_given (k := b!"Gamma") (read := itemsOf) (x := g) (R := fun (a : Xyz) v => Pairwise NumIs a.list v) he
      (by cases b <;> cases g <;> cases m <;> rfl) (fun a => numArray_read a.list)
    obtain ⟨y4, q4, m4⟩ := optional_given (k := b!"Matrix") (read := itemsOf) (x := m) (R := fun (a : Nine) v => Pairwise NumIs a.list v) he
      (by cases b <;> cases g <;> cases m <;> rfl) (fun a => numArray_read a.list)
    refine ⟨_, _, _, rfl, ?_, .calRgb m1 (bothOrNone_map m2) (bothOrNone_map m3) (bothOrNone_map m4)⟩
    simp only [readFamily, ColorSpaceType.toName]
    rw [if_neg (by decide), if_pos (by simp)]
    simp only [followDict, followRef, Option.bind_some, q1, q2, q3, q4, Option.map_some]
  | @lab wh b g _ hp =>
    simp only [ColorSpaceCall.prog, Option.some.injEq] at hp; subst hp
    have hmean : ColorSpaceMeans (.lab wh b g) w := arrayIs_of (.cons (denotes_name _) (.cons (dictIs_of (.cons ⟨rfl, denotes_reals _⟩
      ((given_implied _ _ _ (fun a => denotes_reals _) b).append (given_implied _ _ _ (fun a => denotes_reals _) g)))) .nil)) w hw
    obtain ⟨vs, rfl, _, _, rfl, rfl, _, _, rfl, ⟨d, rfl, he⟩, rfl⟩ := hmean
    obtain ⟨y1, q1, m1⟩ := required_head (k := b!"WhitePoint") (read := itemsOf) he (by cases b <;> cases g <;> rfl) (numArray_read _)
    obtain ⟨y2, q2, m2⟩ := optional_given (k := b!"BlackPoint") (read := itemsOf) (x := b) (R := fun (a : Xyz) v => Pairwise NumIs a.list v) he
      (by cases b <;> cases g <;> rfl) (fun a => numArray_read a.list)
    obtain ⟨y3, q3, m3⟩ := optional_given (k := b!"Range") (read := itemsOf) (x := g) (R := fun (a : Four) v => Pairwise NumIs a.list v) he
      (by cases b <;> cases g <;> rfl) (fun a => numArray_read a.list)
    refine ⟨_, _, _, rfl, ?_, .lab m1 (bothOrNone_map m2) (bothOrNone_map m3)⟩
    simp only [readFamily, ColorSpaceType.toName]
    rw [if_neg (by decide), if_neg (by decide), if_pos (by simp)]
    simp only [followDict, followRef, Option.bind_some, q1, q2, q3, Option.map_some]
  | @icc id calls n range profile _ hp hpr hno =>
    simp only [ColorSpaceCall.prog, Option.some.injEq] at hp; subst hp
    simp only [Denotes, DenotesItems, PrimDenotes] at hw
    obtain ⟨vs, rfl, _, _, rfl, rfl, _, _, rfl, rfl, rfl⟩ := hw
    obtain ⟨d, stored, y, q1, he, q2, q3, m3, q4⟩ := profile_read hf hpr
    have r1 : optionalEntry b!"Alternate" d rs = some none := optional_absent he (by rw [List.filter_append, noCall_filter hno]; rfl)
    refine ⟨_, _, _, rfl, ?_, .icc m3⟩
    simp only [readFamily, ColorSpaceType.toName]
    rw [if_neg (by decide), if_neg (by decide), if_neg (by decide), if_pos (by simp)]
    simp only [refNumber, Option.bind_some, q1, q2, r1, q3, q4, Option.map_some]
  | @iccOr id calls n q alternate range profile _ hp hpr hon hal =>
    simp only [ColorSpaceCall.prog, Option.some.injEq] at hp; subst hp
    simp only [Denotes, DenotesItems, PrimDenotes] at hw
    obtain ⟨vs, rfl, _, _, rfl, rfl, _, _, rfl, rfl, rfl⟩ := hw
    obtain ⟨d, stored, y, q1, he, q2, q3, m3, q4⟩ := profile_read hf hpr
    obtain ⟨a, r1, m1⟩ := optional_present (k := b!"Alternate") (read := rs) (Q := SameSpace alternate) he
      (by rw [List.filter_append, onlyCall_filter hon]; rfl) (hsp q alternate hal)
    refine ⟨_, _, _, rfl, ?_, .iccOr m1 m3⟩
    simp only [readFamily, ColorSpaceType.toName]
    rw [if_neg (by decide), if_neg (by decide), if_neg (by decide), if_pos (by simp)]
    simp only [refNumber, Option.bind_some, q1, q2, r1, q3, q4, Option.map_some]
  | @iccOrNamed id calls n name range profile _ hp hpr hon =>
    simp only [ColorSpaceCall.prog, Option.some.injEq] at hp; subst hp
    simp only [Denotes, DenotesItems, PrimDenotes] at hw
    obtain ⟨vs, rfl, _, _, rfl, rfl, _, _, rfl, rfl, rfl⟩ := hw
    obtain ⟨d, stored, y, q1, he, q2, q3, m3, q4⟩ := profile_read hf hpr
    obtain ⟨a, r1, m1⟩ := optional_present (k := b!"Alternate") (read := rs) (Q := SameSpace (.named name)) he
      (by rw [List.filter_append, onlyCall_filter hon]; rfl) (fun v hv => by simp only [IsName] at hv; subst hv; exact ⟨_, hnm name, .named⟩)
    refine ⟨_, _, _, rfl, ?_, .iccOr m1 m3⟩
    simp only [readFamily, ColorSpaceType.toName]
    rw [if_neg (by decide), if_neg (by decide), if_neg (by decide), if_pos (by simp)]
    simp only [refNumber, Option.bind_some, q1, q2, r1, q3, q4, Option.map_some]
  | @indexed base hival table _ hp =>
    simp only [ColorSpaceCall.prog, Option.some.injEq] at hp; subst hp
    simp only [Denotes, DenotesItems, PrimDenotes] at hw
    obtain ⟨vs, rfl, _, _, rfl, rfl, _, _, rfl, rfl, _, _, rfl, rfl, _, _, rfl, rfl, rfl⟩ := hw
    refine ⟨_, _, _, rfl, ?_, .indexed .named⟩
    simp only [readFamily, ColorSpaceType.toName]
    rw [if_neg (by decide), if_neg (by decide), if_neg (by decide), if_neg (by decide), if_pos (by simp)]
    simp only [hnm, Option.map_some]
  | @pattern base _ hp =>
    simp only [ColorSpaceCall.prog, Option.some.injEq] at hp; subst hp
    simp only [Denotes, DenotesItems, PrimDenotes] at hw
    obtain ⟨vs, rfl, _, _, rfl, rfl, _, _, rfl, rfl, rfl⟩ := hw
    refine ⟨_, _, _, rfl, ?_, .pattern .named⟩
    simp only [readFamily, ColorSpaceType.toName]
    rw [if_neg (by decide), if_neg (by decide), if_neg (by decide), if_neg (by decide), if_neg (by decide), if_pos (by simp)]
    simp only [hnm, Option.map_some]
  | @separation colorant a t alternate tint _ hp ha ht =>
    simp only [ColorSpaceCall.prog, separation_eq] at hp
    split at hp
    case isFalse => simp at hp
    simp only [Option.some.injEq] at hp
    subst hp
    simp only [List.map_cons, List.map_nil] at hw
    rw [Denotes.eq_def] at hw
    simp only [DenotesItems] at hw
    obtain ⟨vs, rfl, _, _, rfl, w1, _, _, rfl, w2, va, _, rfl, w3, vt, _, rfl, w4, rfl⟩ := hw
    rw [denotes_name _ _ w1, denotes_name _ _ w2]
    have h1 : ∃ r, rs va = some r ∧ SameSpace alternate r := by
      cases a with
      | alternateDevice d =>
        simp only [SeparationAlternate] at ha
        subst ha
        rw [denotes_name _ _ w3, device_name]
        exact ⟨_, hnm _, .named⟩
      | alternateColorSpace c => exact hsp _ _ ha va w3
      | alternateColorSpaceRef c => exact hsp _ _ ha va w3
      | _ => exact ha.elim
    have h2 : ∃ r, rf vt = some r ∧ SameFn tint r := by
      cases t with
      | tintExponential c => exact hfn _ _ ht vt w4
      | tintStitching c => exact hfn _ _ ht vt w4
      | tintRef c => exact hfn _ _ ht vt w4
      | _ => exact ht.elim
    obtain ⟨r1, q1, m1⟩ := h1
    obtain ⟨r2, q2, m2⟩ := h2
    refine ⟨_, _, _, rfl, ?_, .separation m1 m2⟩
    simp only [readFamily]
    rw [if_neg (by decide), if_neg (by decide), if_neg (by decide), if_neg (by decide), if_neg (by decide), if_neg (by decide), if_pos (by simp)]
    simp only [q1, q2, Option.bind_some, Option.map_some]
  | @deviceN colorants a t alternate tint _ attributes hp ha ht =>
    simp only [ColorSpaceCall.prog, deviceN_eq] at hp
    split at hp
    case isFalse => simp at hp
    simp only [Option.some.injEq] at hp
    subst hp
    simp only [List.map_cons] at hw
    rw [Denotes.eq_def] at hw
    simp only [DenotesItems] at hw
    obtain ⟨vs, rfl, _, _, rfl, w1, _, _, rfl, w2, va, _, rfl, w3, vt, rest, rfl, w4, w5⟩ := hw
    rw [denotes_name _ _ w1, denotes_names _ _ w2]
    have h1 : ∃ r, rs va = some r ∧ SameSpace alternate r := by
      cases a with
      | alternateDevice d =>
        simp only [DeviceNAlternate] at ha
        subst ha
        rw [denotes_name _ _ w3, device_name]
        exact ⟨_, hnm _, .named⟩
      | alternateColorSpace c => exact hsp _ _ ha va w3
      | alternateColorSpaceRef c => exact hsp _ _ ha va w3
      | _ => exact ha.elim
    have h2 : ∃ r, rf vt = some r ∧ SameFn tint r := by
      cases t with
      | tintExponential c => exact hfn _ _ ht vt w4
      | tintStitching c => exact hfn _ _ ht vt w4
      | tintRef c => exact hfn _ _ ht vt w4
      | _ => exact ht.elim
    obtain ⟨r1, q1, m1⟩ := h1
    obtain ⟨r2, q2, m2⟩ := h2
    cases attributes with
    | none =>
      simp only [Option.map_none, Option.toList_none, List.map_nil, DenotesItems] at w5
      subst w5
      refine ⟨_, _, _, rfl, ?_, .deviceN m1 m2 (x := none) (x' := none) trivial⟩
      simp only [readFamily]
      rw [if_neg (by decide), if_neg (by decide), if_neg (by decide), if_neg (by decide), if_neg (by decide), if_neg (by decide), if_neg (by decide),
        if_pos (by simp)]
      simp only [names_read, q1, q2, Option.bind_some, Option.map_some]
    | some ac =>
      simp only [Option.map_some, Option.toList_some, List.map_cons, List.map_nil, DenotesItems] at w5
      obtain ⟨vx, _, rfl, w6, rfl⟩ := w5
      have m3 : DictIs (ac.map AttrsMeans) vx := devnItem_implied (.attrs ac) vx w6
      refine ⟨_, _, _, rfl, ?_, .deviceN m1 m2 (x := some ac) (x' := some vx) m3⟩
      simp only [readFamily]
      rw [if_neg (by decide), if_neg (by decide), if_neg (by decide), if_neg (by decide), if_neg (by decide), if_neg (by decide), if_neg (by decide),
        if_pos (by simp)]
      simp only [names_read, q1, q2, Option.bind_some, Option.map_some]

theorem readSpace_name (n : Nat) (name : Bytes) : readSpace unf f bytes n (.name name) = some (.named name) := by
  rw [readSpace.eq_def]; rfl

theorem followRef_stored (hf : Finds f bytes items) {p q : Prog} (hs : Stored items p q) (hq : ∀ w, Denotes q w → followRef f bytes w = some w)
    {v : Val} (hv : Denotes p v) : ∃ w, followRef f bytes v = some w ∧ Denotes q w := by
  rcases hs with rfl | ⟨id, rfl, ho⟩
  · exact ⟨v, hq v hv, hv⟩
  · obtain ⟨w, h1, h2⟩ := finds_val hf ho
    rw [denotes_ref id v hv]
    exact ⟨w, by simp only [followRef, h1], h2⟩

theorem space_read (hf : Finds f bytes items) (depth : Nat) : ∀ (n : Nat), depth ≤ n → ∀ (p : Prog) (s : GivenSpace), SpaceWritten unf items depth p s →
    ∀ v, Denotes p v → ∃ r, readSpace unf f bytes n v = some r ∧ SameSpace s r := by
  induction depth with
  | zero =>
    intro n hn p s h v hv
    rw [SpaceWritten.eq_def] at h
    rcases h with ⟨name, hs, rfl⟩ | h
    · obtain ⟨w, h1, h2⟩ := followRef_stored hf hs (fun w hw => by rw [denotes_name _ _ hw]; rfl) hv
      rw [denotes_name _ _ h2] at h1
      exact ⟨_, by rw [readSpace.eq_def]; simp only [h1], .named⟩
    · exact h.elim
  | succ depth ih =>
    intro n hn p s h v hv
    rw [SpaceWritten.eq_def] at h
    rcases h with ⟨name, hs, rfl⟩ | ⟨q, hs, hg⟩
    · obtain ⟨w, h1, h2⟩ := followRef_stored hf hs (fun w hw => by rw [denotes_name _ _ hw]; rfl) hv
      rw [denotes_name _ _ h2] at h1
      exact ⟨_, by rw [readSpace.eq_def]; simp only [h1], .named⟩
    · obtain ⟨n, rfl⟩ : ∃ m, n = m + 1 := ⟨n - 1, by omega⟩
      obtain ⟨es, rfl⟩ := spaceGiven_array hg
      obtain ⟨w, h1, h2⟩ := followRef_stored hf hs (fun w hw => by simp only [Denotes] at hw; obtain ⟨vs, rfl, -⟩ := hw; rfl) hv
      obtain ⟨family, args, r, rfl, h3, h4⟩ := spaceGiven_read hf (ih n (by omega)) (readSpace_name n) (fn_read hf (depth + 1) (n + 1) hn) hg h2
      exact ⟨r, by rw [readSpace.eq_def]; simp only [h1, h3], h4⟩


/-! ## Shadings -/

theorem fnEntry_read (hf : Finds f bytes items) {α : Type} {means : α → List (Bytes × (Val → Prop))} {pre : List (Bytes × (Val → Prop))} {calls : List α}
    {wrap : Ref → α} {d : List (Bytes × Val)} {depth n : Nat} {id : Option Ref} {g : Option GivenFn} (hn : depth ≤ n)
    (he : EntriesAre (pre ++ calls.flatMap means) d) (hp : pre.filter (fun e => e.1 == b!"Function") = [])
    (hm : MaybeCall means b!"Function" calls id wrap) (hw : ∀ r, means (wrap r) = [(b!"Function", IsRef r)])
    (hb : BothOrNone (fun id g => FnWritten unf items depth (.prim (.ref id)) g) id g) :
    ∃ r, optionalEntry b!"Function" d (readFn unf f bytes n) = some r ∧ BothOrNone SameFn g r := by
  cases id with
  | none =>
    cases g with
    | none =>
      refine ⟨none, optional_absent he ?_, trivial⟩
      rw [List.filter_append, hp, noCall_filter hm]; rfl
    | some g => exact hb.elim
  | some id =>
    cases g with
    | none => exact hb.elim
    | some g =>
      obtain ⟨a, h1, h2⟩ := optional_present (k := b!"Function") (read := readFn unf f bytes n) (Q := SameFn g) he
        (by rw [List.filter_append, hp, onlyCall_filter (show OnlyCall means b!"Function" calls (wrap id) from hm), hw]; rfl)
        (fun v hv => fn_read hf depth n hn _ g hb v (by simp only [IsRef] at hv; subst hv; simp only [Denotes, PrimDenotes]))
      exact ⟨some a, h1, h2⟩

theorem box_read {α : Type} {means : α → List (Bytes × (Val → Prop))} {pre : List (Bytes × (Val → Prop))} {calls : List α} {wrap : Rect → α}
    {d : List (Bytes × Val)} {r : Option Rect} (he : EntriesAre (pre ++ calls.flatMap means) d) (hp : pre.filter (fun e => e.1 == b!"BBox") = [])
    (hm : MaybeCall means b!"BBox" calls r wrap) (hw : ∀ r, means (wrap r) = [(b!"BBox", IsRect r)]) :
    ∃ y, optionalEntry b!"BBox" d itemsOf = some y ∧ BothOrNone (Pairwise NumIs) (r.map fun r => [r.x1, r.y1, r.x2, r.y2]) y := by
  obtain ⟨y, h1, h2⟩ := optional_call (read := itemsOf) (R := fun (r : Rect) v => Pairwise NumIs [r.x1, r.y1, r.x2, r.y2] v) (P := IsRect) he hp hm
    (fun b _ => by rw [hw]; rfl) (fun b _ => rect_read b)
  exact ⟨y, h1, bothOrNone_map h2⟩

theorem shadeSet_read (hf : Finds f bytes items) {depth n : Nat} (hn : depth ≤ n) {calls : List FunctionShadingCall} {s : GivenShade}
    (h : ShadeSet unf items depth calls s) {v : Val} {d : List (Bytes × Val)} {o : Option Nat} (hl : loadObject f bytes v = some (d, o))
    (he : EntriesAre (FunctionShadingEntries calls) d) : ∃ r, readShade unf f bytes n v = some r ∧ SameShade s r := by
  obtain ⟨⟨k, hk, h1⟩, ⟨q, h2, h2'⟩, h3, ⟨rc, hrc, h4⟩, h5, h6, h7, h8, h9, ⟨id, h10, h10'⟩, h11⟩ := h
  have he : EntriesAre ([] ++ calls.flatMap FunctionShadingMeans) d := he
  have r1 := required_eq (read := intOf) _ (isoFunctionShadingType k) he rfl h1 rfl (int_read _)
  obtain ⟨sp, r2, m2⟩ := required_call (read := readSpace unf f bytes n) he rfl h2 rfl (space_read hf depth n hn q s.space h2')
  obtain ⟨bg, r3, m3⟩ := optional_call (read := itemsOf) (R := Pairwise NumIs) he rfl h3 (fun _ _ => rfl) (fun b _ => numbers_read b)
  obtain ⟨bx, r4, m4⟩ := box_read he rfl h4 (fun _ => rfl)
  have r5 := optional_eq (read := truthOf) IsBool (fun x => x) he rfl h5 (fun _ => rfl) bool_read
  obtain ⟨dm, r6, m6⟩ := optional_call (read := itemsOf) (R := Pairwise NumIs) he rfl h6 (fun _ _ => rfl) (fun b _ => numbers_read b)
  obtain ⟨mx, r7, m7⟩ := optional_call (read := itemsOf) (R := Pairwise NumIs) he rfl h7 (fun _ _ => rfl) (fun b _ => numbers_read b)
  obtain ⟨co, r8, m8⟩ := optional_call (read := itemsOf) (R := Pairwise NumIs) he rfl h8 (fun _ _ => rfl) (fun b _ => numbers_read b)
  have r9 := optional_eq (read := truths) (fun x => ArrayIs (x.map fun x => IsBool x)) (fun x => x) he rfl h9 (fun _ => rfl) truths_read
  obtain ⟨fu, r10, m10⟩ := fnEntry_read hf hn he rfl h10 (fun _ => rfl) h10'
  refine ⟨⟨isoFunctionShadingType k, sp, bg, bx, s.antiAlias, dm, mx, co, s.extend, fu, none⟩, ?_,
    ⟨hk.symm, m2, m3, hrc ▸ m4, rfl, m6, m7, m8, rfl, m10, by rw [h11]; trivial⟩⟩
  simp only [Option.map_id', Option.map_id] at r5 r9
  simp only [readShade, hl, Option.bind_some, r1, r2, r3, r4, r5, r6, r7, r8, r9, r10]
  rw [if_pos (by cases k <;> decide)]

theorem meshSet_read (hf : Finds f bytes items) {depth n : Nat} (hn : depth ≤ n) {id : Ref} {calls : List StreamShadingCall} {stored : Bytes}
    {s : GivenShade} {m : Mesh F32} (ho : HasObject items id (.stream (StreamShading.entries calls) stored))
    (h : MeshSet unf items depth calls stored s m) : ∃ r, readShade unf f bytes n (.ref id.get.toNat 0) = some r ∧ SameShade s r := by
  obtain ⟨⟨k, hk, h1⟩, ⟨q, h2, h2'⟩, h3, ⟨rc, hrc, h4⟩, h5, ⟨g1, g2, g3, g4, h6, h7, h8, h9⟩, ⟨fid, h10, h10'⟩, h11, h12, h13, h14, h15, h16, h17⟩ := h
  obtain ⟨d, q1, q2, he, q3⟩ := loadObject_stream (pre := []) hf ho (streamShading_implied calls) (fun _ => rfl) rfl h17
  have r1 := required_eq (read := intOf) _ (isoStreamShadingType k) he rfl h1 rfl (int_read _)
  obtain ⟨sp, r2, m2⟩ := required_call (read := readSpace unf f bytes n) he rfl h2 rfl (space_read hf depth n hn q s.space h2')
  obtain ⟨bg, r3, m3⟩ := optional_call (read := itemsOf) (R := Pairwise NumIs) he rfl h3 (fun _ _ => rfl) (fun b _ => numbers_read b)
  obtain ⟨bx, r4, m4⟩ := box_read he rfl h4 (fun _ => rfl)
  have r5 := optional_eq (read := truthOf) IsBool (fun x => x) he rfl h5 (fun _ => rfl) bool_read
  have r6 : optionalEntry b!"Domain" d itemsOf = some none := optional_absent he (by rw [List.filter_append, noCall_filter h6]; rfl)
  have r7 : optionalEntry b!"Matrix" d itemsOf = some none := optional_absent he (by rw [List.filter_append, noCall_filter h7]; rfl)
  have r8 : optionalEntry b!"Coords" d itemsOf = some none := optional_absent he (by rw [List.filter_append, noCall_filter h8]; rfl)
  have r9 : optionalEntry b!"Extend" d truths = some none := optional_absent he (by rw [List.filter_append, noCall_filter h9]; rfl)
  obtain ⟨fu, r10, m10⟩ := fnEntry_read hf hn he rfl h10 (fun _ => rfl) h10'
  have r12 := required_eq (read := intOf) _ m.coordinateBits he rfl h12 rfl (int_read _)
  have r13 := required_eq (read := intOf) _ m.componentBits he rfl h13 rfl (int_read _)
  have r14 := optional_eq (read := intOf) IsInt (fun x => x) he rfl h14 (fun _ => rfl) int_read
  obtain ⟨de, r15, m15⟩ := required_call (read := itemsOf) he rfl h15 rfl (numbers_read m.decode)
  have r16 := optional_eq (read := intOf) IsInt (fun x => x) he rfl h16 (fun _ => rfl) int_read
  refine ⟨⟨isoStreamShadingType k, sp, bg, bx, s.antiAlias, none, none, none, none, fu, some ⟨m.coordinateBits, m.componentBits, m.flagBits, de, m.perRow, m.data⟩⟩, ?_,
    ⟨hk.symm, m2, m3, hrc ▸ m4, rfl, by rw [g1]; trivial, by rw [g2]; trivial, by rw [g3]; trivial, g4.symm, m10, ?_⟩⟩
  · simp only [Option.map_id', Option.map_id] at r5 r14 r16
    simp only [readShade, q2, Option.bind_some, r1, r2, r3, r4, r5, r6, r7, r8, r9, r10]
    rw [if_neg (by cases k <;> decide)]
    simp only [readMesh, r12, r13, r14, r15, r16, q3, Option.bind_some, Option.map_some]
  · rw [h11]
    exact ⟨⟨rfl, rfl, rfl, rfl⟩, m15, rfl⟩

theorem shade_read (hf : Finds f bytes items) {depth n : Nat} (hn : depth ≤ n) (p : Prog) (s : GivenShade) (h : ShadeWritten unf items depth p s)
    (v : Val) (hv : Denotes p v) : ∃ r, readShade unf f bytes n v = some r ∧ SameShade s r := by
  rcases h with ⟨calls, hs, h⟩ | ⟨id, calls, stored, m, rfl, ho, h⟩
  · obtain ⟨d, q1, q2⟩ := loadObject_stored hf hs hv
    exact shadeSet_read hf hn h q1 (entriesAre_of (functionShading_implied calls) q2)
  · rw [denotes_ref id v hv]
    exact meshSet_read hf hn ho h

/-! ## Patterns -/

theorem pat_read (hf : Finds f bytes items) {depth n forms m : Nat} (hn : depth ≤ n) (hm : forms ≤ m) (p : Prog) (g : GivenPat)
    (h : PatWritten unf items depth forms p g) (v : Val) (hv : Denotes p v) : ∃ r, readPat unf f bytes n m v = some r ∧ SamePat g r := by
  cases h with
  | @shading _ calls q shade matrix state hs h1 h2 h3 h4 =>
    obtain ⟨d, q1, q2⟩ := loadObject_stored hf hs hv
    have he : EntriesAre ([(b!"Type", IsName b!"Pattern"), (b!"PatternType", IsInt 2)] ++ calls.flatMap (ShadingPatternMeans .code)) d :=
      entriesAre_of (shadingPattern_implied .code calls (Or.inl rfl)) q2
    have r1 := required_pre (read := intOf) (IsInt 2) 2 he rfl h1 (int_read 2)
    obtain ⟨mx, r3, m3⟩ := optional_call (read := itemsOf) (R := Pairwise NumIs) he rfl h3 (fun _ _ => rfl) (fun b _ => numbers_read b)
    obtain ⟨gs, r4, m4⟩ := optional_call (read := some) (R := IsExtGraphicsState .code) (P := IsExtGraphicsState .code) he rfl h4 (fun _ _ => rfl)
      (fun b _ v hv => ⟨v, rfl, hv⟩)
    have r2 : ∃ r, requiredEntry b!"Shading" d (readShade unf f bytes n) = some r ∧ SameShade shade r := by
      rcases h2 with ⟨h2, h2'⟩ | ⟨cs, h2, h2'⟩
      · exact required_call he rfl h2 rfl (fun v hv => shade_read hf hn _ shade h2' v (by simp only [IsRef] at hv; subst hv; simp only [Denotes, PrimDenotes]))
      · exact required_call he rfl h2 rfl (fun v hv => by obtain ⟨d, rfl, hd⟩ := hv; exact shadeSet_read hf hn h2' rfl hd)
    obtain ⟨sh, r2, m2⟩ := r2
    refine ⟨_, ?_, .shading m2 m3 m4⟩
    simp only [readPat, q1, Option.bind_some, r1, r3]
    rw [if_neg (by decide), if_pos (by simp)]
    simp only [r2, r4, Option.bind_some, Option.map_some]
  | @tiling paint tiling box xStep yStep matrix res tile t hw h1 h2 h3 h4 h5 h6 hset hd =>
    rw [denotes_ref t.id v hv]
    obtain ⟨ho, hty, ⟨content, hrun, hst⟩, hok, hclash⟩ := hw
    obtain ⟨d, q1, q2, he, q3⟩ := loadObject_stream hf ho (tilingPattern_implied t.calls) (fun _ => rfl) rfl hst
    obtain ⟨rv', hrv, hres⟩ := resourcesSet_reads hf (fun _ => rfl) (fun _ _ => rfl) hset he
      (by simp only [List.filter_append]; rfl) (rv := none) rfl
    obtain ⟨l1, c1⟩ := part_reads t.content t.pretty content hrun hok hclash
    have hops : readContent content.finish.inner = some (callOps t.content) := by
      refine readContent_of (m := t.content.length + 1) (by omega) ?_
      have := c1 [] [] 1 rfl readsOps_nil
      simpa using this
    have r0 := required_pre (read := intOf) (IsInt 1) 1 he rfl hty (int_read 1)
    have r1 := required_eq (read := intOf) _ (isoPaintType paint) he rfl h1 rfl (int_read _)
    have r2 := required_eq (read := intOf) _ (isoTilingType tiling) he rfl h2 rfl (int_read _)
    obtain ⟨bx, r3, m3⟩ := required_call (read := itemsOf) he rfl h3 rfl (rect_read box)
    obtain ⟨xs, r4, m4⟩ := required_call (read := numberOf) he rfl h4 rfl (numberOf_read xStep)
    obtain ⟨ys, r5, m5⟩ := required_call (read := numberOf) he rfl h5 rfl (numberOf_read yStep)
    obtain ⟨mx, r6, m6⟩ := optional_call (read := itemsOf) (R := Pairwise NumIs) he rfl h6 (fun _ _ => rfl) (fun b _ => numbers_read b)
    have hmt : Pairwise (Pairwise NumIs) matrix.toList mx.toList := by
      cases matrix <;> cases mx <;> first | exact .nil | exact m6.elim | exact .cons m6 .nil
    have hini : SameState NumIs Denotes (initial fun n => .prim (.name n)) (initial Val.name) :=
      ⟨.nil, .nil, ⟨rfl, .nil, trivial⟩, ⟨rfl, .nil, trivial⟩, .nil⟩
    have hin := inside_same hmt m3 hini
    obtain ⟨fas, fes, p1, p2, p3⟩ := displays_read hf forms m hm res rv' hres _ _ hin t.content tile hd (callOps t.content) (allMean_callOps _ hok)
    refine ⟨_, ?_, .tiling m3 m4 m5 m6 p3⟩
    simp only [readPat, q2, Option.bind_some, r0, r6]
    rw [if_pos (by simp)]
    simp only [r1, r2, r3, r4, r5, hrv, q3, hops, p1, p2, Option.bind_some, Option.map_some]

/-! ## Pages -/

theorem categoryDict_read {α γ : Type} {written : Prog → γ → Prop} {read : Val → Option α} {Q : γ → α → Prop}
    (hr : ∀ p x, written p x → ∀ v, Denotes p v → ∃ r, read v = some r ∧ Q x r) (es : List (Bytes × Prog)) (xs : List (Bytes × γ))
    (h : Pairwise (fun e x => e.1 = x.1 ∧ written e.2 x.2) es xs) (d : List (Bytes × Val)) (hd : DenotesEntries es d) :
    ∃ rs, readEach (fun e => (read e.2).map fun x => (e.1, x)) d = some rs ∧ Pairwise (fun a b => b.1 = a.1 ∧ Q a.2 b.2) xs rs := by
  induction h generalizing d with
  | nil => simp only [DenotesEntries] at hd; subst hd; exact ⟨[], rfl, .nil⟩
  | @cons e g es gs h1 _ ih =>
    obtain ⟨key, x⟩ := e
    simp only [DenotesEntries] at hd
    obtain ⟨w, ws, rfl, hv, hd⟩ := hd
    obtain ⟨hk, hw⟩ := h1
    obtain ⟨r, q1, q2⟩ := hr x g.2 hw w hv
    obtain ⟨rs, q3, q4⟩ := ih ws hd
    exact ⟨(key, r) :: rs, by simp only [readEach, q1, Option.map_some, Option.bind_some, q3], .cons ⟨hk, q2⟩ q4⟩

theorem category_read (hf : Finds f bytes items) {α γ : Type} {rc : List ResourcesCall} {key : Bytes} {method : List (Bytes × Prog) → ResourcesCall}
    {written : Prog → γ → Prop} {xs : List (Bytes × γ)} (hi : ∀ es, ResourcesMeans (method es) = [(key, DictIs (es.map fun e => (e.1, Denotes e.2)))])
    (h : CategoryGiven items rc key method written xs) {d : List (Bytes × Val)} (hd : EntriesAre (ResourcesEntries rc) d) {read : Val → Option α}
    {Q : γ → α → Prop} (hr : ∀ p x, written p x → ∀ v, Denotes p v → ∃ r, read v = some r ∧ Q x r) :
    ∃ rs, readCategory f bytes d key read = some rs ∧ Pairwise (fun a b => b.1 = a.1 ∧ Q a.2 b.2) xs rs := by
  rcases h with ⟨hn, rfl⟩ | ⟨es, hc, hp⟩
  · refine ⟨[], ?_, .nil⟩
    simp only [readCategory]
    rw [optional_absent hd (by simp only [ResourcesEntries, noCall_filter hn])]
    rfl
  · obtain ⟨v, fd, l1, l2, l3⟩ := categorySet_reads hf (hi es) hc hd
    obtain ⟨rs, q1, q2⟩ := categoryDict_read hr es xs hp fd l3
    refine ⟨rs, ?_, q2⟩
    have hpres : (d.all fun e => e.1 != key) = false := by
      rw [List.all_eq_false]
      rcases hc with ho | ⟨i, ho, hob⟩
      · exact List.all_eq_false.mp (present_of hd (P := DictIs (es.map fun e => (e.1, Denotes e.2)))
          (by simp only [ResourcesEntries, onlyCall_filter ho, hi]; simp))
      · exact List.all_eq_false.mp (present_of hd (P := Denotes (.prim (.ref i)))
          (by simp only [ResourcesEntries, onlyCall_filter ho]; simp [ResourcesMeans]))
    simp only [readCategory, optionalEntry, hpres, l1, Option.bind_some, l2, q1, Option.map_some]
    rfl

theorem pageColors_read (hf : Finds f bytes items) {depth n forms m : Nat} (hn : depth ≤ n) (hm : forms ≤ m) (id : Ref) (res : Option (List ResourcesCall))
    (calls : List ContentCall) (x : GivenColors) (rv : Option Val) (d : List (Bytes × Val)) (ops : List ReadOp)
    (hx : ColorsSet unf items depth forms res x) (hr : ResRead f bytes res rv) (hops : pageOperations unf f bytes d = some ops)
    (hmm : AllMean calls ops) : ∃ y, readPageColors unf f bytes n m id.get.toNat rv d = some y ∧ ColorsRead x y := by
  cases res with
  | none =>
    simp only [ResRead] at hr
    simp only [ColorsSet] at hx
    subst hr hx
    exact ⟨⟨[], [], []⟩, rfl, ⟨.nil, .nil, .nil⟩⟩
  | some rc =>
    obtain ⟨w, rd, rfl, h1, h2⟩ := hr
    simp only [ColorsSet] at hx
    obtain ⟨hx1, hx2, hx3⟩ := hx
    obtain ⟨r1, q1, m1⟩ := category_read hf (fun _ => rfl) hx1 h2 (space_read hf depth n hn)
    obtain ⟨r2, q2, m2⟩ := category_read hf (fun _ => rfl) hx2 h2 (shade_read hf hn)
    obtain ⟨r3, q3, m3⟩ := category_read hf (fun _ => rfl) hx3 h2 (pat_read hf hn hm)
    exact ⟨⟨r1, r2, r3⟩, by simp only [readPageColors, h1, Option.bind_some, q1, q2, q3, Option.map_some], ⟨m1, m2, m3⟩⟩

end PdfW
