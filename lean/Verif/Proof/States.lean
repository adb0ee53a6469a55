import Verif.Spec.States
import Verif.Proof.Colors
import Verif.Proof.Geometry

set_option linter.unusedSimpArgs false
set_option linter.unusedVariables false

/-! # Graphics state parameters: proofs -/

namespace PdfW
open Spec Imaging

variable {unf : Val → Bytes → Option Bytes} {f : FileEnd} {bytes : Bytes} {items : List Item}

theorem dash_read (p : List F32 × F32) (v : Val) (h : ArrayIs [ArrayIs (p.1.map fun x => NumIs x), NumIs p.2] v) :
    ∃ y, dashOf v = some y ∧ Pairwise NumIs p.1 y.1 ∧ NumIs p.2 y.2 := by
  obtain ⟨vs, rfl, a, l, rfl, ⟨ws, rfl, hws⟩, b, l', rfl, hb, h⟩ := h
  simp only [ItemsAre] at h
  subst h
  exact ⟨(ws, b), rfl, itemsAre_pairwise _ _ hws, hb⟩

theorem lines_read {calls : List ExtGraphicsStateCall} {x : Lines F32} (h : LinesSet calls x) {d : List (Bytes × Val)}
    (he : EntriesAre ([(b!"Type", IsName b!"ExtGState")] ++ calls.flatMap (ExtGraphicsStateMeans .code)) d) : ∃ r, readLines d = some r ∧ SameLines x r := by
  obtain ⟨h1, ⟨c, hc, h2⟩, ⟨j, hj, h3⟩, h4, h5⟩ := h
  obtain ⟨y1, r1, m1⟩ := optional_call (read := numberOf) (R := NumIs) (P := NumIs) he (by decide) h1 (fun _ _ => rfl) (fun b _ v hv => numberOf_read b v hv)
  have r2 := optional_eq (read := intOf) (fun b => IsInt (isoLineCapStyle b)) isoLineCapStyle he (by decide) h2 (fun _ => rfl) (fun b => int_read _)
  have r3 := optional_eq (read := intOf) (fun b => IsInt (isoLineJoinStyle b)) isoLineJoinStyle he (by decide) h3 (fun _ => rfl) (fun b => int_read _)
  obtain ⟨y4, r4, m4⟩ := optional_call (read := numberOf) (R := NumIs) (P := NumIs) he (by decide) h4 (fun _ _ => rfl) (fun b _ v hv => numberOf_read b v hv)
  obtain ⟨y5, r5, m5⟩ := optional_call (read := dashOf) (R := fun (a : List F32 × F32) (b : List Val × Val) => Pairwise NumIs a.1 b.1 ∧ NumIs a.2 b.2) he
    (by decide) h5 (fun _ _ => rfl) (fun b _ => dash_read b)
  exact ⟨⟨y1, c.map isoLineCapStyle, j.map isoLineJoinStyle, y4, y5⟩, by simp only [readLines, r1, r2, r3, r4, r5, Option.bind_some, Option.map_some],
    ⟨m1, hc.symm, hj.symm, m4, m5⟩⟩

theorem device_read {calls : List ExtGraphicsStateCall} {old new : Bytes} {byRef : Ref → ExtGraphicsStateCall} {byDefault : ExtGraphicsStateCall}
    {depth n : Nat} (hf : Finds f bytes items) (hn : depth ≤ n) {x : Option (Device GivenFn)}
    (h : DeviceSet unf items depth calls old new byRef byDefault x) {d : List (Bytes × Val)}
    (he : EntriesAre ([(b!"Type", IsName b!"ExtGState")] ++ calls.flatMap (ExtGraphicsStateMeans .code)) d)
    (ho : [(b!"Type", IsName b!"ExtGState")].filter (fun e => e.1 == old) = []) (hw : [(b!"Type", IsName b!"ExtGState")].filter (fun e => e.1 == new) = [])
    (hr : ∀ r, (ExtGraphicsStateMeans .code (byRef r)).filter (fun e => e.1 == old) = [(old, IsRef r)])
    (hd : (ExtGraphicsStateMeans .code byDefault).filter (fun e => e.1 == new) = [(new, IsName b!"Default")]) :
    ∃ r, readDevice old new d (readFn unf f bytes n) = some r ∧ BothOrNone (SameDevice SameFn) x r := by
  cases h with
  | none h1 h2 =>
    refine ⟨none, ?_, trivial⟩
    rw [readDevice, optional_absent he (by rw [List.filter_append, hw, noCall_filter h2]; rfl)]
    exact optional_absent he (by rw [List.filter_append, ho, noCall_filter h1]; rfl)
  | default h1 =>
    obtain ⟨a, q1, q2⟩ := optional_present (k := new) (read := readDefault (readFn unf f bytes n)) (Q := fun a => a = .default) he
      (by rw [List.filter_append, hw, onlyCall_filter h1, hd]; rfl)
      (fun v hv => ⟨_, by simp only [IsName] at hv; subst hv; simp only [readDefault, nameOf, if_true], rfl⟩)
    subst q2
    exact ⟨some .default, by rw [readDevice, q1]; rfl, .default⟩
  | @function id g h1 h2 h3 =>
    obtain ⟨a, q1, q2⟩ := optional_present (k := old) (read := fun v => (readFn unf f bytes n v).map Device.function)
      (Q := SameDevice SameFn (.function g)) he (by rw [List.filter_append, ho, onlyCall_filter h2, hr]; rfl)
      (fun v hv => by
        obtain ⟨r, q1, q2⟩ := fn_read hf depth n hn _ g h3 v (by simp only [IsRef] at hv; subst hv; simp only [Denotes, PrimDenotes])
        exact ⟨_, by rw [q1]; rfl, .function q2⟩)
    refine ⟨some a, ?_, q2⟩
    rw [readDevice, optional_absent he (by rw [List.filter_append, hw, noCall_filter h1]; rfl)]
    exact q1

theorem rendering_read (hf : Finds f bytes items) {depth n : Nat} (hn : depth ≤ n) {calls : List ExtGraphicsStateCall} {x : Rendering F32 GivenFn}
    (h : RenderingSet unf items depth calls x) {d : List (Bytes × Val)}
    (he : EntriesAre ([(b!"Type", IsName b!"ExtGState")] ++ calls.flatMap (ExtGraphicsStateMeans .code)) d) :
    ∃ r, readRendering (readFn unf f bytes n) d = some r ∧ SameRendering x r := by
  obtain ⟨⟨i, hi, h1⟩, h2, h3, ⟨o, ho, h4⟩, h5, h6, h7, ⟨t, ht, h8⟩, h9, h10, h11⟩ := h
  have r1 := optional_eq (read := nameOf) (fun b => IsName (isoRenderingIntent b)) isoRenderingIntent he (by decide) h1 (fun _ => rfl) (fun b => isName_nameOf _)
  have r2 := optional_eq (read := truthOf) IsBool (fun x => x) he (by decide) h2 (fun _ => rfl) bool_read
  have r3 := optional_eq (read := truthOf) IsBool (fun x => x) he (by decide) h3 (fun _ => rfl) bool_read
  have r4 := optional_eq (read := intOf) (fun b => IsInt (isoOverprintMode b)) isoOverprintMode he (by decide) h4 (fun _ => rfl) (fun b => int_read _)
  obtain ⟨y5, r5, m5⟩ := device_read hf hn h5 he (by decide) (by decide) (fun _ => rfl) rfl
  obtain ⟨y6, r6, m6⟩ := device_read hf hn h6 he (by decide) (by decide) (fun _ => rfl) rfl
  obtain ⟨y7, r7, m7⟩ := device_read hf hn h7 he (by decide) (by decide) (fun _ => rfl) rfl
  have r8 := optional_eq (read := readDefault refNumber) (fun b : Option Ref => match b with | none => IsName b!"Default" | some r => IsRef r) halftoneIs he
    (by decide) h8 (fun b => by cases b <;> rfl) (fun b v hv => by
      cases b with
      | none => simp only [IsName] at hv; subst hv; simp only [readDefault, nameOf, if_true, halftoneIs]
      | some r => simp only [IsRef] at hv; subst hv; simp [readDefault, nameOf, halftoneIs, refNumber])
  obtain ⟨y9, r9, m9⟩ := optional_call (read := numberOf) (R := NumIs) (P := NumIs) he (by decide) h9 (fun _ _ => rfl) (fun b _ v hv => numberOf_read b v hv)
  obtain ⟨y10, r10, m10⟩ := optional_call (read := numberOf) (R := NumIs) (P := NumIs) he (by decide) h10 (fun _ _ => rfl) (fun b _ v hv => numberOf_read b v hv)
  have r11 := optional_eq (read := truthOf) IsBool (fun x => x) he (by decide) h11 (fun _ => rfl) bool_read
  simp only [Option.map_id_fun', id] at r2 r3 r11
  exact ⟨⟨i.map isoRenderingIntent, x.overprintStroke, x.overprintFill, o.map isoOverprintMode, y5, y6, y7, t.map halftoneIs, y9, y10, x.adjust⟩,
    by simp only [readRendering, r1, r2, r3, r4, r5, r6, r7, r8, r9, r10, r11, Option.bind_some, Option.map_some],
    ⟨hi.symm, ⟨rfl, rfl, ho.symm⟩, m5, m6, m7, ht.symm, m9, m10, rfl⟩⟩

theorem optional_both {α β γ δ : Type} {means : α → List (Bytes × (Val → Prop))} {pre : List (Bytes × (Val → Prop))} {calls : List α}
    {d : List (Bytes × Val)} {k : Bytes} {x : Option β} {y : Option δ} {c : β → α} {read : Val → Option γ} {P : β → Val → Prop} {R : δ → γ → Prop}
    {W : β → δ → Prop} (he : EntriesAre (pre ++ calls.flatMap means) d) (hp : pre.filter (fun e => e.1 == k) = [])
    (hx : MaybeCall means k calls x c) (hb : BothOrNone W x y) (hc : ∀ b g, W b g → (means (c b)).filter (fun e => e.1 == k) = [(k, P b)])
    (hr : ∀ b g, W b g → ∀ v, P b v → ∃ a, read v = some a ∧ R g a) : ∃ z, optionalEntry k d read = some z ∧ BothOrNone R y z := by
  cases x with
  | none =>
    cases y with
    | none => exact ⟨none, optional_absent he (by rw [List.filter_append, hp, noCall_filter hx]; rfl), trivial⟩
    | some y => exact hb.elim
  | some b =>
    cases y with
    | none => exact hb.elim
    | some y =>
      obtain ⟨a, h1, h2⟩ := optional_present (k := k) (read := read) (Q := R y) he
        (by rw [List.filter_append, hp, onlyCall_filter (show OnlyCall means k calls (c b) from hx), hc b y hb]; rfl) (hr b y hb)
      exact ⟨some a, h1, h2⟩

theorem denotes_isRef {id : Ref} {v : Val} (hv : IsRef id v) : Denotes (.prim (.ref id)) v := by
  simp only [IsRef] at hv; subst hv; simp only [Denotes, PrimDenotes]

theorem attrs_read (hf : Finds f bytes items) {depth n : Nat} (hn : depth ≤ n) {calls : List GroupCall} {x : Attrs GivenSpace}
    (h : AttrsSet unf items depth calls x) (v : Val) (hv : IsGroup calls v) :
    ∃ r, readAttrs f bytes (readSpace unf f bytes n) v = some r ∧ SameAttrs x r := by
  obtain ⟨d, rfl, he⟩ := hv
  obtain ⟨h1, ⟨p, h2, h2'⟩, ⟨b3, e3, h3⟩, ⟨b4, e4, h4⟩⟩ := h
  have he : EntriesAre ([(b!"Type", IsName b!"Group")] ++ calls.flatMap GroupMeans) d := he
  have r1 : optionalEntry b!"S" d nameOf = some x.kind := by
    rcases h1 with ⟨hk, h1⟩ | ⟨hk, h1⟩
    · rw [hk]; exact optional_absent he (by rw [List.filter_append, noCall_filter h1]; rfl)
    · obtain ⟨a, q1, q2⟩ := optional_present (k := b!"S") (read := nameOf) (Q := fun a => a = b!"Transparency") he
        (by rw [List.filter_append, onlyCall_filter h1]; rfl) (fun v hv => ⟨_, isName_nameOf _ v hv, rfl⟩)
      rw [hk, q1, q2]
  obtain ⟨y2, r2, m2⟩ := optional_both (read := readSpace unf f bytes n) (R := SameSpace) (P := Denotes) he (by decide) h2 h2' (fun _ _ _ => rfl)
    (fun b g hw v hv => space_read hf depth n hn b g hw v hv)
  have r3 := optional_eq (read := truthOf) IsBool (fun x => x) he (by decide) h3 (fun _ => rfl) bool_read
  have r4 := optional_eq (read := truthOf) IsBool (fun x => x) he (by decide) h4 (fun _ => rfl) bool_read
  simp only [Option.map_id_fun', id] at r3 r4
  exact ⟨⟨x.kind, y2, b3.getD false, b4.getD false⟩, by simp only [readAttrs, followDict, followRef, r1, r2, r3, r4, Option.bind_some, Option.map_some],
    ⟨rfl, m2, e3.symm, e4.symm⟩⟩

theorem src_read (hf : Finds f bytes items) {depth n forms m : Nat} (hn : depth ≤ n) (hm : forms ≤ m) {form : FormPart}
    {x : Source GivenSpace (Element F32 Prog)} (h : SourceSet unf items depth forms form x) (v : Val) (hv : IsRef form.id v) :
    ∃ r, readSource unf f bytes m (readSpace unf f bytes n) v = some r ∧ SameSource x r := by
  obtain ⟨h1, ⟨calls, h2, h2'⟩, h3⟩ := h
  simp only [IsRef] at hv
  subst hv
  obtain ⟨es, q1, q2⟩ := appearance_read hf forms m hm ⟨form, x.elements⟩ h3
  obtain ⟨d, g1, g2⟩ := finds_stream hf h3.1.object
  have he := entriesAre_of (formXObject_implied form.calls) g2
  have he : EntriesAre ([(b!"Type", IsName b!"XObject"), (b!"Subtype", IsName b!"Form")] ++ form.calls.flatMap FormXObjectMeans) d := he
  obtain ⟨y, r1, m1⟩ := optional_both (read := readAttrs f bytes (readSpace unf f bytes n)) (R := SameAttrs) (P := IsGroup) he (by decide) h2 h2' (fun _ _ _ => rfl)
    (fun b g hw v hv => attrs_read hf hn hw v hv)
  refine ⟨⟨form.id.get.toNat, y, es⟩, ?_, ⟨h1.symm, m1, q2⟩⟩
  simp only [readSource, loadObject, g1, Option.bind_some]
  rw [optional_cons (by decide), r1]
  simp only [q1, Option.bind_some, Option.map_some]

theorem soft_read (hf : Finds f bytes items) {depth n forms m : Nat} (hn : depth ≤ n) (hm : forms ≤ m) {c : ExtGraphicsStateCall}
    {x : Soft F32 GivenFn GivenSpace (Element F32 Prog)} (h : SoftSet unf items depth forms c x) :
    ∃ P, (ExtGraphicsStateMeans .code c).filter (fun e => e.1 == b!"SMask") = [(b!"SMask", P)] ∧
      ∀ v, P v → ∃ r, readSoft unf f bytes m (readFn unf f bytes n) (readSpace unf f bytes n) v = some r ∧ SameSoft x r := by
  cases h with
  | @named k =>
    exact ⟨IsName k, rfl, fun v hv => by simp only [IsName] at hv; subst hv; exact ⟨_, rfl, .named⟩⟩
  | @mask calls kind form group backdrop transfer fn h1 h2 h3 h4 h5 h6 =>
    refine ⟨IsSoftMask calls, rfl, ?_⟩
    rintro v ⟨d, rfl, he⟩
    have he : EntriesAre ([(b!"Type", IsName b!"Mask")] ++ calls.flatMap SoftMaskMeans) d := he
    have r1 := required_eq (read := nameOf) _ (isoMaskType kind) he (by decide) h1 rfl (isName_nameOf _)
    obtain ⟨y2, r2, m2⟩ := required_call (read := readSource unf f bytes m (readSpace unf f bytes n)) he (by decide) h2 rfl (src_read hf hn hm h3)
    obtain ⟨y3, r3, m3⟩ := optional_call (read := itemsOf) (R := Pairwise NumIs) he (by decide) h4 (fun _ _ => rfl) (fun b _ => numbers_read b)
    obtain ⟨y4, r4, m4⟩ := optional_both (read := readFn unf f bytes n) (R := SameFn) (P := IsRef) he (by decide) h5 h6 (fun _ _ _ => rfl)
      (fun b g hw v hv => fn_read hf depth n hn _ g hw v (denotes_isRef hv))
    exact ⟨_, by simp only [readSoft, followDict, followRef, r1, r2, r3, r4, Option.bind_some, Option.map_some], .mask m2 m3 m4⟩

theorem blending_read (hf : Finds f bytes items) {depth n forms m : Nat} (hn : depth ≤ n) (hm : forms ≤ m) {calls : List ExtGraphicsStateCall}
    {x : Blending F32 GivenFn GivenSpace (Element F32 Prog)} (h : BlendingSet unf items depth forms calls x) {d : List (Bytes × Val)}
    (he : EntriesAre ([(b!"Type", IsName b!"ExtGState")] ++ calls.flatMap (ExtGraphicsStateMeans .code)) d) :
    ∃ r, readBlending (readSoft unf f bytes m (readFn unf f bytes n) (readSpace unf f bytes n)) d = some r ∧ SameBlending x r := by
  obtain ⟨⟨b, hb, h1⟩, ⟨c, h2, h2'⟩, h3, h4, h5, h6⟩ := h
  have r1 := optional_eq (read := nameOf) (fun b => IsName (isoBlendMode b)) isoBlendMode he (by decide) h1 (fun _ => rfl) (fun b => isName_nameOf _)
  have r2 : ∃ y, optionalEntry b!"SMask" d (readSoft unf f bytes m (readFn unf f bytes n) (readSpace unf f bytes n)) = some y ∧
      BothOrNone SameSoft x.soft y := by
    cases c with
    | none =>
      cases hs : x.soft with
      | none => exact ⟨none, optional_absent he (by rw [List.filter_append, noCall_filter h2]; rfl), trivial⟩
      | some y => rw [hs] at h2'; exact h2'.elim
    | some c =>
      cases hs : x.soft with
      | none => rw [hs] at h2'; exact h2'.elim
      | some y =>
        rw [hs] at h2'
        obtain ⟨P, p1, p2⟩ := soft_read (n := n) (m := m) hf hn hm h2'
        obtain ⟨a, q1, q2⟩ := optional_present (k := b!"SMask") (Q := SameSoft y) he
          (by rw [List.filter_append, onlyCall_filter (show OnlyCall (ExtGraphicsStateMeans .code) b!"SMask" calls c from h2), p1]; rfl) p2
        exact ⟨some a, q1, q2⟩
  obtain ⟨y2, r2, m2⟩ := r2
  obtain ⟨y3, r3, m3⟩ := optional_call (read := numberOf) (R := NumIs) (P := NumIs) he (by decide) h3 (fun _ _ => rfl) (fun b _ v hv => numberOf_read b v hv)
  obtain ⟨y4, r4, m4⟩ := optional_call (read := numberOf) (R := NumIs) (P := NumIs) he (by decide) h4 (fun _ _ => rfl) (fun b _ v hv => numberOf_read b v hv)
  have r5 := optional_eq (read := truthOf) IsBool (fun x => x) he (by decide) h5 (fun _ => rfl) bool_read
  have r6 := optional_eq (read := truthOf) IsBool (fun x => x) he (by decide) h6 (fun _ => rfl) bool_read
  simp only [Option.map_id_fun', id] at r5 r6
  exact ⟨⟨b.map isoBlendMode, y2, y3, y4, x.alphaIsShape, x.textKnockout⟩,
    by simp only [readBlending, r1, r2, r3, r4, r5, r6, Option.bind_some, Option.map_some], ⟨hb.symm, m2, m3, m4, rfl, rfl⟩⟩

theorem params_read (hf : Finds f bytes items) {depth n forms m : Nat} (hn : depth ≤ n) (hm : forms ≤ m) (p : Prog) (x : GivenParams)
    (h : ParamsWritten unf items depth forms p x) (v : Val) (hv : Denotes p v) : ∃ r, readParams unf f bytes n m v = some r ∧ SameParams x r := by
  obtain ⟨calls, hs, h1, h2, h3⟩ := h
  obtain ⟨d, q1, q2⟩ := followDict_stored hf hs hv
  have he : EntriesAre ([(b!"Type", IsName b!"ExtGState")] ++ calls.flatMap (ExtGraphicsStateMeans .code)) d :=
    entriesAre_of (extGraphicsState_implied .code calls (Or.inl rfl)) q2
  obtain ⟨r1, e1, m1⟩ := lines_read h1 he
  obtain ⟨r2, e2, m2⟩ := rendering_read hf hn h2 he
  obtain ⟨r3, e3, m3⟩ := blending_read hf hn hm h3 he
  exact ⟨⟨r1, r2, r3⟩, by simp only [readParams, q1, e1, e2, e3, Option.bind_some, Option.map_some], ⟨m1, m2, m3⟩⟩

theorem pageStates_read (hf : Finds f bytes items) {depth n forms m : Nat} (hn : depth ≤ n) (hm : forms ≤ m) (id : Ref) (res : Option (List ResourcesCall))
    (calls : List ContentCall) (x : List (Bytes × GivenParams)) (rv : Option Val) (d : List (Bytes × Val)) (ops : List ReadOp)
    (hx : StatesSet unf items depth forms res x) (hr : ResRead f bytes res rv) (hops : pageOperations unf f bytes d = some ops)
    (hmm : AllMean calls ops) : ∃ y, readPageStates unf f bytes n m id.get.toNat rv d = some y ∧ StatesRead x y := by
  cases res with
  | none =>
    simp only [ResRead] at hr
    simp only [StatesSet] at hx
    subst hr hx
    exact ⟨[], rfl, .nil⟩
  | some rc =>
    obtain ⟨w, rd, rfl, h1, h2⟩ := hr
    simp only [StatesSet] at hx
    obtain ⟨r1, q1, m1⟩ := category_read hf (fun _ => rfl) hx h2 (params_read hf hn hm)
    exact ⟨r1, by simp only [readPageStates, h1, Option.bind_some, q1], m1⟩

end PdfW
