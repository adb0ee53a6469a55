import Verif.Spec.Typed.Base
import Verif.Proof.Color
import Verif.Props.Chunks
import Verif.Props.Roles
import Verif.Props.Files

/-! # Lemmas: values of the typed writers -/

set_option linter.unusedSimpArgs false
set_option linter.unusedVariables false

namespace PdfW
open Spec Props

theorem l_int {a b : Int} (h : a = b) : ItemImplied (pInt a) (IsInt b) := by
  subst h; intro v hv; simpa [pInt, Denotes, PrimDenotes, IsInt] using hv
theorem l_real (x : F32) : ItemImplied (pReal x) (NumIs x) := denotes_real x
theorem l_bool (x : Bool) : ItemImplied (pBool x) (IsBool x) := by
  intro v hv; simpa [pBool, Denotes, PrimDenotes, IsBool] using hv
theorem l_name {a b : Bytes} (h : a = b) : ItemImplied (pName a) (IsName b) := by
  subst h; intro v hv; simpa [pName, Denotes, PrimDenotes, IsName] using hv
theorem l_str {a b : Bytes} (h : a = b) : ItemImplied (pStr a) (IsStr b) := by
  subst h; intro v hv; simpa [pStr, Denotes, PrimDenotes, IsStr] using hv
theorem l_text (t : List Char) : ItemImplied (pText t) (IsText t) := by
  intro v hv; simpa [pText, Denotes, PrimDenotes, IsText] using hv
theorem l_textLike (t : TextLike) : ItemImplied t.prog (IsTextLike t) := by
  cases t <;> intro v hv <;> simpa [TextLike.prog, pText, Denotes, PrimDenotes, IsTextLike, IsText] using hv
theorem l_ref (r : Ref) : ItemImplied (pRef r) (IsRef r) := by
  intro v hv; simpa [pRef, Denotes, PrimDenotes, IsRef] using hv
theorem l_date (d : Date) : ItemImplied (pDate d) (IsDate d) := by
  intro v hv; simpa [pDate, Denotes, PrimDenotes, IsDate] using hv
theorem l_rect (r : Rect) : ItemImplied (pRect r) (IsRect r) := by
  intro v hv
  simp only [pRect, Denotes, PrimDenotes] at hv
  obtain ⟨a, b, c, d, rfl, h1, h2, h3, h4⟩ := hv
  exact ⟨_, rfl, a, _, rfl, h1, b, _, rfl, h2, c, _, rfl, h3, d, _, rfl, h4, rfl⟩
theorem l_prog (p : Prog) : ItemImplied p (Denotes p) := fun _ h => h
theorem l_prim (p : Prim) : ItemImplied (.prim p) (PrimDenotes p) := by
  intro v hv; simpa [Denotes] using hv
theorem l_array {es : List Prog} {ms : List (Val → Prop)} (h : Implied ItemImplied es ms) : ItemImplied (.array es) (ArrayIs ms) :=
  arrayIs_of h
theorem l_dict {es : List (Bytes × Prog)} {ms : List (Bytes × (Val → Prop))} (h : Implied EntryImplied es ms) :
    ItemImplied (.dict es) (DictIs ms) := dictIs_of h

theorem implied_flatMap {α β γ : Type} {R : β → γ → Prop} {f : α → List β} {g : α → List γ} (l : List α)
    (h : ∀ x ∈ l, Implied R (f x) (g x)) : Implied R (l.flatMap f) (l.flatMap g) := by
  induction l with
  | nil => exact .nil
  | cons c l ih =>
    simp only [List.flatMap_cons]
    exact Implied.append (h c (by simp)) (ih fun x hx => h x (by simp [hx]))

theorem implied_items {α : Type} {f : α → Prog} {g : α → Val → Prop} (l : List α) (h : ∀ x, ItemImplied (f x) (g x)) :
    Implied ItemImplied (l.map f) (l.map g) := Implied.map f g h l

theorem implied_entries {α : Type} {f : α → Bytes × Prog} {g : α → Bytes × (Val → Prop)} (l : List α)
    (h : ∀ x, EntryImplied (f x) (g x)) : Implied EntryImplied (l.map f) (l.map g) := Implied.map f g h l

theorem l_rawDict (es : List (Bytes × Prog)) : ItemImplied (.dict es) (DictIs (es.map fun e => (e.1, Denotes e.2))) := by
  have h := l_dict (Implied.map (R := EntryImplied) (fun e : Bytes × Prog => e) (fun e => (e.1, Denotes e.2)) (fun e => ⟨rfl, fun _ h => h⟩) es)
  simpa using h

theorem entry_of {k k' : Bytes} {p : Prog} {P : Val → Prop} (h : k = k') (h' : ItemImplied p P) : EntryImplied (k, p) (k', P) := ⟨h, h'⟩

theorem l_version (major minor : UInt8) : ItemImplied (pVersion major minor) (IsVersion major minor) := by
  intro v hv
  simp only [pVersion, pName, Denotes, PrimDenotes] at hv
  refine ⟨_, hv, ?_⟩
  have h := takeWhile_digit_dot (natBytes major.toNat) (natBytes minor.toNat) (natBytes_digits _)
  simp only [readVersion, versionName, List.append_assoc, List.cons_append, List.nil_append]
  rw [h.1, h.2]
  simp [natBytes_ne_nil, natBytes_digits, digitsVal_natBytes]

theorem testBit_foldl (l : List Nat) (a i : Nat) : (l.foldl (· ||| ·) a).testBit i = (a.testBit i || l.any fun b => b.testBit i) := by
  induction l generalizing a with
  | nil => simp
  | cons b l ih => simp only [List.foldl_cons, ih, Nat.testBit_or, List.any_cons, Bool.or_assoc]

theorem l_flags {α : Type} (bits iso : α → Nat) (h : ∀ x, 1 ≤ iso x ∧ iso x ≤ 31 ∧ bits x = 2 ^ (iso x - 1)) (l : List α) :
    ItemImplied (pFlags (l.map bits)) (FlagsAre (l.map iso)) := by
  intro v hv
  simp only [pFlags, pInt, Denotes, PrimDenotes] at hv
  have hb : ∀ i, ((l.map bits).foldl (· ||| ·) 0).testBit i = true ↔ i + 1 ∈ l.map iso := by
    intro i
    rw [testBit_foldl]
    simp only [Nat.zero_testBit, Bool.false_or, List.any_map, List.any_eq_true, List.mem_map, Function.comp]
    constructor
    · rintro ⟨x, hx, ht⟩
      refine ⟨x, hx, ?_⟩
      have := h x
      rw [this.2.2, Nat.testBit_two_pow] at ht
      simp at ht
      omega
    · rintro ⟨x, hx, e⟩
      refine ⟨x, hx, ?_⟩
      have := h x
      rw [this.2.2, Nat.testBit_two_pow]
      simp
      omega
  have hlt : (l.map bits).foldl (· ||| ·) 0 < 2147483648 := by
    refine Nat.lt_pow_two_of_testBit (n := 31) _ ?_
    intro j hj
    cases e : ((l.map bits).foldl (· ||| ·) 0).testBit j
    · rfl
    · have := (hb j).mp e
      simp only [List.mem_map] at this
      obtain ⟨x, _, e⟩ := this
      have := h x; omega
  refine ⟨_, ?_, hb⟩
  rw [hv]
  congr 1
  generalize (l.map bits).foldl (· ||| ·) 0 = n at *
  unfold asI32
  have : n % 4294967296 = n := Nat.mod_eq_of_lt (by omega)
  rw [if_pos (by omega)]
  omega

theorem l_zoom (z : Option F32) : ItemImplied (pReal (z.getD F32.zero)) (IsZoom z) := by
  cases z with
  | none => exact fun v h => Or.inr (denotes_real _ v h)
  | some z => exact denotes_real z

theorem l_angle (a : TransitionAngle) : ItemImplied a.prog (IsAngle a) := by
  cases a <;> intro v hv <;> simpa [TransitionAngle.prog, pInt, pName, Denotes, PrimDenotes, IsAngle] using hv

theorem l_systemInfo (i : SystemInfo) : ItemImplied i.prog (IsSystemInfo i) :=
  l_dict (.cons (entry_of rfl (l_str rfl)) (.cons (entry_of rfl (l_str rfl)) (.cons (entry_of rfl (l_int rfl)) .nil)))

theorem l_panose (a b : UInt8) (p : Fin 10 → UInt8) : ItemImplied (pStr (a :: b :: List.ofFn p)) (IsPanose a b p) := by
  intro v hv
  simp only [pStr, Denotes, PrimDenotes] at hv
  refine ⟨_, hv, by simp, rfl, rfl, ?_⟩
  intro ⟨i, hi⟩
  simp only [List.getElem?_cons_succ]
  rw [List.getElem?_ofFn, dif_pos hi]

theorem l_optText (t : Option (List Char)) : ItemImplied (optText t) (IsOptText t) := by
  cases t with
  | none => intro v hv; simpa [optText, Denotes, PrimDenotes, IsOptText] using hv
  | some t => exact l_text t

theorem l_keyUsage (u : KeyUsage) : ItemImplied (pStr u.intoAscii) (IsKeyUsage u) := by
  intro v hv
  simp only [pStr, Denotes, PrimDenotes] at hv
  refine ⟨_, hv, ?_⟩
  have h : ∀ o : Option Bool, isoKeyUsageBit (KeyUsage.toByte o) = some o := by
    intro o
    rcases o with _ | _ | _ <;> rfl
  simp only [KeyUsage.intoAscii, List.map_cons, List.map_nil, h]

theorem l_sides {α : Type} {eq : α → α → Bool} {f : α → Prog} {P : α → Val → Prop} (h : ∀ x, ItemImplied (f x) (P x))
    (he : ∀ x y v, eq x y = true → P x v → P y v) (s : Sides α) : ItemImplied (s.write eq f) (SidesAre P s) := by
  intro v hv
  unfold Sides.write at hv
  by_cases hu : s.isUniform eq = true
  · rw [if_pos hu] at hv
    simp only [Sides.isUniform, Bool.and_eq_true] at hu
    have hb := h _ v hv
    exact Or.inl ⟨hb, he _ _ v hu.1.1 hb, he _ _ v hu.1.2 hb, he _ _ v hu.2 hb⟩
  · rw [if_neg hu] at hv
    exact Or.inr (l_array (.cons (h _) (.cons (h _) (.cons (h _) (.cons (h _) .nil)))) v hv)

theorem l_number (x : F32) : ItemImplied (pReal x) (IsNumber x) := fun v hv => ⟨x, rfl, denotes_real x v hv⟩

theorem F32.eq_numIs (x y : F32) (v : Val) (h : F32.eq x y = true) (hv : IsNumber x v) : IsNumber y v := by
  simp only [F32.eq, Bool.and_eq_true, beq_iff_eq] at h
  obtain ⟨z, h1, h2⟩ := hv
  exact ⟨z, by rw [h1, h.2], h2⟩

theorem Rgb.eq_isRgb (x y : Rgb) (v : Val) (h : Rgb.eq x y = true) (hv : IsRgb x v) : IsRgb y v := by
  simp only [Rgb.eq, Bool.and_eq_true] at h
  obtain ⟨vs, rfl, a, _, rfl, h1, b, _, rfl, h2, c, _, rfl, h3, rfl⟩ := hv
  exact ⟨_, rfl, a, _, rfl, F32.eq_numIs _ _ _ h.1.1 h1, b, _, rfl, F32.eq_numIs _ _ _ h.1.2 h2, c, _, rfl, F32.eq_numIs _ _ _ h.2 h3, rfl⟩

theorem l_rgb (x : Rgb) : ItemImplied x.prog (IsRgb x) := l_array (.cons (l_number _) (.cons (l_number _) (.cons (l_number _) .nil)))

theorem l_lineHeight (x : LineHeight) : ItemImplied x.prog (IsLineHeight x) := by
  cases x <;> intro v hv <;> simpa [LineHeight.prog, pName, pReal, Denotes, PrimDenotes, IsLineHeight] using hv
theorem l_glyphOrientation (x : GlyphOrientationVertical) : ItemImplied x.prog (IsGlyphOrientation x) := by
  cases x <;> intro v hv <;> simpa [GlyphOrientationVertical.prog, pName, pInt, Denotes, PrimDenotes, IsGlyphOrientation] using hv
theorem l_owner (o : AttributeOwner) (b : Bool) : ItemImplied (pName (o.toName b)) (IsOwner o b) := by
  cases o <;> intro v hv <;> simpa [AttributeOwner.toName, pName, Denotes, PrimDenotes, IsOwner, isoOwner] using hv
theorem l_role17 (r : StructRole) : ItemImplied (pName r.toName) (IsRole17 r) := by
  have : r.toName = isoRole17 r := by cases r <;> rfl
  intro v hv; rw [this] at hv; simpa [pName, Denotes, PrimDenotes, IsRole17] using hv

theorem role20_name (r : StructRole2) : ∃ n, r.toName = some n ∧ isoRole20 r n := by
  rcases r with _ | _ | _ | _ | _ | _ | _ | _ | ⟨l, p, q⟩ | _ | _ | _ | _ | _ | _ | _ | _ | _ | _ | _ | _ | _ | _ | _ | _ | _ | _ | _ | _ | _ | _ | _ | _ | _ | _ | _ | _ | _ | _ | _ | _ 
  case heading => exact ⟨_, headingName_eq l q, headingLevel_natBytes l p⟩
  all_goals exact ⟨_, rfl, rfl⟩

theorem l_role20 (r : StructRole2) : ∃ p, role20 r = [(b!"S", p)] ∧ ItemImplied p (IsRole20 r) := by
  obtain ⟨n, hn, hi⟩ := role20_name r
  refine ⟨pName n, by simp [role20, hn], ?_⟩
  intro v hv
  exact ⟨n, by simpa [pName, Denotes, PrimDenotes] using hv, hi⟩

theorem entriesAre_of {es : List (Bytes × Prog)} {ms : List (Bytes × (Val → Prop))} (h : Implied EntryImplied es ms)
    {d : List (Bytes × Val)} (hd : DenotesEntries es d) : EntriesAre ms d := by
  obtain ⟨d', e, h'⟩ := dictIs_of h (.dict d) (by simp only [Denotes]; exact ⟨d, rfl, hd⟩)
  cases e; exact h'

theorem readsBackIndirect_of {p : Prog} {P : Val → Prop} (hok : Ok p) (h : ItemImplied p P) : ReadsBackIndirect p P := by
  intro c r hc
  rw [writeIndirect_eq]
  refine ⟨_, rfl, rfl, ?_⟩
  intro rest
  have hc' : c.pretty = true ∨ NoClash p := by
    cases hp : c.pretty
    · exact Or.inr (hc hp)
    · exact Or.inl rfl
  obtain ⟨rem, hr⟩ := readIndirect_item ⟨r, .val p, c.pretty⟩ c.pretty rest ⟨hok, hc'⟩
  exact ⟨_, _, hr, h _ (progVal_denotes p hok)⟩

theorem writtenAs_of {p : Prog} {P : Val → Prop} (hok : Ok p) (h : ItemImplied p P) : WrittenAs p P :=
  ⟨readsBack_of hok h, readsBackIndirect_of hok h⟩

theorem streamWrittenAs_of {write : Chunk → Ref → Bytes → Option Chunk} {es : List (Bytes × Prog)} {ms : List (Bytes × (Val → Prop))}
    (hw : ∀ c r data, write c r data = c.writeStream r es data) (hok : OkEntries es)
    (hl : ∀ e ∈ es, e.1 ≠ b!"Length") (h : Implied EntryImplied es ms) : StreamWrittenAs write es ms := by
  intro c r data hc hd
  rw [hw]
  have hs : c.writeStream r es data ≠ none := by rw [Ne, C13_stream_panics_iff]; omega
  cases e : c.writeStream r es data with
  | none => exact absurd e hs
  | some c' =>
    have hc' : c.pretty = true ∨ NoClashEntries es := by
      cases hp : c.pretty
      · exact Or.inr (hc hp)
      · exact Or.inl rfl
    obtain ⟨out, h1, h2, h3⟩ := C13_stream_reads_back c c' r es data e hok hc' hl
    refine ⟨c', out, rfl, h1, h2, ?_⟩
    intro rest
    obtain ⟨d, rem, h4, h5⟩ := h3 rest
    exact ⟨d, rem, h4, entriesAre_of h h5⟩

/-- Executable checks of the hypotheses, for the examples. -/
def primOkB : Prim → Bool
  | .real x => x.isFinite
  | .rect r => r.x1.isFinite && r.y1.isFinite && r.x2.isFinite && r.y2.isFinite
  | .date _ => false
  | .textStrLang _ => false
  | _ => true

mutual
def okB : Prog → Bool
  | .prim p => primOkB p
  | .array items => okItemsB items
  | .dict entries => okEntriesB entries
  | .unused => false
termination_by structural p => p
def okItemsB : List Prog → Bool
  | [] => true
  | x :: xs => okB x && okItemsB xs
termination_by structural p => p
def okEntriesB : List (Bytes × Prog) → Bool
  | [] => true
  | (_, x) :: xs => okB x && okEntriesB xs
termination_by structural p => p
end

theorem primOkB_sound (p : Prim) (h : primOkB p = true) : PrimOk p := by
  cases p <;> simp_all [primOkB, PrimOk]

mutual
theorem okB_sound (p : Prog) (h : okB p = true) : Ok p := by
  match p with
  | .prim p => simp only [okB] at h; simpa [Ok] using primOkB_sound p h
  | .array items => simp only [okB] at h; simpa [Ok] using okItemsB_sound items h
  | .dict entries => simp only [okB] at h; simpa [Ok] using okEntriesB_sound entries h
  | .unused => simp [okB] at h
termination_by structural p
theorem okItemsB_sound (xs : List Prog) (h : okItemsB xs = true) : OkItems xs := by
  match xs with
  | [] => simp [OkItems]
  | x :: xs =>
    simp only [okItemsB, Bool.and_eq_true] at h
    simp only [OkItems]
    exact ⟨okB_sound x h.1, okItemsB_sound xs h.2⟩
termination_by structural xs
theorem okEntriesB_sound (xs : List (Bytes × Prog)) (h : okEntriesB xs = true) : OkEntries xs := by
  match xs with
  | [] => simp [OkEntries]
  | (k, x) :: xs =>
    simp only [okEntriesB, Bool.and_eq_true] at h
    simp only [OkEntries]
    exact ⟨okB_sound x h.1, okEntriesB_sound xs h.2⟩
termination_by structural xs
end

theorem l_propCalls (calls : List PropCall) : ItemImplied (.dict (calls.map PropCall.entry)) (Denotes (.dict (calls.map propEntry))) := by
  have he : PropCall.entry = propEntry := by
    funext x
    cases x with
    | kind a => cases a <;> rfl
    | subtype a => cases a <;> rfl
    | attached a => simp only [PropCall.entry, propEntry]; congr 3; funext x; cases x <;> rfl
    | _ => rfl
  rw [he]; exact l_prog _

end PdfW
