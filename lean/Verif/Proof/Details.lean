import Verif.Spec.Details
import Verif.Proof.Fields
import Verif.Proof.Events
import Verif.Proof.States

set_option linter.unusedSimpArgs false
set_option linter.unusedVariables false

/-! # Form settings and details of fields: proofs -/

namespace PdfW
open PdfW.Spec

variable {unf : Val → Bytes → Option Bytes} {f : FileEnd} {bytes : Bytes} {items : List Item}

theorem array_read {α β : Type} {P : α → Val → Prop} {read : Val → Option β} {g : α → β} (hP : ∀ a v, P a v → read v = some (g a)) (as : List α)
    (v : Val) (h : ArrayIs (as.map P) v) : arrayOf read v = some (as.map g) := by
  obtain ⟨vs, rfl, hv⟩ := h
  exact readEach_items hP as vs hv

theorem array_same {α : Type} {P : α → Val → Prop} {read : Val → Option α} (hP : ∀ a v, P a v → read v = some a) (as : List α)
    (v : Val) (h : ArrayIs (as.map P) v) : arrayOf read v = some as := by
  have := array_read (g := fun x => x) hP as v h
  rwa [List.map_id_fun'] at this

theorem items_pairs {α : Type} {P : α → Val → Prop} (xs : List α) (vs : List Val) (h : ItemsAre (xs.map P) vs) : Pairwise P xs vs := by
  induction xs generalizing vs with
  | nil => simp only [List.map_nil, ItemsAre] at h; subst h; exact .nil
  | cons x xs ih =>
    obtain ⟨w, ws, rfl, h1, h2⟩ := h
    exact .cons h1 (ih ws h2)

theorem flagsRead_of {α : Type} (iso : α → Nat) (fl : List α) (v : Val) (h : FlagsAre (fl.map iso) v) : ∃ n, flagsOf v = some n ∧ FlagsRead iso fl n :=
  flags_read iso fl v h

theorem lock_read (hf : Finds f bytes items) {r : Ref} {cs : List SignatureFieldLockCall} (ho : HasObject items r (.val (SignatureFieldLock.prog cs)))
    {x : Lock} (h : LockSet cs x) (v : Val) (hv : IsRef r v) : readLock f bytes v = some x := by
  obtain ⟨w, h1, hw⟩ := finds_val hf ho
  obtain ⟨d, rfl, he⟩ := signatureFieldLock_denotes cs w hw
  have he : EntriesAre ([(b!"Type", IsName b!"SigFieldLock")] ++ cs.flatMap SignatureFieldLockMeans) d := he
  obtain ⟨⟨a, ea, h1'⟩, h2, ⟨p, ep, h3⟩⟩ := h
  have r1 := required_eq (read := nameOf) _ (isoSignatureLockAction a) he (by decide) h1' rfl (isName_nameOf _)
  have r2 := optional_eq (read := arrayOf readText) (fun l => ArrayIs (l.map IsText)) (fun x => x) he (by decide) h2 (fun _ => rfl) (array_same readText_isText)
  have r3 := optional_eq (read := intOf) (fun p => IsInt (isoAccessPermissions p)) isoAccessPermissions he (by decide) h3 (fun _ => rfl) (fun b => int_read _)
  simp only [Option.map_id_fun', id] at r2
  simp only [IsRef] at hv
  subst hv
  simp only [readLock, followDict, followRef, h1, r1, r2, r3, Option.bind_some, Option.map_some, ← ea, ← ep]

theorem usage_read (u : KeyUsage) (v : Val) (h : IsKeyUsage u v) : usageOf v = some (usageBits u) := by
  obtain ⟨s, rfl, hs⟩ := h
  have key : ∀ (l : List (Option Bool)) (s : Bytes), s.map isoKeyUsageBit = l.map some → readEach isoKeyUsageBit s = some l := by
    intro l
    induction l with
    | nil => intro s hs; simp only [List.map_nil, List.map_eq_nil_iff] at hs; subst hs; rfl
    | cons x l ih =>
      intro s hs
      cases s with
      | nil => simp at hs
      | cons b s =>
        simp only [List.map_cons, List.cons.injEq] at hs
        simp only [readEach, hs.1, ih s hs.2, Option.bind_some, Option.map_some]
  exact key (usageBits u) s hs

theorem cert_read {cs : List CertificateSeedValueCall} {x : GivenCert} (h : CertSet cs x) (v : Val) (hv : IsCertificateSeedValue .code cs v) :
    ∃ r, readCert f bytes v = some r ∧ SameCert x r := by
  obtain ⟨d, rfl, he⟩ := hv
  have he : EntriesAre ([(b!"Type", IsName b!"SVCert")] ++ cs.flatMap (CertificateSeedValueMeans .code)) d := he
  obtain ⟨h1, h2, h3, h4, h5, h6, ⟨us, eu, h7⟩, h8, h9, h10, ⟨t, et, h11⟩⟩ := h
  obtain ⟨y1, r1, m1⟩ := optional_call (read := flagsOf) (P := fun fl => FlagsAre (fl.map isoCertificateSeedValueFlag)) (R := FlagsRead isoCertificateSeedValueFlag) he
    (by decide) h1 (fun _ _ => rfl) (fun b _ v hv => flagsRead_of _ b v hv)
  have r2 := optional_eq (read := arrayOf strOf) (fun l => ArrayIs (l.map IsStr)) (fun x => x) he (by decide) h2 (fun _ => rfl) (array_same str_read)
  have r3 := optional_eq (read := strOf) IsStr (fun x => x) he (by decide) h3 (fun _ => rfl) str_read
  have r4 := optional_eq (read := strOf) IsStr (fun x => x) he (by decide) h4 (fun _ => rfl) str_read
  have r5 := optional_eq (read := nameOf) IsName (fun x => x) he (by decide) h5 (fun _ => rfl) (named_read id)
  obtain ⟨y6, r6, m6⟩ := optional_call (read := itemsOf) (P := fun l => ArrayIs (l.map fun x => DictIs (x.map fun e => (e.1, Denotes e.2))))
    (R := Pairwise fun es => DictIs (es.map fun e => (e.1, Denotes e.2))) he
    (by decide) h6 (fun _ _ => rfl) (fun b _ v hv => by obtain ⟨vs, rfl, hv⟩ := hv; exact ⟨vs, rfl, items_pairs b vs hv⟩)
  have r7 := optional_eq (read := arrayOf usageOf) (fun l => ArrayIs (l.map IsKeyUsage)) (fun l => l.map usageBits) he (by decide) h7 (fun _ => rfl) (array_read usage_read)
  have r8 := optional_eq (read := arrayOf strOf) (fun l => ArrayIs (l.map IsStr)) (fun x => x) he (by decide) h8 (fun _ => rfl) (array_same str_read)
  have r9 := optional_eq (read := arrayOf strOf) (fun l => ArrayIs (l.map IsStr)) (fun x => x) he (by decide) h9 (fun _ => rfl) (array_same str_read)
  have r10 := optional_eq (read := strOf) IsStr (fun x => x) he (by decide) h10 (fun _ => rfl) str_read
  have r11 := optional_eq (read := nameOf) (fun t => IsName (isoCertificateUrlType t)) isoCertificateUrlType he (by decide) h11 (fun _ => rfl) (named_read _)
  simp only [Option.map_id_fun', id] at r2 r3 r4 r5 r8 r9 r10
  exact ⟨⟨y1, x.subject, x.policyOid, x.policyHash, x.policyAlgorithm, y6, us.map (fun l => l.map usageBits), x.issuer, x.oid, x.url, t.map isoCertificateUrlType⟩,
    by simp only [readCert, followDict, followRef, r1, r2, r3, r4, r5, r6, r7, r8, r9, r10, r11, Option.bind_some, Option.map_some],
    ⟨m1, m6, rfl, rfl, rfl, rfl, eu.symm, rfl, rfl, rfl, et.symm⟩⟩

theorem mdp_read {cs : List SignatureModificationDetectionPreventionCall} {x : Option Int} (h : MdpSet cs x) (v : Val)
    (hv : IsSignatureModificationDetectionPrevention cs v) : ∃ r, readMdp v = some r ∧ r = x := by
  obtain ⟨d, rfl, he⟩ := hv
  obtain ⟨p, ep, h1⟩ := h
  have r1 := optional_eq (pre := []) (read := intOf) (fun p => IsInt (isoMdpSignatureType p)) isoMdpSignatureType he (by decide) h1 (fun _ => rfl) (fun b => int_read _)
  exact ⟨x, by simp only [readMdp, r1, ep], rfl⟩

theorem stamp_read {cs : List SignatureTimeStampCall} {x : Option Bytes × Bool} (h : StampSet cs x) (v : Val)
    (hv : IsSignatureTimeStamp cs v) : ∃ r, readStamp v = some r ∧ r = x := by
  obtain ⟨d, rfl, he⟩ := hv
  obtain ⟨h1, p, ep, h2⟩ := h
  have r1 := optional_eq (pre := []) (read := strOf) IsStr (fun x => x) he (by decide) h1 (fun _ => rfl) str_read
  have r2 := optional_eq (pre := []) (read := flagsOf) (fun b : Bool => IsInt (if b then 1 else 0)) (fun b => if b then 1 else 0) he (by decide) h2 (fun _ => rfl)
    (fun b v hv => by simp only [IsInt] at hv; subst hv; cases b <;> rfl)
  simp only [Option.map_id_fun', id] at r1
  refine ⟨x, ?_, rfl⟩
  simp only [readStamp, r1, r2, Option.bind_some, Option.map_some]
  obtain ⟨u, b⟩ := x
  simp only at ep
  subst ep
  cases p with
  | none => rfl
  | some b => cases b <;> rfl

theorem bothOrNone_same {α : Type} {x y : Option α} (h : BothOrNone (fun a b => b = a) x y) : y = x := by
  cases x <;> cases y <;> simp_all [BothOrNone]

theorem seed_read (hf : Finds f bytes items) {r : Ref} {cs : List SignatureSeedValueCall} (ho : HasObject items r (.val (SignatureSeedValue.prog cs)))
    {x : GivenSeed} (h : SeedSet cs x) (v : Val) (hv : IsRef r v) : ∃ s, readSeed f bytes v = some s ∧ SameSeed x s := by
  obtain ⟨w, q1, hw⟩ := finds_val hf ho
  obtain ⟨d, rfl, he⟩ := signatureSeedValue_denotes .code cs (Or.inl rfl) w hw
  have he : EntriesAre ([(b!"Type", IsName b!"SV")] ++ cs.flatMap (SignatureSeedValueMeans .code)) d := he
  obtain ⟨h1, h2, h3, ⟨ms, em, h4⟩, ⟨n, en, h5⟩, ⟨c6, h6, h6'⟩, h7, ⟨c8, h8, h8'⟩, ⟨c9, h9, h9'⟩, h10, h11, ⟨i, ei, h12⟩⟩ := h
  obtain ⟨y1, r1, m1⟩ := optional_call (read := flagsOf) (P := fun fl => FlagsAre (fl.map isoSignatureSeedValueFlag)) (R := FlagsRead isoSignatureSeedValueFlag) he
    (by decide) h1 (fun _ _ => rfl) (fun b _ v hv => flagsRead_of _ b v hv)
  have r2 := optional_eq (read := nameOf) IsName (fun x => x) he (by decide) h2 (fun _ => rfl) (named_read id)
  have r3 := optional_eq (read := arrayOf nameOf) (fun l => ArrayIs (l.map IsName)) (fun x => x) he (by decide) h3 (fun _ => rfl) (array_same (named_read id))
  have r4 := optional_eq (read := arrayOf nameOf) (fun l => ArrayIs (l.map fun x => IsName (isoSignatureDigestMethod x))) (fun l => l.map isoSignatureDigestMethod) he
    (by decide) h4 (fun _ => rfl) (array_read (named_read _))
  have r5 := optional_eq (read := intOf) (fun p => IsInt (isoSeedValueParserVersion p)) isoSeedValueParserVersion he (by decide) h5 (fun _ => rfl) (fun b => int_read _)
  obtain ⟨y6, r6, m6⟩ := optional_both (read := readCert f bytes) (R := SameCert) (P := IsCertificateSeedValue .code) he (by decide) h6 h6' (fun _ _ _ => rfl)
    (fun b g hw v hv => cert_read hw v hv)
  have r7 := optional_eq (read := arrayOf readText) (fun l => ArrayIs (l.map IsText)) (fun x => x) he (by decide) h7 (fun _ => rfl) (array_same readText_isText)
  obtain ⟨y8, r8, m8⟩ := optional_both (read := readMdp) (R := fun a b => b = a) (P := IsSignatureModificationDetectionPrevention) he (by decide) h8 h8' (fun _ _ _ => rfl)
    (fun b g hw v hv => mdp_read hw v hv)
  obtain ⟨y9, r9, m9⟩ := optional_both (read := readStamp) (R := fun a b => b = a) (P := IsSignatureTimeStamp) he (by decide) h9 h9' (fun _ _ _ => rfl)
    (fun b g hw v hv => stamp_read hw v hv)
  have r10 := optional_eq (read := arrayOf readText) (fun l => ArrayIs (l.map IsText)) (fun x => x) he (by decide) h10 (fun _ => rfl) (array_same readText_isText)
  have r11 := optional_eq (read := truthOf) IsBool (fun x => x) he (by decide) h11 (fun _ => rfl) bool_read
  have r12 := optional_eq (read := nameOf) (fun t => IsName (isoLockingIntent t)) isoLockingIntent he (by decide) h12 (fun _ => rfl) (named_read _)
  simp only [Option.map_id_fun', id] at r2 r3 r7 r10 r11
  simp only [IsRef] at hv
  subst hv
  exact ⟨⟨y1, x.filter, x.subFilter, ms.map (fun l => l.map isoSignatureDigestMethod), n.map isoSeedValueParserVersion, y6, x.reasons, y8, y9, x.legal, x.revocation,
      i.map isoLockingIntent⟩,
    by simp only [readSeed, followDict, followRef, q1, r1, r2, r3, r4, r5, r6, r7, r8, r9, r10, r11, r12, Option.bind_some, Option.map_some],
    ⟨m1, m6, rfl, rfl, em.symm, en.symm, rfl, bothOrNone_same m8, bothOrNone_same m9, rfl, rfl, ei.symm⟩⟩

theorem option_plain (t : List Char) (v : Val) (h : IsText t v) : optionOf v = some (t, t) := by
  have := readText_isText t v h
  obtain ⟨s, rfl, hs⟩ := h
  simp only [optionOf, this, Option.map_some]

theorem option_pair (e t : List Char) (v : Val) (h : ArrayIs [IsText e, IsTextLike (.plain t)] v) : optionOf v = some (e, t) := by
  obtain ⟨vs, rfl, w1, ws, rfl, h1, w2, ws', rfl, h2, h3⟩ := h
  simp only [ItemsAre] at h3
  subst h3
  simp only [optionOf, readText_isText e w1 h1, readText_isText t w2 h2, Option.bind_some, Option.map_some]

theorem choice_read {c : ChoiceOptionsCall} {x : List (List Char × List Char)} (h : OptionSet c x) (vs : List Val) (hv : ItemsAre (ChoiceOptionsMeans c) vs) :
    readEach optionOf vs = some x := by
  cases c with
  | option v =>
    obtain ⟨t, rfl, rfl⟩ := h
    exact readEach_items (P := fun t => IsText t) (g := fun t => (t, t)) option_plain [t] vs hv
  | options vs' =>
    obtain ⟨ts, rfl, rfl⟩ := h
    simp only [ChoiceOptionsMeans, List.map_map, Function.comp_def] at hv
    exact readEach_items (P := fun t => IsTextLike (.plain t)) (g := fun t => (t, t)) option_plain ts vs hv
  | «export» v e =>
    obtain ⟨t, rfl, rfl⟩ := h
    exact readEach_items (P := fun p : List Char × List Char => ArrayIs [IsText p.1, IsTextLike (.plain p.2)]) (g := fun p => p) (fun p => option_pair p.1 p.2) [(e, t)] vs hv
  | exports es =>
    obtain ⟨ps, rfl, rfl⟩ := h
    simp only [ChoiceOptionsMeans, List.map_map, Function.comp_def] at hv
    have := readEach_items (P := fun p : List Char × List Char => ArrayIs [IsText p.1, IsTextLike (.plain p.2)]) (g := fun p => p) (fun p => option_pair p.1 p.2) x vs hv
    rwa [List.map_id_fun'] at this
  | raw v => exact h.elim

theorem choices_read {calls : List ChoiceOptionsCall} {xs : List (List (List Char × List Char))} (h : Pairwise OptionSet calls xs) (vs : List Val)
    (hv : ItemsAre (ChoiceOptionsItems calls) vs) : readEach optionOf vs = some xs.flatten := by
  induction h generalizing vs with
  | nil => simp only [ChoiceOptionsItems, List.flatMap_nil, ItemsAre] at hv; subst hv; rfl
  | cons h1 _ ih =>
    simp only [ChoiceOptionsItems, List.flatMap_cons] at hv ih
    obtain ⟨v1, v2, rfl, k1, k2⟩ := itemsAre_append _ _ _ hv
    rw [readEach_append, choice_read h1 v1 k1, ih v2 k2]
    rfl

theorem options_read {c : FieldCall} {x : List (List Char × List Char)} (h : OptionsSet c x) :
    ∃ P, (FieldMeans .code c).filter (fun e => e.1 == b!"Opt") = [(b!"Opt", P)] ∧ ∀ v, P v → arrayOf optionOf v = some x := by
  cases h with
  | @buttons ts => exact ⟨ArrayIs (ts.map fun x => IsText x), rfl, array_read option_plain ts⟩
  | @choices calls xs h =>
    refine ⟨IsChoiceOptions calls, rfl, ?_⟩
    rintro v ⟨vs, rfl, hv⟩
    exact choices_read h vs hv

theorem inherited_read {above : Inherited} {calls : List FieldCall} {x : Inherited} (h : InheritedSet above calls x) {d : List (Bytes × Val)}
    (he : EntriesAre (calls.flatMap (FieldMeans .code)) d) : readInherited above d = some x := by
  obtain ⟨da, q, ml, c, o, h1, h2, h3, h4, h4', rfl⟩ := h
  have r1 := optional_eq (pre := []) (read := strOf) IsStr (fun x => x) he (by decide) h1 (fun _ => rfl) str_read
  have r2 := optional_eq (pre := []) (read := intOf) (fun q => IsInt (isoQuadding q)) isoQuadding he (by decide) h2 (fun _ => rfl) (fun b => int_read _)
  have r3 := optional_eq (pre := []) (read := intOf) IsInt (fun x => x) he (by decide) h3 (fun _ => rfl) int_read
  have r4 : optionalEntry b!"Opt" d (arrayOf optionOf) = some o := by
    cases c with
    | none =>
      cases o with
      | none => exact optional_absent he (noCall_filter h4)
      | some o => exact h4'.elim
    | some c =>
      cases o with
      | none => exact h4'.elim
      | some o =>
        obtain ⟨P, k1, k2⟩ := options_read h4'
        obtain ⟨a, q1, q2⟩ := optional_present (k := b!"Opt") (read := arrayOf optionOf) (Q := fun a => a = o) he
          (by rw [onlyCall_filter (show OnlyCall (FieldMeans .code) b!"Opt" calls c from h4), k1]) (fun v hv => ⟨_, k2 v hv, rfl⟩)
        rw [q1, q2]
  simp only [Option.map_id_fun', id] at r1 r3
  simp only [readInherited, r1, r2, r3, r4, Option.bind_some, Option.map_some]

theorem details_read (hf : Finds f bytes items) {id : Ref} {text : Inherited} {calls : List FieldCall} {x : Details GivenSeed} (h : DetailsSet items id text calls x)
    {d : List (Bytes × Val)} (he : EntriesAre (calls.flatMap (FieldMeans .code)) d) :
    ∃ r, readDetails f bytes id.get.toNat text d = some r ∧ SameDetails x r := by
  obtain ⟨e1, e2, h1, h2, h3, h4, h5, h6, ⟨c7, h7, h7'⟩, ⟨c8, h8, h8'⟩⟩ := h
  have r1 := optional_eq (pre := []) (read := readText) IsText (fun x => x) he (by decide) h1 (fun _ => rfl) readText_isText
  have r2 := optional_eq (pre := []) (read := readText) IsText (fun x => x) he (by decide) h2 (fun _ => rfl) readText_isText
  have r3 := optional_eq (pre := []) (read := readText) IsText (fun x => x) he (by decide) h3 (fun _ => rfl) readText_isText
  have r4 := optional_eq (pre := []) (read := readText) IsText (fun x => x) he (by decide) h4 (fun _ => rfl) readText_isText
  have r5 := optional_eq (pre := []) (read := intOf) IsInt (fun x => x) he (by decide) h5 (fun _ => rfl) int_read
  have r6 := optional_eq (pre := []) (read := integersOf) (fun l => ArrayIs (l.map fun x => IsInt x)) (fun x => x) he (by decide) h6 (fun _ => rfl) ints_read
  obtain ⟨y7, r7, m7⟩ := optional_both (pre := []) (read := readLock f bytes) (R := fun a b => b = a) (P := IsRef) he (by decide) h7 h7' (fun _ _ _ => rfl)
    (fun b g hw v hv => by obtain ⟨cs, k1, k2⟩ := hw; exact ⟨g, lock_read hf k1 k2 v hv, rfl⟩)
  obtain ⟨y8, r8, m8⟩ := optional_both (pre := []) (read := readSeed f bytes) (R := SameSeed) (P := IsRef) he (by decide) h8 h8' (fun _ _ _ => rfl)
    (fun b g hw v hv => by obtain ⟨cs, k1, k2⟩ := hw; exact seed_read hf k1 k2 v hv)
  simp only [Option.map_id_fun', _root_.id] at r1 r2 r3 r4 r5 r6
  exact ⟨⟨id.get.toNat, x.alternate, x.mapping, text, x.style, x.rich, x.top, x.indices, y7, y8⟩,
    by simp only [readDetails, r1, r2, r3, r4, r5, r6, r7, r8, Option.bind_some, Option.map_some],
    ⟨m8, e1.symm, rfl, rfl, e2.symm, rfl, rfl, rfl, rfl, bothOrNone_same m7⟩⟩

theorem settings_read {calls : List FormCall} {x : GivenSettings} (h : SettingsSet calls x) {d : List (Bytes × Val)} (he : EntriesAre (FormEntries calls) d) :
    ∃ r, readSettings d = some r ∧ SameSettings x r := by
  have he : EntriesAre ([] ++ calls.flatMap FormMeans) d := he
  obtain ⟨h1, ⟨rs, er, h2⟩, h3, h4, ⟨q, eq, h5⟩⟩ := h
  obtain ⟨y1, r1, m1⟩ := optional_call (read := flagsOf) (P := fun fl => FlagsAre (fl.map isoSigFlag)) (R := FlagsRead isoSigFlag) he
    (by decide) h1 (fun _ _ => rfl) (fun b _ v hv => flagsRead_of _ b v hv)
  have r2 := optional_eq (read := refArray) (fun l => ArrayIs (l.map fun x => IsRef x)) (fun l => l.map fun r => r.get.toNat) he (by decide) h2 (fun _ => rfl) refArray_of
  obtain ⟨y3, r3, m3⟩ := optional_call (read := some) (P := IsResources) (R := IsResources) he (by decide) h3 (fun _ _ => rfl) (fun b _ v hv => ⟨v, rfl, hv⟩)
  have r4 := optional_eq (read := strOf) IsStr (fun x => x) he (by decide) h4 (fun _ => rfl) str_read
  have r5 := optional_eq (read := intOf) (fun q => IsInt (isoQuadding q)) isoQuadding he (by decide) h5 (fun _ => rfl) (fun b => int_read _)
  simp only [Option.map_id_fun', id] at r4
  exact ⟨⟨y1, rs.map fun l => l.map fun r => r.get.toNat, y3, x.appearance, q.map isoQuadding⟩,
    by simp only [readSettings, r1, r2, r3, r4, r5, Option.bind_some, Option.map_some], ⟨m1, m3, er.symm, rfl, eq.symm⟩⟩

/-! ## Trees of fields -/

section trees
variable {σ α β : Type} {own : σ → List FieldCall → σ → Prop} {leaf : Ref → σ → List FieldCall → α → Prop}
  {rown : σ → List (Bytes × Val) → Option σ} {rleaf : Nat → σ → List (Bytes × Val) → Option β} {R : α → β → Prop}

theorem widgets_plain (hf : Finds f bytes items) (parent : Ref) (ws : List WidgetPart) (h : ∀ w ∈ ws, w.Written items parent) :
    readEach (isField f bytes) (ws.map fun w => w.id.get.toNat) = some (ws.map fun _ => false) := (widgets_read hf [] parent ws h).1

mutual
theorem each_read (hf : Finds f bytes items)
    (hown : ∀ s calls s' d, own s calls s' → EntriesAre (calls.flatMap (FieldMeans .code)) d → rown s d = some s')
    (hleaf : ∀ id s calls x d, leaf id s calls x → EntriesAre (calls.flatMap (FieldMeans .code)) d → ∃ r, rleaf id.get.toNat s d = some r ∧ R x r)
    (t : FieldTree) (depth : Nat) (hd : t.depth ≤ depth) (parent : Option Ref) (h : t.Written items parent) (s : σ) (xs : List α) (hx : t.Each own leaf s xs) :
    ∃ rs, readFieldsWith rown rleaf f bytes depth s t.id.get.toNat = some rs ∧ Pairwise R xs rs := by
  cases t with
  | node id calls o kids =>
    simp only [FieldTree.depth] at hd
    obtain ⟨n, rfl⟩ : ∃ n, depth = n + 1 := ⟨depth - 1, by omega⟩
    simp only [FieldTree.Written] at h
    obtain ⟨⟨h1, -, -⟩, h2, h3, h4, h5⟩ := h
    simp only [FieldTree.Each] at hx
    obtain ⟨s', k1, k2⟩ := hx
    obtain ⟨d, q1, he⟩ := field_object hf h1
    obtain ⟨rs, q4, q5⟩ := each_list hf hown hleaf kids n (by omega) id h5 s' xs k2
    have hk := optional_present (read := refArray) (Q := fun l => l = kids.map fun t => t.id.get.toNat) he (k := b!"Kids")
      (P := ArrayIs ((kids.map FieldTree.id).map fun x => IsRef x)) (by rw [onlyCall_filter h4]; rfl)
      (fun v hv => ⟨_, refArray_of _ v hv, by simp [List.map_map, Function.comp_def]⟩)
    obtain ⟨l, hk, rfl⟩ := hk
    refine ⟨rs, ?_, q5⟩
    have hb1 : ((kids.map fun _ => true).all (· == false)) = false := by
      cases kids with
      | nil => exact absurd rfl h2
      | cons k ks => rfl
    have hb2 : ((kids.map fun _ => true).all (· == true)) = true := by simp
    show readFieldsWith rown rleaf f bytes (n + 1) s id.get.toNat = some rs
    simp only [readFieldsWith, q1, Option.bind_some, hown s calls s' d k1 he, hk, kids_named hf kids h3 h5, hb1, hb2, Bool.false_eq_true, if_false, if_true]
    exact q4
  | widgets id calls o ws =>
    simp only [FieldTree.depth] at hd
    obtain ⟨n, rfl⟩ : ∃ n, depth = n + 1 := ⟨depth - 1, by omega⟩
    simp only [FieldTree.Written] at h
    obtain ⟨⟨h1, -, -⟩, h2, h3⟩ := h
    simp only [FieldTree.Each] at hx
    obtain ⟨s', x, k1, k2, rfl⟩ := hx
    obtain ⟨d, q1, he⟩ := field_object hf h1
    obtain ⟨r, q2, q3⟩ := hleaf id s' calls x d k2 he
    have hk := optional_present (read := refArray) (Q := fun l => l = ws.map fun t => t.id.get.toNat) he (k := b!"Kids")
      (P := ArrayIs ((ws.map WidgetPart.id).map fun x => IsRef x)) (by rw [onlyCall_filter h2]; rfl)
      (fun v hv => ⟨_, refArray_of _ v hv, by simp [List.map_map, Function.comp_def]⟩)
    obtain ⟨l, hk, rfl⟩ := hk
    have hb : ((ws.map fun _ => false).all (· == false)) = true := by simp
    refine ⟨[r], ?_, .cons q3 .nil⟩
    simp only [readFieldsWith, FieldTree.id, q1, Option.bind_some, hown s calls s' d k1 he, hk, widgets_plain hf id ws h3, hb, if_true, q2, Option.map_some]
  | merged id calls o annot rect =>
    simp only [FieldTree.depth] at hd
    obtain ⟨n, rfl⟩ : ∃ n, depth = n + 1 := ⟨depth - 1, by omega⟩
    simp only [FieldTree.Written] at h
    obtain ⟨⟨h1, -, -⟩, h2, h3⟩ := h
    simp only [FieldTree.Each] at hx
    obtain ⟨s', x, k1, k2, rfl⟩ := hx
    obtain ⟨d, q1, he⟩ := field_object hf h1
    obtain ⟨r, q2, q3⟩ := hleaf id s' calls x d k2 he
    have hk := optional_absent (read := refArray) he (k := b!"Kids") (noCall_filter h2)
    exact ⟨[r], by simp only [readFieldsWith, FieldTree.id, q1, Option.bind_some, hown s calls s' d k1 he, hk, q2, Option.map_some], .cons q3 .nil⟩
  | invisible id calls o =>
    simp only [FieldTree.depth] at hd
    obtain ⟨n, rfl⟩ : ∃ n, depth = n + 1 := ⟨depth - 1, by omega⟩
    simp only [FieldTree.Written] at h
    obtain ⟨⟨h1, -, -⟩, h2, h3⟩ := h
    simp only [FieldTree.Each] at hx
    obtain ⟨s', x, k1, k2, rfl⟩ := hx
    obtain ⟨d, q1, he⟩ := field_object hf h1
    obtain ⟨r, q2, q3⟩ := hleaf id s' calls x d k2 he
    have hk := optional_absent (read := refArray) he (k := b!"Kids") (noCall_filter h2)
    exact ⟨[r], by simp only [readFieldsWith, FieldTree.id, q1, Option.bind_some, hown s calls s' d k1 he, hk, q2, Option.map_some], .cons q3 .nil⟩
termination_by structural t
theorem each_list (hf : Finds f bytes items)
    (hown : ∀ s calls s' d, own s calls s' → EntriesAre (calls.flatMap (FieldMeans .code)) d → rown s d = some s')
    (hleaf : ∀ id s calls x d, leaf id s calls x → EntriesAre (calls.flatMap (FieldMeans .code)) d → ∃ r, rleaf id.get.toNat s d = some r ∧ R x r)
    (ts : List FieldTree) (depth : Nat) (hd : fieldsDepth ts ≤ depth) (parent : Ref) (h : fieldsWritten items parent ts) (s : σ) (xs : List α)
    (hx : fieldsEach own leaf s ts xs) :
    ∃ rs, collect (readFieldsWith rown rleaf f bytes depth s) (ts.map fun t => t.id.get.toNat) = some rs ∧ Pairwise R xs rs := by
  cases ts with
  | nil => simp only [fieldsEach] at hx; subst hx; exact ⟨[], rfl, .nil⟩
  | cons t ts =>
    simp only [fieldsDepth] at hd
    simp only [fieldsWritten] at h
    simp only [fieldsEach] at hx
    obtain ⟨ys, zs, k1, k2, rfl⟩ := hx
    obtain ⟨r1, h1, h2⟩ := each_read hf hown hleaf t depth (by omega) (some parent) h.1 s ys k1
    obtain ⟨r2, h3, h4⟩ := each_list hf hown hleaf ts depth (by omega) parent h.2 s zs k2
    refine ⟨r1 ++ r2, ?_, pairwise_append h2 h4⟩
    simp only [List.map_cons, collect, h1, h3, Option.bind_some, Option.map_some]
termination_by structural ts
end

theorem each_tops (hf : Finds f bytes items)
    (hown : ∀ s calls s' d, own s calls s' → EntriesAre (calls.flatMap (FieldMeans .code)) d → rown s d = some s')
    (hleaf : ∀ id s calls x d, leaf id s calls x → EntriesAre (calls.flatMap (FieldMeans .code)) d → ∃ r, rleaf id.get.toNat s d = some r ∧ R x r)
    (ts : List FieldTree) (depth : Nat) (hd : fieldsDepth ts ≤ depth) (h : ∀ t ∈ ts, t.Written items none) (s : σ) (xs : List α)
    (hx : fieldsEach own leaf s ts xs) :
    ∃ rs, collect (readFieldsWith rown rleaf f bytes depth s) (ts.map fun t => t.id.get.toNat) = some rs ∧ Pairwise R xs rs := by
  induction ts generalizing xs with
  | nil => simp only [fieldsEach] at hx; subst hx; exact ⟨[], rfl, .nil⟩
  | cons t ts ih =>
    simp only [fieldsDepth] at hd
    simp only [fieldsEach] at hx
    obtain ⟨ys, zs, k1, k2, rfl⟩ := hx
    obtain ⟨r1, h1, h2⟩ := each_read hf hown hleaf t depth (by omega) none (h t (List.mem_cons_self ..)) s ys k1
    obtain ⟨r2, h3, h4⟩ := ih (by omega) (fun t ht => h t (List.mem_cons_of_mem _ ht)) zs k2
    refine ⟨r1 ++ r2, ?_, pairwise_append h2 h4⟩
    simp only [List.map_cons, collect, h1, h3, Option.bind_some, Option.map_some]
end trees

/-! ## The form -/

theorem form_stored (hf : Finds f bytes items) {cat : List CatalogCall} {form : List FormCall} (h : FormStored items cat form) {d : List (Bytes × Val)}
    (he : EntriesAre (CatalogEntries .code cat) d) :
    ∃ v fd, lookup b!"AcroForm" d = some v ∧ followDict f bytes v = some fd ∧ EntriesAre (FormEntries form) fd := by
  rcases h with ho | ⟨id, ho, hob⟩
  · obtain ⟨v, q, hv⟩ := lookup_of he (k := b!"AcroForm") (P := IsForm form) (by simp only [CatalogEntries, List.filter_append, onlyCall_filter ho]; rfl)
    obtain ⟨fd, rfl, hfd⟩ := hv
    exact ⟨_, fd, q, rfl, hfd⟩
  · obtain ⟨w, q1, hw⟩ := finds_val hf hob
    obtain ⟨fd, rfl, hfd⟩ := form_denotes form w hw
    obtain ⟨v, q, hv⟩ := lookup_of he (k := b!"AcroForm") (P := Denotes (.prim (.ref id))) (by simp only [CatalogEntries, List.filter_append, onlyCall_filter ho]; rfl)
    simp only [Denotes, PrimDenotes] at hv
    subst hv
    exact ⟨_, fd, q, by simp only [followDict, followRef, q1], hfd⟩

end PdfW
