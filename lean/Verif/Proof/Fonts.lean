import Verif.Spec.Fonts
import Verif.Proof.Images
import Verif.Proof.Typed.Fonts
import Verif.Proof.Typed.Maps

set_option linter.unusedSimpArgs false
set_option linter.unusedVariables false

/-!
# Fonts
-/

namespace PdfW
open Spec

variable {unf : Val → Bytes → Option Bytes} {f : FileEnd} {bytes : Bytes} {items : List Item}

theorem bothOrNone_eq {α β : Type} {g : α → β} {x : Option α} {y : Option β} (h : BothOrNone (fun a b => b = g a) x y) : y = x.map g := by
  cases x <;> cases y <;> simp_all [BothOrNone]

theorem numberOf_read (x : F32) (v : Val) (h : NumIs x v) : ∃ w, numberOf v = some w ∧ NumIs x w :=
  ⟨v, by simp only [numberOf, numIs_isNumber h, if_true], h⟩

theorem rect_read (b : Rect) (v : Val) (h : IsRect b v) : ∃ vs, itemsOf v = some vs ∧ Pairwise NumIs [b.x1, b.y1, b.x2, b.y2] vs :=
  numbers_read [b.x1, b.y1, b.x2, b.y2] v h

theorem flags_read {α : Type} (iso : α → Nat) (fl : List α) (v : Val) (h : FlagsAre (fl.map iso) v) :
    ∃ n, flagsOf v = some n ∧ ∀ i, n.testBit i = true ↔ i + 1 ∈ fl.map iso := by
  obtain ⟨n, rfl, hn⟩ := h
  refine ⟨n, ?_, hn⟩
  simp [flagsOf]

/-- The stream is found, and its data is as given. -/
theorem dataStored_read (hf : Finds f bytes items) {id : Ref} {calls : List StreamCall} {stored data : Bytes}
    (ho : HasObject items id (.stream (Stream.entries calls) stored)) (hd : DataStored unf calls stored data) :
    ∃ d, f.object bytes id.get.toNat = some (.stream ((b!"Length", .int stored.length) :: d) stored) ∧ EntriesAre (StreamEntries calls) d ∧
      decodedStream unf f bytes id.get.toNat = some data := by
  obtain ⟨d, h1, h2⟩ := finds_stream hf ho
  have he := entriesAre_of (stream_implied calls) h2
  refine ⟨d, h1, he, ?_⟩
  rcases hd with ⟨hn, rfl⟩ | ⟨flt, hc, hu⟩
  · exact decoded_plain h1 he (noCall_filter hn)
  · rw [decoded_filtered (name := isoFilter flt) h1 he (by rw [StreamEntries, onlyCall_filter hc]; rfl), hu]

theorem program_read (hf : Finds f bytes items) (p : ProgramGiven) (h : p.Written unf items) (v : Val) (hv : IsRef p.id v) :
    ∃ r, ((refNumber v).bind fun n =>
      match f.object bytes n with
      | some (.stream sd _) => (optionalEntry b!"Subtype" sd nameOf).bind fun t => (decodedStream unf f bytes n).map fun data =>
          (⟨p.kind.key, t, data⟩ : ReadProgram)
      | _ => none) = some r ∧ p.Means r := by
  simp only [IsRef] at hv
  subst hv
  obtain ⟨d, h1, he, h2⟩ := dataStored_read hf h.object h.data
  have hs := optional_eq (pre := []) (read := nameOf) IsName id he rfl h.subtype
    (fun b => by simp only [StreamMeans, Denotes, PrimDenotes]; rfl) (fun b v hv => by simp only [IsName] at hv; subst hv; rfl)
  simp only [Option.map_id', Option.map_id, id] at hs
  refine ⟨⟨p.kind.key, p.subtype, p.data⟩, ?_, ⟨rfl, rfl, rfl⟩⟩
  simp only [refNumber, Option.bind_some, h1]
  rw [optional_cons (by decide), hs, h2]
  rfl

theorem programAt_read (hf : Finds f bytes items) (k : ProgramKind) (g : DescriptorGiven) (hg : g.Written unf items) {d : List (Bytes × Val)}
    (he : EntriesAre (FontDescriptorEntries g.calls) d) :
    ∃ r, readProgramAt unf f bytes d k.key = some r ∧ BothOrNone ProgramGiven.Means (g.program.filter fun p => p.kind == k) r := by
  have hm : MaybeCall FontDescriptorMeans k.key g.calls (g.program.filter fun p => p.kind == k) (fun p => k.call p.id) := by
    have := hg.program k
    cases h : g.program.filter fun p => p.kind == k <;> rw [h] at this <;> exact this
  have hin : ∀ p, (g.program.filter fun p => p.kind == k) = some p → g.program = some p ∧ p.kind = k := by
    intro p hp
    simp only [Option.filter_eq_some_iff, beq_iff_eq] at hp
    exact hp
  refine optional_call (R := ProgramGiven.Means) (P := fun p => IsRef p.id) he (by cases k <;> rfl) hm ?_ ?_
  · intro p hp
    cases k <;> rfl
  · intro p hp v hv
    obtain ⟨h1, h2⟩ := hin p hp
    obtain ⟨r, h3, h4⟩ := program_read hf p (hg.programWritten p h1) v hv
    rw [h2] at h3
    exact ⟨r, h3, h4⟩

theorem readProgram_read (hf : Finds f bytes items) (g : DescriptorGiven) (hg : g.Written unf items) {d : List (Bytes × Val)}
    (he : EntriesAre (FontDescriptorEntries g.calls) d) :
    ∃ r, readProgram unf f bytes d = some r ∧ BothOrNone ProgramGiven.Means g.program r := by
  obtain ⟨a, h1, m1⟩ := programAt_read hf .fontFile g hg he
  obtain ⟨b, h2, m2⟩ := programAt_read hf .fontFile2 g hg he
  obtain ⟨c, h3, m3⟩ := programAt_read hf .fontFile3 g hg he
  simp only [ProgramKind.key] at h1 h2 h3
  simp only [readProgram, h1, h2, h3, Option.bind_some]
  cases hp : g.program with
  | none =>
    rw [hp] at m1 m2 m3
    simp only [Option.filter_none] at m1 m2 m3
    cases a <;> cases b <;> cases c <;> first | exact m1.elim | exact m2.elim | exact m3.elim | exact ⟨none, rfl, trivial⟩
  | some p =>
    rw [hp] at m1 m2 m3
    cases hk : p.kind <;> simp only [Option.filter, hk] at m1 m2 m3 <;> simp at m1 m2 m3 <;>
      cases a <;> cases b <;> cases c <;> first
        | exact m1.elim | exact m2.elim | exact m3.elim | exact ⟨_, rfl, m1⟩ | exact ⟨_, rfl, m2⟩ | exact ⟨_, rfl, m3⟩

theorem fontDescriptor_read (hf : Finds f bytes items) (g : DescriptorGiven) (hg : g.Written unf items) :
    ∃ r, readDescriptor unf f bytes g.id.get.toNat = some r ∧ g.Means r := by
  obtain ⟨v, ho, hv⟩ := finds_val hf hg.object
  obtain ⟨d, rfl, he⟩ := fontDescriptor_denotes g.calls v hv
  have h1 := optional_eq (read := nameOf) IsName id he rfl hg.name (fun _ => rfl) (fun b v hv => by simp only [IsName] at hv; subst hv; rfl)
  obtain ⟨fl, h2, m2⟩ := optional_call (read := flagsOf) (R := fun fl (n : Nat) => ∀ i, n.testBit i = true ↔ i + 1 ∈ fl.map isoFontFlag)
    (P := fun fl => FlagsAre (fl.map isoFontFlag)) he rfl hg.flags (fun _ _ => rfl) (fun b _ v hv => flags_read isoFontFlag b v hv)
  obtain ⟨bb, h3, m3⟩ := optional_call (read := itemsOf) (R := fun (b : Rect) vs => Pairwise NumIs [b.x1, b.y1, b.x2, b.y2] vs)
    (P := IsRect) he rfl hg.bbox (fun _ _ => rfl) (fun b _ v hv => rect_read b v hv)
  obtain ⟨ia, h4, m4⟩ := optional_call (read := numberOf) (R := NumIs) (P := NumIs) he rfl hg.italicAngle (fun _ _ => rfl) (fun b _ v hv => numberOf_read b v hv)
  obtain ⟨as, h5, m5⟩ := optional_call (read := numberOf) (R := NumIs) (P := NumIs) he rfl hg.ascent (fun _ _ => rfl) (fun b _ v hv => numberOf_read b v hv)
  obtain ⟨de, h6, m6⟩ := optional_call (read := numberOf) (R := NumIs) (P := NumIs) he rfl hg.descent (fun _ _ => rfl) (fun b _ v hv => numberOf_read b v hv)
  obtain ⟨ch, h7, m7⟩ := optional_call (read := numberOf) (R := NumIs) (P := NumIs) he rfl hg.capHeight (fun _ _ => rfl) (fun b _ v hv => numberOf_read b v hv)
  obtain ⟨sv, h8, m8⟩ := optional_call (read := numberOf) (R := NumIs) (P := NumIs) he rfl hg.stemV (fun _ _ => rfl) (fun b _ v hv => numberOf_read b v hv)
  obtain ⟨pr, h9, m9⟩ := readProgram_read hf g hg he
  simp only [Option.map_id', Option.map_id, id] at h1
  refine ⟨⟨g.name, fl, bb, ia, as, de, ch, sv, pr⟩, ?_, ⟨rfl, m2, m3, m4, m5, m6, m7, m8, m9⟩⟩
  simp only [readDescriptor, ho, h1, h2, h3, h4, h5, h6, h7, h8, h9, Option.bind_some, Option.map_some]

theorem descriptorSet_read {α : Type} {means : α → List (Bytes × (Val → Prop))} {call : Ref → α} {pre : List (Bytes × (Val → Prop))}
    (hf : Finds f bytes items) {calls : List α} {g : Option DescriptorGiven} (h : DescriptorSet means call unf items calls g)
    {d : List (Bytes × Val)} (he : EntriesAre (pre ++ calls.flatMap means) d) (hp : pre.filter (fun e => e.1 == b!"FontDescriptor") = [])
    (hc : ∀ id, (means (call id)).filter (fun e => e.1 == b!"FontDescriptor") = [(b!"FontDescriptor", IsRef id)]) :
    ∃ r, optionalEntry b!"FontDescriptor" d (fun v => (refNumber v).bind (readDescriptor unf f bytes)) = some r ∧
      BothOrNone DescriptorGiven.Means g r := by
  have hm : MaybeCall means b!"FontDescriptor" calls g (fun x => call x.id) := by
    have := h.1
    cases g <;> exact this
  refine optional_call (P := fun x => IsRef x.id) he hp hm (fun b _ => hc b.id) ?_
  intro b hb v hv
  simp only [IsRef] at hv
  subst hv
  exact fontDescriptor_read hf b (h.2 b hb)

theorem encodingSet_read {α : Type} {means : α → List (Bytes × (Val → Prop))} {named : Bytes → α} {custom : List EncodingCall → α}
    {pre : List (Bytes × (Val → Prop))} {calls : List α} {g : Option EncodingGiven} (h : EncodingSet means named custom calls g)
    {d : List (Bytes × Val)} (he : EntriesAre (pre ++ calls.flatMap means) d) (hp : pre.filter (fun e => e.1 == b!"Encoding") = [])
    (hn : ∀ n, (means (named n)).filter (fun e => e.1 == b!"Encoding") = [(b!"Encoding", IsName n)])
    (hc : ∀ cs, (means (custom cs)).filter (fun e => e.1 == b!"Encoding") = [(b!"Encoding", IsEncoding cs)]) :
    optionalEntry b!"Encoding" d readEncoding = some (g.map EncodingGiven.value) := by
  obtain ⟨h1, h2⟩ := h
  cases g with
  | none =>
    refine optional_absent he ?_
    rw [List.filter_append, hp, List.nil_append]
    exact noCall_filter h1
  | some x =>
    cases x with
    | predefined n =>
      have hfl : (pre ++ calls.flatMap means).filter (fun e => e.1 == b!"Encoding") = [(b!"Encoding", IsName n)] := by
        rw [List.filter_append, hp, List.nil_append, onlyCall_filter h1, hn]
      obtain ⟨a, ha, hq⟩ := optional_present (read := readEncoding) he hfl (Q := fun y => y = ReadEncoding.predefined n) (by
        intro v hv
        simp only [IsName] at hv
        subst hv
        exact ⟨_, rfl, rfl⟩)
      rw [ha, hq]
      rfl
    | custom cs base ds =>
      have hfl : (pre ++ calls.flatMap means).filter (fun e => e.1 == b!"Encoding") = [(b!"Encoding", IsEncoding cs)] := by
        rw [List.filter_append, hp, List.nil_append, onlyCall_filter h1, hc]
      obtain ⟨g1, g2, g3⟩ := h2 _ rfl
      obtain ⟨a, ha, hq⟩ := optional_present (read := readEncoding) he hfl (Q := fun y => y = (EncodingGiven.custom cs base ds).value) (by
        rintro v ⟨e, rfl, hv⟩
        have q1 := optional_eq (read := nameOf) IsName id hv rfl g1 (fun _ => rfl) (fun b v hv => by simp only [IsName] at hv; subst hv; rfl)
        obtain ⟨y, q2, q3⟩ := optional_call (read := fun v => (itemsOf v).bind (readDifferences none)) (R := fun ds y => y = ds.flatMap differencesGiven)
          (P := IsDifferences) hv rfl g2 (fun _ _ => rfl) (by
            rintro b hb v ⟨vs, rfl, hvs⟩
            exact ⟨_, by simp only [itemsOf, Option.bind_some, gives_names b (g3 b hb) hvs none], rfl⟩)
        simp only [Option.map_id', Option.map_id, id] at q1
        refine ⟨.custom base (y.getD []), by simp only [readEncoding, q1, q2, Option.bind_some, Option.map_some], ?_⟩
        rw [bothOrNone_eq q3]
        cases ds <;> rfl)
      rw [ha, hq]
      rfl

theorem consecutive_means (c : Int) {ws : List F32} {vs : List Val} (h : ItemsAre (ws.map fun x => NumIs x) vs) :
    vs.all isNumber = true ∧ vs.length = ws.length ∧ WidthsMean (consecutiveFrom c ws) (consecutiveFrom c vs) := by
  induction ws generalizing vs c with
  | nil => simp only [List.map_nil, ItemsAre] at h; subst h; exact ⟨rfl, rfl, .nil⟩
  | cons w ws ih =>
    obtain ⟨v, vs, rfl, hv, h⟩ := h
    obtain ⟨h1, h2, h3⟩ := ih (c + 1) h
    exact ⟨by simp [numIs_isNumber hv, h1], by simp [h2], .cons ⟨rfl, hv⟩ h3⟩

theorem simpleWidths_read {α : Type} {means : α → List (Bytes × (Val → Prop))} {first last : UInt8 → α} {widths : List F32 → α}
    {pre : List (Bytes × (Val → Prop))} {calls : List α} {ws : List (Int × F32)} (h : SimpleWidthsSet means first last widths calls ws)
    {d : List (Bytes × Val)} (he : EntriesAre (pre ++ calls.flatMap means) d)
    (hp1 : pre.filter (fun e => e.1 == b!"FirstChar") = []) (hp2 : pre.filter (fun e => e.1 == b!"LastChar") = [])
    (hp3 : pre.filter (fun e => e.1 == b!"Widths") = [])
    (h1 : ∀ n, (means (first n)).filter (fun e => e.1 == b!"FirstChar") = [(b!"FirstChar", IsInt n.toNat)])
    (h2 : ∀ n, (means (last n)).filter (fun e => e.1 == b!"LastChar") = [(b!"LastChar", IsInt n.toNat)])
    (h3 : ∀ xs, (means (widths xs)).filter (fun e => e.1 == b!"Widths") = [(b!"Widths", ArrayIs (xs.map fun x => NumIs x))]) :
    ∃ r, readSimpleWidths d = some r ∧ WidthsMean ws r := by
  rcases h with ⟨hn, rfl⟩ | ⟨a, b, xs, ho1, ho2, ho3, hl, rfl⟩
  · refine ⟨[], ?_, .nil⟩
    simp only [readSimpleWidths]
    rw [optional_absent he (by rw [List.filter_append, hp3, List.nil_append]; exact noCall_filter hn)]
    rfl
  · obtain ⟨w1, q1, e1⟩ := lookup_of he (k := b!"FirstChar") (by rw [List.filter_append, hp1, List.nil_append, onlyCall_filter ho1, h1])
    obtain ⟨w2, q2, e2⟩ := lookup_of he (k := b!"LastChar") (by rw [List.filter_append, hp2, List.nil_append, onlyCall_filter ho2, h2])
    simp only [IsInt] at e1 e2
    subst e1 e2
    obtain ⟨vs, q3, q4, q5, q6⟩ := optional_present (read := fun v => (itemsOf v).bind fun ws => if ws.all isNumber then some ws else none) he
      (k := b!"Widths") (by rw [List.filter_append, hp3, List.nil_append, onlyCall_filter ho3, h3])
      (Q := fun vs => vs.all isNumber = true ∧ vs.length = xs.length ∧ WidthsMean (consecutiveFrom a.toNat xs) (consecutiveFrom a.toNat vs)) (by
        rintro v ⟨vs, rfl, hv⟩
        have := consecutive_means a.toNat hv
        exact ⟨vs, by simp only [itemsOf, Option.bind_some, this.1, if_true], this⟩)
    refine ⟨_, ?_, q6⟩
    simp only [readSimpleWidths]
    rw [q3, q1, q2]
    simp only [Option.bind_some, intOf]
    rw [if_pos (by rw [q5]; exact hl)]

/-! ## CIDFonts -/

theorem pairsOf_gids (gids : List UInt16) : pairsOf (gids.flatMap fun g => [UInt8.ofNat (g.toNat / 256), UInt8.ofNat (g.toNat % 256)]) =
    some (gids.map UInt16.toNat) := by
  induction gids with
  | nil => rfl
  | cons g gids ih =>
    have h := g.toNat_lt
    simp only [List.flatMap_cons, List.cons_append, List.nil_append, pairsOf, ih, Option.map_some, List.map_cons, Option.some.injEq, List.cons.injEq,
      and_true, UInt8.toNat_ofNat']
    omega

theorem gids_read (hf : Finds f bytes items) {calls : List CidFontCall} {g : Option GidsGiven} (h : GidsSet unf items calls g)
    {d : List (Bytes × Val)} (he : EntriesAre (CidFontEntries calls) d) :
    optionalEntry b!"CIDToGIDMap" d (readGids unf f bytes) = some (g.map GidsGiven.value) := by
  cases g with
  | none =>
    refine optional_absent he ?_
    simp only [GidsSet] at h
    simp only [CidFontEntries, List.filter_append, noCall_filter h]; rfl
  | some x =>
    cases x with
    | predefined n =>
      simp only [GidsSet] at h
      obtain ⟨a, ha, hq⟩ := optional_present (read := readGids unf f bytes) he (k := b!"CIDToGIDMap") (P := IsName n)
        (by simp only [CidFontEntries, List.filter_append, onlyCall_filter h]; rfl) (Q := fun y => y = ReadGids.predefined n) (by
        intro v hv
        simp only [IsName] at hv
        subst hv
        exact ⟨_, rfl, rfl⟩)
      rw [ha, hq]
      rfl
    | map id cs stored gids =>
      obtain ⟨h1, h2, h3⟩ := h
      obtain ⟨_, _, _, q⟩ := dataStored_read hf h2 h3
      obtain ⟨a, ha, hq⟩ := optional_present (read := readGids unf f bytes) he (k := b!"CIDToGIDMap") (P := IsRef id)
        (by simp only [CidFontEntries, List.filter_append, onlyCall_filter h1]; rfl) (Q := fun y => y = ReadGids.map (gids.map UInt16.toNat)) (by
        intro v hv
        simp only [IsRef] at hv
        subst hv
        exact ⟨_, by simp only [readGids, q, Option.bind_some, pairsOf_gids, Option.map_some], rfl⟩)
      rw [ha, hq]
      rfl

theorem pairwise_swap {α β : Type} {R : α → β → Prop} {S : β → α → Prop} (h : ∀ a b, R a b → S b a) {as : List α} {bs : List β}
    (hp : Pairwise R as bs) : Pairwise S bs as := by
  induction hp with
  | nil => exact .nil
  | cons h1 _ ih => exact .cons (h _ _ h1) ih

theorem cidFont_read (hf : Finds f bytes items) (g : CidFontGiven) (hg : g.Written unf items) :
    ∃ r, readCidFont unf f bytes g.id.get.toNat = some r ∧ g.Means r := by
  obtain ⟨v, ho, hv⟩ := finds_val hf hg.object
  obtain ⟨d, rfl, he⟩ := cidFont_denotes g.calls v hv
  obtain ⟨w1, l1, e1⟩ := lookup_of he (k := b!"Subtype") (P := IsName (isoCidFontType g.subtype))
    (by simp only [CidFontEntries, List.filter_append, onlyCall_filter hg.subtype]; rfl)
  obtain ⟨w2, l2, s, rfl, hs⟩ := lookup_of he (k := b!"CIDSystemInfo") (P := IsSystemInfo g.info)
    (by simp only [CidFontEntries, List.filter_append, onlyCall_filter hg.info]; rfl)
  obtain ⟨s1, t1, u1⟩ := lookup_of hs (k := b!"Registry") rfl
  obtain ⟨s2, t2, u2⟩ := lookup_of hs (k := b!"Ordering") rfl
  obtain ⟨s3, t3, u3⟩ := lookup_of hs (k := b!"Supplement") rfl
  simp only [IsName, IsStr, IsInt] at e1 u1 u2 u3
  subst e1 u1 u2 u3
  have h1 := optional_eq (read := nameOf) IsName id he rfl hg.base (fun _ => rfl) (fun b v hv => by simp only [IsName] at hv; subst hv; rfl)
  obtain ⟨dw, h2, m2⟩ := optional_call (read := numberOf) (R := NumIs) (P := NumIs) he rfl hg.defaultWidth (fun _ _ => rfl) (fun b _ v hv => numberOf_read b v hv)
  obtain ⟨ws, h3, m3⟩ := optional_call (read := fun v => (itemsOf v).bind readW) (R := fun cs as => WidthsMean (cs.flatMap widthsGiven) as)
    (P := IsWidths) he rfl hg.widths (fun _ _ => rfl) (by
      rintro b hb v ⟨vs, rfl, hvs⟩
      obtain ⟨as, k1, k2⟩ := gives_widths b (hg.widthsTyped b hb) hvs
      exact ⟨as, by simp only [itemsOf, Option.bind_some, k1], pairwise_swap (fun _ _ h => h) k2⟩)
  have h4 := gids_read hf hg.gids he
  obtain ⟨de, h5, m5⟩ := descriptorSet_read hf hg.descriptor he rfl (fun _ => rfl)
  simp only [Option.map_id', Option.map_id, id] at h1
  refine ⟨⟨isoCidFontType g.subtype, g.base, g.info.registry, g.info.ordering, g.info.supplement, dw, ws.getD [], g.gids.map GidsGiven.value, de⟩, ?_,
    ⟨rfl, rfl, rfl, rfl, rfl, m2, ?_, rfl, m5⟩⟩
  · simp only [readCidFont, ho, l1, l2, h1, t1, t2, t3, nameOf, strOf, intOf, h2, h3, h4, h5, Option.bind_some, Option.map_some]
  · generalize g.widths = gw at m3
    cases gw <;> cases ws <;> first | exact m3.elim | exact m3 | exact .nil

/-! ## Fonts -/

theorem part_content (hf : Finds f bytes items) (c : ContentPart) (hw : PartWritten unf items c) :
    ∃ ops, (decodedStream unf f bytes c.id.get.toNat).bind readContent = some ops ∧ AllMean c.calls ops := by
  obtain ⟨E, h1, h2, h3⟩ := part_data hf c hw
  refine ⟨callOps c.calls, ?_, allMean_callOps _ hw.2.2.1⟩
  rw [h1]
  refine readContent_of (m := c.calls.length + 1) (by omega) ?_
  simpa using h3 [] [] 1 rfl readsOps_nil

theorem glyphs_read (hf : Finds f bytes items) (glyphs : List (Bytes × ContentPart)) (hw : ∀ g ∈ glyphs, PartWritten unf items g.2)
    (d : List (Bytes × Val)) (he : EntriesAre ((glyphs.map fun g => (g.1, g.2.id)).map fun e => (e.1, IsRef e.2)) d) :
    ∃ rs, readGlyphs unf f bytes (.dict d) = some rs ∧ Pairwise (fun g (r : Bytes × List ReadOp) => r.1 = g.1 ∧ AllMean g.2.calls r.2) glyphs rs := by
  simp only [readGlyphs]
  induction glyphs generalizing d with
  | nil => simp only [List.map_nil, EntriesAre] at he; subst he; exact ⟨[], rfl, .nil⟩
  | cons g glyphs ih =>
    simp only [List.map_cons, EntriesAre] at he
    obtain ⟨w, ws, rfl, hv, he⟩ := he
    simp only [IsRef] at hv
    subst hv
    obtain ⟨rs, h1, h2⟩ := ih (fun x hx => hw x (by simp [hx])) ws he
    obtain ⟨ops, h3, h4⟩ := part_content hf g.2 (hw g (by simp))
    refine ⟨(g.1, ops) :: rs, ?_, .cons ⟨rfl, h4⟩ h2⟩
    rw [readEach, h1, show refNumber (.ref g.2.id.get.toNat 0) = some g.2.id.get.toNat from rfl]
    simp only [Option.bind_some, h3, Option.map_some]

theorem fontGiven_dict (g : FontGiven) : ∃ es, g.prog = .dict es ∧
    (∀ d, DenotesEntries es d → match g with
      | .type1 calls .. => EntriesAre (Type1FontEntries calls) d
      | .type3 calls .. => EntriesAre (Type3FontEntries calls) d
      | .type0 calls .. => EntriesAre (Type0FontEntries calls) d) := by
  cases g with
  | type1 calls => exact ⟨_, rfl, fun d hd => entriesAre_of (type1Font_implied calls) hd⟩
  | type3 calls => exact ⟨_, rfl, fun d hd => entriesAre_of (type3Font_implied calls) hd⟩
  | type0 calls => exact ⟨_, rfl, fun d hd => entriesAre_of (type0Font_implied calls) hd⟩

theorem readFont_read (hf : Finds f bytes items) (g : FontGiven) (hg : g.Written unf items) {v : Prog} {w : Val} (hs : Stored items v g.prog)
    (hw : Denotes v w) : ∃ r, (followDict f bytes w).bind (readFont unf f bytes) = some r ∧ g.Means r := by
  obtain ⟨es, hp, hes⟩ := fontGiven_dict g
  rw [hp] at hs
  obtain ⟨d, h1, h2⟩ := followDict_stored hf hs hw
  have he := hes d h2
  rw [h1, Option.bind_some]
  cases g with
  | type1 calls base enc ws desc =>
    obtain ⟨g1, g2, g3, g4, g5⟩ := hg
    simp only at he
    obtain ⟨w1, l1, e1⟩ := lookup_of he (k := b!"Subtype") (P := IsName b!"Type1")
      (by simp only [Type1FontEntries, List.filter_append, noCall_filter g1]; rfl)
    simp only [IsName] at e1
    subst e1
    have q1 := optional_eq (read := nameOf) IsName id he rfl g2 (fun _ => rfl) (fun b v hv => by simp only [IsName] at hv; subst hv; rfl)
    have q2 := encodingSet_read g3 he rfl (fun _ => rfl) (fun _ => rfl)
    obtain ⟨ws', q3, m3⟩ := simpleWidths_read g4 he rfl rfl rfl (fun _ => rfl) (fun _ => rfl) (fun _ => rfl)
    obtain ⟨de, q4, m4⟩ := descriptorSet_read hf g5 he rfl (fun _ => rfl)
    simp only [Option.map_id', Option.map_id, id] at q1
    refine ⟨_, ?_, ws', de, rfl, m3, m4⟩
    simp only [readFont, l1, nameOf, Option.bind_some]
    rw [if_pos (by simp)]
    simp only [q1, q2, q3, q4, Option.bind_some, Option.map_some]
  | type3 calls matrix enc ws glyphs =>
    obtain ⟨g1, g2, g3, g4, g5, g6⟩ := hg
    simp only at he
    obtain ⟨w1, l1, e1⟩ := lookup_of he (k := b!"Subtype") (P := IsName b!"Type3")
      (by simp only [Type3FontEntries, List.filter_append, noCall_filter g1]; rfl)
    simp only [IsName] at e1
    subst e1
    obtain ⟨m, q1, m1⟩ := optional_call (read := itemsOf) (R := Pairwise NumIs) (P := fun xs => ArrayIs (xs.map fun x => NumIs x))
      he rfl g2 (fun _ _ => rfl) (fun b _ v hv => numbers_read b v hv)
    have q2 := encodingSet_read g3 he rfl (fun _ => rfl) (fun _ => rfl)
    obtain ⟨ws', q3, m3⟩ := simpleWidths_read g4 he rfl rfl rfl (fun _ => rfl) (fun _ => rfl) (fun _ => rfl)
    obtain ⟨w2, l2, cd, rfl, hcd⟩ := lookup_of he (k := b!"CharProcs") (P := DictIs ((glyphs.map fun g => (g.1, g.2.id)).map fun e => (e.1, IsRef e.2)))
      (by simp only [Type3FontEntries, List.filter_append, onlyCall_filter g5]; rfl)
    obtain ⟨rs, q4, m4⟩ := glyphs_read hf glyphs g6 cd hcd
    refine ⟨_, ?_, m, ws', rs, rfl, m1, m3, m4⟩
    simp only [readFont, l1, nameOf, Option.bind_some]
    rw [if_neg (by decide), if_pos (by simp)]
    simp only [q1, q2, q3, l2, q4, Option.bind_some, Option.map_some]
  | type0 calls base enc cid =>
    obtain ⟨g1, g2, g3, g4, g5⟩ := hg
    simp only at he
    obtain ⟨w1, l1, e1⟩ := lookup_of he (k := b!"Subtype") (P := IsName b!"Type0")
      (by simp only [Type0FontEntries, List.filter_append, noCall_filter g1]; rfl)
    obtain ⟨w2, l2, e2⟩ := lookup_of he (k := b!"Encoding") (P := IsName enc)
      (by simp only [Type0FontEntries, List.filter_append, onlyCall_filter g3]; rfl)
    obtain ⟨w3, l3, vs, rfl, hvs⟩ := lookup_of he (k := b!"DescendantFonts") (P := ArrayIs [IsRef cid.id])
      (by simp only [Type0FontEntries, List.filter_append, onlyCall_filter g4]; rfl)
    simp only [IsName] at e1 e2
    subst e1 e2
    simp only [ItemsAre] at hvs
    obtain ⟨w4, _, rfl, hw4, rfl⟩ := hvs
    simp only [IsRef] at hw4
    subst hw4
    have q1 := optional_eq (read := nameOf) IsName id he rfl g2 (fun _ => rfl) (fun b v hv => by simp only [IsName] at hv; subst hv; rfl)
    simp only [Option.map_id', Option.map_id, id] at q1
    obtain ⟨r, q2, m2⟩ := cidFont_read hf cid g5
    refine ⟨_, ?_, r, rfl, m2⟩
    simp only [readFont, l1, nameOf, Option.bind_some]
    rw [if_neg (by decide), if_neg (by decide), if_pos (by simp)]
    simp only [q1, l2, l3, nameOf, refNumber, q2, Option.bind_some, Option.map_some]

/-! ## Pages -/

theorem fontDict_read (hf : Finds f bytes items) (es : List (Bytes × Prog)) (fonts : List (Bytes × FontGiven))
    (h : Pairwise (fun e g => e.1 = g.1 ∧ Stored items e.2 g.2.prog ∧ g.2.Written unf items) es fonts) (d : List (Bytes × Val))
    (hd : DenotesEntries es d) :
    ∃ rs, readEach (fun e => ((followDict f bytes e.2).bind (readFont unf f bytes)).map fun x => (e.1, x)) d = some rs ∧ FontsMean fonts rs := by
  induction h generalizing d with
  | nil => simp only [DenotesEntries] at hd; subst hd; exact ⟨[], rfl, .nil⟩
  | @cons e g es gs h1 _ ih =>
    obtain ⟨key, x⟩ := e
    simp only [DenotesEntries] at hd
    obtain ⟨w, ws, rfl, hv, hd⟩ := hd
    obtain ⟨hk, hs, hw⟩ := h1
    obtain ⟨r, q1, q2⟩ := readFont_read hf g.2 hw hs hv
    obtain ⟨rs, q3, q4⟩ := ih ws hd
    exact ⟨(key, r) :: rs, by simp only [readEach, q1, Option.map_some, Option.bind_some, q3], .cons ⟨hk, q2⟩ q4⟩

theorem pageFonts_read (hf : Finds f bytes items) (id : Ref) (res : Option (List ResourcesCall))
    (calls : List ContentCall) (x : List (Bytes × FontGiven)) (rv : Option Val) (d : List (Bytes × Val)) (ops : List ReadOp)
    (hx : FontsSet unf items res x) (hr : ResRead f bytes res rv) (hops : pageOperations unf f bytes d = some ops)
    (hm : AllMean calls ops) : ∃ y, readPageFonts unf f bytes id.get.toNat rv d = some y ∧ FontsMean x y := by
  cases res with
  | none =>
    simp only [ResRead] at hr
    simp only [FontsSet] at hx
    subst hr hx
    exact ⟨[], rfl, .nil⟩
  | some rc =>
    obtain ⟨w, rd, rfl, h1, h2⟩ := hr
    simp only [FontsSet] at hx
    rcases hx with ⟨hn, rfl⟩ | ⟨es, hc, hp⟩
    · refine ⟨[], ?_, .nil⟩
      simp only [readPageFonts, h1, Option.bind_some]
      rw [optional_absent h2 (by simp only [ResourcesEntries, noCall_filter hn])]
      rfl
    · obtain ⟨v, fd, l1, l2, l3⟩ := categorySet_reads hf rfl hc h2
      obtain ⟨rs, q1, q2⟩ := fontDict_read hf es x hp fd l3
      refine ⟨rs, ?_, q2⟩
      simp only [readPageFonts, h1, Option.bind_some]
      have hpres : optionalEntry b!"Font" rd (fun v => (followDict f bytes v).bind
          (readEach fun e => ((followDict f bytes e.2).bind (readFont unf f bytes)).map fun x => (e.1, x))) = some (some rs) := by
        rcases hc with ho | ⟨i, ho, hob⟩ <;>
        · simp only [optionalEntry]
          rw [present_of h2 (by simp only [ResourcesEntries, onlyCall_filter ho]; rfl), l1]
          simp only [Option.bind_some, l2, q1, Option.map_some]
          rfl
      rw [hpres]
      rfl

end PdfW
