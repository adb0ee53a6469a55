import Verif.Spec.Extract
import Verif.Proof.Document
import Verif.Proof.Typed.Fonts
import Verif.Props.Cmap

set_option linter.unusedSimpArgs false
set_option linter.unusedVariables false

/-!
# Extracting text
-/

namespace PdfW
open Spec

variable {unf : Val → Bytes → Option Bytes} {f : FileEnd} {bytes : Bytes} {items : List Item}

/-! ## Streams -/

theorem decoded_plain {n : Nat} {ms : List (Bytes × (Val → Prop))} {d : List (Bytes × Val)} {data : Bytes}
    (ho : f.object bytes n = some (.stream ((b!"Length", .int data.length) :: d) data)) (he : EntriesAre ms d)
    (hm : ms.filter (fun e => e.1 == b!"Filter") = []) : decodedStream unf f bytes n = some data := by
  have hab := absent_of he hm
  have : (((b!"Length", Val.int (data.length : Int)) :: d).all fun e => e.1 != b!"Filter") = true := by
    rw [List.all_cons, hab]; rfl
  simp only [decodedStream, ho, unfiltered]
  rw [if_pos this]

theorem decoded_filtered {n : Nat} {ms : List (Bytes × (Val → Prop))} {d : List (Bytes × Val)} {data name : Bytes}
    (ho : f.object bytes n = some (.stream ((b!"Length", .int data.length) :: d) data)) (he : EntriesAre ms d)
    (hm : ms.filter (fun e => e.1 == b!"Filter") = [(b!"Filter", IsName name)]) : decodedStream unf f bytes n = unf (.name name) data := by
  obtain ⟨w, hl, hw⟩ := lookup_of he hm
  have hpr := present_of he hm
  have h0 : (((b!"Length", Val.int (data.length : Int)) :: d).all fun e => e.1 != b!"Filter") = false := by
    rw [List.all_cons, hpr]; rfl
  have h1 : lookup b!"Filter" ((b!"Length", Val.int (data.length : Int)) :: d) = some w := by
    rw [← hl]; unfold lookup
    rw [List.filter_cons_of_neg (by show ¬ (b!"Length" == b!"Filter") = true; decide)]
  simp only [decodedStream, ho, unfiltered]
  rw [if_neg (by rw [h0]; decide), h1]
  simp only [IsName] at hw
  rw [hw]

/-! ## Following references -/

theorem followDict_ref (hf : Finds f bytes items) {id : Ref} {es : List (Bytes × Prog)} {w : Val}
    (h : HasObject items id (.val (.dict es))) (hw : w = .ref id.get.toNat 0) :
    ∃ d, followDict f bytes w = some d ∧ DenotesEntries es d := by
  obtain ⟨v, ho, hv⟩ := finds_val hf h
  simp only [Denotes] at hv
  obtain ⟨d, rfl, hd⟩ := hv
  exact ⟨d, by subst hw; simp only [followDict, followRef, ho], hd⟩

theorem followDict_stored (hf : Finds f bytes items) {v : Prog} {es : List (Bytes × Prog)} {w : Val} (h : Stored items v (.dict es))
    (hw : Denotes v w) : ∃ d, followDict f bytes w = some d ∧ DenotesEntries es d := by
  rcases h with rfl | ⟨id, rfl, ho⟩
  · simp only [Denotes] at hw
    obtain ⟨d, rfl, hd⟩ := hw
    exact ⟨d, rfl, hd⟩
  · simp only [Denotes, PrimDenotes] at hw
    exact followDict_ref hf ho hw

/-- The resources as read are the resources as set. -/
def ResRead (f : FileEnd) (bytes : Bytes) : Option (List ResourcesCall) → Option Val → Prop
  | none, v => v = none
  | some rc, v => ∃ w d, v = some w ∧ followDict f bytes w = some d ∧ EntriesAre (ResourcesEntries rc) d

theorem denotesEntries_filter {es : List (Bytes × Prog)} {d : List (Bytes × Val)} (h : DenotesEntries es d) (k : Bytes) :
    DenotesEntries (es.filter (fun e => e.1 == k)) (d.filter (fun e => e.1 == k)) := by
  induction es generalizing d with
  | nil => simp only [DenotesEntries] at h; subst h; simp [DenotesEntries]
  | cons m ms ih =>
    obtain ⟨key, x⟩ := m
    simp only [DenotesEntries] at h
    obtain ⟨w, ws, rfl, hm, hr⟩ := h
    by_cases hk : (key == k) = true
    · rw [List.filter_cons_of_pos (by simpa using hk), List.filter_cons_of_pos (by simpa using hk)]
      simp only [DenotesEntries]
      exact ⟨w, _, rfl, hm, ih hr⟩
    · rw [List.filter_cons_of_neg (by simpa using hk), List.filter_cons_of_neg (by simpa using hk)]
      exact ih hr

theorem denotesEntries_of_dictIs (es : List (Bytes × Prog)) (d : List (Bytes × Val))
    (h : EntriesAre (es.map fun e => (e.1, Denotes e.2)) d) : DenotesEntries es d := by
  induction es generalizing d with
  | nil => simpa [EntriesAre, DenotesEntries] using h
  | cons e es ih =>
    obtain ⟨k, x⟩ := e
    obtain ⟨w, ws, rfl, hw, hr⟩ := h
    simp only [DenotesEntries]
    exact ⟨w, ws, rfl, hw, ih ws hr⟩

theorem categorySet_reads (hf : Finds f bytes items) {rc : List ResourcesCall} {key : Bytes} {inPlace : List (Bytes × Prog) → ResourcesCall}
    {es : List (Bytes × Prog)} (hi : ResourcesMeans (inPlace es) = [(key, DictIs (es.map fun e => (e.1, Denotes e.2)))])
    (h : CategorySet items rc key inPlace es) {d : List (Bytes × Val)} (hd : EntriesAre (ResourcesEntries rc) d) :
    ∃ w d', lookup key d = some w ∧ followDict f bytes w = some d' ∧ DenotesEntries es d' := by
  rcases h with ho | ⟨id, ho, hob⟩
  · have hfl : (ResourcesEntries rc).filter (fun e => e.1 == key) = [(key, DictIs (es.map fun e => (e.1, Denotes e.2)))] := by
      rw [show ResourcesEntries rc = rc.flatMap ResourcesMeans from rfl, onlyCall_filter ho, hi]
      simp
    obtain ⟨w, hl, d', rfl, hd'⟩ := lookup_of hd hfl
    exact ⟨_, d', hl, rfl, denotesEntries_of_dictIs es d' hd'⟩
  · have hfl : (ResourcesEntries rc).filter (fun e => e.1 == key) = [(key, Denotes (.prim (.ref id)))] := by
      rw [show ResourcesEntries rc = rc.flatMap ResourcesMeans from rfl, onlyCall_filter ho]
      simp [ResourcesMeans]
    obtain ⟨w, hl, hw⟩ := lookup_of hd hfl
    simp only [Denotes, PrimDenotes] at hw
    obtain ⟨d', h1, h2⟩ := followDict_ref hf hob hw
    exact ⟨w, d', hl, h1, h2⟩

/-- A named resource. -/
theorem namedResource_reads (hf : Finds f bytes items) {res : Option (List ResourcesCall)} {rv : Option Val} (hr : ResRead f bytes res rv)
    {key : Bytes} {inPlace : List (Bytes × Prog) → ResourcesCall}
    (hi : ∀ es, ResourcesMeans (inPlace es) = [(key, DictIs (es.map fun e => (e.1, Denotes e.2)))]) {name : Bytes} {content : List (Bytes × Prog)}
    (h : ∃ rc es v, res = some rc ∧ CategorySet items rc key inPlace es ∧ es.filter (fun e => e.1 == name) = [(name, v)] ∧
      Stored items v (.dict content)) :
    ∃ d, namedResource f bytes rv key name = some d ∧ DenotesEntries content d := by
  obtain ⟨rc, es, v, rfl, hc, hn, hs⟩ := h
  obtain ⟨w, d, rfl, h1, h2⟩ := hr
  obtain ⟨w', d', h3, h4, h5⟩ := categorySet_reads hf (hi es) hc h2
  have h6 := denotesEntries_filter h5 name
  rw [hn] at h6
  simp only [DenotesEntries] at h6
  obtain ⟨w'', ws, he, hv, rfl⟩ := h6
  obtain ⟨d'', h7, h8⟩ := followDict_stored hf hs hv
  refine ⟨d'', ?_, h8⟩
  have hl : lookup name d' = some w'' := by simp [lookup, he]
  simp only [namedResource, Option.bind_some, h1, h3, h4, hl, h7]

/-! ## Fonts -/

/-- What extraction must find out about a font. -/
def Spec.FontKind.text : FontKind → FontText
  | .type0 _ m => ⟨2, m.map fun c => (CharCode.code c.entry.1, c.entry.2)⟩
  | .type1 _ m | .type3 _ m => ⟨1, m.map fun c => (CharCode.code c.entry.1, c.entry.2)⟩

/-- The bytes per code. -/
theorem cmapData_reads (k : FontKind) (name : Bytes) (info : SystemInfo) (mode : WMode) (hn : OneLine name) (hr : OneLine info.registry)
    (ho : OneLine info.ordering) :
    ∃ u, readToUnicode (k.cmapData name info mode) = some u ∧ u.sections.flatten = k.text.entries ∧
      (u.codespace.all fun r => r.1.length == k.text.width && r.2.length == k.text.width) = true := by
  cases k with
  | type0 calls m =>
    obtain ⟨secs, h1, h2, -⟩ := Props.cmap_reads_back name info mode m hn hr ho
    exact ⟨_, h1, h2, rfl⟩
  | type1 calls m =>
    obtain ⟨secs, h1, h2, -⟩ := Props.cmap_reads_back name info mode m hn hr ho
    exact ⟨_, h1, h2, rfl⟩
  | type3 calls m =>
    obtain ⟨secs, h1, h2, -⟩ := Props.cmap_reads_back name info mode m hn hr ho
    exact ⟨_, h1, h2, rfl⟩

theorem cmap_decoded (hf : Finds f bytes items) (p : FontPart) (ho : HasObject items p.cmapId (.stream (CmapStream.entries p.stream) p.data))
    (hs : CmapStored unf p) : decodedStream unf f bytes p.cmapId.get.toNat = some (p.kind.cmapData p.cmapName p.info p.mode) := by
  obtain ⟨d, h1, h2⟩ := finds_stream hf ho
  have he := entriesAre_of (cmapStream_implied p.stream) h2
  have hfl : (CmapStreamEntries p.stream).filter (fun e => e.1 == b!"Filter") =
      (p.stream.flatMap CmapStreamMeans).filter (fun e => e.1 == b!"Filter") := by
    simp only [CmapStreamEntries, List.filter_append]; rfl
  rcases hs with ⟨hn, hd⟩ | ⟨flt, hc, hu⟩
  · rw [noCall_filter hn] at hfl
    rw [decoded_plain h1 he hfl, hd]
  · rw [onlyCall_filter hc] at hfl
    rw [decoded_filtered (name := isoFilter flt) h1 he (by rw [hfl]; rfl), hu]

theorem readFontText_of {d : List (Bytes × Val)} {t : Bytes} {n w : Nat} {data : Bytes} {u : ToUnicode}
    (h1 : lookup b!"Subtype" d = some (.name t)) (h2 : lookup b!"ToUnicode" d = some (.ref n 0))
    (h3 : codeWidth t (lookup b!"Encoding" d) = some w) (h4 : decodedStream unf f bytes n = some data) (h5 : readToUnicode data = some u)
    (h6 : (u.codespace.all fun r => r.1.length == w && r.2.length == w) = true) :
    readFontText unf f bytes d = some ⟨w, u.sections.flatten⟩ := by
  simp only [readFontText, h1, h2, h3, h4, h5, Option.bind_some]
  rw [if_pos h6]

theorem kind_entries (k : FontKind) : ∃ es, k.prog = .dict es := by
  cases k
  · exact ⟨_, rfl⟩
  · exact ⟨_, rfl⟩
  · exact ⟨_, rfl⟩

theorem font_read (hf : Finds f bytes items) (p : FontPart) {es : List (Bytes × Prog)} (hp : p.kind.prog = .dict es) {d : List (Bytes × Val)}
    (hd : DenotesEntries es d) (hset : p.kind.Set p.cmapId) (ho : HasObject items p.cmapId (.stream (CmapStream.entries p.stream) p.data))
    (hs : CmapStored unf p) (hn : OneLine p.cmapName) (hr : OneLine p.info.registry) (hor : OneLine p.info.ordering) :
    readFontText unf f bytes d = some p.kind.text := by
  have h4 := cmap_decoded (unf := unf) hf p ho hs
  obtain ⟨u, h5, h7, h6⟩ := cmapData_reads p.kind p.cmapName p.info p.mode hn hr hor
  have hden : Denotes p.kind.prog (.dict d) := by rw [hp]; simp only [Denotes]; exact ⟨d, rfl, hd⟩
  have hfin : ∀ t, lookup b!"Subtype" d = some (.name t) → lookup b!"ToUnicode" d = some (.ref p.cmapId.get.toNat 0) →
      codeWidth t (lookup b!"Encoding" d) = some p.kind.text.width → readFontText unf f bytes d = some p.kind.text := by
    intro t h1 h2 h3
    rw [readFontText_of h1 h2 h3 h4 h5 h6, h7]
  obtain ⟨pname, kind, cmapId, stream, data, cname, info, mode⟩ := p
  simp only at hden hset hfin ⊢
  cases kind with
  | type0 calls m =>
    obtain ⟨n1, n2, n3⟩ := hset
    obtain ⟨d', e, he⟩ := type0Font_denotes calls _ hden
    cases e
    have s1 : (Type0FontEntries calls).filter (fun e => e.1 == b!"Subtype") = [(b!"Subtype", IsName b!"Type0")] := by
      simp only [Type0FontEntries, List.filter_append, noCall_filter n1]; rfl
    have s2 : (Type0FontEntries calls).filter (fun e => e.1 == b!"ToUnicode") = [(b!"ToUnicode", IsRef cmapId)] := by
      simp only [Type0FontEntries, List.filter_append, onlyCall_filter n2]; rfl
    obtain ⟨w1, l1, q1⟩ := lookup_of he s1
    obtain ⟨w2, l2, q2⟩ := lookup_of he s2
    simp only [IsName] at q1
    simp only [IsRef] at q2
    subst q1 q2
    refine hfin _ l1 l2 ?_
    rcases n3 with n3 | n3
    · have s3 : (Type0FontEntries calls).filter (fun e => e.1 == b!"Encoding") = [(b!"Encoding", IsName b!"Identity-H")] := by
        simp only [Type0FontEntries, List.filter_append, onlyCall_filter n3]; rfl
      obtain ⟨w3, l3, q3⟩ := lookup_of he s3
      simp only [IsName] at q3
      subst q3
      rw [l3]; rfl
    · have s3 : (Type0FontEntries calls).filter (fun e => e.1 == b!"Encoding") = [(b!"Encoding", IsName b!"Identity-V")] := by
        simp only [Type0FontEntries, List.filter_append, onlyCall_filter n3]; rfl
      obtain ⟨w3, l3, q3⟩ := lookup_of he s3
      simp only [IsName] at q3
      subst q3
      rw [l3]; rfl
  | type1 calls m =>
    obtain ⟨n1, n2⟩ := hset
    obtain ⟨d', e, he⟩ := type1Font_denotes calls _ hden
    cases e
    have s1 : (Type1FontEntries calls).filter (fun e => e.1 == b!"Subtype") = [(b!"Subtype", IsName b!"Type1")] := by
      simp only [Type1FontEntries, List.filter_append, noCall_filter n1]; rfl
    have s2 : (Type1FontEntries calls).filter (fun e => e.1 == b!"ToUnicode") = [(b!"ToUnicode", IsRef cmapId)] := by
      simp only [Type1FontEntries, List.filter_append, onlyCall_filter n2]; rfl
    obtain ⟨w1, l1, q1⟩ := lookup_of he s1
    obtain ⟨w2, l2, q2⟩ := lookup_of he s2
    simp only [IsName] at q1
    simp only [IsRef] at q2
    subst q1 q2
    exact hfin _ l1 l2 rfl
  | type3 calls m =>
    obtain ⟨n1, n2⟩ := hset
    obtain ⟨d', e, he⟩ := type3Font_denotes calls _ hden
    cases e
    have s1 : (Type3FontEntries calls).filter (fun e => e.1 == b!"Subtype") = [(b!"Subtype", IsName b!"Type3")] := by
      simp only [Type3FontEntries, List.filter_append, noCall_filter n1]; rfl
    have s2 : (Type3FontEntries calls).filter (fun e => e.1 == b!"ToUnicode") = [(b!"ToUnicode", IsRef cmapId)] := by
      simp only [Type3FontEntries, List.filter_append, onlyCall_filter n2]; rfl
    obtain ⟨w1, l1, q1⟩ := lookup_of he s1
    obtain ⟨w2, l2, q2⟩ := lookup_of he s2
    simp only [IsName] at q1
    simp only [IsRef] at q2
    subst q1 q2
    exact hfin _ l1 l2 rfl

theorem fontNamed_reads (hf : Finds f bytes items) {res : Option (List ResourcesCall)} {rv : Option Val} (hr : ResRead f bytes res rv)
    (p : FontPart) (hw : FontWritten unf items res p) :
    (namedResource f bytes rv b!"Font" p.name).bind (readFontText unf f bytes) = some p.kind.text := by
  obtain ⟨⟨rc, es, v, h1, h2, h3, h4⟩, h5, h6, h7, h8, h9, h10⟩ := hw
  obtain ⟨ces, hp⟩ := kind_entries p.kind
  rw [hp] at h4
  obtain ⟨d, q1, q2⟩ := namedResource_reads hf hr (key := b!"Font") (inPlace := .fonts) (fun _ => rfl) ⟨rc, es, v, h1, h2, h3, h4⟩
  rw [q1]
  exact font_read hf p hp q2 h5 h6 h7 h8 h9 h10

theorem gstateNamed_reads (hf : Finds f bytes items) {res : Option (List ResourcesCall)} {rv : Option Val} (hr : ResRead f bytes res rv)
    (g : GStatePart) (hw : GStateWritten items res g) :
    ∃ d, namedResource f bytes rv b!"ExtGState" g.name = some d ∧ (d.all fun e => e.1 != b!"Font") = true := by
  obtain ⟨h1, h2⟩ := hw
  obtain ⟨d, q1, q2⟩ := namedResource_reads hf hr (key := b!"ExtGState") (inPlace := .extGStates) (fun _ => rfl) h1
  have hden : Denotes (ExtGraphicsState.prog g.calls) (.dict d) := by simp only [ExtGraphicsState.prog, Denotes]; exact ⟨d, rfl, q2⟩
  obtain ⟨d', e, he⟩ := extGraphicsState_denotes .code g.calls (Or.inl rfl) _ hden
  cases e
  refine ⟨d, q1, absent_of he ?_⟩
  simp only [ExtGraphicsStateEntries, List.filter_append, noCall_filter h2]
  rfl

/-! ## Shown strings -/

theorem code16_inj {g h : UInt16} (e : (CharCode.code g : Bytes) = CharCode.code h) : g = h := by
  simp only [CharCode.code, List.cons.injEq, and_true] at e
  obtain ⟨e1, e2⟩ := e
  have a1 := congrArg UInt8.toNat e1
  have a2 := congrArg UInt8.toNat e2
  simp only [UInt8.toNat_ofNat'] at a1 a2
  have b1 : g.toNat < 65536 := g.toNat_lt
  have b2 : h.toNat < 65536 := h.toNat_lt
  apply UInt16.toNat_inj.mp
  omega

theorem code8_inj {g h : UInt8} (e : (CharCode.code g : Bytes) = CharCode.code h) : g = h := by
  simpa [CharCode.code] using e

theorem text_for {G : Type} [BEq G] [LawfulBEq G] [CharCode G] (hinj : ∀ g h : G, (CharCode.code g : Bytes) = CharCode.code h → g = h)
    (m : List (CmapCall G)) (w : Nat) (g : G) :
    FontText.text ⟨w, m.map fun c => (CharCode.code c.entry.1, c.entry.2)⟩ (CharCode.code g) = textFor m g := by
  simp only [FontText.text, textFor, ← List.map_reverse]
  induction m.reverse with
  | nil => rfl
  | cons c cs ih =>
    simp only [List.map_cons, List.find?_cons]
    by_cases h : c.entry.1 = g
    · simp [h]
    · have h' : (CharCode.code c.entry.1 : Bytes) ≠ CharCode.code g := fun e => h (hinj _ _ e)
      rw [beq_false_of_ne h, beq_false_of_ne h']
      exact ih

theorem splitCodes_one (gs : List UInt8) : splitCodes 1 (gs.flatMap CharCode.code) = some (gs.map CharCode.code) := by
  have : gs.flatMap (CharCode.code : UInt8 → Bytes) = gs := by
    induction gs with
    | nil => rfl
    | cons g gs ih => rw [List.flatMap_cons, ih]; rfl
  rw [this, splitCodes]; rfl

theorem splitCodes_two (gs : List UInt16) : splitCodes 2 (gs.flatMap CharCode.code) = some (gs.map CharCode.code) := by
  induction gs with
  | nil => rfl
  | cons g gs ih =>
    rw [List.flatMap_cons, List.map_cons]
    show splitCodes 2 (UInt8.ofNat (g.toNat / 256) :: UInt8.ofNat (g.toNat % 256) :: gs.flatMap CharCode.code) = _
    rw [splitCodes, ih]; rfl

theorem shownText_of (cur : Option FontPart) (s : Bytes) (a : PageText) (h : ShowsAs cur s a) :
    shownText (cur.map fun p => p.kind.text) s = some a := by
  obtain ⟨p, rfl, h⟩ := h
  simp only [Option.map_some, shownText, Option.bind_some]
  obtain ⟨pname, kind, cmapId, stream, data, cname, info, mode⟩ := p
  simp only at h ⊢
  cases kind with
  | type0 calls m =>
    obtain ⟨gs, rfl, rfl⟩ := h
    simp only [FontKind.text, splitCodes_two, Option.map_some, List.map_map, Option.some.injEq]
    exact List.map_congr_left fun g _ => text_for (fun _ _ => code16_inj) m 2 g
  | type1 calls m =>
    obtain ⟨gs, rfl, rfl⟩ := h
    simp only [FontKind.text, splitCodes_one, Option.map_some, List.map_map, Option.some.injEq]
    exact List.map_congr_left fun g _ => text_for (fun _ _ => code8_inj) m 1 g
  | type3 calls m =>
    obtain ⟨gs, rfl, rfl⟩ := h
    simp only [FontKind.text, splitCodes_one, Option.map_some, List.map_map, Option.some.injEq]
    exact List.map_congr_left fun g _ => text_for (fun _ _ => code8_inj) m 1 g

theorem numIs_not_str {x : F32} {v : Val} (h : NumIs x v) : ∀ s, v ≠ .str s := by
  intro s e
  subst e
  simp [NumIs] at h

theorem shownArray_of (cur : Option FontPart) (its : List PosItem) (a : PageText) (h : ShowsItems cur its a) (vs : List Val)
    (hv : DenotesItems (its.map PosItem.prog) vs) :
    shownArray (cur.map fun p => p.kind.text) vs = some a := by
  induction its generalizing vs a with
  | nil =>
    simp only [List.map_nil, DenotesItems] at hv
    simp only [ShowsItems] at h
    subst hv h; rfl
  | cons i its ih =>
    simp only [List.map_cons, DenotesItems] at hv
    obtain ⟨w, ws, rfl, hw, hr⟩ := hv
    cases i with
    | «show» s =>
      obtain ⟨a, b, rfl, h1, h2⟩ := h
      simp only [PosItem.prog, Denotes, PrimDenotes] at hw
      subst hw
      simp only [shownArray, shownText_of cur s a h1, ih b h2 ws hr, Option.bind_some, Option.map_some]
    | adjust x =>
      simp only [ShowsItems] at h
      simp only [PosItem.prog, num, Denotes, PrimDenotes] at hw
      have hn := numIs_not_str hw
      have : shownArray (cur.map fun p => p.kind.text) (w :: ws) = shownArray (cur.map fun p => p.kind.text) ws := by
        rw [shownArray.eq_def]
        split
        · rename_i heq; simp at heq
        · rename_i s r heq; simp only [List.cons.injEq] at heq; exact absurd heq.1 (hn s)
        · rename_i heq; simp only [List.cons.injEq] at heq; rw [heq.2]
      rw [this]
      exact ih a h ws hr

/-! ## Operations -/

/-- The operators that matter for text. -/
def textOperators : List Bytes := [b!"Tf", b!"q", b!"Q", b!"gs", b!"Tj", b!"'", b!"\"", b!"TJ"]

theorem textOf_other (font : Bytes → Option FontText) (gstate : Bytes → Option (List (Bytes × Val))) (cur : Option FontText)
    (saved : List (Option FontText)) (k : Bytes) (args : List Val) (ops : List ReadOp) (hk : k ∉ textOperators) :
    textOf font gstate cur saved ((k, args) :: ops) = textOf font gstate cur saved ops := by
  simp only [textOperators, List.mem_cons, not_or, List.not_mem_nil, not_false_eq_true, and_true] at hk
  obtain ⟨h1, h2, h3, h4, h5, h6, h7, h8⟩ := hk
  conv => lhs; rw [textOf.eq_def]
  simp only [h1, h2, h3, h4, h5, h6, h7, h8, if_false, or_self]

theorem denotesItems_one {x : Prog} {vs : List Val} (h : DenotesItems [x] vs) : ∃ v, vs = [v] ∧ Denotes x v := by
  simp only [DenotesItems] at h
  obtain ⟨w, ws, rfl, hw, rfl⟩ := h
  exact ⟨w, rfl, hw⟩

theorem operandsOf_positioned (its : List PosItem) : operandsOf (.showPositioned its) = [.array (its.map PosItem.prog)] := by
  simp only [operandsOf, List.cons.injEq, and_true, Prog.array.injEq]
  apply List.map_congr_left
  intro x _
  cases x <;> rfl

/-- The text of the operations read is the text of the calls. -/
theorem textOf_calls (font : Bytes → Option FontText) (gstate : Bytes → Option (List (Bytes × Val))) (fonts : List FontPart)
    (gstates : List GStatePart) (hfont : ∀ p ∈ fonts, font p.name = some p.kind.text)
    (hgs : ∀ g ∈ gstates, ∃ d, gstate g.name = some d ∧ (d.all fun e => e.1 != b!"Font") = true) (cs : List ContentCall) (cur : Option FontPart)
    (saved : List (Option FontPart)) (text : PageText) (ops : List ReadOp) (hm : AllMean cs ops) (hs : Shows fonts gstates cur saved cs text) :
    textOf font gstate (cur.map fun p => p.kind.text) (saved.map fun c => c.map fun p => p.kind.text) ops = some text := by
  induction cs generalizing cur saved text ops with
  | nil =>
    simp only [AllMean] at hm
    simp only [Shows] at hs
    subst hm hs; rfl
  | cons c cs ih =>
    obtain ⟨⟨k, args⟩, os, rfl, ⟨hk, ha⟩, hr⟩ := hm
    simp only at hk ha
    cases c
    case setFont n size =>
      simp only [Shows] at hs
      obtain ⟨p, hp, rfl, hs⟩ := hs
      simp only [operandsOf, DenotesItems, nam, Denotes, PrimDenotes] at ha
      obtain ⟨w, ws, rfl, rfl, w', ws', rfl, -, rfl⟩ := ha
      have hk : k = b!"Tf" := hk
      subst hk
      rw [textOf.eq_def]
      simp only
      rw [if_pos (by simp)]
      simp only [hfont p hp, Option.bind_some]
      exact ih (some p) saved text os hr hs
    case saveState =>
      simp only [Shows] at hs
      have hk : k = b!"q" := hk
      subst hk
      rw [textOf.eq_def]
      simp only
      rw [if_neg (by decide), if_pos (by simp)]
      exact ih cur (cur :: saved) text os hr hs
    case restoreState =>
      have hk : k = b!"Q" := hk
      subst hk
      rw [textOf.eq_def]
      simp only
      rw [if_neg (by decide), if_neg (by decide), if_pos (by simp)]
      cases saved with
      | nil => simp only [Shows] at hs; exact ih cur [] text os hr hs
      | cons s saved => simp only [Shows] at hs; exact ih s saved text os hr hs
    case setParameters n =>
      simp only [Shows] at hs
      obtain ⟨⟨g, hg, rfl⟩, hs⟩ := hs
      obtain ⟨d, hd, hn⟩ := hgs g hg
      simp only [operandsOf, DenotesItems, nam, Denotes, PrimDenotes] at ha
      obtain ⟨w, ws, rfl, rfl, rfl⟩ := ha
      have hk : k = b!"gs" := hk
      subst hk
      rw [textOf.eq_def]
      simp only
      rw [if_neg (by decide), if_neg (by decide), if_neg (by decide), if_pos (by simp)]
      simp only [hd, Option.bind_some]
      rw [if_pos hn]
      exact ih cur saved text os hr hs
    case «show» s =>
      simp only [Shows] at hs
      obtain ⟨a, b, rfl, h1, hs⟩ := hs
      simp only [operandsOf, DenotesItems, Denotes, PrimDenotes] at ha
      obtain ⟨w, ws, rfl, rfl, rfl⟩ := ha
      have hk : k = b!"Tj" := hk
      subst hk
      rw [textOf.eq_def]
      simp only
      rw [if_neg (by decide), if_neg (by decide), if_neg (by decide), if_neg (by decide), if_pos (by simp)]
      simp only [shownText_of cur s a h1, Option.bind_some, ih cur saved b os hr hs, Option.map_some]
    case nextLineShow s =>
      simp only [Shows] at hs
      obtain ⟨a, b, rfl, h1, hs⟩ := hs
      simp only [operandsOf, DenotesItems, Denotes, PrimDenotes] at ha
      obtain ⟨w, ws, rfl, rfl, rfl⟩ := ha
      have hk : k = b!"'" := hk
      subst hk
      rw [textOf.eq_def]
      simp only
      rw [if_neg (by decide), if_neg (by decide), if_neg (by decide), if_neg (by decide), if_pos (by simp)]
      simp only [shownText_of cur s a h1, Option.bind_some, ih cur saved b os hr hs, Option.map_some]
    case nextLineShowAndSetWordAndCharSpacing ws cs' s =>
      simp only [Shows] at hs
      obtain ⟨a, b, rfl, h1, hs⟩ := hs
      simp only [operandsOf, DenotesItems, Denotes, PrimDenotes] at ha
      obtain ⟨w1, ws1, rfl, -, w2, ws2, rfl, -, w, ws, rfl, rfl, rfl⟩ := ha
      have hk : k = b!"\"" := hk
      subst hk
      rw [textOf.eq_def]
      simp only
      rw [if_neg (by decide), if_neg (by decide), if_neg (by decide), if_neg (by decide), if_neg (by decide), if_pos (by simp)]
      simp only [shownText_of cur s a h1, Option.bind_some, ih cur saved b os hr hs, Option.map_some]
    case showPositioned its =>
      simp only [Shows] at hs
      obtain ⟨a, b, rfl, h1, hs⟩ := hs
      rw [operandsOf_positioned] at ha
      obtain ⟨w, rfl, hw⟩ := denotesItems_one ha
      simp only [Denotes] at hw
      obtain ⟨vs, rfl, hv⟩ := hw
      have hk : k = b!"TJ" := hk
      subst hk
      rw [textOf.eq_def]
      simp only
      rw [if_neg (by decide), if_neg (by decide), if_neg (by decide), if_neg (by decide), if_neg (by decide), if_neg (by decide), if_pos (by simp)]
      simp only [shownArray_of cur its a h1 vs hv, Option.bind_some, ih cur saved b os hr hs, Option.map_some]
    case op name operands =>
      simp only [Shows] at hs
      have hk : k = name := hk
      subst hk
      rw [textOf_other _ _ _ _ _ _ _ hs.1]
      exact ih cur saved text os hr hs.2
    all_goals
      simp only [Shows] at hs
      rw [hk, textOf_other _ _ _ _ _ _ _ (by simp only [operatorOf]; decide)]
      exact ih cur saved text os hr hs

/-! ## Pages and the page tree -/

theorem resourcesSet_reads (hf : Finds f bytes items) {α : Type} {means : α → List (Bytes × (Val → Prop))} {inPlace : List ResourcesCall → α}
    {raw : Bytes → Prog → α} (hi : ∀ rc, means (inPlace rc) = [(b!"Resources", IsResources rc)])
    (hraw : ∀ k v, means (raw k v) = [(k, Denotes v)]) {calls : List α} {inherited res : Option (List ResourcesCall)}
    (h : ResourcesSet means inPlace raw items calls inherited res) {d : List (Bytes × Val)} {ms : List (Bytes × (Val → Prop))}
    (he : EntriesAre ms d)
    (hms : ms.filter (fun e => e.1 == b!"Resources") = (calls.flatMap means).filter (fun e => e.1 == b!"Resources"))
    {rv : Option Val} (hr : ResRead f bytes inherited rv) :
    ∃ rv', effectiveResources rv d = some rv' ∧ ResRead f bytes res rv' := by
  rcases h with ⟨hn, rfl⟩ | ⟨rc, rfl, ho | ⟨id, ho, hob⟩⟩
  · rw [noCall_filter hn] at hms
    refine ⟨rv, ?_, hr⟩
    unfold effectiveResources
    rw [if_pos (absent_of he hms)]
  · rw [onlyCall_filter ho, hi] at hms
    have hms' : ms.filter (fun e => e.1 == b!"Resources") = [(b!"Resources", IsResources rc)] := hms
    obtain ⟨w, hl, d', rfl, hd'⟩ := lookup_of he hms'
    refine ⟨some (.dict d'), ?_, .dict d', d', rfl, rfl, hd'⟩
    unfold effectiveResources
    rw [if_neg (by rw [present_of he hms']; decide), hl]; rfl
  · rw [onlyCall_filter ho, hraw] at hms
    have hms' : ms.filter (fun e => e.1 == b!"Resources") = [(b!"Resources", Denotes (.prim (.ref id)))] := hms
    obtain ⟨w, hl, hw⟩ := lookup_of he hms'
    simp only [Denotes, PrimDenotes] at hw
    obtain ⟨d', h1, h2⟩ := followDict_ref hf hob hw
    refine ⟨some w, ?_, w, d', rfl, h1, ?_⟩
    · unfold effectiveResources
      rw [if_neg (by rw [present_of he hms']; decide), hl]; rfl
    · obtain ⟨d'', e, h3⟩ := resources_denotes rc (.dict d') (by simp only [Resources.prog, Denotes]; exact ⟨d', rfl, h2⟩)
      cases e; exact h3

mutual
theorem tree_texts (hf : Finds f bytes items) (t : PageTree) (depth : Nat) (hd : t.depth ≤ depth) (hw : t.Written unf items)
    (inherited : Option (List ResourcesCall)) (rv : Option Val) (hr : ResRead f bytes inherited rv) (texts : List PageText)
    (ht : t.Texts unf items inherited texts) : readTextTree unf f bytes depth rv t.id.get.toNat = some texts := by
  cases t with
  | page id calls contents =>
    simp only [PageTree.depth] at hd
    obtain ⟨n, rfl⟩ : ∃ n, depth = n + 1 := ⟨depth - 1, by omega⟩
    simp only [PageTree.Written] at hw
    simp only [PageTree.Texts] at ht
    obtain ⟨h1, h2, h3, h4⟩ := hw
    obtain ⟨res, fonts, gstates, text, rfl, t1, t2, t3, t4⟩ := ht
    obtain ⟨v, ho, hv⟩ := finds_val hf h1
    obtain ⟨d, rfl, he⟩ := page_denotes .code calls (Or.inl rfl) v hv
    have hty : (PageEntries .code calls).filter (fun e => e.1 == b!"Type") = [(b!"Type", IsName b!"Page")] := by
      simp only [PageEntries, List.filter_append, noCall_filter h2]
      rfl
    obtain ⟨w, hl, hw⟩ := lookup_of he hty
    simp only [IsName] at hw
    subst hw
    obtain ⟨rv', hrv, hres⟩ := resourcesSet_reads hf (fun _ => rfl) (fun _ _ => rfl) t1 he (by simp only [PageEntries, List.filter_append]; rfl) hr
    obtain ⟨ops, hops, hm⟩ := page_operations hf he h3 h4
    have htext := textOf_calls (fun n => (namedResource f bytes rv' b!"Font" n).bind (readFontText unf f bytes))
      (namedResource f bytes rv' b!"ExtGState") fonts gstates (fun p hp => fontNamed_reads hf hres p (t2 p hp))
      (fun g hg => gstateNamed_reads hf hres g (t3 g hg)) _ none [] text ops hm t4
    have htext : textOf (fun n => (namedResource f bytes rv' b!"Font" n).bind (readFontText unf f bytes))
      (namedResource f bytes rv' b!"ExtGState") none [] ops = some text := htext
    simp only [readTextTree, PageTree.id, ho, hl, hrv, Option.bind_some, if_true, readPageText, hops, htext, Option.map_some]
  | node id calls kids =>
    simp only [PageTree.depth] at hd
    obtain ⟨n, rfl⟩ : ∃ n, depth = n + 1 := ⟨depth - 1, by omega⟩
    simp only [PageTree.Written] at hw
    simp only [PageTree.Texts] at ht
    obtain ⟨h1, h2, h3, h4⟩ := hw
    obtain ⟨res, t1, t2⟩ := ht
    obtain ⟨v, ho, hv⟩ := finds_val hf h1
    obtain ⟨d, rfl, he⟩ := pages_denotes calls v hv
    have hty : (PagesEntries calls).filter (fun e => e.1 == b!"Type") = [(b!"Type", IsName b!"Pages")] := by
      simp only [PagesEntries, List.filter_append, noCall_filter h2]
      rfl
    have hki : (PagesEntries calls).filter (fun e => e.1 == b!"Kids") = [(b!"Kids", ArrayIs ((kids.map PageTree.id).map fun x => IsRef x))] := by
      simp only [PagesEntries, List.filter_append, onlyCall_filter h3]
      rfl
    obtain ⟨w, hl, hw⟩ := lookup_of he hty
    simp only [IsName] at hw
    subst hw
    obtain ⟨w, hl', vs, rfl, hvs⟩ := lookup_of he hki
    obtain ⟨rv', hrv, hres⟩ := resourcesSet_reads hf (fun _ => rfl) (fun _ _ => rfl) t1 he (by simp only [PagesEntries, List.filter_append]; rfl) hr
    have := trees_texts hf kids n (by omega) h4 res rv' hres texts t2
    simp only [readTextTree, PageTree.id, ho, hl, hl', hrv, refNumbers_of _ vs hvs, Option.bind_some, List.map_map, Function.comp_def]
    rw [if_neg (by decide), if_pos trivial]
    exact this
termination_by structural t
theorem trees_texts (hf : Finds f bytes items) (ts : List PageTree) (depth : Nat) (hd : depthList ts ≤ depth) (hw : writtenList unf items ts)
    (inherited : Option (List ResourcesCall)) (rv : Option Val) (hr : ResRead f bytes inherited rv) (texts : List PageText)
    (ht : textsList unf items ts inherited texts) :
    collect (readTextTree unf f bytes depth rv) (ts.map fun t => t.id.get.toNat) = some texts := by
  cases ts with
  | nil => simp only [textsList] at ht; subst ht; rfl
  | cons t ts =>
    simp only [depthList] at hd
    simp only [writtenList] at hw
    simp only [textsList] at ht
    obtain ⟨a, b, rfl, h1, h2⟩ := ht
    have q1 := tree_texts hf t depth (by omega) hw.1 inherited rv hr a h1
    have q2 := trees_texts hf ts depth (by omega) hw.2 inherited rv hr b h2
    simp only [List.map_cons, collect, q1, q2, Option.bind_some, Option.map_some]
termination_by structural ts
end

/-- From the trailer. -/
theorem document_texts (hf : Finds f bytes items) {cid : Ref} (hroot : lookup b!"Root" f.trailer = some (.ref cid.get.toNat 0))
    {cat : List CatalogCall} (hcat : HasObject items cid (.val (Catalog.prog cat))) (hn : NoCall (CatalogMeans .code) b!"Type" cat)
    {t : PageTree} (ho : OnlyCall (CatalogMeans .code) b!"Pages" cat (.pages t.id)) (depth : Nat) (hd : t.depth ≤ depth) (hw : t.Written unf items)
    (texts : List PageText) (ht : t.Texts unf items none texts) : readTexts unf f bytes depth = some texts := by
  have h1 := tree_texts hf t depth hd hw none none rfl texts ht
  obtain ⟨v, hv, hden⟩ := finds_val hf hcat
  obtain ⟨d, rfl, he⟩ := catalog_denotes .code cat (Or.inl rfl) v hden
  have hty : (CatalogEntries .code cat).filter (fun e => e.1 == b!"Type") = [(b!"Type", IsName b!"Catalog")] := by
    simp only [CatalogEntries, List.filter_append, noCall_filter hn]
    rfl
  have hpg : (CatalogEntries .code cat).filter (fun e => e.1 == b!"Pages") = [(b!"Pages", IsRef t.id)] := by
    simp only [CatalogEntries, List.filter_append, onlyCall_filter ho]
    rfl
  obtain ⟨w, hl, hw⟩ := lookup_of he hty
  obtain ⟨w', hl', hw'⟩ := lookup_of he hpg
  simp only [IsName] at hw
  simp only [IsRef] at hw'
  subst hw hw'
  simp only [readTexts, hroot, hv, hl, hl', if_true]
  exact h1

end PdfW
