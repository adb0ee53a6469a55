import Verif.Spec.Interpret
import Verif.Proof.Extract
import Verif.Proof.Navigate
import Verif.Proof.Attach
import Verif.Proof.Typed.XObject

set_option linter.unusedSimpArgs false
set_option linter.unusedVariables false

/-!
# Text with forms and marked content
-/

namespace PdfW
open Spec

variable {unf : Val → Bytes → Option Bytes} {f : FileEnd} {bytes : Bytes} {items : List Item}

/-! ## Operators -/

def shownOperators : List Bytes := [b!"Tf", b!"q", b!"Q", b!"gs", b!"Tj", b!"'", b!"\"", b!"TJ", b!"BMC", b!"BDC", b!"EMC", b!"Do"]

theorem interpret_other (s : Scene) (base : Option Mark) (cur : Option FontText) (saved : List (Option FontText)) (marks : List (Option Mark))
    (k : Bytes) (args : List Val) (ops : List ReadOp) (hk : k ∉ shownOperators) :
    interpret s base cur saved marks ((k, args) :: ops) = interpret s base cur saved marks ops := by
  simp only [shownOperators, List.mem_cons, not_or, List.not_mem_nil, not_false_eq_true, and_true] at hk
  obtain ⟨h1, h2, h3, h4, h5, h6, h7, h8, h9, h10, h11, h12⟩ := hk
  conv => lhs; rw [interpret.eq_def]
  simp only [h1, h2, h3, h4, h5, h6, h7, h8, h9, h10, h11, h12, if_false, or_self]

theorem neutral_operator (c : ContentCall) (h : Neutral c) : operatorOf c ∉ shownOperators := by
  cases c <;> first
    | exact h
    | exact h.elim
    | (simp only [operatorOf]; decide)

/-! ## Property lists -/

theorem propEntries_are (calls : List PropCall) (d : List (Bytes × Val)) (h : DenotesEntries (calls.map propEntry) d) :
    EntriesAre (calls.flatMap PropMeans) d := by
  induction calls generalizing d with
  | nil => simpa [EntriesAre, DenotesEntries] using h
  | cons c cs ih =>
    simp only [List.map_cons, DenotesEntries] at h
    obtain ⟨w, ws, rfl, hw, hr⟩ := h
    simp only [List.flatMap_cons, PropMeans, List.cons_append, List.nil_append]
    exact ⟨w, ws, rfl, hw, ih ws hr⟩

theorem markIn_read (s : Scene) (calls : List PropCall) (mcid : Option Int) (hm : McidSet calls mcid) (d : List (Bytes × Val))
    (hd : DenotesEntries (calls.map propEntry) d) : markIn s d = some (mcid.map fun i => ⟨s.stream, i⟩) := by
  have he := propEntries_are calls d hd
  have := optional_eq (pre := []) (read := intOf) (P := IsInt) (g := id) he rfl hm
    (fun b => by simp [PropMeans, propEntry]; funext v; simp [Denotes, PrimDenotes, IsInt])
    (fun b v hv => by simp only [IsInt] at hv; subst hv; rfl)
  simp only [markIn, this, Option.map_some, Option.map_map]
  cases mcid <;> rfl

theorem propsNamed_read {res : Option (List ResourcesCall)} {rv : Option Val} (hr : ResRead f bytes res rv) {name : Bytes}
    {calls : List PropCall} (h : PropsWritten res name calls) :
    ∃ d, namedResource f bytes rv b!"Properties" name = some d ∧ DenotesEntries (calls.map propEntry) d := by
  obtain ⟨rc, es, rfl, ho, hn⟩ := h
  obtain ⟨w, d, rfl, h1, h2⟩ := hr
  have hfl : (ResourcesEntries rc).filter (fun e => e.1 == b!"Properties") =
      [(b!"Properties", DictIs (es.map fun e => (e.1, Denotes (.dict (e.2.map propEntry)))))] := by
    rw [show ResourcesEntries rc = rc.flatMap ResourcesMeans from rfl, onlyCall_filter ho]; rfl
  obtain ⟨w', hl, d', rfl, hd'⟩ := lookup_of h2 hfl
  have hfl2 : (es.map fun e => (e.1, Denotes (.dict (e.2.map propEntry)))).filter (fun e => e.1 == name) =
      [(name, Denotes (.dict (calls.map propEntry)))] := by
    rw [List.filter_map]
    have : ((fun e : Bytes × (Val → Prop) => e.1 == name) ∘ fun e : Bytes × List PropCall => (e.1, Denotes (.dict (e.2.map propEntry)))) =
        fun e => e.1 == name := rfl
    rw [this, hn]; rfl
  obtain ⟨w'', hl', hw''⟩ := lookup_of hd' hfl2
  simp only [Denotes] at hw''
  obtain ⟨d'', rfl, hd''⟩ := hw''
  exact ⟨d'', by simp only [namedResource, Option.bind_some, h1, hl, hl', show ∀ x, followDict f bytes (.dict x) = some x from fun _ => rfl], hd''⟩

/-! ## XObjects -/

theorem xobjectNumber_read (hf : Finds f bytes items) {res : Option (List ResourcesCall)} {rv : Option Val} (hr : ResRead f bytes res rv)
    {name : Bytes} {id : Ref} (h : XObjectNamed items res name id) :
    resourceNumber f bytes rv b!"XObject" name = some id.get.toNat := by
  obtain ⟨rc, es, rfl, hc, hn⟩ := h
  obtain ⟨w, d, rfl, h1, h2⟩ := hr
  obtain ⟨w', d', h3, h4, h5⟩ := categorySet_reads hf (key := b!"XObject") (inPlace := .xObjects) rfl hc h2
  have h6 := denotesEntries_filter h5 name
  rw [hn] at h6
  simp only [DenotesEntries, Denotes, PrimDenotes] at h6
  obtain ⟨w'', ws, he, rfl, rfl⟩ := h6
  have hl : lookup name d' = some (.ref id.get.toNat 0) := by simp [lookup, he]
  simp only [resourceNumber, Option.bind_some, h1, h3, h4, hl, refNumber]

theorem lookup_skip_length {d : List (Bytes × Val)} {k : Bytes} {x : Val} (h : (b!"Length" == k) = false) :
    lookup k ((b!"Length", x) :: d) = lookup k d := by
  unfold lookup
  rw [List.filter_cons_of_neg (by show ¬ (b!"Length" == k) = true; rw [h]; decide)]

theorem image_read (hf : Finds f bytes items) {id : Ref} {calls : List ImageXObjectCall} {data : Bytes}
    (ho : HasObject items id (.stream (ImageXObject.entries calls) data)) (hn : NoCall ImageXObjectMeans b!"Subtype" calls) :
    ∃ d, f.object bytes id.get.toNat = some (.stream d data) ∧ lookup b!"Subtype" d = some (.name b!"Image") := by
  obtain ⟨d, h1, h2⟩ := finds_stream hf ho
  have he := entriesAre_of (imageXObject_implied calls) h2
  have hs : (ImageXObjectEntries calls).filter (fun e => e.1 == b!"Subtype") = [(b!"Subtype", IsName b!"Image")] := by
    simp only [ImageXObjectEntries, List.filter_append, noCall_filter hn]; rfl
  obtain ⟨w, hl, hw⟩ := lookup_of he hs
  simp only [IsName] at hw
  subst hw
  exact ⟨_, h1, by rw [lookup_skip_length (by decide), hl]⟩

theorem effectiveResources_length (inherited : Option Val) (d : List (Bytes × Val)) (x : Val) :
    effectiveResources inherited ((b!"Length", x) :: d) = effectiveResources inherited d := by
  unfold effectiveResources
  rw [lookup_skip_length (by decide)]
  rfl

theorem form_read (hf : Finds f bytes items) (p : FormPart) (h : p.Written unf items) {res res' : Option (List ResourcesCall)} {rv : Option Val}
    (hr : ResRead f bytes res rv)
    (hset : ResourcesSet FormXObjectMeans .resources (fun k v => .stream (.raw k v)) items p.calls res res') :
    ∃ d rv' data ops, f.object bytes p.id.get.toNat = some (.stream d p.data) ∧ lookup b!"Subtype" d = some (.name b!"Form") ∧
      effectiveResources rv d = some rv' ∧ ResRead f bytes res' rv' ∧ decodedStream unf f bytes p.id.get.toNat = some data ∧
      readContent data = some ops ∧ AllMean p.content ops := by
  obtain ⟨ho, hsub, ⟨content, hrun, hst⟩, hok, hclash⟩ := h
  obtain ⟨d, h1, h2⟩ := finds_stream hf ho
  have he := entriesAre_of (formXObject_implied p.calls) h2
  have hs : (FormXObjectEntries p.calls).filter (fun e => e.1 == b!"Subtype") = [(b!"Subtype", IsName b!"Form")] := by
    simp only [FormXObjectEntries, List.filter_append, noCall_filter hsub]; rfl
  obtain ⟨w, hl, hw⟩ := lookup_of he hs
  simp only [IsName] at hw
  subst hw
  obtain ⟨rv', hrv, hres⟩ := resourcesSet_reads hf (fun _ => rfl) (fun _ _ => rfl) hset he
    (by simp only [FormXObjectEntries, List.filter_append]; rfl) hr
  have hfl : (FormXObjectEntries p.calls).filter (fun e => e.1 == b!"Filter") =
      (p.calls.flatMap FormXObjectMeans).filter (fun e => e.1 == b!"Filter") := by
    simp only [FormXObjectEntries, List.filter_append]; rfl
  have hdec : decodedStream unf f bytes p.id.get.toNat = some content.finish.inner := by
    rcases hst with ⟨hn, hd⟩ | ⟨flt, hc, hu⟩
    · rw [noCall_filter hn] at hfl
      rw [decoded_plain h1 he hfl, hd]
    · rw [onlyCall_filter hc] at hfl
      rw [decoded_filtered (name := isoFilter flt) h1 he (by rw [hfl]; rfl), hu]
  obtain ⟨l1, r1⟩ := part_reads p.content p.pretty content hrun hok hclash
  refine ⟨_, rv', _, callOps p.content, h1, by rw [lookup_skip_length (by decide), hl], by rw [effectiveResources_length, hrv], hres, hdec, ?_,
    allMean_callOps _ hok⟩
  refine readContent_of (m := p.content.length + 1) (by omega) ?_
  have := r1 [] [] 1 rfl readsOps_nil
  simpa using this

/-! ## Drawing -/

theorem sceneOf_stream (n : Nat) (o : Option Nat) (rv : Option Val) : (sceneOf unf f bytes n o rv).stream = o := by
  cases n <;> rfl
theorem sceneOf_font (n : Nat) (o : Option Nat) (rv : Option Val) :
    (sceneOf unf f bytes n o rv).font = fun n => (namedResource f bytes rv b!"Font" n).bind (readFontText unf f bytes) := by cases n <;> rfl
theorem sceneOf_gstate (n : Nat) (o : Option Nat) (rv : Option Val) :
    (sceneOf unf f bytes n o rv).gstate = namedResource f bytes rv b!"ExtGState" := by cases n <;> rfl
theorem sceneOf_props (n : Nat) (o : Option Nat) (rv : Option Val) :
    (sceneOf unf f bytes n o rv).props = namedResource f bytes rv b!"Properties" := by cases n <;> rfl

theorem sceneOf_xobject (forms : Nat) (o : Option Nat) (rv : Option Val) (name : Bytes) (cur : Option FontText) (mark : Option Mark) :
    (sceneOf unf f bytes (forms + 1) o rv).xobject name cur mark =
      (resourceNumber f bytes rv b!"XObject" name).bind fun n =>
        match f.object bytes n with
        | some (.stream d _) =>
          match lookup b!"Subtype" d with
          | some (.name t) =>
            if t = b!"Image" then some []
            else if t = b!"Form" then
              (effectiveResources rv d).bind fun res => (decodedStream unf f bytes n).bind fun data => (readContent data).bind fun ops =>
                interpret (sceneOf unf f bytes forms (some n) res) mark cur [] [] ops
            else none
          | _ => none
        | _ => none := rfl

theorem interpret_calls (hf : Finds f bytes items) {depth : Nat} {o : Option Ref} {res : Option (List ResourcesCall)} {base : Option Mark}
    {cur : Option FontPart} {saved : List (Option FontPart)} {marks : List (Option Mark)} {calls : List ContentCall} {shown : List Shown}
    (h : Draws unf items depth o res base cur saved marks calls shown) (forms : Nat) (hd : depth ≤ forms) (rv : Option Val)
    (hr : ResRead f bytes res rv) (ops : List ReadOp) (hm : AllMean calls ops) :
    interpret (sceneOf unf f bytes forms (o.map fun r => r.get.toNat) rv) base (cur.map fun p => p.kind.text)
      (saved.map fun c => c.map fun p => p.kind.text) marks ops = some shown := by
  induction h generalizing forms rv ops with
  | done =>
    simp only [AllMean] at hm
    subst hm; rfl
  | neutral hn _ ih =>
    obtain ⟨⟨k, args⟩, os, rfl, ⟨hk, ha⟩, hm⟩ := hm
    simp only at hk
    rw [hk, interpret_other _ _ _ _ _ _ _ _ (neutral_operator _ hn)]
    exact ih forms hd rv hr os hm
  | font p hp _ ih =>
    obtain ⟨⟨k, args⟩, os, rfl, ⟨hk, ha⟩, hm⟩ := hm
    simp only [operandsOf, DenotesItems, nam, Denotes, PrimDenotes] at ha
    obtain ⟨w, ws, rfl, rfl, w', ws', rfl, -, rfl⟩ := ha
    have hk : k = b!"Tf" := hk
    subst hk
    rw [interpret.eq_def]
    simp only [if_true, sceneOf_font, fontNamed_reads hf hr p hp, Option.bind_some]
    exact ih forms hd rv hr os hm
  | save _ ih =>
    obtain ⟨⟨k, args⟩, os, rfl, ⟨hk, ha⟩, hm⟩ := hm
    have hk : k = b!"q" := hk
    subst hk
    rw [interpret.eq_def]
    simp only
    rw [if_neg (by decide), if_pos (by simp)]
    exact ih forms hd rv hr os hm
  | restore _ ih =>
    obtain ⟨⟨k, args⟩, os, rfl, ⟨hk, ha⟩, hm⟩ := hm
    have hk : k = b!"Q" := hk
    subst hk
    rw [interpret.eq_def]
    simp only
    rw [if_neg (by decide), if_neg (by decide), if_pos (by simp)]
    exact ih forms hd rv hr os hm
  | restoreNone _ ih =>
    obtain ⟨⟨k, args⟩, os, rfl, ⟨hk, ha⟩, hm⟩ := hm
    have hk : k = b!"Q" := hk
    subst hk
    rw [interpret.eq_def]
    simp only
    rw [if_neg (by decide), if_neg (by decide), if_pos (by simp)]
    exact ih forms hd rv hr os hm
  | parameters g hg _ ih =>
    obtain ⟨⟨k, args⟩, os, rfl, ⟨hk, ha⟩, hm⟩ := hm
    obtain ⟨d, hgd, hn⟩ := gstateNamed_reads hf hr g hg
    simp only [operandsOf, DenotesItems, nam, Denotes, PrimDenotes] at ha
    obtain ⟨w, ws, rfl, rfl, rfl⟩ := ha
    have hk : k = b!"gs" := hk
    subst hk
    rw [interpret.eq_def]
    simp only
    rw [if_neg (by decide), if_neg (by decide), if_neg (by decide), if_pos (by simp)]
    simp only [sceneOf_gstate, hgd, Option.bind_some]
    rw [if_pos hn]
    exact ih forms hd rv hr os hm
  | «show» hs _ ih =>
    obtain ⟨⟨k, args⟩, os, rfl, ⟨hk, ha⟩, hm⟩ := hm
    simp only [operandsOf, DenotesItems, Denotes, PrimDenotes] at ha
    obtain ⟨w, ws, rfl, rfl, rfl⟩ := ha
    have hk : k = b!"Tj" := hk
    subst hk
    rw [interpret.eq_def]
    simp only
    rw [if_neg (by decide), if_neg (by decide), if_neg (by decide), if_neg (by decide), if_pos (by simp)]
    simp only [shownText_of _ _ _ hs, Option.bind_some, ih forms hd rv hr os hm, Option.map_some]
  | nextLineShow hs _ ih =>
    obtain ⟨⟨k, args⟩, os, rfl, ⟨hk, ha⟩, hm⟩ := hm
    simp only [operandsOf, DenotesItems, Denotes, PrimDenotes] at ha
    obtain ⟨w, ws, rfl, rfl, rfl⟩ := ha
    have hk : k = b!"'" := hk
    subst hk
    rw [interpret.eq_def]
    simp only
    rw [if_neg (by decide), if_neg (by decide), if_neg (by decide), if_neg (by decide), if_pos (by simp)]
    simp only [shownText_of _ _ _ hs, Option.bind_some, ih forms hd rv hr os hm, Option.map_some]
  | nextLineShowSpaced hs _ ih =>
    obtain ⟨⟨k, args⟩, os, rfl, ⟨hk, ha⟩, hm⟩ := hm
    simp only [operandsOf, DenotesItems, Denotes, PrimDenotes] at ha
    obtain ⟨w1, ws1, rfl, -, w2, ws2, rfl, -, w, ws, rfl, rfl, rfl⟩ := ha
    have hk : k = b!"\"" := hk
    subst hk
    rw [interpret.eq_def]
    simp only
    rw [if_neg (by decide), if_neg (by decide), if_neg (by decide), if_neg (by decide), if_neg (by decide), if_pos (by simp)]
    simp only [shownText_of _ _ _ hs, Option.bind_some, ih forms hd rv hr os hm, Option.map_some]
  | positioned hs _ ih =>
    obtain ⟨⟨k, args⟩, os, rfl, ⟨hk, ha⟩, hm⟩ := hm
    simp only [operandsOf_positioned] at ha
    obtain ⟨w, rfl, hw⟩ := denotesItems_one ha
    simp only [Denotes] at hw
    obtain ⟨vs, rfl, hv⟩ := hw
    have hk : k = b!"TJ" := hk
    subst hk
    rw [interpret.eq_def]
    simp only
    rw [if_neg (by decide), if_neg (by decide), if_neg (by decide), if_neg (by decide), if_neg (by decide), if_neg (by decide), if_pos (by simp)]
    simp only [shownArray_of _ _ _ hs vs hv, Option.bind_some, ih forms hd rv hr os hm, Option.map_some]
  | mark _ ih =>
    obtain ⟨⟨k, args⟩, os, rfl, ⟨hk, ha⟩, hm⟩ := hm
    have hk : k = b!"BMC" := hk
    subst hk
    rw [interpret.eq_def]
    simp only
    rw [if_neg (by decide), if_neg (by decide), if_neg (by decide), if_neg (by decide), if_neg (by decide), if_neg (by decide),
      if_neg (by decide), if_pos (by simp)]
    exact ih forms hd rv hr os hm
  | markWith hmc _ ih =>
    obtain ⟨⟨k, args⟩, os, rfl, ⟨hk, ha⟩, hm⟩ := hm
    simp only [operandsOf, DenotesItems, nam, Denotes, PrimDenotes] at ha
    obtain ⟨w, ws, rfl, rfl, w', ws', rfl, ⟨d, rfl, hd'⟩, rfl⟩ := ha
    have hk : k = b!"BDC" := hk
    subst hk
    rw [interpret.eq_def]
    simp only
    rw [if_neg (by decide), if_neg (by decide), if_neg (by decide), if_neg (by decide), if_neg (by decide), if_neg (by decide),
      if_neg (by decide), if_neg (by decide), if_pos (by simp)]
    simp only [markOf, markIn_read _ _ _ hmc d hd', Option.bind_some, sceneOf_stream]
    exact ih forms hd rv hr os hm
  | markNamed hpw hmc _ ih =>
    obtain ⟨⟨k, args⟩, os, rfl, ⟨hk, ha⟩, hm⟩ := hm
    simp only [operandsOf, DenotesItems, nam, Denotes, PrimDenotes] at ha
    obtain ⟨w, ws, rfl, rfl, w', ws', rfl, rfl, rfl⟩ := ha
    obtain ⟨d, hn, hd'⟩ := propsNamed_read hr hpw
    have hk : k = b!"BDC" := hk
    subst hk
    rw [interpret.eq_def]
    simp only
    rw [if_neg (by decide), if_neg (by decide), if_neg (by decide), if_neg (by decide), if_neg (by decide), if_neg (by decide),
      if_neg (by decide), if_neg (by decide), if_pos (by simp)]
    simp only [markOf, sceneOf_props, hn, markIn_read _ _ _ hmc d hd', Option.bind_some, sceneOf_stream]
    exact ih forms hd rv hr os hm
  | endMark _ ih =>
    obtain ⟨⟨k, args⟩, os, rfl, ⟨hk, ha⟩, hm⟩ := hm
    have hk : k = b!"EMC" := hk
    subst hk
    rw [interpret.eq_def]
    simp only
    rw [if_neg (by decide), if_neg (by decide), if_neg (by decide), if_neg (by decide), if_neg (by decide), if_neg (by decide),
      if_neg (by decide), if_neg (by decide), if_neg (by decide), if_pos (by simp)]
    exact ih forms hd rv hr os hm
  | image id calls data hx ho hn _ ih =>
    obtain ⟨⟨k, args⟩, os, rfl, ⟨hk, ha⟩, hm⟩ := hm
    simp only [operandsOf, DenotesItems, nam, Denotes, PrimDenotes] at ha
    obtain ⟨w, ws, rfl, rfl, rfl⟩ := ha
    have hk : k = b!"Do" := hk
    subst hk
    obtain ⟨m, rfl⟩ : ∃ m, forms = m + 1 := ⟨forms - 1, by omega⟩
    obtain ⟨d, h1, h2⟩ := image_read hf ho hn
    rw [interpret.eq_def]
    simp only
    rw [if_neg (by decide), if_neg (by decide), if_neg (by decide), if_neg (by decide), if_neg (by decide), if_neg (by decide),
      if_neg (by decide), if_neg (by decide), if_neg (by decide), if_neg (by decide), if_pos (by simp)]
    simp only [sceneOf_xobject, xobjectNumber_read hf hr hx, h1, h2, if_true, Option.bind_some, ih (m + 1) hd rv hr os hm, Option.map_some, List.nil_append]
  | form p res' hx hw hset _ _ ih1 ih2 =>
    obtain ⟨⟨k, args⟩, os, rfl, ⟨hk, ha⟩, hm⟩ := hm
    simp only [operandsOf, DenotesItems, nam, Denotes, PrimDenotes] at ha
    obtain ⟨w, ws, rfl, rfl, rfl⟩ := ha
    have hk : k = b!"Do" := hk
    subst hk
    obtain ⟨m, rfl⟩ : ∃ m, forms = m + 1 := ⟨forms - 1, by omega⟩
    obtain ⟨d, rv', data, fops, h1, h2, h3, h4, h5, h6, h7⟩ := form_read hf p hw hr hset
    have hin := ih1 m (by omega) rv' h4 fops h7
    simp only [Option.map_some, List.map_nil] at hin
    rw [interpret.eq_def]
    simp only
    rw [if_neg (by decide), if_neg (by decide), if_neg (by decide), if_neg (by decide), if_neg (by decide), if_neg (by decide),
      if_neg (by decide), if_neg (by decide), if_neg (by decide), if_neg (by decide), if_pos (by simp)]
    simp only [sceneOf_xobject, xobjectNumber_read hf hr hx, Option.bind_some, h1, h2, h3, h5, h6]
    rw [if_neg (by decide), if_pos trivial, hin]
    simp only [Option.bind_some, ih2 (m + 1) hd rv hr os hm, Option.map_some]

/-! ## Pages -/

mutual
theorem tree_each {α : Type} {P : Ref → Option (List ResourcesCall) → List ContentCall → α → Prop}
    {page : Nat → Option Val → List (Bytes × Val) → Option α} (hf : Finds f bytes items)
    (hpage : ∀ id res calls x rv d ops, P id res calls x → ResRead f bytes res rv → pageOperations unf f bytes d = some ops → AllMean calls ops →
      page id.get.toNat rv d = some x)
    (t : PageTree) (depth : Nat) (hd : t.depth ≤ depth) (hw : t.Written unf items)
    (inherited : Option (List ResourcesCall)) (rv : Option Val) (hr : ResRead f bytes inherited rv) (xs : List α)
    (ht : t.Each P items inherited xs) : readPagesWith page f bytes depth rv t.id.get.toNat = some xs := by
  cases t with
  | page id calls contents =>
    simp only [PageTree.depth] at hd
    obtain ⟨n, rfl⟩ : ∃ n, depth = n + 1 := ⟨depth - 1, by omega⟩
    simp only [PageTree.Written] at hw
    simp only [PageTree.Each] at ht
    obtain ⟨h1, h2, h3, h4⟩ := hw
    obtain ⟨res, x, rfl, t1, t2⟩ := ht
    obtain ⟨v, ho, hv⟩ := finds_val hf h1
    obtain ⟨d, rfl, he⟩ := page_denotes .code calls (Or.inl rfl) v hv
    have hty : (PageEntries .code calls).filter (fun e => e.1 == b!"Type") = [(b!"Type", IsName b!"Page")] := by
      simp only [PageEntries, List.filter_append, noCall_filter h2]
      rfl
    obtain ⟨w, hl, hw⟩ := lookup_of he hty
    simp only [IsName] at hw
    subst hw
    obtain ⟨rv', hrv, hres⟩ := resourcesSet_reads hf (fun _ => rfl) (fun _ _ => rfl) t1 he (by simp only [PageEntries, List.filter_append]; rfl) hr
    obtain ⟨ops, hops, hm⟩ := page_operations hf he h3 h4
    have := hpage id res _ x rv' d ops t2 hres hops hm
    simp only [readPagesWith, PageTree.id, ho, hl, hrv, Option.bind_some, if_true, this, Option.map_some]
  | node id calls kids =>
    simp only [PageTree.depth] at hd
    obtain ⟨n, rfl⟩ : ∃ n, depth = n + 1 := ⟨depth - 1, by omega⟩
    simp only [PageTree.Written] at hw
    simp only [PageTree.Each] at ht
    obtain ⟨h1, h2, h3, h4⟩ := hw
    obtain ⟨res, t1, t2⟩ := ht
    obtain ⟨v, ho, hv⟩ := finds_val hf h1
    obtain ⟨d, rfl, he⟩ := pages_denotes calls v hv
    have hty : (PagesEntries calls).filter (fun e => e.1 == b!"Type") = [(b!"Type", IsName b!"Pages")] := by
      simp only [PagesEntries, List.filter_append, noCall_filter h2]
      rfl
    have hki : (PagesEntries calls).filter (fun e => e.1 == b!"Kids") = [(b!"Kids", ArrayIs ((kids.map PageTree.id).map fun x => IsRef x))] := by
      simp only [PagesEntries, List.filter_append, onlyCall_filter h3]
      rfl
    obtain ⟨w, hl, hw⟩ := lookup_of he hty
    simp only [IsName] at hw
    subst hw
    obtain ⟨w, hl', vs, rfl, hvs⟩ := lookup_of he hki
    obtain ⟨rv', hrv, hres⟩ := resourcesSet_reads hf (fun _ => rfl) (fun _ _ => rfl) t1 he (by simp only [PagesEntries, List.filter_append]; rfl) hr
    have := trees_each hf hpage kids n (by omega) h4 res rv' hres xs t2
    simp only [readPagesWith, PageTree.id, ho, hl, hl', hrv, refNumbers_of _ vs hvs, Option.bind_some, List.map_map, Function.comp_def]
    rw [if_neg (by decide), if_pos trivial]
    exact this
termination_by structural t
theorem trees_each {α : Type} {P : Ref → Option (List ResourcesCall) → List ContentCall → α → Prop}
    {page : Nat → Option Val → List (Bytes × Val) → Option α} (hf : Finds f bytes items)
    (hpage : ∀ id res calls x rv d ops, P id res calls x → ResRead f bytes res rv → pageOperations unf f bytes d = some ops → AllMean calls ops →
      page id.get.toNat rv d = some x)
    (ts : List PageTree) (depth : Nat) (hd : depthList ts ≤ depth) (hw : writtenList unf items ts)
    (inherited : Option (List ResourcesCall)) (rv : Option Val) (hr : ResRead f bytes inherited rv) (xs : List α)
    (ht : eachList P items ts inherited xs) :
    collect (readPagesWith page f bytes depth rv) (ts.map fun t => t.id.get.toNat) = some xs := by
  cases ts with
  | nil => simp only [eachList] at ht; subst ht; rfl
  | cons t ts =>
    simp only [depthList] at hd
    simp only [writtenList] at hw
    simp only [eachList] at ht
    obtain ⟨a, b, rfl, h1, h2⟩ := ht
    have q1 := tree_each hf hpage t depth (by omega) hw.1 inherited rv hr a h1
    have q2 := trees_each hf hpage ts depth (by omega) hw.2 inherited rv hr b h2
    simp only [List.map_cons, collect, q1, q2, Option.bind_some, Option.map_some]
termination_by structural ts
end

theorem pageShown_read (hf : Finds f bytes items) (forms depth : Nat) (hd : depth ≤ forms) (id : Ref) (res : Option (List ResourcesCall))
    (calls : List ContentCall) (x : List Shown) (rv : Option Val) (d : List (Bytes × Val)) (ops : List ReadOp)
    (hx : Draws unf items depth none res none none [] [] calls x) (hr : ResRead f bytes res rv) (hops : pageOperations unf f bytes d = some ops)
    (hm : AllMean calls ops) : readPageShown unf f bytes forms id.get.toNat rv d = some x := by
  have := interpret_calls hf hx forms hd rv hr ops hm
  simp only [readPageShown, hops, Option.bind_some]
  exact this

end PdfW
