import Verif.Spec.Document
import Verif.Proof.Content
import Verif.Proof.Typed.Structure
import Verif.Proof.Typed.Object

set_option linter.unusedSimpArgs false
set_option linter.unusedVariables false

/-!
# Reading documents page by page
-/

namespace PdfW
open Spec

/-! ## Concatenated content streams -/

/-- Whatever white space comes first, these bytes read as these operations. -/
def ReadsOps (m : Nat) (bs : Bytes) (ops : List ReadOp) : Prop :=
  ∀ ws : Bytes, ws.all isWhite = true → ∀ fuel, m ≤ fuel → readOps fuel (ws ++ bs) = some ops

theorem readsOps_nil : ReadsOps 1 [] [] := by
  intro ws hw fuel hf
  cases fuel with
  | zero => omega
  | succ n =>
    have : skipSpace false ws = [] := by
      clear hf
      induction ws with
      | nil => rfl
      | cons w ws ih =>
        simp only [List.all_cons, Bool.and_eq_true] at hw
        simp [skipSpace, hw.1, ih hw.2]
    simp [readOps, this]

theorem readsOps_white {m : Nat} {bs : Bytes} {ops : List ReadOp} (ws : Bytes) (hw : ws.all isWhite = true) (h : ReadsOps m bs ops) :
    ReadsOps m (ws ++ bs) ops := by
  intro ws' hw' fuel hf
  rw [← List.append_assoc]
  exact h _ (by simp [hw, hw']) fuel hf

theorem sepOk_append {a b : Bytes} (ha : sepOk a = true) (hb : sepOk b = true) : sepOk (a ++ b) = true := by
  cases a with
  | nil => exact hb
  | cons x a => exact ha

theorem readItems_whites {ws : Bytes} (hw : ws.all isWhite = true) (fuel : Nat) (st : State) (bs : Bytes) :
    readItems fuel st (ws ++ bs) = readItems fuel st bs := by
  cases fuel with
  | zero => rfl
  | succ n => rw [readItems.eq_def, readItems.eq_def]; simp only [nextToken_whites ws bs hw]

theorem runCalls_readsOps (cs : List ContentCall) (c c' : Content) (hr : runCalls cs c = some c') (hb : BufOk c.buf.inner)
    (hok : ∀ k ∈ cs, CallOk k) (hc : c.pretty = true ∨ ∀ k ∈ cs, CallNoClash k) :
    c'.pretty = c.pretty ∧ BufOk c'.buf.inner ∧
    ∃ E, c'.buf.inner = c.buf.inner ++ E ∧ (c.buf.inner ≠ [] → sepOk E = true) ∧ cs.length ≤ E.length ∧
      ∀ R ops m, sepOk R = true → ReadsOps m R ops → ReadsOps (cs.length + m) (E ++ R) (callOps cs ++ ops) := by
  induction cs generalizing c with
  | nil =>
    simp only [runCalls, Option.some.injEq] at hr
    subst hr
    refine ⟨rfl, hb, [], by simp, fun _ => rfl, by simp, ?_⟩
    intro R ops m _ h
    simpa [callOps] using h
  | cons k cs ih =>
    simp only [runCalls] at hr
    cases hk : k.run c with
    | none => simp [hk] at hr
    | some c1 =>
      simp only [hk] at hr
      obtain ⟨hp, hbuf⟩ := call_eq c c1 k hk
      have hn := operatorOk_of k (hok k (by simp))
      have hun := unused_not_mem (hok k (by simp)).1
      rw [op_eq _ _ _ hun] at hbuf
      have hin : c1.buf.inner = c.buf.inner ++ opBytes c.pretty c.buf.inner (operatorOf k) (operandsOf k) := by rw [hbuf]; rfl
      have hb1 : BufOk c1.buf.inner := by rw [hin]; exact opBytes_last _ _ _ _ hn
      obtain ⟨q1, q2, E, e1, e2, e3, e4⟩ := ih c1 hr hb1 (fun k hk => hok k (by simp [hk])) (by
        rw [hp]; exact hc.imp id (fun h k hk => h k (by simp [hk])))
      have hne1 : opBytes c.pretty c.buf.inner (operatorOf k) (operandsOf k) ≠ [] := by simp [opBytes, hn.1]
      have hsep := e2 (by rw [hin]; simp [hne1])
      have hlen : 0 < (opBytes c.pretty c.buf.inner (operatorOf k) (operandsOf k)).length := List.length_pos_iff.mpr hne1
      refine ⟨by rw [q1, hp], q2, opBytes c.pretty c.buf.inner (operatorOf k) (operandsOf k) ++ E, by rw [e1, hin, List.append_assoc], ?_, ?_, ?_⟩
      · intro hne
        exact opBytes_head _ _ _ _ hb hne E hun
      · simp only [List.length_cons, List.length_append]; omega
      · intro R ops m hR hops ws hw fuel hf
        cases fuel with
        | zero => simp at hf
        | succ n =>
          have hread := opBytes_reads c.pretty c.buf.inner (operatorOf k) (operandsOf k) hn (hok k (by simp)).1
            (hc.imp id (fun h => h k (by simp))) (E ++ R) (sepOk_append hsep hR)
            ((ws ++ (opBytes c.pretty c.buf.inner (operatorOf k) (operandsOf k) ++ (E ++ R))).length + 1)
            (by simp only [List.length_append]; omega)
          rw [← readItems_whites hw] at hread
          rw [List.append_assoc (opBytes c.pretty c.buf.inner (operatorOf k) (operandsOf k)) E R]
          have hskip := readItems_some_skip hread
          rw [readOps.eq_def]
          simp only
          split
          · rename_i heq; exact absurd heq hskip
          · rw [hread]
            simp only
            have := e4 R ops m hR hops [] rfl n (by simp only [List.length_cons] at hf; omega)
            rw [List.nil_append] at this
            rw [this]
            rfl

/-- Finished content, followed by anything. -/
theorem part_reads (cs : List ContentCall) (pretty : Bool) (content : Content) (hr : runCalls cs (Content.withSettings pretty) = some content)
    (hok : ∀ k ∈ cs, CallOk k) (hc : pretty = true ∨ ∀ k ∈ cs, CallNoClash k) :
    cs.length ≤ content.finish.inner.length ∧
    ∀ R ops m, sepOk R = true → ReadsOps m R ops → ReadsOps (cs.length + m) (content.finish.inner ++ R) (callOps cs ++ ops) := by
  obtain ⟨_, h2, E, h3, _, h5, h6⟩ := runCalls_readsOps cs (Content.withSettings pretty) content hr (Or.inl rfl) hok hc
  have h0 : content.finish.inner = E := by rw [content_finish_eq _ h2, h3]; rfl
  rw [h0]
  exact ⟨h5, h6⟩

/-! ## Entries -/

theorem entriesAre_filter {ms : List (Bytes × (Val → Prop))} {es : List (Bytes × Val)} (h : EntriesAre ms es) (k : Bytes) :
    EntriesAre (ms.filter (fun e => e.1 == k)) (es.filter (fun e => e.1 == k)) := by
  induction ms generalizing es with
  | nil => simp only [EntriesAre] at h; subst h; rfl
  | cons m ms ih =>
    obtain ⟨w, ws, rfl, hm, hr⟩ := h
    by_cases hk : (m.1 == k) = true
    · rw [List.filter_cons_of_pos (by simpa using hk), List.filter_cons_of_pos (by simpa using hk)]
      exact ⟨w, _, rfl, hm, ih hr⟩
    · rw [List.filter_cons_of_neg (by simpa using hk), List.filter_cons_of_neg (by simpa using hk)]
      exact ih hr

theorem lookup_of {ms : List (Bytes × (Val → Prop))} {es : List (Bytes × Val)} {k : Bytes} {P : Val → Prop} (h : EntriesAre ms es)
    (hm : ms.filter (fun e => e.1 == k) = [(k, P)]) : ∃ w, lookup k es = some w ∧ P w := by
  have := entriesAre_filter h k
  rw [hm] at this
  obtain ⟨w, ws, he, hp, hn⟩ := this
  simp only [EntriesAre] at hn
  subst hn
  exact ⟨w, by simp [lookup, he], hp⟩

theorem absent_of {ms : List (Bytes × (Val → Prop))} {es : List (Bytes × Val)} {k : Bytes} (h : EntriesAre ms es)
    (hm : ms.filter (fun e => e.1 == k) = []) : (es.all fun e => e.1 != k) = true := by
  have := entriesAre_filter h k
  rw [hm] at this
  simp only [EntriesAre, List.filter_eq_nil_iff] at this
  simpa [List.all_eq_true] using this

theorem present_of {ms : List (Bytes × (Val → Prop))} {es : List (Bytes × Val)} {k : Bytes} {P : Val → Prop} (h : EntriesAre ms es)
    (hm : ms.filter (fun e => e.1 == k) = [(k, P)]) : (es.all fun e => e.1 != k) = false := by
  have := entriesAre_filter h k
  rw [hm] at this
  obtain ⟨w, ws, he, -, -⟩ := this
  have hmem : (k, w) ∈ es.filter (fun e => e.1 == k) := by simp [he]
  rw [List.all_eq_false]
  exact ⟨(k, w), (List.mem_filter.mp hmem).1, by simp⟩

theorem noCall_filter {α : Type} {means : α → List (Bytes × (Val → Prop))} {k : Bytes} {calls : List α} (h : NoCall means k calls) :
    (calls.flatMap means).filter (fun e => e.1 == k) = [] := by
  rw [List.filter_eq_nil_iff]
  intro e he
  obtain ⟨c, hc, hm⟩ := List.mem_flatMap.mp he
  simpa using h c hc e hm

theorem filter_any {α : Type} (means : α → List (Bytes × (Val → Prop))) (k : Bytes) (calls : List α) :
    (calls.flatMap means).filter (fun e => e.1 == k) =
      ((calls.filter (fun x => (means x).any fun e => e.1 == k)).flatMap means).filter (fun e => e.1 == k) := by
  induction calls with
  | nil => rfl
  | cons c cs ih =>
    rw [List.flatMap_cons, List.filter_append, ih]
    by_cases hc : ((means c).any fun e => e.1 == k) = true
    · rw [List.filter_cons_of_pos (by simpa using hc), List.flatMap_cons, List.filter_append]
    · rw [List.filter_cons_of_neg (by simpa using hc)]
      have : (means c).filter (fun e => e.1 == k) = [] := by
        rw [List.filter_eq_nil_iff]
        intro e he hk
        exact hc (List.any_eq_true.mpr ⟨e, he, hk⟩)
      rw [this, List.nil_append]

theorem onlyCall_filter {α : Type} {means : α → List (Bytes × (Val → Prop))} {k : Bytes} {calls : List α} {c : α}
    (h : OnlyCall means k calls c) : (calls.flatMap means).filter (fun e => e.1 == k) = (means c).filter (fun e => e.1 == k) := by
  rw [filter_any]
  unfold OnlyCall at h
  rw [h]; simp

/-! ## References -/

theorem refNumbers_of (rs : List Ref) (vs : List Val) (h : ItemsAre (rs.map fun x => IsRef x) vs) :
    refNumbers vs = some (rs.map fun r => r.get.toNat) := by
  induction rs generalizing vs with
  | nil => simp only [List.map_nil, ItemsAre] at h; subst h; rfl
  | cons r rs ih =>
    obtain ⟨w, ws, rfl, hw, h⟩ := h
    simp only [IsRef] at hw
    subst hw
    simp [refNumbers, refNumber, ih ws h]

/-! ## Objects of the document -/

/-- Every object that was written and can be represented is found under its number. -/
def Finds (f : FileEnd) (bytes : Bytes) (items : List Item) : Prop :=
  ∀ it ∈ items, ItemOk it → ∃ v, f.object bytes it.id.get.toNat = some v ∧ BodyDenotes it.body v

theorem finds_val {f : FileEnd} {bytes : Bytes} {items : List Item} (hf : Finds f bytes items) {id : Ref} {p : Prog}
    (h : HasObject items id (.val p)) : ∃ v, f.object bytes id.get.toNat = some (.val v) ∧ Denotes p v := by
  obtain ⟨it, hit, rfl, hb, hok⟩ := h
  obtain ⟨v, hv, hd⟩ := hf it hit hok
  rw [hb] at hd
  cases v with
  | val v => exact ⟨v, hv, hd⟩
  | stream d data => exact hd.elim

theorem finds_stream {f : FileEnd} {bytes : Bytes} {items : List Item} (hf : Finds f bytes items) {id : Ref} {es : List (Bytes × Prog)}
    {data : Bytes} (h : HasObject items id (.stream es data)) :
    ∃ d, f.object bytes id.get.toNat = some (.stream ((b!"Length", .int data.length) :: d) data) ∧ DenotesEntries es d := by
  obtain ⟨it, hit, rfl, hb, hok⟩ := h
  obtain ⟨v, hv, hd⟩ := hf it hit hok
  rw [hb] at hd
  cases v with
  | val v => exact hd.elim
  | stream d data' =>
    obtain ⟨rfl, d', rfl, h'⟩ := hd
    exact ⟨d', hv, h'⟩

variable {unf : Val → Bytes → Option Bytes} {f : FileEnd} {bytes : Bytes} {items : List Item}

theorem part_data (hf : Finds f bytes items) (c : ContentPart) (hw : PartWritten unf items c) :
    ∃ E, decodedStream unf f bytes c.id.get.toNat = some E ∧ c.calls.length ≤ E.length ∧
      ∀ R ops m, sepOk R = true → ReadsOps m R ops → ReadsOps (c.calls.length + m) (E ++ R) (callOps c.calls ++ ops) := by
  obtain ⟨h1, ⟨content, hr, hs⟩, hok, hc⟩ := hw
  obtain ⟨d, ho, hd⟩ := finds_stream hf h1
  obtain ⟨q1, q2⟩ := part_reads c.calls c.pretty content hr hok hc
  refine ⟨content.finish.inner, ?_, q1, q2⟩
  have he := entriesAre_of (stream_implied c.stream) hd
  rcases hs with ⟨hn, hdat⟩ | ⟨flt, ho', hu⟩
  · have hab := absent_of he (noCall_filter hn)
    have : (((b!"Length", Val.int (c.data.length : Int)) :: d).all fun e => e.1 != b!"Filter") = true := by
      rw [List.all_cons, hab]; rfl
    simp only [decodedStream, ho, unfiltered]
    rw [if_pos this, hdat]
  · have hfl : (StreamEntries c.stream).filter (fun e => e.1 == b!"Filter") = [(b!"Filter", IsName (isoFilter flt))] := by
      rw [show StreamEntries c.stream = c.stream.flatMap StreamMeans from rfl, onlyCall_filter ho']; rfl
    obtain ⟨w, hl, hw⟩ := lookup_of he hfl
    have hpr := present_of he hfl
    have h0 : (((b!"Length", Val.int (c.data.length : Int)) :: d).all fun e => e.1 != b!"Filter") = false := by
      rw [List.all_cons, hpr]; rfl
    have h1 : lookup b!"Filter" ((b!"Length", Val.int (c.data.length : Int)) :: d) = some w := by
      rw [← hl]; unfold lookup
      rw [List.filter_cons_of_neg (by show ¬ (b!"Length" == b!"Filter") = true; decide)]
    simp only [decodedStream, ho, unfiltered]
    rw [if_neg (by rw [h0]; decide), h1]
    simp only [IsName] at hw
    rw [hw]
    exact hu

/-- The operations of several parts. -/
def partsOps (cs : List ContentPart) : List ReadOp := cs.flatMap fun c => callOps c.calls

theorem parts_data (hf : Finds f bytes items) (cs : List ContentPart) (hw : ∀ c ∈ cs, PartWritten unf items c) :
    ∃ E m, decodedStreams unf f bytes (cs.map fun c => c.id.get.toNat) = some E ∧ m ≤ E.length + 1 ∧ ReadsOps m E (partsOps cs) := by
  induction cs with
  | nil => exact ⟨[], 1, rfl, by simp, readsOps_nil⟩
  | cons c cs ih =>
    obtain ⟨E1, h1, l1, r1⟩ := part_data hf c (hw c (by simp))
    cases cs with
    | nil =>
      refine ⟨E1, c.calls.length + 1, h1, by omega, ?_⟩
      have := r1 [] [] 1 rfl readsOps_nil
      simpa [partsOps] using this
    | cons c' cs =>
      obtain ⟨E2, m, h2, l2, r2⟩ := ih (fun x hx => hw x (by simp [hx]))
      refine ⟨E1 ++ [0x0A] ++ E2, c.calls.length + m, ?_, ?_, ?_⟩
      · simp only [List.map_cons] at h2 ⊢
        simp only [decodedStreams, h1, h2, Option.bind_some, Option.map_some]
      · simp only [List.length_append, List.length_cons, List.length_nil]; omega
      · have := r1 ([0x0A] ++ E2) _ m (white_sepOk 0x0A _ (by decide)) (readsOps_white [0x0A] (by decide) r2)
        rw [List.append_assoc]
        exact this

theorem readContent_of {E : Bytes} {m : Nat} {ops : List ReadOp} (hm : m ≤ E.length + 1) (h : ReadsOps m E ops) : readContent E = some ops := by
  have := h [] rfl (E.length + 1) hm
  simpa [readContent] using this

theorem allMean_parts (cs : List ContentPart) (hok : ∀ c ∈ cs, ∀ k ∈ c.calls, CallOk k) :
    AllMean (cs.flatMap ContentPart.calls) (partsOps cs) := by
  have : partsOps cs = callOps (cs.flatMap ContentPart.calls) := by
    simp [partsOps, callOps, List.map_flatMap]
  rw [this]
  apply allMean_callOps
  intro k hk
  obtain ⟨c, hc, hk⟩ := List.mem_flatMap.mp hk
  exact hok c hc k hk

/-- The operations of a page. -/
theorem page_operations (hf : Finds f bytes items) {calls : List PageCall} {contents : List ContentPart} {d : List (Bytes × Val)}
    (hd : EntriesAre (PageEntries .code calls) d) (hset : ContentsSet calls contents) (hw : ∀ c ∈ contents, PartWritten unf items c) :
    ∃ ops, pageOperations unf f bytes d = some ops ∧ AllMean (contents.flatMap ContentPart.calls) ops := by
  have hall := allMean_parts contents (fun c hc => (hw c hc).2.2.1)
  have hfil : (PageEntries .code calls).filter (fun e => e.1 == b!"Contents") = (calls.flatMap (PageMeans .code)).filter (fun e => e.1 == b!"Contents") := by
    simp only [PageEntries, List.filter_append]
    rfl
  rcases hset with ⟨rfl, hn⟩ | ⟨c, rfl, ho⟩ | ho
  · rw [noCall_filter hn] at hfil
    refine ⟨[], ?_, rfl⟩
    unfold pageOperations
    rw [if_pos (absent_of hd hfil)]
  · rw [onlyCall_filter ho] at hfil
    have hfil' : (PageEntries .code calls).filter (fun e => e.1 == b!"Contents") = [(b!"Contents", IsRef c.id)] := hfil
    obtain ⟨w, hl, hw'⟩ := lookup_of hd hfil'
    obtain ⟨E, h1, l1, r1⟩ := part_data hf c (hw c (by simp))
    refine ⟨partsOps [c], ?_, hall⟩
    unfold pageOperations
    rw [if_neg (by rw [present_of hd hfil']; decide), hl]
    simp only [IsRef] at hw'
    subst hw'
    simp only [refNumber, Option.bind_some, h1]
    refine readContent_of (m := c.calls.length + 1) (by omega) ?_
    have := r1 [] [] 1 rfl readsOps_nil
    simpa [partsOps] using this
  · rw [onlyCall_filter ho] at hfil
    have hfil' : (PageEntries .code calls).filter (fun e => e.1 == b!"Contents") =
        [(b!"Contents", ArrayIs ((contents.map ContentPart.id).map fun x => IsRef x))] := hfil
    obtain ⟨w, hl, vs, rfl, hv⟩ := lookup_of hd hfil'
    obtain ⟨E, m, h1, l1, r1⟩ := parts_data hf contents hw
    refine ⟨partsOps contents, ?_, hall⟩
    unfold pageOperations
    rw [if_neg (by rw [present_of hd hfil']; decide), hl]
    simp only [refNumbers_of _ vs hv, Option.bind_some, List.map_map, Function.comp_def, h1]
    exact readContent_of l1 r1

/-! ## The page tree -/

theorem pagesMean_append (rd : Reading) (as bs : List (List PageCall × List ContentCall)) (xs ys : List ReadPage)
    (ha : PagesMean rd as xs) (hb : PagesMean rd bs ys) : PagesMean rd (as ++ bs) (xs ++ ys) := by
  induction as generalizing xs with
  | nil => simp only [PagesMean] at ha; subst ha; exact hb
  | cons a as ih =>
    obtain ⟨p, qs, rfl, h1, h2, h3⟩ := ha
    exact ⟨p, qs ++ ys, rfl, h1, h2, ih qs h3⟩

mutual
theorem tree_reads (rd : Reading) (hf : Finds f bytes items) (t : PageTree) (depth : Nat) (hd : t.depth ≤ depth) (hw : t.Written unf items)
    (hc : rd = .code ∨ ∀ w ∈ t.pages, w.1.all PageCall.conforming = true) :
    ∃ ps, readPageTree unf f bytes depth t.id.get.toNat = some ps ∧ PagesMean rd t.pages ps := by
  cases t with
  | page id calls contents =>
    simp only [PageTree.depth] at hd
    obtain ⟨n, rfl⟩ : ∃ n, depth = n + 1 := ⟨depth - 1, by omega⟩
    simp only [PageTree.Written] at hw
    obtain ⟨h1, h2, h3, h4⟩ := hw
    obtain ⟨v, ho, hv⟩ := finds_val hf h1
    obtain ⟨d, rfl, he⟩ := page_denotes .code calls (Or.inl rfl) v hv
    have hv' := page_denotes rd calls (hc.imp (fun h => h) (fun h => h (calls, contents.flatMap ContentPart.calls) (by simp [PageTree.pages]))) _ hv
    have hty : (PageEntries .code calls).filter (fun e => e.1 == b!"Type") = [(b!"Type", IsName b!"Page")] := by
      simp only [PageEntries, List.filter_append, noCall_filter h2]
      rfl
    obtain ⟨w, hl, hw⟩ := lookup_of he hty
    simp only [IsName] at hw
    subst hw
    obtain ⟨ops, hops, hm⟩ := page_operations hf he h3 h4
    refine ⟨[⟨.dict d, ops⟩], ?_, ?_⟩
    · simp only [readPageTree, PageTree.id, ho, hl, hops, if_true, Option.map_some]
    · simp only [PageTree.pages, PagesMean]
      exact ⟨_, [], rfl, hv', hm, rfl⟩
  | node id calls kids =>
    simp only [PageTree.depth] at hd
    obtain ⟨n, rfl⟩ : ∃ n, depth = n + 1 := ⟨depth - 1, by omega⟩
    simp only [PageTree.Written] at hw
    obtain ⟨h1, h2, h3, h4⟩ := hw
    obtain ⟨v, ho, hv⟩ := finds_val hf h1
    obtain ⟨d, rfl, he⟩ := pages_denotes calls v hv
    have hty : (PagesEntries calls).filter (fun e => e.1 == b!"Type") = [(b!"Type", IsName b!"Pages")] := by
      simp only [PagesEntries, List.filter_append, noCall_filter h2]
      rfl
    have hki : (PagesEntries calls).filter (fun e => e.1 == b!"Kids") = [(b!"Kids", ArrayIs ((kids.map PageTree.id).map fun x => IsRef x))] := by
      simp only [PagesEntries, List.filter_append, onlyCall_filter h3]
      rfl
    obtain ⟨w, hl, hw⟩ := lookup_of he hty
    simp only [IsName] at hw
    subst hw
    obtain ⟨w, hl', vs, rfl, hvs⟩ := lookup_of he hki
    obtain ⟨ps, hps, hm⟩ := trees_read rd hf kids n (by omega) h4 (by simpa only [PageTree.pages] using hc)
    refine ⟨ps, ?_, by simpa only [PageTree.pages] using hm⟩
    simp only [readPageTree, PageTree.id, ho, hl, hl', refNumbers_of _ vs hvs, Option.bind_some, List.map_map, Function.comp_def]
    rw [if_neg (by decide), if_pos trivial]
    exact hps
termination_by structural t
theorem trees_read (rd : Reading) (hf : Finds f bytes items) (ts : List PageTree) (depth : Nat) (hd : depthList ts ≤ depth)
    (hw : writtenList unf items ts) (hc : rd = .code ∨ ∀ w ∈ pagesList ts, w.1.all PageCall.conforming = true) :
    ∃ ps, collect (readPageTree unf f bytes depth) (ts.map fun t => t.id.get.toNat) = some ps ∧ PagesMean rd (pagesList ts) ps := by
  cases ts with
  | nil => exact ⟨[], rfl, by simp only [pagesList, PagesMean]⟩
  | cons t ts =>
    simp only [depthList] at hd
    simp only [writtenList] at hw
    simp only [pagesList, List.mem_append] at hc
    obtain ⟨as, h1, h2⟩ := tree_reads rd hf t depth (by omega) hw.1 (hc.imp id (fun h w hw => h w (Or.inl hw)))
    obtain ⟨bs, h3, h4⟩ := trees_read rd hf ts depth (by omega) hw.2 (hc.imp id (fun h w hw => h w (Or.inr hw)))
    refine ⟨as ++ bs, ?_, ?_⟩
    · simp only [List.map_cons, collect, h1, h3, Option.bind_some, Option.map_some]
    · simp only [pagesList]
      exact pagesMean_append rd _ _ _ _ h2 h4
termination_by structural ts
end

/-- From the trailer to the root of the page tree. -/
theorem pages_of_tree (hf : Finds f bytes items) {cid : Ref} (hroot : lookup b!"Root" f.trailer = some (.ref cid.get.toNat 0))
    {cat : List CatalogCall} (hcat : HasObject items cid (.val (Catalog.prog cat))) (hn : NoCall (CatalogMeans .code) b!"Type" cat)
    {t : PageTree} (ho : OnlyCall (CatalogMeans .code) b!"Pages" cat (.pages t.id)) (depth : Nat) :
    readPages unf f bytes depth = readPageTree unf f bytes depth t.id.get.toNat := by
  obtain ⟨v, hv, hden⟩ := finds_val hf hcat
  obtain ⟨d, rfl, he⟩ := catalog_denotes .code cat (Or.inl rfl) v hden
  have hty : (CatalogEntries .code cat).filter (fun e => e.1 == b!"Type") = [(b!"Type", IsName b!"Catalog")] := by
    simp only [CatalogEntries, List.filter_append, noCall_filter hn]
    rfl
  have hpg : (CatalogEntries .code cat).filter (fun e => e.1 == b!"Pages") = [(b!"Pages", IsRef t.id)] := by
    simp only [CatalogEntries, List.filter_append, onlyCall_filter ho]
    rfl
  obtain ⟨w, hl, hw⟩ := lookup_of he hty
  obtain ⟨w', hl', hw'⟩ := lookup_of he hpg
  simp only [IsName] at hw
  simp only [IsRef] at hw'
  subst hw hw'
  simp only [readPages, hroot, hv, hl, hl', if_true]

/-- From the trailer. -/
theorem document_reads (rd : Reading) (hf : Finds f bytes items) {cid : Ref} (hroot : lookup b!"Root" f.trailer = some (.ref cid.get.toNat 0))
    {cat : List CatalogCall} (hcat : HasObject items cid (.val (Catalog.prog cat))) (hn : NoCall (CatalogMeans .code) b!"Type" cat)
    {t : PageTree} (ho : OnlyCall (CatalogMeans .code) b!"Pages" cat (.pages t.id)) (depth : Nat) (hd : t.depth ≤ depth) (hw : t.Written unf items)
    (hc : rd = .code ∨ ∀ w ∈ t.pages, w.1.all PageCall.conforming = true) :
    ∃ ps, readPages unf f bytes depth = some ps ∧ PagesMean rd t.pages ps := by
  obtain ⟨ps, h1, h2⟩ := tree_reads rd hf t depth hd hw hc
  exact ⟨ps, by rw [pages_of_tree hf hroot hcat hn ho depth]; exact h1, h2⟩

end PdfW
