import Verif.Spec.Navigate
import Verif.Proof.Extract
import Verif.Proof.Typed.Annotations
import Verif.Proof.Typed.Actions

set_option linter.unusedSimpArgs false
set_option linter.unusedVariables false

/-! # Reading outlines and links -/

namespace PdfW
open Spec

variable {unf : Val → Bytes → Option Bytes} {f : FileEnd} {bytes : Bytes} {items : List Item}

/-! ## Entries that may be missing -/

theorem optional_absent {α : Type} {ms : List (Bytes × (Val → Prop))} {d : List (Bytes × Val)} {k : Bytes} {read : Val → Option α}
    (he : EntriesAre ms d) (h : ms.filter (fun e => e.1 == k) = []) : optionalEntry k d read = some none := by
  simp only [optionalEntry, absent_of he h, if_true]

theorem optional_present {α : Type} {ms : List (Bytes × (Val → Prop))} {d : List (Bytes × Val)} {k : Bytes} {read : Val → Option α} {P : Val → Prop}
    (he : EntriesAre ms d) (h : ms.filter (fun e => e.1 == k) = [(k, P)]) {Q : α → Prop} (hP : ∀ v, P v → ∃ a, read v = some a ∧ Q a) :
    ∃ a, optionalEntry k d read = some (some a) ∧ Q a := by
  obtain ⟨w, hl, hw⟩ := lookup_of he h
  obtain ⟨a, ha, hq⟩ := hP w hw
  refine ⟨a, ?_, hq⟩
  simp only [optionalEntry, present_of he h, hl, Option.bind_some, ha, Option.map_some]
  rfl

/-- An entry set by at most one call, for meanings `pre ++ calls.flatMap means`. -/
theorem optional_call {α β γ : Type} {means : α → List (Bytes × (Val → Prop))} {pre : List (Bytes × (Val → Prop))} {calls : List α}
    {d : List (Bytes × Val)} {k : Bytes} {x : Option β} {c : β → α} {read : Val → Option γ} {P : β → Val → Prop} {R : β → γ → Prop}
    (he : EntriesAre (pre ++ calls.flatMap means) d) (hp : pre.filter (fun e => e.1 == k) = [])
    (hx : MaybeCall means k calls x c) (hc : ∀ b, x = some b → (means (c b)).filter (fun e => e.1 == k) = [(k, P b)])
    (hP : ∀ b, x = some b → ∀ v, P b v → ∃ a, read v = some a ∧ R b a) : ∃ y, optionalEntry k d read = some y ∧ BothOrNone R x y := by
  cases x with
  | none =>
    refine ⟨none, optional_absent he ?_, trivial⟩
    rw [List.filter_append, hp, List.nil_append]
    exact noCall_filter hx
  | some b =>
    obtain ⟨a, ha, hr⟩ := optional_present (Q := R b) he (k := k) (P := P b) (read := read)
      (by rw [List.filter_append, hp, List.nil_append, onlyCall_filter hx]; exact hc b rfl) (hP b rfl)
    exact ⟨some a, ha, hr⟩

theorem refNumber_isRef (r : Ref) (v : Val) (h : IsRef r v) : ∃ a, refNumber v = some a ∧ a = r.get.toNat := by
  simp only [IsRef] at h
  subst h
  exact ⟨_, rfl, rfl⟩

/-- The same for references: the exact result. -/
theorem optional_ref {α : Type} {means : α → List (Bytes × (Val → Prop))} {pre : List (Bytes × (Val → Prop))} {calls : List α}
    {d : List (Bytes × Val)} {k : Bytes} {x : Option Ref} {c : Ref → α}
    (he : EntriesAre (pre ++ calls.flatMap means) d) (hp : pre.filter (fun e => e.1 == k) = [])
    (hx : MaybeCall means k calls x c) (hc : ∀ b, (means (c b)).filter (fun e => e.1 == k) = [(k, IsRef b)]) :
    optionalEntry k d refNumber = some (x.map fun r => r.get.toNat) := by
  obtain ⟨y, hy, hb⟩ := optional_call (R := fun r n => n = r.get.toNat) he hp hx (fun b _ => hc b) (fun b _ => refNumber_isRef b)
  rw [hy]
  cases x <;> cases y <;> simp_all [BothOrNone]

/-! ## Pages -/

mutual
theorem tree_numbers (hf : Finds f bytes items) (t : PageTree) (depth : Nat) (hd : t.depth ≤ depth) (hw : t.Written unf items) :
    readPageNumbers f bytes depth t.id.get.toNat = some (t.leaves.map fun e => e.1.get.toNat) := by
  cases t with
  | page id calls contents =>
    simp only [PageTree.depth] at hd
    obtain ⟨n, rfl⟩ : ∃ n, depth = n + 1 := ⟨depth - 1, by omega⟩
    simp only [PageTree.Written] at hw
    obtain ⟨h1, h2, h3, h4⟩ := hw
    obtain ⟨v, ho, hv⟩ := finds_val hf h1
    obtain ⟨d, rfl, he⟩ := page_denotes .code calls (Or.inl rfl) v hv
    have hty : (PageEntries .code calls).filter (fun e => e.1 == b!"Type") = [(b!"Type", IsName b!"Page")] := by
      simp only [PageEntries, List.filter_append, noCall_filter h2]
      rfl
    obtain ⟨w, hl, hw⟩ := lookup_of he hty
    simp only [IsName] at hw
    subst hw
    simp only [readPageNumbers, PageTree.id, ho, hl, if_true, PageTree.leaves, List.map_cons, List.map_nil]
  | node id calls kids =>
    simp only [PageTree.depth] at hd
    obtain ⟨n, rfl⟩ : ∃ n, depth = n + 1 := ⟨depth - 1, by omega⟩
    simp only [PageTree.Written] at hw
    obtain ⟨h1, h2, h3, h4⟩ := hw
    obtain ⟨v, ho, hv⟩ := finds_val hf h1
    obtain ⟨d, rfl, he⟩ := pages_denotes calls v hv
    have hty : (PagesEntries calls).filter (fun e => e.1 == b!"Type") = [(b!"Type", IsName b!"Pages")] := by
      simp only [PagesEntries, List.filter_append, noCall_filter h2]
      rfl
    have hki : (PagesEntries calls).filter (fun e => e.1 == b!"Kids") = [(b!"Kids", ArrayIs ((kids.map PageTree.id).map fun x => IsRef x))] := by
      simp only [PagesEntries, List.filter_append, onlyCall_filter h3]
      rfl
    obtain ⟨w, hl, hw⟩ := lookup_of he hty
    simp only [IsName] at hw
    subst hw
    obtain ⟨w, hl', vs, rfl, hvs⟩ := lookup_of he hki
    have hps := trees_numbers hf kids n (by omega) h4
    simp only [readPageNumbers, PageTree.id, PageTree.leaves, ho, hl, hl', refNumbers_of _ vs hvs, Option.bind_some, List.map_map, Function.comp_def]
    rw [if_neg (by decide), if_pos trivial]
    exact hps
termination_by structural t
theorem trees_numbers (hf : Finds f bytes items) (ts : List PageTree) (depth : Nat) (hd : depthList ts ≤ depth) (hw : writtenList unf items ts) :
    collect (readPageNumbers f bytes depth) (ts.map fun t => t.id.get.toNat) = some ((leavesList ts).map fun e => e.1.get.toNat) := by
  cases ts with
  | nil => rfl
  | cons t ts =>
    simp only [depthList] at hd
    simp only [writtenList] at hw
    have h1 := tree_numbers hf t depth (by omega) hw.1
    have h3 := trees_numbers hf ts depth (by omega) hw.2
    simp only [List.map_cons, collect, h1, h3, Option.bind_some, Option.map_some, leavesList, List.map_append]
termination_by structural ts
end

mutual
/-- Every page of the tree is an object of the document. -/
theorem leaves_written (t : PageTree) (hw : t.Written unf items) : ∀ e ∈ t.leaves, HasObject items e.1 (.val (Page.prog e.2)) := by
  cases t with
  | page id calls contents =>
    simp only [PageTree.Written] at hw
    simp only [PageTree.leaves, List.mem_singleton, forall_eq]
    exact hw.1
  | node id calls kids =>
    simp only [PageTree.Written] at hw
    simp only [PageTree.leaves]
    exact leavesList_written kids hw.2.2.2
termination_by structural t
theorem leavesList_written (ts : List PageTree) (hw : writtenList unf items ts) : ∀ e ∈ leavesList ts, HasObject items e.1 (.val (Page.prog e.2)) := by
  cases ts with
  | nil => simp [leavesList]
  | cons t ts =>
    simp only [writtenList] at hw
    intro e he
    simp only [leavesList, List.mem_append] at he
    rcases he with he | he
    · exact leaves_written t hw.1 e he
    · exact leavesList_written ts hw.2 e he
termination_by structural ts
end

/-! ## The catalog -/

theorem catalog_read (hf : Finds f bytes items) {cid : Ref} (hroot : lookup b!"Root" f.trailer = some (.ref cid.get.toNat 0))
    {cat : List CatalogCall} (hcat : HasObject items cid (.val (Catalog.prog cat))) (hn : NoCall (CatalogMeans .code) b!"Type" cat) :
    ∃ d, readCatalog f bytes = some d ∧ EntriesAre (CatalogEntries .code cat) d := by
  obtain ⟨v, hv, hden⟩ := finds_val hf hcat
  obtain ⟨d, rfl, he⟩ := catalog_denotes .code cat (Or.inl rfl) v hden
  have hty : (CatalogEntries .code cat).filter (fun e => e.1 == b!"Type") = [(b!"Type", IsName b!"Catalog")] := by
    simp only [CatalogEntries, List.filter_append, noCall_filter hn]
    rfl
  obtain ⟨w, hl, hw⟩ := lookup_of he hty
  simp only [IsName] at hw
  subst hw
  exact ⟨d, by simp only [readCatalog, hroot, hv, hl, if_true], he⟩

/-- The navigator knows the pages, and the named destinations if there are any. -/
structure NavOk (nav : Navigator) (items : List Item) (cat : List CatalogCall) (ids : List Ref) : Prop where
  pages : nav.pages = ids.map fun r => r.get.toNat
  dests : ∀ id es, OnlyCall (CatalogMeans .code) b!"Dests" cat (.destinations id) → HasObject items id (.val (.dict es)) → DenotesEntries es nav.dests

theorem navigator_read (hf : Finds f bytes items) {cat : List CatalogCall} {d : List (Bytes × Val)} (he : EntriesAre (CatalogEntries .code cat) d)
    {t : PageTree} (ho : OnlyCall (CatalogMeans .code) b!"Pages" cat (.pages t.id)) (depth : Nat) (hd : t.depth ≤ depth) (hw : t.Written unf items)
    (hdests : DestsSet items cat) :
    ∃ nav, readNavigator f bytes depth d = some nav ∧ NavOk nav items cat t.ids := by
  have hpg : (CatalogEntries .code cat).filter (fun e => e.1 == b!"Pages") = [(b!"Pages", IsRef t.id)] := by
    simp only [CatalogEntries, List.filter_append, onlyCall_filter ho]
    rfl
  obtain ⟨w, hl, hw'⟩ := lookup_of he hpg
  simp only [IsRef] at hw'
  subst hw'
  have hn := tree_numbers (unf := unf) hf t depth hd hw
  rcases hdests with hno | ⟨id, es, hon, hob⟩
  · have : optionalEntry b!"Dests" d (followDict f bytes) = some none := optional_absent he (by
      simp only [CatalogEntries, List.filter_append, noCall_filter hno]
      rfl)
    refine ⟨⟨_, []⟩, by simp only [readNavigator, hl, hn, this, Option.bind_some, Option.map_some, Option.getD_none]; rfl, ?_, ?_⟩
    · simp [PageTree.ids, List.map_map, Function.comp_def]
    · intro id es hon
      simp only [OnlyCall] at hon
      have hm : CatalogCall.destinations id ∈ cat := by
        have : CatalogCall.destinations id ∈ cat.filter (fun x => (CatalogMeans .code x).any fun e => e.1 == b!"Dests") := by rw [hon]; simp
        exact (List.mem_filter.mp this).1
      exact absurd rfl (hno _ hm (b!"Dests", IsRef id) (by simp [CatalogMeans]))
  · obtain ⟨v, hv, hden⟩ := finds_val hf hob
    simp only [Denotes] at hden
    obtain ⟨ds, rfl, hden⟩ := hden
    obtain ⟨_, hds, rfl⟩ := optional_present (k := b!"Dests") (P := IsRef id) (read := followDict f bytes) (Q := fun x => x = ds) he
      (by simp only [CatalogEntries, List.filter_append, onlyCall_filter hon]; rfl)
      (fun w hw => by
        simp only [IsRef] at hw
        subst hw
        exact ⟨ds, by simp only [followDict, followRef, hv], rfl⟩)
    refine ⟨⟨_, _⟩, by simp only [readNavigator, hl, hn, hds, Option.bind_some, Option.map_some, Option.getD_some]; rfl, ?_, ?_⟩
    · simp [PageTree.ids, List.map_map, Function.comp_def]
    · intro id' es' hon' hob'
      have e : id' = id := by
        simp only [OnlyCall] at hon hon'
        rw [hon] at hon'
        simpa using hon'.symm
      subst e
      obtain ⟨v', hv', hden'⟩ := finds_val hf hob'
      rw [hv] at hv'
      cases hv'
      simp only [Denotes] at hden'
      obtain ⟨_, h, hden'⟩ := hden'
      cases h
      exact hden'

/-! ## Destinations -/

theorem findIdx_ids (ids : List Ref) (r : Ref) (h : r ∈ ids) :
    ∃ i, (ids.map fun r => r.get.toNat).findIdx? (· == r.get.toNat) = some i ∧ ids[i]? = some r := by
  induction ids with
  | nil => simp at h
  | cons a ids ih =>
    by_cases ha : a = r
    · subst ha
      exact ⟨0, by simp [List.findIdx?_cons], rfl⟩
    · have hne : a.get.toNat ≠ r.get.toNat := by
        intro e
        apply ha
        cases a with | mk a pa _ => cases r with | mk r pr _ =>
        simp only [Ref.get] at e
        have : a = r := by omega
        subst this
        rfl
      obtain ⟨i, h1, h2⟩ := ih (by simpa [Ne.symm ha] using h)
      refine ⟨i + 1, ?_, by simpa using h2⟩
      simp only [List.map_cons, List.findIdx?_cons, beq_iff_eq, hne, if_false, h1, Option.map_some]

variable {cat : List CatalogCall} {ids : List Ref} {nav : Navigator}

theorem explicit_read (hnav : NavOk nav items cat ids) {page : Ref} {view : List DestinationCall} (hp : page ∈ ids) {v : Val}
    (hv : IsDestination (.page page :: view) v) :
    ∃ r, explicitDest nav v = some r ∧ ids[r.1]? = some page ∧ ItemsAre (DestinationItems view) r.2 := by
  obtain ⟨vs, rfl, h⟩ := hv
  simp only [DestinationItems, List.flatMap_cons, DestinationMeans, List.cons_append, List.nil_append] at h
  obtain ⟨a, vs, rfl, ha, hr⟩ := h
  simp only [IsRef] at ha
  subst ha
  obtain ⟨i, h1, h2⟩ := findIdx_ids ids page hp
  exact ⟨(i, vs), by simp only [explicitDest, hnav.pages, h1, Option.map_some], h2, hr⟩

theorem dest_read (hnav : NavOk nav items cat ids) {g : GivenDest} (hg : DestOk items cat ids g) {v : Val}
    (hv : g.call IsDestination IsName v) : ∃ r, readDest nav v = some r ∧ DestMeans ids g r := by
  obtain ⟨hp, hn⟩ := hg
  obtain ⟨page, view, name⟩ := g
  cases name with
  | none =>
    simp only [GivenDest.call] at hv
    obtain ⟨r, h1, h2⟩ := explicit_read hnav hp hv
    refine ⟨r, ?_, h2⟩
    obtain ⟨vs, rfl, -⟩ := hv
    simpa only [readDest] using h1
  | some n =>
    simp only [GivenDest.call, IsName] at hv
    subst hv
    obtain ⟨id, es, hon, hob, hes⟩ := hn n rfl
    have hd := denotesEntries_filter (hnav.dests id es hon hob) n
    rw [hes] at hd
    simp only [DenotesEntries] at hd
    obtain ⟨w, ws, hw, hden, rfl⟩ := hd
    obtain ⟨r, h1, h2⟩ := explicit_read hnav hp (destination_denotes _ w hden)
    refine ⟨r, ?_, h2⟩
    simp only [readDest, lookup, hw, Option.bind_some, h1]

/-! ## Outlines -/

theorem readText_isText (t : List Char) (v : Val) (h : IsText t v) : readText v = some t := by
  obtain ⟨s, rfl, hs⟩ := h
  exact hs

theorem intOf_isInt (n : Int) (v : Val) (h : IsInt n v) : ∃ a, intOf v = some a ∧ a = n := by
  simp only [IsInt] at h
  subst h
  exact ⟨n, rfl, rfl⟩

/-- The numbers of the first and last of a list of items. -/
theorem children_read {α : Type} {means : α → List (Bytes × (Val → Prop))} {pre : List (Bytes × (Val → Prop))} {calls : List α}
    {d : List (Bytes × Val)} (he : EntriesAre (pre ++ calls.flatMap means) d)
    (hp1 : pre.filter (fun e => e.1 == b!"First") = []) (hp2 : pre.filter (fun e => e.1 == b!"Last") = [])
    {first last : Ref → α} (h1 : ∀ b, (means (first b)).filter (fun e => e.1 == b!"First") = [(b!"First", IsRef b)])
    (h2 : ∀ b, (means (last b)).filter (fun e => e.1 == b!"Last") = [(b!"Last", IsRef b)]) {kids : List OutlineTree}
    (hfirst : MaybeCall means b!"First" calls (kids.head?.map OutlineTree.id) first)
    (hlast : MaybeCall means b!"Last" calls (kids.getLast?.map OutlineTree.id) last)
    {siblings : Nat → Option Nat → Nat → Option (List ReadOutline × Nat)} {n : Nat}
    (hs : ∀ t ts, kids = t :: ts → ∃ rs, siblings n none t.id.get.toNat =
      some (rs, (((t :: ts).getLast (by simp)).id.get.toNat)) ∧ outlinesMean ids kids rs) :
    ∃ rs, readChildren siblings n d = some rs ∧ outlinesMean ids kids rs := by
  have e1 := optional_ref he hp1 hfirst h1
  have e2 := optional_ref he hp2 hlast h2
  cases kids with
  | nil => exact ⟨[], by simp [readChildren, e1, e2], by simp only [outlinesMean]⟩
  | cons t ts =>
    obtain ⟨rs, h3, h4⟩ := hs t ts rfl
    refine ⟨rs, ?_, h4⟩
    simp only [readChildren, e1, e2, List.head?_cons, Option.map_some, h3, Option.bind_some]
    rw [List.getLast?_eq_some_getLast (by simp)]
    simp only [Option.map_some]
    rw [h3]
    simp

theorem itemStyle_read {calls : List OutlineItemCall} {d : List (Bytes × Val)} (he : EntriesAre ([] ++ calls.flatMap OutlineItemMeans) d) {g : GivenStyle}
    (hc : MaybeCall OutlineItemMeans b!"C" calls g.color (fun c => .colorRgb c.1 c.2.1 c.2.2)) (hfl : MaybeCall OutlineItemMeans b!"F" calls g.flags .flags) :
    ∃ s, readItemStyle d = some s ∧ StyleMeans g s := by
  obtain ⟨c, q1, h1⟩ := optional_call (k := b!"C") (read := rgbOf) (P := fun c : F32 × F32 × F32 => ArrayIs [NumIs c.1, NumIs c.2.1, NumIs c.2.2])
    (R := fun c r => ∃ x y z, r = [x, y, z] ∧ NumIs c.1 x ∧ NumIs c.2.1 y ∧ NumIs c.2.2 z) he rfl hc (fun _ _ => rfl) (fun c _ v hv => by
      obtain ⟨vs, rfl, x, xs, rfl, h1, y, ys, rfl, h2, z, zs, rfl, h3, rfl⟩ := hv
      exact ⟨_, rfl, x, y, z, rfl, h1, h2, h3⟩)
  obtain ⟨n, q2, h2⟩ := optional_call (k := b!"F") (read := styleBits) (P := fun fl : List OutlineItemFlag => FlagsAre (fl.map isoOutlineItemFlag))
    (R := fun fl n => ∀ i, n.testBit i = true ↔ i + 1 ∈ fl.map isoOutlineItemFlag) he rfl hfl (fun _ _ => rfl) (fun fl _ v hv => by
      obtain ⟨n, rfl, hn⟩ := hv
      exact ⟨n, by simp [styleBits], hn⟩)
  refine ⟨_, by rw [readItemStyle, q1, Option.bind_some, q2, Option.map_some], ?_⟩
  have key : ∀ i (fl : OutlineItemFlag), isoOutlineItemFlag fl = i + 1 → ((n.getD 0).testBit i = true ↔ fl ∈ g.flags.getD []) := by
    intro i fl hi
    cases hg : g.flags with
    | none =>
      rw [hg] at h2
      cases n with
      | none => simp
      | some n => exact h2.elim
    | some l =>
      rw [hg] at h2
      cases n with
      | none => exact h2.elim
      | some n =>
        simp only [Option.getD_some]
        rw [h2 i, ← hi, List.mem_map]
        constructor
        · rintro ⟨x, hx, hxi⟩
          cases x <;> cases fl <;> simp_all [isoOutlineItemFlag]
        · intro hx
          exact ⟨fl, hx, rfl⟩
  refine ⟨?_, ?_, key 0 .italic rfl, key 1 .bold rfl⟩
  · intro hg
    rw [hg] at h1
    cases c with
    | none => rfl
    | some c => exact h1.elim
  · intro c' hg
    rw [hg] at h1
    cases c with
    | none => exact h1.elim
    | some c => exact h1

theorem siblings_read (hf : Finds f bytes items) (hnav : NavOk nav items cat ids) (fuel : Nat) (parent : Ref) (prev : Option Ref)
    (t : OutlineTree) (ts : List OutlineTree) (hw : outlinesWritten items cat ids parent prev (t :: ts)) (hs : outlinesSize (t :: ts) ≤ fuel) :
    ∃ rs, readSiblings f bytes nav fuel parent.get.toNat (prev.map fun r => r.get.toNat) t.id.get.toNat =
      some (rs, (((t :: ts).getLast (by simp)).id.get.toNat)) ∧ outlinesMean ids (t :: ts) rs := by
  induction fuel generalizing parent prev t ts with
  | zero =>
    cases t
    simp only [outlinesSize, OutlineTree.size] at hs
    omega
  | succ fuel ih =>
    cases t with
    | item id calls title count dest style kids =>
      simp only [outlinesSize, OutlineTree.size] at hs
      simp only [outlinesWritten, OutlineTree.Written, OutlineTree.id] at hw
      obtain ⟨⟨hob, htitle, hparent, hprev, hnext, hfirst, hlast, hcount, hdest, hdok, hcol, hfl, hkids⟩, hrest⟩ := hw
      obtain ⟨v, ho, hv⟩ := finds_val hf hob
      obtain ⟨d, rfl, he⟩ := outlineItem_denotes calls v hv
      simp only [OutlineItemEntries] at he
      obtain ⟨w, hl, hw⟩ := lookup_of he (k := b!"Title") (P := IsText title) (by rw [onlyCall_filter htitle]; rfl)
      have he' : EntriesAre ([] ++ calls.flatMap OutlineItemMeans) d := he
      have e1 := optional_ref (x := some parent) (means := OutlineItemMeans) (c := .parent) (k := b!"Parent") he' rfl hparent (fun _ => rfl)
      have e2 := optional_ref (c := .prev) (k := b!"Prev") he' rfl hprev (fun _ => rfl)
      have e3 := optional_ref (c := .next) (k := b!"Next") he' rfl hnext (fun _ => rfl)
      obtain ⟨cnt, e4, hc⟩ := optional_call (k := b!"Count") (R := fun a b => b = a) (P := IsInt) he' rfl hcount (fun _ _ => rfl)
        (fun b _ v hv => intOf_isInt b v hv)
      have hc' : cnt = count := by cases cnt <;> cases count <;> simp_all [BothOrNone]
      subst hc'
      obtain ⟨dst, e5, hdm⟩ := optional_call (k := b!"Dest") (R := DestMeans ids) (P := fun g => g.call IsDestination IsName) (read := readDest nav)
        he' rfl hdest
        (fun g _ => by obtain ⟨p, vw, nm⟩ := g; cases nm <;> rfl)
        (fun g hg v hv => dest_read hnav (hdok g hg) hv)
      obtain ⟨sty, e7, hst⟩ := itemStyle_read he' hcol hfl
      obtain ⟨ks, e6, hk⟩ := children_read (ids := ids) he' rfl rfl (first := .first) (last := .last) (fun _ => rfl) (fun _ => rfl) hfirst hlast
        (siblings := readSiblings f bytes nav fuel) (n := id.get.toNat)
        (fun t ts e => by
          subst e
          exact ih id none t ts hkids (by omega))
      simp only [readSiblings, OutlineTree.id, ho]
      rw [if_pos ⟨e1, e2⟩]
      simp only [hl, Option.bind_some, readText_isText title w hw, e3, e4, e5, e6, e7]
      cases ts with
      | nil =>
        refine ⟨_, rfl, ?_⟩
        simp only [outlinesMean, OutlineTree.Means]
        exact ⟨_, [], rfl, ⟨_, _, _, rfl, hdm, hst, hk⟩, rfl⟩
      | cons t' ts' =>
        obtain ⟨rs, h1, h2⟩ := ih parent (some id) t' ts' hrest (by omega)
        simp only [Option.map_some] at h1
        refine ⟨.item title cnt dst sty ks :: rs, ?_, ?_⟩
        · simp only [List.head?_cons, Option.map_some, List.getLast_cons_cons]
          rw [h1]
          rfl
        · rw [outlinesMean]
          refine ⟨_, rs, rfl, ?_, h2⟩
          simp only [OutlineTree.Means]
          exact ⟨_, _, _, rfl, hdm, hst, hk⟩

theorem outlines_read (hf : Finds f bytes items) (hnav : NavOk nav items cat ids) {d : List (Bytes × Val)}
    (he : EntriesAre (CatalogEntries .code cat) d) {oid : Ref} {calls : List OutlineCall} {ts : List OutlineTree}
    (hw : OutlineWritten items cat ids oid calls ts) (fuel : Nat) (hs : outlinesSize ts ≤ fuel) :
    ∃ rs, readOutlines f bytes nav fuel d = some rs ∧ outlinesMean ids ts rs := by
  have e1 := optional_ref (x := some oid) (means := CatalogMeans .code) (c := .outlines) (k := b!"Outlines") he rfl hw.catalog (fun _ => rfl)
  obtain ⟨v, ho, hv⟩ := finds_val hf hw.object
  obtain ⟨o, rfl, heo⟩ := outline_denotes calls v hv
  obtain ⟨rs, h1, h2⟩ := children_read (ids := ids) heo rfl rfl (first := .first) (last := .last) (fun _ => rfl) (fun _ => rfl) hw.first hw.last
    (siblings := readSiblings f bytes nav fuel) (n := oid.get.toNat)
    (fun t ts' e => by
      subst e
      exact siblings_read hf hnav fuel oid none t ts' hw.tree hs)
  exact ⟨rs, by simp only [readOutlines, e1, Option.map_some, ho, h1], h2⟩

/-! ## Links -/

theorem target_read (hnav : NavOk nav items cat ids) {calls : List ActionCall} {target : GivenTarget} (h : TargetSet items cat ids calls target)
    {a : List (Bytes × Val)} (he : EntriesAre (ActionEntries calls) a) : ∃ r, readTarget nav a = some r ∧ TargetMeans ids target r := by
  cases target with
  | dest g =>
    obtain ⟨h1, h2, h3⟩ := h
    obtain ⟨w, hl, hw⟩ := lookup_of he (k := b!"S") (P := IsName b!"GoTo") (by
      simp only [ActionEntries, List.filter_append, onlyCall_filter h1]; rfl)
    simp only [IsName] at hw
    subst hw
    obtain ⟨w, hl', hw⟩ := lookup_of he (k := b!"D") (P := g.call IsDestination IsName) (by
      simp only [ActionEntries, List.filter_append, onlyCall_filter h2]
      obtain ⟨p, vw, nm⟩ := g
      cases nm <;> rfl)
    obtain ⟨r, hr, hm⟩ := dest_read hnav h3 hw
    exact ⟨.page r.1 r.2, by simp only [readTarget, hl, if_true, hl', Option.bind_some, hr, Option.map_some], hm⟩
  | uri u =>
    obtain ⟨h1, h2⟩ := h
    obtain ⟨w, hl, hw⟩ := lookup_of he (k := b!"S") (P := IsName b!"URI") (by
      simp only [ActionEntries, List.filter_append, onlyCall_filter h1]; rfl)
    simp only [IsName] at hw
    subst hw
    obtain ⟨w, hl', hw⟩ := lookup_of he (k := b!"URI") (P := IsStr u) (by
      simp only [ActionEntries, List.filter_append, onlyCall_filter h2]; rfl)
    simp only [IsStr] at hw
    subst hw
    refine ⟨.uri u, ?_, rfl⟩
    simp only [readTarget, hl]
    rw [if_neg (by decide), if_pos trivial, hl']

theorem isoAnnotationType_link (k : AnnotationType) (h : k ≠ .link) : isoAnnotationType k ≠ b!"Link" := by
  cases k <;> first | exact absurd rfl h | decide

theorem annot_read (hf : Finds f bytes items) (hnav : NavOk nav items cat ids) (a : AnnotPart) (h : a.Written items cat ids) :
    ∃ ls, readAnnotation f bytes nav a.id.get.toNat = some ls ∧ Pairwise (LinkMeans ids) (linksOf [a]) ls := by
  cases a with
  | link id calls rect action target =>
    obtain ⟨hob, h1, h2, h3, h4⟩ := h
    obtain ⟨v, ho, hv⟩ := finds_val hf hob
    obtain ⟨d, rfl, he⟩ := annotation_denotes .code calls (Or.inl rfl) v hv
    obtain ⟨w, hl, hw⟩ := lookup_of he (k := b!"Subtype") (P := IsName b!"Link") (by
      simp only [AnnotationEntries, List.filter_append, onlyCall_filter h1]; rfl)
    simp only [IsName] at hw
    subst hw
    obtain ⟨r, hr, hrect⟩ := lookup_of he (k := b!"Rect") (P := IsRect rect) (by
      simp only [AnnotationEntries, List.filter_append, onlyCall_filter h2]; rfl)
    obtain ⟨w, ha, ad, rfl, hea⟩ := lookup_of he (k := b!"A") (P := IsAction action) (by
      simp only [AnnotationEntries, List.filter_append, onlyCall_filter h3]; rfl)
    obtain ⟨t, ht, hm⟩ := target_read hnav h4 hea
    refine ⟨[⟨r, t⟩], ?_, .cons ⟨hrect, hm⟩ .nil⟩
    simp only [readAnnotation, AnnotPart.id, ho, hl, if_true, hr, ha, Option.bind_some, followDict, followRef, ht, Option.map_some]
  | other id calls kind =>
    obtain ⟨hob, h1, h2⟩ := h
    obtain ⟨v, ho, hv⟩ := finds_val hf hob
    obtain ⟨d, rfl, he⟩ := annotation_denotes .code calls (Or.inl rfl) v hv
    obtain ⟨w, hl, hw⟩ := lookup_of he (k := b!"Subtype") (P := IsName (isoAnnotationType kind)) (by
      simp only [AnnotationEntries, List.filter_append, onlyCall_filter h1]; rfl)
    simp only [IsName] at hw
    subst hw
    refine ⟨[], ?_, .nil⟩
    simp only [readAnnotation, AnnotPart.id, ho, hl]
    rw [if_neg (isoAnnotationType_link kind h2)]

theorem annots_read (hf : Finds f bytes items) (hnav : NavOk nav items cat ids) (as : List AnnotPart) (h : ∀ a ∈ as, a.Written items cat ids) :
    ∃ ls, collect (readAnnotation f bytes nav) (as.map fun a => a.id.get.toNat) = some ls ∧ Pairwise (LinkMeans ids) (linksOf as) ls := by
  induction as with
  | nil => exact ⟨[], rfl, .nil⟩
  | cons a as ih =>
    obtain ⟨ls, h1, h2⟩ := annot_read hf hnav a (h a (by simp))
    obtain ⟨ls', h3, h4⟩ := ih (fun b hb => h b (by simp [hb]))
    refine ⟨ls ++ ls', by simp only [List.map_cons, collect, h1, h3, Option.bind_some, Option.map_some], ?_⟩
    cases a with
    | link id calls rect action target =>
      simp only [linksOf] at h2 ⊢
      cases h2 with | cons ha hn => cases hn; exact .cons ha h4
    | other id calls kind =>
      simp only [linksOf] at h2 ⊢
      cases h2
      exact h4

theorem pageLinks_read (hf : Finds f bytes items) (hnav : NavOk nav items cat ids) {id : Ref} {calls : List PageCall} {parts : List AnnotPart}
    (hob : HasObject items id (.val (Page.prog calls))) (h : PageAnnots items cat ids calls parts) :
    ∃ ls, readPageLinks f bytes nav id.get.toNat = some ls ∧ Pairwise (LinkMeans ids) (linksOf parts) ls := by
  obtain ⟨hset, hall⟩ := h
  obtain ⟨v, ho, hv⟩ := finds_val hf hob
  obtain ⟨d, rfl, he⟩ := page_denotes .code calls (Or.inl rfl) v hv
  rcases hset with ⟨rfl, hno⟩ | hon
  · refine ⟨[], ?_, .nil⟩
    have := absent_of he (k := b!"Annots") (by simp only [PageEntries, List.filter_append, noCall_filter hno]; rfl)
    simp only [readPageLinks, ho, this, if_true]
  · have hfil : (PageEntries .code calls).filter (fun e => e.1 == b!"Annots") =
        [(b!"Annots", ArrayIs ((parts.map AnnotPart.id).map fun x => IsRef x))] := by
      simp only [PageEntries, List.filter_append, onlyCall_filter hon]
      rfl
    obtain ⟨w, hl, vs, rfl, hvs⟩ := lookup_of he hfil
    obtain ⟨ls, h1, h2⟩ := annots_read hf hnav parts hall
    refine ⟨ls, ?_, h2⟩
    simp only [readPageLinks, ho, present_of he hfil, hl, refNumbers_of _ vs hvs, Option.bind_some, List.map_map, Function.comp_def, h1]
    rfl

theorem allLinks_read (hf : Finds f bytes items) (hnav : NavOk nav items cat ids) (ls : List (Ref × List PageCall)) (parts : List (List AnnotPart))
    (hob : ∀ e ∈ ls, HasObject items e.1 (.val (Page.prog e.2))) (h : Pairwise (fun e as => PageAnnots items cat ids e.2 as) ls parts) :
    ∃ rs, collect (fun n => (readPageLinks f bytes nav n).map fun l => [l]) (ls.map fun e => e.1.get.toNat) = some rs ∧
      Pairwise (fun as rs => Pairwise (LinkMeans ids) (linksOf as) rs) parts rs := by
  induction h with
  | nil => exact ⟨[], rfl, .nil⟩
  | cons ha hr ih =>
    obtain ⟨rs, h1, h2⟩ := ih (fun e he => hob e (by simp [he]))
    obtain ⟨l, h3, h4⟩ := pageLinks_read hf hnav (hob _ (List.mem_cons_self ..)) ha
    exact ⟨l :: rs, by simp only [List.map_cons, collect, h3, h1, Option.map_some, Option.bind_some, List.cons_append, List.nil_append], .cons h4 h2⟩

end PdfW
