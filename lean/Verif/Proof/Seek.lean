import Verif.Spec.Seek
import Verif.Proof.Colors

set_option linter.unusedSimpArgs false
set_option linter.unusedVariables false

/-! # Finding a page by its number: lemmas for C87 -/

namespace PdfW
open Spec

mutual
theorem routes_length (t : PageTree) : t.routes.length = t.pages.length := by
  cases t with
  | page id calls contents => simp [PageTree.routes, PageTree.pages]
  | node id calls kids => simp [PageTree.routes, PageTree.pages, routesList_length kids]
termination_by structural t
theorem routesList_length (ts : List PageTree) : (routesList ts).length = (pagesList ts).length := by
  cases ts with
  | nil => simp [routesList, pagesList]
  | cons t ts => simp [routesList, pagesList, routes_length t, routesList_length ts]
termination_by structural ts
end

mutual
theorem routes_calls (t : PageTree) : t.routes.map (fun r => r.2.1) = t.pages.map (·.1) := by
  cases t with
  | page id calls contents => simp [PageTree.routes, PageTree.pages]
  | node id calls kids =>
    simp only [PageTree.routes, PageTree.pages, List.map_map, ← routesList_calls kids]
    rfl
termination_by structural t
theorem routesList_calls (ts : List PageTree) : (routesList ts).map (fun r => r.2.1) = (pagesList ts).map (·.1) := by
  cases ts with
  | nil => simp [routesList, pagesList]
  | cons t ts => simp [routesList, pagesList, routes_calls t, routesList_calls ts]
termination_by structural ts
end

section
variable {unf : Val → Bytes → Option Bytes} {f : FileEnd} {bytes : Bytes} {items : List Item}

theorem nodeDict_of {n : Nat} {d : List (Bytes × Val)} (h : f.object bytes n = some (.val (.dict d))) : nodeDict f bytes n = some d := by
  simp only [nodeDict, h]

theorem name_nameOf (n : Bytes) (v : Val) (h : IsName n v) : nameOf v = some n := by simp only [IsName] at h; subst h; rfl
theorem ref_refNumber (r : Ref) (v : Val) (h : IsRef r v) : refNumber v = some r.get.toNat := by simp only [IsRef] at h; subst h; rfl
theorem int_countOf (k : Nat) (v : Val) (h : IsInt (k : Int) v) : countOf v = some k := by
  simp only [IsInt] at h; subst h; simp [countOf]
theorem kids_kidsOf (rs : List Ref) (v : Val) (h : ArrayIs (rs.map fun x => IsRef x) v) : kidsOf v = some (rs.map fun r => r.get.toNat) := by
  obtain ⟨vs, rfl, hv⟩ := h
  exact refNumbers_of rs vs hv

/-- A page as a node of the tree. -/
theorem page_node (hf : Finds f bytes items) {id : Ref} {calls : List PageCall} {contents : List ContentPart} {parent : Option Ref}
    (hw : (PageTree.page id calls contents).Written unf items) (hc : (PageTree.page id calls contents).Counted parent) :
    ∃ d, nodeDict f bytes id.get.toNat = some d ∧ requiredEntry b!"Type" d nameOf = some b!"Page" ∧
      optionalEntry b!"Parent" d refNumber = some (parent.map fun r => r.get.toNat) ∧ EntriesAre (PageEntries .code calls) d ∧
      ∀ rd : Reading, (rd = .code ∨ calls.all PageCall.conforming = true) → IsPage rd calls (.dict d) := by
  simp only [PageTree.Written] at hw
  simp only [PageTree.Counted] at hc
  obtain ⟨h1, h2, h3, h4⟩ := hw
  obtain ⟨v, ho, hv⟩ := finds_val hf h1
  obtain ⟨d, rfl, he⟩ := page_denotes .code calls (Or.inl rfl) v hv
  refine ⟨d, nodeDict_of ho, required_pre (IsName b!"Page") _ he rfl h2 (name_nameOf _), ?_, he, fun rd hrd => page_denotes rd calls hrd _ hv⟩
  exact optional_eq (fun r => IsRef r) _ he rfl hc (fun _ => rfl) ref_refNumber

/-- A node with kids. -/
theorem pages_node (hf : Finds f bytes items) {id : Ref} {calls : List PagesCall} {kids : List PageTree} {parent : Option Ref}
    (hw : (PageTree.node id calls kids).Written unf items) (hc : (PageTree.node id calls kids).Counted parent) :
    ∃ d, nodeDict f bytes id.get.toNat = some d ∧ requiredEntry b!"Type" d nameOf = some b!"Pages" ∧
      optionalEntry b!"Parent" d refNumber = some (parent.map fun r => r.get.toNat) ∧
      requiredEntry b!"Count" d countOf = some (pagesList kids).length ∧
      requiredEntry b!"Kids" d kidsOf = some (kids.map fun t => t.id.get.toNat) := by
  simp only [PageTree.Written] at hw
  simp only [PageTree.Counted] at hc
  obtain ⟨h1, h2, h3, h4⟩ := hw
  obtain ⟨v, ho, hv⟩ := finds_val hf h1
  obtain ⟨d, rfl, he⟩ := pages_denotes calls v hv
  refine ⟨d, nodeDict_of ho, required_pre (IsName b!"Pages") _ he rfl h2 (name_nameOf _), ?_, ?_, ?_⟩
  · exact optional_eq (fun r => IsRef r) _ he rfl hc.1 (fun _ => rfl) ref_refNumber
  · exact required_eq (IsInt _) _ he rfl hc.2.1 rfl (int_countOf _)
  · have := required_eq (ArrayIs ((kids.map PageTree.id).map fun x => IsRef x)) _ he rfl h3 rfl (kids_kidsOf _)
    rw [this, List.map_map]
    rfl

theorem pagesBelow_tree (hf : Finds f bytes items) (t : PageTree) (parent : Option Ref) (hw : t.Written unf items) (hc : t.Counted parent) :
    pagesBelow f bytes t.id.get.toNat = some t.pages.length := by
  cases t with
  | page id calls contents =>
    obtain ⟨d, h1, h2, -⟩ := page_node hf hw hc
    simp only [pagesBelow, PageTree.id, h1, h2, Option.bind_some, PageTree.pages, List.length_singleton]
    rfl
  | node id calls kids =>
    obtain ⟨d, h1, h2, -, h4, -⟩ := pages_node hf hw hc
    simp only [pagesBelow, PageTree.id, h1, h2, h4, Option.bind_some, PageTree.pages]
    rw [if_neg (by decide), if_pos (by simp)]

mutual
theorem seek_tree (hf : Finds f bytes items) (t : PageTree) (parent : Option Ref) (depth : Nat) (hd : t.depth ≤ depth)
    (hw : t.Written unf items) (hc : t.Counted parent) (k : Nat) :
    seekPage f bytes depth t.id.get.toNat k = t.routes[k]?.map fun r => r.1.get.toNat := by
  cases t with
  | page id calls contents =>
    simp only [PageTree.depth] at hd
    obtain ⟨n, rfl⟩ : ∃ n, depth = n + 1 := ⟨depth - 1, by omega⟩
    obtain ⟨d, h1, h2, -⟩ := page_node hf hw hc
    simp only [seekPage, PageTree.id, h1, h2, Option.bind_some, PageTree.routes]
    cases k <;> simp
  | node id calls kids =>
    simp only [PageTree.depth] at hd
    obtain ⟨n, rfl⟩ : ∃ n, depth = n + 1 := ⟨depth - 1, by omega⟩
    obtain ⟨d, h1, h2, -, h4, h5⟩ := pages_node hf hw hc
    simp only [PageTree.Written] at hw
    simp only [PageTree.Counted] at hc
    simp only [seekPage, PageTree.id, h1, h2, h5, Option.bind_some, PageTree.routes, List.getElem?_map, Option.map_map, Function.comp_def]
    rw [if_neg (by decide), if_pos (by simp)]
    exact seek_trees hf kids (some id) n (by omega) hw.2.2.2 hc.2.2 k
termination_by structural t
theorem seek_trees (hf : Finds f bytes items) (ts : List PageTree) (parent : Option Ref) (depth : Nat) (hd : depthList ts ≤ depth)
    (hw : writtenList unf items ts) (hc : countedList parent ts) (k : Nat) :
    ((pickKid (pagesBelow f bytes) (ts.map fun t => t.id.get.toNat) k).bind fun x => seekPage f bytes depth x.1 x.2) =
      (routesList ts)[k]?.map fun r => r.1.get.toNat := by
  cases ts with
  | nil => simp [pickKid, routesList]
  | cons t ts =>
    simp only [depthList] at hd
    simp only [writtenList] at hw
    simp only [countedList] at hc
    simp only [List.map_cons, pickKid, pagesBelow_tree hf t parent hw.1 hc.1, Option.bind_some, routesList]
    by_cases hk : k < t.pages.length
    · rw [if_pos hk, Option.bind_some, seek_tree hf t parent depth (by omega) hw.1 hc.1 k,
        List.getElem?_append_left (by rw [routes_length]; exact hk)]
    · rw [if_neg hk, seek_trees hf ts parent depth (by omega) hw.2 hc.2, List.getElem?_append_right (by rw [routes_length]; omega), routes_length]
termination_by structural ts
end

/-- What is above a parent, with enough fuel. -/
def Above (f : FileEnd) (bytes : Bytes) (m : Nat) : Option Ref → List Ref → Prop
  | none, up => up = []
  | some p, up => ∃ rest, up = p :: rest ∧ ∀ fuel, m ≤ fuel → nodesAbove f bytes fuel p.get.toNat = some (rest.map fun r => r.get.toNat)

theorem nodesAbove_of {m : Nat} {parent : Option Ref} {up : List Ref} (ha : Above f bytes m parent up) {n : Nat} {d : List (Bytes × Val)}
    (h1 : nodeDict f bytes n = some d) (h2 : optionalEntry b!"Parent" d refNumber = some (parent.map fun r => r.get.toNat)) (fuel : Nat)
    (hm : m + 1 ≤ fuel) : nodesAbove f bytes fuel n = some (up.map fun r => r.get.toNat) := by
  obtain ⟨k, rfl⟩ : ∃ k, fuel = k + 1 := ⟨fuel - 1, by omega⟩
  simp only [nodesAbove, h1, h2, Option.bind_some]
  cases parent with
  | none => simp only [Above] at ha; subst ha; rfl
  | some p =>
    obtain ⟨rest, rfl, hr⟩ := ha
    simp only [Option.map_some, hr k (by omega), List.map_cons]

mutual
theorem above_tree (hf : Finds f bytes items) (t : PageTree) (parent : Option Ref) (m : Nat) (up : List Ref) (ha : Above f bytes m parent up)
    (hw : t.Written unf items) (hc : t.Counted parent) (r : Ref × List PageCall × List Ref) (hr : r ∈ t.routes) :
    (∀ fuel, m + t.depth ≤ fuel → nodesAbove f bytes fuel r.1.get.toNat = some ((r.2.2 ++ up).map fun r => r.get.toNat)) ∧
    ∃ d, nodeDict f bytes r.1.get.toNat = some d ∧ ∀ rd : Reading, (rd = .code ∨ r.2.1.all PageCall.conforming = true) → IsPage rd r.2.1 (.dict d) := by
  cases t with
  | page id calls contents =>
    obtain ⟨d, h1, h2, h3, h4, h5⟩ := page_node hf hw hc
    simp only [PageTree.routes, List.mem_singleton] at hr
    subst hr
    exact ⟨fun fuel hl => nodesAbove_of ha h1 h3 fuel (by simpa only [PageTree.depth] using hl), d, h1, h5⟩
  | node id calls kids =>
    obtain ⟨d, h1, h2, h3, -⟩ := pages_node hf hw hc
    simp only [PageTree.Written] at hw
    simp only [PageTree.Counted] at hc
    simp only [PageTree.routes, List.mem_map] at hr
    obtain ⟨q, hq, rfl⟩ := hr
    have ha' : Above f bytes (m + 1) (some id) (id :: up) := ⟨up, rfl, fun fuel hl => nodesAbove_of ha h1 h3 fuel hl⟩
    obtain ⟨g1, g2⟩ := above_trees hf kids (some id) (m + 1) (id :: up) ha' hw.2.2.2 hc.2.2 q hq
    refine ⟨fun fuel hl => ?_, g2⟩
    simp only [PageTree.depth] at hl
    rw [g1 fuel (by omega)]
    simp
termination_by structural t
theorem above_trees (hf : Finds f bytes items) (ts : List PageTree) (parent : Option Ref) (m : Nat) (up : List Ref) (ha : Above f bytes m parent up)
    (hw : writtenList unf items ts) (hc : countedList parent ts) (r : Ref × List PageCall × List Ref) (hr : r ∈ routesList ts) :
    (∀ fuel, m + depthList ts ≤ fuel → nodesAbove f bytes fuel r.1.get.toNat = some ((r.2.2 ++ up).map fun r => r.get.toNat)) ∧
    ∃ d, nodeDict f bytes r.1.get.toNat = some d ∧ ∀ rd : Reading, (rd = .code ∨ r.2.1.all PageCall.conforming = true) → IsPage rd r.2.1 (.dict d) := by
  cases ts with
  | nil => simp [routesList] at hr
  | cons t ts =>
    simp only [writtenList] at hw
    simp only [countedList] at hc
    simp only [routesList, List.mem_append] at hr
    rcases hr with hr | hr
    · obtain ⟨g1, g2⟩ := above_tree hf t parent m up ha hw.1 hc.1 r hr
      exact ⟨fun fuel hl => g1 fuel (by simp only [depthList] at hl; omega), g2⟩
    · obtain ⟨g1, g2⟩ := above_trees hf ts parent m up ha hw.2 hc.2 r hr
      exact ⟨fun fuel hl => g1 fuel (by simp only [depthList] at hl; omega), g2⟩
termination_by structural ts
end

mutual
theorem same_tree (hf : Finds f bytes items) (t : PageTree) (parent : Option Ref) (depth : Nat) (hd : t.depth ≤ depth)
    (hw : t.Written unf items) (hc : t.Counted parent) (ps : List ReadPage) (hp : readPageTree unf f bytes depth t.id.get.toNat = some ps) :
    ps.map (fun x => some x.dict) = t.routes.map fun r => (nodeDict f bytes r.1.get.toNat).map Val.dict := by
  cases t with
  | page id calls contents =>
    simp only [PageTree.depth] at hd
    obtain ⟨n, rfl⟩ : ∃ n, depth = n + 1 := ⟨depth - 1, by omega⟩
    have hw' := hw
    simp only [PageTree.Written] at hw'
    obtain ⟨v, ho, hv⟩ := finds_val hf hw'.1
    obtain ⟨d, rfl, he⟩ := page_denotes .code calls (Or.inl rfl) v hv
    have hty : (PageEntries .code calls).filter (fun e => e.1 == b!"Type") = [(b!"Type", IsName b!"Page")] := by
      simp only [PageEntries, List.filter_append, noCall_filter hw'.2.1]
      rfl
    obtain ⟨w, hl, hw⟩ := lookup_of he hty
    simp only [IsName] at hw
    subst hw
    simp only [readPageTree, PageTree.id, ho, hl, if_true] at hp
    cases hq : pageOperations unf f bytes d with
    | none => rw [hq] at hp; cases hp
    | some ops =>
      rw [hq] at hp
      simp only [Option.map_some, Option.some.injEq] at hp
      subst hp
      simp only [PageTree.routes, List.map_cons, List.map_nil, nodeDict_of ho, Option.map_some]
  | node id calls kids =>
    simp only [PageTree.depth] at hd
    obtain ⟨n, rfl⟩ : ∃ n, depth = n + 1 := ⟨depth - 1, by omega⟩
    simp only [PageTree.Written] at hw
    simp only [PageTree.Counted] at hc
    obtain ⟨h1, h2, h3, h4⟩ := hw
    obtain ⟨v, ho, hv⟩ := finds_val hf h1
    obtain ⟨d, rfl, he⟩ := pages_denotes calls v hv
    have hty : (PagesEntries calls).filter (fun e => e.1 == b!"Type") = [(b!"Type", IsName b!"Pages")] := by
      simp only [PagesEntries, List.filter_append, noCall_filter h2]
      rfl
    have hki : (PagesEntries calls).filter (fun e => e.1 == b!"Kids") = [(b!"Kids", ArrayIs ((kids.map PageTree.id).map fun x => IsRef x))] := by
      simp only [PagesEntries, List.filter_append, onlyCall_filter h3]
      rfl
    obtain ⟨w, hl, hw⟩ := lookup_of he hty
    simp only [IsName] at hw
    subst hw
    obtain ⟨w, hl', vs, rfl, hvs⟩ := lookup_of he hki
    simp only [readPageTree, PageTree.id, ho, hl, hl', refNumbers_of _ vs hvs, Option.bind_some, List.map_map, Function.comp_def] at hp
    rw [if_neg (by decide), if_pos trivial] at hp
    rw [same_trees hf kids (some id) n (by omega) h4 hc.2.2 ps hp]
    simp only [PageTree.routes, List.map_map, Function.comp_def]
termination_by structural t
theorem same_trees (hf : Finds f bytes items) (ts : List PageTree) (parent : Option Ref) (depth : Nat) (hd : depthList ts ≤ depth)
    (hw : writtenList unf items ts) (hc : countedList parent ts) (ps : List ReadPage)
    (hp : collect (readPageTree unf f bytes depth) (ts.map fun t => t.id.get.toNat) = some ps) :
    ps.map (fun x => some x.dict) = (routesList ts).map fun r => (nodeDict f bytes r.1.get.toNat).map Val.dict := by
  cases ts with
  | nil =>
    simp only [List.map_nil, collect, Option.some.injEq] at hp
    subst hp
    simp [routesList]
  | cons t ts =>
    simp only [depthList] at hd
    simp only [writtenList] at hw
    simp only [countedList] at hc
    simp only [List.map_cons, collect, Option.bind_eq_some_iff, Option.map_eq_some_iff] at hp
    obtain ⟨as, h1, bs, h2, rfl⟩ := hp
    rw [List.map_append, same_tree hf t parent depth (by omega) hw.1 hc.1 as h1, same_trees hf ts parent depth (by omega) hw.2 hc.2 bs h2, routesList,
      List.map_append]
termination_by structural ts
end

end

end PdfW
