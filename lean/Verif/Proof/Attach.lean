import Verif.Spec.Attach
import Verif.Proof.Navigate
import Verif.Proof.Tree
import Verif.Proof.Typed.Files

set_option linter.unusedSimpArgs false
set_option linter.unusedVariables false

/-! # Reading attached files -/

namespace PdfW
open Spec

variable {unf : Val → Bytes → Option Bytes} {f : FileEnd} {bytes : Bytes} {items : List Item} {C K : Type}

/-! ## Listing trees -/

theorem keyedPairs_read (key : Val → Option K) (ps : List (K × Prim)) (vs : List Val)
    (h : ItemsAre (ps.flatMap fun e => [fun v => key v = some e.1, PrimDenotes e.2]) vs) : ∃ rs, keyedPairs key vs = some rs ∧ PairsMean ps rs := by
  induction ps generalizing vs with
  | nil => simp only [List.flatMap_nil, ItemsAre] at h; subst h; exact ⟨[], rfl, .nil⟩
  | cons p ps ih =>
    simp only [List.flatMap_cons, List.cons_append, List.nil_append] at h
    obtain ⟨a, ws, rfl, ha, v, vs', rfl, hv, hr⟩ := h
    obtain ⟨rs, h1, h2⟩ := ih vs' hr
    exact ⟨(p.1, v) :: rs, by simp only [keyedPairs, ha, h1, Option.bind_some, Option.map_some], .cons ⟨rfl, hv⟩ h2⟩

theorem Spec.Pairwise.append {α β : Type} {R : α → β → Prop} {as bs : List α} {xs ys : List β} (h : Pairwise R as xs) (h' : Pairwise R bs ys) :
    Pairwise R (as ++ bs) (xs ++ ys) := by
  induction h with
  | nil => exact h'
  | cons ha _ ih => exact .cons ha ih

mutual
theorem tree_list {T : TreeKind K} {A : TreeApi C K} (ok : TreeOk T A) (hf : Finds f bytes items) (t : Tree C K)
    (hw : t.Linked A T.leaf items) (depth : Nat) (hd : t.depth ≤ depth) (d : List (Bytes × Val))
    (he : EntriesAre (t.calls.flatMap A.means) d) : ∃ rs, listTree T.leaf T.key f bytes depth d = some rs ∧ PairsMean t.pairs rs := by
  cases t with
  | leaf id calls lo hi ps =>
    simp only [Tree.depth] at hd
    obtain ⟨n, rfl⟩ : ∃ n, depth = n + 1 := ⟨depth - 1, by omega⟩
    simp only [Tree.Linked] at hw
    obtain ⟨P, hP, hP'⟩ := ok.pairs ps
    have hfil : (calls.flatMap A.means).filter (fun e => e.1 == T.leaf) = [(T.leaf, P)] := by
      rw [onlyCall_filter hw, hP]; simp
    simp only [Tree.calls] at he
    obtain ⟨w, hl, hw⟩ := lookup_of he hfil
    obtain ⟨vs, rfl, hvs⟩ := hP' w hw
    obtain ⟨rs, h1, h2⟩ := keyedPairs_read T.key ps vs hvs
    refine ⟨rs, ?_, by simpa only [Tree.pairs] using h2⟩
    simp only [listTree]
    rw [if_neg (by rw [present_of he hfil]; decide), hl]
    exact h1
  | node id calls lo hi kids =>
    simp only [Tree.depth] at hd
    obtain ⟨n, rfl⟩ : ∃ n, depth = n + 1 := ⟨depth - 1, by omega⟩
    simp only [Tree.Linked] at hw
    obtain ⟨h1, h2, h4⟩ := hw
    simp only [Tree.calls] at he
    have hfil : (calls.flatMap A.means).filter (fun e => e.1 == b!"Kids") = [(b!"Kids", ArrayIs ((kids.map Tree.id).map fun x => IsRef x))] := by
      rw [onlyCall_filter h2, ok.kids]; rfl
    obtain ⟨w, hl, vs, rfl, hvs⟩ := lookup_of he hfil
    obtain ⟨rs, h5, h6⟩ := trees_list ok hf kids h4 n (by omega)
    refine ⟨rs, ?_, by simpa only [Tree.pairs] using h6⟩
    simp only [listTree]
    rw [if_pos (absent_of he (noCall_filter h1)), hl]
    simp only [refNumbers_of _ vs hvs, Option.bind_some, List.map_map, Function.comp_def]
    exact h5
termination_by structural t
theorem trees_list {T : TreeKind K} {A : TreeApi C K} (ok : TreeOk T A) (hf : Finds f bytes items) (ts : List (Tree C K))
    (hw : treesLinked A T.leaf items ts) (depth : Nat) (hd : treesDepth ts ≤ depth) :
    ∃ rs, collect (fun n =>
      match f.object bytes n with
      | some (.val (.dict d')) => listTree T.leaf T.key f bytes depth d'
      | _ => none) (ts.map fun t => t.id.get.toNat) = some rs ∧ PairsMean (treesPairs ts) rs := by
  cases ts with
  | nil => exact ⟨[], rfl, .nil⟩
  | cons t ts =>
    simp only [treesDepth] at hd
    simp only [treesLinked] at hw
    obtain ⟨hob, h1, h2⟩ := hw
    obtain ⟨v, ho, hv⟩ := finds_val hf hob
    obtain ⟨d, rfl, he⟩ := ok.reads _ v hv
    obtain ⟨as, q1, q2⟩ := tree_list ok hf t h1 depth (by omega) d he
    obtain ⟨bs, q3, q4⟩ := trees_list ok hf ts h2 depth (by omega)
    refine ⟨as ++ bs, ?_, ?_⟩
    · simp only [List.map_cons, collect, ho, q1, Option.bind_some]
      rw [q3]
      rfl
    · simp only [treesPairs]
      exact Spec.Pairwise.append q2 q4
termination_by structural ts
end

mutual
/-- A tree with limits is a tree. -/
theorem linked_of_written {A : TreeApi C K} {le : K → K → Bool} {lk : Bytes} (t : Tree C K) (h : t.Written A le lk items) : t.Linked A lk items := by
  cases t with
  | leaf id calls lo hi ps =>
    simp only [Tree.Written] at h
    simp only [Tree.Linked]
    exact h.1
  | node id calls lo hi kids =>
    simp only [Tree.Written] at h
    simp only [Tree.Linked]
    exact ⟨h.1, h.2.1, linked_of_written_list kids h.2.2.2⟩
termination_by structural t
theorem linked_of_written_list {A : TreeApi C K} {le : K → K → Bool} {lk : Bytes} (ts : List (Tree C K)) (h : treesWritten A le lk items ts) :
    treesLinked A lk items ts := by
  cases ts with
  | nil => simp only [treesLinked]
  | cons t ts =>
    simp only [treesWritten] at h
    simp only [treesLinked]
    exact ⟨h.1.1, linked_of_written t h.2.2.1, linked_of_written_list ts h.2.2.2⟩
termination_by structural ts
end

/-! ## Files -/

theorem optional_eq {α β γ : Type} {means : α → List (Bytes × (Val → Prop))} {pre : List (Bytes × (Val → Prop))} {calls : List α}
    {d : List (Bytes × Val)} {k : Bytes} {x : Option β} {c : β → α} {read : Val → Option γ} (P : β → Val → Prop) (g : β → γ)
    (he : EntriesAre (pre ++ calls.flatMap means) d) (hp : pre.filter (fun e => e.1 == k) = [])
    (hx : MaybeCall means k calls x c) (hc : ∀ b, (means (c b)).filter (fun e => e.1 == k) = [(k, P b)])
    (hP : ∀ b v, P b v → read v = some (g b)) : optionalEntry k d read = some (x.map g) := by
  obtain ⟨y, hy, hb⟩ := optional_call (R := fun b a => a = g b) (P := P) he hp hx (fun b _ => hc b) (fun b _ v hv => ⟨_, hP b v hv, rfl⟩)
  rw [hy]
  cases x <;> cases y <;> simp_all [BothOrNone]

/-- An entry in front does not matter. -/
theorem optional_cons {γ : Type} {d : List (Bytes × Val)} {k k' : Bytes} {v : Val} {read : Val → Option γ} (h : (k' == k) = false) :
    optionalEntry k ((k', v) :: d) read = optionalEntry k d read := by
  have h1 : (((k', v) :: d).all fun e => e.1 != k) = d.all fun e => e.1 != k := by
    simp only [List.all_cons, bne, h, Bool.not_false, Bool.true_and]
  have h2 : lookup k ((k', v) :: d) = lookup k d := by
    unfold lookup
    rw [List.filter_cons_of_neg (by show ¬ (k' == k) = true; rw [h]; decide)]
  simp only [optionalEntry, h1, h2]

theorem attachment_read (hf : Finds f bytes items) (g : GivenFile) (hg : g.Written unf items) {v : Val} (hv : v = .ref g.id.get.toNat 0) :
    readAttachment unf f bytes g.key v = some g.wanted := by
  obtain ⟨w, ho, hw⟩ := finds_val hf hg.spec
  obtain ⟨d, rfl, he⟩ := fileSpec_denotes g.calls w hw
  have e1 := optional_eq (read := readText) IsText id he rfl hg.unicode (fun _ => rfl) (fun b v hv => readText_isText b v hv)
  have e2 := optional_eq (read := strOf) IsStr id he rfl hg.path (fun _ => rfl) (fun b v hv => by simp only [IsStr] at hv; subst hv; rfl)
  have e3 := optional_eq (read := readText) IsText id he rfl hg.description (fun _ => rfl) (fun b v hv => readText_isText b v hv)
  have e4 := optional_eq (read := nameOf) (fun k => IsName (isoAssociationKind k)) isoAssociationKind he rfl hg.kind (fun _ => rfl)
    (fun b v hv => by simp only [IsName] at hv; subst hv; rfl)
  have e5 : ∃ ef, lookup b!"EF" d = some (.dict ef) ∧ embeddedStream ef = some g.streamId.get.toNat := by
    have hemb := hg.embedded
    cases hu : g.withUnicode with
    | false =>
      rw [hu] at hemb
      obtain ⟨w, hl, ef, rfl, hef⟩ := lookup_of he (k := b!"EF") (P := DictIs [(b!"F", IsRef g.streamId)]) (by
        simp only [FileSpecEntries, List.filter_append, onlyCall_filter hemb]; rfl)
      obtain ⟨w, ws, rfl, hw, hn⟩ := hef
      simp only [EntriesAre] at hn
      simp only [IsRef] at hw
      subst hn hw
      exact ⟨_, hl, rfl⟩
    | true =>
      rw [hu] at hemb
      obtain ⟨w, hl, ef, rfl, hef⟩ := lookup_of he (k := b!"EF") (P := DictIs [(b!"F", IsRef g.streamId), (b!"UF", IsRef g.streamId)]) (by
        simp only [FileSpecEntries, List.filter_append, onlyCall_filter hemb]; rfl)
      obtain ⟨w, ws, rfl, hw, w', ws', rfl, hw', hn⟩ := hef
      simp only [EntriesAre] at hn
      simp only [IsRef] at hw hw'
      subst hn hw hw'
      exact ⟨_, hl, rfl⟩
  obtain ⟨ef, e5, e6⟩ := e5
  obtain ⟨sd, hso, hsd⟩ := finds_stream hf hg.file
  have hse := entriesAre_of (embeddedFile_implied g.stream) hsd
  have e7 := optional_eq (read := nameOf) IsName id hse rfl hg.mime (fun _ => rfl) (fun b v hv => by simp only [IsName] at hv; subst hv; rfl)
  have e8 : unfiltered unf ((b!"Length", .int g.stored.length) :: sd) g.stored = some g.data := by
    have hfl : (EmbeddedFileEntries g.stream).filter (fun e => e.1 == b!"Filter") =
        (g.stream.flatMap EmbeddedFileMeans).filter (fun e => e.1 == b!"Filter") := by
      simp only [EmbeddedFileEntries, List.filter_append]; rfl
    have hdec : decodedStream unf f bytes g.streamId.get.toNat = some g.data := by
      rcases hg.data with ⟨hn, hd⟩ | ⟨flt, hc, hu⟩
      · rw [noCall_filter hn] at hfl
        rw [decoded_plain hso hse hfl, hd]
      · rw [onlyCall_filter hc] at hfl
        rw [decoded_filtered (name := isoFilter flt) hso hse (by rw [hfl]; rfl), hu]
    simpa only [decodedStream, hso] using hdec
  subst hv
  simp only [readAttachment, followDict, followRef, ho, Option.bind_some, e1, e2, e3, e4, e5, e6, hso]
  rw [optional_cons (by decide), e7]
  simp only [Option.bind_some, e8, Option.map_some, Option.map_id, id, GivenFile.wanted]

theorem attachments_read (hf : Finds f bytes items) (gs : List GivenFile) (hg : ∀ g ∈ gs, g.Written unf items) (rs : List (Bytes × Val))
    (h : PairsMean (gs.map fun g => (g.key, Prim.ref g.id)) rs) :
    readEach (fun e => readAttachment unf f bytes e.1 e.2) rs = some (gs.map GivenFile.wanted) := by
  induction gs generalizing rs with
  | nil => simp only [List.map_nil, PairsMean] at h; cases h; rfl
  | cons g gs ih =>
    simp only [List.map_cons, PairsMean] at h
    cases h with
    | cons ha hr =>
      rename_i b bs
      obtain ⟨h1, h2⟩ := ha
      obtain ⟨k, v⟩ := b
      simp only [PrimDenotes] at h1 h2
      subst h1
      simp only [readEach, attachment_read hf g (hg g (by simp)) h2, ih (fun x hx => hg x (by simp [hx])) bs hr, Option.bind_some,
        Option.map_some, List.map_cons]

end PdfW
