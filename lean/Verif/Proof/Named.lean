import Verif.Spec.Named
import Verif.Proof.States
import Verif.Proof.Attach

set_option linter.unusedSimpArgs false
set_option linter.unusedVariables false

namespace PdfW.Spec
open PdfW

variable {f : FileEnd} {bytes : Bytes} {items : List Item}

theorem loadNamed_read (hf : Finds f bytes items) {p : Prim} {body : Body} (h : NamedValue items p body) {v : Val} (hv : PrimDenotes p v) :
    ∃ x, loadNamed f bytes v = some x ∧ BodyDenotes body x := by
  cases h with
  | object ho =>
    simp only [PrimDenotes] at hv
    subst hv
    obtain ⟨it, hit, rfl, rfl, hok⟩ := ho
    exact hf it hit hok
  | direct hp =>
    refine ⟨.val v, ?_, ?_⟩
    · cases p with
      | ref r => exact absurd rfl (hp r)
      | null => simp only [PrimDenotes] at hv; subst hv; rfl
      | bool b => simp only [PrimDenotes] at hv; subst hv; rfl
      | int n => simp only [PrimDenotes] at hv; subst hv; rfl
      | real x => cases v <;> first | rfl | (simp only [PrimDenotes, NumIs] at hv)
      | str s => simp only [PrimDenotes] at hv; subst hv; rfl
      | textStr t => obtain ⟨s, rfl, -⟩ := hv; rfl
      | textStrLang t => obtain ⟨s, rfl, -⟩ := hv; rfl
      | name n => simp only [PrimDenotes] at hv; subst hv; rfl
      | rect r => obtain ⟨a, b, c, d, rfl, -⟩ := hv; rfl
      | date t => obtain ⟨s, rfl, -⟩ := hv; rfl
    · simpa only [BodyDenotes, Denotes] using hv

theorem named_load (hf : Finds f bytes items) {ps : List (Bytes × Prim)} {vs : List (Bytes × Body)} (h : NamedAre items ps vs)
    {rs : List (Bytes × Val)} (hr : PairsMean ps rs) :
    ∃ xs, readEach (fun e : Bytes × Val => (loadNamed f bytes e.2).map fun v => (e.1, v)) rs = some xs ∧
      Pairwise (fun v x => x.1 = v.1 ∧ BodyDenotes v.2 x.2) vs xs := by
  unfold NamedAre PairsMean at *
  induction h generalizing rs with
  | nil => cases hr; exact ⟨[], rfl, .nil⟩
  | cons h1 h2 ih =>
    cases hr with
    | @cons _ b _ _ g1 g2 =>
      obtain ⟨xs, q1, q2⟩ := ih g2
      obtain ⟨x, q3, q4⟩ := loadNamed_read hf h1.2 g1.2
      refine ⟨(b.1, x) :: xs, ?_, .cons ⟨?_, q4⟩ q2⟩
      · simp only [readEach, q3, Option.map_some, Option.bind_some, q1]
      · simp only [g1.1, h1.1]

theorem namesRoot_read (hf : Finds f bytes items) {cid : Ref} (hroot : lookup b!"Root" f.trailer = some (.ref cid.get.toNat 0))
    {cat : List CatalogCall} (hcat : HasObject items cid (.val (Catalog.prog cat))) (hn : NoCall (CatalogMeans .code) b!"Type" cat)
    {c : NameCategory} {root : Option (List NameTreeCall)} (hs : NamesSet cat c root) :
    ∃ y, namesRoot f bytes c = some y ∧ BothOrNone (fun calls d => EntriesAre (NameTreeEntries .code calls) d) root y := by
  obtain ⟨names, h1, h2⟩ := hs
  obtain ⟨d, q1, he⟩ := catalog_read hf hroot hcat hn
  have he : EntriesAre ([(b!"Type", IsName b!"Catalog")] ++ cat.flatMap (CatalogMeans .code)) d := he
  obtain ⟨nd, q2, q3⟩ := optional_call (read := followDict f bytes) (P := IsNames .code) (R := fun calls d => EntriesAre (NamesEntries .code calls) d) he rfl h1
    (fun _ _ => rfl) (fun b _ v hv => by obtain ⟨d, rfl, k⟩ := hv; exact ⟨d, rfl, k⟩)
  simp only [namesRoot, q1, q2, Option.bind_some]
  have hnd : EntriesAre ([] ++ (names.getD []).flatMap (NamesMeans .code)) (nd.getD []) := by
    cases names with
    | none => cases nd with
      | none => exact rfl
      | some d => exact q3.elim
    | some ns => cases nd with
      | none => exact q3.elim
      | some d => exact q3
  exact optional_call (pre := []) (read := followDict f bytes) (P := IsNameTree .code) hnd rfl h2
    (fun b _ => by cases c <;> rfl) (fun b _ v hv => by obtain ⟨d, rfl, k⟩ := hv; exact ⟨d, rfl, k⟩)

theorem pairwise_mem {α β : Type} {R : α → β → Prop} {as : List α} {bs : List β} (h : Pairwise R as bs) {b : β} (hb : b ∈ bs) : ∃ a ∈ as, R a b := by
  induction h with
  | nil => cases hb
  | cons h1 h2 ih =>
    cases hb with
    | head => exact ⟨_, List.mem_cons_self, h1⟩
    | tail _ hb => obtain ⟨a, k1, k2⟩ := ih hb; exact ⟨a, List.mem_cons_of_mem _ k1, k2⟩

end PdfW.Spec
