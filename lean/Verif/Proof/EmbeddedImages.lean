import Verif.Spec.EmbeddedImages
import Verif.Proof.Embedded

/-! # Lemmas: images in two files with the same objects under different numbers -/

set_option linter.unusedSimpArgs false
set_option linter.unusedVariables false

namespace PdfW
open Spec

theorem numeral_rename (g : Nat → Nat) (v : Val) : numeral (renameVal g v) = numeral v := by
  cases v <;> simp [renameVal, numeral]

theorem same_optionalEntry (g : Nat → Nat) {α : Type} (k : Bytes) (d : List (Bytes × Val)) (a b : Val → Option α) (t : α → α)
    (h : ∀ v, lookup k d = some v → a (renameVal g v) = (b v).map t) :
    optionalEntry k (renameEntries g d) a = (optionalEntry k d b).map (Option.map t) := by
  simp only [optionalEntry, renamed_all g d (fun x => x != k), renamed_lookup]
  split
  · rfl
  · cases hl : lookup k d with
    | none => rfl
    | some v => simp only [Option.map_some, Option.bind_some, h v hl]; cases b v <;> rfl

section
variable {unf : Val → Bytes → Option Bytes} {g : Nat → Nat} {s : List Nat} {f f' : FileEnd} {bytes bytes' : Bytes}

theorem same_readRaster (hs : SameObjects g s f bytes f' bytes') (hn : NumbersIgnored unf) {n : Nat} (h : n ∈ s) :
    readRaster unf f bytes (g n) = (readRaster unf f' bytes' n).map (renameRaster g) := by
  simp only [readRaster, hs.same n h, same_decodedStream hs hn h]
  cases f'.object bytes' n with
  | none => rfl
  | some o =>
    cases o with
    | val v => rfl
    | stream d data =>
      simp only [Option.map_some, renameIVal, renamed_lookup]
      have e1 : ∀ (o : Option Val), (o.map (renameVal g)).bind nameOf = o.bind nameOf := by
        intro o; cases o with | none => rfl | some v => cases v <;> rfl
      have e2 : ∀ (o : Option Val), (o.map (renameVal g)).bind intOf = o.bind intOf := by
        intro o; cases o with | none => rfl | some v => cases v <;> rfl
      rw [e1, e2, e2, same_optionalEntry g b!"BitsPerComponent" d intOf intOf id (by intro v _; cases v <;> rfl),
        same_optionalEntry g b!"ColorSpace" d some some (renameVal g) (by intro v _; rfl),
        same_optionalEntry g b!"ImageMask" d truthOf truthOf id (by intro v _; cases v <;> rfl),
        same_optionalEntry g b!"Decode" d itemsOf itemsOf (renameVals g) (by intro v _; cases v <;> rfl)]
      split
      · cases (lookup b!"Width" d).bind intOf with
        | none => rfl
        | some width =>
        cases (lookup b!"Height" d).bind intOf with
        | none => rfl
        | some height =>
        cases optionalEntry b!"BitsPerComponent" d intOf with
        | none => rfl
        | some bits =>
        cases optionalEntry b!"ColorSpace" d some with
        | none => rfl
        | some space =>
        cases optionalEntry b!"ImageMask" d truthOf with
        | none => rfl
        | some stencil =>
        cases optionalEntry b!"Decode" d itemsOf with
        | none => rfl
        | some decode =>
        cases decodedStream unf f' bytes' n with
        | none => rfl
        | some data' =>
          simp [renameRaster]
      · rfl

theorem integers_rename (vs : List Val) : integers (renameVals g vs) = integers vs := by
  induction vs with
  | nil => rfl
  | cons v vs ih =>
    simp only [renameVals, integers, ih]
    cases v <;> rfl

theorem same_readMask (hs : SameObjects g s f bytes f' bytes') (hn : NumbersIgnored unf) (v : Val) (h : ∀ n ∈ mentions v, n ∈ s) :
    readMask unf f bytes (renameVal g v) = (readMask unf f' bytes' v).map (renameMask g) := by
  cases v with
  | arr vs => simp only [renameVal, readMask, integers_rename]; cases integers vs <;> rfl
  | ref n gen =>
    simp only [renameVal, readMask, same_readRaster hs hn (h n (by simp [mentions]))]
    cases readRaster unf f' bytes' n <;> rfl
  | _ => rfl

theorem same_readImage (hs : SameObjects g s f bytes f' bytes') (hn : NumbersIgnored unf) {n : Nat} (h : n ∈ s) :
    readImage unf f bytes (g n) = (readImage unf f' bytes' n).map (renameImage g) := by
  simp only [readImage, hs.same n h, same_readRaster hs hn h]
  cases ho : f'.object bytes' n with
  | none => rfl
  | some o =>
    have hc := hs.closed n h o ho
    cases o with
    | val v => rfl
    | stream d data =>
      simp only [mentionsObject] at hc
      simp only [Option.map_some, renameIVal]
      rw [same_optionalEntry g b!"Mask" d (readMask unf f bytes) (readMask unf f' bytes') (renameMask g)
          (fun v hv => same_readMask hs hn v (fun i hi => hc i (lookup_mentions hv hi))),
        same_optionalEntry g b!"SMask" d (fun v => (refNumber v).bind (readRaster unf f bytes)) (fun v => (refNumber v).bind (readRaster unf f' bytes')) (renameRaster g) (by
          intro v hv
          simp only [renamed_refNumber]
          cases hr : refNumber v with
          | none => rfl
          | some m =>
            simp only [Option.map_some, Option.bind_some]
            exact same_readRaster hs hn (hc m (lookup_mentions hv (refNumber_mentions hr))))]
      cases readRaster unf f' bytes' n with
      | none => rfl
      | some raster =>
      cases optionalEntry b!"Mask" d (readMask unf f' bytes') with
      | none => rfl
      | some mask =>
      cases optionalEntry b!"SMask" d (fun v => (refNumber v).bind (readRaster unf f' bytes')) with
      | none => rfl
      | some soft => simp [renameImage]

/-- The same transformations, as far as numbers go. -/
def SameNumbers (a b : List (List Val)) : Prop := a.map (List.map numeral) = b.map (List.map numeral)

/-- Painting paints the same. -/
def SamePainted (g : Nat → Nat) (a b : Option (List ReadPlaced)) : Prop :=
  a.map (List.map placedNumbers) = (b.map (List.map placedNumbers)).map (List.map (renamePlaced g))

theorem same_paintOps (x y : Bytes → List (List Val) → Option (List ReadPlaced))
    (hx : ∀ n c c', SameNumbers c c' → SamePainted g (x n c) (y n c')) (ops : List ReadOp) :
    ∀ (c c' : List (List Val)) (sv sv' : List (List (List Val))), SameNumbers c c' → sv.map (List.map (List.map numeral)) = sv'.map (List.map (List.map numeral)) →
      SamePainted g (paintOps x c sv ops) (paintOps y c' sv' ops) := by
  induction ops with
  | nil => intros; rfl
  | cons op ops ih =>
    obtain ⟨k, args⟩ := op
    intro c c' sv sv' hc hsv
    simp only [paintOps]
    split
    · exact ih _ _ _ _ (by simp only [SameNumbers, List.map_cons] at hc ⊢; rw [hc]) hsv
    split
    · exact ih _ _ _ _ hc (by simp only [SameNumbers] at hc; simp only [List.map_cons]; rw [hc, hsv])
    split
    · cases sv with
      | nil =>
        cases sv' with
        | nil => exact ih _ _ _ _ hc rfl
        | cons a l => simp at hsv
      | cons a l =>
        cases sv' with
        | nil => simp at hsv
        | cons a' l' =>
          simp only [List.map_cons, List.cons.injEq] at hsv
          exact ih _ _ _ _ hsv.1 hsv.2
    split
    · split
      · rename_i n
        have h1 := hx n c c' hc
        have h2 := ih c c' sv sv' hc hsv
        simp only [SamePainted] at h1 h2 ⊢
        cases hx1 : x n c with
        | none =>
          rw [hx1] at h1
          cases hy1 : y n c' with
          | none => rfl
          | some b => rw [hy1] at h1; simp at h1
        | some a =>
          rw [hx1] at h1
          cases hy1 : y n c' with
          | none => rw [hy1] at h1; simp at h1
          | some b =>
            rw [hy1] at h1
            simp only [Option.bind_some]
            cases hp : paintOps x c sv ops with
            | none =>
              rw [hp] at h2
              cases hq : paintOps y c' sv' ops with
              | none => rfl
              | some e => rw [hq] at h2; simp at h2
            | some d =>
              rw [hp] at h2
              cases hq : paintOps y c' sv' ops with
              | none => rw [hq] at h2; simp at h2
              | some e =>
                rw [hq] at h2
                simp only [Option.map_some, Option.some.injEq] at h1 h2
                simp only [Option.map_some, List.map_append, h1, h2]
      · rfl
    · exact ih _ _ _ _ hc hsv

theorem same_paintXObject (hs : SameObjects g s f bytes f' bytes') (hn : NumbersIgnored unf) (forms : Nat) :
    ∀ (res : Option Val) (name : Bytes) (c c' : List (List Val)), ResourcesIn s res → SameNumbers c c' →
      SamePainted g (paintXObject unf f bytes forms (res.map (renameVal g)) name c) (paintXObject unf f' bytes' forms res name c') := by
  have image : ∀ (n : Nat) (c c' : List (List Val)), n ∈ s → SameNumbers c c' →
      SamePainted g ((readImage unf f bytes (g n)).map fun i => [(c, i)]) ((readImage unf f' bytes' n).map fun i => [(c', i)]) := by
    intro n c c' hm hc
    rw [same_readImage hs hn hm]
    cases readImage unf f' bytes' n with
    | none => rfl
    | some i => simp only [SameNumbers] at hc; simp [SamePainted, placedNumbers, renamePlaced, hc]
  induction forms with
  | zero =>
    intro res name c c' hr hc
    obtain ⟨h1, h2⟩ := same_resourceNumber hs hr b!"XObject" name
    rw [paintXObject, paintXObject]
    simp only [h1]
    cases hx : resourceNumber f' bytes' res b!"XObject" name with
    | none => rfl
    | some n =>
      have hm := h2 n hx
      simp only [Option.map_some, Option.bind_some, hs.same n hm]
      cases ho : f'.object bytes' n with
      | none => rfl
      | some o =>
        cases o with
        | val v => rfl
        | stream d data =>
          simp only [Option.map_some, renameIVal, renamed_lookup]
          cases lookup b!"Subtype" d with
          | none => rfl
          | some t =>
            cases t with
            | name t =>
              simp only [Option.map_some, renameVal]
              split
              · exact image n c c' hm hc
              · split <;> rfl
            | _ => rfl
  | succ forms ih =>
    intro res name c c' hr hc
    obtain ⟨h1, h2⟩ := same_resourceNumber hs hr b!"XObject" name
    rw [paintXObject, paintXObject]
    simp only [h1]
    cases hx : resourceNumber f' bytes' res b!"XObject" name with
    | none => rfl
    | some n =>
      have hm := h2 n hx
      simp only [Option.map_some, Option.bind_some, hs.same n hm]
      cases ho : f'.object bytes' n with
      | none => rfl
      | some o =>
        have hcl := hs.closed n hm o ho
        cases o with
        | val v => rfl
        | stream d data =>
          simp only [mentionsObject] at hcl
          simp only [Option.map_some, renameIVal, renamed_lookup, same_effective, same_decodedStream hs hn hm]
          cases lookup b!"Subtype" d with
          | none => rfl
          | some t =>
            cases t with
            | name t =>
              simp only [Option.map_some, renameVal]
              split
              · exact image n c c' hm hc
              · split
                · rw [same_optionalEntry g b!"Matrix" d itemsOf itemsOf (renameVals g) (by intro v _; cases v <;> rfl)]
                  cases optionalEntry b!"Matrix" d itemsOf with
                  | none => rfl
                  | some matrix =>
                  simp only [Option.map_some, Option.bind_some]
                  cases he : effectiveResources res d with
                  | none => rfl
                  | some r =>
                  simp only [Option.map_some, Option.bind_some]
                  cases decodedStream unf f' bytes' n with
                  | none => rfl
                  | some data' =>
                  simp only [Option.bind_some]
                  cases readContent data' with
                  | none => rfl
                  | some ops =>
                    simp only [Option.bind_some]
                    refine same_paintOps _ _ (fun nm a b hab => ih r nm a b (effective_in hr hcl he) hab) ops _ _ _ _ ?_ rfl
                    simp only [SameNumbers] at hc ⊢
                    rw [List.map_append, List.map_append, hc]
                    cases matrix with
                    | none => rfl
                    | some m => simp [renameVals_map, List.map_map, Function.comp_def, numeral_rename]
                · rfl
            | _ => rfl

theorem same_pageImages (hs : SameObjects g s f bytes f' bytes') (hn : NumbersIgnored unf) (forms n : Nat) (res : Option Val) (d : List (Bytes × Val))
    (hr : ResourcesIn s res) (h : ∀ i ∈ mentionsEntries d, i ∈ s) :
    pageImages unf f bytes forms (g n) (res.map (renameVal g)) (renameEntries g d) =
      (pageImages unf f' bytes' forms n res d).map (List.map (renamePlaced g)) := by
  simp only [pageImages, readPageImages, same_pageOperations hs hn d h]
  cases pageOperations unf f' bytes' d with
  | none => rfl
  | some ops =>
    exact same_paintOps _ _ (fun nm a b hab => same_paintXObject hs hn forms res nm a b hr hab) ops [] [] [] [] rfl rfl

end

end PdfW
