import Verif.Spec.Images
import Verif.Proof.Interpret
import Verif.Proof.Attach
import Verif.Proof.Fields

set_option linter.unusedSimpArgs false
set_option linter.unusedVariables false

/-!
# Images and where they are painted
-/

namespace PdfW
open Spec

variable {unf : Val → Bytes → Option Bytes} {f : FileEnd} {bytes : Bytes} {items : List Item}

theorem integers_of (ns : List Int) (vs : List Val) (h : ItemsAre (ns.map fun x => IsInt x) vs) : integers vs = some ns := by
  induction ns generalizing vs with
  | nil => simp only [List.map_nil, ItemsAre] at h; subst h; rfl
  | cons n ns ih =>
    simp only [List.map_cons, ItemsAre] at h
    obtain ⟨w, ws, rfl, hw, hr⟩ := h
    simp only [IsInt] at hw
    subst hw
    simp only [integers, intOf, ih ws hr, Option.bind_some, Option.map_some]

theorem itemsAre_pairwise (xs : List F32) (vs : List Val) (h : ItemsAre (xs.map fun x => NumIs x) vs) : Pairwise NumIs xs vs := by
  induction xs generalizing vs with
  | nil => simp only [List.map_nil, ItemsAre] at h; subst h; exact .nil
  | cons x xs ih =>
    simp only [List.map_cons, ItemsAre] at h
    obtain ⟨w, ws, rfl, hw, hr⟩ := h
    exact .cons hw (ih ws hr)

theorem numbers_read (xs : List F32) (v : Val) (h : ArrayIs (xs.map fun x => NumIs x) v) : ∃ vs, itemsOf v = some vs ∧ Pairwise NumIs xs vs := by
  obtain ⟨vs, rfl, hv⟩ := h
  exact ⟨vs, rfl, itemsAre_pairwise xs vs hv⟩

/-- The dictionary of an image. -/
theorem image_dict (hf : Finds f bytes items) {id : Ref} {calls : List ImageXObjectCall} {data : Bytes}
    (ho : HasObject items id (.stream (ImageXObject.entries calls) data)) :
    ∃ d, f.object bytes id.get.toNat = some (.stream ((b!"Length", .int data.length) :: d) data) ∧ EntriesAre (ImageXObjectEntries calls) d := by
  obtain ⟨d, h1, h2⟩ := finds_stream hf ho
  exact ⟨d, h1, entriesAre_of (imageXObject_implied calls) h2⟩

theorem raster_read (hf : Finds f bytes items) (p : RasterPart) (h : p.Written unf items) :
    ∃ r, readRaster unf f bytes p.id.get.toNat = some r ∧ p.Means r := by
  obtain ⟨d, h1, he⟩ := image_dict hf h.object
  have hs : (ImageXObjectEntries p.calls).filter (fun e => e.1 == b!"Subtype") = [(b!"Subtype", IsName b!"Image")] := by
    simp only [ImageXObjectEntries, List.filter_append, noCall_filter h.subtype]; rfl
  have hw : (ImageXObjectEntries p.calls).filter (fun e => e.1 == b!"Width") = [(b!"Width", IsInt p.width)] := by
    simp only [ImageXObjectEntries, List.filter_append, onlyCall_filter h.width]; rfl
  have hh : (ImageXObjectEntries p.calls).filter (fun e => e.1 == b!"Height") = [(b!"Height", IsInt p.height)] := by
    simp only [ImageXObjectEntries, List.filter_append, onlyCall_filter h.height]; rfl
  obtain ⟨w1, hl1, hw1⟩ := lookup_of he hs
  obtain ⟨w2, hl2, hw2⟩ := lookup_of he hw
  obtain ⟨w3, hl3, hw3⟩ := lookup_of he hh
  simp only [IsName, IsInt] at hw1 hw2 hw3
  subst hw1 hw2 hw3
  have hb := optional_eq (read := intOf) IsInt id he rfl h.bits (fun _ => rfl) (fun b v hv => by simp only [IsInt] at hv; subst hv; rfl)
  have hst := optional_eq (read := truthOf) IsBool id he rfl h.stencil (fun _ => rfl) (fun b v hv => by simp only [IsBool] at hv; subst hv; rfl)
  obtain ⟨dec, hdec, hdm⟩ := optional_call (read := itemsOf) (R := Pairwise NumIs) (P := fun xs => ArrayIs (xs.map fun x => NumIs x))
    he rfl h.decode (fun _ _ => rfl) (fun b _ v hv => numbers_read b v hv)
  obtain ⟨sp, hsp, hsm⟩ : ∃ y, optionalEntry b!"ColorSpace" d some = some y ∧ BothOrNone Denotes p.space y := by
    rcases h.space with hm | ⟨n, hn, ho⟩
    · exact optional_call (P := Denotes) he rfl hm (fun _ _ => rfl) (fun b _ v hv => ⟨v, rfl, hv⟩)
    · have hfl : (ImageXObjectEntries p.calls).filter (fun e => e.1 == b!"ColorSpace") = [(b!"ColorSpace", IsName n)] := by
        simp only [ImageXObjectEntries, List.filter_append, onlyCall_filter ho]; rfl
      obtain ⟨a, ha, hq⟩ := optional_present (read := some) he hfl (Q := IsName n) (fun v hv => ⟨v, rfl, hv⟩)
      refine ⟨_, ha, ?_⟩
      rw [hn]
      simpa only [BothOrNone, Denotes, PrimDenotes, IsName] using hq
  have hfl : (ImageXObjectEntries p.calls).filter (fun e => e.1 == b!"Filter") =
      (p.calls.flatMap ImageXObjectMeans).filter (fun e => e.1 == b!"Filter") := by
    simp only [ImageXObjectEntries, List.filter_append]; rfl
  have hd : decodedStream unf f bytes p.id.get.toNat = some p.data := by
    rcases h.data with ⟨hn, hd⟩ | ⟨flt, hc, hu⟩
    · rw [noCall_filter hn] at hfl
      rw [decoded_plain h1 he hfl, hd]
    · rw [onlyCall_filter hc] at hfl
      rw [decoded_filtered (name := isoFilter flt) h1 he (by rw [hfl]; rfl), hu]
  refine ⟨⟨p.width, p.height, p.bits, sp, p.stencil, dec, p.data⟩, ?_, ⟨rfl, rfl, rfl, hsm, rfl, hdm, rfl⟩⟩
  simp only [readRaster, h1]
  simp only [Option.map_id', Option.map_id, id] at hb hst
  rw [lookup_skip_length (by decide), lookup_skip_length (by decide), lookup_skip_length (by decide), optional_cons (by decide), optional_cons (by decide),
    optional_cons (by decide), optional_cons (by decide), hl1, hl2, hl3, hb, hst, hdec, hsp, hd]
  rfl

theorem imagePart_read (hf : Finds f bytes items) (p : ImagePart) (h : p.Written unf items) (ctm : List (List F32)) (rctm : List (List Val))
    (hc : Pairwise (Pairwise NumIs) ctm rctm) :
    ∃ r, readImage unf f bytes p.raster.id.get.toNat = some r ∧ Placed.Means (ctm, p) (rctm, r) := by
  obtain ⟨d, h1, he⟩ := image_dict hf h.raster.object
  obtain ⟨r, hr, hrm⟩ := raster_read hf p.raster h.raster
  obtain ⟨m, hm, hmm⟩ : ∃ m, optionalEntry b!"Mask" d (readMask unf f bytes) = some m ∧ p.mask.Means m := by
    have := h.mask
    cases hp : p.mask with
    | none =>
      rw [hp] at this
      refine ⟨_, optional_absent he ?_, rfl⟩
      simp only [ImageXObjectEntries, List.filter_append, noCall_filter this]; rfl
    | colors rs =>
      rw [hp] at this
      have hfl : (ImageXObjectEntries p.raster.calls).filter (fun e => e.1 == b!"Mask") = [(b!"Mask", ArrayIs (rs.map fun x => IsInt x))] := by
        simp only [ImageXObjectEntries, List.filter_append, onlyCall_filter this]; rfl
      obtain ⟨a, ha, hq⟩ := optional_present (read := readMask unf f bytes) he hfl (Q := fun x => x = ReadMask.colors rs) (by
        rintro v ⟨vs, rfl, hv⟩
        exact ⟨_, by simp only [readMask, integers_of rs vs hv, Option.map_some], rfl⟩)
      exact ⟨_, ha, by rw [hq]; rfl⟩
    | stencil mp =>
      rw [hp] at this
      obtain ⟨ho, hmw⟩ := this
      obtain ⟨x, hx, hxm⟩ := raster_read hf mp hmw
      have hfl : (ImageXObjectEntries p.raster.calls).filter (fun e => e.1 == b!"Mask") = [(b!"Mask", IsRef mp.id)] := by
        simp only [ImageXObjectEntries, List.filter_append, onlyCall_filter ho]; rfl
      obtain ⟨a, ha, hq⟩ := optional_present (read := readMask unf f bytes) he hfl (Q := fun y => y = ReadMask.stencil x) (by
        intro v hv
        simp only [IsRef] at hv
        subst hv
        exact ⟨_, by simp only [readMask, hx, Option.map_some], rfl⟩)
      exact ⟨_, ha, x, by rw [hq], hxm⟩
  obtain ⟨s, hs, hsm⟩ : ∃ s, optionalEntry b!"SMask" d (fun v => (refNumber v).bind (readRaster unf f bytes)) = some s ∧
      BothOrNone RasterPart.Means p.soft s := by
    have h2 := h.soft
    have h3 := h.softWritten
    cases hp : p.soft with
    | none =>
      rw [hp] at h2
      refine ⟨none, optional_absent he ?_, trivial⟩
      simp only [Option.map_none, MaybeCall] at h2
      simp only [ImageXObjectEntries, List.filter_append, noCall_filter h2]; rfl
    | some sp =>
      rw [hp] at h2
      obtain ⟨x, hx, hxm⟩ := raster_read hf sp (h3 sp hp)
      simp only [Option.map_some, MaybeCall] at h2
      have hfl : (ImageXObjectEntries p.raster.calls).filter (fun e => e.1 == b!"SMask") = [(b!"SMask", IsRef sp.id)] := by
        simp only [ImageXObjectEntries, List.filter_append, onlyCall_filter h2]; rfl
      obtain ⟨a, ha, hq⟩ := optional_present (read := fun v => (refNumber v).bind (readRaster unf f bytes)) he hfl (Q := fun y => y = x) (by
        intro v hv
        simp only [IsRef] at hv
        subst hv
        exact ⟨_, by simp only [refNumber, Option.bind_some, hx], rfl⟩)
      exact ⟨_, ha, by rw [hq]; exact hxm⟩
  refine ⟨⟨p.raster.id.get.toNat, r, m, s⟩, ?_, hc, rfl, hrm, hmm, hsm⟩
  simp only [readImage, h1]
  rw [optional_cons (by decide), optional_cons (by decide), hr, hm, hs]
  rfl

/-! ## Painting -/

def placingOperators : List Bytes := [b!"cm", b!"q", b!"Q", b!"Do"]

theorem paintOps_other (x : Bytes → List (List Val) → Option (List ReadPlaced)) (ctm : List (List Val)) (saved : List (List (List Val)))
    (k : Bytes) (args : List Val) (ops : List ReadOp) (hk : k ∉ placingOperators) :
    paintOps x ctm saved ((k, args) :: ops) = paintOps x ctm saved ops := by
  simp only [placingOperators, List.mem_cons, not_or, List.not_mem_nil, not_false_eq_true, and_true] at hk
  obtain ⟨h1, h2, h3, h4⟩ := hk
  conv => lhs; rw [paintOps.eq_def]
  simp only [h1, h2, h3, h4, if_false]

theorem steady_operator (c : ContentCall) (h : Steady c) : operatorOf c ∉ placingOperators := by
  cases c <;> first
    | exact h
    | exact h.elim
    | (simp only [operatorOf]; decide)

theorem paintXObject_eq (forms : Nat) (rv : Option Val) (name : Bytes) (ctm : List (List Val)) :
    paintXObject unf f bytes forms rv name ctm =
      (resourceNumber f bytes rv b!"XObject" name).bind fun n =>
        match f.object bytes n with
        | some (.stream d _) =>
          match lookup b!"Subtype" d with
          | some (.name t) =>
            if t = b!"Image" then (readImage unf f bytes n).map fun i => [(ctm, i)]
            else if t = b!"Form" then
              match forms with
              | 0 => none
              | forms + 1 =>
                (optionalEntry b!"Matrix" d itemsOf).bind fun matrix => (effectiveResources rv d).bind fun res =>
                  (decodedStream unf f bytes n).bind fun data => (readContent data).bind fun ops =>
                    paintOps (paintXObject unf f bytes forms res) (matrix.toList ++ ctm) [] ops
            else none
          | _ => none
        | _ => none := by
  rw [paintXObject.eq_def]
  rfl

theorem paints_read (hf : Finds f bytes items) {depth : Nat} {res : Option (List ResourcesCall)} {ctm : List (List F32)}
    {saved : List (List (List F32))} {calls : List ContentCall} {images : List Placed} (h : Paints unf items depth res ctm saved calls images)
    (forms : Nat) (hd : depth ≤ forms) (rv : Option Val) (hr : ResRead f bytes res rv) (ops : List ReadOp) (hm : AllMean calls ops)
    (rctm : List (List Val)) (rsaved : List (List (List Val))) (hc : Pairwise (Pairwise NumIs) ctm rctm)
    (hs : Pairwise (Pairwise (Pairwise NumIs)) saved rsaved) :
    ∃ r, paintOps (paintXObject unf f bytes forms rv) rctm rsaved ops = some r ∧ Pairwise Placed.Means images r := by
  induction h generalizing forms rv ops rctm rsaved with
  | done =>
    simp only [AllMean] at hm
    subst hm; exact ⟨[], rfl, .nil⟩
  | steady hn _ ih =>
    obtain ⟨⟨k, args⟩, os, rfl, ⟨hk, ha⟩, hm⟩ := hm
    simp only at hk
    rw [hk, paintOps_other _ _ _ _ _ _ (steady_operator _ hn)]
    exact ih forms hd rv hr os hm _ _ hc hs
  | transform _ ih =>
    obtain ⟨⟨k, args⟩, os, rfl, ⟨hk, ha⟩, hm⟩ := hm
    simp only [operandsOf, DenotesItems, num, Denotes, PrimDenotes] at ha
    obtain ⟨w0, _, rfl, h0, w1, _, rfl, h1, w2, _, rfl, h2, w3, _, rfl, h3, w4, _, rfl, h4, w5, _, rfl, h5, rfl⟩ := ha
    have hk : k = b!"cm" := hk
    subst hk
    rw [paintOps.eq_def]
    simp only [if_true]
    exact ih forms hd rv hr os hm _ _ (.cons (.cons h0 (.cons h1 (.cons h2 (.cons h3 (.cons h4 (.cons h5 .nil)))))) hc) hs
  | save _ ih =>
    obtain ⟨⟨k, args⟩, os, rfl, ⟨hk, ha⟩, hm⟩ := hm
    have hk : k = b!"q" := hk
    subst hk
    rw [paintOps.eq_def]
    simp only
    rw [if_neg (by decide), if_pos (by simp)]
    exact ih forms hd rv hr os hm _ _ hc (.cons hc hs)
  | restore _ ih =>
    obtain ⟨⟨k, args⟩, os, rfl, ⟨hk, ha⟩, hm⟩ := hm
    have hk : k = b!"Q" := hk
    subst hk
    cases hs with
    | cons h1 h2 =>
      rw [paintOps.eq_def]
      simp only
      rw [if_neg (by decide), if_neg (by decide), if_pos (by simp)]
      exact ih forms hd rv hr os hm _ _ h1 h2
  | restoreNone _ ih =>
    obtain ⟨⟨k, args⟩, os, rfl, ⟨hk, ha⟩, hm⟩ := hm
    have hk : k = b!"Q" := hk
    subst hk
    cases hs
    rw [paintOps.eq_def]
    simp only
    rw [if_neg (by decide), if_neg (by decide), if_pos (by simp)]
    exact ih forms hd rv hr os hm _ _ hc .nil
  | image p hx hw _ ih =>
    obtain ⟨⟨k, args⟩, os, rfl, ⟨hk, ha⟩, hm⟩ := hm
    simp only [operandsOf, DenotesItems, nam, Denotes, PrimDenotes] at ha
    obtain ⟨w, ws, rfl, rfl, rfl⟩ := ha
    have hk : k = b!"Do" := hk
    subst hk
    obtain ⟨d, h1, h2⟩ := image_read hf hw.raster.object hw.raster.subtype
    obtain ⟨i, hi, him⟩ := imagePart_read hf p hw _ _ hc
    obtain ⟨r, q1, q2⟩ := ih forms hd rv hr os hm _ _ hc hs
    rw [paintOps.eq_def]
    simp only
    rw [if_neg (by decide), if_neg (by decide), if_neg (by decide), if_pos (by simp)]
    simp only [paintXObject_eq, xobjectNumber_read hf hr hx, h1, h2, if_true, Option.bind_some, hi, q1, Option.map_some]
    exact ⟨_, rfl, .cons him q2⟩
  | form p res' matrix hx hw hset hmx _ _ ih1 ih2 =>
    obtain ⟨⟨k, args⟩, os, rfl, ⟨hk, ha⟩, hm⟩ := hm
    simp only [operandsOf, DenotesItems, nam, Denotes, PrimDenotes] at ha
    obtain ⟨w, ws, rfl, rfl, rfl⟩ := ha
    have hk : k = b!"Do" := hk
    subst hk
    obtain ⟨m, rfl⟩ : ∃ m, forms = m + 1 := ⟨forms - 1, by omega⟩
    obtain ⟨d, rv', data, fops, h1, h2, h3, h4, h5, h6, h7⟩ := form_read hf p hw hr hset
    obtain ⟨d', g1, g2⟩ := finds_stream hf hw.object
    have he := entriesAre_of (formXObject_implied p.calls) g2
    obtain ⟨y, hy, hym⟩ := optional_call (read := itemsOf) (R := Pairwise NumIs) (P := fun xs => ArrayIs (xs.map fun x => NumIs x))
      he rfl hmx (fun _ _ => rfl) (fun b _ v hv => numbers_read b v hv)
    rw [g1] at h1
    obtain rfl : (b!"Length", Val.int p.data.length) :: d' = d := by
      simpa using h1
    have hmt : Pairwise (Pairwise NumIs) matrix.toList y.toList := by
      cases matrix <;> cases y <;> first | exact .nil | exact hym.elim | exact .cons hym .nil
    obtain ⟨a, p1, p2⟩ := ih1 m (by omega) rv' h4 fops h7 _ [] (pairwise_append hmt hc) .nil
    obtain ⟨b, q1, q2⟩ := ih2 (m + 1) hd rv hr os hm _ _ hc hs
    rw [paintOps.eq_def]
    simp only
    rw [if_neg (by decide), if_neg (by decide), if_neg (by decide), if_pos (by simp)]
    simp only [paintXObject_eq, xobjectNumber_read hf hr hx, Option.bind_some, g1, h2, h3, h5, h6]
    rw [if_neg (by decide), if_pos trivial, optional_cons (by decide), hy]
    simp only [← paintXObject_eq, Option.bind_some, p1, q1, Option.map_some]
    exact ⟨_, rfl, pairwise_append p2 q2⟩

/-! ## Pages -/

mutual
theorem tree_means {α β : Type} {R : α → β → Prop} {P : Ref → Option (List ResourcesCall) → List ContentCall → α → Prop}
    {page : Nat → Option Val → List (Bytes × Val) → Option β} (hf : Finds f bytes items)
    (hpage : ∀ id res calls x rv d ops, P id res calls x → ResRead f bytes res rv → pageOperations unf f bytes d = some ops → AllMean calls ops →
      ∃ y, page id.get.toNat rv d = some y ∧ R x y)
    (t : PageTree) (depth : Nat) (hd : t.depth ≤ depth) (hw : t.Written unf items)
    (inherited : Option (List ResourcesCall)) (rv : Option Val) (hr : ResRead f bytes inherited rv) (xs : List α)
    (ht : t.Each P items inherited xs) : ∃ ys, readPagesWith page f bytes depth rv t.id.get.toNat = some ys ∧ Pairwise R xs ys := by
  cases t with
  | page id calls contents =>
    simp only [PageTree.depth] at hd
    obtain ⟨n, rfl⟩ : ∃ n, depth = n + 1 := ⟨depth - 1, by omega⟩
    simp only [PageTree.Written] at hw
    simp only [PageTree.Each] at ht
    obtain ⟨h1, h2, h3, h4⟩ := hw
    obtain ⟨res, x, rfl, t1, t2⟩ := ht
    obtain ⟨v, ho, hv⟩ := finds_val hf h1
    obtain ⟨d, rfl, he⟩ := page_denotes .code calls (Or.inl rfl) v hv
    have hty : (PageEntries .code calls).filter (fun e => e.1 == b!"Type") = [(b!"Type", IsName b!"Page")] := by
      simp only [PageEntries, List.filter_append, noCall_filter h2]
      rfl
    obtain ⟨w, hl, hw⟩ := lookup_of he hty
    simp only [IsName] at hw
    subst hw
    obtain ⟨rv', hrv, hres⟩ := resourcesSet_reads hf (fun _ => rfl) (fun _ _ => rfl) t1 he (by simp only [PageEntries, List.filter_append]; rfl) hr
    obtain ⟨ops, hops, hm⟩ := page_operations hf he h3 h4
    obtain ⟨y, hy, hym⟩ := hpage id res _ x rv' d ops t2 hres hops hm
    refine ⟨[y], ?_, .cons hym .nil⟩
    simp only [readPagesWith, PageTree.id, ho, hl, hrv, Option.bind_some, if_true, hy, Option.map_some]
  | node id calls kids =>
    simp only [PageTree.depth] at hd
    obtain ⟨n, rfl⟩ : ∃ n, depth = n + 1 := ⟨depth - 1, by omega⟩
    simp only [PageTree.Written] at hw
    simp only [PageTree.Each] at ht
    obtain ⟨h1, h2, h3, h4⟩ := hw
    obtain ⟨res, t1, t2⟩ := ht
    obtain ⟨v, ho, hv⟩ := finds_val hf h1
    obtain ⟨d, rfl, he⟩ := pages_denotes calls v hv
    have hty : (PagesEntries calls).filter (fun e => e.1 == b!"Type") = [(b!"Type", IsName b!"Pages")] := by
      simp only [PagesEntries, List.filter_append, noCall_filter h2]
      rfl
    have hki : (PagesEntries calls).filter (fun e => e.1 == b!"Kids") = [(b!"Kids", ArrayIs ((kids.map PageTree.id).map fun x => IsRef x))] := by
      simp only [PagesEntries, List.filter_append, onlyCall_filter h3]
      rfl
    obtain ⟨w, hl, hw⟩ := lookup_of he hty
    simp only [IsName] at hw
    subst hw
    obtain ⟨w, hl', vs, rfl, hvs⟩ := lookup_of he hki
    obtain ⟨rv', hrv, hres⟩ := resourcesSet_reads hf (fun _ => rfl) (fun _ _ => rfl) t1 he (by simp only [PagesEntries, List.filter_append]; rfl) hr
    obtain ⟨ys, hy, hym⟩ := trees_means hf hpage kids n (by omega) h4 res rv' hres xs t2
    refine ⟨ys, ?_, hym⟩
    simp only [readPagesWith, PageTree.id, ho, hl, hl', hrv, refNumbers_of _ vs hvs, Option.bind_some, List.map_map, Function.comp_def]
    rw [if_neg (by decide), if_pos trivial]
    exact hy
termination_by structural t
theorem trees_means {α β : Type} {R : α → β → Prop} {P : Ref → Option (List ResourcesCall) → List ContentCall → α → Prop}
    {page : Nat → Option Val → List (Bytes × Val) → Option β} (hf : Finds f bytes items)
    (hpage : ∀ id res calls x rv d ops, P id res calls x → ResRead f bytes res rv → pageOperations unf f bytes d = some ops → AllMean calls ops →
      ∃ y, page id.get.toNat rv d = some y ∧ R x y)
    (ts : List PageTree) (depth : Nat) (hd : depthList ts ≤ depth) (hw : writtenList unf items ts)
    (inherited : Option (List ResourcesCall)) (rv : Option Val) (hr : ResRead f bytes inherited rv) (xs : List α)
    (ht : eachList P items ts inherited xs) :
    ∃ ys, collect (readPagesWith page f bytes depth rv) (ts.map fun t => t.id.get.toNat) = some ys ∧ Pairwise R xs ys := by
  cases ts with
  | nil => simp only [eachList] at ht; subst ht; exact ⟨[], rfl, .nil⟩
  | cons t ts =>
    simp only [depthList] at hd
    simp only [writtenList] at hw
    simp only [eachList] at ht
    obtain ⟨a, b, rfl, h1, h2⟩ := ht
    obtain ⟨ya, q1, r1⟩ := tree_means hf hpage t depth (by omega) hw.1 inherited rv hr a h1
    obtain ⟨yb, q2, r2⟩ := trees_means hf hpage ts depth (by omega) hw.2 inherited rv hr b h2
    refine ⟨ya ++ yb, ?_, pairwise_append r1 r2⟩
    simp only [List.map_cons, collect, q1, q2, Option.bind_some, Option.map_some]
termination_by structural ts
end

theorem pageImages_read (hf : Finds f bytes items) (forms depth : Nat) (hd : depth ≤ forms) (id : Ref) (res : Option (List ResourcesCall))
    (calls : List ContentCall) (x : List Placed) (rv : Option Val) (d : List (Bytes × Val)) (ops : List ReadOp)
    (hx : Paints unf items depth res [] [] calls x) (hr : ResRead f bytes res rv) (hops : pageOperations unf f bytes d = some ops)
    (hm : AllMean calls ops) : ∃ y, readPageImages unf f bytes forms id.get.toNat rv d = some y ∧ Pairwise Placed.Means x y := by
  obtain ⟨r, h1, h2⟩ := paints_read hf hx forms hd rv hr ops hm [] [] .nil .nil
  exact ⟨r, by simp only [readPageImages, hops, Option.bind_some, h1], h2⟩

end PdfW
