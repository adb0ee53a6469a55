import Verif.Props.Chunks

/-!
# Properties C23–C26: renumbering
-/

set_option linter.unusedSimpArgs false
set_option linter.unusedVariables false

namespace PdfW.Props
open PdfW PdfW.Spec

/-! ## C23 -/

theorem writeItems_eq (its : List Item) (c : Chunk) (hp : ∀ it ∈ its, it.pretty = c.pretty) (hd : ∀ it ∈ its, dataOk it.body) :
    ∃ c', writeItems its c = some c' ∧ c'.buf.inner = c.buf.inner ++ piecesBytes (mappedPieces its c.pretty) ∧
      c'.offsets = c.offsets ++ offs c.buf.len (mappedPieces its c.pretty) ∧ c'.pretty = c.pretty := by
  induction its generalizing c with
  | nil => exact ⟨c, rfl, by simp [mappedPieces, piecesBytes], by simp [mappedPieces, offs], rfl⟩
  | cons it its ih =>
    have hp1 := hp it (by simp)
    have hd1 := hd it (by simp)
    have step : ∃ c1, writeItem it c = some c1 ∧ c1.buf.inner = c.buf.inner ++ itemBytes it c.pretty ∧
        c1.offsets = c.offsets ++ [(it.id, c.buf.len)] ∧ c1.pretty = c.pretty := by
      obtain ⟨id, body, pretty⟩ := it
      simp only at hp1
      subst hp1
      cases body with
      | val p => exact ⟨_, rfl, by rw [writeIndirect_eq], by rw [writeIndirect_eq], by rw [writeIndirect_eq]⟩
      | stream es data =>
        simp only [dataOk] at hd1
        have hw : writeItem ⟨id, .stream es data, c.pretty⟩ c = _ := writeStream_eq c id es data
        rw [if_pos hd1] at hw
        exact ⟨_, hw, rfl, rfl, rfl⟩
    obtain ⟨c1, s1, s2, s3, s4⟩ := step
    obtain ⟨c', h1, h2, h3, h4⟩ := ih c1 (by intro x hx; rw [s4]; exact hp x (by simp [hx])) (fun x hx => hd x (by simp [hx]))
    refine ⟨c', by simp [writeItems, s1, h1], ?_, ?_, by rw [h4, s4]⟩
    · rw [h2, s2, s4]; simp [mappedPieces, piecesBytes, Piece.bytes]
    · rw [h3, s3, s4]; simp [mappedPieces, offs, Piece.bytes, Buf.len, s2]

theorem renumberInto_layout {c : Chunk} {ps : List Piece} (hl : Layout c ps) (target : Chunk) {σ : Type} (m : Mapping σ) (s : σ) :
    c.renumberInto target m s = renumberLoop m (piecesBytes ps) (offs 0 ps) (target.mergeLimits c.limits) s := by
  rw [Chunk.renumberInto, hl.bytes, hl.offsets]

theorem mapObjs_pretty {σ : Type} (m : Mapping σ) (its : List Item) (s : σ) (p : Bool) (h : ∀ it ∈ its, it.pretty = p) :
    ∀ it ∈ (mapObjs m its s).1, it.pretty = p := by
  induction its generalizing s with
  | nil => simp [mapObjs]
  | cons it its ih =>
    intro x hx
    simp only [mapObjs] at hx
    cases hst : started it.body with
    | false => rw [hst, if_neg (by simp)] at hx; exact ih _ (fun it hit => h it (by simp [hit])) x hx
    | true =>
    rw [hst, if_pos rfl] at hx
    simp only [List.mem_cons] at hx
    rcases hx with rfl | hx
    · exact h it (by simp)
    · exact ih _ (fun it hit => h it (by simp [hit])) x hx

/-- C23: renumbering commutes with writing. Renumbering a chunk into any other chunk appends exactly the bytes and
offsets that writing the same objects directly, with every object id and every indirect reference replaced, would
append; and the closure ends up in the state reached by that substitution. (The objects were spelled in the mode of
the target chunk; mixed modes are covered by `C23_renumber_reads_back`.) -/
theorem C23_renumber_is_rewriting (h : ChunkHist) (c target : Chunk) (hr : h.run = some c)
    (hp : ∀ it ∈ chunkItems h, it.pretty = target.pretty) {σ : Type} (m : Mapping σ) (s : σ) :
    ∃ direct, writeItems (mapObjs m (chunkItems h) s).1 target = some direct ∧
      (c.renumberInto target m s).1.asBytes = direct.asBytes ∧
      (c.renumberInto target m s).1.offsets = direct.offsets ∧
      (c.renumberInto target m s).2 = (mapObjs m (chunkItems h) s).2 := by
  obtain ⟨ps, hl, hi, -⟩ := chunk_inv h c hr
  have hd : ∀ it ∈ (mapObjs m (chunkItems h) s).1, dataOk it.body :=
    mapObjs_dataOk m _ s (by rw [← hi]; exact piecesItems_ok hl.ok)
  obtain ⟨c', h1, h2, h3, h4⟩ := writeItems_eq _ target (mapObjs_pretty m _ s _ hp) hd
  have hloop := renumberLoop_eq m ps hl.ok [] (target.mergeLimits c.limits) s
  simp only [List.nil_append, List.length_nil] at hloop
  rw [renumberInto_layout hl, hloop, hi]
  exact ⟨c', h1, h2.symm, h3.symm, rfl⟩

/-- C23, for arbitrary histories of source and target and mixed modes: the ids recorded are the target's followed by
the replaced ones, and each replaced object is found at its offset and reads back as the object with every
reference replaced. -/
theorem C23_renumber_reads_back (h t : ChunkHist) (c target : Chunk) (hr : h.run = some c) (ht : t.run = some target) {σ : Type}
    (m : Mapping σ) (s : σ) :
    (c.renumberInto target m s).1.refs = target.refs ++ (mapObjs m (chunkItems h) s).1.map (·.id) ∧
    target.asBytes <+: (c.renumberInto target m s).1.asBytes ∧
    ∀ (n : Nat) (it : Item), (mapObjs m (chunkItems h) s).1[n]? = some it → ItemOk it →
      ∃ off, (c.renumberInto target m s).1.offsets[target.offsets.length + n]? = some (it.id, off) ∧
        ReadsAt (c.renumberInto target m s).1.asBytes off it := by
  have hrun : (ChunkHist.call t (.renumberFrom h σ m s)).run = some (c.renumberInto target m s).1 := by
    simp [ChunkHist.run, ChunkCall.run, hr, ht]
  have hall := C14_offsets_point_at_objects _ _ hrun
  have htr := (C14_offsets_point_at_objects _ _ ht).1
  have hitems : chunkItems (.call t (.renumberFrom h σ m s)) = chunkItems t ++ (mapObjs m (chunkItems h) s).1 := by
    simp [chunkItems, callItems]
  have hlen : target.offsets.length = (chunkItems t).length := by
    have := congrArg List.length htr; simpa [Chunk.refs] using this
  refine ⟨?_, ?_, ?_⟩
  · rw [hall.1, hitems, htr, List.map_append]
  · obtain ⟨ps, hl, hi, -⟩ := chunk_inv h c hr
    obtain ⟨qs, kl, ki, -⟩ := chunk_inv t target ht
    obtain ⟨h1, -⟩ := layout_renumberInto hl kl m s
    rw [Chunk.asBytes, Chunk.asBytes, h1.bytes, kl.bytes, piecesBytes_append]
    exact List.prefix_append _ _
  · intro n it hit hok
    exact hall.2 (target.offsets.length + n) it (by rw [hitems, hlen, List.getElem?_append_right (by omega)]; simpa using hit) hok

mutual
theorem mapProg_ok {σ : Type} (m : Mapping σ) (p : Prog) (s : σ) (h : Ok p) : Ok (mapProg m p s).1 := by
  match p with
  | .prim p => cases p <;> simpa [mapProg, mapPrim, Ok, PrimOk] using h
  | .array items => simp only [mapProg, Ok] at h ⊢; exact mapItems_ok m items s h
  | .dict es => simp only [mapProg, Ok] at h ⊢; exact mapEntries_ok m es s h
termination_by structural p
theorem mapItems_ok {σ : Type} (m : Mapping σ) (xs : List Prog) (s : σ) (h : OkItems xs) : OkItems (mapItems m xs s).1 := by
  match xs with
  | [] => simp [mapItems, OkItems]
  | x :: xs =>
    simp only [mapItems, OkItems] at h ⊢
    exact ⟨mapProg_ok m x s h.1, mapItems_ok m xs _ h.2⟩
termination_by structural xs
theorem mapEntries_ok {σ : Type} (m : Mapping σ) (xs : List (Bytes × Prog)) (s : σ) (h : OkEntries xs) : OkEntries (mapEntries m xs s).1 := by
  match xs with
  | [] => simp [mapEntries, OkEntries]
  | (k, x) :: xs =>
    simp only [mapEntries, OkEntries] at h ⊢
    exact ⟨mapProg_ok m x s h.1, mapEntries_ok m xs _ h.2⟩
termination_by structural xs
end

theorem mapProg_bare {σ : Type} (m : Mapping σ) (p : Prog) (s : σ) :
    isBareToken (mapProg m p s).1 = isBareToken p ∧ isEmptyName (mapProg m p s).1 = isEmptyName p := by
  cases p with
  | prim p => cases p <;> exact ⟨rfl, rfl⟩
  | array _ => exact ⟨rfl, rfl⟩
  | dict _ => exact ⟨rfl, rfl⟩
  | unused => exact ⟨rfl, rfl⟩

theorem mapItems_head {σ : Type} (m : Mapping σ) (xs : List Prog) (s : σ) (h : ∀ y ∈ xs.head?, isBareToken y = false) :
    ∀ y ∈ (mapItems m xs s).1.head?, isBareToken y = false := by
  cases xs with
  | nil => simp [mapItems]
  | cons x xs =>
    intro y hy
    simp only [mapItems, List.head?_cons, Option.mem_def, Option.some.injEq] at hy
    subst hy
    rw [(mapProg_bare m x s).1]
    exact h x (by simp)

mutual
theorem mapProg_noClash {σ : Type} (m : Mapping σ) (p : Prog) (s : σ) (h : NoClash p) : NoClash (mapProg m p s).1 := by
  match p with
  | .prim p => simp [mapProg, NoClash]
  | .array items => simp only [mapProg, NoClash] at h ⊢; exact mapItems_noClash m items s h
  | .dict es => simp only [mapProg, NoClash] at h ⊢; exact mapEntries_noClash m es s h
  | .unused => simp [mapProg, NoClash]
termination_by structural p
theorem mapItems_noClash {σ : Type} (m : Mapping σ) (xs : List Prog) (s : σ) (h : NoClashItems xs) : NoClashItems (mapItems m xs s).1 := by
  match xs with
  | [] => simp [mapItems, NoClashItems]
  | x :: xs =>
    simp only [mapItems, NoClashItems] at h ⊢
    refine ⟨mapProg_noClash m x s h.1, ?_, mapItems_noClash m xs _ h.2.2⟩
    intro he
    rw [(mapProg_bare m x s).2] at he
    exact mapItems_head m xs _ (h.2.1 he)
termination_by structural xs
theorem mapEntries_noClash {σ : Type} (m : Mapping σ) (xs : List (Bytes × Prog)) (s : σ) (h : NoClashEntries xs) : NoClashEntries (mapEntries m xs s).1 := by
  match xs with
  | [] => simp [mapEntries, NoClashEntries]
  | (k, x) :: xs =>
    simp only [mapEntries, NoClashEntries] at h ⊢
    refine ⟨?_, mapProg_noClash m x s h.2.1, mapEntries_noClash m xs _ h.2.2⟩
    intro hk
    rw [(mapProg_bare m x s).1]
    exact h.1 hk
termination_by structural xs
end

theorem mapEntries_keys {σ : Type} (m : Mapping σ) (xs : List (Bytes × Prog)) (s : σ) : (mapEntries m xs s).1.map (·.1) = xs.map (·.1) := by
  induction xs generalizing s with
  | nil => simp [mapEntries]
  | cons e xs ih => obtain ⟨k, x⟩ := e; simp [mapEntries, ih]

theorem mapItem_ok {σ : Type} (m : Mapping σ) (it : Item) (s : σ) (h : ItemOk it) : ItemOk (mapItem m it s).1 := by
  obtain ⟨id, body, pretty⟩ := it
  cases body with
  | val p => exact ⟨mapProg_ok m p _ h.1, h.2.imp (fun h => h) (mapProg_noClash m p _)⟩
  | stream es data =>
    refine ⟨mapEntries_ok m es _ h.1, h.2.1.imp (fun h => h) (mapEntries_noClash m es _), ?_⟩
    intro e he
    have hk : e.1 ∈ es.map (·.1) := by
      rw [← mapEntries_keys m es (m s id).2]
      exact List.mem_map_of_mem he
    obtain ⟨e', h1, h2⟩ := List.mem_map.mp hk
    rw [← h2]
    exact h.2.2 e' h1

/-- C23: replacing references keeps objects representable and unambiguous, so `C23_renumber_reads_back` applies to
everything that could be read before. -/
theorem C23_mapped_objects_ok {σ : Type} (m : Mapping σ) (its : List Item) (s : σ) (h : ∀ it ∈ its, ItemOk it) :
    ∀ it ∈ (mapObjs m its s).1, ItemOk it := by
  induction its generalizing s with
  | nil => simp [mapObjs]
  | cons it its ih =>
    intro x hx
    simp only [mapObjs] at hx
    cases hst : started it.body with
    | false => rw [hst, if_neg (by simp)] at hx; exact ih _ (fun it hit => h it (by simp [hit])) x hx
    | true =>
    rw [hst, if_pos rfl] at hx
    simp only [List.mem_cons] at hx
    rcases hx with rfl | hx
    · exact mapItem_ok m it s (h it (by simp))
    · exact ih _ (fun it hit => h it (by simp [hit])) x hx

/-! ## C24 -/

mutual
theorem mapProg_same {σ : Type} (m : Mapping σ) (p : Prog) (s : σ) : SameButRefs p (mapProg m p s).1 := by
  match p with
  | .prim p => cases p <;> simp [mapProg, mapPrim, SameButRefs]
  | .array items => simp only [mapProg, SameButRefs]; exact ⟨_, rfl, mapItems_same m items s⟩
  | .dict es => simp only [mapProg, SameButRefs]; exact ⟨_, rfl, mapEntries_same m es s⟩
  | .unused => simp [mapProg, SameButRefs]
termination_by structural p
theorem mapItems_same {σ : Type} (m : Mapping σ) (xs : List Prog) (s : σ) : SameButRefsItems xs (mapItems m xs s).1 := by
  match xs with
  | [] => simp [mapItems, SameButRefsItems]
  | x :: xs =>
    simp only [mapItems, SameButRefsItems]
    exact ⟨_, _, rfl, mapProg_same m x s, mapItems_same m xs _⟩
termination_by structural xs
theorem mapEntries_same {σ : Type} (m : Mapping σ) (xs : List (Bytes × Prog)) (s : σ) : SameButRefsEntries xs (mapEntries m xs s).1 := by
  match xs with
  | [] => simp [mapEntries, SameButRefsEntries]
  | (k, x) :: xs =>
    simp only [mapEntries, SameButRefsEntries]
    exact ⟨_, _, rfl, mapProg_same m x s, mapEntries_same m xs _⟩
termination_by structural xs
end

theorem started_of_ok (it : Item) (h : ItemOk it) : started it.body = true := by
  obtain ⟨id, body, pretty⟩ := it
  cases body with
  | val p => rw [started_val]; exact used_of_ok p h.1
  | stream es data => rfl

theorem mapObjs_get {σ : Type} (m : Mapping σ) (its : List Item) (s : σ) (n : Nat) (it : Item) (h : its[n]? = some it)
    (hs : started it.body = true) :
    ∃ s', (mapObjs m its s).1[(its.take n).countP fun it => started it.body]? = some (mapItem m it s').1 := by
  induction its generalizing s n with
  | nil => simp at h
  | cons x its ih =>
    cases n with
    | zero => simp at h; subst h; exact ⟨s, by simp [mapObjs, hs]⟩
    | succ n =>
      cases hx : started x.body with
      | false =>
        obtain ⟨s', h'⟩ := ih (m s x.id).2 n (by simpa using h)
        exact ⟨s', by simpa [mapObjs, hx, List.take_succ_cons, List.countP_cons] using h'⟩
      | true =>
        obtain ⟨s', h'⟩ := ih (mapItem m x s).2 n (by simpa using h)
        exact ⟨s', by simpa [mapObjs, hx, List.take_succ_cons, List.countP_cons] using h'⟩

theorem mapBody_same {σ : Type} (m : Mapping σ) (b : Body) (s : σ) : SameBodyButRefs b (mapBody m b s).1 := by
  cases b with
  | val p => exact mapProg_same m p s
  | stream es data => exact ⟨rfl, mapEntries_same m es s⟩

/-- C24: whatever the closure does, the n-th object read from the renumbered chunk is the n-th object written (not
counting ids for which nothing was written), with the same strings, names, numbers, keys and stream data; only indirect
references may differ. -/
theorem C24_only_references_change (h t : ChunkHist) (c target : Chunk) (hr : h.run = some c) (ht : t.run = some target) {σ : Type}
    (m : Mapping σ) (s : σ) (n : Nat) (it : Item) (hit : (chunkItems h)[n]? = some it) (hok : ItemOk it) :
    ∃ it' off, SameBodyButRefs it.body it'.body ∧
      (c.renumberInto target m s).1.offsets[target.offsets.length + ((chunkItems h).take n).countP fun it => started it.body]? =
        some (it'.id, off) ∧
      ReadsAt (c.renumberInto target m s).1.asBytes off it' := by
  obtain ⟨s', hs'⟩ := mapObjs_get m (chunkItems h) s n it hit (started_of_ok it hok)
  obtain ⟨off, h1, h2⟩ := (C23_renumber_reads_back h t c target hr ht m s).2.2 _ _ hs' (mapItem_ok m it s' hok)
  exact ⟨_, off, mapBody_same m it.body _, h1, h2⟩

mutual
theorem mapProg_noRefs {σ : Type} (m : Mapping σ) (p : Prog) (s : σ) (h : progRefs p = []) : mapProg m p s = (p, s) := by
  match p with
  | .prim p => cases p <;> simp_all [mapProg, mapPrim, progRefs]
  | .array items => simp only [progRefs] at h; simp [mapProg, mapItems_noRefs m items s h]
  | .dict es => simp only [progRefs] at h; simp [mapProg, mapEntries_noRefs m es s h]
  | .unused => simp [mapProg]
termination_by structural p
theorem mapItems_noRefs {σ : Type} (m : Mapping σ) (xs : List Prog) (s : σ) (h : itemsRefs xs = []) : mapItems m xs s = (xs, s) := by
  match xs with
  | [] => simp [mapItems]
  | x :: xs =>
    simp only [itemsRefs, List.append_eq_nil_iff] at h
    simp [mapItems, mapProg_noRefs m x s h.1, mapItems_noRefs m xs s h.2]
termination_by structural xs
theorem mapEntries_noRefs {σ : Type} (m : Mapping σ) (xs : List (Bytes × Prog)) (s : σ) (h : entriesRefs xs = []) : mapEntries m xs s = (xs, s) := by
  match xs with
  | [] => simp [mapEntries]
  | (k, x) :: xs =>
    simp only [entriesRefs, List.append_eq_nil_iff] at h
    simp [mapEntries, mapProg_noRefs m x s h.1, mapEntries_noRefs m xs s h.2]
termination_by structural xs
end

/-- C24: the body of an object that contains no indirect reference is copied byte for byte by `patch_object`, whatever
its strings, names and stream data look like, and the closure is not called. Here the object is extracted from any
chunk of which it is the only object. -/
theorem C24_no_reference_no_change (id : Ref) (p : Prog) (hu : p ≠ .unused) (h : progRefs p = []) (c target : Chunk)
    (hc : c = (Chunk.withSettings target.pretty).writeIndirect id p) {σ : Type} (m : Mapping σ) (s : σ) :
    (c.renumberInto target m s).1.asBytes = (target.writeIndirect (m s id).1 p).asBytes ∧ (c.renumberInto target m s).2 = (m s id).2 := by
  have hr : (ChunkHist.call (.new target.pretty) (.indirect id p)).run = some c := by simp [ChunkHist.run, ChunkCall.run, hc]
  obtain ⟨d, h1, h2, -, h4⟩ := C23_renumber_is_rewriting _ c target hr (by simp [chunkItems, callItems, chunkPretty]) m s
  have hst : started (.val p) = true := by cases p <;> simp [started] at hu ⊢
  simp only [chunkItems, callItems, chunkPretty, List.nil_append, mapObjs, hst, if_true, mapItem, mapBody, mapProg_noRefs m p _ h, writeItems,
    writeItem, Option.some.injEq] at h1 h4
  rw [h2, h4, ← h1]
  exact ⟨rfl, rfl⟩

/-- Text that looks like references, streams, comments and unbalanced parentheses. -/
example : progRefs (.array [.prim (.str b!"1 0 R) (2 0 R %"), .prim (.name b!"1 0 R"), .prim (.str b!"\\")]) = [] := by decide
example : (((Chunk.withSettings false).writeIndirect (rf 1)
    (.array [.prim (.str b!"1 0 R) (2 0 R %"), .prim (.name b!"1 0 R"), .prim (.str b!"\\"), .prim (.ref (rf 1))])).renumberInto
      (Chunk.withSettings false) shift 0).1.asBytes =
    b!"101 0 obj\n[(1 0 R\\) \\(2 0 R %)/1#200#20R(\\\\)101 0 R]\nendobj\n" := by decide +kernel

/-! ## C25 -/

mutual
theorem mapProg_log {σ : Type} (m : Mapping σ) (p : Prog) (s : σ × List Ref) :
    mapProg (logging m) p s = ((mapProg m p s.1).1, ((mapProg m p s.1).2, s.2 ++ progRefs p)) := by
  match p with
  | .prim p => cases p <;> simp [mapProg, mapPrim, progRefs, logging]
  | .array items => simp [mapProg, mapItems_log m items s, progRefs]
  | .dict es => simp [mapProg, mapEntries_log m es s, progRefs]
  | .unused => simp [mapProg, progRefs]
termination_by structural p
theorem mapItems_log {σ : Type} (m : Mapping σ) (xs : List Prog) (s : σ × List Ref) :
    mapItems (logging m) xs s = ((mapItems m xs s.1).1, ((mapItems m xs s.1).2, s.2 ++ itemsRefs xs)) := by
  match xs with
  | [] => simp [mapItems, itemsRefs]
  | x :: xs => simp [mapItems, mapProg_log m x s, mapItems_log m xs, itemsRefs]
termination_by structural xs
theorem mapEntries_log {σ : Type} (m : Mapping σ) (xs : List (Bytes × Prog)) (s : σ × List Ref) :
    mapEntries (logging m) xs s = ((mapEntries m xs s.1).1, ((mapEntries m xs s.1).2, s.2 ++ entriesRefs xs)) := by
  match xs with
  | [] => simp [mapEntries, entriesRefs]
  | (k, x) :: xs => simp [mapEntries, mapProg_log m x s, mapEntries_log m xs, entriesRefs]
termination_by structural xs
end

mutual
theorem patchLimits_log {σ : Type} (m : Mapping σ) (p : Prog) (s : σ) (log : List Ref) (l : Limits) :
    patchLimits (logging m) p (s, log) l = patchLimits m p s l := by
  match p with
  | .prim p => cases p <;> simp [patchLimits, logging]
  | .array items => simp only [patchLimits]; exact patchItemsLimits_log m items s log l
  | .dict es => simp only [patchLimits]; exact patchEntriesLimits_log m es s log l
  | .unused => simp [patchLimits]
termination_by structural p
theorem patchItemsLimits_log {σ : Type} (m : Mapping σ) (xs : List Prog) (s : σ) (log : List Ref) (l : Limits) :
    patchItemsLimits (logging m) xs (s, log) l = patchItemsLimits m xs s l := by
  match xs with
  | [] => simp [patchItemsLimits]
  | x :: xs => simp only [patchItemsLimits, mapProg_log, patchLimits_log m x]; exact patchItemsLimits_log m xs _ _ _
termination_by structural xs
theorem patchEntriesLimits_log {σ : Type} (m : Mapping σ) (xs : List (Bytes × Prog)) (s : σ) (log : List Ref) (l : Limits) :
    patchEntriesLimits (logging m) xs (s, log) l = patchEntriesLimits m xs s l := by
  match xs with
  | [] => simp [patchEntriesLimits]
  | (k, x) :: xs => simp only [patchEntriesLimits, mapProg_log, patchLimits_log m x]; exact patchEntriesLimits_log m xs _ _ _
termination_by structural xs
end

theorem mapObjs_log {σ : Type} (m : Mapping σ) (its : List Item) (s : σ × List Ref) :
    mapObjs (logging m) its s = ((mapObjs m its s.1).1, ((mapObjs m its s.1).2, s.2 ++ callOrder its)) := by
  induction its generalizing s with
  | nil => simp [mapObjs, callOrder]
  | cons it its ih =>
    have e : mapItem (logging m) it s = ((mapItem m it s.1).1, ((mapItem m it s.1).2, s.2 ++ it.id :: bodyRefs it.body)) := by
      obtain ⟨id, body, pretty⟩ := it
      cases body <;> simp [mapItem, mapBody, logging, mapProg_log, mapEntries_log, bodyRefs]
    cases hst : started it.body with
    | false =>
      have hr : bodyRefs it.body = [] := by
        match hb : it.body, hst with
        | .val .unused, _ => simp [bodyRefs, progRefs]
      simp [mapObjs, hst, ih, callOrder, hr, logging]
    | true => simp [mapObjs, hst, e, ih, callOrder]

/-- C25: renumbering with a closure that records its arguments gives the same chunk as with the closure alone, and the
arguments recorded are, object by object in writing order, the object's id and then its references in the order in
which they were written — each exactly once. -/
theorem C25_call_order (h : ChunkHist) (c target : Chunk) (hr : h.run = some c) {σ : Type} (m : Mapping σ) (s : σ) (log : List Ref) :
    c.renumberInto target (logging m) (s, log) =
      ((c.renumberInto target m s).1, ((c.renumberInto target m s).2, log ++ callOrder (chunkItems h))) := by
  obtain ⟨ps, hl, hi, -⟩ := chunk_inv h c hr
  have e : ∀ {τ : Type} (m : Mapping τ) (s : τ), c.renumberInto target m s =
      renumberLoop m (piecesBytes ps) (offs 0 ps) (target.mergeLimits c.limits) s := by
    intro τ m s; rw [Chunk.renumberInto, hl.bytes, hl.offsets]
  have h1 := renumberLoop_eq (logging m) ps hl.ok [] (target.mergeLimits c.limits) (s, log)
  have h2 := renumberLoop_eq m ps hl.ok [] (target.mergeLimits c.limits) s
  simp only [List.nil_append, List.length_nil] at h1 h2
  rw [e, e, h1, h2, mapObjs_log, hi]
  have hlim : ∀ (its : List Item) (s : σ) (log : List Ref) (l : Limits),
      patchObjsLimits (logging m) its (s, log) l = patchObjsLimits m its s l := by
    intro its
    induction its with
    | nil => intro s log l; rfl
    | cons it its ih =>
      intro s log l
      have e : mapItem (logging m) it (s, log) = ((mapItem m it s).1, ((mapItem m it s).2, log ++ it.id :: bodyRefs it.body)) := by
        obtain ⟨id, body, pretty⟩ := it
        cases body <;> simp [mapItem, mapBody, logging, mapProg_log, mapEntries_log, bodyRefs]
      cases hst : started it.body with
      | false => simp [patchObjsLimits, hst, logging, ih]
      | true =>
      simp only [patchObjsLimits, hst, if_true, e, ih]
      congr 1
      obtain ⟨id, body, pretty⟩ := it
      have hb : ∀ (b : Body) (s : σ) (log : List Ref) (l : Limits), patchBodyLimits (logging m) b (s, log) l = patchBodyLimits m b s l := by
        intro b s log l
        cases b with
        | val p => exact patchLimits_log m p s log l
        | stream es data => exact patchEntriesLimits_log m es s log l
      simp only [patchItemLimits, logging]
      exact hb _ _ _ _
  rw [hlim]

/-- The number of calls is the number of objects plus the number of references. -/
example : callOrder (chunkItems sampleHist) = [rf 105, rf 101, rf 101, rf 102, rf 103] := by decide +kernel

/-! ## C26 -/

/-- The closure that changes nothing. -/
def same : Mapping Unit := fun s r => (r, s)

mutual
theorem mapProg_id (p : Prog) (s : Unit) : mapProg same p s = (p, s) := by
  match p with
  | .prim p => cases p <;> simp [mapProg, mapPrim, same]
  | .array items => simp [mapProg, mapItems_id items s]
  | .dict es => simp [mapProg, mapEntries_id es s]
  | .unused => simp [mapProg]
termination_by structural p
theorem mapItems_id (xs : List Prog) (s : Unit) : mapItems same xs s = (xs, s) := by
  match xs with
  | [] => simp [mapItems]
  | x :: xs => simp [mapItems, mapProg_id x s, mapItems_id xs]
termination_by structural xs
theorem mapEntries_id (xs : List (Bytes × Prog)) (s : Unit) : mapEntries same xs s = (xs, s) := by
  match xs with
  | [] => simp [mapEntries]
  | (k, x) :: xs => simp [mapEntries, mapProg_id x s, mapEntries_id xs]
termination_by structural xs
end

theorem mapObjs_id (its : List Item) (s : Unit) (h : ∀ it ∈ its, started it.body = true) : mapObjs same its s = (its, s) := by
  induction its with
  | nil => simp [mapObjs]
  | cons it its ih =>
    have : mapItem same it s = (it, s) := by
      obtain ⟨id, body, pretty⟩ := it
      cases body <;> simp [mapItem, mapBody, mapProg_id, mapEntries_id, same]
    simp [mapObjs, this, ih (fun x hx => h x (by simp [hx])), h it (by simp)]

/-- C26: renumbering with the identity leaves a chunk byte for byte as it was: every chunk that was written directly
(`indirect` and `stream` calls, each followed by writing something), copied into a new chunk with the same settings, has the same bytes and offsets. -/
theorem C26_identity (pretty : Bool) (its : List Item) (hp : ∀ it ∈ its, it.pretty = pretty)
    (hs : ∀ it ∈ its, started it.body = true) (c : Chunk) (hc : writeItems its (Chunk.withSettings pretty) = some c) :
    (c.renumberInto (Chunk.withSettings pretty) same ()).1.asBytes = c.asBytes ∧
    (c.renumberInto (Chunk.withSettings pretty) same ()).1.offsets = c.offsets := by
  -- the chunk has the layout of its objects
  have hrun : ∀ (its : List Item) (h0 : ChunkHist) (c0 c : Chunk), h0.run = some c0 → writeItems its c0 = some c →
      (∀ it ∈ its, it.pretty = c0.pretty) → ∃ h : ChunkHist, h.run = some c ∧ chunkItems h = chunkItems h0 ++ its := by
    intro its
    induction its with
    | nil => intro h0 c0 c h0r hc _; simp [writeItems] at hc; subst hc; exact ⟨h0, h0r, by simp⟩
    | cons it its ih =>
      intro h0 c0 c h0r hc hp
      simp only [writeItems] at hc
      obtain ⟨id, body, pr⟩ := it
      have hpr : pr = c0.pretty := hp ⟨id, body, pr⟩ (by simp)
      have hcp : c0.pretty = chunkPretty h0 := by obtain ⟨_, -, -, h⟩ := chunk_inv h0 c0 h0r; exact h
      cases hw : writeItem ⟨id, body, pr⟩ c0 with
      | none => simp [hw] at hc
      | some c1 =>
        simp only [hw] at hc
        cases body with
        | val p =>
          simp only [writeItem, Option.some.injEq] at hw
          have hr1 : (ChunkHist.call h0 (.indirect id p)).run = some c1 := by simp [ChunkHist.run, ChunkCall.run, h0r, hw]
          obtain ⟨h, k1, k2⟩ := ih _ c1 c hr1 hc (by
            intro x hx; rw [hp x (by simp [hx]), ← hw, writeIndirect_eq])
          exact ⟨h, k1, by rw [k2]; simp [chunkItems, callItems, hpr, hcp]⟩
        | stream es data =>
          simp only [writeItem] at hw
          have hr1 : (ChunkHist.call h0 (.stream id es data)).run = some c1 := by simp [ChunkHist.run, ChunkCall.run, h0r, hw]
          have hp1 : c1.pretty = c0.pretty := by
            rw [writeStream_eq] at hw; split at hw
            · simp only [Option.some.injEq] at hw; rw [← hw]
            · simp at hw
          obtain ⟨h, k1, k2⟩ := ih _ c1 c hr1 hc (by intro x hx; rw [hp x (by simp [hx]), hp1])
          exact ⟨h, k1, by rw [k2]; simp [chunkItems, callItems, hpr, hcp]⟩
  obtain ⟨h, h1, h2⟩ := hrun its (.new pretty) _ c (by simp [ChunkHist.run]) hc (by simpa [Chunk.withSettings] using hp)
  simp only [chunkItems, List.nil_append] at h2
  obtain ⟨d, k1, k2, k3, -⟩ := C23_renumber_is_rewriting h c (Chunk.withSettings pretty) h1
    (by rw [h2]; simpa [Chunk.withSettings] using hp) same ()
  rw [h2, mapObjs_id _ _ hs, hc, Option.some.injEq] at k1
  rw [k2, k3, ← k1]
  exact ⟨rfl, rfl⟩

mutual
theorem mapProg_comp {σ τ : Type} (f : Mapping σ) (g : Mapping τ) (p : Prog) (s : σ) (t : τ) :
    mapProg (andThen f g) p (s, t) = ((mapProg g (mapProg f p s).1 t).1, ((mapProg f p s).2, (mapProg g (mapProg f p s).1 t).2)) := by
  match p with
  | .prim p => cases p <;> simp [mapProg, mapPrim, andThen]
  | .array items => simp [mapProg, mapItems_comp f g items s t]
  | .dict es => simp [mapProg, mapEntries_comp f g es s t]
  | .unused => simp [mapProg]
termination_by structural p
theorem mapItems_comp {σ τ : Type} (f : Mapping σ) (g : Mapping τ) (xs : List Prog) (s : σ) (t : τ) :
    mapItems (andThen f g) xs (s, t) = ((mapItems g (mapItems f xs s).1 t).1, ((mapItems f xs s).2, (mapItems g (mapItems f xs s).1 t).2)) := by
  match xs with
  | [] => simp [mapItems]
  | x :: xs => simp [mapItems, mapProg_comp f g x s t, mapItems_comp f g xs]
termination_by structural xs
theorem mapEntries_comp {σ τ : Type} (f : Mapping σ) (g : Mapping τ) (xs : List (Bytes × Prog)) (s : σ) (t : τ) :
    mapEntries (andThen f g) xs (s, t) = ((mapEntries g (mapEntries f xs s).1 t).1, ((mapEntries f xs s).2, (mapEntries g (mapEntries f xs s).1 t).2)) := by
  match xs with
  | [] => simp [mapEntries]
  | (k, x) :: xs => simp [mapEntries, mapProg_comp f g x s t, mapEntries_comp f g xs]
termination_by structural xs
end

theorem mapObjs_comp {σ τ : Type} (f : Mapping σ) (g : Mapping τ) (its : List Item) (s : σ) (t : τ)
    (h : ∀ it ∈ its, started it.body = true) :
    mapObjs (andThen f g) its (s, t) = ((mapObjs g (mapObjs f its s).1 t).1, ((mapObjs f its s).2, (mapObjs g (mapObjs f its s).1 t).2)) := by
  induction its generalizing s t with
  | nil => simp [mapObjs]
  | cons it its ih =>
    have : mapItem (andThen f g) it (s, t) =
        ((mapItem g (mapItem f it s).1 t).1, ((mapItem f it s).2, (mapItem g (mapItem f it s).1 t).2)) := by
      obtain ⟨id, body, pretty⟩ := it
      have e : ∀ r, andThen f g (s, t) r = ((g t (f s r).1).1, ((f s r).2, (g t (f s r).1).2)) := fun _ => rfl
      cases body <;> simp [mapItem, mapBody, mapProg_comp, mapEntries_comp, e]
    have hst' : started (mapItem f it s).1.body = true := by rw [mapItem, started_map]; exact h it (by simp)
    simp [mapObjs, this, ih _ _ (fun x hx => h x (by simp [hx])), h it (by simp), hst']

/-- C26: renumbering with `f` into a new chunk and the result with `g` into any chunk gives the same bytes, offsets and
closure states as renumbering once with `g` after `f` — also for closures with state, provided every object was written. -/
theorem C26_composition (h : ChunkHist) (c target : Chunk) (hr : h.run = some c)
    (hs : ∀ it ∈ chunkItems h, started it.body = true) (pretty : Bool) {σ τ : Type} (f : Mapping σ)
    (g : Mapping τ) (s : σ) (t : τ) :
    let once := c.renumberInto target (andThen f g) (s, t)
    let first := c.renumberInto (Chunk.withSettings pretty) f s
    let second := first.1.renumberInto target g t
    once.1.asBytes = second.1.asBytes ∧ once.1.offsets = second.1.offsets ∧ once.2 = (first.2, second.2) := by
  intro once first second
  obtain ⟨ps, hl, hi, -⟩ := chunk_inv h c hr
  have hnew : Layout (Chunk.withSettings pretty) [] := ⟨rfl, rfl, by simp⟩
  obtain ⟨f1, f2, -, -⟩ := layout_renumberInto hl hnew f s
  rw [List.nil_append] at f1
  have fi : piecesItems (mappedPieces (mapObjs f (piecesItems ps) s).1 (Chunk.withSettings pretty).pretty) = (mapObjs f (chunkItems h) s).1 := by
    rw [mappedPieces_items, hi]
  have hsecond := renumberLoop_eq g _ f1.ok [] (target.mergeLimits first.1.limits) t
  have honce := renumberLoop_eq (andThen f g) ps hl.ok [] (target.mergeLimits c.limits) (s, t)
  simp only [List.nil_append, List.length_nil] at hsecond honce
  have e1 := (renumberInto_layout f1 target g t).trans hsecond
  have e2 := (renumberInto_layout hl target (andThen f g) (s, t)).trans honce
  simp only [once, second, first]
  rw [e1, e2, fi, f2, hi, mapObjs_comp f g _ s t hs]
  exact ⟨rfl, rfl, rfl⟩

end PdfW.Props
