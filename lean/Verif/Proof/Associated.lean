import Verif.Spec.Associated
import Verif.Proof.Attach
import Verif.Proof.Borders
import Verif.Proof.Details
import Verif.Proof.Properties

set_option linter.unusedSimpArgs false
set_option linter.unusedVariables false

/-! # Associated files: proofs -/

namespace PdfW
open Spec

variable {unf : Val → Bytes → Option Bytes} {f : FileEnd} {bytes : Bytes} {items : List Item}

theorem facts_read {calls : List EmbeddingParamsCall} {x : Facts Date} (h : FactsSet calls x) (v : Val) (hv : IsEmbeddingParams calls v) :
    readFacts v = some x.expected := by
  obtain ⟨d, rfl, he⟩ := hv
  have he : EntriesAre ([] ++ calls.flatMap EmbeddingParamsMeans) d := he
  obtain ⟨h1, h2, h3, h4⟩ := h
  have r1 := optional_eq (read := intOf) IsInt (fun x => x) he (by decide) h1 (fun _ => rfl) int_read
  have r2 := optional_eq (read := dateOf) IsDate expectedDate he (by decide) h2 (fun _ => rfl) dateOf_isDate
  have r3 := optional_eq (read := dateOf) IsDate expectedDate he (by decide) h3 (fun _ => rfl) dateOf_isDate
  have r4 := optional_eq (read := strOf) IsStr (fun x => x) he (by decide) h4 (fun _ => rfl) str_read
  simp only [Option.map_id_fun', id] at r1 r4
  simp only [readFacts, r1, r2, r3, r4, Option.bind_some, Option.map_some, Facts.expected]

theorem embedded_read (hf : Finds f bytes items) {p : Bool × Ref} {x : Embedded Date} (h : EmbeddedSet unf items p.2 x) (P : Val → Prop)
    (hP : (FileSpecMeans (embedCall p)).filter (fun e => e.1 == b!"EF") = [(b!"EF", P)]) (v : Val) (hv : P v) :
    readEmbedded unf f bytes v = some x.expected := by
  obtain ⟨b, id⟩ := p
  have e5 : ∃ ef, v = .dict ef ∧ embeddedStream ef = some id.get.toNat := by
    cases b with
    | false =>
      have : P = DictIs [(b!"F", IsRef id)] := by
        have hP : [(b!"EF", DictIs [(b!"F", IsRef id)])] = [(b!"EF", P)] := hP
        simp only [List.cons.injEq, Prod.mk.injEq, and_true, true_and] at hP
        exact hP.symm
      subst this
      obtain ⟨ef, rfl, w, ws, rfl, hw, hn⟩ := hv
      simp only [EntriesAre] at hn
      simp only [IsRef] at hw
      subst hn hw
      exact ⟨_, rfl, rfl⟩
    | true =>
      have : P = DictIs [(b!"F", IsRef id), (b!"UF", IsRef id)] := by
        have hP : [(b!"EF", DictIs [(b!"F", IsRef id), (b!"UF", IsRef id)])] = [(b!"EF", P)] := hP
        simp only [List.cons.injEq, Prod.mk.injEq, and_true, true_and] at hP
        exact hP.symm
      subst this
      obtain ⟨ef, rfl, w, ws, rfl, hw, w', ws', rfl, hw', hn⟩ := hv
      simp only [EntriesAre] at hn
      simp only [IsRef] at hw hw'
      subst hn hw hw'
      exact ⟨_, rfl, rfl⟩
  obtain ⟨ef, rfl, e6⟩ := e5
  obtain ⟨hx, calls, stored, ho, h1, ⟨ps, h2, h2'⟩, h3⟩ := h
  simp only at ho hx
  obtain ⟨sd, hso, hsd⟩ := finds_stream hf ho
  have hse := entriesAre_of (embeddedFile_implied calls) hsd
  have hse' : EntriesAre ([(b!"Type", IsName b!"EmbeddedFile")] ++ calls.flatMap EmbeddedFileMeans) sd := hse
  have r1 := optional_eq (read := nameOf) IsName (fun x => x) hse' (by decide) h1 (fun _ => rfl) (fun b => isName_nameOf b)
  obtain ⟨y, r2, m2⟩ := optional_both (read := readFacts) (R := fun a b => b = a.expected) (P := IsEmbeddingParams) hse' (by decide) h2 h2'
    (fun _ _ _ => rfl) (fun b g hw v hv => ⟨_, facts_read hw v hv, rfl⟩)
  have m2 := bothOrNone_eq m2
  have e8 : unfiltered unf ((b!"Length", .int stored.length) :: sd) stored = some x.data := by
    have hfl : (EmbeddedFileEntries calls).filter (fun e => e.1 == b!"Filter") = (calls.flatMap EmbeddedFileMeans).filter (fun e => e.1 == b!"Filter") := by
      simp only [EmbeddedFileEntries, List.filter_append]; rfl
    have hdec : decodedStream unf f bytes id.get.toNat = some x.data := by
      rcases h3 with ⟨hn, hd⟩ | ⟨flt, hc, hu⟩
      · rw [noCall_filter hn] at hfl
        rw [decoded_plain hso hse hfl, hd]
      · rw [onlyCall_filter hc] at hfl
        rw [decoded_filtered (name := isoFilter flt) hso hse (by rw [hfl]; rfl), hu]
    simpa only [decodedStream, hso] using hdec
  simp only [Option.map_id_fun', _root_.id] at r1
  simp only [readEmbedded, followDict, followRef, Option.bind_some, e6, hso]
  rw [optional_cons (by decide), r1, Option.bind_some, optional_cons (by decide), r2, Option.bind_some, e8]
  simp only [Option.map_some, Embedded.expected, m2, hx]

theorem specified_read (hf : Finds f bytes items) {calls : List FileSpecCall} {x : Specified Date} (h : FileSet unf items calls x) (v : Val)
    (hv : IsFileSpec calls v) : readSpecified unf f bytes v = some x.expected := by
  obtain ⟨d, rfl, he⟩ := hv
  have he : EntriesAre ([(b!"Type", IsName b!"Filespec")] ++ calls.flatMap FileSpecMeans) d := he
  obtain ⟨h1, h2, h3, ⟨b, eb, h4⟩, h5, ⟨k, ek, h6⟩, ⟨p, h7, h7'⟩⟩ := h
  have r1 := optional_eq (read := nameOf) IsName (fun x => x) he (by decide) h1 (fun _ => rfl) (fun b => isName_nameOf b)
  have r2 := optional_eq (read := strOf) IsStr (fun x => x) he (by decide) h2 (fun _ => rfl) str_read
  have r3 := optional_eq (read := readText) IsText (fun x => x) he (by decide) h3 (fun _ => rfl) readText_isText
  have r4 := optional_eq (read := truthOf) IsBool (fun x => x) he (by decide) h4 (fun _ => rfl) bool_read
  have r5 := optional_eq (read := readText) IsText (fun x => x) he (by decide) h5 (fun _ => rfl) readText_isText
  have r6 := optional_eq (read := nameOf) (fun k => IsName (isoAssociationKind k)) isoAssociationKind he (by decide) h6 (fun _ => rfl) (fun b => isName_nameOf _)
  obtain ⟨y, r7, m7⟩ := optional_both (read := readEmbedded unf f bytes) (R := fun a b => b = a.expected)
    (P := fun p => if p.1 then DictIs [(b!"F", IsRef p.2), (b!"UF", IsRef p.2)] else DictIs [(b!"F", IsRef p.2)]) he (by decide) h7 h7'
    (fun p _ _ => by obtain ⟨b, r⟩ := p; cases b <;> rfl)
    (fun p g hw v hv => ⟨_, embedded_read hf hw _ (by obtain ⟨b, r⟩ := p; cases b <;> rfl) v hv, rfl⟩)
  have m7 := bothOrNone_eq m7
  simp only [Option.map_id_fun', id] at r1 r2 r3 r4 r5
  simp only [readSpecified, followDict, followRef, r1, r2, r3, r4, r5, r6, r7, Option.bind_some, Option.map_some, Specified.expected, m7, eb, ek]

theorem specifieds_read (hf : Finds f bytes items) {l : List (List FileSpecCall)} {xs : List (Specified Date)} (h : Pairwise (FileSet unf items) l xs) (v : Val)
    (hv : ArrayIs (l.map fun x => IsFileSpec x) v) : arrayOf (readSpecified unf f bytes) v = some (xs.map Specified.expected) := by
  obtain ⟨vs, rfl, hv⟩ := hv
  show readEach _ vs = _
  induction h generalizing vs with
  | nil => simp only [List.map_nil, ItemsAre] at hv; subst hv; rfl
  | cons ha _ ih =>
    simp only [List.map_cons, ItemsAre] at hv
    obtain ⟨w, ws, rfl, hw, hr⟩ := hv
    simp only [readEach, specified_read hf ha w hw, Option.bind_some, ih ws hr, Option.map_some, List.map_cons]

/-- What `readFiles` sees. -/
theorem files_read (hf : Finds f bytes items) {α : Type} {means : α → List (Bytes × (Val → Prop))} {c : List (List FileSpecCall) → α} {calls : List α}
    {pre : List (Bytes × (Val → Prop))} {xs : List (Specified Date)} (h : FilesSet unf items means c calls xs) {d : List (Bytes × Val)}
    (he : EntriesAre (pre ++ calls.flatMap means) d) (hp : pre.filter (fun e => e.1 == b!"AF") = [])
    (hc : ∀ l, (means (c l)).filter (fun e => e.1 == b!"AF") = [(b!"AF", ArrayIs (l.map fun x => IsFileSpec x))]) :
    readFiles unf f bytes d = some (xs.map Specified.expected) := by
  obtain ⟨l, h1, h2⟩ := h
  cases l with
  | none =>
    cases h2
    rw [readFiles, optional_absent he (by rw [List.filter_append, hp, noCall_filter h1]; rfl)]
    rfl
  | some l =>
    obtain ⟨a, q1, q2⟩ := optional_present (k := b!"AF") (read := arrayOf (readSpecified unf f bytes)) (Q := fun a => a = xs.map Specified.expected) he
      (by rw [List.filter_append, hp, onlyCall_filter (show OnlyCall means b!"AF" calls (c l) from h1), hc]; rfl)
      (fun v hv => ⟨_, specifieds_read hf h2 v hv, rfl⟩)
    rw [readFiles, q1, q2]
    rfl

theorem readFiles_length {n : Nat} (d : List (Bytes × Val)) : readFiles unf f bytes ((b!"Length", .int n) :: d) = readFiles unf f bytes d := by
  simp only [readFiles, optional_cons (show ((b!"Length" : Bytes) == b!"AF") = false by decide)]

theorem object_read (hf : Finds f bytes items) {id : Ref} {xs : List (Specified Date)} (h : ObjectHas unf items id xs) :
    ∃ d, anyDict f bytes id.get.toNat = some d ∧ readFiles unf f bytes d = some (xs.map Specified.expected) := by
  cases h with
  | page ho h =>
    obtain ⟨v, q, hv⟩ := finds_val hf ho
    obtain ⟨d, rfl, he⟩ := page_denotes .code _ (Or.inl rfl) v hv
    exact ⟨d, by simp only [anyDict, q], files_read hf h he (by decide) (fun _ => rfl)⟩
  | element ho h =>
    obtain ⟨v, q, hv⟩ := finds_val hf ho
    obtain ⟨d, rfl, he⟩ := structElement_denotes _ v hv
    exact ⟨d, by simp only [anyDict, q], files_read hf h he (by decide) (fun _ => rfl)⟩
  | annotation ho h =>
    obtain ⟨v, q, hv⟩ := finds_val hf ho
    obtain ⟨d, rfl, he⟩ := annotation_denotes .code _ (Or.inl rfl) v hv
    exact ⟨d, by simp only [anyDict, q], files_read hf h he (by decide) (fun _ => rfl)⟩
  | image ho h =>
    obtain ⟨d, q, hd⟩ := finds_stream hf ho
    exact ⟨_, by rw [anyDict, q], by rw [readFiles_length]; exact files_read hf h (entriesAre_of (imageXObject_implied _) hd) (by decide) (fun _ => rfl)⟩
  | form ho h =>
    obtain ⟨d, q, hd⟩ := finds_stream hf ho
    exact ⟨_, by rw [anyDict, q], by rw [readFiles_length]; exact files_read hf h (entriesAre_of (formXObject_implied _) hd) (by decide) (fun _ => rfl)⟩

theorem elsewhere_read (hf : Finds f bytes items) {calls : List ReferenceCall} {x : Elsewhere Date} (h : ElsewhereSet unf items calls x) (v : Val)
    (hv : IsReference calls v) : readElsewhere unf f bytes v = some x.expected := by
  obtain ⟨d, rfl, he⟩ := hv
  have he : EntriesAre ([] ++ calls.flatMap ReferenceMeans) d := he
  obtain ⟨⟨s, h1, h1'⟩, h2, h3⟩ := h
  obtain ⟨w, l1, hw⟩ := lookup_of he (k := b!"F") (P := IsFileSpec s) (by simp only [List.nil_append, onlyCall_filter h1]; rfl)
  have r3 := optional_eq (read := arrayOf strOf) (fun l => ArrayIs (l.map fun x => IsStr x)) (fun x => x) he (by decide) h3 (fun _ => rfl)
    (fun b v hv => array_same str_read b v hv)
  simp only [Option.map_id_fun', id] at r3
  have r2 : (lookup b!"Page" d).bind otherPage = some x.page := by
    rcases h2 with ⟨n, e, h2⟩ | ⟨t, e, h2⟩
    · obtain ⟨w, l2, hw⟩ := lookup_of he (k := b!"Page") (P := IsInt n) (by simp only [List.nil_append, onlyCall_filter h2]; rfl)
      simp only [IsInt] at hw
      subst hw
      rw [l2, e]
      rfl
    · obtain ⟨w, l2, hw⟩ := lookup_of he (k := b!"Page") (P := IsText t) (by simp only [List.nil_append, onlyCall_filter h2]; rfl)
      have ht := readText_isText t w hw
      rw [l2, e, Option.bind_some]
      cases w with
      | int n => simp [readText] at ht
      | _ => simp only [otherPage, ht, Option.map_some]
  simp only [readElsewhere, followDict, followRef, Option.bind_some, l1, specified_read hf h1' w hw, r2, r3, Option.map_some, Elsewhere.expected]

theorem annot_files (hf : Finds f bytes items) {id : Ref} {x : List (Specified Date) × Option (Specified Date)} (h : AnnotHas unf items id x) :
    annotFiles unf f bytes id.get.toNat = some (x.1.map Specified.expected, x.2.map Specified.expected) := by
  obtain ⟨s, ho, ⟨l, h1, h1'⟩, cs, h2, h2'⟩ := h
  obtain ⟨v, q, hv⟩ := finds_val hf ho
  obtain ⟨d, rfl, he⟩ := source_body s v hv
  obtain ⟨z, r2, m2⟩ := source_both (read := readSpecified unf f bytes) (R := fun a b => b = a.expected) IsFileSpec (by decide) he h2 h2' (fun _ => rfl)
    (fun b g hw v hv => ⟨_, specified_read hf hw v hv, rfl⟩)
  have m2 := bothOrNone_eq m2
  have r1 : readFiles unf f bytes d = some (x.1.map Specified.expected) := by
    obtain ⟨z, q1, q2⟩ := source_both (read := arrayOf (readSpecified unf f bytes)) (R := fun a b => b = a.map Specified.expected)
      (W := Pairwise (FileSet unf items)) (y := l.map fun _ => x.1) (fun l => ArrayIs (l.map fun x => IsFileSpec x)) (by decide) he h1
      (by cases l with | none => exact trivial | some l => exact h1') (fun _ => rfl) (fun b g hw v hv => ⟨_, specifieds_read hf hw v hv, rfl⟩)
    rw [readFiles, q1, bothOrNone_eq q2]
    cases l with
    | none =>
      obtain ⟨x1, x2⟩ := x
      simp only [Option.getD_none] at h1'
      cases h1'
      rfl
    | some l => rfl
  simp only [annotFiles, dictObject, q, Option.bind_some, r1, r2, Option.map_some, m2]

theorem pageFiles_read (hf : Finds f bytes items) (ls : List (Ref × List PageCall)) (pages : List (List (Specified Date)))
    (hob : ∀ e ∈ ls, HasObject items e.1 (.val (Page.prog e.2))) (h : Pairwise (fun e xs => FilesSet unf items (PageMeans .code) .associatedFiles e.2 xs) ls pages) :
    readEach (fun n => (dictObject f bytes n).bind (readFiles unf f bytes)) (ls.map fun e => e.1.get.toNat) = some (pages.map fun l => l.map Specified.expected) := by
  induction h with
  | nil => rfl
  | cons ha _ ih =>
    rename_i a b as bs hr
    obtain ⟨v, q, hv⟩ := finds_val hf (hob a (by simp))
    obtain ⟨d, rfl, he⟩ := page_denotes .code _ (Or.inl rfl) v hv
    simp only [List.map_cons, readEach, dictObject, q, Option.bind_some, files_read hf ha he (by decide) (fun _ => rfl)]
    have := ih (fun e he => hob e (by simp [he]))
    simp only [dictObject] at this
    rw [this]
    rfl

theorem pairwise_eqMap {α β : Type} {g : α → β} {as : List α} {bs : List β} (h : Pairwise (fun a b => b = g a) as bs) : bs = as.map g := by
  induction h with
  | nil => rfl
  | cons ha _ ih => rw [ha, ih]; rfl

theorem pairwise_mono {α β : Type} {R S : α → β → Prop} (k : ∀ a b, R a b → S a b) {as : List α} {bs : List β} (h : Pairwise R as bs) : Pairwise S as bs := by
  induction h with
  | nil => exact .nil
  | cons ha _ ih => exact .cons (k _ _ ha) ih

theorem treeFiles_read (hf : Finds f bytes items) {cat : List CatalogCall} {xs : List (Specified Date)} (h : TreeHas unf items cat xs) {d : List (Bytes × Val)}
    (he : EntriesAre (CatalogEntries .code cat) d) : treeFiles unf f bytes d = some (xs.map Specified.expected) := by
  rcases h with ⟨h, rfl⟩ | ⟨root, h, h'⟩
  · rw [treeFiles, optional_absent he (by simp only [CatalogEntries, List.filter_append, noCall_filter h]; rfl)]
    rfl
  · obtain ⟨a, q1, q2⟩ := optional_present (k := b!"StructTreeRoot") (read := fun v => (followDict f bytes v).bind (readFiles unf f bytes))
      (Q := fun a => a = xs.map Specified.expected) (P := IsStructTreeRoot .code root) he
      (by simp only [CatalogEntries, List.filter_append, onlyCall_filter h]; rfl)
      (fun v hv => by
        obtain ⟨d, rfl, he⟩ := hv
        exact ⟨_, files_read hf h' he (by decide) (fun _ => rfl), rfl⟩)
    rw [treeFiles, q1, q2]
    rfl

end PdfW
