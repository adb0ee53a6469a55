import Verif.Spec.Unwind
import Verif.Proof.Read

/-! # Lemmas: scanning trees with unused array items -/

set_option linter.unusedSimpArgs false
set_option linter.unusedVariables false

namespace PdfW
open Spec

theorem tidyItems_unused (xs : List Prog) : tidyItems (.unused :: xs) = tidyItems xs := by simp [tidyItems]

theorem tidyItems_used (x : Prog) (xs : List Prog) (h : x.used = true) : tidyItems (x :: xs) = tidy x :: tidyItems xs := by
  cases x <;> simp [tidyItems, Prog.used] at *

theorem tidy_bare (x : Prog) : isBareToken (tidy x) = isBareToken x := by cases x <;> simp [tidy, isBareToken]
theorem tidy_emptyName (x : Prog) : isEmptyName (tidy x) = isEmptyName x := by cases x <;> simp [tidy, isEmptyName]
theorem tidy_used (x : Prog) : (tidy x).used = x.used := by cases x <;> simp [tidy, Prog.used]

/-- In compact mode, after something that does not end with a delimiter. -/
theorem encItems_sep (indent : Nat) (last : Option UInt8) (xs : List Prog) (rest : Bytes) (hr : sepOk rest = true)
    (h : ∀ y ∈ (tidyItems xs).head?, isBareToken y = true → last.any isDelimiterCharacter = false) :
    sepOk (encItems false indent false last xs ++ rest) = true := by
  induction xs with
  | nil => exact hr
  | cons x xs ih =>
    cases hx : x.used with
    | false =>
      obtain rfl : x = .unused := by cases x <;> simp [Prog.used] at hx ⊢
      simp only [encItems, itemSep, enc, Bool.and_false, Bool.false_eq_true, if_false, List.nil_append, List.getLast?_nil, Option.none_or]
      exact ih (by rw [tidyItems_unused] at h; exact h)
    | true =>
      rw [tidyItems_used x xs hx] at h
      simp only [encItems, itemSep, Bool.and_false, Bool.false_eq_true, if_false, List.nil_append, List.append_assoc]
      exact enc_head _ _ x hx _ (fun hb => h (tidy x) (by simp) (by rw [tidy_bare]; exact hb))

mutual
theorem scan_tidy (pretty : Bool) (p : Prog) (hok : Ok (tidy p)) (hc : pretty = true ∨ NoClash (tidy p)) (indent : Nat) (pad : Bool)
    (last : Option UInt8) (rest : Bytes) (hr : progNeedsEnd p = true → sepOk rest = true) :
    Scan (enc pretty indent pad last p ++ rest) (progToks (tidy p)) rest := by
  match p with
  | .prim p => exact scan_enc pretty (.prim p) (by simpa [tidy] using hok) (by simpa [tidy] using hc) indent pad last rest hr
  | .array items =>
    have hi := scan_tidyItems pretty items (by simpa [tidy, Ok] using hok) (by simpa [tidy, NoClash] using hc) indent true (some ch!"[")
      (ch!"]" :: rest) (by rfl) [.arrClose] (by simp) rest
      (Scan.single (by rw [nextToken_head _ _ (by decide) (by decide)]; rfl))
    simp only [enc, tidy, progToks, List.cons_append, List.append_assoc, List.nil_append]
    exact Scan.cons (by rw [nextToken_head _ _ (by decide) (by decide)]; rfl) hi
  | .dict entries =>
    have hs : Scan (lineSep (!entries.isEmpty && pretty) (saturatingAdd indent 2 - 2) ++ (b!">>" ++ rest)) [.dictClose] rest :=
      Scan.whites (lineSep_white _ _) (by simp)
        (Scan.single (by rw [List.cons_append, nextToken_head _ _ (by decide) (by decide)]; rfl))
    have hi := scan_tidyEntries pretty entries (by simpa [tidy, Ok] using hok) (by simpa [tidy, NoClash] using hc) (saturatingAdd indent 2)
      (lineSep (!entries.isEmpty && pretty) (saturatingAdd indent 2 - 2) ++ (b!">>" ++ rest)) (by
        unfold lineSep; split
        · rfl
        · rfl)
    simp only [enc, tidy, progToks, List.append_assoc]
    refine Scan.cons (r := encEntries pretty (saturatingAdd indent 2) entries ++
      (lineSep (!entries.isEmpty && pretty) (saturatingAdd indent 2 - 2) ++ (b!">>" ++ rest))) ?_ (hi.append hs)
    rw [List.cons_append, nextToken_head _ _ (by decide) (by decide)]; rfl
  | .unused => simp [tidy, Ok] at hok
termination_by structural p
theorem scan_tidyItems (pretty : Bool) (xs : List Prog) (hok : OkItems (tidyItems xs)) (hc : pretty = true ∨ NoClashItems (tidyItems xs))
    (indent : Nat) (first : Bool) (last : Option UInt8) (rest : Bytes) (hr : sepOk rest = true) (ts : List Tok) (hts : ts ≠ [])
    (rest' : Bytes) (hrest : Scan rest ts rest') :
    Scan (encItems pretty indent first last xs ++ rest) (itemsToks (tidyItems xs) ++ ts) rest' := by
  match xs with
  | [] => exact hrest
  | x :: xs =>
    have hsep : (itemSep pretty first).all isWhite = true := by unfold itemSep; split <;> decide
    by_cases hx : x = .unused
    · subst hx
      rw [tidyItems_unused] at hok hc ⊢
      have hi := scan_tidyItems pretty xs hok hc indent false
        ((itemSep pretty first ++ enc pretty indent (!first && !pretty) last .unused).getLast?.or last) rest hr ts hts rest' hrest
      simp only [encItems, List.append_assoc]
      refine Scan.whites hsep (by simp [hts]) ?_
      simpa [enc] using hi
    · have hxu : x.used = true := (used_iff x).mpr hx
      rw [tidyItems_used x xs hxu] at hok hc ⊢
      simp only [OkItems] at hok
      simp only [NoClashItems] at hc
      have hx := scan_tidy pretty x hok.1 (hc.imp id (fun h => h.1)) indent (!first && !pretty) last
        (encItems pretty indent false ((itemSep pretty first ++ enc pretty indent (!first && !pretty) last x).getLast?.or last) xs ++ rest) (by
          intro he
          rw [last_or x hxu]
          cases pretty with
          | true =>
            cases xs with
            | nil => exact hr
            | cons y ys => simp [encItems, itemSep, sepOk]; decide
          | false =>
            apply encItems_sep _ _ _ _ hr
            intro y hy hyb
            have hc' := hc.resolve_left (by simp)
            simp only [itemSep, Bool.and_false, Bool.false_eq_true, if_false, List.nil_append]
            have hxo : Ok x := by
              cases x with
              | prim p => simpa [tidy] using hok.1
              | _ => simp [progNeedsEnd] at he
            apply enc_last _ _ _ _ _ hxo he
            cases hen : isEmptyName x
            · rfl
            · have := hc'.2.1 (by rw [tidy_emptyName]; exact hen) y hy
              simp [hyb] at this)
      have hi := scan_tidyItems pretty xs hok.2 (hc.imp id (fun h => h.2.2)) indent false
        ((itemSep pretty first ++ enc pretty indent (!first && !pretty) last x).getLast?.or last) rest hr ts hts rest' hrest
      simp only [encItems, itemsToks, List.append_assoc]
      exact Scan.whites hsep (by simp [progToks_ne_nil (tidy x) hok.1]) (hx.append hi)
termination_by structural xs
theorem scan_tidyEntries (pretty : Bool) (es : List (Bytes × Prog)) (hok : OkEntries (tidyEntries es)) (hc : pretty = true ∨ NoClashEntries (tidyEntries es))
    (indent : Nat) (rest : Bytes) (hr : sepOk rest = true) :
    Scan (encEntries pretty indent es ++ rest) (entriesToks (tidyEntries es)) rest := by
  match es with
  | [] => exact Scan.nil rest
  | (k, v) :: es =>
    simp only [tidyEntries, OkEntries] at hok
    simp only [tidyEntries, NoClashEntries] at hc
    have hvu : v.used = true := by rw [← tidy_used]; exact used_of_ok _ hok.1
    have hi := scan_tidyEntries pretty es hok.2 (hc.imp id (fun h => h.2.2)) indent rest hr
    have hv := scan_tidy pretty v hok.1 (hc.imp id (fun h => h.2.1)) indent (!pretty) (nameBytes k).getLast?
      (encEntries pretty indent es ++ rest) (fun _ => encEntries_head pretty indent es rest hr)
    have hk : Scan (nameBytes k ++ (keySep pretty ++ (enc pretty indent (!pretty) (nameBytes k).getLast? v ++
        (encEntries pretty indent es ++ rest)))) [.name k]
        (keySep pretty ++ (enc pretty indent (!pretty) (nameBytes k).getLast? v ++ (encEntries pretty indent es ++ rest))) := by
      refine scan_prim (.name k) trivial _ (fun _ => ?_)
      cases pretty with
      | true => simp [keySep, sepOk]; decide
      | false =>
        simp only [keySep, Bool.false_eq_true, if_false, List.nil_append]
        apply enc_head _ _ _ hvu
        intro hb
        have hc' := hc.resolve_left (by simp)
        refine prim_last (.name k) trivial rfl ?_
        rintro h
        simp only [Prim.name.injEq] at h
        have := hc'.1 h
        rw [tidy_bare] at this
        simp [hb] at this
    simp only [encEntries, tidyEntries, entriesToks, List.append_assoc]
    refine Scan.whites (lineSep_white _ _) (by simp) (hk.append (Scan.whites ?_ (by simp [progToks_ne_nil _ hok.1]) (hv.append hi)))
    unfold keySep; split <;> decide
termination_by structural es
end

/-! ## A key without a value -/

theorem readToEnd_none {bs rest : Bytes} {ts : List Tok} (h : Scan bs ts rest) (fuel : Nat) (st : State) (hfold : foldToks ts st = none) :
    readToEnd fuel st bs = none := by
  induction h generalizing fuel st with
  | nil bs => simp [foldToks] at hfold
  | @cons bs r rest t ts h hs ih =>
    cases fuel with
    | zero => simp [readToEnd]
    | succ fuel =>
      have hne : skipSpace false bs ≠ [] := by
        intro he; simp [nextToken, he, tokenAt] at h
      rw [readToEnd.eq_def]
      simp only
      cases hsk : skipSpace false bs with
      | nil => exact absurd hsk hne
      | cons x l =>
        simp only [h]
        cases hst : step t st with
        | none => rfl
        | some st' =>
          simp only [foldToks, hst, Option.bind_some] at hfold
          exact ih fuel st' hfold

theorem pairUp_even (l : List Val) (es : List (Bytes × Val)) (h : pairUp l = some es) : l.length = 2 * es.length := by
  induction es generalizing l with
  | nil =>
    match l with
    | [] => rfl
    | [x] => cases x <;> simp [pairUp] at h
    | x :: v :: r =>
      cases x <;> simp only [pairUp] at h
      all_goals (first | (cases h; done) | (cases hr : pairUp r <;> simp [hr] at h))
  | cons e es ih =>
    match l with
    | [] => simp [pairUp] at h
    | [x] => cases x <;> simp [pairUp] at h
    | x :: v :: r =>
      cases x with
      | name k =>
        simp only [pairUp] at h
        cases hr : pairUp r with
        | none => simp [hr] at h
        | some es' =>
          rw [hr] at h
          simp only [Option.some.injEq, List.cons.injEq] at h
          have := ih r (by rw [hr, h.2])
          simp only [List.length_cons, this]; omega
      | _ => simp [pairUp] at h

theorem flat_length (es : List (Bytes × Val)) : (flatEntries es).length = 2 * es.length := pairUp_even _ _ (pairUp_flat es)

theorem encEntries_append (pretty : Bool) (indent : Nat) (a b : List (Bytes × Prog)) :
    encEntries pretty indent (a ++ b) = encEntries pretty indent a ++ encEntries pretty indent b := by
  induction a with
  | nil => rfl
  | cons e a ih => obtain ⟨k, v⟩ := e; simp [encEntries, ih]

theorem scan_keyAlone (pretty : Bool) (es fs : List (Bytes × Prog)) (k : Bytes) (hes : OkEntries es) (hfs : OkEntries fs)
    (hce : pretty = true ∨ NoClashEntries es) (hcf : pretty = true ∨ NoClashEntries fs) (indent : Nat) (pad : Bool) (last : Option UInt8) (rest : Bytes) :
    Scan (enc pretty indent pad last (.dict (es ++ (k, .unused) :: fs)) ++ rest)
      (.dictOpen :: (entriesToks es ++ (.name k :: (entriesToks fs ++ [.dictClose])))) rest := by
  have hs : Scan (lineSep (!(es ++ (k, .unused) :: fs).isEmpty && pretty) (saturatingAdd indent 2 - 2) ++ (b!">>" ++ rest)) [.dictClose] rest :=
    Scan.whites (lineSep_white _ _) (by simp)
      (Scan.single (by rw [List.cons_append, nextToken_head _ _ (by decide) (by decide)]; rfl))
  generalize hR : lineSep (!(es ++ (k, .unused) :: fs).isEmpty && pretty) (saturatingAdd indent 2 - 2) ++ (b!">>" ++ rest) = R at hs
  have hRs : sepOk R = true := by
    rw [← hR]; unfold lineSep; split
    · rfl
    · rfl
  have hf := scan_entries pretty fs hfs hcf (saturatingAdd indent 2) R hRs
  have hk : Scan (nameBytes k ++ (keySep pretty ++ (encEntries pretty (saturatingAdd indent 2) fs ++ R))) [.name k]
      (keySep pretty ++ (encEntries pretty (saturatingAdd indent 2) fs ++ R)) := by
    refine scan_prim (.name k) trivial _ (fun _ => ?_)
    cases pretty with
    | true => simp [keySep, sepOk]; decide
    | false =>
      simp only [keySep, Bool.false_eq_true, if_false, List.nil_append]
      exact encEntries_head false _ fs R hRs
  have htail : Scan (encEntries pretty (saturatingAdd indent 2) ((k, .unused) :: fs) ++ R) (.name k :: (entriesToks fs ++ [.dictClose])) rest := by
    simp only [encEntries, enc, List.append_assoc, List.nil_append]
    refine Scan.whites (lineSep_white _ _) (by simp) (hk.append (Scan.whites ?_ (by simp) (hf.append hs)))
    unfold keySep; split <;> decide
  have he := scan_entries pretty es hes hce (saturatingAdd indent 2) (encEntries pretty (saturatingAdd indent 2) ((k, .unused) :: fs) ++ R)
    (encEntries_head pretty _ _ R hRs)
  simp only [enc, encEntries_append, List.append_assoc]
  rw [hR]
  refine Scan.cons ?_ (he.append htail)
  rw [List.cons_append, nextToken_head _ _ (by decide) (by decide)]; rfl

theorem fold_keyAlone (es fs : List (Bytes × Prog)) (k : Bytes) (hes : OkEntries es) (hfs : OkEntries fs) (st : State) :
    foldToks (.dictOpen :: (entriesToks es ++ (.name k :: (entriesToks fs ++ [.dictClose])))) st = none := by
  simp only [foldToks, step, Option.bind_some]
  rw [foldToks_append, fold_entries es hes]
  simp only [Option.bind_some, foldToks, step, State.push]
  rw [foldToks_append, fold_entries fs hfs]
  simp only [Option.bind_some, foldToks, step]
  cases hp : pairUp ((flatEntries (entriesVal fs)).reverse ++ Val.name k :: ((flatEntries (entriesVal es)).reverse ++ [])).reverse with
  | none => rfl
  | some r =>
    have h1 := pairUp_even _ _ hp
    have h2 := flat_length (entriesVal fs)
    have h3 := flat_length (entriesVal es)
    simp at h1
    omega

end PdfW
