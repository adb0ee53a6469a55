import Verif.Spec.Glyphs
import Verif.Proof.Fonts
import Verif.Proof.Colors
import Verif.Proof.Display

set_option linter.unusedSimpArgs false
set_option linter.unusedVariables false

/-! # What the characters of Type 3 fonts look like: proofs -/

namespace PdfW
open Spec Imaging

variable {unf : Val → Bytes → Option Bytes} {f : FileEnd} {bytes : Bytes} {items : List Item}

/-- Operands that are numbers. -/
theorem numbers_denoted (xs : List F32) (vs : List Val) (h : DenotesItems (xs.map num) vs) : vs.all isNumber = true ∧ vs.length = xs.length ∧ Pairwise NumIs xs vs := by
  induction xs generalizing vs with
  | nil => simp only [List.map_nil, DenotesItems] at h; subst h; exact ⟨rfl, rfl, .nil⟩
  | cons x xs ih =>
    simp only [List.map_cons, DenotesItems] at h
    obtain ⟨w, ws, rfl, hw, hws⟩ := h
    obtain ⟨h1, h2, h3⟩ := ih ws hws
    have hn : NumIs x w := by simpa only [num, Denotes, PrimDenotes] using hw
    exact ⟨by simp only [List.all_cons, numIs_isNumber hn, h1, Bool.and_self], by simp [h2], .cons hn h3⟩

theorem starts_read {c : ContentCall} {s : GlyphStart F32} (h : Starts c s) {o : ReadOp} (hm : Means c o) (ops : List ReadOp) :
    ∃ s', readGlyphStart (o :: ops) = some (s', ops) ∧ SameStart s s' := by
  obtain ⟨k, args⟩ := o
  obtain ⟨h1, h2⟩ := hm
  simp only at h1 h2
  subst h1
  cases h with
  | @colored w =>
    obtain ⟨q1, q2, q3⟩ := numbers_denoted [w, F32.zero] args h2
    refine ⟨.colored args, ?_, .colored q3⟩
    simp only [readGlyphStart, operatorOf, q1, q2]
    rfl
  | @shape w a b c d =>
    obtain ⟨q1, q2, q3⟩ := numbers_denoted [w, F32.zero, a, b, c, d] args h2
    refine ⟨.shape (args.take 2) (args.drop 2), ?_, ?_⟩
    · simp only [readGlyphStart, operatorOf, q1, q2]
      rfl
    · cases q3 with | cons a1 t => cases t with | cons a2 t => exact .shape (.cons a1 (.cons a2 .nil)) t

theorem glyph_read (hf : Finds f bytes items) {forms m : Nat} (hm : forms ≤ m) {res : Option (List ResourcesCall)} {rv : Option Val}
    (hr : ResRead f bytes res rv) {part : ContentPart} (hw : PartWritten unf items part) {c : ContentCall} {rest : List ContentCall}
    (hc : part.calls = c :: rest) {s : GlyphStart F32} (hs : Starts c s) {es : List (Element F32 Prog)}
    (hd : Displays unf items forms res (initial fun n => .prim (.name n)) rest es) :
    ∃ x, readGlyph unf f bytes m rv (.ref part.id.get.toNat 0) = some x ∧ SameStart s x.1 ∧ Pairwise (SameElement NumIs Denotes) es x.2 := by
  obtain ⟨ops, h1, h2⟩ := part_content hf part hw
  rw [hc] at h2
  obtain ⟨o, os, rfl, h3, h4⟩ := h2
  obtain ⟨s', h5, h6⟩ := starts_read hs h3 os
  have hini : SameState NumIs Denotes (initial fun n => .prim (.name n)) (initial Val.name) :=
    ⟨.nil, .nil, ⟨rfl, .nil, trivial⟩, ⟨rfl, .nil, trivial⟩, .nil⟩
  obtain ⟨as, es', h7, h8, h9⟩ := displays_read hf forms m hm res rv hr _ _ hini rest es hd os h4
  refine ⟨(s', es'), ?_, h6, h9⟩
  simp only [readGlyph, refNumber, Option.bind_some]
  rw [← Option.bind_assoc, h1]
  simp only [Option.bind_some, h5, h7, h8, Option.map_some]

/-- The entry of a name among glyphs. -/
theorem procs_filter (glyphs : List (Bytes × ContentPart)) (name : Bytes) :
    (((glyphs.map fun g => (g.1, g.2.id)).map fun e => (e.1, IsRef e.2)).filter fun e => e.1 == name) =
      (glyphs.filter fun g => g.1 == name).map fun g => (g.1, IsRef g.2.id) := by
  rw [List.map_map, List.filter_map]
  rfl

theorem characters_read (hf : Finds f bytes items) {forms m : Nat} (hm : forms ≤ m) {page : Option (List ResourcesCall)} {pv : Option Val}
    (hp : ResRead f bytes page pv) (p : Prog) (chars : List (Character F32 Prog)) (h : CharactersGiven unf items forms page p chars)
    (v : Val) (hv : Denotes p v) :
    ∃ r, (followDict f bytes v).bind (readCharacters unf f bytes m pv) = some r ∧ Pairwise SameCharacter chars r := by
  rcases h with ⟨calls, hs, hn, rfl⟩ | ⟨calls, hs, hn, rfl⟩ | ⟨calls, cs, base, ds, glyphs, res, hs, hn, henc, hright, hprocs, hres, hchars⟩
  · obtain ⟨d, h1, h2⟩ := followDict_stored hf hs hv
    have he := entriesAre_of (type1Font_implied calls) h2
    obtain ⟨w1, l1, e1⟩ := lookup_of he (k := b!"Subtype") (P := IsName b!"Type1")
      (by simp only [Type1FontEntries, List.filter_append, noCall_filter hn]; rfl)
    simp only [IsName] at e1
    subst e1
    refine ⟨[], ?_, .nil⟩
    simp only [h1, readCharacters, l1, nameOf, Option.bind_some]
    rw [if_neg (by decide)]
  · obtain ⟨d, h1, h2⟩ := followDict_stored hf hs hv
    have he := entriesAre_of (type0Font_implied calls) h2
    obtain ⟨w1, l1, e1⟩ := lookup_of he (k := b!"Subtype") (P := IsName b!"Type0")
      (by simp only [Type0FontEntries, List.filter_append, noCall_filter hn]; rfl)
    simp only [IsName] at e1
    subst e1
    refine ⟨[], ?_, .nil⟩
    simp only [h1, readCharacters, l1, nameOf, Option.bind_some]
    rw [if_neg (by decide)]
  · obtain ⟨d, h1, h2⟩ := followDict_stored hf hs hv
    have he := entriesAre_of (type3Font_implied calls) h2
    obtain ⟨w1, l1, e1⟩ := lookup_of he (k := b!"Subtype") (P := IsName b!"Type3")
      (by simp only [Type3FontEntries, List.filter_append, noCall_filter hn]; rfl)
    simp only [IsName] at e1
    subst e1
    obtain ⟨rv, hrv, hrr⟩ := resourcesSet_reads hf (fun _ => rfl) (fun _ _ => rfl) hres he
      (by simp only [Type3FontEntries, List.filter_append]; rfl) hp
    obtain ⟨w2, l2, cd, rfl, hcd⟩ := lookup_of he (k := b!"CharProcs") (P := DictIs ((glyphs.map fun g => (g.1, g.2.id)).map fun e => (e.1, IsRef e.2)))
      (by simp only [Type3FontEntries, List.filter_append, onlyCall_filter hprocs]; rfl)
    obtain ⟨w3, l3, e3⟩ := lookup_of he (k := b!"Encoding") (P := IsEncoding cs)
      (by simp only [Type3FontEntries, List.filter_append, onlyCall_filter henc]; rfl)
    have henv : readEncoding w3 = some (.custom base (ds.flatMap differencesGiven)) := by
      have := encodingSet_read (named := Type3FontCall.encodingPredefined) (custom := Type3FontCall.encodingCustom) (g := some (.custom cs base (some ds))) ⟨henc, fun x hx => by cases hx; exact hright⟩ he rfl (fun _ => rfl) (fun _ => rfl)
      simp only [optionalEntry, l3] at this
      rw [present_of he (P := IsEncoding cs) (by simp only [Type3FontEntries, List.filter_append, onlyCall_filter henc]; rfl)] at this
      simp only [Bool.false_eq_true, if_false, Option.bind_some, Option.map_some, EncodingGiven.value, Option.getD_some] at this
      cases hx : readEncoding w3 with
      | none => rw [hx] at this; simp at this
      | some y => rw [hx] at this; simpa using this
    have hall : ∃ r, readEach (fun e => (optionalEntry e.2 cd (readGlyph unf f bytes m rv)).map fun g => (e.1, e.2, g)) (ds.flatMap differencesGiven) = some r ∧
        Pairwise SameCharacter chars r := by
      generalize ds.flatMap differencesGiven = codes at hchars
      induction hchars with
      | nil => exact ⟨[], rfl, .nil⟩
      | @cons e x es xs hx _ ih =>
        obtain ⟨r, q1, q2⟩ := ih
        obtain ⟨code, name⟩ := e
        obtain ⟨c, n, painted⟩ := x
        obtain ⟨rfl, rfl, hg⟩ := hx
        cases painted with
        | none =>
          have ha : optionalEntry n cd (readGlyph unf f bytes m rv) = some none :=
            optional_absent hcd (by rw [procs_filter, show glyphs.filter (fun g => g.1 == n) = [] from hg]; rfl)
          exact ⟨(c, n, none) :: r, by simp only [readEach, ha, Option.map_some, Option.bind_some, q1], .cons ⟨rfl, rfl, trivial⟩ q2⟩
        | some g =>
          obtain ⟨s, es⟩ := g
          obtain ⟨part, k, rest, hfl, hw, hc, hst, hd⟩ := hg
          obtain ⟨y, q3, q4⟩ := optional_present (read := readGlyph unf f bytes m rv) hcd (k := n) (P := IsRef part.id)
            (by rw [procs_filter, hfl]; rfl) (Q := fun y => SameStart s y.1 ∧ Pairwise (SameElement NumIs Denotes) es y.2) (by
              intro v hv
              simp only [IsRef] at hv
              subst hv
              exact glyph_read hf hm hrr hw hc hst hd)
          exact ⟨(c, n, some y) :: r, by simp only [readEach, q3, Option.map_some, Option.bind_some, q1], .cons ⟨rfl, rfl, q4⟩ q2⟩
    obtain ⟨r, q1, q2⟩ := hall
    refine ⟨r, ?_, q2⟩
    simp only [h1, readCharacters, l1, nameOf, Option.bind_some]
    rw [if_pos (by simp)]
    simp only [hrv, l2, l3, henv, Option.bind_some, q1]

theorem pageCharacters_read (hf : Finds f bytes items) {forms m : Nat} (hm : forms ≤ m) (id : Ref) (res : Option (List ResourcesCall))
    (calls : List ContentCall) (x : List (Bytes × List (Character F32 Prog))) (rv : Option Val) (d : List (Bytes × Val)) (ops : List ReadOp)
    (hx : PageCharacters unf items forms res x) (hr : ResRead f bytes res rv) (hops : pageOperations unf f bytes d = some ops)
    (hmm : AllMean calls ops) : ∃ y, readPageCharacters unf f bytes m id.get.toNat rv d = some y ∧ SameCharacters x y := by
  have hr0 := hr
  cases res with
  | none =>
    simp only [ResRead] at hr
    simp only [PageCharacters] at hx
    subst hr hx
    exact ⟨[], rfl, .nil⟩
  | some rc =>
    obtain ⟨w, rd, rfl, h1, h2⟩ := hr
    simp only [PageCharacters] at hx
    obtain ⟨r, q1, q2⟩ := category_read hf (fun _ => rfl) hx h2 (characters_read hf hm hr0)
    exact ⟨r, by simp only [readPageCharacters, h1, Option.bind_some, q1], q2⟩

/-! ## Text shown -/

theorem codesShown_same {ts : List (Text F32)} {ts' : List (Text Val)} (h : Pairwise (SameText NumIs) ts ts') : codesShown ts' = codesShown ts := by
  induction h with
  | nil => rfl
  | cons h1 _ ih => cases h1 <;> simp only [codesShown, ih]

theorem characterAt_same (c : UInt8) {xs : List (Character F32 Prog)} {ys : List (Character Val Val)} (h : Pairwise SameCharacter xs ys) :
    BothOrNone SameCharacter (characterAt c xs) (characterAt c ys) := by
  induction h with
  | nil => trivial
  | @cons x y xs ys h1 _ ih =>
    simp only [characterAt]
    revert ih
    cases characterAt c xs <;> cases characterAt c ys <;> intro ih
    · rw [h1.1]
      simp only
      split
      · exact h1
      · trivial
    · exact ih.elim
    · exact ih.elim
    · exact ih

theorem run_read (hf : Finds f bytes items) {forms m : Nat} (hm : forms ≤ m) {e : Element F32 Prog} {e' : Element Val Val}
    (h : SameElement NumIs Denotes e e') : RunsAsAsked unf items f bytes forms m e e' := by
  intro run state font size chars he hfont hc
  subst he
  cases h with
  | @text _ run' _ state' hrun _ =>
    have hv := valueOf_same .font hrun.settings
    rw [hfont] at hv
    cases hv' : valueOf .font run'.settings with
    | none => rw [hv'] at hv; exact hv.elim
    | some x =>
      rw [hv'] at hv
      cases hv with
      | @font _ v _ size' hd _ =>
        obtain ⟨cs, q1, q2⟩ := characters_read hf hm (page := none) (pv := none) rfl font chars hc v hd
        have q3 : readShownGlyphs unf f bytes m run' = some ((codesShown run'.shown).map fun c => characterAt c cs) := by
          simp only [readShownGlyphs, hv']
          cases hx : followDict f bytes v with
          | none => rw [hx] at q1; cases q1
          | some d => rw [hx, Option.bind_some] at q1; simp only [Option.bind_some, q1, Option.map_some]
        refine ⟨run', state', _, rfl, q3, ?_⟩
        rw [codesShown_same hrun.shown]
        induction codesShown run.shown with
        | nil => exact .nil
        | cons c l ih => exact .cons (characterAt_same c q2) ih

end PdfW
