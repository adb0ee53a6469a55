import Verif.Proof.Roles

/-!
# C35: structure roles
-/

set_option linter.unusedSimpArgs false
set_option linter.unusedVariables false

namespace PdfW.Props
open PdfW Spec

/-- All PDF 1.7 roles, for case analysis by the kernel. -/
def roles17 : List StructRole :=
  [.document, .part, .art, .sect, .div, .blockQuote, .caption, .toc, .toci, .index, .nonStruct, .priv, .p,
   .structuredHeading, .h1, .h2, .h3, .h4, .h5, .h6, .l, .li, .lbl, .lBody, .table, .tr, .th, .td, .tHead, .tBody, .tFoot,
   .span, .quote, .note, .reference, .bibEntry, .code, .link, .annot, .ruby, .warichu, .rb, .rt, .rp, .wt, .wp, .figure,
   .formula, .form]

theorem mem_roles17 (r : StructRole) : r ∈ roles17 := by cases r <;> decide

/-- The roles of PDF 2.0 other than numbered headings. -/
def roles20 : List StructRole2 :=
  [.document, .documentFragment, .part, .sect, .div, .aside, .nonStruct, .p, .structuredHeading, .title, .feNote, .sub,
   .lbl, .span, .em, .strong, .link, .annot, .form, .ruby, .rb, .rt, .rp, .warichu, .wt, .wp, .l, .li, .lBody, .table, .tr,
   .th, .td, .tHead, .tBody, .tFoot, .caption, .figure, .formula, .artifact]

theorem role20_cases (r : StructRole2) : r ∈ roles20 ∨ ∃ l p q, r = .heading l p q := by
  cases r
  case heading l p q => exact Or.inr ⟨l, p, q, rfl⟩
  all_goals exact Or.inl (by decide)

theorem forall_role17 {P : StructRole → Prop} (h : ∀ r ∈ roles17, P r) (r : StructRole) : P r := h r (mem_roles17 r)

/-! ## Names -/

/-- The names written for the roles of PDF 1.7 are exactly the standard structure types of ISO 32000-1, without
repetition. -/
theorem C35_names_17 (n : Bytes) : (∃ r : StructRole, r.toName = n) ↔ n ∈ types17 := by
  constructor
  · rintro ⟨r, rfl⟩
    exact forall_role17 (P := fun r => r.toName ∈ types17) (by decide +kernel) r
  · intro h
    have : ∀ n ∈ types17, ∃ r ∈ roles17, r.toName = n := by decide +kernel
    obtain ⟨r, _, e⟩ := this n h
    exact ⟨r, e⟩

theorem C35_names_17_distinct (r s : StructRole) (h : r.toName = s.toName) : r = s := by
  have : ∀ r ∈ roles17, ∀ s ∈ roles17, r.toName = s.toName → r = s := by decide +kernel
  exact this r (mem_roles17 r) s (mem_roles17 s) h

/-- Every role of PDF 2.0 has a name: the conversion never overflows its six-byte buffer. The names are exactly the
standard structure types of ISO 32000-2, numbered headings ranging over all levels a `u16` can hold. -/
theorem C35_names_20 (n : Bytes) :
    (∃ r : StructRole2, r.toName = some n) ↔ n ∈ types20 ∨ ∃ level, level < 65536 ∧ headingLevel n = some level := by
  constructor
  · rintro ⟨r, h⟩
    rcases role20_cases r with hr | ⟨l, p, q, rfl⟩
    · have : ∀ r ∈ roles20, ∀ m ∈ r.toName, m ∈ types20 := by decide +kernel
      exact Or.inl (this r hr n (by simp [h]))
    · simp only [StructRole2.toName, headingName_eq l q, Option.some.injEq] at h
      subst h
      exact Or.inr ⟨l, q, headingLevel_natBytes l p⟩
  · rintro (h | ⟨level, q, h⟩)
    · have : ∀ n ∈ types20, ∃ r ∈ roles20, r.toName = some n := by decide +kernel
      obtain ⟨r, _, e⟩ := this n h
      exact ⟨r, e⟩
    · obtain ⟨e, p⟩ := headingLevel_some n level h
      exact ⟨.heading level p q, by rw [e]; exact headingName_eq level q⟩

theorem C35_name_never_panics (r : StructRole2) : ∃ n, r.toName = some n := by
  rcases role20_cases r with hr | ⟨l, p, q, rfl⟩
  · have : ∀ r ∈ roles20, r.toName.isSome = true := by decide +kernel
    exact Option.isSome_iff_exists.mp (this r hr)
  · exact ⟨_, headingName_eq l q⟩

/-- No plain type of PDF 2.0 looks like a numbered heading. -/
theorem types20_not_heading : ∀ n ∈ types20, headingLevel n = none := by decide +kernel

/-- Heading names read back as their level, for every level; and no other role reads as a heading. -/
theorem C35_heading_level (r : StructRole2) (n : Bytes) (h : r.toName = some n) (level : Nat) :
    headingLevel n = some level ↔ ∃ p q, r = .heading level p q := by
  rcases role20_cases r with hr | ⟨l, p, q, rfl⟩
  · have h1 : ∀ r ∈ roles20, ∀ m ∈ r.toName, headingLevel m = none := by decide +kernel
    rw [h1 r hr n (by simp [h])]
    constructor
    · intro x; exact absurd x (by simp)
    · rintro ⟨p, q, rfl⟩
      exact absurd hr (by simp [roles20])
  · simp only [StructRole2.toName, headingName_eq l q, Option.some.injEq] at h
    subst h
    rw [headingLevel_natBytes l p]
    constructor
    · intro x; injection x with x; subst x; exact ⟨p, q, rfl⟩
    · rintro ⟨p', q', e⟩; injection e with e; rw [e]

theorem C35_names_20_distinct (r s : StructRole2) (h : r.toName = s.toName) : r = s := by
  obtain ⟨n, hn⟩ := C35_name_never_panics r
  have hs : s.toName = some n := by rw [← h, hn]
  rcases role20_cases r with hr | ⟨l, p, q, rfl⟩
  · rcases role20_cases s with hs' | ⟨l, p, q, rfl⟩
    · have : ∀ r ∈ roles20, ∀ s ∈ roles20, r.toName = s.toName → r = s := by decide +kernel
      exact this r hr s hs' h
    · have := (C35_heading_level _ n hs l).mpr ⟨p, q, rfl⟩
      obtain ⟨p', q', e⟩ := (C35_heading_level r n hn l).mp this
      exact e
  · have := (C35_heading_level _ n hn l).mpr ⟨p, q, rfl⟩
    obtain ⟨p', q', e⟩ := (C35_heading_level s n hs l).mp this
    exact e.symm

/-! ## Classes -/

/-- The class reported for a PDF 1.7 role is the one whose table in the standard lists its name. -/
theorem C35_class_17 (r : StructRole) (c : StructRoleType) : r.roleType = c ↔ r.toName ∈ class17 c := by
  have key : ∀ r ∈ roles17, ∀ c ∈ [StructRoleType.grouping, .paragraphLike, .list, .tableBlock, .genericInline, .link,
      .annotation, .rubyWarichu, .illustration, .table], r.roleType = c ↔ r.toName ∈ class17 c := by decide +kernel
  exact key r (mem_roles17 r) c (by cases c <;> decide)

/-- The same for PDF 2.0; numbered headings are block-level. -/
theorem C35_class_20 (r : StructRole2) (n : Bytes) (h : r.toName = some n) (c : StructRoleType2) :
    r.roleType = c ↔ n ∈ class20 c ∨ (c = .blockLevel ∧ (headingLevel n).isSome = true) := by
  have hc : c ∈ [StructRoleType2.document, .grouping, .blockLevel, .subBlockLevel, .genericInline, .rubyWarichu, .list,
      .table, .caption, .figure, .formula, .artifact] := by cases c <;> decide
  rcases role20_cases r with hr | ⟨l, p, q, rfl⟩
  · have key : ∀ r ∈ roles20, ∀ n ∈ r.toName, ∀ c ∈ [StructRoleType2.document, .grouping, .blockLevel, .subBlockLevel,
        .genericInline, .rubyWarichu, .list, .table, .caption, .figure, .formula, .artifact],
        r.roleType = c ↔ n ∈ class20 c ∨ (c = .blockLevel ∧ (headingLevel n).isSome = true) := by decide +kernel
    exact key r hr n (by simp [h]) c hc
  · have hl := (C35_heading_level _ n h l).mpr ⟨p, q, rfl⟩
    have hn : ∀ c, n ∉ class20 c := by
      intro c hm
      have : n ∈ types20 := by
        unfold types20
        rw [List.mem_flatMap]
        exact ⟨c, by cases c <;> decide, hm⟩
      rw [types20_not_heading n this] at hl
      exact absurd hl (by simp)
    simp only [hl, Option.isSome_some, and_true, hn c, false_or, StructRole2.roleType]
    exact eq_comm

/-! ## Mapping from PDF 2.0 to PDF 1.7 -/

theorem compat_heading_high (opts : RoleMapOpts) (l : Nat) (p : 1 ≤ l) (q : l < 65536) (h : 6 < l) :
    (StructRole2.heading l p q).compatibility17 opts = .roleMapping (if opts.mapHnToH6 then .h6 else .p) := by
  simp only [StructRole2.compatibility17]
  have h1 : l ≠ 1 := by omega
  have h2 : l ≠ 2 := by omega
  have h3 : l ≠ 3 := by omega
  have h4 : l ≠ 4 := by omega
  have h5 : l ≠ 5 := by omega
  have h6 : l ≠ 6 := by omega
  simp only [h1, h2, h3, h4, h5, h6, if_false]

/-- A role of PDF 2.0 is reported as directly compatible with a PDF 1.7 role exactly if both have the same name,
whatever the options: then a PDF 1.7 reader understands the written name as that role. Everything else needs a role
mapping. -/
theorem C35_compatible_iff_same_name (opts : RoleMapOpts) (r : StructRole2) (s : StructRole) :
    r.compatibility17 opts = .compatible s ↔ r.toName = some s.toName := by
  have all : ∀ o : RoleMapOpts, o ∈ [true, false].flatMap fun a => [true, false].flatMap fun b => [true, false].map fun c => RoleMapOpts.mk a b c := by
    intro ⟨a, b, c⟩; cases a <;> cases b <;> cases c <;> decide
  rcases role20_cases r with hr | ⟨l, p, q, rfl⟩
  · have key : ∀ o ∈ ([true, false].flatMap fun a => [true, false].flatMap fun b => [true, false].map fun c => RoleMapOpts.mk a b c),
        ∀ r ∈ roles20, ∀ s ∈ roles17, r.compatibility17 o = .compatible s ↔ r.toName = some s.toName := by decide +kernel
    exact key opts (all opts) r hr s (mem_roles17 s)
  · simp only [StructRole2.toName, headingName_eq l q, Option.some.injEq]
    by_cases h6 : l ≤ 6
    · have key : ∀ o ∈ ([true, false].flatMap fun a => [true, false].flatMap fun b => [true, false].map fun c => RoleMapOpts.mk a b c),
        ∀ l, l ≤ 6 → ∀ (p : 1 ≤ l) (q : l < 65536), ∀ s ∈ roles17,
          (StructRole2.heading l p q).compatibility17 o = .compatible s ↔ ch!"H" :: natBytes l = s.toName := by
        intro o ho l h6 p q
        obtain rfl | rfl | rfl | rfl | rfl | rfl : l = 1 ∨ l = 2 ∨ l = 3 ∨ l = 4 ∨ l = 5 ∨ l = 6 := by omega
        all_goals
          clear h6
          revert p q o
          decide +kernel
      exact key opts (all opts) l h6 p q s (mem_roles17 s)
    · have e : (StructRole2.heading l p q).compatibility17 opts = .roleMapping (if opts.mapHnToH6 then .h6 else .p) := by
        exact compat_heading_high opts l p q (by omega)
      rw [e]
      constructor
      · intro x; exact absurd x (by simp)
      · intro x
        have key : ∀ s ∈ roles17, ∀ l ∈ headingLevel s.toName, l ≤ 6 := by decide +kernel
        have h := headingLevel_natBytes l p
        rw [x] at h
        exact absurd (key s (mem_roles17 s) l (by simp [h])) h6

/-- The accessors of the result agree: exactly one of the direct match and the mapping is there, and it is the role. -/
theorem C35_compat_accessors (opts : RoleMapOpts) (r : StructRole2) :
    let c := r.compatibility17 opts
    (c.intoPdf17 = some c.role ∧ c.roleMapped17 = none ∧ r.toName = some c.role.toName) ∨
      (c.intoPdf17 = none ∧ c.roleMapped17 = some c.role ∧ ∀ s : StructRole, r.toName ≠ some s.toName) := by
  intro c
  rcases hc : c with s | s
  · left
    have := (C35_compatible_iff_same_name opts r s).mp hc
    exact ⟨rfl, rfl, this⟩
  · right
    refine ⟨rfl, rfl, fun t ht => ?_⟩
    have := (C35_compatible_iff_same_name opts r t).mpr ht
    rw [show r.compatibility17 opts = .roleMapping s from hc] at this
    exact absurd this (by simp)

/-- What a role without a PDF 1.7 namesake is mapped to, as documented for the options. -/
theorem C35_role_mapping (opts : RoleMapOpts) (r : StructRole2) :
    (r.compatibility17 opts).roleMapped17 =
      match r with
      | .heading level _ _ => if level ≤ 6 then none else some (if opts.mapHnToH6 then .h6 else .p)
      | .title => some (if opts.mapTitleToH1 then .h1 else .p)
      | .sub => some (if opts.mapSubToSpan then .span else .div)
      | .documentFragment | .aside => some .div
      | .feNote => some .note
      | .em | .strong => some .span
      | .artifact => some .priv
      | _ => none := by
  cases r
  case heading l p q =>
    by_cases h6 : l ≤ 6
    · obtain rfl | rfl | rfl | rfl | rfl | rfl : l = 1 ∨ l = 2 ∨ l = 3 ∨ l = 4 ∨ l = 5 ∨ l = 6 := by omega
      all_goals rfl
    · have e : (StructRole2.heading l p q).compatibility17 opts = .roleMapping (if opts.mapHnToH6 then .h6 else .p) := by
        exact compat_heading_high opts l p q (by omega)
      rw [e]
      simp only [StructRole2Compat.roleMapped17, if_neg h6]
  all_goals rfl

/-- With the default options none of the optional mappings is taken: headings beyond the sixth level and titles become paragraphs, and
sub-divisions become divisions. -/
theorem C35_default_mapping (r : StructRole2) (s : StructRole) (h : (r.compatibility17 RoleMapOpts.default).roleMapped17 = some s) :
    (∀ l p q, r = .heading l p q → s = .p) ∧ (r = .title → s = .p) ∧ (r = .sub → s = .div) := by
  rw [C35_role_mapping] at h
  refine ⟨?_, ?_, ?_⟩
  · rintro l p q rfl
    by_cases h6 : l ≤ 6
    · simp [h6] at h
    · simpa [h6, RoleMapOpts.default] using h.symm
  · rintro rfl; simpa [RoleMapOpts.default] using h.symm
  · rintro rfl; simpa [RoleMapOpts.default] using h.symm
example : ((StructRole2.heading 7 (by decide) (by decide)).compatibility17 RoleMapOpts.default).roleMapped17 = some .p := by decide

/-- A role mapping never maps a name to itself, so a role map built from it has no cycle: its target is a standard type,
its source is not. -/
theorem C35_mapping_not_circular (opts : RoleMapOpts) (r : StructRole2) (s : StructRole) (n : Bytes)
    (h : (r.compatibility17 opts).roleMapped17 = some s) (hn : r.toName = some n) :
    s.toName ∈ types17 ∧ n ∉ types17 := by
  refine ⟨(C35_names_17 _).mp ⟨s, rfl⟩, fun hm => ?_⟩
  obtain ⟨t, ht⟩ := (C35_names_17 n).mpr hm
  have := (C35_compatible_iff_same_name opts r t).mpr (by rw [hn, ht])
  rw [this] at h
  exact absurd h (by simp [StructRole2Compat.roleMapped17])

/-! ## Mapping from PDF 1.7 to PDF 2.0 -/

/-- A role of PDF 1.7 whose name is also a PDF 2.0 type becomes that type, with one exception. -/
theorem C35_into_20_same_name (r : StructRole) (s : StructRole2) (h : s.toName = some r.toName) (hrp : r ≠ .rp) :
    r.intoPdf20 = some s := by
  have hc := (C35_compatible_iff_same_name RoleMapOpts.default s r).mpr h
  have key : ∀ r ∈ roles17, r ≠ .rp → (∀ s ∈ roles20, s.compatibility17 RoleMapOpts.default = .compatible r → r.intoPdf20 = some s) := by
    decide +kernel
  rcases role20_cases s with hs | ⟨l, p, q, rfl⟩
  · exact key r (mem_roles17 r) hrp s hs hc
  · have h6 : l ≤ 6 := by
      by_cases h6 : l ≤ 6
      · exact h6
      · have := C35_role_mapping RoleMapOpts.default (.heading l p q)
        rw [hc] at this
        simp only [StructRole2Compat.roleMapped17, if_neg h6] at this
        exact absurd this (by simp)
    obtain rfl | rfl | rfl | rfl | rfl | rfl : l = 1 ∨ l = 2 ∨ l = 3 ∨ l = 4 ∨ l = 5 ∨ l = 6 := by omega
    all_goals
      simp only [StructRole2.compatibility17] at hc
      injection hc with hc
      subst hc
      rfl

/-- The exception is a defect of the code: the ruby punctuation role `RP`, which exists in PDF 2.0 under the same name,
is turned into the warichu punctuation role `WP`. -/
theorem C35_into_20_rp_defect :
    StructRole.rp.intoPdf20 = some .wp ∧ StructRole2.rp.toName = some StructRole.rp.toName ∧
      StructRole2.wp.toName ≠ some StructRole.rp.toName := by decide +kernel

/-- The PDF 1.7 roles without a counterpart, and those that become a type of another name. -/
theorem C35_into_20_others (r : StructRole) (h : ∀ s : StructRole2, s.toName ≠ some r.toName) :
    r.intoPdf20 =
      match r with
      | .quote => some .em
      | .note => some .feNote
      | .reference => some .link
      | .code => some .strong
      | _ => none := by
  cases r
  case h1 => exact (h (.heading 1 (by decide) (by decide)) (by decide +kernel)).elim
  case h2 => exact (h (.heading 2 (by decide) (by decide)) (by decide +kernel)).elim
  case h3 => exact (h (.heading 3 (by decide) (by decide)) (by decide +kernel)).elim
  case h4 => exact (h (.heading 4 (by decide) (by decide)) (by decide +kernel)).elim
  case h5 => exact (h (.heading 5 (by decide) (by decide)) (by decide +kernel)).elim
  case h6 => exact (h (.heading 6 (by decide) (by decide)) (by decide +kernel)).elim
  case document => exact absurd rfl (h .document)
  case part => exact absurd rfl (h .part)
  case sect => exact absurd rfl (h .sect)
  case div => exact absurd rfl (h .div)
  case caption => exact absurd rfl (h .caption)
  case nonStruct => exact absurd rfl (h .nonStruct)
  case p => exact absurd rfl (h .p)
  case structuredHeading => exact absurd rfl (h .structuredHeading)
  case l => exact absurd rfl (h .l)
  case li => exact absurd rfl (h .li)
  case lbl => exact absurd rfl (h .lbl)
  case lBody => exact absurd rfl (h .lBody)
  case table => exact absurd rfl (h .table)
  case tr => exact absurd rfl (h .tr)
  case th => exact absurd rfl (h .th)
  case td => exact absurd rfl (h .td)
  case tHead => exact absurd rfl (h .tHead)
  case tBody => exact absurd rfl (h .tBody)
  case tFoot => exact absurd rfl (h .tFoot)
  case span => exact absurd rfl (h .span)
  case link => exact absurd rfl (h .link)
  case annot => exact absurd rfl (h .annot)
  case ruby => exact absurd rfl (h .ruby)
  case warichu => exact absurd rfl (h .warichu)
  case rb => exact absurd rfl (h .rb)
  case rt => exact absurd rfl (h .rt)
  case rp => exact absurd rfl (h .rp)
  case wt => exact absurd rfl (h .wt)
  case wp => exact absurd rfl (h .wp)
  case figure => exact absurd rfl (h .figure)
  case formula => exact absurd rfl (h .formula)
  case form => exact absurd rfl (h .form)
  all_goals rfl

/-- Converting to PDF 1.7 and back is the identity wherever the first conversion succeeds, `RP` excepted. -/
theorem C35_round_trip_20 (r : StructRole2) (s : StructRole) (h : StructRole.tryFrom r = some s) (hrp : r ≠ .rp) :
    StructRole2.tryFrom s = some r := by
  have hn : r.toName = some s.toName := by
    apply (C35_compatible_iff_same_name RoleMapOpts.default r s).mp
    unfold StructRole.tryFrom at h
    cases e : r.compatibility17 RoleMapOpts.default with
    | compatible t => rw [e] at h; simp [StructRole2Compat.intoPdf17] at h; rw [h]
    | roleMapping t => rw [e] at h; simp [StructRole2Compat.intoPdf17] at h
  refine C35_into_20_same_name s r hn (fun e => hrp ?_)
  subst e
  exact C35_names_20_distinct _ _ (by rw [hn]; rfl)

/-- Converting to PDF 2.0 and back gives the same role wherever both versions share its name, `RP` excepted. -/
theorem C35_round_trip_17 (r : StructRole) (s : StructRole2) (h : StructRole2.tryFrom r = some s)
    (hn : s.toName = some r.toName) : StructRole.tryFrom s = some r := by
  have := (C35_compatible_iff_same_name RoleMapOpts.default s r).mpr hn
  unfold StructRole.tryFrom
  rw [this]
  rfl

/-! ## Examples -/

example : StructRole2.toName (.heading 65535 (by decide) (by decide)) = some b!"H65535" := by decide +kernel
example : headingLevel b!"H65535" = some 65535 := by decide +kernel
example : headingLevel b!"H07" = none := by decide +kernel
example : (StructRole2.heading 7 (by decide) (by decide)).compatibility17 ⟨true, false, false⟩ = .roleMapping .h6 := by decide
example : StructRole.tryFrom .title = none := by decide
example : StructRole2.tryFrom .h3 = some (.heading 3 (by decide) (by decide)) := by decide

end PdfW.Props
