import Verif.Proof.Typed.Maps
import Verif.Proof.Typed.Sample

/-!
# C38 to C41, C47: widths, differences, trees, flags, rectangles
-/

set_option linter.unusedSimpArgs false
set_option linter.unusedVariables false

namespace PdfW.Props
open PdfW PdfW.Spec

/-- C38: a reader of the `W` array obtains, for every sequence of calls, exactly the CIDs of the calls with exactly their
widths. -/
theorem C38_cid_widths (calls : List WidthsCall) (ht : ∀ c ∈ calls, c.typed) (hok : Ok (Widths.prog calls)) :
    WrittenAs (Widths.prog calls) (GivesWidths (calls.flatMap widthsGiven)) := by
  refine WrittenAs.imp (writtenAs_of hok (widths_denotes calls)) ?_
  rintro v ⟨items, rfl, h⟩
  obtain ⟨as, h1, h2⟩ := gives_widths calls ht h
  exact ⟨items, as, rfl, h1, h2⟩

example : (∀ c ∈ [WidthsCall.consecutive 3 [one, two], .same 5 7 one], c.typed) ∧
    Ok (Widths.prog [.consecutive 3 [one, two], .same 5 7 one]) ∧
    [WidthsCall.consecutive 3 [one, two], .same 5 7 one].flatMap widthsGiven = [(3, one), (4, two), (5, one), (6, one), (7, one)] ∧
    compactOut (Widths.prog [.consecutive 3 [one, two], .same 5 7 one]) = b!"[3[1 2]5 7 1]" := by
  refine ⟨by simp [WidthsCall.typed], okB_sound _ (by decide +kernel), by decide +kernel, by decide +kernel⟩

/-- C38: a range with its bounds in the wrong order gives no widths. -/
theorem C38_empty_range (first last : UInt16) (w : F32) (h : last < first) : widthsGiven (.same first last w) = [] := by
  have : last.toNat < first.toNat := h
  have e : last.toNat + 1 - first.toNat = 0 := by omega
  simp [widthsGiven, e, sameFrom]

/-- C39: a reader of the `Differences` array obtains exactly the codes of the calls with exactly their names. -/
theorem C39_differences (calls : List DifferencesCall) (ht : ∀ c ∈ calls, c.typed) (hok : Ok (Differences.prog calls)) :
    WrittenAs (Differences.prog calls) (GivesNames (calls.flatMap differencesGiven)) := by
  refine WrittenAs.imp (writtenAs_of hok (differences_denotes calls)) ?_
  rintro v ⟨items, rfl, h⟩
  exact ⟨items, rfl, gives_names calls ht h none⟩

example : (∀ c ∈ [DifferencesCall.consecutive 39 [b!"quotesingle"], .consecutive 96 [b!"grave", b!"a"]], c.typed) ∧
    Ok (Differences.prog [.consecutive 39 [b!"quotesingle"], .consecutive 96 [b!"grave", b!"a"]]) ∧
    compactOut (Differences.prog [.consecutive 39 [b!"quotesingle"], .consecutive 96 [b!"grave", b!"a"]]) = b!"[39/quotesingle 96/grave/a]" := by
  refine ⟨by simp [DifferencesCall.typed], okB_sound _ (by decide +kernel), by decide +kernel⟩

/-- C40: a reader of a name tree node obtains exactly the inserted pairs in order, whatever else was written to the node. -/
theorem C40_name_tree (calls : List NameTreeCall) (entries : List (Bytes × Prim)) (ho : onlyNames calls entries)
    (hok : Ok (NameTree.prog calls)) : WrittenAs (NameTree.prog calls) (HasNames entries) := by
  refine WrittenAs.imp (writtenAs_of hok (nameTree_denotes .code calls (Or.inl rfl))) ?_
  rintro v ⟨es, rfl, h⟩
  obtain ⟨items, h1, h2⟩ := getKey_names ho h
  obtain ⟨ps, h3, h4⟩ := readNames_of h2
  exact ⟨es, items, ps, rfl, h1, h3, h4⟩

example : onlyNames [.limits b!"a" b!"b", .names [(b!"a", .int 1), (b!"b", .bool true)]] [(b!"a", .int 1), (b!"b", .bool true)] ∧
    Ok (NameTree.prog [.limits b!"a" b!"b", .names [(b!"a", .int 1), (b!"b", .bool true)]]) ∧
    compactOut (NameTree.prog [.limits b!"a" b!"b", .names [(b!"a", .int 1), (b!"b", .bool true)]]) =
      b!"<</Limits[/a/b]/Names[(a)1(b)true]>>" := by
  refine ⟨⟨rfl, by simp⟩, okB_sound _ (by decide +kernel), by decide +kernel⟩

/-- C40: the same for number trees. -/
theorem C40_number_tree (calls : List NumberTreeCall) (entries : List (Int × Prim)) (ho : onlyNums calls entries)
    (hok : Ok (NumberTree.prog calls)) : WrittenAs (NumberTree.prog calls) (HasNums entries) := by
  refine WrittenAs.imp (writtenAs_of hok (numberTree_denotes calls)) ?_
  rintro v ⟨es, rfl, h⟩
  obtain ⟨items, h1, h2⟩ := getKey_nums ho h
  obtain ⟨ps, h3, h4⟩ := readNums_of h2
  exact ⟨es, items, ps, rfl, h1, h3, h4⟩

example : onlyNums [.nums [(3, .int 1), (-4, .name b!"x")], .limits (-4) 3] [(3, .int 1), (-4, .name b!"x")] ∧
    Ok (NumberTree.prog [.nums [(3, .int 1), (-4, .name b!"x")], .limits (-4) 3]) ∧
    compactOut (NumberTree.prog [.nums [(3, .int 1), (-4, .name b!"x")], .limits (-4) 3]) =
      b!"<</Nums[3 1 -4/x]/Limits[-4 3]>>" := by
  refine ⟨⟨rfl, by simp⟩, okB_sound _ (by decide +kernel), by decide +kernel⟩

/-- C41: a set of `FormActionFlags` is written as the integer with exactly the standard's bits set, from which the set can be told. -/
theorem C41_form_action_flags (l : List FormActionFlag) : WrittenAs (pFlags (l.map FormActionFlag.bits)) (HasFlags isoFormActionFlag l) :=
  hasFlags FormActionFlag.bits isoFormActionFlag (by intro x; cases x <;> decide) (by intro x y; cases x <;> cases y <;> decide) l

/-- C41: a set of `AnnotationFlags` is written as the integer with exactly the standard's bits set, from which the set can be told. -/
theorem C41_annotation_flags (l : List AnnotationFlag) : WrittenAs (pFlags (l.map AnnotationFlag.bits)) (HasFlags isoAnnotationFlag l) :=
  hasFlags AnnotationFlag.bits isoAnnotationFlag (by intro x; cases x <;> decide) (by intro x y; cases x <;> cases y <;> decide) l

/-- C41: a set of `FontFlags` is written as the integer with exactly the standard's bits set, from which the set can be told. -/
theorem C41_font_flags (l : List FontFlag) : WrittenAs (pFlags (l.map FontFlag.bits)) (HasFlags isoFontFlag l) :=
  hasFlags FontFlag.bits isoFontFlag (by intro x; cases x <;> decide) (by intro x y; cases x <;> cases y <;> decide) l

/-- C41: a set of `SigFlags` is written as the integer with exactly the standard's bits set, from which the set can be told. -/
theorem C41_sig_flags (l : List SigFlag) : WrittenAs (pFlags (l.map SigFlag.bits)) (HasFlags isoSigFlag l) :=
  hasFlags SigFlag.bits isoSigFlag (by intro x; cases x <;> decide) (by intro x y; cases x <;> cases y <;> decide) l

/-- C41: a set of `SignatureSeedValueFlags` is written as the integer with exactly the standard's bits set, from which the set can be told. -/
theorem C41_signature_seed_value_flags (l : List SignatureSeedValueFlag) : WrittenAs (pFlags (l.map SignatureSeedValueFlag.bits)) (HasFlags isoSignatureSeedValueFlag l) :=
  hasFlags SignatureSeedValueFlag.bits isoSignatureSeedValueFlag (by intro x; cases x <;> decide) (by intro x y; cases x <;> cases y <;> decide) l

/-- C41: a set of `CertificateSeedValueFlags` is written as the integer with exactly the standard's bits set, from which the set can be told. -/
theorem C41_certificate_seed_value_flags (l : List CertificateSeedValueFlag) : WrittenAs (pFlags (l.map CertificateSeedValueFlag.bits)) (HasFlags isoCertificateSeedValueFlag l) :=
  hasFlags CertificateSeedValueFlag.bits isoCertificateSeedValueFlag (by intro x; cases x <;> decide) (by intro x y; cases x <;> cases y <;> decide) l

/-- C41: a set of `OutlineItemFlags` is written as the integer with exactly the standard's bits set, from which the set can be told. -/
theorem C41_outline_item_flags (l : List OutlineItemFlag) : WrittenAs (pFlags (l.map OutlineItemFlag.bits)) (HasFlags isoOutlineItemFlag l) :=
  hasFlags OutlineItemFlag.bits isoOutlineItemFlag (by intro x; cases x <;> decide) (by intro x y; cases x <;> cases y <;> decide) l

/-- C41: field flags. The standard gives `RICH_TEXT` and `RADIOS_IN_UNISON` the same bit (they are for different field types). -/
theorem C41_field_flags (l : List FieldFlag) : WrittenAs (pFlags (l.map FieldFlag.bits)) (FlagsAre (l.map isoFieldFlag)) :=
  have h : ∀ x, 1 ≤ isoFieldFlag x ∧ isoFieldFlag x ≤ 31 ∧ FieldFlag.bits x = 2 ^ (isoFieldFlag x - 1) := by
    intro x; cases x <;> decide
  writtenAs_of (ok_pFlags FieldFlag.bits isoFieldFlag h l) (l_flags FieldFlag.bits isoFieldFlag h l)

/-- C41: apart from that pair, field flags have different bits. -/
theorem C41_field_flags_distinct (x y : FieldFlag) (h : isoFieldFlag x = isoFieldFlag y) :
    x = y ∨ (x = .radiosInUnison ∧ y = .richText) ∨ (x = .richText ∧ y = .radiosInUnison) := by
  revert h; cases x <;> cases y <;> decide

example : compactOut (pFlags ([FieldFlag.readOnly, .edit, .combo].map FieldFlag.bits)) = b!"393217" := by decide +kernel

/-- The corners of a rectangle as the quadrilateral of `Rect::to_quad_points`. -/
def quadCorners (r : Rect) : List (F32 × F32) :=
  match r.toQuadPoints with
  | [a, b, c, d, e, f, g, h] => [(a, b), (c, d), (e, f), (g, h)]
  | _ => []

/-- C47: `to_quad_points` lists each corner of the rectangle once; for a rectangle given by its lower-left and upper-right
corners (of finite coordinates) it goes around it counterclockwise: every three consecutive corners turn to the left. -/
theorem C47_quad_points (r : Rect) :
    ∃ a b c d, quadCorners r = [a, b, c, d] ∧
      (∀ p, p ∈ [a, b, c, d] ↔ (p.1 = r.x1 ∨ p.1 = r.x2) ∧ (p.2 = r.y1 ∨ p.2 = r.y2)) ∧
      (r.x1.sval < r.x2.sval → r.y1.sval < r.y2.sval →
        let q (p : F32 × F32) : Int × Int := (p.1.sval, p.2.sval)
        0 < turn (q a) (q b) (q c) ∧ 0 < turn (q b) (q c) (q d) ∧ 0 < turn (q c) (q d) (q a) ∧ 0 < turn (q d) (q a) (q b)) := by
  refine ⟨(r.x1, r.y1), (r.x2, r.y1), (r.x2, r.y2), (r.x1, r.y2), rfl, ?_, ?_⟩
  · rintro ⟨x, y⟩
    simp only [List.mem_cons, List.not_mem_nil, Prod.mk.injEq, or_false]
    constructor
    · rintro (⟨rfl, rfl⟩ | ⟨rfl, rfl⟩ | ⟨rfl, rfl⟩ | ⟨rfl, rfl⟩) <;> simp
    · rintro ⟨rfl | rfl, rfl | rfl⟩ <;> simp
  · intro hx hy
    simp only [turn, Int.sub_self, Int.zero_mul, Int.mul_zero]
    generalize r.x1.sval = x1 at *
    generalize r.x2.sval = x2 at *
    generalize r.y1.sval = y1 at *
    generalize r.y2.sval = y2 at *
    have h : 0 < (x2 - x1) * (y2 - y1) := Int.mul_pos (by omega) (by omega)
    have h2 : 0 < (y2 - y1) * (x2 - x1) := Int.mul_pos (by omega) (by omega)
    have n1 : (x1 - x2) * (y1 - y2) = (x2 - x1) * (y2 - y1) := by
      rw [← Int.neg_sub x2 x1, ← Int.neg_sub y2 y1, Int.neg_mul_neg]
    have n2 : (y2 - y1) * (x1 - x2) = -((y2 - y1) * (x2 - x1)) := by rw [← Int.neg_sub x2 x1, Int.mul_neg]
    have n3 : (y1 - y2) * (x2 - x1) = -((y2 - y1) * (x2 - x1)) := by rw [← Int.neg_sub y2 y1, Int.neg_mul]
    refine ⟨?_, ?_, ?_, ?_⟩ <;> omega

/-- C47: a rectangle is written as an array of its four coordinates in the order of the standard (7.9.5). -/
theorem C47_rect (r : Rect) (hok : Ok (pRect r)) : WrittenAs (pRect r) (IsRect r) := writtenAs_of hok (l_rect r)

example : Ok (pRect ⟨F32.zero, one, two, two⟩) ∧ compactOut (pRect ⟨F32.zero, one, two, two⟩) = b!"[0 1 2 2]" :=
  ⟨okB_sound _ (by decide +kernel), by decide +kernel⟩

end PdfW.Props
