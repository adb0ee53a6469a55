import Verif.Proof.Typed.Base

/-! # Tactics: a written value implies its meaning, by the shape of both -/

namespace PdfW
open Spec Props

/-- Closes `ItemImplied p P`. -/
syntax "leaf" : tactic
/-- Closes `Implied ItemImplied _ _` and `Implied EntryImplied _ _`. -/
syntax "implied" : tactic

set_option hygiene false in
macro_rules | `(tactic| leaf) => `(tactic| first
  | assumption
  | exact nest _
  | exact l_real _ | exact l_number _ | exact l_int rfl | exact l_bool _ | exact l_name rfl | exact l_str rfl | exact l_text _ | exact l_textLike _
  | exact l_ref _ | exact l_date _ | exact l_rect _ | exact l_prog _ | exact l_prim _ | exact l_rawDict _ | exact l_version _ _ | exact l_zoom _ | exact l_angle _
  | exact l_systemInfo _ | exact l_panose _ _ _ | exact l_optText _ | exact l_keyUsage _ | exact l_rgb _ | exact l_lineHeight _
  | exact l_glyphOrientation _ | exact l_owner _ _ | exact l_role17 _ | exact l_propCalls _
  | exact l_name (by simp) | exact l_int (by simp) | exact l_str (by simp)
  | (refine l_flags _ _ ?_ _; intro x; cases x <;> decide)
  | (refine l_sides (fun _ => by leaf) ?_ _; exact F32.eq_numIs)
  | (refine l_sides (fun _ => by leaf) ?_ _; exact Rgb.eq_isRgb)
  | (refine l_sides (fun _ => by leaf) ?_ _; intro x y v h hv; rw [← beq_iff_eq.mp h]; exact hv)
  | (refine l_array ?_; implied)
  | (refine l_dict ?_; implied))

macro_rules | `(tactic| implied) => `(tactic| first
  | exact Implied.nil
  | (refine Implied.cons (by leaf) ?_; implied)
  | (refine Implied.cons (entry_of (by first | rfl | simp) (by leaf)) ?_; implied)
  | (refine implied_items _ (fun _ => ?_); leaf)
  | (refine implied_entries _ (fun _ => ?_); exact entry_of rfl (by leaf))
  | (refine implied_flatMap _ (fun _ _ => ?_); implied)
  | (refine Implied.append ?_ ?_ <;> implied))

end PdfW
