/-
What the methods for lists in queries do with the tokens.  No definition here is part of the model.
-/
import Verif.Echo.Select

namespace Verif.Echo
open Verif.Spec Verif.Echo.Sym

set_option linter.unusedTactic false
set_option linter.unreachableTactic false
set_option linter.unusedSimpArgs false

theorem m_parseSettingsList : Meth .parseSettingsList := by
  method; enter hr; sym
  loopInv 10 1 2 3 4 => (fun l1 x1 _ _ _ => Some1 l x1 l1) <;> echo
theorem m_parseOrderByClause : Meth .parseOrderByClause := by
  method; enter hr; sym
  loopInv 10 2 3 4 5 6 => (fun l1 x2 _ _ _ _ => Items l x2 l1)
  all_goals first
    | echo
    | (rw [c13] at c14; cases c14)
theorem m_parseInterpolateClause : Meth .parseInterpolateClause := by
  method; enter hr; sym
  all_goals try echo
  all_goals loopInv 10 3 4 5 6 7 8 9 10 => (fun l1 x3 _ _ _ _ _ _ _ => Items l.advance x3 l1)
  all_goals try echo
  · have hx : Val l_10 (V.mk .InterpolateItem [v11, v14]) l14 := by echo
    have hx := hj10.item hx
    clear hj10 hv11 hv14
    echo
  · have hx : Val l_10 (V.mk .InterpolateItem [v11, .nil]) l11 := by echo
    have hx := hj10.item hx
    clear hj10 hv11
    echo
theorem m_parseSelectItems : Meth .parseSelectItems := by
  method; enter hr; sym
  loopInv 10 0 1 2 3 4 => (fun l1 x0 _ _ _ _ => Items l x0 l1 ∧ x0 ≠ .nil)
  all_goals first
    | exact Listed.of ((Items.next (hj10.item hv12) c14).done (hv15 rfl))
    | echo
    | exact hj10.listed hj10b (closes_nonNil c11b)
theorem m_parseSelectItem : Meth .parseSelectItem := by
  method; enter hr; sym
  loopInv 10 2 3 4 => (fun l2 x2 _ _ => Pre [.sp] l1 x2 l2)
  all_goals echo
theorem m_parseTableArgList : Meth .parseTableArgList := by
  method; enter hr; sym
  loopInv 10 2 3 4 5 6 7 8 9 10 11 12 13 14 => (fun l1 x2 _ _ _ _ _ _ _ _ _ _ _ _ => Items l.advance x2 l1)
  all_goals first
    | (refine ⟨by simp, fun hg => ?_⟩; simp [V.plain, V.plainL, plainL_append, plainNode] at hg; done)
    | echo

end Verif.Echo
