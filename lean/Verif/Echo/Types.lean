/-
What the methods for column types, window frames and the `WINDOW` clause do: here only that they keep the lexer in order, since these parts
are outside the class of statements the formatter writes back.  No definition here is part of the model.
-/
import Verif.Echo.Select

namespace Verif.Echo
open Verif.Spec Verif.Echo.Sym

set_option linter.unusedTactic false
set_option linter.unreachableTactic false
set_option linter.unusedSimpArgs false

theorem m_parseColumnType : Meth .parseColumnType := by
  method
  enter hr
  sym
  all_goals try echo
theorem m_parseColumnTypeArgs : Meth .parseColumnTypeArgs := by
  method
  enter hr
  sym
  all_goals try echo
theorem m_parseEnumValueExpr : Meth .parseEnumValueExpr := by
  method
  enter hr
  sym
  all_goals try echo
theorem m_parseFrameCurrentRow : Meth .parseFrameCurrentRow := by
  method
  enter hr
  sym
  all_goals try echo
theorem m_parseFrameDirection : Meth .parseFrameDirection := by
  method
  enter hr
  sym
  all_goals try echo
theorem m_parseFrameDirectionWithEnd : Meth .parseFrameDirectionWithEnd := by
  method
  enter hr
  sym
  all_goals try echo
theorem m_parseFrameExtent : Meth .parseFrameExtent := by
  method
  enter hr
  sym
  all_goals try echo
theorem m_parseFrameInterval : Meth .parseFrameInterval := by
  method
  enter hr
  sym
  all_goals try echo
theorem m_parseFrameNumber : Meth .parseFrameNumber := by
  method
  enter hr
  sym
  all_goals try echo
theorem m_parseFrameParam : Meth .parseFrameParam := by
  method
  enter hr
  sym
  all_goals try echo
theorem m_parseFrameUnbounded : Meth .parseFrameUnbounded := by
  method
  enter hr
  sym
  all_goals try echo
theorem m_parseJSONOption : Meth .parseJSONOption := by
  method
  enter hr
  sym
  all_goals try echo
theorem m_parseNestedType : Meth .parseNestedType := by
  method
  enter hr
  sym
  all_goals try echo
theorem m_parseNestedTypeFieldWithName : Meth .parseNestedTypeFieldWithName := by
  method
  enter hr
  sym
  all_goals try echo
theorem m_parseNestedTypeFields : Meth .parseNestedTypeFields := by
  method
  enter hr
  sym
  all_goals try echo
theorem m_parseWindowFrameClause : Meth .parseWindowFrameClause := by
  method
  enter hr
  sym
  all_goals try echo
theorem m_parseColumnTypeWithParams : Meth .parseColumnTypeWithParams := by
  method
  enter hr
  sym
  all_goals try (loopInv 10 2 5 6 7 8 => (fun _ _ _ _ _ _ => True))
  all_goals try echo
theorem m_parseComplexType : Meth .parseComplexType := by
  method
  enter hr
  sym
  all_goals try (loopInv 10 2 3 4 5 => (fun _ _ _ _ _ => True))
  all_goals try echo
theorem m_parseJSONPath : Meth .parseJSONPath := by
  method
  enter hr
  sym
  all_goals try (loopInv 10 0 3 4 5 6 => (fun _ _ _ _ _ _ => True))
  all_goals try echo
theorem m_parseJSONType : Meth .parseJSONType := by
  method
  enter hr
  sym
  all_goals try (loopInv 10 2 3 4 5 => (fun _ _ _ _ _ => True))
  all_goals try echo
theorem m_parseNestedTypeFieldsWithNames : Meth .parseNestedTypeFieldsWithNames := by
  method
  enter hr
  sym
  all_goals try (loopInv 10 1 5 6 7 => (fun _ _ _ _ _ => True))
  all_goals try echo
theorem m_parseNestedTypeFieldsWithoutNames : Meth .parseNestedTypeFieldsWithoutNames := by
  method
  enter hr
  sym
  all_goals try (loopInv 10 1 5 6 7 => (fun _ _ _ _ _ => True))
  all_goals try echo
theorem m_parseWindowClause : Meth .parseWindowClause := by
  method
  enter hr
  sym
  all_goals try (loopInv 10 2 3 4 5 6 7 8 => (fun _ _ _ _ _ _ _ _ => True))
  all_goals try echo
theorem m_parseEnumType : Meth .parseEnumType := by
  method
  enter hr
  sym
  loopInv 10 2 3 4 5 => (fun _ x2 _ _ _ => ∃ p q s e, x2 = .mk .EnumType [p, q, s, e] ∧ True)
  all_goals try echo

end Verif.Echo
