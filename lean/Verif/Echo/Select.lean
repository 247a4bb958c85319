/-
What the methods for clauses of queries do with the tokens.  No definition here is part of the model.
-/
import Verif.Echo.Leaf

namespace Verif.Echo
open Verif.Spec Verif.Echo.Sym

set_option linter.unusedTactic false
set_option linter.unreachableTactic false
set_option linter.unusedSimpArgs false

theorem m_parseFunctionExpr : Meth .parseFunctionExpr := by auto
theorem m_parseIdentOrString : Meth .parseIdentOrString := by auto
theorem m_tryParseDotIdent : Meth .tryParseDotIdent := by auto
theorem m_tryParseDotIdentOrString : Meth .tryParseDotIdentOrString := by auto
theorem m_parseLiteral : Meth .parseLiteral := by auto
theorem m_ParseNestedIdentifier : Meth .ParseNestedIdentifier := by auto
theorem m_tryParseWithClause : Meth .tryParseWithClause := by
  method; enter hr; sym
  · exact ⟨.none, .inl rfl⟩
  · refine Ok2.of fun he => ⟨?_, .inr ?_⟩
    · specErr he
      echo
    · simp_all
theorem m_tryParseDistinctOn : Meth .tryParseDistinctOn := by auto
theorem m_tryParseTopClause : Meth .tryParseTopClause := by auto
theorem m_parseTopClause : Meth .parseTopClause := by auto
theorem m_tryParseFromClause : Meth .tryParseFromClause := by auto
theorem m_parseFromClause : Meth .parseFromClause := by auto
theorem m_tryParsePrewhereClause : Meth .tryParsePrewhereClause := by auto
theorem m_parsePrewhereClause : Meth .parsePrewhereClause := by auto
theorem m_tryParseWhereClause : Meth .tryParseWhereClause := by auto
theorem m_parseWhereClause : Meth .parseWhereClause := by auto
theorem m_tryParseHavingClause : Meth .tryParseHavingClause := by auto
theorem m_parseHavingClause : Meth .parseHavingClause := by auto
theorem m_tryParseGroupByClause : Meth .tryParseGroupByClause := by auto
theorem m_tryParseOrderByClause : Meth .tryParseOrderByClause := by auto
theorem m_parseDistinctOn : Meth .parseDistinctOn := by
  method; enter hr; sym
  loopInv 10 3 4 5 => (fun l1 _ _ x5 => Some1 l.advance.advance x5 l1) <;> echo
theorem m_parseWithClause : Meth .parseWithClause := by
  method; enter hr; sym
  loopInv 10 4 5 6 7 => (fun l1 x4 _ _ _ => Some1 l.advance x4 l1) <;> echo

end Verif.Echo
