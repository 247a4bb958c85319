/-
What the methods for clauses of queries do with the tokens, continued.  No definition here is part of the model.
-/
import Verif.Echo.Select

namespace Verif.Echo
open Verif.Spec Verif.Echo.Sym

set_option linter.unusedTactic false
set_option linter.unreachableTactic false
set_option linter.unusedSimpArgs false

set_option maxHeartbeats 1000000 in
theorem m_parseOrderExpr : Meth .parseOrderExpr := by
  method
  enter hr
  sym
  all_goals first
    | echo
    | (have hd := asc_only (by assumption) (by assumption); echo)
    | (have hd := desc_only (by assumption) (by assumption); echo)
theorem m_parseFillClause : Meth .parseFillClause := by auto
theorem m_tryParseLimitByClause : Meth .tryParseLimitByClause := by auto
theorem m_parseLimitByClause : Meth .parseLimitByClause := by auto
theorem m_tryParseLimitAfterLimitByClause : Meth .tryParseLimitAfterLimitByClause := by auto
theorem m_tryParseLimitClause : Meth .tryParseLimitClause := by auto
theorem m_parseLimitClause : Meth .parseLimitClause := by
  method
  enter hr
  sym
  all_goals try echo
  refine ⟨⟨by simp, fun hg => ?_⟩, rfl⟩
  plain hg
  obtain ⟨us, h1, h2⟩ := hv2.open hg.2.2
  obtain ⟨ws, h3, h4⟩ := hv6.open hg.2.1
  obtain ⟨t, ht, hk⟩ := tok_of_op c5
  refine ⟨_, ?_, Echo.limitOff h4 h2 hv6.ne hv2.ne⟩
  simpa using Reads.limit c1 h1 ht hk h3 .nil
theorem m_parseSettingsClause : Meth .parseSettingsClause := by auto
theorem m_parseSettingsExpr : Meth .parseSettingsExpr := by auto
theorem m_tryParseSettingsClause : Meth .tryParseSettingsClause := by auto
theorem m_tryParseFormat : Meth .tryParseFormat := by auto
theorem m_parseFormat : Meth .parseFormat := by auto
theorem m_parseRatioExpr : Meth .parseRatioExpr := by auto
theorem m_parseSampleClause : Meth .parseSampleClause := by auto
theorem m_tryParseSampleClause : Meth .tryParseSampleClause := by auto
theorem m_parseTableIdentifier : Meth .parseTableIdentifier := by
  method
  enter hr
  sym
  · refine ⟨_, _, rfl, by assumption, ?_⟩
    echo
  · refine ⟨_, _, rfl, hv1.ne, ?_⟩
    echo
theorem m_parseTableArgPrimaryExpr : Meth .parseTableArgPrimaryExpr := by auto
theorem m_parseTableArgExpr : Meth .parseTableArgExpr := by auto
theorem m_tryParseJoinConstraints : Meth .tryParseJoinConstraints := by
  method
  enter hr
  sym
  all_goals try echo
  refine Val.opt1 ⟨by simp, fun hg => ?_⟩
  plain hg
  obtain ⟨us, h1, h2⟩ := hv4.open hg.2
  obtain ⟨t, ht, hk⟩ := tok_of_op c3
  obtain ⟨t', ht', hk'⟩ := tok_of_op c6
  refine ⟨_, ?_, Echo.using_ h2⟩
  simpa using Reads.using_ c2 ht hk h1 ht' hk' .nil
theorem m_parseJoinTableExpr : Meth .parseJoinTableExpr := by
  method
  enter hr
  sym
  all_goals simp only [c5]
  · by_cases hn : v6 = .nil
    · subst hn; echo
    · exact ⟨⟨by simp, fun hg => by simp [V.plain, plainNode, nonNil_ne hn] at hg⟩, rfl⟩
  all_goals echo
theorem m_parseJoinExpr : Meth .parseJoinExpr := by
  method
  enter hr
  sym
  · refine ⟨?_, fun hg => ?_⟩
    · echo
    · openAll
      exact ⟨_, by assumption, .jtable hv1b (by assumption)⟩
  · refine ⟨?_, fun hg => ?_⟩
    · echo
    · plain hg
      obtain ⟨us, h1, h2⟩ := hv1.open hg.2.1
      obtain ⟨ws, h3, h4⟩ := hv3.open hg.2.2
      exact ⟨us ++ ws, h1.trans h3, by simpa using Echo.jcomma (p := a) h2 h4⟩
theorem m_parseCTEStmt : Meth .parseCTEStmt := by
  method
  enter hr
  sym
  all_goals try echo
  obtain ⟨m, h1, h2, rfl⟩ := hv5bb c4
  clear hv5
  echo
theorem m_parseSubQuery : Meth .parseSubQuery := by auto
theorem m_tryParsePartitionByClause : Meth .tryParsePartitionByClause := by auto
theorem m_canParseWindowNameInParens : Meth .canParseWindowNameInParens := by auto
theorem m_isSelectItemTerminatorKeyword : Meth .isSelectItemTerminatorKeyword := by auto
theorem m_matchClauseStarterKeyword : Meth .matchClauseStarterKeyword := by auto

end Verif.Echo
