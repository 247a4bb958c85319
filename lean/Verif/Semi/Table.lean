/-
No statement parser reads past a `;`: the check succeeds for all methods but `ParseStmts`.
-/
import Verif.Semi.Twin

namespace Verif.Semi

/-- The methods that must not be called at a `;`, and the ones that stay away from it. -/
def sig (f : Fn) : Sig where
  pre := [.parseFrameCurrentRow, .parseFrameUnbounded, .peekTokenKind, .peekKeyword, .peekIsEndOfStatement, .ParseStmts, .parseDefaultClause,
    .parsePrivilegeSelectOrInsert, .peekIsClauseStarterKeyword, .peekIsExpressionContinuation].contains f
  post := [.peekJoinAfterLocality, .canParseWindowNameInParens, .getNextPrecedence, .peekTokenKind, .peekKeyword, .matchClauseStarterKeyword,
    .peekIsClauseStarterKeyword, .peekIsEndOfStatement, .peekIsExpressionContinuation, .keywordIsSelectItemIdentifier,
    .isSelectItemTerminatorKeyword].contains f

/-- All methods pass the check. -/
theorem all_checked (f : Fn) (hf : f ≠ .ParseStmts) : checkFn sig f = true := by
  cases f <;> first | exact absurd rfl hf | decide +kernel

end Verif.Semi
