/-
The conditions of the analysis hold for each of the methods below, by evaluation in the kernel.
Written by tools/gencheck.py.
-/
import Verif.Analysis.Certificate
import Verif.Parser.Table

namespace Verif.An.Checks

theorem ok_parseIdentOrStar : check Cert.tables fnTable .parseIdentOrStar = true := by decide +kernel
theorem ok_parseUUID : check Cert.tables fnTable .parseUUID = true := by decide +kernel
theorem ok_tryParseIfNotExists : check Cert.tables fnTable .tryParseIfNotExists = true := by decide +kernel
theorem ok_parseNumber : check Cert.tables fnTable .parseNumber = true := by decide +kernel
theorem ok_tryParseFormat : check Cert.tables fnTable .tryParseFormat = true := by decide +kernel
theorem ok_parseWithClause : check Cert.tables fnTable .parseWithClause = true := by decide +kernel
theorem ok_parseDistinctOn : check Cert.tables fnTable .parseDistinctOn = true := by decide +kernel
theorem ok_parseJoinType : check Cert.tables fnTable .parseJoinType = true := by decide +kernel
theorem ok_parseJoinRightExpr : check Cert.tables fnTable .parseJoinRightExpr = true := by decide +kernel
theorem ok_parsePrewhereClause : check Cert.tables fnTable .parsePrewhereClause = true := by decide +kernel
theorem ok_parseGroupByClause : check Cert.tables fnTable .parseGroupByClause = true := by decide +kernel
theorem ok_tryParseLimitByClause : check Cert.tables fnTable .tryParseLimitByClause = true := by decide +kernel
theorem ok_parseWindowFrameClause : check Cert.tables fnTable .parseWindowFrameClause = true := by decide +kernel
theorem ok_parseFrameNumber : check Cert.tables fnTable .parseFrameNumber = true := by decide +kernel
theorem ok_parseFrameDirectionWithEnd : check Cert.tables fnTable .parseFrameDirectionWithEnd = true := by decide +kernel
theorem ok_parseWindowClause : check Cert.tables fnTable .parseWindowClause = true := by decide +kernel
theorem ok_parseSelectQuery : check Cert.tables fnTable .parseSelectQuery = true := by decide +kernel
theorem ok_parseExplainStmt : check Cert.tables fnTable .parseExplainStmt = true := by decide +kernel
theorem ok_parseExpr : check Cert.tables fnTable .parseExpr = true := by decide +kernel
theorem ok_parseExtractFrom : check Cert.tables fnTable .parseExtractFrom = true := by decide +kernel
theorem ok_peekKeyword : check Cert.tables fnTable .peekKeyword = true := by decide +kernel
theorem ok_peekIsExpressionContinuation : check Cert.tables fnTable .peekIsExpressionContinuation = true := by decide +kernel
theorem ok_parseColumnCastExpr : check Cert.tables fnTable .parseColumnCastExpr = true := by decide +kernel
theorem ok_parseColumnExprListWithTerm : check Cert.tables fnTable .parseColumnExprListWithTerm = true := by decide +kernel
theorem ok_parseColumnArgList : check Cert.tables fnTable .parseColumnArgList = true := by decide +kernel
theorem ok_parseFunctionParams : check Cert.tables fnTable .parseFunctionParams = true := by decide +kernel
theorem ok_parseColumnsExpr : check Cert.tables fnTable .parseColumnsExpr = true := by decide +kernel
theorem ok_parseColumnTypeArgs : check Cert.tables fnTable .parseColumnTypeArgs = true := by decide +kernel
theorem ok_parseColumnTypeWithParams : check Cert.tables fnTable .parseColumnTypeWithParams = true := by decide +kernel
theorem ok_parseJSONType : check Cert.tables fnTable .parseJSONType = true := by decide +kernel
theorem ok_parseNestedTypeFieldsWithoutNames : check Cert.tables fnTable .parseNestedTypeFieldsWithoutNames = true := by decide +kernel
theorem ok_parseColumnStar : check Cert.tables fnTable .parseColumnStar = true := by decide +kernel
theorem ok_parseCreateDictionary : check Cert.tables fnTable .parseCreateDictionary = true := by decide +kernel
theorem ok_parseIdentOrFunction : check Cert.tables fnTable .parseIdentOrFunction = true := by decide +kernel
theorem ok_tryParseTableColumnExpr : check Cert.tables fnTable .tryParseTableColumnExpr = true := by decide +kernel
theorem ok_parseTableArgList : check Cert.tables fnTable .parseTableArgList = true := by decide +kernel
theorem ok_tryParseOrderByClause : check Cert.tables fnTable .tryParseOrderByClause = true := by decide +kernel
theorem ok_parseFillClause : check Cert.tables fnTable .parseFillClause = true := by decide +kernel
theorem ok_tryParseTTLPolicy : check Cert.tables fnTable .tryParseTTLPolicy = true := by decide +kernel
theorem ok_parseSettingsClause : check Cert.tables fnTable .parseSettingsClause = true := by decide +kernel
theorem ok_tryParseEngineExpr : check Cert.tables fnTable .tryParseEngineExpr = true := by decide +kernel
theorem ok_parseUseStmt : check Cert.tables fnTable .parseUseStmt = true := by decide +kernel
theorem ok_parseDeleteClause : check Cert.tables fnTable .parseDeleteClause = true := by decide +kernel
theorem ok_parseInsertStmt : check Cert.tables fnTable .parseInsertStmt = true := by decide +kernel
theorem ok_parseDictionarySchemaClause : check Cert.tables fnTable .parseDictionarySchemaClause = true := by decide +kernel
theorem ok_parseDictionarySourceClause : check Cert.tables fnTable .parseDictionarySourceClause = true := by decide +kernel
theorem ok_parseDictionaryLayoutClause : check Cert.tables fnTable .parseDictionaryLayoutClause = true := by decide +kernel
theorem ok_parseSettingsStmt : check Cert.tables fnTable .parseSettingsStmt = true := by decide +kernel
theorem ok_parseSystemCtrlExpr : check Cert.tables fnTable .parseSystemCtrlExpr = true := by decide +kernel
theorem ok_parseOptimizeStmt : check Cert.tables fnTable .parseOptimizeStmt = true := by decide +kernel
theorem ok_tryParseRoleSettings : check Cert.tables fnTable .tryParseRoleSettings = true := by decide +kernel
theorem ok_parseAuthenticationClause : check Cert.tables fnTable .parseAuthenticationClause = true := by decide +kernel
theorem ok_parseCreateUserModifiers : check Cert.tables fnTable .parseCreateUserModifiers = true := by decide +kernel
theorem ok_parseOptionalClauses : check Cert.tables fnTable .parseOptionalClauses = true := by decide +kernel
theorem ok_parsePrivilegeAlter : check Cert.tables fnTable .parsePrivilegeAlter = true := by decide +kernel
theorem ok_parsePrivilegeSystem : check Cert.tables fnTable .parsePrivilegeSystem = true := by decide +kernel
theorem ok_parseGrantOption : check Cert.tables fnTable .parseGrantOption = true := by decide +kernel
theorem ok_parseRoleRenamePair : check Cert.tables fnTable .parseRoleRenamePair = true := by decide +kernel
theorem ok_parseAlterTableAddIndex : check Cert.tables fnTable .parseAlterTableAddIndex = true := by decide +kernel
theorem ok_parseAlterTableAddProjection : check Cert.tables fnTable .parseAlterTableAddProjection = true := by decide +kernel
theorem ok_tryParsePartitionClause : check Cert.tables fnTable .tryParsePartitionClause = true := by decide +kernel
theorem ok_tryParseAfterClause : check Cert.tables fnTable .tryParseAfterClause = true := by decide +kernel
theorem ok_parseAlterTableClear : check Cert.tables fnTable .parseAlterTableClear = true := by decide +kernel
theorem ok_parseAlterTableModifyColumn : check Cert.tables fnTable .parseAlterTableModifyColumn = true := by decide +kernel
theorem ok_parseAlterTableReset : check Cert.tables fnTable .parseAlterTableReset = true := by decide +kernel
theorem ok_parseDropDatabase : check Cert.tables fnTable .parseDropDatabase = true := by decide +kernel
theorem ok_tryParseRefreshExpr : check Cert.tables fnTable .tryParseRefreshExpr = true := by decide +kernel

end Verif.An.Checks
