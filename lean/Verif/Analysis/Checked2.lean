/-
The conditions of the analysis hold for each of the methods below, by evaluation in the kernel.
Written by tools/gencheck.py.
-/
import Verif.Analysis.Certificate
import Verif.Parser.Table

namespace Verif.An.Checks

theorem ok_parseAnyKeyword : check Cert.tables fnTable .parseAnyKeyword = true := by decide +kernel
theorem ok_tryParseDotIdent : check Cert.tables fnTable .tryParseDotIdent = true := by decide +kernel
theorem ok_tryParseComment : check Cert.tables fnTable .tryParseComment = true := by decide +kernel
theorem ok_tryParseNotNull : check Cert.tables fnTable .tryParseNotNull = true := by decide +kernel
theorem ok_parseLiteral : check Cert.tables fnTable .parseLiteral = true := by decide +kernel
theorem ok_parseRatioExpr : check Cert.tables fnTable .parseRatioExpr = true := by decide +kernel
theorem ok_parseTopClause : check Cert.tables fnTable .parseTopClause = true := by decide +kernel
theorem ok_parseFromClause : check Cert.tables fnTable .parseFromClause = true := by decide +kernel
theorem ok_parseJoinModifiers : check Cert.tables fnTable .parseJoinModifiers = true := by decide +kernel
theorem ok_parseTableExpr : check Cert.tables fnTable .parseTableExpr = true := by decide +kernel
theorem ok_parseWhereClause : check Cert.tables fnTable .parseWhereClause = true := by decide +kernel
theorem ok_tryParseLimitClause : check Cert.tables fnTable .tryParseLimitClause = true := by decide +kernel
theorem ok_parseLimitByClause : check Cert.tables fnTable .parseLimitByClause = true := by decide +kernel
theorem ok_parseFrameCurrentRow : check Cert.tables fnTable .parseFrameCurrentRow = true := by decide +kernel
theorem ok_parseFrameInterval : check Cert.tables fnTable .parseFrameInterval = true := by decide +kernel
theorem ok_parseWindowCondition : check Cert.tables fnTable .parseWindowCondition = true := by decide +kernel
theorem ok_parseHavingClause : check Cert.tables fnTable .parseHavingClause = true := by decide +kernel
theorem ok_tryParseSampleClause : check Cert.tables fnTable .tryParseSampleClause = true := by decide +kernel
theorem ok_getNextPrecedence : check Cert.tables fnTable .getNextPrecedence = true := by decide +kernel
theorem ok_parseInfixLoop : check Cert.tables fnTable .parseInfixLoop = true := by decide +kernel
theorem ok_parseUnaryExpr : check Cert.tables fnTable .parseUnaryExpr = true := by decide +kernel
theorem ok_peekIsClauseStarterKeyword : check Cert.tables fnTable .peekIsClauseStarterKeyword = true := by decide +kernel
theorem ok_isSelectItemTerminatorKeyword : check Cert.tables fnTable .isSelectItemTerminatorKeyword = true := by decide +kernel
theorem ok_parseColumnExprListWithSquareBracket : check Cert.tables fnTable .parseColumnExprListWithSquareBracket = true := by decide +kernel
theorem ok_parseInterval : check Cert.tables fnTable .parseInterval = true := by decide +kernel
theorem ok_parseKeywordArgModifier : check Cert.tables fnTable .parseKeywordArgModifier = true := by decide +kernel
theorem ok_parseQueryParam : check Cert.tables fnTable .parseQueryParam = true := by decide +kernel
theorem ok_parseColumnCaseExpr : check Cert.tables fnTable .parseColumnCaseExpr = true := by decide +kernel
theorem ok_parseComplexType : check Cert.tables fnTable .parseComplexType = true := by decide +kernel
theorem ok_parseJSONMaxDynamicOptions : check Cert.tables fnTable .parseJSONMaxDynamicOptions = true := by decide +kernel
theorem ok_parseNestedTypeFields : check Cert.tables fnTable .parseNestedTypeFields = true := by decide +kernel
theorem ok_tryParseCompressionCodecs : check Cert.tables fnTable .tryParseCompressionCodecs = true := by decide +kernel
theorem ok_parseDDL : check Cert.tables fnTable .parseDDL = true := by decide +kernel
theorem ok_parseNamedCollectionParam : check Cert.tables fnTable .parseNamedCollectionParam = true := by decide +kernel
theorem ok_parseTableSchemaClause : check Cert.tables fnTable .parseTableSchemaClause = true := by decide +kernel
theorem ok_parseTableArgExpr : check Cert.tables fnTable .parseTableArgExpr = true := by decide +kernel
theorem ok_tryParsePartitionByClause : check Cert.tables fnTable .tryParsePartitionByClause = true := by decide +kernel
theorem ok_parseOrderByClause : check Cert.tables fnTable .parseOrderByClause = true := by decide +kernel
theorem ok_tryParseTTLClause : check Cert.tables fnTable .tryParseTTLClause = true := by decide +kernel
theorem ok_tryParseSampleByClause : check Cert.tables fnTable .tryParseSampleByClause = true := by decide +kernel
theorem ok_parseSettingsExpr : check Cert.tables fnTable .parseSettingsExpr = true := by decide +kernel
theorem ok_parseStmt : check Cert.tables fnTable .parseStmt = true := by decide +kernel
theorem ok_parseDescribeStmt : check Cert.tables fnTable .parseDescribeStmt = true := by decide +kernel
theorem ok_parseTypedPlaceholder : check Cert.tables fnTable .parseTypedPlaceholder = true := by decide +kernel
theorem ok_parseTargetPair : check Cert.tables fnTable .parseTargetPair = true := by decide +kernel
theorem ok_parseDictionaryEngineClause : check Cert.tables fnTable .parseDictionaryEngineClause = true := by decide +kernel
theorem ok_parseDictionaryArgExpr : check Cert.tables fnTable .parseDictionaryArgExpr = true := by decide +kernel
theorem ok_parseDictionarySettingsClause : check Cert.tables fnTable .parseDictionarySettingsClause = true := by decide +kernel
theorem ok_parseSystemReloadExpr : check Cert.tables fnTable .parseSystemReloadExpr = true := by decide +kernel
theorem ok_tryParseDeduplicateClause : check Cert.tables fnTable .tryParseDeduplicateClause = true := by decide +kernel
theorem ok_parseCheckStmt : check Cert.tables fnTable .parseCheckStmt = true := by decide +kernel
theorem ok_parseRoleSettings : check Cert.tables fnTable .parseRoleSettings = true := by decide +kernel
theorem ok_parseDefaultRoleClause : check Cert.tables fnTable .parseDefaultRoleClause = true := by decide +kernel
theorem ok_parseHostClauses : check Cert.tables fnTable .parseHostClauses = true := by decide +kernel
theorem ok_parserDropUserOrRole : check Cert.tables fnTable .parserDropUserOrRole = true := by decide +kernel
theorem ok_parsePrivilegeDrop : check Cert.tables fnTable .parsePrivilegeDrop = true := by decide +kernel
theorem ok_parsePrivilegeRoles : check Cert.tables fnTable .parsePrivilegeRoles = true := by decide +kernel
theorem ok_parseGrantPrivilegeStmt : check Cert.tables fnTable .parseGrantPrivilegeStmt = true := by decide +kernel
theorem ok_parseAlterTableAdd : check Cert.tables fnTable .parseAlterTableAdd = true := by decide +kernel
theorem ok_parseProjectionSelect : check Cert.tables fnTable .parseProjectionSelect = true := by decide +kernel
theorem ok_parseAlterTableDrop : check Cert.tables fnTable .parseAlterTableDrop = true := by decide +kernel
theorem ok_parseAlterTableAttachPartition : check Cert.tables fnTable .parseAlterTableAttachPartition = true := by decide +kernel
theorem ok_parseAlterTableFreezePartition : check Cert.tables fnTable .parseAlterTableFreezePartition = true := by decide +kernel
theorem ok_parseAlterTableRenameColumn : check Cert.tables fnTable .parseAlterTableRenameColumn = true := by decide +kernel
theorem ok_parseAlterTableReplacePartition : check Cert.tables fnTable .parseAlterTableReplacePartition = true := by decide +kernel
theorem ok_parseAlterTableUpdate : check Cert.tables fnTable .parseAlterTableUpdate = true := by decide +kernel
theorem ok_tryParseModifier : check Cert.tables fnTable .tryParseModifier = true := by decide +kernel
theorem ok_parseCreateLiveView : check Cert.tables fnTable .parseCreateLiveView = true := by decide +kernel

end Verif.An.Checks
