/-
The conditions of the analysis hold for each of the methods below, by evaluation in the kernel.
Written by tools/gencheck.py.
-/
import Verif.Analysis.Certificate
import Verif.Parser.Table

namespace Verif.An.Checks

theorem ok_parseIdent : check Cert.tables fnTable .parseIdent = true := by decide +kernel
theorem ok_tryParseDotIdentOrString : check Cert.tables fnTable .tryParseDotIdentOrString = true := by decide +kernel
theorem ok_tryParseIfExists : check Cert.tables fnTable .tryParseIfExists = true := by decide +kernel
theorem ok_parseDecimal : check Cert.tables fnTable .parseDecimal = true := by decide +kernel
theorem ok_ParseNestedIdentifier : check Cert.tables fnTable .ParseNestedIdentifier = true := by decide +kernel
theorem ok_tryParseWithClause : check Cert.tables fnTable .tryParseWithClause = true := by decide +kernel
theorem ok_tryParseDistinctOn : check Cert.tables fnTable .tryParseDistinctOn = true := by decide +kernel
theorem ok_tryParseJoinConstraints : check Cert.tables fnTable .tryParseJoinConstraints = true := by decide +kernel
theorem ok_peekJoinAfterLocality : check Cert.tables fnTable .peekJoinAfterLocality = true := by decide +kernel
theorem ok_tryParsePrewhereClause : check Cert.tables fnTable .tryParsePrewhereClause = true := by decide +kernel
theorem ok_tryParseGroupByClause : check Cert.tables fnTable .tryParseGroupByClause = true := by decide +kernel
theorem ok_parseLimitClause : check Cert.tables fnTable .parseLimitClause = true := by decide +kernel
theorem ok_tryParseWindowFrameClause : check Cert.tables fnTable .tryParseWindowFrameClause = true := by decide +kernel
theorem ok_parseFrameUnbounded : check Cert.tables fnTable .parseFrameUnbounded = true := by decide +kernel
theorem ok_parseFrameDirection : check Cert.tables fnTable .parseFrameDirection = true := by decide +kernel
theorem ok_canParseWindowNameInParens : check Cert.tables fnTable .canParseWindowNameInParens = true := by decide +kernel
theorem ok_parseSubQuery : check Cert.tables fnTable .parseSubQuery = true := by decide +kernel
theorem ok_parseSampleClause : check Cert.tables fnTable .parseSampleClause = true := by decide +kernel
theorem ok_parseInfix : check Cert.tables fnTable .parseInfix = true := by decide +kernel
theorem ok_parseTernaryExpr : check Cert.tables fnTable .parseTernaryExpr = true := by decide +kernel
theorem ok_peekTokenKind : check Cert.tables fnTable .peekTokenKind = true := by decide +kernel
theorem ok_peekIsEndOfStatement : check Cert.tables fnTable .peekIsEndOfStatement = true := by decide +kernel
theorem ok_parseColumnExpr : check Cert.tables fnTable .parseColumnExpr = true := by decide +kernel
theorem ok_parseColumnExprList : check Cert.tables fnTable .parseColumnExprList = true := by decide +kernel
theorem ok_parseFunctionExpr : check Cert.tables fnTable .parseFunctionExpr = true := by decide +kernel
theorem ok_parseKeywordArgFunctionParams : check Cert.tables fnTable .parseKeywordArgFunctionParams = true := by decide +kernel
theorem ok_parseArrayParams : check Cert.tables fnTable .parseArrayParams = true := by decide +kernel
theorem ok_parseColumnType : check Cert.tables fnTable .parseColumnType = true := by decide +kernel
theorem ok_parseEnumType : check Cert.tables fnTable .parseEnumType = true := by decide +kernel
theorem ok_parseJSONOption : check Cert.tables fnTable .parseJSONOption = true := by decide +kernel
theorem ok_parseNestedTypeFieldsWithNames : check Cert.tables fnTable .parseNestedTypeFieldsWithNames = true := by decide +kernel
theorem ok_parseEnumValueExpr : check Cert.tables fnTable .parseEnumValueExpr = true := by decide +kernel
theorem ok_parseCreateDatabase : check Cert.tables fnTable .parseCreateDatabase = true := by decide +kernel
theorem ok_parseCreateTable : check Cert.tables fnTable .parseCreateTable = true := by decide +kernel
theorem ok_parseTableColumns : check Cert.tables fnTable .parseTableColumns = true := by decide +kernel
theorem ok_parseTableArgPrimaryExpr : check Cert.tables fnTable .parseTableArgPrimaryExpr = true := by decide +kernel
theorem ok_tryParsePrimaryKeyClause : check Cert.tables fnTable .tryParsePrimaryKeyClause = true := by decide +kernel
theorem ok_parseOrderExpr : check Cert.tables fnTable .parseOrderExpr = true := by decide +kernel
theorem ok_parseTTLClause : check Cert.tables fnTable .parseTTLClause = true := by decide +kernel
theorem ok_tryParseSettingsClause : check Cert.tables fnTable .tryParseSettingsClause = true := by decide +kernel
theorem ok_parseDestinationClause : check Cert.tables fnTable .parseDestinationClause = true := by decide +kernel
theorem ok_ParseStmts : check Cert.tables fnTable .ParseStmts = true := by decide +kernel
theorem ok_parseTruncateTable : check Cert.tables fnTable .parseTruncateTable = true := by decide +kernel
theorem ok_parseAssignmentValues : check Cert.tables fnTable .parseAssignmentValues = true := by decide +kernel
theorem ok_parseCreateFunction : check Cert.tables fnTable .parseCreateFunction = true := by decide +kernel
theorem ok_parseDictionaryPrimaryKeyClause : check Cert.tables fnTable .parseDictionaryPrimaryKeyClause = true := by decide +kernel
theorem ok_parseDictionaryLifetimeClause : check Cert.tables fnTable .parseDictionaryLifetimeClause = true := by decide +kernel
theorem ok_parseSetStmt : check Cert.tables fnTable .parseSetStmt = true := by decide +kernel
theorem ok_parseSystemSyncExpr : check Cert.tables fnTable .parseSystemSyncExpr = true := by decide +kernel
theorem ok_parseDeduplicateClause : check Cert.tables fnTable .parseDeduplicateClause = true := by decide +kernel
theorem ok_parseRoleName : check Cert.tables fnTable .parseRoleName = true := by decide +kernel
theorem ok_parseCreateRole : check Cert.tables fnTable .parseCreateRole = true := by decide +kernel
theorem ok_parseGranteesClause : check Cert.tables fnTable .parseGranteesClause = true := by decide +kernel
theorem ok_parseDefaultClause : check Cert.tables fnTable .parseDefaultClause = true := by decide +kernel
theorem ok_parsePrivilegeSelectOrInsert : check Cert.tables fnTable .parsePrivilegeSelectOrInsert = true := by decide +kernel
theorem ok_parsePrivilegeShow : check Cert.tables fnTable .parsePrivilegeShow = true := by decide +kernel
theorem ok_parseGrantOptions : check Cert.tables fnTable .parseGrantOptions = true := by decide +kernel
theorem ok_parseAlterRole : check Cert.tables fnTable .parseAlterRole = true := by decide +kernel
theorem ok_parseAlterTableAddColumn : check Cert.tables fnTable .parseAlterTableAddColumn = true := by decide +kernel
theorem ok_parseTableProjection : check Cert.tables fnTable .parseTableProjection = true := by decide +kernel
theorem ok_parseAlterTableDetachPartition : check Cert.tables fnTable .parseAlterTableDetachPartition = true := by decide +kernel
theorem ok_parseAlterTableDropClause : check Cert.tables fnTable .parseAlterTableDropClause = true := by decide +kernel
theorem ok_parseAlterTableRemoveTTL : check Cert.tables fnTable .parseAlterTableRemoveTTL = true := by decide +kernel
theorem ok_parseAlterTableModify : check Cert.tables fnTable .parseAlterTableModify = true := by decide +kernel
theorem ok_parseAlterTableMaterialize : check Cert.tables fnTable .parseAlterTableMaterialize = true := by decide +kernel
theorem ok_parseUpdateAssignment : check Cert.tables fnTable .parseUpdateAssignment = true := by decide +kernel
theorem ok_parseCreateMaterializedView : check Cert.tables fnTable .parseCreateMaterializedView = true := by decide +kernel
theorem ok_tryParseWithTimeout : check Cert.tables fnTable .tryParseWithTimeout = true := by decide +kernel

end Verif.An.Checks
