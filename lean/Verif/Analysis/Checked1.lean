/-
The conditions of the analysis hold for each of the methods below, by evaluation in the kernel.
Written by tools/gencheck.py.
-/
import Verif.Analysis.Certificate
import Verif.Parser.Table

namespace Verif.An.Checks

theorem ok_tryParseIdent : check Cert.tables fnTable .tryParseIdent = true := by decide +kernel
theorem ok_parseIdentOrString : check Cert.tables fnTable .parseIdentOrString = true := by decide +kernel
theorem ok_tryParseUUID : check Cert.tables fnTable .tryParseUUID = true := by decide +kernel
theorem ok_tryParseNull : check Cert.tables fnTable .tryParseNull = true := by decide +kernel
theorem ok_parseString : check Cert.tables fnTable .parseString = true := by decide +kernel
theorem ok_parseFormat : check Cert.tables fnTable .parseFormat = true := by decide +kernel
theorem ok_tryParseTopClause : check Cert.tables fnTable .tryParseTopClause = true := by decide +kernel
theorem ok_tryParseFromClause : check Cert.tables fnTable .tryParseFromClause = true := by decide +kernel
theorem ok_parseJoinTableExpr : check Cert.tables fnTable .parseJoinTableExpr = true := by decide +kernel
theorem ok_parseJoinExpr : check Cert.tables fnTable .parseJoinExpr = true := by decide +kernel
theorem ok_tryParseWhereClause : check Cert.tables fnTable .tryParseWhereClause = true := by decide +kernel
theorem ok_tryParseLimitAfterLimitByClause : check Cert.tables fnTable .tryParseLimitAfterLimitByClause = true := by decide +kernel
theorem ok_parseBetweenClause : check Cert.tables fnTable .parseBetweenClause = true := by decide +kernel
theorem ok_parseFrameExtent : check Cert.tables fnTable .parseFrameExtent = true := by decide +kernel
theorem ok_parseFrameParam : check Cert.tables fnTable .parseFrameParam = true := by decide +kernel
theorem ok_tryParseWindowClause : check Cert.tables fnTable .tryParseWindowClause = true := by decide +kernel
theorem ok_tryParseHavingClause : check Cert.tables fnTable .tryParseHavingClause = true := by decide +kernel
theorem ok_parseCTEStmt : check Cert.tables fnTable .parseCTEStmt = true := by decide +kernel
theorem ok_tryParseColumnComment : check Cert.tables fnTable .tryParseColumnComment = true := by decide +kernel
theorem ok_parseSubExpr : check Cert.tables fnTable .parseSubExpr = true := by decide +kernel
theorem ok_parseColumnExtractExpr : check Cert.tables fnTable .parseColumnExtractExpr = true := by decide +kernel
theorem ok_matchClauseStarterKeyword : check Cert.tables fnTable .matchClauseStarterKeyword = true := by decide +kernel
theorem ok_keywordIsSelectItemIdentifier : check Cert.tables fnTable .keywordIsSelectItemIdentifier = true := by decide +kernel
theorem ok_parseColumnExprListWithLParen : check Cert.tables fnTable .parseColumnExprListWithLParen = true := by decide +kernel
theorem ok_parseSelectItems : check Cert.tables fnTable .parseSelectItems = true := by decide +kernel
theorem ok_parseKeywordArgItem : check Cert.tables fnTable .parseKeywordArgItem = true := by decide +kernel
theorem ok_parseMapLiteral : check Cert.tables fnTable .parseMapLiteral = true := by decide +kernel
theorem ok_parseSelectItem : check Cert.tables fnTable .parseSelectItem = true := by decide +kernel
theorem ok_parseColumnPropertyType : check Cert.tables fnTable .parseColumnPropertyType = true := by decide +kernel
theorem ok_parseJSONPath : check Cert.tables fnTable .parseJSONPath = true := by decide +kernel
theorem ok_parseNestedType : check Cert.tables fnTable .parseNestedType = true := by decide +kernel
theorem ok_parseNestedTypeFieldWithName : check Cert.tables fnTable .parseNestedTypeFieldWithName = true := by decide +kernel
theorem ok_tryParseCompressionLevel : check Cert.tables fnTable .tryParseCompressionLevel = true := by decide +kernel
theorem ok_parseCreateNamedCollection : check Cert.tables fnTable .parseCreateNamedCollection = true := by decide +kernel
theorem ok_parseTableIdentifier : check Cert.tables fnTable .parseTableIdentifier = true := by decide +kernel
theorem ok_parseTableColumnExpr : check Cert.tables fnTable .parseTableColumnExpr = true := by decide +kernel
theorem ok_tryParseClusterClause : check Cert.tables fnTable .tryParseClusterClause = true := by decide +kernel
theorem ok_tryParseTableOrderByClause : check Cert.tables fnTable .tryParseTableOrderByClause = true := by decide +kernel
theorem ok_parseInterpolateClause : check Cert.tables fnTable .parseInterpolateClause = true := by decide +kernel
theorem ok_parseTTLExpr : check Cert.tables fnTable .parseTTLExpr = true := by decide +kernel
theorem ok_parseSettingsList : check Cert.tables fnTable .parseSettingsList = true := by decide +kernel
theorem ok_parseEngineExpr : check Cert.tables fnTable .parseEngineExpr = true := by decide +kernel
theorem ok_parseShowStmt : check Cert.tables fnTable .parseShowStmt = true := by decide +kernel
theorem ok_parseColumnNamesExpr : check Cert.tables fnTable .parseColumnNamesExpr = true := by decide +kernel
theorem ok_parseRenameStmt : check Cert.tables fnTable .parseRenameStmt = true := by decide +kernel
theorem ok_parseDictionaryAttribute : check Cert.tables fnTable .parseDictionaryAttribute = true := by decide +kernel
theorem ok_parseDictionaryArgExprs : check Cert.tables fnTable .parseDictionaryArgExprs = true := by decide +kernel
theorem ok_parseDictionaryRangeClause : check Cert.tables fnTable .parseDictionaryRangeClause = true := by decide +kernel
theorem ok_parseSystemFlushExpr : check Cert.tables fnTable .parseSystemFlushExpr = true := by decide +kernel
theorem ok_parseSystemDropExpr : check Cert.tables fnTable .parseSystemDropExpr = true := by decide +kernel
theorem ok_parseSystemStmt : check Cert.tables fnTable .parseSystemStmt = true := by decide +kernel
theorem ok_parseRoleSetting : check Cert.tables fnTable .parseRoleSetting = true := by decide +kernel
theorem ok_parseHostClause : check Cert.tables fnTable .parseHostClause = true := by decide +kernel
theorem ok_parseUserNames : check Cert.tables fnTable .parseUserNames = true := by decide +kernel
theorem ok_parseCreateUser : check Cert.tables fnTable .parseCreateUser = true := by decide +kernel
theorem ok_parsePrivilegeCreate : check Cert.tables fnTable .parsePrivilegeCreate = true := by decide +kernel
theorem ok_parsePrivilegeClause : check Cert.tables fnTable .parsePrivilegeClause = true := by decide +kernel
theorem ok_parseGrantSource : check Cert.tables fnTable .parseGrantSource = true := by decide +kernel
theorem ok_parseAlterTable : check Cert.tables fnTable .parseAlterTable = true := by decide +kernel
theorem ok_tryParseProjectionOrderBy : check Cert.tables fnTable .tryParseProjectionOrderBy = true := by decide +kernel
theorem ok_parseTableIndex : check Cert.tables fnTable .parseTableIndex = true := by decide +kernel
theorem ok_parsePartitionClause : check Cert.tables fnTable .parsePartitionClause = true := by decide +kernel
theorem ok_parseAlterTableDropPartition : check Cert.tables fnTable .parseAlterTableDropPartition = true := by decide +kernel
theorem ok_parseAlterTableClearClause : check Cert.tables fnTable .parseAlterTableClearClause = true := by decide +kernel
theorem ok_tryParseRemovePropertyTypeExpr : check Cert.tables fnTable .tryParseRemovePropertyTypeExpr = true := by decide +kernel
theorem ok_parseAlterTableDelete : check Cert.tables fnTable .parseAlterTableDelete = true := by decide +kernel
theorem ok_parseDropStmt : check Cert.tables fnTable .parseDropStmt = true := by decide +kernel
theorem ok_parseCreateView : check Cert.tables fnTable .parseCreateView = true := by decide +kernel

end Verif.An.Checks
