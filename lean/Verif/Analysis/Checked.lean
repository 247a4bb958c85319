/-
All methods of the parser meet the conditions of the analysis.  Written by tools/gencheck.py.
-/
import Verif.Analysis.Checked1
import Verif.Analysis.Checked2
import Verif.Analysis.Checked3
import Verif.Analysis.Checked4
import Verif.Analysis.Checked5
import Verif.Analysis.Sound.Func

namespace Verif.An

/-- All methods meet their conditions. -/
theorem checked : Checked Cert.tables fnTable := by
  intro f
  cases f with
  | tryParseIdent => exact Checks.ok_tryParseIdent
  | parseAnyKeyword => exact Checks.ok_parseAnyKeyword
  | parseIdent => exact Checks.ok_parseIdent
  | parseIdentOrStar => exact Checks.ok_parseIdentOrStar
  | parseIdentOrString => exact Checks.ok_parseIdentOrString
  | tryParseDotIdent => exact Checks.ok_tryParseDotIdent
  | tryParseDotIdentOrString => exact Checks.ok_tryParseDotIdentOrString
  | parseUUID => exact Checks.ok_parseUUID
  | tryParseUUID => exact Checks.ok_tryParseUUID
  | tryParseComment => exact Checks.ok_tryParseComment
  | tryParseIfExists => exact Checks.ok_tryParseIfExists
  | tryParseIfNotExists => exact Checks.ok_tryParseIfNotExists
  | tryParseNull => exact Checks.ok_tryParseNull
  | tryParseNotNull => exact Checks.ok_tryParseNotNull
  | parseDecimal => exact Checks.ok_parseDecimal
  | parseNumber => exact Checks.ok_parseNumber
  | parseString => exact Checks.ok_parseString
  | parseLiteral => exact Checks.ok_parseLiteral
  | ParseNestedIdentifier => exact Checks.ok_ParseNestedIdentifier
  | tryParseFormat => exact Checks.ok_tryParseFormat
  | parseFormat => exact Checks.ok_parseFormat
  | parseRatioExpr => exact Checks.ok_parseRatioExpr
  | tryParseWithClause => exact Checks.ok_tryParseWithClause
  | parseWithClause => exact Checks.ok_parseWithClause
  | tryParseTopClause => exact Checks.ok_tryParseTopClause
  | parseTopClause => exact Checks.ok_parseTopClause
  | tryParseDistinctOn => exact Checks.ok_tryParseDistinctOn
  | parseDistinctOn => exact Checks.ok_parseDistinctOn
  | tryParseFromClause => exact Checks.ok_tryParseFromClause
  | parseFromClause => exact Checks.ok_parseFromClause
  | tryParseJoinConstraints => exact Checks.ok_tryParseJoinConstraints
  | parseJoinType => exact Checks.ok_parseJoinType
  | parseJoinTableExpr => exact Checks.ok_parseJoinTableExpr
  | parseJoinModifiers => exact Checks.ok_parseJoinModifiers
  | peekJoinAfterLocality => exact Checks.ok_peekJoinAfterLocality
  | parseJoinRightExpr => exact Checks.ok_parseJoinRightExpr
  | parseJoinExpr => exact Checks.ok_parseJoinExpr
  | parseTableExpr => exact Checks.ok_parseTableExpr
  | tryParsePrewhereClause => exact Checks.ok_tryParsePrewhereClause
  | parsePrewhereClause => exact Checks.ok_parsePrewhereClause
  | tryParseWhereClause => exact Checks.ok_tryParseWhereClause
  | parseWhereClause => exact Checks.ok_parseWhereClause
  | tryParseGroupByClause => exact Checks.ok_tryParseGroupByClause
  | parseGroupByClause => exact Checks.ok_parseGroupByClause
  | tryParseLimitAfterLimitByClause => exact Checks.ok_tryParseLimitAfterLimitByClause
  | tryParseLimitClause => exact Checks.ok_tryParseLimitClause
  | parseLimitClause => exact Checks.ok_parseLimitClause
  | tryParseLimitByClause => exact Checks.ok_tryParseLimitByClause
  | parseBetweenClause => exact Checks.ok_parseBetweenClause
  | parseLimitByClause => exact Checks.ok_parseLimitByClause
  | tryParseWindowFrameClause => exact Checks.ok_tryParseWindowFrameClause
  | parseWindowFrameClause => exact Checks.ok_parseWindowFrameClause
  | parseFrameExtent => exact Checks.ok_parseFrameExtent
  | parseFrameCurrentRow => exact Checks.ok_parseFrameCurrentRow
  | parseFrameUnbounded => exact Checks.ok_parseFrameUnbounded
  | parseFrameNumber => exact Checks.ok_parseFrameNumber
  | parseFrameParam => exact Checks.ok_parseFrameParam
  | parseFrameInterval => exact Checks.ok_parseFrameInterval
  | parseFrameDirection => exact Checks.ok_parseFrameDirection
  | parseFrameDirectionWithEnd => exact Checks.ok_parseFrameDirectionWithEnd
  | tryParseWindowClause => exact Checks.ok_tryParseWindowClause
  | parseWindowCondition => exact Checks.ok_parseWindowCondition
  | canParseWindowNameInParens => exact Checks.ok_canParseWindowNameInParens
  | parseWindowClause => exact Checks.ok_parseWindowClause
  | tryParseHavingClause => exact Checks.ok_tryParseHavingClause
  | parseHavingClause => exact Checks.ok_parseHavingClause
  | parseSubQuery => exact Checks.ok_parseSubQuery
  | parseSelectQuery => exact Checks.ok_parseSelectQuery
  | parseSelectStmt => exact Checks.ok_parseSelectStmt
  | parseCTEStmt => exact Checks.ok_parseCTEStmt
  | tryParseSampleClause => exact Checks.ok_tryParseSampleClause
  | parseSampleClause => exact Checks.ok_parseSampleClause
  | parseExplainStmt => exact Checks.ok_parseExplainStmt
  | tryParseColumnComment => exact Checks.ok_tryParseColumnComment
  | getNextPrecedence => exact Checks.ok_getNextPrecedence
  | parseInfix => exact Checks.ok_parseInfix
  | parseExpr => exact Checks.ok_parseExpr
  | parseSubExpr => exact Checks.ok_parseSubExpr
  | parseInfixLoop => exact Checks.ok_parseInfixLoop
  | parseTernaryExpr => exact Checks.ok_parseTernaryExpr
  | parseExtractFrom => exact Checks.ok_parseExtractFrom
  | parseColumnExtractExpr => exact Checks.ok_parseColumnExtractExpr
  | parseUnaryExpr => exact Checks.ok_parseUnaryExpr
  | peekTokenKind => exact Checks.ok_peekTokenKind
  | peekKeyword => exact Checks.ok_peekKeyword
  | matchClauseStarterKeyword => exact Checks.ok_matchClauseStarterKeyword
  | peekIsClauseStarterKeyword => exact Checks.ok_peekIsClauseStarterKeyword
  | peekIsEndOfStatement => exact Checks.ok_peekIsEndOfStatement
  | peekIsExpressionContinuation => exact Checks.ok_peekIsExpressionContinuation
  | keywordIsSelectItemIdentifier => exact Checks.ok_keywordIsSelectItemIdentifier
  | isSelectItemTerminatorKeyword => exact Checks.ok_isSelectItemTerminatorKeyword
  | parseColumnExpr => exact Checks.ok_parseColumnExpr
  | parseColumnCastExpr => exact Checks.ok_parseColumnCastExpr
  | parseColumnExprListWithLParen => exact Checks.ok_parseColumnExprListWithLParen
  | parseColumnExprListWithSquareBracket => exact Checks.ok_parseColumnExprListWithSquareBracket
  | parseColumnExprList => exact Checks.ok_parseColumnExprList
  | parseColumnExprListWithTerm => exact Checks.ok_parseColumnExprListWithTerm
  | parseSelectItems => exact Checks.ok_parseSelectItems
  | parseInterval => exact Checks.ok_parseInterval
  | parseFunctionExpr => exact Checks.ok_parseFunctionExpr
  | parseColumnArgList => exact Checks.ok_parseColumnArgList
  | parseKeywordArgItem => exact Checks.ok_parseKeywordArgItem
  | parseKeywordArgModifier => exact Checks.ok_parseKeywordArgModifier
  | parseKeywordArgFunctionParams => exact Checks.ok_parseKeywordArgFunctionParams
  | parseFunctionParams => exact Checks.ok_parseFunctionParams
  | parseMapLiteral => exact Checks.ok_parseMapLiteral
  | parseQueryParam => exact Checks.ok_parseQueryParam
  | parseArrayParams => exact Checks.ok_parseArrayParams
  | parseColumnsExpr => exact Checks.ok_parseColumnsExpr
  | parseSelectItem => exact Checks.ok_parseSelectItem
  | parseColumnCaseExpr => exact Checks.ok_parseColumnCaseExpr
  | parseColumnType => exact Checks.ok_parseColumnType
  | parseColumnTypeArgs => exact Checks.ok_parseColumnTypeArgs
  | parseColumnPropertyType => exact Checks.ok_parseColumnPropertyType
  | parseComplexType => exact Checks.ok_parseComplexType
  | parseEnumType => exact Checks.ok_parseEnumType
  | parseColumnTypeWithParams => exact Checks.ok_parseColumnTypeWithParams
  | parseJSONPath => exact Checks.ok_parseJSONPath
  | parseJSONMaxDynamicOptions => exact Checks.ok_parseJSONMaxDynamicOptions
  | parseJSONOption => exact Checks.ok_parseJSONOption
  | parseJSONType => exact Checks.ok_parseJSONType
  | parseNestedType => exact Checks.ok_parseNestedType
  | parseNestedTypeFields => exact Checks.ok_parseNestedTypeFields
  | parseNestedTypeFieldsWithNames => exact Checks.ok_parseNestedTypeFieldsWithNames
  | parseNestedTypeFieldsWithoutNames => exact Checks.ok_parseNestedTypeFieldsWithoutNames
  | parseNestedTypeFieldWithName => exact Checks.ok_parseNestedTypeFieldWithName
  | tryParseCompressionCodecs => exact Checks.ok_tryParseCompressionCodecs
  | parseEnumValueExpr => exact Checks.ok_parseEnumValueExpr
  | parseColumnStar => exact Checks.ok_parseColumnStar
  | tryParseCompressionLevel => exact Checks.ok_tryParseCompressionLevel
  | parseDDL => exact Checks.ok_parseDDL
  | parseCreateDatabase => exact Checks.ok_parseCreateDatabase
  | parseCreateDictionary => exact Checks.ok_parseCreateDictionary
  | parseCreateNamedCollection => exact Checks.ok_parseCreateNamedCollection
  | parseNamedCollectionParam => exact Checks.ok_parseNamedCollectionParam
  | parseCreateTable => exact Checks.ok_parseCreateTable
  | parseIdentOrFunction => exact Checks.ok_parseIdentOrFunction
  | parseTableIdentifier => exact Checks.ok_parseTableIdentifier
  | parseTableSchemaClause => exact Checks.ok_parseTableSchemaClause
  | parseTableColumns => exact Checks.ok_parseTableColumns
  | tryParseTableColumnExpr => exact Checks.ok_tryParseTableColumnExpr
  | parseTableColumnExpr => exact Checks.ok_parseTableColumnExpr
  | parseTableArgExpr => exact Checks.ok_parseTableArgExpr
  | parseTableArgPrimaryExpr => exact Checks.ok_parseTableArgPrimaryExpr
  | parseTableArgList => exact Checks.ok_parseTableArgList
  | tryParseClusterClause => exact Checks.ok_tryParseClusterClause
  | tryParsePartitionByClause => exact Checks.ok_tryParsePartitionByClause
  | tryParsePrimaryKeyClause => exact Checks.ok_tryParsePrimaryKeyClause
  | tryParseOrderByClause => exact Checks.ok_tryParseOrderByClause
  | tryParseTableOrderByClause => exact Checks.ok_tryParseTableOrderByClause
  | parseOrderByClause => exact Checks.ok_parseOrderByClause
  | parseOrderExpr => exact Checks.ok_parseOrderExpr
  | parseFillClause => exact Checks.ok_parseFillClause
  | parseInterpolateClause => exact Checks.ok_parseInterpolateClause
  | tryParseTTLClause => exact Checks.ok_tryParseTTLClause
  | parseTTLClause => exact Checks.ok_parseTTLClause
  | tryParseTTLPolicy => exact Checks.ok_tryParseTTLPolicy
  | parseTTLExpr => exact Checks.ok_parseTTLExpr
  | tryParseSampleByClause => exact Checks.ok_tryParseSampleByClause
  | tryParseSettingsClause => exact Checks.ok_tryParseSettingsClause
  | parseSettingsClause => exact Checks.ok_parseSettingsClause
  | parseSettingsList => exact Checks.ok_parseSettingsList
  | parseSettingsExpr => exact Checks.ok_parseSettingsExpr
  | parseDestinationClause => exact Checks.ok_parseDestinationClause
  | tryParseEngineExpr => exact Checks.ok_tryParseEngineExpr
  | parseEngineExpr => exact Checks.ok_parseEngineExpr
  | parseStmt => exact Checks.ok_parseStmt
  | ParseStmts => exact Checks.ok_ParseStmts
  | parseUseStmt => exact Checks.ok_parseUseStmt
  | parseShowStmt => exact Checks.ok_parseShowStmt
  | parseDescribeStmt => exact Checks.ok_parseDescribeStmt
  | parseTruncateTable => exact Checks.ok_parseTruncateTable
  | parseDeleteClause => exact Checks.ok_parseDeleteClause
  | parseColumnNamesExpr => exact Checks.ok_parseColumnNamesExpr
  | parseTypedPlaceholder => exact Checks.ok_parseTypedPlaceholder
  | parseAssignmentValues => exact Checks.ok_parseAssignmentValues
  | parseInsertStmt => exact Checks.ok_parseInsertStmt
  | parseRenameStmt => exact Checks.ok_parseRenameStmt
  | parseTargetPair => exact Checks.ok_parseTargetPair
  | parseCreateFunction => exact Checks.ok_parseCreateFunction
  | parseDictionarySchemaClause => exact Checks.ok_parseDictionarySchemaClause
  | parseDictionaryAttribute => exact Checks.ok_parseDictionaryAttribute
  | parseDictionaryEngineClause => exact Checks.ok_parseDictionaryEngineClause
  | parseDictionaryPrimaryKeyClause => exact Checks.ok_parseDictionaryPrimaryKeyClause
  | parseDictionarySourceClause => exact Checks.ok_parseDictionarySourceClause
  | parseDictionaryArgExprs => exact Checks.ok_parseDictionaryArgExprs
  | parseDictionaryArgExpr => exact Checks.ok_parseDictionaryArgExpr
  | parseDictionaryLifetimeClause => exact Checks.ok_parseDictionaryLifetimeClause
  | parseDictionaryLayoutClause => exact Checks.ok_parseDictionaryLayoutClause
  | parseDictionaryRangeClause => exact Checks.ok_parseDictionaryRangeClause
  | parseDictionarySettingsClause => exact Checks.ok_parseDictionarySettingsClause
  | parseSetStmt => exact Checks.ok_parseSetStmt
  | parseSettingsStmt => exact Checks.ok_parseSettingsStmt
  | parseSystemFlushExpr => exact Checks.ok_parseSystemFlushExpr
  | parseSystemReloadExpr => exact Checks.ok_parseSystemReloadExpr
  | parseSystemSyncExpr => exact Checks.ok_parseSystemSyncExpr
  | parseSystemCtrlExpr => exact Checks.ok_parseSystemCtrlExpr
  | parseSystemDropExpr => exact Checks.ok_parseSystemDropExpr
  | tryParseDeduplicateClause => exact Checks.ok_tryParseDeduplicateClause
  | parseDeduplicateClause => exact Checks.ok_parseDeduplicateClause
  | parseOptimizeStmt => exact Checks.ok_parseOptimizeStmt
  | parseSystemStmt => exact Checks.ok_parseSystemStmt
  | parseCheckStmt => exact Checks.ok_parseCheckStmt
  | parseRoleName => exact Checks.ok_parseRoleName
  | tryParseRoleSettings => exact Checks.ok_tryParseRoleSettings
  | parseRoleSetting => exact Checks.ok_parseRoleSetting
  | parseRoleSettings => exact Checks.ok_parseRoleSettings
  | parseCreateRole => exact Checks.ok_parseCreateRole
  | parseAuthenticationClause => exact Checks.ok_parseAuthenticationClause
  | parseHostClause => exact Checks.ok_parseHostClause
  | parseDefaultRoleClause => exact Checks.ok_parseDefaultRoleClause
  | parseGranteesClause => exact Checks.ok_parseGranteesClause
  | parseCreateUserModifiers => exact Checks.ok_parseCreateUserModifiers
  | parseUserNames => exact Checks.ok_parseUserNames
  | parseHostClauses => exact Checks.ok_parseHostClauses
  | parseDefaultClause => exact Checks.ok_parseDefaultClause
  | parseOptionalClauses => exact Checks.ok_parseOptionalClauses
  | parseCreateUser => exact Checks.ok_parseCreateUser
  | parserDropUserOrRole => exact Checks.ok_parserDropUserOrRole
  | parsePrivilegeSelectOrInsert => exact Checks.ok_parsePrivilegeSelectOrInsert
  | parsePrivilegeAlter => exact Checks.ok_parsePrivilegeAlter
  | parsePrivilegeCreate => exact Checks.ok_parsePrivilegeCreate
  | parsePrivilegeDrop => exact Checks.ok_parsePrivilegeDrop
  | parsePrivilegeShow => exact Checks.ok_parsePrivilegeShow
  | parsePrivilegeSystem => exact Checks.ok_parsePrivilegeSystem
  | parsePrivilegeClause => exact Checks.ok_parsePrivilegeClause
  | parsePrivilegeRoles => exact Checks.ok_parsePrivilegeRoles
  | parseGrantOptions => exact Checks.ok_parseGrantOptions
  | parseGrantOption => exact Checks.ok_parseGrantOption
  | parseGrantSource => exact Checks.ok_parseGrantSource
  | parseGrantPrivilegeStmt => exact Checks.ok_parseGrantPrivilegeStmt
  | parseAlterRole => exact Checks.ok_parseAlterRole
  | parseRoleRenamePair => exact Checks.ok_parseRoleRenamePair
  | parseAlterTable => exact Checks.ok_parseAlterTable
  | parseAlterTableAdd => exact Checks.ok_parseAlterTableAdd
  | parseAlterTableAddColumn => exact Checks.ok_parseAlterTableAddColumn
  | parseAlterTableAddIndex => exact Checks.ok_parseAlterTableAddIndex
  | tryParseProjectionOrderBy => exact Checks.ok_tryParseProjectionOrderBy
  | parseProjectionSelect => exact Checks.ok_parseProjectionSelect
  | parseTableProjection => exact Checks.ok_parseTableProjection
  | parseAlterTableAddProjection => exact Checks.ok_parseAlterTableAddProjection
  | parseTableIndex => exact Checks.ok_parseTableIndex
  | parseAlterTableDrop => exact Checks.ok_parseAlterTableDrop
  | parseAlterTableDetachPartition => exact Checks.ok_parseAlterTableDetachPartition
  | tryParsePartitionClause => exact Checks.ok_tryParsePartitionClause
  | parsePartitionClause => exact Checks.ok_parsePartitionClause
  | parseAlterTableAttachPartition => exact Checks.ok_parseAlterTableAttachPartition
  | parseAlterTableDropClause => exact Checks.ok_parseAlterTableDropClause
  | tryParseAfterClause => exact Checks.ok_tryParseAfterClause
  | parseAlterTableDropPartition => exact Checks.ok_parseAlterTableDropPartition
  | parseAlterTableFreezePartition => exact Checks.ok_parseAlterTableFreezePartition
  | parseAlterTableRemoveTTL => exact Checks.ok_parseAlterTableRemoveTTL
  | parseAlterTableClear => exact Checks.ok_parseAlterTableClear
  | parseAlterTableClearClause => exact Checks.ok_parseAlterTableClearClause
  | parseAlterTableRenameColumn => exact Checks.ok_parseAlterTableRenameColumn
  | parseAlterTableModify => exact Checks.ok_parseAlterTableModify
  | parseAlterTableModifyColumn => exact Checks.ok_parseAlterTableModifyColumn
  | tryParseRemovePropertyTypeExpr => exact Checks.ok_tryParseRemovePropertyTypeExpr
  | parseAlterTableReplacePartition => exact Checks.ok_parseAlterTableReplacePartition
  | parseAlterTableMaterialize => exact Checks.ok_parseAlterTableMaterialize
  | parseAlterTableReset => exact Checks.ok_parseAlterTableReset
  | parseAlterTableDelete => exact Checks.ok_parseAlterTableDelete
  | parseAlterTableUpdate => exact Checks.ok_parseAlterTableUpdate
  | parseUpdateAssignment => exact Checks.ok_parseUpdateAssignment
  | parseDropDatabase => exact Checks.ok_parseDropDatabase
  | parseDropStmt => exact Checks.ok_parseDropStmt
  | tryParseModifier => exact Checks.ok_tryParseModifier
  | parseCreateMaterializedView => exact Checks.ok_parseCreateMaterializedView
  | tryParseRefreshExpr => exact Checks.ok_tryParseRefreshExpr
  | parseCreateView => exact Checks.ok_parseCreateView
  | parseCreateLiveView => exact Checks.ok_parseCreateLiveView
  | tryParseWithTimeout => exact Checks.ok_tryParseWithTimeout

end Verif.An
