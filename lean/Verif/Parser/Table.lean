/-
The bodies of all methods of `Parser`.
Written by tools/genparser.py from the Go text.
-/
import Verif.Parser.TableCommon
import Verif.Parser.TableQuery
import Verif.Parser.TableColumn
import Verif.Parser.TableTable
import Verif.Parser.TableSystem
import Verif.Parser.TableAlter
import Verif.Parser.TableDrop
import Verif.Parser.TableView

namespace Verif

/-- The body of every method (parser/parser_*.go, parser/parse_system.go). -/
def fnTable : Fn → Func Fn
  | .tryParseIdent => Body.tryParseIdent
  | .parseAnyKeyword => Body.parseAnyKeyword
  | .parseIdent => Body.parseIdent
  | .parseIdentOrStar => Body.parseIdentOrStar
  | .parseIdentOrString => Body.parseIdentOrString
  | .tryParseDotIdent => Body.tryParseDotIdent
  | .tryParseDotIdentOrString => Body.tryParseDotIdentOrString
  | .parseUUID => Body.parseUUID
  | .tryParseUUID => Body.tryParseUUID
  | .tryParseComment => Body.tryParseComment
  | .tryParseIfExists => Body.tryParseIfExists
  | .tryParseIfNotExists => Body.tryParseIfNotExists
  | .tryParseNull => Body.tryParseNull
  | .tryParseNotNull => Body.tryParseNotNull
  | .parseDecimal => Body.parseDecimal
  | .parseNumber => Body.parseNumber
  | .parseString => Body.parseString
  | .parseLiteral => Body.parseLiteral
  | .ParseNestedIdentifier => Body.ParseNestedIdentifier
  | .tryParseFormat => Body.tryParseFormat
  | .parseFormat => Body.parseFormat
  | .parseRatioExpr => Body.parseRatioExpr
  | .tryParseWithClause => Body.tryParseWithClause
  | .parseWithClause => Body.parseWithClause
  | .tryParseTopClause => Body.tryParseTopClause
  | .parseTopClause => Body.parseTopClause
  | .tryParseDistinctOn => Body.tryParseDistinctOn
  | .parseDistinctOn => Body.parseDistinctOn
  | .tryParseFromClause => Body.tryParseFromClause
  | .parseFromClause => Body.parseFromClause
  | .tryParseJoinConstraints => Body.tryParseJoinConstraints
  | .parseJoinType => Body.parseJoinType
  | .parseJoinTableExpr => Body.parseJoinTableExpr
  | .parseJoinModifiers => Body.parseJoinModifiers
  | .peekJoinAfterLocality => Body.peekJoinAfterLocality
  | .parseJoinRightExpr => Body.parseJoinRightExpr
  | .parseJoinExpr => Body.parseJoinExpr
  | .parseTableExpr => Body.parseTableExpr
  | .tryParsePrewhereClause => Body.tryParsePrewhereClause
  | .parsePrewhereClause => Body.parsePrewhereClause
  | .tryParseWhereClause => Body.tryParseWhereClause
  | .parseWhereClause => Body.parseWhereClause
  | .tryParseGroupByClause => Body.tryParseGroupByClause
  | .parseGroupByClause => Body.parseGroupByClause
  | .tryParseLimitAfterLimitByClause => Body.tryParseLimitAfterLimitByClause
  | .tryParseLimitClause => Body.tryParseLimitClause
  | .parseLimitClause => Body.parseLimitClause
  | .tryParseLimitByClause => Body.tryParseLimitByClause
  | .parseBetweenClause => Body.parseBetweenClause
  | .parseLimitByClause => Body.parseLimitByClause
  | .tryParseWindowFrameClause => Body.tryParseWindowFrameClause
  | .parseWindowFrameClause => Body.parseWindowFrameClause
  | .parseFrameExtent => Body.parseFrameExtent
  | .parseFrameCurrentRow => Body.parseFrameCurrentRow
  | .parseFrameUnbounded => Body.parseFrameUnbounded
  | .parseFrameNumber => Body.parseFrameNumber
  | .parseFrameParam => Body.parseFrameParam
  | .parseFrameInterval => Body.parseFrameInterval
  | .parseFrameDirection => Body.parseFrameDirection
  | .parseFrameDirectionWithEnd => Body.parseFrameDirectionWithEnd
  | .tryParseWindowClause => Body.tryParseWindowClause
  | .parseWindowCondition => Body.parseWindowCondition
  | .canParseWindowNameInParens => Body.canParseWindowNameInParens
  | .parseWindowClause => Body.parseWindowClause
  | .tryParseHavingClause => Body.tryParseHavingClause
  | .parseHavingClause => Body.parseHavingClause
  | .parseSubQuery => Body.parseSubQuery
  | .parseSelectQuery => Body.parseSelectQuery
  | .parseSelectStmt => Body.parseSelectStmt
  | .parseCTEStmt => Body.parseCTEStmt
  | .tryParseSampleClause => Body.tryParseSampleClause
  | .parseSampleClause => Body.parseSampleClause
  | .parseExplainStmt => Body.parseExplainStmt
  | .tryParseColumnComment => Body.tryParseColumnComment
  | .getNextPrecedence => Body.getNextPrecedence
  | .parseInfix => Body.parseInfix
  | .parseExpr => Body.parseExpr
  | .parseSubExpr => Body.parseSubExpr
  | .parseInfixLoop => Body.parseInfixLoop
  | .parseTernaryExpr => Body.parseTernaryExpr
  | .parseExtractFrom => Body.parseExtractFrom
  | .parseColumnExtractExpr => Body.parseColumnExtractExpr
  | .parseUnaryExpr => Body.parseUnaryExpr
  | .peekTokenKind => Body.peekTokenKind
  | .peekKeyword => Body.peekKeyword
  | .matchClauseStarterKeyword => Body.matchClauseStarterKeyword
  | .peekIsClauseStarterKeyword => Body.peekIsClauseStarterKeyword
  | .peekIsEndOfStatement => Body.peekIsEndOfStatement
  | .peekIsExpressionContinuation => Body.peekIsExpressionContinuation
  | .keywordIsSelectItemIdentifier => Body.keywordIsSelectItemIdentifier
  | .isSelectItemTerminatorKeyword => Body.isSelectItemTerminatorKeyword
  | .parseColumnExpr => Body.parseColumnExpr
  | .parseColumnCastExpr => Body.parseColumnCastExpr
  | .parseColumnExprListWithLParen => Body.parseColumnExprListWithLParen
  | .parseColumnExprListWithSquareBracket => Body.parseColumnExprListWithSquareBracket
  | .parseColumnExprList => Body.parseColumnExprList
  | .parseColumnExprListWithTerm => Body.parseColumnExprListWithTerm
  | .parseSelectItems => Body.parseSelectItems
  | .parseInterval => Body.parseInterval
  | .parseFunctionExpr => Body.parseFunctionExpr
  | .parseColumnArgList => Body.parseColumnArgList
  | .parseKeywordArgItem => Body.parseKeywordArgItem
  | .parseKeywordArgModifier => Body.parseKeywordArgModifier
  | .parseKeywordArgFunctionParams => Body.parseKeywordArgFunctionParams
  | .parseFunctionParams => Body.parseFunctionParams
  | .parseMapLiteral => Body.parseMapLiteral
  | .parseQueryParam => Body.parseQueryParam
  | .parseArrayParams => Body.parseArrayParams
  | .parseColumnsExpr => Body.parseColumnsExpr
  | .parseSelectItem => Body.parseSelectItem
  | .parseColumnCaseExpr => Body.parseColumnCaseExpr
  | .parseColumnType => Body.parseColumnType
  | .parseColumnTypeArgs => Body.parseColumnTypeArgs
  | .parseColumnPropertyType => Body.parseColumnPropertyType
  | .parseComplexType => Body.parseComplexType
  | .parseEnumType => Body.parseEnumType
  | .parseColumnTypeWithParams => Body.parseColumnTypeWithParams
  | .parseJSONPath => Body.parseJSONPath
  | .parseJSONMaxDynamicOptions => Body.parseJSONMaxDynamicOptions
  | .parseJSONOption => Body.parseJSONOption
  | .parseJSONType => Body.parseJSONType
  | .parseNestedType => Body.parseNestedType
  | .parseNestedTypeFields => Body.parseNestedTypeFields
  | .parseNestedTypeFieldsWithNames => Body.parseNestedTypeFieldsWithNames
  | .parseNestedTypeFieldsWithoutNames => Body.parseNestedTypeFieldsWithoutNames
  | .parseNestedTypeFieldWithName => Body.parseNestedTypeFieldWithName
  | .tryParseCompressionCodecs => Body.tryParseCompressionCodecs
  | .parseEnumValueExpr => Body.parseEnumValueExpr
  | .parseColumnStar => Body.parseColumnStar
  | .tryParseCompressionLevel => Body.tryParseCompressionLevel
  | .parseDDL => Body.parseDDL
  | .parseCreateDatabase => Body.parseCreateDatabase
  | .parseCreateDictionary => Body.parseCreateDictionary
  | .parseCreateNamedCollection => Body.parseCreateNamedCollection
  | .parseNamedCollectionParam => Body.parseNamedCollectionParam
  | .parseCreateTable => Body.parseCreateTable
  | .parseIdentOrFunction => Body.parseIdentOrFunction
  | .parseTableIdentifier => Body.parseTableIdentifier
  | .parseTableSchemaClause => Body.parseTableSchemaClause
  | .parseTableColumns => Body.parseTableColumns
  | .tryParseTableColumnExpr => Body.tryParseTableColumnExpr
  | .parseTableColumnExpr => Body.parseTableColumnExpr
  | .parseTableArgExpr => Body.parseTableArgExpr
  | .parseTableArgPrimaryExpr => Body.parseTableArgPrimaryExpr
  | .parseTableArgList => Body.parseTableArgList
  | .tryParseClusterClause => Body.tryParseClusterClause
  | .tryParsePartitionByClause => Body.tryParsePartitionByClause
  | .tryParsePrimaryKeyClause => Body.tryParsePrimaryKeyClause
  | .tryParseOrderByClause => Body.tryParseOrderByClause
  | .tryParseTableOrderByClause => Body.tryParseTableOrderByClause
  | .parseOrderByClause => Body.parseOrderByClause
  | .parseOrderExpr => Body.parseOrderExpr
  | .parseFillClause => Body.parseFillClause
  | .parseInterpolateClause => Body.parseInterpolateClause
  | .tryParseTTLClause => Body.tryParseTTLClause
  | .parseTTLClause => Body.parseTTLClause
  | .tryParseTTLPolicy => Body.tryParseTTLPolicy
  | .parseTTLExpr => Body.parseTTLExpr
  | .tryParseSampleByClause => Body.tryParseSampleByClause
  | .tryParseSettingsClause => Body.tryParseSettingsClause
  | .parseSettingsClause => Body.parseSettingsClause
  | .parseSettingsList => Body.parseSettingsList
  | .parseSettingsExpr => Body.parseSettingsExpr
  | .parseDestinationClause => Body.parseDestinationClause
  | .tryParseEngineExpr => Body.tryParseEngineExpr
  | .parseEngineExpr => Body.parseEngineExpr
  | .parseStmt => Body.parseStmt
  | .ParseStmts => Body.ParseStmts
  | .parseUseStmt => Body.parseUseStmt
  | .parseShowStmt => Body.parseShowStmt
  | .parseDescribeStmt => Body.parseDescribeStmt
  | .parseTruncateTable => Body.parseTruncateTable
  | .parseDeleteClause => Body.parseDeleteClause
  | .parseColumnNamesExpr => Body.parseColumnNamesExpr
  | .parseTypedPlaceholder => Body.parseTypedPlaceholder
  | .parseAssignmentValues => Body.parseAssignmentValues
  | .parseInsertStmt => Body.parseInsertStmt
  | .parseRenameStmt => Body.parseRenameStmt
  | .parseTargetPair => Body.parseTargetPair
  | .parseCreateFunction => Body.parseCreateFunction
  | .parseDictionarySchemaClause => Body.parseDictionarySchemaClause
  | .parseDictionaryAttribute => Body.parseDictionaryAttribute
  | .parseDictionaryEngineClause => Body.parseDictionaryEngineClause
  | .parseDictionaryPrimaryKeyClause => Body.parseDictionaryPrimaryKeyClause
  | .parseDictionarySourceClause => Body.parseDictionarySourceClause
  | .parseDictionaryArgExprs => Body.parseDictionaryArgExprs
  | .parseDictionaryArgExpr => Body.parseDictionaryArgExpr
  | .parseDictionaryLifetimeClause => Body.parseDictionaryLifetimeClause
  | .parseDictionaryLayoutClause => Body.parseDictionaryLayoutClause
  | .parseDictionaryRangeClause => Body.parseDictionaryRangeClause
  | .parseDictionarySettingsClause => Body.parseDictionarySettingsClause
  | .parseSetStmt => Body.parseSetStmt
  | .parseSettingsStmt => Body.parseSettingsStmt
  | .parseSystemFlushExpr => Body.parseSystemFlushExpr
  | .parseSystemReloadExpr => Body.parseSystemReloadExpr
  | .parseSystemSyncExpr => Body.parseSystemSyncExpr
  | .parseSystemCtrlExpr => Body.parseSystemCtrlExpr
  | .parseSystemDropExpr => Body.parseSystemDropExpr
  | .tryParseDeduplicateClause => Body.tryParseDeduplicateClause
  | .parseDeduplicateClause => Body.parseDeduplicateClause
  | .parseOptimizeStmt => Body.parseOptimizeStmt
  | .parseSystemStmt => Body.parseSystemStmt
  | .parseCheckStmt => Body.parseCheckStmt
  | .parseRoleName => Body.parseRoleName
  | .tryParseRoleSettings => Body.tryParseRoleSettings
  | .parseRoleSetting => Body.parseRoleSetting
  | .parseRoleSettings => Body.parseRoleSettings
  | .parseCreateRole => Body.parseCreateRole
  | .parseAuthenticationClause => Body.parseAuthenticationClause
  | .parseHostClause => Body.parseHostClause
  | .parseDefaultRoleClause => Body.parseDefaultRoleClause
  | .parseGranteesClause => Body.parseGranteesClause
  | .parseCreateUserModifiers => Body.parseCreateUserModifiers
  | .parseUserNames => Body.parseUserNames
  | .parseHostClauses => Body.parseHostClauses
  | .parseDefaultClause => Body.parseDefaultClause
  | .parseOptionalClauses => Body.parseOptionalClauses
  | .parseCreateUser => Body.parseCreateUser
  | .parserDropUserOrRole => Body.parserDropUserOrRole
  | .parsePrivilegeSelectOrInsert => Body.parsePrivilegeSelectOrInsert
  | .parsePrivilegeAlter => Body.parsePrivilegeAlter
  | .parsePrivilegeCreate => Body.parsePrivilegeCreate
  | .parsePrivilegeDrop => Body.parsePrivilegeDrop
  | .parsePrivilegeShow => Body.parsePrivilegeShow
  | .parsePrivilegeSystem => Body.parsePrivilegeSystem
  | .parsePrivilegeClause => Body.parsePrivilegeClause
  | .parsePrivilegeRoles => Body.parsePrivilegeRoles
  | .parseGrantOptions => Body.parseGrantOptions
  | .parseGrantOption => Body.parseGrantOption
  | .parseGrantSource => Body.parseGrantSource
  | .parseGrantPrivilegeStmt => Body.parseGrantPrivilegeStmt
  | .parseAlterRole => Body.parseAlterRole
  | .parseRoleRenamePair => Body.parseRoleRenamePair
  | .parseAlterTable => Body.parseAlterTable
  | .parseAlterTableAdd => Body.parseAlterTableAdd
  | .parseAlterTableAddColumn => Body.parseAlterTableAddColumn
  | .parseAlterTableAddIndex => Body.parseAlterTableAddIndex
  | .tryParseProjectionOrderBy => Body.tryParseProjectionOrderBy
  | .parseProjectionSelect => Body.parseProjectionSelect
  | .parseTableProjection => Body.parseTableProjection
  | .parseAlterTableAddProjection => Body.parseAlterTableAddProjection
  | .parseTableIndex => Body.parseTableIndex
  | .parseAlterTableDrop => Body.parseAlterTableDrop
  | .parseAlterTableDetachPartition => Body.parseAlterTableDetachPartition
  | .tryParsePartitionClause => Body.tryParsePartitionClause
  | .parsePartitionClause => Body.parsePartitionClause
  | .parseAlterTableAttachPartition => Body.parseAlterTableAttachPartition
  | .parseAlterTableDropClause => Body.parseAlterTableDropClause
  | .tryParseAfterClause => Body.tryParseAfterClause
  | .parseAlterTableDropPartition => Body.parseAlterTableDropPartition
  | .parseAlterTableFreezePartition => Body.parseAlterTableFreezePartition
  | .parseAlterTableRemoveTTL => Body.parseAlterTableRemoveTTL
  | .parseAlterTableClear => Body.parseAlterTableClear
  | .parseAlterTableClearClause => Body.parseAlterTableClearClause
  | .parseAlterTableRenameColumn => Body.parseAlterTableRenameColumn
  | .parseAlterTableModify => Body.parseAlterTableModify
  | .parseAlterTableModifyColumn => Body.parseAlterTableModifyColumn
  | .tryParseRemovePropertyTypeExpr => Body.tryParseRemovePropertyTypeExpr
  | .parseAlterTableReplacePartition => Body.parseAlterTableReplacePartition
  | .parseAlterTableMaterialize => Body.parseAlterTableMaterialize
  | .parseAlterTableReset => Body.parseAlterTableReset
  | .parseAlterTableDelete => Body.parseAlterTableDelete
  | .parseAlterTableUpdate => Body.parseAlterTableUpdate
  | .parseUpdateAssignment => Body.parseUpdateAssignment
  | .parseDropDatabase => Body.parseDropDatabase
  | .parseDropStmt => Body.parseDropStmt
  | .tryParseModifier => Body.tryParseModifier
  | .parseCreateMaterializedView => Body.parseCreateMaterializedView
  | .tryParseRefreshExpr => Body.tryParseRefreshExpr
  | .parseCreateView => Body.parseCreateView
  | .parseCreateLiveView => Body.parseCreateLiveView
  | .tryParseWithTimeout => Body.tryParseWithTimeout

end Verif
