/-
What the methods are called with and what they return, as far as the grouping of operands is concerned.
No definition here is part of the model.
-/
import Verif.Group.Check

namespace Verif.Group

/-- What a method is called with and what it returns. -/
def sig : Fn → Sig
  | .tryParseIdent => ⟨[], [.name]⟩
  | .parseJSONMaxDynamicOptions => ⟨[.name], [.plain, .plain]⟩
  | .tryParseWithClause | .parseWithClause | .tryParseFromClause | .parseFromClause | .tryParseJoinConstraints | .parseJoinTableExpr
  | .parseJoinRightExpr | .parseJoinExpr | .parseTableExpr | .tryParsePrewhereClause | .parsePrewhereClause | .tryParseWhereClause
  | .parseWhereClause | .tryParseGroupByClause | .parseGroupByClause | .tryParseLimitAfterLimitByClause | .tryParseLimitClause
  | .parseLimitClause | .tryParseLimitByClause | .parseLimitByClause | .tryParseWindowFrameClause | .parseWindowFrameClause
  | .tryParseWindowClause | .parseWindowCondition | .parseWindowClause | .tryParseHavingClause | .parseHavingClause | .parseSubQuery
  | .parseSelectQuery | .parseSelectStmt | .parseCTEStmt | .parseExplainStmt | .parseColumnExtractExpr | .parseColumnCastExpr
  | .parseColumnExprListWithLParen | .parseColumnExprListWithSquareBracket | .parseColumnExprList | .parseInterval | .parseFunctionExpr
  | .parseColumnArgList | .parseFunctionParams | .parseMapLiteral | .parseArrayParams | .parseColumnsExpr | .parseColumnCaseExpr | .parseDDL
  | .parseCreateDatabase | .parseTableSchemaClause | .tryParseTableColumnExpr | .parseTableColumnExpr | .parseTableArgPrimaryExpr
  | .parseTableArgList | .tryParsePartitionByClause | .tryParsePrimaryKeyClause | .tryParseOrderByClause | .tryParseTableOrderByClause
  | .parseOrderByClause | .parseOrderExpr | .parseFillClause | .parseInterpolateClause | .tryParseTTLPolicy | .parseTTLExpr
  | .tryParseSampleByClause | .tryParseSettingsClause | .parseSettingsClause | .parseSettingsExpr | .tryParseEngineExpr | .parseEngineExpr
  | .parseStmt | .parseShowStmt | .parseDeleteClause | .parseAssignmentValues | .parseInsertStmt | .parseDictionarySchemaClause
  | .parseDictionaryAttribute | .parseDictionaryEngineClause | .parseDictionaryPrimaryKeyClause | .parseDictionarySettingsClause | .parseSetStmt
  | .parseSettingsStmt | .tryParseDeduplicateClause | .parseDeduplicateClause | .parseOptimizeStmt | .parseCheckStmt
  | .parsePrivilegeSelectOrInsert | .parsePrivilegeClause | .parseGrantPrivilegeStmt | .parseAlterTable | .parseAlterTableAdd
  | .parseAlterTableAddColumn | .parseAlterTableAddIndex | .tryParseProjectionOrderBy | .parseProjectionSelect | .parseAlterTableAddProjection
  | .parseTableIndex | .parseAlterTableDrop | .parseAlterTableDetachPartition | .tryParsePartitionClause | .parsePartitionClause
  | .parseAlterTableAttachPartition | .parseAlterTableDropPartition | .parseAlterTableFreezePartition | .parseAlterTableClear
  | .parseAlterTableClearClause | .parseAlterTableModify | .parseAlterTableModifyColumn | .parseAlterTableReplacePartition
  | .parseAlterTableMaterialize | .parseAlterTableDelete | .parseAlterTableUpdate | .parseUpdateAssignment | .parseCreateMaterializedView
  | .tryParseRefreshExpr | .parseCreateLiveView =>
    ⟨[.name], [.plain, .any]⟩
  | .tryParseNotNull | .parseDecimal | .parseNumber | .parseString | .parseLiteral | .ParseNestedIdentifier | .tryParseFormat | .parseFormat
  | .parseRatioExpr | .tryParseTopClause | .parseTopClause | .tryParseDistinctOn | .parseDistinctOn | .tryParseSampleClause | .parseSampleClause
  | .tryParseColumnComment | .parseQueryParam | .parseColumnType | .parseColumnTypeArgs | .parseColumnPropertyType | .tryParseCompressionCodecs
  | .parseEnumValueExpr | .tryParseCompressionLevel | .parseCreateNamedCollection | .parseNamedCollectionParam | .parseTableIdentifier
  | .tryParseClusterClause | .parseDestinationClause | .parseUseStmt | .parseDescribeStmt | .parseTruncateTable | .parseColumnNamesExpr
  | .parseTypedPlaceholder | .parseRenameStmt | .parseTargetPair | .parseDictionarySourceClause | .parseDictionaryArgExpr
  | .parseDictionaryLifetimeClause | .parseDictionaryLayoutClause | .parseDictionaryRangeClause | .parseSystemFlushExpr | .parseSystemReloadExpr
  | .parseSystemSyncExpr | .parseSystemCtrlExpr | .parseSystemDropExpr | .parseSystemStmt | .parseRoleName | .parseRoleSetting
  | .parseCreateRole | .parseAuthenticationClause | .parseHostClause | .parseDefaultRoleClause | .parseGranteesClause | .parseCreateUser
  | .parserDropUserOrRole | .parsePrivilegeAlter | .parsePrivilegeCreate | .parsePrivilegeDrop | .parsePrivilegeShow | .parsePrivilegeSystem
  | .parseGrantSource | .parseAlterRole | .parseRoleRenamePair | .parseAlterTableDropClause | .parseAlterTableRemoveTTL
  | .parseAlterTableRenameColumn | .tryParseRemovePropertyTypeExpr | .parseAlterTableReset | .parseDropDatabase | .parseDropStmt
  | .tryParseWithTimeout =>
    ⟨[.name], [.plain, .plain]⟩
  | .parseAnyKeyword | .parseIdent | .parseIdentOrStar | .parseIdentOrString | .tryParseIfExists | .tryParseIfNotExists | .parseNestedTypeFields
  | .parseDictionaryArgExprs | .parseUserNames | .parseHostClauses | .tryParseModifier =>
    ⟨[], [.name, .plain]⟩
  | .parseUUID | .tryParseUUID | .tryParseComment | .parseFrameCurrentRow | .parseFrameUnbounded | .parseFrameNumber | .parseFrameParam
  | .parseJSONPath | .parseJSONOption | .parseNestedTypeFieldWithName | .tryParseAfterClause =>
    ⟨[], [.plain, .plain]⟩
  | .tryParseDotIdent | .tryParseDotIdentOrString | .parseJoinModifiers | .parseNestedTypeFieldsWithNames | .parseNestedTypeFieldsWithoutNames
  | .parseColumnStar | .tryParseRoleSettings | .parseRoleSettings | .parsePrivilegeRoles | .parseGrantOptions =>
    ⟨[.name], [.name, .plain]⟩
  | .peekJoinAfterLocality | .canParseWindowNameInParens | .getNextPrecedence | .matchClauseStarterKeyword | .peekIsClauseStarterKeyword
  | .peekIsEndOfStatement | .peekIsExpressionContinuation | .keywordIsSelectItemIdentifier | .isSelectItemTerminatorKeyword =>
    ⟨[], [.name]⟩
  | .parseColumnExprListWithTerm | .parseCreateDictionary | .parseCreateTable | .tryParseTTLClause | .parseCreateFunction
  | .parseTableProjection | .parseCreateView =>
    ⟨[.name, .name], [.plain, .any]⟩
  | .parseSelectItems | .parseTableColumns | .ParseStmts =>
    ⟨[], [.name, .any]⟩
  | .parseComplexType | .parseEnumType | .parseColumnTypeWithParams | .parseJSONType | .parseNestedType =>
    ⟨[.name, .name], [.plain, .plain]⟩
  | .parseFrameExtent | .parseFrameInterval | .parseSelectItem =>
    ⟨[], [.plain, .any]⟩
  | .parseBetweenClause | .parseInfix | .parseInfixLoop =>
    ⟨[.any, .name], [.any, .any]⟩
  | .parseExpr | .parseUnaryExpr | .parseTableArgExpr =>
    ⟨[.name], [.any, .any]⟩
  | .parseJoinType | .peekTokenKind | .peekKeyword =>
    ⟨[.name], [.name]⟩
  | .parseColumnExpr | .parseIdentOrFunction =>
    ⟨[.name], [.atom, .any]⟩
  | .parseCreateUserModifiers | .parseOptionalClauses =>
    ⟨[.plain], [.plain, .plain]⟩
  | .parseFrameDirectionWithEnd =>
    ⟨[], [.any, .name, .plain]⟩
  | .parseFrameDirection =>
    ⟨[], [.any, .plain]⟩
  | .parseTernaryExpr =>
    ⟨[.any], [.any, .any]⟩
  | .parseExtractFrom =>
    ⟨[.any], [.plain, .any]⟩
  | .parseKeywordArgModifier =>
    ⟨[.form, .name], [.any, .name, .any]⟩
  | .parseKeywordArgItem =>
    ⟨[.form, .name, .name], [.any, .name, .any]⟩
  | .parseGrantOption =>
    ⟨[.name], [.any, .plain]⟩
  | .parseSettingsList =>
    ⟨[.name], [.name, .any]⟩
  | .tryParseNull =>
    ⟨[.name], [.plain]⟩
  | .parseKeywordArgFunctionParams =>
    ⟨[.name, .form], [.plain, .any]⟩
  | .parseSubExpr =>
    ⟨[.name, .name], [.any, .any]⟩
  | .parseTTLClause =>
    ⟨[.name, .name], [.name, .any]⟩
  | .parseDefaultClause =>
    ⟨[.plain], [.name, .plain, .plain]⟩

/-- Methods that read operators. -/
def special : Fn → Bool
  | .getNextPrecedence | .parseInfix | .parseInfixLoop | .parseSubExpr | .parseExpr | .parseUnaryExpr | .parseBetweenClause | .parseTernaryExpr
  | .parseTableArgExpr | .parseKeywordArgItem | .parseKeywordArgModifier => true
  | _ => false

/-- All other methods pass the check. -/
theorem all_checked (f : Fn) (hf : special f = false) : checkFn sig f = true := by
  cases f <;> first | (exact absurd hf (by decide)) | decide +kernel

end Verif.Group
