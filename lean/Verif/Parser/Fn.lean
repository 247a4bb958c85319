/-
The names of the methods of `Parser` that are translated, with their place in the source.
Written by tools/genparser.py from the Go text.
-/

namespace Verif

/-- The methods of `Parser` (parser/parser_*.go, parser/parse_system.go). -/
inductive Fn where
  /-- parser/parser_common.go:157-169 -/
  | tryParseIdent
  /-- parser/parser_common.go:176-192 -/
  | parseAnyKeyword
  /-- parser/parser_common.go:194-206 -/
  | parseIdent
  /-- parser/parser_common.go:208-223 -/
  | parseIdentOrStar
  /-- parser/parser_common.go:225-241 -/
  | parseIdentOrString
  /-- parser/parser_common.go:243-250 -/
  | tryParseDotIdent
  /-- parser/parser_common.go:252-262 -/
  | tryParseDotIdentOrString
  /-- parser/parser_common.go:264-276 -/
  | parseUUID
  /-- parser/parser_common.go:278-283 -/
  | tryParseUUID
  /-- parser/parser_common.go:285-290 -/
  | tryParseComment
  /-- parser/parser_common.go:292-301 -/
  | tryParseIfExists
  /-- parser/parser_common.go:303-316 -/
  | tryParseIfNotExists
  /-- parser/parser_common.go:318-323 -/
  | tryParseNull
  /-- parser/parser_common.go:325-337 -/
  | tryParseNotNull
  /-- parser/parser_common.go:339-348 -/
  | parseDecimal
  /-- parser/parser_common.go:350-383 -/
  | parseNumber
  /-- parser/parser_common.go:385-397 -/
  | parseString
  /-- parser/parser_common.go:399-413 -/
  | parseLiteral
  /-- parser/parser_common.go:415-433 -/
  | ParseNestedIdentifier
  /-- parser/parser_common.go:435-440 -/
  | tryParseFormat
  /-- parser/parser_common.go:442-454 -/
  | parseFormat
  /-- parser/parser_common.go:482-500 -/
  | parseRatioExpr
  /-- parser/parser_query.go:11-16 -/
  | tryParseWithClause
  /-- parser/parser_query.go:18-41 -/
  | parseWithClause
  /-- parser/parser_query.go:43-48 -/
  | tryParseTopClause
  /-- parser/parser_query.go:50-75 -/
  | parseTopClause
  /-- parser/parser_query.go:77-82 -/
  | tryParseDistinctOn
  /-- parser/parser_query.go:84-118 -/
  | parseDistinctOn
  /-- parser/parser_query.go:120-125 -/
  | tryParseFromClause
  /-- parser/parser_query.go:127-140 -/
  | parseFromClause
  /-- parser/parser_query.go:142-170 -/
  | tryParseJoinConstraints
  /-- parser/parser_query.go:172-248 -/
  | parseJoinType
  /-- parser/parser_query.go:250-281 -/
  | parseJoinTableExpr
  /-- parser/parser_query.go:287-316 -/
  | parseJoinModifiers
  /-- parser/parser_query.go:321-333 -/
  | peekJoinAfterLocality
  /-- parser/parser_query.go:335-403 -/
  | parseJoinRightExpr
  /-- parser/parser_query.go:405-421 -/
  | parseJoinExpr
  /-- parser/parser_query.go:423-501 -/
  | parseTableExpr
  /-- parser/parser_query.go:503-508 -/
  | tryParsePrewhereClause
  /-- parser/parser_query.go:509-522 -/
  | parsePrewhereClause
  /-- parser/parser_query.go:524-529 -/
  | tryParseWhereClause
  /-- parser/parser_query.go:531-544 -/
  | parseWhereClause
  /-- parser/parser_query.go:546-551 -/
  | tryParseGroupByClause
  /-- parser/parser_query.go:554-614 -/
  | parseGroupByClause
  /-- parser/parser_query.go:616-622 -/
  | tryParseLimitAfterLimitByClause
  /-- parser/parser_query.go:624-630 -/
  | tryParseLimitClause
  /-- parser/parser_query.go:632-661 -/
  | parseLimitClause
  /-- parser/parser_query.go:663-668 -/
  | tryParseLimitByClause
  /-- parser/parser_query.go:670-697 -/
  | parseBetweenClause
  /-- parser/parser_query.go:699-716 -/
  | parseLimitByClause
  /-- parser/parser_query.go:718-723 -/
  | tryParseWindowFrameClause
  /-- parser/parser_query.go:725-767 -/
  | parseWindowFrameClause
  /-- parser/parser_query.go:770-785 -/
  | parseFrameExtent
  /-- parser/parser_query.go:787-798 -/
  | parseFrameCurrentRow
  /-- parser/parser_query.go:800-812 -/
  | parseFrameUnbounded
  /-- parser/parser_query.go:814-829 -/
  | parseFrameNumber
  /-- parser/parser_query.go:831-846 -/
  | parseFrameParam
  /-- parser/parser_query.go:848-863 -/
  | parseFrameInterval
  /-- parser/parser_query.go:865-874 -/
  | parseFrameDirection
  /-- parser/parser_query.go:876-884 -/
  | parseFrameDirectionWithEnd
  /-- parser/parser_query.go:886-891 -/
  | tryParseWindowClause
  /-- parser/parser_query.go:893-931 -/
  | parseWindowCondition
  /-- parser/parser_query.go:933-959 -/
  | canParseWindowNameInParens
  /-- parser/parser_query.go:961-1006 -/
  | parseWindowClause
  /-- parser/parser_query.go:1008-1013 -/
  | tryParseHavingClause
  /-- parser/parser_query.go:1015-1029 -/
  | parseHavingClause
  /-- parser/parser_query.go:1031-1049 -/
  | parseSubQuery
  /-- parser/parser_query.go:1051-1098 -/
  | parseSelectQuery
  /-- parser/parser_query.go:1100-1258 -/
  | parseSelectStmt
  /-- parser/parser_query.go:1260-1290 -/
  | parseCTEStmt
  /-- parser/parser_query.go:1292-1297 -/
  | tryParseSampleClause
  /-- parser/parser_query.go:1299-1322 -/
  | parseSampleClause
  /-- parser/parser_query.go:1324-1349 -/
  | parseExplainStmt
  /-- parser/parser_column.go:32-37 -/
  | tryParseColumnComment
  /-- parser/parser_column.go:39-94 -/
  | getNextPrecedence
  /-- parser/parser_column.go:96-267 -/
  | parseInfix
  /-- parser/parser_column.go:269-271 -/
  | parseExpr
  /-- parser/parser_column.go:273-280 -/
  | parseSubExpr
  /-- parser/parser_column.go:292-306 -/
  | parseInfixLoop
  /-- parser/parser_column.go:308-328 -/
  | parseTernaryExpr
  /-- parser/parser_column.go:330-345 -/
  | parseExtractFrom
  /-- parser/parser_column.go:347-395 -/
  | parseColumnExtractExpr
  /-- parser/parser_column.go:397-425 -/
  | parseUnaryExpr
  /-- parser/parser_column.go:427-436 -/
  | peekTokenKind
  /-- parser/parser_column.go:438-447 -/
  | peekKeyword
  /-- parser/parser_column.go:461-468 -/
  | matchClauseStarterKeyword
  /-- parser/parser_column.go:472-479 -/
  | peekIsClauseStarterKeyword
  /-- parser/parser_column.go:482-488 -/
  | peekIsEndOfStatement
  /-- parser/parser_column.go:503-515 -/
  | peekIsExpressionContinuation
  /-- parser/parser_column.go:538-546 -/
  | keywordIsSelectItemIdentifier
  /-- parser/parser_column.go:551-556 -/
  | isSelectItemTerminatorKeyword
  /-- parser/parser_column.go:558-668 -/
  | parseColumnExpr
  /-- parser/parser_column.go:670-717 -/
  | parseColumnCastExpr
  /-- parser/parser_column.go:719-721 -/
  | parseColumnExprListWithLParen
  /-- parser/parser_column.go:723-725 -/
  | parseColumnExprListWithSquareBracket
  /-- parser/parser_column.go:727-729 -/
  | parseColumnExprList
  /-- parser/parser_column.go:731-759 -/
  | parseColumnExprListWithTerm
  /-- parser/parser_column.go:761-780 -/
  | parseSelectItems
  /-- parser/parser_column.go:782-807 -/
  | parseInterval
  /-- parser/parser_column.go:809-826 -/
  | parseFunctionExpr
  /-- parser/parser_column.go:828-855 -/
  | parseColumnArgList
  /-- parser/parser_column.go:894-935 -/
  | parseKeywordArgItem
  /-- parser/parser_column.go:937-964 -/
  | parseKeywordArgModifier
  /-- parser/parser_column.go:966-1041 -/
  | parseKeywordArgFunctionParams
  /-- parser/parser_column.go:1043-1072 -/
  | parseFunctionParams
  /-- parser/parser_column.go:1074-1109 -/
  | parseMapLiteral
  /-- parser/parser_column.go:1111-1139 -/
  | parseQueryParam
  /-- parser/parser_column.go:1141-1158 -/
  | parseArrayParams
  /-- parser/parser_column.go:1160-1178 -/
  | parseColumnsExpr
  /-- parser/parser_column.go:1180-1224 -/
  | parseSelectItem
  /-- parser/parser_column.go:1226-1286 -/
  | parseColumnCaseExpr
  /-- parser/parser_column.go:1288-1295 -/
  | parseColumnType
  /-- parser/parser_column.go:1297-1336 -/
  | parseColumnTypeArgs
  /-- parser/parser_column.go:1338-1346 -/
  | parseColumnPropertyType
  /-- parser/parser_column.go:1348-1370 -/
  | parseComplexType
  /-- parser/parser_column.go:1372-1398 -/
  | parseEnumType
  /-- parser/parser_column.go:1400-1425 -/
  | parseColumnTypeWithParams
  /-- parser/parser_column.go:1427-1445 -/
  | parseJSONPath
  /-- parser/parser_column.go:1447-1473 -/
  | parseJSONMaxDynamicOptions
  /-- parser/parser_column.go:1475-1543 -/
  | parseJSONOption
  /-- parser/parser_column.go:1545-1574 -/
  | parseJSONType
  /-- parser/parser_column.go:1576-1592 -/
  | parseNestedType
  /-- parser/parser_column.go:1594-1615 -/
  | parseNestedTypeFields
  /-- parser/parser_column.go:1617-1654 -/
  | parseNestedTypeFieldsWithNames
  /-- parser/parser_column.go:1656-1686 -/
  | parseNestedTypeFieldsWithoutNames
  /-- parser/parser_column.go:1688-1707 -/
  | parseNestedTypeFieldWithName
  /-- parser/parser_column.go:1709-1792 -/
  | tryParseCompressionCodecs
  /-- parser/parser_column.go:1794-1812 -/
  | parseEnumValueExpr
  /-- parser/parser_column.go:1814-1823 -/
  | parseColumnStar
  /-- parser/parser_column.go:1825-1843 -/
  | tryParseCompressionLevel
  /-- parser/parser_table.go:9-77 -/
  | parseDDL
  /-- parser/parser_table.go:79-122 -/
  | parseCreateDatabase
  /-- parser/parser_table.go:124-188 -/
  | parseCreateDictionary
  /-- parser/parser_table.go:190-254 -/
  | parseCreateNamedCollection
  /-- parser/parser_table.go:256-308 -/
  | parseNamedCollectionParam
  /-- parser/parser_table.go:310-401 -/
  | parseCreateTable
  /-- parser/parser_table.go:403-510 -/
  | parseIdentOrFunction
  /-- parser/parser_table.go:512-530 -/
  | parseTableIdentifier
  /-- parser/parser_table.go:532-605 -/
  | parseTableSchemaClause
  /-- parser/parser_table.go:607-660 -/
  | parseTableColumns
  /-- parser/parser_table.go:662-667 -/
  | tryParseTableColumnExpr
  /-- parser/parser_table.go:669-750 -/
  | parseTableColumnExpr
  /-- parser/parser_table.go:752-759 -/
  | parseTableArgExpr
  /-- parser/parser_table.go:761-812 -/
  | parseTableArgPrimaryExpr
  /-- parser/parser_table.go:814-886 -/
  | parseTableArgList
  /-- parser/parser_table.go:888-913 -/
  | tryParseClusterClause
  /-- parser/parser_table.go:915-933 -/
  | tryParsePartitionByClause
  /-- parser/parser_table.go:935-953 -/
  | tryParsePrimaryKeyClause
  /-- parser/parser_table.go:955-964 -/
  | tryParseOrderByClause
  /-- parser/parser_table.go:969-987 -/
  | tryParseTableOrderByClause
  /-- parser/parser_table.go:989-1024 -/
  | parseOrderByClause
  /-- parser/parser_table.go:1026-1083 -/
  | parseOrderExpr
  /-- parser/parser_table.go:1085-1125 -/
  | parseFillClause
  /-- parser/parser_table.go:1127-1171 -/
  | parseInterpolateClause
  /-- parser/parser_table.go:1173-1188 -/
  | tryParseTTLClause
  /-- parser/parser_table.go:1192-1207 -/
  | parseTTLClause
  /-- parser/parser_table.go:1209-1259 -/
  | tryParseTTLPolicy
  /-- parser/parser_table.go:1261-1275 -/
  | parseTTLExpr
  /-- parser/parser_table.go:1277-1295 -/
  | tryParseSampleByClause
  /-- parser/parser_table.go:1297-1302 -/
  | tryParseSettingsClause
  /-- parser/parser_table.go:1304-1317 -/
  | parseSettingsClause
  /-- parser/parser_table.go:1319-1334 -/
  | parseSettingsList
  /-- parser/parser_table.go:1336-1384 -/
  | parseSettingsExpr
  /-- parser/parser_table.go:1386-1399 -/
  | parseDestinationClause
  /-- parser/parser_table.go:1401-1406 -/
  | tryParseEngineExpr
  /-- parser/parser_table.go:1408-1487 -/
  | parseEngineExpr
  /-- parser/parser_table.go:1489-1546 -/
  | parseStmt
  /-- parser/parser_table.go:1548-1567 -/
  | ParseStmts
  /-- parser/parser_table.go:1569-1584 -/
  | parseUseStmt
  /-- parser/parser_table.go:1586-1711 -/
  | parseShowStmt
  /-- parser/parser_table.go:1713-1738 -/
  | parseDescribeStmt
  /-- parser/parser_table.go:1741-1781 -/
  | parseTruncateTable
  /-- parser/parser_table.go:1783-1813 -/
  | parseDeleteClause
  /-- parser/parser_table.go:1815-1841 -/
  | parseColumnNamesExpr
  /-- parser/parser_table.go:1843-1869 -/
  | parseTypedPlaceholder
  /-- parser/parser_table.go:1871-1907 -/
  | parseAssignmentValues
  /-- parser/parser_table.go:1909-1968 -/
  | parseInsertStmt
  /-- parser/parser_table.go:1970-2018 -/
  | parseRenameStmt
  /-- parser/parser_table.go:2020-2037 -/
  | parseTargetPair
  /-- parser/parser_table.go:2039-2078 -/
  | parseCreateFunction
  /-- parser/parser_table.go:2082-2114 -/
  | parseDictionarySchemaClause
  /-- parser/parser_table.go:2116-2183 -/
  | parseDictionaryAttribute
  /-- parser/parser_table.go:2185-2255 -/
  | parseDictionaryEngineClause
  /-- parser/parser_table.go:2257-2275 -/
  | parseDictionaryPrimaryKeyClause
  /-- parser/parser_table.go:2277-2315 -/
  | parseDictionarySourceClause
  /-- parser/parser_table.go:2320-2330 -/
  | parseDictionaryArgExprs
  /-- parser/parser_table.go:2332-2406 -/
  | parseDictionaryArgExpr
  /-- parser/parser_table.go:2408-2470 -/
  | parseDictionaryLifetimeClause
  /-- parser/parser_table.go:2472-2510 -/
  | parseDictionaryLayoutClause
  /-- parser/parser_table.go:2512-2571 -/
  | parseDictionaryRangeClause
  /-- parser/parser_table.go:2573-2610 -/
  | parseDictionarySettingsClause
  /-- parser/parse_system.go:8-20 -/
  | parseSetStmt
  /-- parser/parse_system.go:22-34 -/
  | parseSettingsStmt
  /-- parser/parse_system.go:36-63 -/
  | parseSystemFlushExpr
  /-- parser/parse_system.go:65-129 -/
  | parseSystemReloadExpr
  /-- parser/parse_system.go:131-146 -/
  | parseSystemSyncExpr
  /-- parser/parse_system.go:148-199 -/
  | parseSystemCtrlExpr
  /-- parser/parse_system.go:201-239 -/
  | parseSystemDropExpr
  /-- parser/parse_system.go:241-246 -/
  | tryParseDeduplicateClause
  /-- parser/parse_system.go:248-274 -/
  | parseDeduplicateClause
  /-- parser/parse_system.go:276-330 -/
  | parseOptimizeStmt
  /-- parser/parse_system.go:332-360 -/
  | parseSystemStmt
  /-- parser/parse_system.go:362-382 -/
  | parseCheckStmt
  /-- parser/parse_system.go:384-423 -/
  | parseRoleName
  /-- parser/parse_system.go:425-430 -/
  | tryParseRoleSettings
  /-- parser/parse_system.go:432-480 -/
  | parseRoleSetting
  /-- parser/parse_system.go:482-495 -/
  | parseRoleSettings
  /-- parser/parse_system.go:497-563 -/
  | parseCreateRole
  /-- parser/parse_system.go:565-625 -/
  | parseAuthenticationClause
  /-- parser/parse_system.go:627-655 -/
  | parseHostClause
  /-- parser/parse_system.go:657-691 -/
  | parseDefaultRoleClause
  /-- parser/parse_system.go:693-749 -/
  | parseGranteesClause
  /-- parser/parse_system.go:751-770 -/
  | parseCreateUserModifiers
  /-- parser/parse_system.go:772-788 -/
  | parseUserNames
  /-- parser/parse_system.go:790-806 -/
  | parseHostClauses
  /-- parser/parse_system.go:808-839 -/
  | parseDefaultClause
  /-- parser/parse_system.go:841-906 -/
  | parseOptionalClauses
  /-- parser/parse_system.go:908-934 -/
  | parseCreateUser
  /-- parser/parse_system.go:936-996 -/
  | parserDropUserOrRole
  /-- parser/parse_system.go:998-1015 -/
  | parsePrivilegeSelectOrInsert
  /-- parser/parse_system.go:1017-1078 -/
  | parsePrivilegeAlter
  /-- parser/parse_system.go:1080-1104 -/
  | parsePrivilegeCreate
  /-- parser/parse_system.go:1106-1120 -/
  | parsePrivilegeDrop
  /-- parser/parse_system.go:1122-1136 -/
  | parsePrivilegeShow
  /-- parser/parse_system.go:1138-1208 -/
  | parsePrivilegeSystem
  /-- parser/parse_system.go:1210-1272 -/
  | parsePrivilegeClause
  /-- parser/parse_system.go:1274-1289 -/
  | parsePrivilegeRoles
  /-- parser/parse_system.go:1291-1301 -/
  | parseGrantOptions
  /-- parser/parse_system.go:1303-1317 -/
  | parseGrantOption
  /-- parser/parse_system.go:1319-1343 -/
  | parseGrantSource
  /-- parser/parse_system.go:1345-1403 -/
  | parseGrantPrivilegeStmt
  /-- parser/parse_system.go:1405-1445 -/
  | parseAlterRole
  /-- parser/parse_system.go:1447-1468 -/
  | parseRoleRenamePair
  /-- parser/parser_alter.go:8-80 -/
  | parseAlterTable
  /-- parser/parser_alter.go:82-97 -/
  | parseAlterTableAdd
  /-- parser/parser_alter.go:99-139 -/
  | parseAlterTableAddColumn
  /-- parser/parser_alter.go:141-170 -/
  | parseAlterTableAddIndex
  /-- parser/parser_alter.go:172-187 -/
  | tryParseProjectionOrderBy
  /-- parser/parser_alter.go:189-225 -/
  | parseProjectionSelect
  /-- parser/parser_alter.go:227-247 -/
  | parseTableProjection
  /-- parser/parser_alter.go:249-277 -/
  | parseAlterTableAddProjection
  /-- parser/parser_alter.go:279-313 -/
  | parseTableIndex
  /-- parser/parser_alter.go:315-328 -/
  | parseAlterTableDrop
  /-- parser/parser_alter.go:331-355 -/
  | parseAlterTableDetachPartition
  /-- parser/parser_alter.go:357-362 -/
  | tryParsePartitionClause
  /-- parser/parser_alter.go:364-388 -/
  | parsePartitionClause
  /-- parser/parser_alter.go:391-411 -/
  | parseAlterTableAttachPartition
  /-- parser/parser_alter.go:413-456 -/
  | parseAlterTableDropClause
  /-- parser/parser_alter.go:458-464 -/
  | tryParseAfterClause
  /-- parser/parser_alter.go:467-497 -/
  | parseAlterTableDropPartition
  /-- parser/parser_alter.go:499-517 -/
  | parseAlterTableFreezePartition
  /-- parser/parser_alter.go:519-532 -/
  | parseAlterTableRemoveTTL
  /-- parser/parser_alter.go:534-539 -/
  | parseAlterTableClear
  /-- parser/parser_alter.go:542-603 -/
  | parseAlterTableClearClause
  /-- parser/parser_alter.go:606-640 -/
  | parseAlterTableRenameColumn
  /-- parser/parser_alter.go:642-714 -/
  | parseAlterTableModify
  /-- parser/parser_alter.go:717-748 -/
  | parseAlterTableModifyColumn
  /-- parser/parser_alter.go:750-768 -/
  | tryParseRemovePropertyTypeExpr
  /-- parser/parser_alter.go:770-794 -/
  | parseAlterTableReplacePartition
  /-- parser/parser_alter.go:796-844 -/
  | parseAlterTableMaterialize
  /-- parser/parser_alter.go:846-878 -/
  | parseAlterTableReset
  /-- parser/parser_alter.go:881-900 -/
  | parseAlterTableDelete
  /-- parser/parser_alter.go:903-948 -/
  | parseAlterTableUpdate
  /-- parser/parser_alter.go:951-974 -/
  | parseUpdateAssignment
  /-- parser/parser_drop.go:3-44 -/
  | parseDropDatabase
  /-- parser/parser_drop.go:46-91 -/
  | parseDropStmt
  /-- parser/parser_drop.go:93-104 -/
  | tryParseModifier
  /-- parser/parser_view.go:19-188 -/
  | parseCreateMaterializedView
  /-- parser/parser_view.go:190-219 -/
  | tryParseRefreshExpr
  /-- parser/parser_view.go:222-277 -/
  | parseCreateView
  /-- parser/parser_view.go:282-350 -/
  | parseCreateLiveView
  /-- parser/parser_view.go:352-371 -/
  | tryParseWithTimeout
deriving DecidableEq, Repr

end Verif
