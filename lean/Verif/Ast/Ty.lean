/-
The struct types of parser/ast.go, with the line of their declaration.
Written by tools/genast.py from the Go text.
-/

namespace Verif

/-- Struct types declared in parser/ast.go. -/
inductive Ty where
  /-- parser/ast.go:23 -/
  | SelectItem
  /-- parser/ast.go:63 -/
  | OperationExpr
  /-- parser/ast.go:82 -/
  | TernaryOperation
  /-- parser/ast.go:111 -/
  | BinaryOperation
  /-- parser/ast.go:139 -/
  | IndexOperation
  /-- parser/ast.go:165 -/
  | JoinTableExpr
  /-- parser/ast.go:199 -/
  | AlterTable
  /-- parser/ast.go:239 -/
  | AlterTableAttachPartition
  /-- parser/ast.go:275 -/
  | AlterTableDetachPartition
  /-- parser/ast.go:307 -/
  | AlterTableDropPartition
  /-- parser/ast.go:343 -/
  | AlterTableMaterializeProjection
  /-- parser/ast.go:377 -/
  | AlterTableMaterializeIndex
  /-- parser/ast.go:411 -/
  | AlterTableFreezePartition
  /-- parser/ast.go:440 -/
  | AlterTableAddColumn
  /-- parser/ast.go:484 -/
  | AlterTableAddIndex
  /-- parser/ast.go:519 -/
  | ProjectionOrderByClause
  /-- parser/ast.go:543 -/
  | ProjectionSelectStmt
  /-- parser/ast.go:585 -/
  | TableProjection
  /-- parser/ast.go:612 -/
  | AlterTableAddProjection
  /-- parser/ast.go:647 -/
  | AlterTableDropColumn
  /-- parser/ast.go:674 -/
  | AlterTableDropIndex
  /-- parser/ast.go:701 -/
  | AlterTableDropProjection
  /-- parser/ast.go:728 -/
  | AlterTableRemoveTTL
  /-- parser/ast.go:751 -/
  | AlterTableClearColumn
  /-- parser/ast.go:786 -/
  | AlterTableClearIndex
  /-- parser/ast.go:821 -/
  | AlterTableClearProjection
  /-- parser/ast.go:856 -/
  | AlterTableRenameColumn
  /-- parser/ast.go:888 -/
  | AlterTableModifyQuery
  /-- parser/ast.go:915 -/
  | AlterTableModifyOrderBy
  /-- parser/ast.go:942 -/
  | AlterTableModifyTTL
  /-- parser/ast.go:969 -/
  | AlterTableModifyColumn
  /-- parser/ast.go:1004 -/
  | AlterTableModifySetting
  /-- parser/ast.go:1033 -/
  | AlterTableResetSetting
  /-- parser/ast.go:1062 -/
  | AlterTableReplacePartition
  /-- parser/ast.go:1092 -/
  | AlterTableDelete
  /-- parser/ast.go:1119 -/
  | AlterTableUpdate
  /-- parser/ast.go:1158 -/
  | UpdateAssignment
  /-- parser/ast.go:1184 -/
  | RemovePropertyType
  /-- parser/ast.go:1207 -/
  | TableIndex
  /-- parser/ast.go:1242 -/
  | Ident
  /-- parser/ast.go:1263 -/
  | UUID
  /-- parser/ast.go:1286 -/
  | CreateDatabase
  /-- parser/ast.go:1334 -/
  | CreateTable
  /-- parser/ast.go:1406 -/
  | CreateMaterializedView
  /-- parser/ast.go:1507 -/
  | CreateView
  /-- parser/ast.go:1566 -/
  | CreateFunction
  /-- parser/ast.go:1608 -/
  | RoleName
  /-- parser/ast.go:1647 -/
  | SettingPair
  /-- parser/ast.go:1675 -/
  | RoleSetting
  /-- parser/ast.go:1710 -/
  | CreateRole
  /-- parser/ast.go:1753 -/
  | AuthenticationClause
  /-- parser/ast.go:1793 -/
  | HostClause
  /-- parser/ast.go:1819 -/
  | DefaultRoleClause
  /-- parser/ast.go:1845 -/
  | GranteesClause
  /-- parser/ast.go:1878 -/
  | CreateUser
  /-- parser/ast.go:1952 -/
  | AlterRole
  /-- parser/ast.go:1988 -/
  | RoleRenamePair
  /-- parser/ast.go:2016 -/
  | DestinationClause
  /-- parser/ast.go:2047 -/
  | ConstraintClause
  /-- parser/ast.go:2073 -/
  | NullLiteral
  /-- parser/ast.go:2091 -/
  | NotNullLiteral
  /-- parser/ast.go:2113 -/
  | NestedIdentifier
  /-- parser/ast.go:2143 -/
  | Path
  /-- parser/ast.go:2172 -/
  | TableIdentifier
  /-- parser/ast.go:2202 -/
  | TableSchemaClause
  /-- parser/ast.go:2239 -/
  | TableArgListExpr
  /-- parser/ast.go:2264 -/
  | TableFunctionExpr
  /-- parser/ast.go:2289 -/
  | ClusterClause
  /-- parser/ast.go:2311 -/
  | PartitionClause
  /-- parser/ast.go:2345 -/
  | PartitionByClause
  /-- parser/ast.go:2367 -/
  | PrimaryKeyClause
  /-- parser/ast.go:2389 -/
  | SampleByClause
  /-- parser/ast.go:2411 -/
  | TTLPolicyRuleAction
  /-- parser/ast.go:2440 -/
  | RefreshExpr
  /-- parser/ast.go:2474 -/
  | TTLPolicyRule
  /-- parser/ast.go:2516 -/
  | TTLPolicy
  /-- parser/ast.go:2563 -/
  | TTLExpr
  /-- parser/ast.go:2591 -/
  | TTLClause
  /-- parser/ast.go:2616 -/
  | Fill
  /-- parser/ast.go:2670 -/
  | OrderExpr
  /-- parser/ast.go:2711 -/
  | InterpolateItem
  /-- parser/ast.go:2741 -/
  | InterpolateClause
  /-- parser/ast.go:2766 -/
  | OrderByClause
  /-- parser/ast.go:2800 -/
  | SettingExpr
  /-- parser/ast.go:2826 -/
  | SettingsClause
  /-- parser/ast.go:2851 -/
  | ParamExprList
  /-- parser/ast.go:2880 -/
  | KeyValue
  /-- parser/ast.go:2885 -/
  | MapLiteral
  /-- parser/ast.go:2913 -/
  | NamedParameterExpr
  /-- parser/ast.go:2939 -/
  | QueryParam
  /-- parser/ast.go:2966 -/
  | ArrayParamList
  /-- parser/ast.go:2989 -/
  | ObjectParams
  /-- parser/ast.go:3014 -/
  | FunctionExpr
  /-- parser/ast.go:3039 -/
  | WindowFunctionExpr
  /-- parser/ast.go:3065 -/
  | TypedPlaceholder
  /-- parser/ast.go:3092 -/
  | ColumnExpr
  /-- parser/ast.go:3122 -/
  | ColumnDef
  /-- parser/ast.go:3213 -/
  | ScalarType
  /-- parser/ast.go:3238 -/
  | JSONPath
  /-- parser/ast.go:3257 -/
  | JSONTypeHint
  /-- parser/ast.go:3277 -/
  | JSONOption
  /-- parser/ast.go:3314 -/
  | JSONOptions
  /-- parser/ast.go:3340 -/
  | JSONType
  /-- parser/ast.go:3372 -/
  | PropertyType
  /-- parser/ast.go:3397 -/
  | TypeWithParams
  /-- parser/ast.go:3430 -/
  | ComplexType
  /-- parser/ast.go:3463 -/
  | NestedType
  /-- parser/ast.go:3496 -/
  | CompressionCodec
  /-- parser/ast.go:3543 -/
  | NumberLiteral
  /-- parser/ast.go:3564 -/
  | StringLiteral
  /-- parser/ast.go:3584 -/
  | BoolLiteral
  /-- parser/ast.go:3604 -/
  | PlaceHolder
  /-- parser/ast.go:3624 -/
  | RatioExpr
  /-- parser/ast.go:3655 -/
  | EnumValue
  /-- parser/ast.go:3680 -/
  | EnumType
  /-- parser/ast.go:3713 -/
  | IntervalExpr
  /-- parser/ast.go:3745 -/
  | EngineExpr
  /-- parser/ast.go:3807 -/
  | ColumnTypeExpr
  /-- parser/ast.go:3828 -/
  | ColumnArgList
  /-- parser/ast.go:3854 -/
  | ColumnExprList
  /-- parser/ast.go:3880 -/
  | WhenClause
  /-- parser/ast.go:3917 -/
  | CaseExpr
  /-- parser/ast.go:3955 -/
  | CastExpr
  /-- parser/ast.go:3983 -/
  | WithClause
  /-- parser/ast.go:4008 -/
  | TopClause
  /-- parser/ast.go:4032 -/
  | CreateLiveView
  /-- parser/ast.go:4096 -/
  | CreateDictionary
  /-- parser/ast.go:4155 -/
  | CreateNamedCollection
  /-- parser/ast.go:4195 -/
  | NamedCollectionParam
  /-- parser/ast.go:4223 -/
  | DictionarySchemaClause
  /-- parser/ast.go:4248 -/
  | DictionaryAttribute
  /-- parser/ast.go:4290 -/
  | DictionaryEngineClause
  /-- parser/ast.go:4362 -/
  | DictionaryPrimaryKeyClause
  /-- parser/ast.go:4385 -/
  | DictionarySourceClause
  /-- parser/ast.go:4414 -/
  | DictionaryArgExpr
  /-- parser/ast.go:4460 -/
  | DictionaryLifetimeClause
  /-- parser/ast.go:4497 -/
  | DictionaryLayoutClause
  /-- parser/ast.go:4526 -/
  | DictionaryRangeClause
  /-- parser/ast.go:4553 -/
  | WithTimeoutClause
  /-- parser/ast.go:4589 -/
  | TableExpr
  /-- parser/ast.go:4619 -/
  | OnClause
  /-- parser/ast.go:4641 -/
  | UsingClause
  /-- parser/ast.go:4663 -/
  | JoinExpr
  /-- parser/ast.go:4705 -/
  | JoinConstraintClause
  /-- parser/ast.go:4738 -/
  | FromClause
  /-- parser/ast.go:4760 -/
  | IsNullExpr
  /-- parser/ast.go:4783 -/
  | IsNotNullExpr
  /-- parser/ast.go:4806 -/
  | AliasExpr
  /-- parser/ast.go:4832 -/
  | WhereClause
  /-- parser/ast.go:4854 -/
  | PrewhereClause
  /-- parser/ast.go:4876 -/
  | GroupByClause
  /-- parser/ast.go:4905 -/
  | HavingClause
  /-- parser/ast.go:4927 -/
  | LimitClause
  /-- parser/ast.go:4960 -/
  | LimitByClause
  /-- parser/ast.go:4995 -/
  | WindowExpr
  /-- parser/ast.go:5038 -/
  | WindowDefinition
  /-- parser/ast.go:5058 -/
  | WindowClause
  /-- parser/ast.go:5099 -/
  | WindowFrameClause
  /-- parser/ast.go:5122 -/
  | WindowFrameExtendExpr
  /-- parser/ast.go:5148 -/
  | BetweenClause
  /-- parser/ast.go:5184 -/
  | WindowFrameCurrentRow
  /-- parser/ast.go:5203 -/
  | WindowFrameUnbounded
  /-- parser/ast.go:5223 -/
  | WindowFrameNumber
  /-- parser/ast.go:5246 -/
  | WindowFrameParam
  /-- parser/ast.go:5269 -/
  | SelectQuery
  /-- parser/ast.go:5406 -/
  | DistinctOn
  /-- parser/ast.go:5431 -/
  | SubQuery
  /-- parser/ast.go:5455 -/
  | NotExpr
  /-- parser/ast.go:5477 -/
  | NegateExpr
  /-- parser/ast.go:5499 -/
  | GlobalInOperation
  /-- parser/ast.go:5521 -/
  | IntervalFrom
  /-- parser/ast.go:5549 -/
  | ExtractExpr
  /-- parser/ast.go:5574 -/
  | DropDatabase
  /-- parser/ast.go:5609 -/
  | DropStmt
  /-- parser/ast.go:5648 -/
  | DropUserOrRole
  /-- parser/ast.go:5686 -/
  | UseStmt
  /-- parser/ast.go:5709 -/
  | CTEStmt
  /-- parser/ast.go:5735 -/
  | SetStmt
  /-- parser/ast.go:5757 -/
  | FormatClause
  /-- parser/ast.go:5779 -/
  | OptimizeStmt
  /-- parser/ast.go:5821 -/
  | DeduplicateClause
  /-- parser/ast.go:5856 -/
  | SystemStmt
  /-- parser/ast.go:5878 -/
  | SystemFlushExpr
  /-- parser/ast.go:5904 -/
  | SystemReloadExpr
  /-- parser/ast.go:5936 -/
  | SystemSyncExpr
  /-- parser/ast.go:5958 -/
  | SystemCtrlExpr
  /-- parser/ast.go:5985 -/
  | SystemDropExpr
  /-- parser/ast.go:6005 -/
  | TruncateTable
  /-- parser/ast.go:6040 -/
  | SampleClause
  /-- parser/ast.go:6071 -/
  | DeleteClause
  /-- parser/ast.go:6105 -/
  | ColumnNamesExpr
  /-- parser/ast.go:6130 -/
  | AssignmentValues
  /-- parser/ast.go:6155 -/
  | InsertStmt
  /-- parser/ast.go:6216 -/
  | CheckStmt
  /-- parser/ast.go:6244 -/
  | UnaryExpr
  /-- parser/ast.go:6267 -/
  | RenameStmt
  /-- parser/ast.go:6307 -/
  | TargetPair
  /-- parser/ast.go:6332 -/
  | ExplainStmt
  /-- parser/ast.go:6355 -/
  | PrivilegeClause
  /-- parser/ast.go:6381 -/
  | GrantPrivilegeStmt
  /-- parser/ast.go:6427 -/
  | ShowStmt
  /-- parser/ast.go:6497 -/
  | DescribeStmt
  /-- parser/lexer.go:60; no node of the tree, but a value of the parser -/
  | Token
  /-- parser/parser_column.go:861; no node of the tree, but a value of the parser -/
  | KeywordArgForm
  /-- parser/error.go:13; no node of the tree, but a value of the parser -/
  | ParseError
  /-- Go library, errors.New and fmt.Errorf; no node of the tree, but a value of the parser -/
  | PlainError
deriving DecidableEq, Repr

end Verif
