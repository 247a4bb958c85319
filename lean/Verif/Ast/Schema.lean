/-
Fields of the struct types of parser/ast.go, and constructors for them.
Written by tools/genast.py from the Go text.
-/
import Verif.Ast.Lang

set_option linter.unusedVariables false

namespace Verif

/-- The interface types of parser/ast.go:11, 18, 194, 3208, 3539. -/
inductive Iface where
  | Expr | DDL | AlterTableClause | ColumnType | Literal
deriving DecidableEq, Repr

/-- Go types of struct fields (parser/ast.go). -/
inductive FTy where
  | pos | int | bool | str
  /-- a struct -/
  | val (t : Ty)
  /-- a pointer to a struct -/
  | ptr (t : Ty)
  /-- an interface -/
  | iface (i : Iface)
  /-- a slice -/
  | slice (e : FTy)
deriving DecidableEq, Repr

/-- Which struct types have the methods of the interface `Expr` (parser/ast.go:11-16): all but the
helper structs without an `Accept` method. -/
def Ty.isNode : Ty → Bool
  | .KeyValue => false
  | .JSONPath => false
  | .JSONTypeHint => false
  | .JSONOption => false
  | .JSONOptions => false
  | .WindowDefinition => false
  | .Token => false
  | .KeywordArgForm => false
  | .ParseError => false
  | .PlainError => false
  | _ => true

/-- Which struct types implement an interface, by their methods `Type` / `AlterType`
(parser/ast.go). -/
def Ty.implements (i : Iface) (t : Ty) : Bool :=
  match i with
  | .Expr | .Literal => t.isNode
  | .DDL | .ColumnType => t.isNode && match t with
    | .AlterTable -- parser/ast.go:215
    | .CreateDatabase -- parser/ast.go:1304
    | .CreateTable -- parser/ast.go:1358
    | .CreateMaterializedView -- parser/ast.go:1436
    | .CreateView -- parser/ast.go:1528
    | .CreateFunction -- parser/ast.go:1576
    | .CreateRole -- parser/ast.go:1728
    | .CreateUser -- parser/ast.go:1902
    | .AlterRole -- parser/ast.go:1968
    | .ScalarType -- parser/ast.go:3234
    | .JSONType -- parser/ast.go:3356
    | .PropertyType -- parser/ast.go:3393
    | .TypeWithParams -- parser/ast.go:3426
    | .ComplexType -- parser/ast.go:3459
    | .NestedType -- parser/ast.go:3492
    | .EnumType -- parser/ast.go:3709
    | .CreateLiveView -- parser/ast.go:4045
    | .CreateDictionary -- parser/ast.go:4109
    | .CreateNamedCollection -- parser/ast.go:4172
    | .DropDatabase -- parser/ast.go:5591
    | .DropStmt -- parser/ast.go:5629
    | .DropUserOrRole -- parser/ast.go:5666
    | .TruncateTable -- parser/ast.go:6022
    | .RenameStmt -- parser/ast.go:6284
    | .GrantPrivilegeStmt -- parser/ast.go:6399
      => true
    | _ => false
  | .AlterTableClause => t.isNode && match t with
    | .AlterTableAttachPartition -- parser/ast.go:257
    | .AlterTableDetachPartition -- parser/ast.go:289
    | .AlterTableDropPartition -- parser/ast.go:325
    | .AlterTableMaterializeProjection -- parser/ast.go:359
    | .AlterTableMaterializeIndex -- parser/ast.go:393
    | .AlterTableFreezePartition -- parser/ast.go:425
    | .AlterTableAddColumn -- parser/ast.go:461
    | .AlterTableAddIndex -- parser/ast.go:501
    | .AlterTableAddProjection -- parser/ast.go:629
    | .AlterTableDropColumn -- parser/ast.go:661
    | .AlterTableDropIndex -- parser/ast.go:688
    | .AlterTableDropProjection -- parser/ast.go:715
    | .AlterTableRemoveTTL -- parser/ast.go:741
    | .AlterTableClearColumn -- parser/ast.go:768
    | .AlterTableClearIndex -- parser/ast.go:803
    | .AlterTableClearProjection -- parser/ast.go:838
    | .AlterTableRenameColumn -- parser/ast.go:872
    | .AlterTableModifyQuery -- parser/ast.go:902
    | .AlterTableModifyOrderBy -- parser/ast.go:929
    | .AlterTableModifyTTL -- parser/ast.go:956
    | .AlterTableModifyColumn -- parser/ast.go:986
    | .AlterTableModifySetting -- parser/ast.go:1018
    | .AlterTableResetSetting -- parser/ast.go:1047
    | .AlterTableReplacePartition -- parser/ast.go:1076
    | .AlterTableDelete -- parser/ast.go:1106
    | .AlterTableUpdate -- parser/ast.go:1135
      => true
    | _ => false

/-- The field types of every struct in declaration order. -/
def schema : Ty → List FTy
  -- parser/ast.go:23-28: Expr, Modifiers, Alias
  | .SelectItem => [.iface .Expr, .slice (.ptr .FunctionExpr), .ptr .Ident]
  -- parser/ast.go:63-66: OperationPos, Kind
  | .OperationExpr => [.pos, .str]
  -- parser/ast.go:82-86: Condition, TrueExpr, FalseExpr
  | .TernaryOperation => [.iface .Expr, .iface .Expr, .iface .Expr]
  -- parser/ast.go:111-117: LeftExpr, Operation, RightExpr, HasGlobal, HasNot
  | .BinaryOperation => [.iface .Expr, .str, .iface .Expr, .bool, .bool]
  -- parser/ast.go:139-143: Object, Operation, Index
  | .IndexOperation => [.iface .Expr, .str, .iface .Expr]
  -- parser/ast.go:165-170: Table, StatementEnd, SampleRatio, HasFinal
  | .JoinTableExpr => [.ptr .TableExpr, .pos, .ptr .SampleClause, .bool]
  -- parser/ast.go:199-205: AlterPos, StatementEnd, TableIdentifier, OnCluster, AlterExprs
  | .AlterTable => [.pos, .pos, .ptr .TableIdentifier, .ptr .ClusterClause, .slice (.iface .AlterTableClause)]
  -- parser/ast.go:239-244: AttachPos, Partition, From
  | .AlterTableAttachPartition => [.pos, .ptr .PartitionClause, .ptr .TableIdentifier]
  -- parser/ast.go:275-279: DetachPos, Partition, Settings
  | .AlterTableDetachPartition => [.pos, .ptr .PartitionClause, .ptr .SettingsClause]
  -- parser/ast.go:307-312: DropPos, HasDetached, Partition, Settings
  | .AlterTableDropPartition => [.pos, .bool, .ptr .PartitionClause, .ptr .SettingsClause]
  -- parser/ast.go:343-349: MaterializedPos, StatementEnd, IfExists, ProjectionName, Partition
  | .AlterTableMaterializeProjection => [.pos, .pos, .bool, .ptr .NestedIdentifier, .ptr .PartitionClause]
  -- parser/ast.go:377-383: MaterializedPos, StatementEnd, IfExists, IndexName, Partition
  | .AlterTableMaterializeIndex => [.pos, .pos, .bool, .ptr .NestedIdentifier, .ptr .PartitionClause]
  -- parser/ast.go:411-415: FreezePos, StatementEnd, Partition
  | .AlterTableFreezePartition => [.pos, .pos, .ptr .PartitionClause]
  -- parser/ast.go:440-448: AddPos, StatementEnd, Column, IfNotExists, After, Settings
  | .AlterTableAddColumn => [.pos, .pos, .ptr .ColumnDef, .bool, .ptr .NestedIdentifier, .ptr .SettingsClause]
  -- parser/ast.go:484-491: AddPos, StatementEnd, Index, IfNotExists, After
  | .AlterTableAddIndex => [.pos, .pos, .ptr .TableIndex, .bool, .ptr .NestedIdentifier]
  -- parser/ast.go:519-522: OrderByPos, Columns
  | .ProjectionOrderByClause => [.pos, .ptr .ColumnExprList]
  -- parser/ast.go:543-550: LeftParenPos, RightParenPos, With, SelectColumns, GroupBy, OrderBy
  | .ProjectionSelectStmt => [.pos, .pos, .ptr .WithClause, .ptr .ColumnExprList, .ptr .GroupByClause, .ptr .ProjectionOrderByClause]
  -- parser/ast.go:585-590: IncludeProjectionKeyword, ProjectionPos, Identifier, Select
  | .TableProjection => [.bool, .pos, .ptr .NestedIdentifier, .ptr .ProjectionSelectStmt]
  -- parser/ast.go:612-619: AddPos, StatementEnd, IfNotExists, TableProjection, After
  | .AlterTableAddProjection => [.pos, .pos, .bool, .ptr .TableProjection, .ptr .NestedIdentifier]
  -- parser/ast.go:647-651: DropPos, ColumnName, IfExists
  | .AlterTableDropColumn => [.pos, .ptr .NestedIdentifier, .bool]
  -- parser/ast.go:674-678: DropPos, IndexName, IfExists
  | .AlterTableDropIndex => [.pos, .ptr .NestedIdentifier, .bool]
  -- parser/ast.go:701-705: DropPos, ProjectionName, IfExists
  | .AlterTableDropProjection => [.pos, .ptr .NestedIdentifier, .bool]
  -- parser/ast.go:728-731: RemovePos, StatementEnd
  | .AlterTableRemoveTTL => [.pos, .pos]
  -- parser/ast.go:751-758: ClearPos, StatementEnd, IfExists, ColumnName, PartitionExpr
  | .AlterTableClearColumn => [.pos, .pos, .bool, .ptr .NestedIdentifier, .ptr .PartitionClause]
  -- parser/ast.go:786-793: ClearPos, StatementEnd, IfExists, IndexName, PartitionExpr
  | .AlterTableClearIndex => [.pos, .pos, .bool, .ptr .NestedIdentifier, .ptr .PartitionClause]
  -- parser/ast.go:821-828: ClearPos, StatementEnd, IfExists, ProjectionName, PartitionExpr
  | .AlterTableClearProjection => [.pos, .pos, .bool, .ptr .NestedIdentifier, .ptr .PartitionClause]
  -- parser/ast.go:856-862: RenamePos, IfExists, OldColumnName, NewColumnName
  | .AlterTableRenameColumn => [.pos, .bool, .ptr .NestedIdentifier, .ptr .NestedIdentifier]
  -- parser/ast.go:888-892: ModifyPos, StatementEnd, SelectExpr
  | .AlterTableModifyQuery => [.pos, .pos, .ptr .SelectQuery]
  -- parser/ast.go:915-919: ModifyPos, StatementEnd, OrderBy
  | .AlterTableModifyOrderBy => [.pos, .pos, .iface .Expr]
  -- parser/ast.go:942-946: ModifyPos, StatementEnd, TTL
  | .AlterTableModifyTTL => [.pos, .pos, .ptr .TTLClause]
  -- parser/ast.go:969-976: ModifyPos, StatementEnd, IfExists, Column, RemovePropertyType
  | .AlterTableModifyColumn => [.pos, .pos, .bool, .ptr .ColumnDef, .ptr .RemovePropertyType]
  -- parser/ast.go:1004-1008: ModifyPos, StatementEnd, Settings
  | .AlterTableModifySetting => [.pos, .pos, .slice (.ptr .SettingExpr)]
  -- parser/ast.go:1033-1037: ResetPos, StatementEnd, Settings
  | .AlterTableResetSetting => [.pos, .pos, .slice (.ptr .Ident)]
  -- parser/ast.go:1062-1066: ReplacePos, Partition, Table
  | .AlterTableReplacePartition => [.pos, .ptr .PartitionClause, .ptr .TableIdentifier]
  -- parser/ast.go:1092-1096: DeletePos, StatementEnd, WhereClause
  | .AlterTableDelete => [.pos, .pos, .iface .Expr]
  -- parser/ast.go:1119-1125: UpdatePos, StatementEnd, Assignments, InPartition, WhereClause
  | .AlterTableUpdate => [.pos, .pos, .slice (.ptr .UpdateAssignment), .ptr .PartitionClause, .iface .Expr]
  -- parser/ast.go:1158-1162: AssignmentPos, Column, Expr
  | .UpdateAssignment => [.pos, .ptr .NestedIdentifier, .iface .Expr]
  -- parser/ast.go:1184-1188: RemovePos, PropertyType
  | .RemovePropertyType => [.pos, .iface .Expr]
  -- parser/ast.go:1207-1214: IndexPos, Name, ColumnExpr, ColumnType, Granularity
  | .TableIndex => [.pos, .ptr .NestedIdentifier, .ptr .ColumnExpr, .iface .Expr, .ptr .NumberLiteral]
  -- parser/ast.go:1242-1247: Name, QuoteType, NamePos, NameEnd
  | .Ident => [.str, .int, .pos, .pos]
  -- parser/ast.go:1263-1265: Value
  | .UUID => [.ptr .StringLiteral]
  -- parser/ast.go:1286-1294: CreatePos, StatementEnd, Name, IfNotExists, OnCluster, Engine, Comment
  | .CreateDatabase => [.pos, .pos, .iface .Expr, .bool, .ptr .ClusterClause, .ptr .EngineExpr, .ptr .StringLiteral]
  -- parser/ast.go:1334-1348: CreatePos, StatementEnd, OrReplace, Name, IfNotExists, UUID, OnCluster, TableSchema, Engine, SubQuery, TableFunction, HasTemporary, Comment
  | .CreateTable => [.pos, .pos, .bool, .ptr .TableIdentifier, .bool, .ptr .UUID, .ptr .ClusterClause, .ptr .TableSchemaClause, .ptr .EngineExpr, .ptr .SubQuery, .ptr .TableFunctionExpr, .bool, .ptr .StringLiteral]
  -- parser/ast.go:1406-1426: CreatePos, StatementEnd, Name, IfNotExists, OnCluster, Refresh, RandomizeFor, DependsOn, Settings, HasAppend, Engine, TableSchema, HasEmpty, Destination, SubQuery, Populate, Comment, Definer, SQLSecurity
  | .CreateMaterializedView => [.pos, .pos, .ptr .TableIdentifier, .bool, .ptr .ClusterClause, .ptr .RefreshExpr, .ptr .IntervalExpr, .slice (.ptr .TableIdentifier), .ptr .SettingsClause, .bool, .ptr .EngineExpr, .ptr .TableSchemaClause, .bool, .ptr .DestinationClause, .ptr .SubQuery, .bool, .ptr .StringLiteral, .ptr .Ident, .str]
  -- parser/ast.go:1507-1518: CreatePos, StatementEnd, OrReplace, Name, IfNotExists, UUID, OnCluster, TableSchema, Comment, SubQuery
  | .CreateView => [.pos, .pos, .bool, .ptr .TableIdentifier, .bool, .ptr .UUID, .ptr .ClusterClause, .ptr .TableSchemaClause, .ptr .StringLiteral, .ptr .SubQuery]
  -- parser/ast.go:1566-1574: CreatePos, OrReplace, IfNotExists, FunctionName, OnCluster, Params, Expr
  | .CreateFunction => [.pos, .bool, .bool, .ptr .Ident, .ptr .ClusterClause, .ptr .ParamExprList, .iface .Expr]
  -- parser/ast.go:1608-1612: Name, Scope, OnCluster
  | .RoleName => [.iface .Expr, .ptr .StringLiteral, .ptr .ClusterClause]
  -- parser/ast.go:1647-1651: Name, Operation, Value
  | .SettingPair => [.ptr .Ident, .str, .iface .Expr]
  -- parser/ast.go:1675-1678: SettingPairs, Modifier
  | .RoleSetting => [.slice (.ptr .SettingPair), .ptr .Ident]
  -- parser/ast.go:1710-1718: CreatePos, StatementEnd, IfNotExists, OrReplace, RoleNames, AccessStorageType, Settings
  | .CreateRole => [.pos, .pos, .bool, .bool, .slice (.ptr .RoleName), .ptr .Ident, .slice (.ptr .RoleSetting)]
  -- parser/ast.go:1753-1762: AuthPos, AuthEnd, NotIdentified, AuthType, AuthValue, LdapServer, KerberosRealm, IsKerberos
  | .AuthenticationClause => [.pos, .pos, .bool, .str, .ptr .StringLiteral, .ptr .StringLiteral, .ptr .StringLiteral, .bool]
  -- parser/ast.go:1793-1798: HostPos, HostEnd, HostType, HostValue
  | .HostClause => [.pos, .pos, .str, .ptr .StringLiteral]
  -- parser/ast.go:1819-1824: DefaultPos, DefaultEnd, Roles, None
  | .DefaultRoleClause => [.pos, .pos, .slice (.ptr .RoleName), .bool]
  -- parser/ast.go:1845-1852: GranteesPos, GranteesEnd, Grantees, ExceptUsers, Any, None
  | .GranteesClause => [.pos, .pos, .slice (.ptr .RoleName), .slice (.ptr .RoleName), .bool, .bool]
  -- parser/ast.go:1878-1892: CreatePos, StatementEnd, IfNotExists, OrReplace, UserNames, Authentication, ValidUntil, Hosts, DefaultRole, DefaultDatabase, DefaultDbNone, Grantees, Settings
  | .CreateUser => [.pos, .pos, .bool, .bool, .slice (.ptr .RoleName), .ptr .AuthenticationClause, .ptr .StringLiteral, .slice (.ptr .HostClause), .ptr .DefaultRoleClause, .ptr .Ident, .bool, .ptr .GranteesClause, .slice (.ptr .RoleSetting)]
  -- parser/ast.go:1952-1958: AlterPos, StatementEnd, IfExists, RoleRenamePairs, Settings
  | .AlterRole => [.pos, .pos, .bool, .slice (.ptr .RoleRenamePair), .slice (.ptr .RoleSetting)]
  -- parser/ast.go:1988-1992: RoleName, NewName, StatementEnd
  | .RoleRenamePair => [.ptr .RoleName, .iface .Expr, .pos]
  -- parser/ast.go:2016-2020: ToPos, TableIdentifier, TableSchema
  | .DestinationClause => [.pos, .ptr .TableIdentifier, .ptr .TableSchemaClause]
  -- parser/ast.go:2047-2051: ConstraintPos, Constraint, Expr
  | .ConstraintClause => [.pos, .ptr .Ident, .iface .Expr]
  -- parser/ast.go:2073-2075: NullPos
  | .NullLiteral => [.pos]
  -- parser/ast.go:2091-2094: NotPos, NullLiteral
  | .NotNullLiteral => [.pos, .ptr .NullLiteral]
  -- parser/ast.go:2113-2116: Ident, DotIdent
  | .NestedIdentifier => [.ptr .Ident, .ptr .Ident]
  -- parser/ast.go:2143-2145: Fields
  | .Path => [.slice (.ptr .Ident)]
  -- parser/ast.go:2172-2175: Database, Table
  | .TableIdentifier => [.ptr .Ident, .ptr .Ident]
  -- parser/ast.go:2202-2208: SchemaPos, SchemaEnd, Columns, AliasTable, TableFunction
  | .TableSchemaClause => [.pos, .pos, .slice (.iface .Expr), .ptr .TableIdentifier, .ptr .TableFunctionExpr]
  -- parser/ast.go:2239-2243: LeftParenPos, RightParenPos, Args
  | .TableArgListExpr => [.pos, .pos, .slice (.iface .Expr)]
  -- parser/ast.go:2264-2267: Name, Args
  | .TableFunctionExpr => [.iface .Expr, .ptr .TableArgListExpr]
  -- parser/ast.go:2289-2292: OnPos, Expr
  | .ClusterClause => [.pos, .iface .Expr]
  -- parser/ast.go:2311-2316: PartitionPos, Expr, ID, All
  | .PartitionClause => [.pos, .iface .Expr, .ptr .StringLiteral, .bool]
  -- parser/ast.go:2345-2348: PartitionPos, Expr
  | .PartitionByClause => [.pos, .iface .Expr]
  -- parser/ast.go:2367-2370: PrimaryPos, Expr
  | .PrimaryKeyClause => [.pos, .iface .Expr]
  -- parser/ast.go:2389-2392: SamplePos, Expr
  | .SampleByClause => [.pos, .iface .Expr]
  -- parser/ast.go:2411-2416: ActionPos, ActionEnd, Action, Codec
  | .TTLPolicyRuleAction => [.pos, .pos, .str, .ptr .CompressionCodec]
  -- parser/ast.go:2440-2445: RefreshPos, Frequency, Interval, Offset
  | .RefreshExpr => [.pos, .str, .ptr .IntervalExpr, .ptr .IntervalExpr]
  -- parser/ast.go:2474-2479: RulePos, ToVolume, ToDisk, Action
  | .TTLPolicyRule => [.pos, .ptr .StringLiteral, .ptr .StringLiteral, .ptr .TTLPolicyRuleAction]
  -- parser/ast.go:2516-2520: Item, Where, GroupBy
  | .TTLPolicy => [.ptr .TTLPolicyRule, .ptr .WhereClause, .ptr .GroupByClause]
  -- parser/ast.go:2563-2567: TTLPos, Expr, Policy
  | .TTLExpr => [.pos, .iface .Expr, .ptr .TTLPolicy]
  -- parser/ast.go:2591-2595: TTLPos, ListEnd, Items
  | .TTLClause => [.pos, .pos, .slice (.ptr .TTLExpr)]
  -- parser/ast.go:2616-2622: FillPos, From, To, Step, Staleness
  | .Fill => [.pos, .iface .Expr, .iface .Expr, .iface .Expr, .iface .Expr]
  -- parser/ast.go:2670-2676: OrderPos, Expr, Alias, Direction, Fill
  | .OrderExpr => [.pos, .iface .Expr, .ptr .Ident, .str, .ptr .Fill]
  -- parser/ast.go:2711-2714: Column, Expr
  | .InterpolateItem => [.ptr .Ident, .iface .Expr]
  -- parser/ast.go:2741-2745: InterpolatePos, ListEnd, Items
  | .InterpolateClause => [.pos, .pos, .slice (.ptr .InterpolateItem)]
  -- parser/ast.go:2766-2771: OrderPos, ListEnd, Items, Interpolate
  | .OrderByClause => [.pos, .pos, .slice (.iface .Expr), .ptr .InterpolateClause]
  -- parser/ast.go:2800-2804: SettingsPos, Name, Expr
  | .SettingExpr => [.pos, .ptr .Ident, .iface .Expr]
  -- parser/ast.go:2826-2830: SettingsPos, ListEnd, Items
  | .SettingsClause => [.pos, .pos, .slice (.ptr .SettingExpr)]
  -- parser/ast.go:2851-2856: LeftParenPos, RightParenPos, Items, ColumnArgList
  | .ParamExprList => [.pos, .pos, .ptr .ColumnExprList, .ptr .ColumnArgList]
  -- parser/ast.go:2880-2883: Key, Value
  | .KeyValue => [.val .StringLiteral, .iface .Expr]
  -- parser/ast.go:2885-2889: LBracePos, RBracePos, KeyValues
  | .MapLiteral => [.pos, .pos, .slice (.val .KeyValue)]
  -- parser/ast.go:2913-2917: NamePos, Name, Value
  | .NamedParameterExpr => [.pos, .ptr .Ident, .iface .Expr]
  -- parser/ast.go:2939-2944: LBracePos, RBracePos, Name, Type
  | .QueryParam => [.pos, .pos, .ptr .Ident, .iface .ColumnType]
  -- parser/ast.go:2966-2970: LeftBracketPos, RightBracketPos, Items
  | .ArrayParamList => [.pos, .pos, .ptr .ColumnExprList]
  -- parser/ast.go:2989-2992: Object, Params
  | .ObjectParams => [.iface .Expr, .ptr .ArrayParamList]
  -- parser/ast.go:3014-3017: Name, Params
  | .FunctionExpr => [.ptr .Ident, .ptr .ParamExprList]
  -- parser/ast.go:3039-3043: Function, OverPos, OverExpr
  | .WindowFunctionExpr => [.ptr .FunctionExpr, .pos, .iface .Expr]
  -- parser/ast.go:3065-3070: LeftBracePos, RightBracePos, Name, Type
  | .TypedPlaceholder => [.pos, .pos, .ptr .Ident, .iface .ColumnType]
  -- parser/ast.go:3092-3095: Expr, Alias
  | .ColumnExpr => [.iface .Expr, .ptr .Ident]
  -- parser/ast.go:3122-3139: NamePos, ColumnEnd, Name, Type, NotNull, Nullable, DefaultExpr, MaterializedExpr, AliasExpr, Codec, TTL, Comment, CompressionCodec
  | .ColumnDef => [.pos, .pos, .ptr .NestedIdentifier, .iface .ColumnType, .ptr .NotNullLiteral, .ptr .NullLiteral, .iface .Expr, .iface .Expr, .iface .Expr, .ptr .CompressionCodec, .ptr .TTLClause, .ptr .StringLiteral, .ptr .Ident]
  -- parser/ast.go:3213-3215: Name
  | .ScalarType => [.ptr .Ident]
  -- parser/ast.go:3238-3240: Idents
  | .JSONPath => [.slice (.ptr .Ident)]
  -- parser/ast.go:3257-3260: Path, Type
  | .JSONTypeHint => [.ptr .JSONPath, .iface .ColumnType]
  -- parser/ast.go:3277-3284: SkipPath, SkipRegex, MaxDynamicPaths, MaxDynamicTypes, Column
  | .JSONOption => [.ptr .JSONPath, .ptr .StringLiteral, .ptr .NumberLiteral, .ptr .NumberLiteral, .ptr .JSONTypeHint]
  -- parser/ast.go:3314-3318: LParen, RParen, Items
  | .JSONOptions => [.pos, .pos, .slice (.ptr .JSONOption)]
  -- parser/ast.go:3340-3343: Name, Options
  | .JSONType => [.ptr .Ident, .ptr .JSONOptions]
  -- parser/ast.go:3372-3374: Name
  | .PropertyType => [.ptr .Ident]
  -- parser/ast.go:3397-3402: LeftParenPos, RightParenPos, Name, Params
  | .TypeWithParams => [.pos, .pos, .ptr .Ident, .slice (.iface .Literal)]
  -- parser/ast.go:3430-3435: LeftParenPos, RightParenPos, Name, Params
  | .ComplexType => [.pos, .pos, .ptr .Ident, .slice (.iface .ColumnType)]
  -- parser/ast.go:3463-3468: LeftParenPos, RightParenPos, Name, Columns
  | .NestedType => [.pos, .pos, .ptr .Ident, .slice (.iface .Expr)]
  -- parser/ast.go:3496-3503: CodecPos, RightParenPos, Type, TypeLevel, Name, Level
  | .CompressionCodec => [.pos, .pos, .ptr .Ident, .ptr .NumberLiteral, .ptr .Ident, .ptr .NumberLiteral]
  -- parser/ast.go:3543-3548: NumPos, NumEnd, Literal, Base
  | .NumberLiteral => [.pos, .pos, .str, .int]
  -- parser/ast.go:3564-3568: LiteralPos, LiteralEnd, Literal
  | .StringLiteral => [.pos, .pos, .str]
  -- parser/ast.go:3584-3588: LiteralPos, LiteralEnd, Literal
  | .BoolLiteral => [.pos, .pos, .str]
  -- parser/ast.go:3604-3608: PlaceholderPos, PlaceHolderEnd, Type
  | .PlaceHolder => [.pos, .pos, .str]
  -- parser/ast.go:3624-3628: Numerator, Denominator
  | .RatioExpr => [.ptr .NumberLiteral, .ptr .NumberLiteral]
  -- parser/ast.go:3655-3658: Name, Value
  | .EnumValue => [.ptr .StringLiteral, .ptr .NumberLiteral]
  -- parser/ast.go:3680-3685: Name, ListPos, ListEnd, Values
  | .EnumType => [.ptr .Ident, .pos, .pos, .slice (.val .EnumValue)]
  -- parser/ast.go:3713-3719: IntervalPos, Expr, Unit
  | .IntervalExpr => [.pos, .iface .Expr, .ptr .Ident]
  -- parser/ast.go:3745-3756: EnginePos, EngineEnd, Name, Params, PrimaryKey, PartitionBy, SampleBy, TTL, Settings, OrderBy
  | .EngineExpr => [.pos, .pos, .str, .ptr .ParamExprList, .ptr .PrimaryKeyClause, .ptr .PartitionByClause, .ptr .SampleByClause, .ptr .TTLClause, .ptr .SettingsClause, .ptr .OrderByClause]
  -- parser/ast.go:3807-3809: Name
  | .ColumnTypeExpr => [.ptr .Ident]
  -- parser/ast.go:3828-3833: Distinct, LeftParenPos, RightParenPos, Items
  | .ColumnArgList => [.bool, .pos, .pos, .slice (.iface .Expr)]
  -- parser/ast.go:3854-3859: ListPos, ListEnd, HasDistinct, Items
  | .ColumnExprList => [.pos, .pos, .bool, .slice (.iface .Expr)]
  -- parser/ast.go:3880-3887: WhenPos, ThenPos, When, Then, ElsePos, Else
  | .WhenClause => [.pos, .pos, .iface .Expr, .iface .Expr, .pos, .iface .Expr]
  -- parser/ast.go:3917-3924: CasePos, EndPos, Expr, Whens, ElsePos, Else
  | .CaseExpr => [.pos, .pos, .iface .Expr, .slice (.ptr .WhenClause), .pos, .iface .Expr]
  -- parser/ast.go:3955-3961: CastPos, Expr, Separator, AsPos, AsType
  | .CastExpr => [.pos, .iface .Expr, .str, .pos, .iface .Expr]
  -- parser/ast.go:3983-3987: WithPos, EndPos, CTEs
  | .WithClause => [.pos, .pos, .slice (.ptr .CTEStmt)]
  -- parser/ast.go:4008-4013: TopPos, TopEnd, Number, WithTies
  | .TopClause => [.pos, .pos, .ptr .NumberLiteral, .bool]
  -- parser/ast.go:4032-4043: CreatePos, StatementEnd, Name, IfNotExists, UUID, OnCluster, Destination, TableSchema, WithTimeout, SubQuery
  | .CreateLiveView => [.pos, .pos, .ptr .TableIdentifier, .bool, .ptr .UUID, .ptr .ClusterClause, .ptr .DestinationClause, .ptr .TableSchemaClause, .ptr .WithTimeoutClause, .ptr .SubQuery]
  -- parser/ast.go:4096-4107: CreatePos, StatementEnd, OrReplace, Name, IfNotExists, UUID, OnCluster, Schema, Engine, Comment
  | .CreateDictionary => [.pos, .pos, .bool, .ptr .TableIdentifier, .bool, .ptr .UUID, .ptr .ClusterClause, .ptr .DictionarySchemaClause, .ptr .DictionaryEngineClause, .ptr .StringLiteral]
  -- parser/ast.go:4155-4162: CreatePos, StatementEnd, Name, IfNotExists, OnCluster, Params
  | .CreateNamedCollection => [.pos, .pos, .ptr .Ident, .bool, .ptr .ClusterClause, .slice (.ptr .NamedCollectionParam)]
  -- parser/ast.go:4195-4201: ParamPos, Name, Value, Overridable, NotOverridable
  | .NamedCollectionParam => [.pos, .ptr .Ident, .iface .Expr, .bool, .bool]
  -- parser/ast.go:4223-4227: SchemaPos, Attributes, RParenPos
  | .DictionarySchemaClause => [.pos, .slice (.ptr .DictionaryAttribute), .pos]
  -- parser/ast.go:4248-4258: NamePos, AttrEnd, Name, Type, Default, Expression, Hierarchical, Injective, IsObjectId
  | .DictionaryAttribute => [.pos, .pos, .ptr .Ident, .iface .ColumnType, .iface .Literal, .iface .Expr, .bool, .bool, .bool]
  -- parser/ast.go:4290-4298: EnginePos, PrimaryKey, Source, Lifetime, Layout, Range, Settings
  | .DictionaryEngineClause => [.pos, .ptr .DictionaryPrimaryKeyClause, .ptr .DictionarySourceClause, .ptr .DictionaryLifetimeClause, .ptr .DictionaryLayoutClause, .ptr .DictionaryRangeClause, .ptr .SettingsClause]
  -- parser/ast.go:4362-4366: PrimaryKeyPos, Keys, RParenPos
  | .DictionaryPrimaryKeyClause => [.pos, .ptr .ColumnExprList, .pos]
  -- parser/ast.go:4385-4390: SourcePos, Source, Args, RParenPos
  | .DictionarySourceClause => [.pos, .ptr .Ident, .slice (.ptr .DictionaryArgExpr), .pos]
  -- parser/ast.go:4414-4424: ArgPos, Name, Value, Args, LParenPos, RParenPos
  | .DictionaryArgExpr => [.pos, .ptr .Ident, .iface .Expr, .slice (.ptr .DictionaryArgExpr), .pos, .pos]
  -- parser/ast.go:4460-4466: LifetimePos, Min, Max, Value, RParenPos
  | .DictionaryLifetimeClause => [.pos, .ptr .NumberLiteral, .ptr .NumberLiteral, .ptr .NumberLiteral, .pos]
  -- parser/ast.go:4497-4502: LayoutPos, Layout, Args, RParenPos
  | .DictionaryLayoutClause => [.pos, .ptr .Ident, .slice (.ptr .DictionaryArgExpr), .pos]
  -- parser/ast.go:4526-4531: RangePos, Min, Max, RParenPos
  | .DictionaryRangeClause => [.pos, .ptr .Ident, .ptr .Ident, .pos]
  -- parser/ast.go:4553-4557: WithTimeoutPos, Expr, Number
  | .WithTimeoutClause => [.pos, .iface .Expr, .ptr .NumberLiteral]
  -- parser/ast.go:4589-4595: TablePos, TableEnd, Alias, Expr, HasFinal
  | .TableExpr => [.pos, .pos, .ptr .AliasExpr, .iface .Expr, .bool]
  -- parser/ast.go:4619-4622: OnPos, On
  | .OnClause => [.pos, .ptr .ColumnExprList]
  -- parser/ast.go:4641-4644: UsingPos, Using
  | .UsingClause => [.pos, .ptr .ColumnExprList]
  -- parser/ast.go:4663-4669: JoinPos, Left, Right, Modifiers, Constraints
  | .JoinExpr => [.pos, .iface .Expr, .iface .Expr, .slice .str, .iface .Expr]
  -- parser/ast.go:4705-4709: ConstraintPos, On, Using
  | .JoinConstraintClause => [.pos, .ptr .ColumnExprList, .ptr .ColumnExprList]
  -- parser/ast.go:4738-4741: FromPos, Expr
  | .FromClause => [.pos, .iface .Expr]
  -- parser/ast.go:4760-4764: IsPos, NullEnd, Expr
  | .IsNullExpr => [.pos, .pos, .iface .Expr]
  -- parser/ast.go:4783-4787: IsPos, NullEnd, Expr
  | .IsNotNullExpr => [.pos, .pos, .iface .Expr]
  -- parser/ast.go:4806-4810: Expr, AliasPos, Alias
  | .AliasExpr => [.iface .Expr, .pos, .iface .Expr]
  -- parser/ast.go:4832-4835: WherePos, Expr
  | .WhereClause => [.pos, .iface .Expr]
  -- parser/ast.go:4854-4857: PrewherePos, Expr
  | .PrewhereClause => [.pos, .iface .Expr]
  -- parser/ast.go:4876-4884: GroupByPos, GroupByEnd, AggregateType, Expr, WithCube, WithRollup, WithTotals
  | .GroupByClause => [.pos, .pos, .str, .iface .Expr, .bool, .bool, .bool]
  -- parser/ast.go:4905-4908: HavingPos, Expr
  | .HavingClause => [.pos, .iface .Expr]
  -- parser/ast.go:4927-4931: LimitPos, Limit, Offset
  | .LimitClause => [.pos, .iface .Expr, .iface .Expr]
  -- parser/ast.go:4960-4963: Limit, ByExpr
  | .LimitByClause => [.ptr .LimitClause, .ptr .ColumnExprList]
  -- parser/ast.go:4995-5002: LeftParenPos, RightParenPos, WindowName, PartitionBy, OrderBy, Frame
  | .WindowExpr => [.pos, .pos, .ptr .Ident, .ptr .PartitionByClause, .ptr .OrderByClause, .ptr .WindowFrameClause]
  -- parser/ast.go:5038-5042: Name, AsPos, Expr
  | .WindowDefinition => [.ptr .Ident, .pos, .ptr .WindowExpr]
  -- parser/ast.go:5058-5062: WindowPos, EndPos, Windows
  | .WindowClause => [.pos, .pos, .slice (.ptr .WindowDefinition)]
  -- parser/ast.go:5099-5103: FramePos, Type, Extend
  | .WindowFrameClause => [.pos, .str, .iface .Expr]
  -- parser/ast.go:5122-5126: Expr, Direction, EndPos
  | .WindowFrameExtendExpr => [.iface .Expr, .str, .pos]
  -- parser/ast.go:5148-5154: Expr, Not, Between, AndPos, And
  | .BetweenClause => [.iface .Expr, .bool, .iface .Expr, .pos, .iface .Expr]
  -- parser/ast.go:5184-5187: CurrentPos, RowEnd
  | .WindowFrameCurrentRow => [.pos, .pos]
  -- parser/ast.go:5203-5207: UnboundedPos, UnboundedEnd, Direction
  | .WindowFrameUnbounded => [.pos, .pos, .str]
  -- parser/ast.go:5223-5227: Number, EndPos, Direction
  | .WindowFrameNumber => [.ptr .NumberLiteral, .pos, .str]
  -- parser/ast.go:5246-5250: Param, EndPos, Direction
  | .WindowFrameParam => [.ptr .QueryParam, .pos, .str]
  -- parser/ast.go:5269-5293: SelectPos, StatementEnd, With, Top, HasDistinct, DistinctOn, SelectItems, From, Window, Prewhere, Where, GroupBy, WithTotal, Having, OrderBy, LimitBy, Limit, Settings, Format, UnionAll, UnionDistinct, Except, Intersect
  | .SelectQuery => [.pos, .pos, .ptr .WithClause, .ptr .TopClause, .bool, .ptr .DistinctOn, .slice (.ptr .SelectItem), .ptr .FromClause, .ptr .WindowClause, .ptr .PrewhereClause, .ptr .WhereClause, .ptr .GroupByClause, .bool, .ptr .HavingClause, .ptr .OrderByClause, .ptr .LimitByClause, .ptr .LimitClause, .ptr .SettingsClause, .ptr .FormatClause, .ptr .SelectQuery, .ptr .SelectQuery, .ptr .SelectQuery, .ptr .SelectQuery]
  -- parser/ast.go:5406-5410: Idents, DistinctOnPos, DistinctOnEnd
  | .DistinctOn => [.slice (.ptr .NestedIdentifier), .pos, .pos]
  -- parser/ast.go:5431-5434: HasParen, Select
  | .SubQuery => [.bool, .ptr .SelectQuery]
  -- parser/ast.go:5455-5458: NotPos, Expr
  | .NotExpr => [.pos, .iface .Expr]
  -- parser/ast.go:5477-5480: NegatePos, Expr
  | .NegateExpr => [.pos, .iface .Expr]
  -- parser/ast.go:5499-5502: GlobalPos, Expr
  | .GlobalInOperation => [.pos, .iface .Expr]
  -- parser/ast.go:5521-5525: Interval, FromPos, FromExpr
  | .IntervalFrom => [.ptr .Ident, .pos, .iface .Expr]
  -- parser/ast.go:5549-5553: ExtractPos, ExtractEnd, Parameters
  | .ExtractExpr => [.pos, .pos, .slice (.iface .Expr)]
  -- parser/ast.go:5574-5581: DropPos, StatementEnd, Name, IfExists, OnCluster, Modifier
  | .DropDatabase => [.pos, .pos, .ptr .Ident, .bool, .ptr .ClusterClause, .str]
  -- parser/ast.go:5609-5619: DropPos, StatementEnd, DropTarget, Name, IfExists, OnCluster, IsTemporary, Modifier
  | .DropStmt => [.pos, .pos, .str, .ptr .TableIdentifier, .bool, .ptr .ClusterClause, .bool, .str]
  -- parser/ast.go:5648-5656: DropPos, Target, StatementEnd, Names, IfExists, Modifier, From
  | .DropUserOrRole => [.pos, .str, .pos, .slice (.ptr .RoleName), .bool, .str, .ptr .Ident]
  -- parser/ast.go:5686-5690: UsePos, StatementEnd, Database
  | .UseStmt => [.pos, .pos, .ptr .Ident]
  -- parser/ast.go:5709-5713: CTEPos, Expr, Alias
  | .CTEStmt => [.pos, .iface .Expr, .iface .Expr]
  -- parser/ast.go:5735-5738: SetPos, Settings
  | .SetStmt => [.pos, .ptr .SettingsClause]
  -- parser/ast.go:5757-5760: FormatPos, Format
  | .FormatClause => [.pos, .ptr .Ident]
  -- parser/ast.go:5779-5787: OptimizePos, StatementEnd, Table, OnCluster, Partition, HasFinal, Deduplicate
  | .OptimizeStmt => [.pos, .pos, .ptr .TableIdentifier, .ptr .ClusterClause, .ptr .PartitionClause, .bool, .ptr .DeduplicateClause]
  -- parser/ast.go:5821-5825: DeduplicatePos, By, Except
  | .DeduplicateClause => [.pos, .ptr .ColumnExprList, .ptr .ColumnExprList]
  -- parser/ast.go:5856-5859: SystemPos, Expr
  | .SystemStmt => [.pos, .iface .Expr]
  -- parser/ast.go:5878-5883: FlushPos, StatementEnd, Logs, Distributed
  | .SystemFlushExpr => [.pos, .pos, .bool, .ptr .TableIdentifier]
  -- parser/ast.go:5904-5910: ReloadPos, StatementEnd, OnCluster, Dictionary, Type
  | .SystemReloadExpr => [.pos, .pos, .ptr .ClusterClause, .ptr .TableIdentifier, .str]
  -- parser/ast.go:5936-5939: SyncPos, Cluster
  | .SystemSyncExpr => [.pos, .ptr .TableIdentifier]
  -- parser/ast.go:5958-5964: CtrlPos, StatementEnd, Command, Type, Cluster
  | .SystemCtrlExpr => [.pos, .pos, .str, .str, .ptr .TableIdentifier]
  -- parser/ast.go:5985-5989: DropPos, StatementEnd, Type
  | .SystemDropExpr => [.pos, .pos, .str]
  -- parser/ast.go:6005-6012: TruncatePos, StatementEnd, IsTemporary, IfExists, Name, OnCluster
  | .TruncateTable => [.pos, .pos, .bool, .bool, .ptr .TableIdentifier, .ptr .ClusterClause]
  -- parser/ast.go:6040-6044: SamplePos, Ratio, Offset
  | .SampleClause => [.pos, .ptr .RatioExpr, .ptr .RatioExpr]
  -- parser/ast.go:6071-6076: DeletePos, Table, OnCluster, WhereExpr
  | .DeleteClause => [.pos, .ptr .TableIdentifier, .ptr .ClusterClause, .iface .Expr]
  -- parser/ast.go:6105-6109: LeftParenPos, RightParenPos, ColumnNames
  | .ColumnNamesExpr => [.pos, .pos, .slice (.val .NestedIdentifier)]
  -- parser/ast.go:6130-6134: LeftParenPos, RightParenPos, Values
  | .AssignmentValues => [.pos, .pos, .slice (.iface .Expr)]
  -- parser/ast.go:6155-6163: InsertPos, Format, HasTableKeyword, Table, ColumnNames, Values, SelectExpr
  | .InsertStmt => [.pos, .ptr .FormatClause, .bool, .iface .Expr, .ptr .ColumnNamesExpr, .slice (.ptr .AssignmentValues), .ptr .SelectQuery]
  -- parser/ast.go:6216-6220: CheckPos, Table, Partition
  | .CheckStmt => [.pos, .ptr .TableIdentifier, .ptr .PartitionClause]
  -- parser/ast.go:6244-6248: UnaryPos, Kind, Expr
  | .UnaryExpr => [.pos, .str, .iface .Expr]
  -- parser/ast.go:6267-6274: RenamePos, StatementEnd, RenameTarget, TargetPairList, OnCluster
  | .RenameStmt => [.pos, .pos, .str, .slice (.ptr .TargetPair), .ptr .ClusterClause]
  -- parser/ast.go:6307-6310: Old, New
  | .TargetPair => [.ptr .TableIdentifier, .ptr .TableIdentifier]
  -- parser/ast.go:6332-6336: ExplainPos, Type, Statement
  | .ExplainStmt => [.pos, .str, .iface .Expr]
  -- parser/ast.go:6355-6360: PrivilegePos, PrivilegeEnd, Keywords, Params
  | .PrivilegeClause => [.pos, .pos, .slice .str, .ptr .ParamExprList]
  -- parser/ast.go:6381-6389: GrantPos, StatementEnd, OnCluster, Privileges, On, To, WithOptions
  | .GrantPrivilegeStmt => [.pos, .pos, .ptr .ClusterClause, .slice (.ptr .PrivilegeClause), .ptr .TableIdentifier, .slice (.ptr .Ident), .slice .str]
  -- parser/ast.go:6427-6440: ShowPos, StatementEnd, ShowType, Target, NotLike, LikeType, LikePattern, Limit, OutFile, Format
  | .ShowStmt => [.pos, .pos, .str, .ptr .TableIdentifier, .bool, .str, .iface .Expr, .iface .Expr, .ptr .StringLiteral, .ptr .StringLiteral]
  -- parser/ast.go:6497-6502: DescribePos, StatementEnd, DescribeType, Target
  | .DescribeStmt => [.pos, .pos, .str, .ptr .TableIdentifier]
  -- parser/lexer.go:60-68: Pos, End, Kind, String, Base, QuoteType
  | .Token => [.pos, .pos, .str, .str, .int, .int]
  -- parser/parser_column.go:861-868: Modifiers, RequireModifier, Separators, RequiredSeparators, ClosedKeywordForm, MaxSlots
  | .KeywordArgForm => [.slice .str, .bool, .slice .str, .int, .bool, .int]
  -- parser/error.go:13-24: Pos, Line, Column, Got, Expected, Keyword, Msg
  | .ParseError => [.pos, .int, .int, .ptr .Token, .slice .str, .str, .str]
  -- Go library, errors.New and fmt.Errorf: Msg
  | .PlainError => [.str]

namespace N

/-- Composite literal `&SelectItem{...}` (parser/ast.go:23-28); fields left out are zero. -/
def SelectItem (expr : V := .nil) (modifiers : V := .nil) (alias : V := .nil) : V :=
  .mk .SelectItem [expr, modifiers, alias]

/-- Composite literal `&OperationExpr{...}` (parser/ast.go:63-66); fields left out are zero. -/
def OperationExpr (operationPos : Nat := 0) (kind : Str := []) : V :=
  .mk .OperationExpr [.nat operationPos, .str kind]

/-- Composite literal `&TernaryOperation{...}` (parser/ast.go:82-86); fields left out are zero. -/
def TernaryOperation (condition : V := .nil) (trueExpr : V := .nil) (falseExpr : V := .nil) : V :=
  .mk .TernaryOperation [condition, trueExpr, falseExpr]

/-- Composite literal `&BinaryOperation{...}` (parser/ast.go:111-117); fields left out are zero. -/
def BinaryOperation (leftExpr : V := .nil) (operation : Str := []) (rightExpr : V := .nil) (hasGlobal : Bool := false) (hasNot : Bool := false) : V :=
  .mk .BinaryOperation [leftExpr, .str operation, rightExpr, .bool hasGlobal, .bool hasNot]

/-- Composite literal `&IndexOperation{...}` (parser/ast.go:139-143); fields left out are zero. -/
def IndexOperation (object : V := .nil) (operation : Str := []) (index : V := .nil) : V :=
  .mk .IndexOperation [object, .str operation, index]

/-- Composite literal `&JoinTableExpr{...}` (parser/ast.go:165-170); fields left out are zero. -/
def JoinTableExpr (table : V := .nil) (statementEnd : Nat := 0) (sampleRatio : V := .nil) (hasFinal : Bool := false) : V :=
  .mk .JoinTableExpr [table, .nat statementEnd, sampleRatio, .bool hasFinal]

/-- Composite literal `&AlterTable{...}` (parser/ast.go:199-205); fields left out are zero. -/
def AlterTable (alterPos : Nat := 0) (statementEnd : Nat := 0) (tableIdentifier : V := .nil) (onCluster : V := .nil) (alterExprs : V := .nil) : V :=
  .mk .AlterTable [.nat alterPos, .nat statementEnd, tableIdentifier, onCluster, alterExprs]

/-- Composite literal `&AlterTableAttachPartition{...}` (parser/ast.go:239-244); fields left out are zero. -/
def AlterTableAttachPartition (attachPos : Nat := 0) (partition : V := .nil) (from_ : V := .nil) : V :=
  .mk .AlterTableAttachPartition [.nat attachPos, partition, from_]

/-- Composite literal `&AlterTableDetachPartition{...}` (parser/ast.go:275-279); fields left out are zero. -/
def AlterTableDetachPartition (detachPos : Nat := 0) (partition : V := .nil) (settings : V := .nil) : V :=
  .mk .AlterTableDetachPartition [.nat detachPos, partition, settings]

/-- Composite literal `&AlterTableDropPartition{...}` (parser/ast.go:307-312); fields left out are zero. -/
def AlterTableDropPartition (dropPos : Nat := 0) (hasDetached : Bool := false) (partition : V := .nil) (settings : V := .nil) : V :=
  .mk .AlterTableDropPartition [.nat dropPos, .bool hasDetached, partition, settings]

/-- Composite literal `&AlterTableMaterializeProjection{...}` (parser/ast.go:343-349); fields left out are zero. -/
def AlterTableMaterializeProjection (materializedPos : Nat := 0) (statementEnd : Nat := 0) (ifExists : Bool := false) (projectionName : V := .nil) (partition : V := .nil) : V :=
  .mk .AlterTableMaterializeProjection [.nat materializedPos, .nat statementEnd, .bool ifExists, projectionName, partition]

/-- Composite literal `&AlterTableMaterializeIndex{...}` (parser/ast.go:377-383); fields left out are zero. -/
def AlterTableMaterializeIndex (materializedPos : Nat := 0) (statementEnd : Nat := 0) (ifExists : Bool := false) (indexName : V := .nil) (partition : V := .nil) : V :=
  .mk .AlterTableMaterializeIndex [.nat materializedPos, .nat statementEnd, .bool ifExists, indexName, partition]

/-- Composite literal `&AlterTableFreezePartition{...}` (parser/ast.go:411-415); fields left out are zero. -/
def AlterTableFreezePartition (freezePos : Nat := 0) (statementEnd : Nat := 0) (partition : V := .nil) : V :=
  .mk .AlterTableFreezePartition [.nat freezePos, .nat statementEnd, partition]

/-- Composite literal `&AlterTableAddColumn{...}` (parser/ast.go:440-448); fields left out are zero. -/
def AlterTableAddColumn (addPos : Nat := 0) (statementEnd : Nat := 0) (column : V := .nil) (ifNotExists : Bool := false) (after : V := .nil) (settings : V := .nil) : V :=
  .mk .AlterTableAddColumn [.nat addPos, .nat statementEnd, column, .bool ifNotExists, after, settings]

/-- Composite literal `&AlterTableAddIndex{...}` (parser/ast.go:484-491); fields left out are zero. -/
def AlterTableAddIndex (addPos : Nat := 0) (statementEnd : Nat := 0) (index : V := .nil) (ifNotExists : Bool := false) (after : V := .nil) : V :=
  .mk .AlterTableAddIndex [.nat addPos, .nat statementEnd, index, .bool ifNotExists, after]

/-- Composite literal `&ProjectionOrderByClause{...}` (parser/ast.go:519-522); fields left out are zero. -/
def ProjectionOrderByClause (orderByPos : Nat := 0) (columns : V := .nil) : V :=
  .mk .ProjectionOrderByClause [.nat orderByPos, columns]

/-- Composite literal `&ProjectionSelectStmt{...}` (parser/ast.go:543-550); fields left out are zero. -/
def ProjectionSelectStmt (leftParenPos : Nat := 0) (rightParenPos : Nat := 0) (with_ : V := .nil) (selectColumns : V := .nil) (groupBy : V := .nil) (orderBy : V := .nil) : V :=
  .mk .ProjectionSelectStmt [.nat leftParenPos, .nat rightParenPos, with_, selectColumns, groupBy, orderBy]

/-- Composite literal `&TableProjection{...}` (parser/ast.go:585-590); fields left out are zero. -/
def TableProjection (includeProjectionKeyword : Bool := false) (projectionPos : Nat := 0) (identifier : V := .nil) (select : V := .nil) : V :=
  .mk .TableProjection [.bool includeProjectionKeyword, .nat projectionPos, identifier, select]

/-- Composite literal `&AlterTableAddProjection{...}` (parser/ast.go:612-619); fields left out are zero. -/
def AlterTableAddProjection (addPos : Nat := 0) (statementEnd : Nat := 0) (ifNotExists : Bool := false) (tableProjection : V := .nil) (after : V := .nil) : V :=
  .mk .AlterTableAddProjection [.nat addPos, .nat statementEnd, .bool ifNotExists, tableProjection, after]

/-- Composite literal `&AlterTableDropColumn{...}` (parser/ast.go:647-651); fields left out are zero. -/
def AlterTableDropColumn (dropPos : Nat := 0) (columnName : V := .nil) (ifExists : Bool := false) : V :=
  .mk .AlterTableDropColumn [.nat dropPos, columnName, .bool ifExists]

/-- Composite literal `&AlterTableDropIndex{...}` (parser/ast.go:674-678); fields left out are zero. -/
def AlterTableDropIndex (dropPos : Nat := 0) (indexName : V := .nil) (ifExists : Bool := false) : V :=
  .mk .AlterTableDropIndex [.nat dropPos, indexName, .bool ifExists]

/-- Composite literal `&AlterTableDropProjection{...}` (parser/ast.go:701-705); fields left out are zero. -/
def AlterTableDropProjection (dropPos : Nat := 0) (projectionName : V := .nil) (ifExists : Bool := false) : V :=
  .mk .AlterTableDropProjection [.nat dropPos, projectionName, .bool ifExists]

/-- Composite literal `&AlterTableRemoveTTL{...}` (parser/ast.go:728-731); fields left out are zero. -/
def AlterTableRemoveTTL (removePos : Nat := 0) (statementEnd : Nat := 0) : V :=
  .mk .AlterTableRemoveTTL [.nat removePos, .nat statementEnd]

/-- Composite literal `&AlterTableClearColumn{...}` (parser/ast.go:751-758); fields left out are zero. -/
def AlterTableClearColumn (clearPos : Nat := 0) (statementEnd : Nat := 0) (ifExists : Bool := false) (columnName : V := .nil) (partitionExpr : V := .nil) : V :=
  .mk .AlterTableClearColumn [.nat clearPos, .nat statementEnd, .bool ifExists, columnName, partitionExpr]

/-- Composite literal `&AlterTableClearIndex{...}` (parser/ast.go:786-793); fields left out are zero. -/
def AlterTableClearIndex (clearPos : Nat := 0) (statementEnd : Nat := 0) (ifExists : Bool := false) (indexName : V := .nil) (partitionExpr : V := .nil) : V :=
  .mk .AlterTableClearIndex [.nat clearPos, .nat statementEnd, .bool ifExists, indexName, partitionExpr]

/-- Composite literal `&AlterTableClearProjection{...}` (parser/ast.go:821-828); fields left out are zero. -/
def AlterTableClearProjection (clearPos : Nat := 0) (statementEnd : Nat := 0) (ifExists : Bool := false) (projectionName : V := .nil) (partitionExpr : V := .nil) : V :=
  .mk .AlterTableClearProjection [.nat clearPos, .nat statementEnd, .bool ifExists, projectionName, partitionExpr]

/-- Composite literal `&AlterTableRenameColumn{...}` (parser/ast.go:856-862); fields left out are zero. -/
def AlterTableRenameColumn (renamePos : Nat := 0) (ifExists : Bool := false) (oldColumnName : V := .nil) (newColumnName : V := .nil) : V :=
  .mk .AlterTableRenameColumn [.nat renamePos, .bool ifExists, oldColumnName, newColumnName]

/-- Composite literal `&AlterTableModifyQuery{...}` (parser/ast.go:888-892); fields left out are zero. -/
def AlterTableModifyQuery (modifyPos : Nat := 0) (statementEnd : Nat := 0) (selectExpr : V := .nil) : V :=
  .mk .AlterTableModifyQuery [.nat modifyPos, .nat statementEnd, selectExpr]

/-- Composite literal `&AlterTableModifyOrderBy{...}` (parser/ast.go:915-919); fields left out are zero. -/
def AlterTableModifyOrderBy (modifyPos : Nat := 0) (statementEnd : Nat := 0) (orderBy : V := .nil) : V :=
  .mk .AlterTableModifyOrderBy [.nat modifyPos, .nat statementEnd, orderBy]

/-- Composite literal `&AlterTableModifyTTL{...}` (parser/ast.go:942-946); fields left out are zero. -/
def AlterTableModifyTTL (modifyPos : Nat := 0) (statementEnd : Nat := 0) (ttl : V := .nil) : V :=
  .mk .AlterTableModifyTTL [.nat modifyPos, .nat statementEnd, ttl]

/-- Composite literal `&AlterTableModifyColumn{...}` (parser/ast.go:969-976); fields left out are zero. -/
def AlterTableModifyColumn (modifyPos : Nat := 0) (statementEnd : Nat := 0) (ifExists : Bool := false) (column : V := .nil) (removePropertyType : V := .nil) : V :=
  .mk .AlterTableModifyColumn [.nat modifyPos, .nat statementEnd, .bool ifExists, column, removePropertyType]

/-- Composite literal `&AlterTableModifySetting{...}` (parser/ast.go:1004-1008); fields left out are zero. -/
def AlterTableModifySetting (modifyPos : Nat := 0) (statementEnd : Nat := 0) (settings : V := .nil) : V :=
  .mk .AlterTableModifySetting [.nat modifyPos, .nat statementEnd, settings]

/-- Composite literal `&AlterTableResetSetting{...}` (parser/ast.go:1033-1037); fields left out are zero. -/
def AlterTableResetSetting (resetPos : Nat := 0) (statementEnd : Nat := 0) (settings : V := .nil) : V :=
  .mk .AlterTableResetSetting [.nat resetPos, .nat statementEnd, settings]

/-- Composite literal `&AlterTableReplacePartition{...}` (parser/ast.go:1062-1066); fields left out are zero. -/
def AlterTableReplacePartition (replacePos : Nat := 0) (partition : V := .nil) (table : V := .nil) : V :=
  .mk .AlterTableReplacePartition [.nat replacePos, partition, table]

/-- Composite literal `&AlterTableDelete{...}` (parser/ast.go:1092-1096); fields left out are zero. -/
def AlterTableDelete (deletePos : Nat := 0) (statementEnd : Nat := 0) (whereClause : V := .nil) : V :=
  .mk .AlterTableDelete [.nat deletePos, .nat statementEnd, whereClause]

/-- Composite literal `&AlterTableUpdate{...}` (parser/ast.go:1119-1125); fields left out are zero. -/
def AlterTableUpdate (updatePos : Nat := 0) (statementEnd : Nat := 0) (assignments : V := .nil) (inPartition : V := .nil) (whereClause : V := .nil) : V :=
  .mk .AlterTableUpdate [.nat updatePos, .nat statementEnd, assignments, inPartition, whereClause]

/-- Composite literal `&UpdateAssignment{...}` (parser/ast.go:1158-1162); fields left out are zero. -/
def UpdateAssignment (assignmentPos : Nat := 0) (column : V := .nil) (expr : V := .nil) : V :=
  .mk .UpdateAssignment [.nat assignmentPos, column, expr]

/-- Composite literal `&RemovePropertyType{...}` (parser/ast.go:1184-1188); fields left out are zero. -/
def RemovePropertyType (removePos : Nat := 0) (propertyType : V := .nil) : V :=
  .mk .RemovePropertyType [.nat removePos, propertyType]

/-- Composite literal `&TableIndex{...}` (parser/ast.go:1207-1214); fields left out are zero. -/
def TableIndex (indexPos : Nat := 0) (name : V := .nil) (columnExpr : V := .nil) (columnType : V := .nil) (granularity : V := .nil) : V :=
  .mk .TableIndex [.nat indexPos, name, columnExpr, columnType, granularity]

/-- Composite literal `&Ident{...}` (parser/ast.go:1242-1247); fields left out are zero. -/
def Ident (name : Str := []) (quoteType : Nat := 0) (namePos : Nat := 0) (nameEnd : Nat := 0) : V :=
  .mk .Ident [.str name, .nat quoteType, .nat namePos, .nat nameEnd]

/-- Composite literal `&UUID{...}` (parser/ast.go:1263-1265); fields left out are zero. -/
def UUID (value : V := .nil) : V :=
  .mk .UUID [value]

/-- Composite literal `&CreateDatabase{...}` (parser/ast.go:1286-1294); fields left out are zero. -/
def CreateDatabase (createPos : Nat := 0) (statementEnd : Nat := 0) (name : V := .nil) (ifNotExists : Bool := false) (onCluster : V := .nil) (engine : V := .nil) (comment : V := .nil) : V :=
  .mk .CreateDatabase [.nat createPos, .nat statementEnd, name, .bool ifNotExists, onCluster, engine, comment]

/-- Composite literal `&CreateTable{...}` (parser/ast.go:1334-1348); fields left out are zero. -/
def CreateTable (createPos : Nat := 0) (statementEnd : Nat := 0) (orReplace : Bool := false) (name : V := .nil) (ifNotExists : Bool := false) (uuid : V := .nil) (onCluster : V := .nil) (tableSchema : V := .nil) (engine : V := .nil) (subQuery : V := .nil) (tableFunction : V := .nil) (hasTemporary : Bool := false) (comment : V := .nil) : V :=
  .mk .CreateTable [.nat createPos, .nat statementEnd, .bool orReplace, name, .bool ifNotExists, uuid, onCluster, tableSchema, engine, subQuery, tableFunction, .bool hasTemporary, comment]

/-- Composite literal `&CreateMaterializedView{...}` (parser/ast.go:1406-1426); fields left out are zero. -/
def CreateMaterializedView (createPos : Nat := 0) (statementEnd : Nat := 0) (name : V := .nil) (ifNotExists : Bool := false) (onCluster : V := .nil) (refresh : V := .nil) (randomizeFor : V := .nil) (dependsOn : V := .nil) (settings : V := .nil) (hasAppend : Bool := false) (engine : V := .nil) (tableSchema : V := .nil) (hasEmpty : Bool := false) (destination : V := .nil) (subQuery : V := .nil) (populate : Bool := false) (comment : V := .nil) (definer : V := .nil) (sQLSecurity : Str := []) : V :=
  .mk .CreateMaterializedView [.nat createPos, .nat statementEnd, name, .bool ifNotExists, onCluster, refresh, randomizeFor, dependsOn, settings, .bool hasAppend, engine, tableSchema, .bool hasEmpty, destination, subQuery, .bool populate, comment, definer, .str sQLSecurity]

/-- Composite literal `&CreateView{...}` (parser/ast.go:1507-1518); fields left out are zero. -/
def CreateView (createPos : Nat := 0) (statementEnd : Nat := 0) (orReplace : Bool := false) (name : V := .nil) (ifNotExists : Bool := false) (uuid : V := .nil) (onCluster : V := .nil) (tableSchema : V := .nil) (comment : V := .nil) (subQuery : V := .nil) : V :=
  .mk .CreateView [.nat createPos, .nat statementEnd, .bool orReplace, name, .bool ifNotExists, uuid, onCluster, tableSchema, comment, subQuery]

/-- Composite literal `&CreateFunction{...}` (parser/ast.go:1566-1574); fields left out are zero. -/
def CreateFunction (createPos : Nat := 0) (orReplace : Bool := false) (ifNotExists : Bool := false) (functionName : V := .nil) (onCluster : V := .nil) (params : V := .nil) (expr : V := .nil) : V :=
  .mk .CreateFunction [.nat createPos, .bool orReplace, .bool ifNotExists, functionName, onCluster, params, expr]

/-- Composite literal `&RoleName{...}` (parser/ast.go:1608-1612); fields left out are zero. -/
def RoleName (name : V := .nil) (scope : V := .nil) (onCluster : V := .nil) : V :=
  .mk .RoleName [name, scope, onCluster]

/-- Composite literal `&SettingPair{...}` (parser/ast.go:1647-1651); fields left out are zero. -/
def SettingPair (name : V := .nil) (operation : Str := []) (value : V := .nil) : V :=
  .mk .SettingPair [name, .str operation, value]

/-- Composite literal `&RoleSetting{...}` (parser/ast.go:1675-1678); fields left out are zero. -/
def RoleSetting (settingPairs : V := .nil) (modifier : V := .nil) : V :=
  .mk .RoleSetting [settingPairs, modifier]

/-- Composite literal `&CreateRole{...}` (parser/ast.go:1710-1718); fields left out are zero. -/
def CreateRole (createPos : Nat := 0) (statementEnd : Nat := 0) (ifNotExists : Bool := false) (orReplace : Bool := false) (roleNames : V := .nil) (accessStorageType : V := .nil) (settings : V := .nil) : V :=
  .mk .CreateRole [.nat createPos, .nat statementEnd, .bool ifNotExists, .bool orReplace, roleNames, accessStorageType, settings]

/-- Composite literal `&AuthenticationClause{...}` (parser/ast.go:1753-1762); fields left out are zero. -/
def AuthenticationClause (authPos : Nat := 0) (authEnd : Nat := 0) (notIdentified : Bool := false) (authType : Str := []) (authValue : V := .nil) (ldapServer : V := .nil) (kerberosRealm : V := .nil) (isKerberos : Bool := false) : V :=
  .mk .AuthenticationClause [.nat authPos, .nat authEnd, .bool notIdentified, .str authType, authValue, ldapServer, kerberosRealm, .bool isKerberos]

/-- Composite literal `&HostClause{...}` (parser/ast.go:1793-1798); fields left out are zero. -/
def HostClause (hostPos : Nat := 0) (hostEnd : Nat := 0) (hostType : Str := []) (hostValue : V := .nil) : V :=
  .mk .HostClause [.nat hostPos, .nat hostEnd, .str hostType, hostValue]

/-- Composite literal `&DefaultRoleClause{...}` (parser/ast.go:1819-1824); fields left out are zero. -/
def DefaultRoleClause (defaultPos : Nat := 0) (defaultEnd : Nat := 0) (roles : V := .nil) (none : Bool := false) : V :=
  .mk .DefaultRoleClause [.nat defaultPos, .nat defaultEnd, roles, .bool none]

/-- Composite literal `&GranteesClause{...}` (parser/ast.go:1845-1852); fields left out are zero. -/
def GranteesClause (granteesPos : Nat := 0) (granteesEnd : Nat := 0) (grantees : V := .nil) (exceptUsers : V := .nil) (any : Bool := false) (none : Bool := false) : V :=
  .mk .GranteesClause [.nat granteesPos, .nat granteesEnd, grantees, exceptUsers, .bool any, .bool none]

/-- Composite literal `&CreateUser{...}` (parser/ast.go:1878-1892); fields left out are zero. -/
def CreateUser (createPos : Nat := 0) (statementEnd : Nat := 0) (ifNotExists : Bool := false) (orReplace : Bool := false) (userNames : V := .nil) (authentication : V := .nil) (validUntil : V := .nil) (hosts : V := .nil) (defaultRole : V := .nil) (defaultDatabase : V := .nil) (defaultDbNone : Bool := false) (grantees : V := .nil) (settings : V := .nil) : V :=
  .mk .CreateUser [.nat createPos, .nat statementEnd, .bool ifNotExists, .bool orReplace, userNames, authentication, validUntil, hosts, defaultRole, defaultDatabase, .bool defaultDbNone, grantees, settings]

/-- Composite literal `&AlterRole{...}` (parser/ast.go:1952-1958); fields left out are zero. -/
def AlterRole (alterPos : Nat := 0) (statementEnd : Nat := 0) (ifExists : Bool := false) (roleRenamePairs : V := .nil) (settings : V := .nil) : V :=
  .mk .AlterRole [.nat alterPos, .nat statementEnd, .bool ifExists, roleRenamePairs, settings]

/-- Composite literal `&RoleRenamePair{...}` (parser/ast.go:1988-1992); fields left out are zero. -/
def RoleRenamePair (roleName : V := .nil) (newName : V := .nil) (statementEnd : Nat := 0) : V :=
  .mk .RoleRenamePair [roleName, newName, .nat statementEnd]

/-- Composite literal `&DestinationClause{...}` (parser/ast.go:2016-2020); fields left out are zero. -/
def DestinationClause (toPos : Nat := 0) (tableIdentifier : V := .nil) (tableSchema : V := .nil) : V :=
  .mk .DestinationClause [.nat toPos, tableIdentifier, tableSchema]

/-- Composite literal `&ConstraintClause{...}` (parser/ast.go:2047-2051); fields left out are zero. -/
def ConstraintClause (constraintPos : Nat := 0) (constraint : V := .nil) (expr : V := .nil) : V :=
  .mk .ConstraintClause [.nat constraintPos, constraint, expr]

/-- Composite literal `&NullLiteral{...}` (parser/ast.go:2073-2075); fields left out are zero. -/
def NullLiteral (nullPos : Nat := 0) : V :=
  .mk .NullLiteral [.nat nullPos]

/-- Composite literal `&NotNullLiteral{...}` (parser/ast.go:2091-2094); fields left out are zero. -/
def NotNullLiteral (notPos : Nat := 0) (nullLiteral : V := .nil) : V :=
  .mk .NotNullLiteral [.nat notPos, nullLiteral]

/-- Composite literal `&NestedIdentifier{...}` (parser/ast.go:2113-2116); fields left out are zero. -/
def NestedIdentifier (ident : V := .nil) (dotIdent : V := .nil) : V :=
  .mk .NestedIdentifier [ident, dotIdent]

/-- Composite literal `&Path{...}` (parser/ast.go:2143-2145); fields left out are zero. -/
def Path (fields : V := .nil) : V :=
  .mk .Path [fields]

/-- Composite literal `&TableIdentifier{...}` (parser/ast.go:2172-2175); fields left out are zero. -/
def TableIdentifier (database : V := .nil) (table : V := .nil) : V :=
  .mk .TableIdentifier [database, table]

/-- Composite literal `&TableSchemaClause{...}` (parser/ast.go:2202-2208); fields left out are zero. -/
def TableSchemaClause (schemaPos : Nat := 0) (schemaEnd : Nat := 0) (columns : V := .nil) (aliasTable : V := .nil) (tableFunction : V := .nil) : V :=
  .mk .TableSchemaClause [.nat schemaPos, .nat schemaEnd, columns, aliasTable, tableFunction]

/-- Composite literal `&TableArgListExpr{...}` (parser/ast.go:2239-2243); fields left out are zero. -/
def TableArgListExpr (leftParenPos : Nat := 0) (rightParenPos : Nat := 0) (args : V := .nil) : V :=
  .mk .TableArgListExpr [.nat leftParenPos, .nat rightParenPos, args]

/-- Composite literal `&TableFunctionExpr{...}` (parser/ast.go:2264-2267); fields left out are zero. -/
def TableFunctionExpr (name : V := .nil) (args : V := .nil) : V :=
  .mk .TableFunctionExpr [name, args]

/-- Composite literal `&ClusterClause{...}` (parser/ast.go:2289-2292); fields left out are zero. -/
def ClusterClause (onPos : Nat := 0) (expr : V := .nil) : V :=
  .mk .ClusterClause [.nat onPos, expr]

/-- Composite literal `&PartitionClause{...}` (parser/ast.go:2311-2316); fields left out are zero. -/
def PartitionClause (partitionPos : Nat := 0) (expr : V := .nil) (id : V := .nil) (all : Bool := false) : V :=
  .mk .PartitionClause [.nat partitionPos, expr, id, .bool all]

/-- Composite literal `&PartitionByClause{...}` (parser/ast.go:2345-2348); fields left out are zero. -/
def PartitionByClause (partitionPos : Nat := 0) (expr : V := .nil) : V :=
  .mk .PartitionByClause [.nat partitionPos, expr]

/-- Composite literal `&PrimaryKeyClause{...}` (parser/ast.go:2367-2370); fields left out are zero. -/
def PrimaryKeyClause (primaryPos : Nat := 0) (expr : V := .nil) : V :=
  .mk .PrimaryKeyClause [.nat primaryPos, expr]

/-- Composite literal `&SampleByClause{...}` (parser/ast.go:2389-2392); fields left out are zero. -/
def SampleByClause (samplePos : Nat := 0) (expr : V := .nil) : V :=
  .mk .SampleByClause [.nat samplePos, expr]

/-- Composite literal `&TTLPolicyRuleAction{...}` (parser/ast.go:2411-2416); fields left out are zero. -/
def TTLPolicyRuleAction (actionPos : Nat := 0) (actionEnd : Nat := 0) (action : Str := []) (codec : V := .nil) : V :=
  .mk .TTLPolicyRuleAction [.nat actionPos, .nat actionEnd, .str action, codec]

/-- Composite literal `&RefreshExpr{...}` (parser/ast.go:2440-2445); fields left out are zero. -/
def RefreshExpr (refreshPos : Nat := 0) (frequency : Str := []) (interval : V := .nil) (offset : V := .nil) : V :=
  .mk .RefreshExpr [.nat refreshPos, .str frequency, interval, offset]

/-- Composite literal `&TTLPolicyRule{...}` (parser/ast.go:2474-2479); fields left out are zero. -/
def TTLPolicyRule (rulePos : Nat := 0) (toVolume : V := .nil) (toDisk : V := .nil) (action : V := .nil) : V :=
  .mk .TTLPolicyRule [.nat rulePos, toVolume, toDisk, action]

/-- Composite literal `&TTLPolicy{...}` (parser/ast.go:2516-2520); fields left out are zero. -/
def TTLPolicy (item : V := .nil) (where_ : V := .nil) (groupBy : V := .nil) : V :=
  .mk .TTLPolicy [item, where_, groupBy]

/-- Composite literal `&TTLExpr{...}` (parser/ast.go:2563-2567); fields left out are zero. -/
def TTLExpr (tTLPos : Nat := 0) (expr : V := .nil) (policy : V := .nil) : V :=
  .mk .TTLExpr [.nat tTLPos, expr, policy]

/-- Composite literal `&TTLClause{...}` (parser/ast.go:2591-2595); fields left out are zero. -/
def TTLClause (tTLPos : Nat := 0) (listEnd : Nat := 0) (items : V := .nil) : V :=
  .mk .TTLClause [.nat tTLPos, .nat listEnd, items]

/-- Composite literal `&Fill{...}` (parser/ast.go:2616-2622); fields left out are zero. -/
def Fill (fillPos : Nat := 0) (from_ : V := .nil) (to : V := .nil) (step : V := .nil) (staleness : V := .nil) : V :=
  .mk .Fill [.nat fillPos, from_, to, step, staleness]

/-- Composite literal `&OrderExpr{...}` (parser/ast.go:2670-2676); fields left out are zero. -/
def OrderExpr (orderPos : Nat := 0) (expr : V := .nil) (alias : V := .nil) (direction : Str := []) (fill : V := .nil) : V :=
  .mk .OrderExpr [.nat orderPos, expr, alias, .str direction, fill]

/-- Composite literal `&InterpolateItem{...}` (parser/ast.go:2711-2714); fields left out are zero. -/
def InterpolateItem (column : V := .nil) (expr : V := .nil) : V :=
  .mk .InterpolateItem [column, expr]

/-- Composite literal `&InterpolateClause{...}` (parser/ast.go:2741-2745); fields left out are zero. -/
def InterpolateClause (interpolatePos : Nat := 0) (listEnd : Nat := 0) (items : V := .nil) : V :=
  .mk .InterpolateClause [.nat interpolatePos, .nat listEnd, items]

/-- Composite literal `&OrderByClause{...}` (parser/ast.go:2766-2771); fields left out are zero. -/
def OrderByClause (orderPos : Nat := 0) (listEnd : Nat := 0) (items : V := .nil) (interpolate : V := .nil) : V :=
  .mk .OrderByClause [.nat orderPos, .nat listEnd, items, interpolate]

/-- Composite literal `&SettingExpr{...}` (parser/ast.go:2800-2804); fields left out are zero. -/
def SettingExpr (settingsPos : Nat := 0) (name : V := .nil) (expr : V := .nil) : V :=
  .mk .SettingExpr [.nat settingsPos, name, expr]

/-- Composite literal `&SettingsClause{...}` (parser/ast.go:2826-2830); fields left out are zero. -/
def SettingsClause (settingsPos : Nat := 0) (listEnd : Nat := 0) (items : V := .nil) : V :=
  .mk .SettingsClause [.nat settingsPos, .nat listEnd, items]

/-- Composite literal `&ParamExprList{...}` (parser/ast.go:2851-2856); fields left out are zero. -/
def ParamExprList (leftParenPos : Nat := 0) (rightParenPos : Nat := 0) (items : V := .nil) (columnArgList : V := .nil) : V :=
  .mk .ParamExprList [.nat leftParenPos, .nat rightParenPos, items, columnArgList]

/-- Composite literal `&KeyValue{...}` (parser/ast.go:2880-2883); fields left out are zero. -/
def KeyValue (key : V := .nil) (value : V := .nil) : V :=
  .mk .KeyValue [key, value]

/-- Composite literal `&MapLiteral{...}` (parser/ast.go:2885-2889); fields left out are zero. -/
def MapLiteral (lBracePos : Nat := 0) (rBracePos : Nat := 0) (keyValues : V := .nil) : V :=
  .mk .MapLiteral [.nat lBracePos, .nat rBracePos, keyValues]

/-- Composite literal `&NamedParameterExpr{...}` (parser/ast.go:2913-2917); fields left out are zero. -/
def NamedParameterExpr (namePos : Nat := 0) (name : V := .nil) (value : V := .nil) : V :=
  .mk .NamedParameterExpr [.nat namePos, name, value]

/-- Composite literal `&QueryParam{...}` (parser/ast.go:2939-2944); fields left out are zero. -/
def QueryParam (lBracePos : Nat := 0) (rBracePos : Nat := 0) (name : V := .nil) (type_ : V := .nil) : V :=
  .mk .QueryParam [.nat lBracePos, .nat rBracePos, name, type_]

/-- Composite literal `&ArrayParamList{...}` (parser/ast.go:2966-2970); fields left out are zero. -/
def ArrayParamList (leftBracketPos : Nat := 0) (rightBracketPos : Nat := 0) (items : V := .nil) : V :=
  .mk .ArrayParamList [.nat leftBracketPos, .nat rightBracketPos, items]

/-- Composite literal `&ObjectParams{...}` (parser/ast.go:2989-2992); fields left out are zero. -/
def ObjectParams (object : V := .nil) (params : V := .nil) : V :=
  .mk .ObjectParams [object, params]

/-- Composite literal `&FunctionExpr{...}` (parser/ast.go:3014-3017); fields left out are zero. -/
def FunctionExpr (name : V := .nil) (params : V := .nil) : V :=
  .mk .FunctionExpr [name, params]

/-- Composite literal `&WindowFunctionExpr{...}` (parser/ast.go:3039-3043); fields left out are zero. -/
def WindowFunctionExpr (function : V := .nil) (overPos : Nat := 0) (overExpr : V := .nil) : V :=
  .mk .WindowFunctionExpr [function, .nat overPos, overExpr]

/-- Composite literal `&TypedPlaceholder{...}` (parser/ast.go:3065-3070); fields left out are zero. -/
def TypedPlaceholder (leftBracePos : Nat := 0) (rightBracePos : Nat := 0) (name : V := .nil) (type_ : V := .nil) : V :=
  .mk .TypedPlaceholder [.nat leftBracePos, .nat rightBracePos, name, type_]

/-- Composite literal `&ColumnExpr{...}` (parser/ast.go:3092-3095); fields left out are zero. -/
def ColumnExpr (expr : V := .nil) (alias : V := .nil) : V :=
  .mk .ColumnExpr [expr, alias]

/-- Composite literal `&ColumnDef{...}` (parser/ast.go:3122-3139); fields left out are zero. -/
def ColumnDef (namePos : Nat := 0) (columnEnd : Nat := 0) (name : V := .nil) (type_ : V := .nil) (notNull : V := .nil) (nullable : V := .nil) (defaultExpr : V := .nil) (materializedExpr : V := .nil) (aliasExpr : V := .nil) (codec : V := .nil) (ttl : V := .nil) (comment : V := .nil) (compressionCodec : V := .nil) : V :=
  .mk .ColumnDef [.nat namePos, .nat columnEnd, name, type_, notNull, nullable, defaultExpr, materializedExpr, aliasExpr, codec, ttl, comment, compressionCodec]

/-- Composite literal `&ScalarType{...}` (parser/ast.go:3213-3215); fields left out are zero. -/
def ScalarType (name : V := .nil) : V :=
  .mk .ScalarType [name]

/-- Composite literal `&JSONPath{...}` (parser/ast.go:3238-3240); fields left out are zero. -/
def JSONPath (idents : V := .nil) : V :=
  .mk .JSONPath [idents]

/-- Composite literal `&JSONTypeHint{...}` (parser/ast.go:3257-3260); fields left out are zero. -/
def JSONTypeHint (path : V := .nil) (type_ : V := .nil) : V :=
  .mk .JSONTypeHint [path, type_]

/-- Composite literal `&JSONOption{...}` (parser/ast.go:3277-3284); fields left out are zero. -/
def JSONOption (skipPath : V := .nil) (skipRegex : V := .nil) (maxDynamicPaths : V := .nil) (maxDynamicTypes : V := .nil) (column : V := .nil) : V :=
  .mk .JSONOption [skipPath, skipRegex, maxDynamicPaths, maxDynamicTypes, column]

/-- Composite literal `&JSONOptions{...}` (parser/ast.go:3314-3318); fields left out are zero. -/
def JSONOptions (lParen : Nat := 0) (rParen : Nat := 0) (items : V := .nil) : V :=
  .mk .JSONOptions [.nat lParen, .nat rParen, items]

/-- Composite literal `&JSONType{...}` (parser/ast.go:3340-3343); fields left out are zero. -/
def JSONType (name : V := .nil) (options : V := .nil) : V :=
  .mk .JSONType [name, options]

/-- Composite literal `&PropertyType{...}` (parser/ast.go:3372-3374); fields left out are zero. -/
def PropertyType (name : V := .nil) : V :=
  .mk .PropertyType [name]

/-- Composite literal `&TypeWithParams{...}` (parser/ast.go:3397-3402); fields left out are zero. -/
def TypeWithParams (leftParenPos : Nat := 0) (rightParenPos : Nat := 0) (name : V := .nil) (params : V := .nil) : V :=
  .mk .TypeWithParams [.nat leftParenPos, .nat rightParenPos, name, params]

/-- Composite literal `&ComplexType{...}` (parser/ast.go:3430-3435); fields left out are zero. -/
def ComplexType (leftParenPos : Nat := 0) (rightParenPos : Nat := 0) (name : V := .nil) (params : V := .nil) : V :=
  .mk .ComplexType [.nat leftParenPos, .nat rightParenPos, name, params]

/-- Composite literal `&NestedType{...}` (parser/ast.go:3463-3468); fields left out are zero. -/
def NestedType (leftParenPos : Nat := 0) (rightParenPos : Nat := 0) (name : V := .nil) (columns : V := .nil) : V :=
  .mk .NestedType [.nat leftParenPos, .nat rightParenPos, name, columns]

/-- Composite literal `&CompressionCodec{...}` (parser/ast.go:3496-3503); fields left out are zero. -/
def CompressionCodec (codecPos : Nat := 0) (rightParenPos : Nat := 0) (type_ : V := .nil) (typeLevel : V := .nil) (name : V := .nil) (level : V := .nil) : V :=
  .mk .CompressionCodec [.nat codecPos, .nat rightParenPos, type_, typeLevel, name, level]

/-- Composite literal `&NumberLiteral{...}` (parser/ast.go:3543-3548); fields left out are zero. -/
def NumberLiteral (numPos : Nat := 0) (numEnd : Nat := 0) (literal : Str := []) (base : Nat := 0) : V :=
  .mk .NumberLiteral [.nat numPos, .nat numEnd, .str literal, .nat base]

/-- Composite literal `&StringLiteral{...}` (parser/ast.go:3564-3568); fields left out are zero. -/
def StringLiteral (literalPos : Nat := 0) (literalEnd : Nat := 0) (literal : Str := []) : V :=
  .mk .StringLiteral [.nat literalPos, .nat literalEnd, .str literal]

/-- Composite literal `&BoolLiteral{...}` (parser/ast.go:3584-3588); fields left out are zero. -/
def BoolLiteral (literalPos : Nat := 0) (literalEnd : Nat := 0) (literal : Str := []) : V :=
  .mk .BoolLiteral [.nat literalPos, .nat literalEnd, .str literal]

/-- Composite literal `&PlaceHolder{...}` (parser/ast.go:3604-3608); fields left out are zero. -/
def PlaceHolder (placeholderPos : Nat := 0) (placeHolderEnd : Nat := 0) (type_ : Str := []) : V :=
  .mk .PlaceHolder [.nat placeholderPos, .nat placeHolderEnd, .str type_]

/-- Composite literal `&RatioExpr{...}` (parser/ast.go:3624-3628); fields left out are zero. -/
def RatioExpr (numerator : V := .nil) (denominator : V := .nil) : V :=
  .mk .RatioExpr [numerator, denominator]

/-- Composite literal `&EnumValue{...}` (parser/ast.go:3655-3658); fields left out are zero. -/
def EnumValue (name : V := .nil) (value : V := .nil) : V :=
  .mk .EnumValue [name, value]

/-- Composite literal `&EnumType{...}` (parser/ast.go:3680-3685); fields left out are zero. -/
def EnumType (name : V := .nil) (listPos : Nat := 0) (listEnd : Nat := 0) (values : V := .nil) : V :=
  .mk .EnumType [name, .nat listPos, .nat listEnd, values]

/-- Composite literal `&IntervalExpr{...}` (parser/ast.go:3713-3719); fields left out are zero. -/
def IntervalExpr (intervalPos : Nat := 0) (expr : V := .nil) (unit : V := .nil) : V :=
  .mk .IntervalExpr [.nat intervalPos, expr, unit]

/-- Composite literal `&EngineExpr{...}` (parser/ast.go:3745-3756); fields left out are zero. -/
def EngineExpr (enginePos : Nat := 0) (engineEnd : Nat := 0) (name : Str := []) (params : V := .nil) (primaryKey : V := .nil) (partitionBy : V := .nil) (sampleBy : V := .nil) (ttl : V := .nil) (settings : V := .nil) (orderBy : V := .nil) : V :=
  .mk .EngineExpr [.nat enginePos, .nat engineEnd, .str name, params, primaryKey, partitionBy, sampleBy, ttl, settings, orderBy]

/-- Composite literal `&ColumnTypeExpr{...}` (parser/ast.go:3807-3809); fields left out are zero. -/
def ColumnTypeExpr (name : V := .nil) : V :=
  .mk .ColumnTypeExpr [name]

/-- Composite literal `&ColumnArgList{...}` (parser/ast.go:3828-3833); fields left out are zero. -/
def ColumnArgList (distinct : Bool := false) (leftParenPos : Nat := 0) (rightParenPos : Nat := 0) (items : V := .nil) : V :=
  .mk .ColumnArgList [.bool distinct, .nat leftParenPos, .nat rightParenPos, items]

/-- Composite literal `&ColumnExprList{...}` (parser/ast.go:3854-3859); fields left out are zero. -/
def ColumnExprList (listPos : Nat := 0) (listEnd : Nat := 0) (hasDistinct : Bool := false) (items : V := .nil) : V :=
  .mk .ColumnExprList [.nat listPos, .nat listEnd, .bool hasDistinct, items]

/-- Composite literal `&WhenClause{...}` (parser/ast.go:3880-3887); fields left out are zero. -/
def WhenClause (whenPos : Nat := 0) (thenPos : Nat := 0) (when : V := .nil) (then_ : V := .nil) (elsePos : Nat := 0) (else_ : V := .nil) : V :=
  .mk .WhenClause [.nat whenPos, .nat thenPos, when, then_, .nat elsePos, else_]

/-- Composite literal `&CaseExpr{...}` (parser/ast.go:3917-3924); fields left out are zero. -/
def CaseExpr (casePos : Nat := 0) (endPos : Nat := 0) (expr : V := .nil) (whens : V := .nil) (elsePos : Nat := 0) (else_ : V := .nil) : V :=
  .mk .CaseExpr [.nat casePos, .nat endPos, expr, whens, .nat elsePos, else_]

/-- Composite literal `&CastExpr{...}` (parser/ast.go:3955-3961); fields left out are zero. -/
def CastExpr (castPos : Nat := 0) (expr : V := .nil) (separator : Str := []) (asPos : Nat := 0) (asType : V := .nil) : V :=
  .mk .CastExpr [.nat castPos, expr, .str separator, .nat asPos, asType]

/-- Composite literal `&WithClause{...}` (parser/ast.go:3983-3987); fields left out are zero. -/
def WithClause (withPos : Nat := 0) (endPos : Nat := 0) (cTEs : V := .nil) : V :=
  .mk .WithClause [.nat withPos, .nat endPos, cTEs]

/-- Composite literal `&TopClause{...}` (parser/ast.go:4008-4013); fields left out are zero. -/
def TopClause (topPos : Nat := 0) (topEnd : Nat := 0) (number : V := .nil) (withTies : Bool := false) : V :=
  .mk .TopClause [.nat topPos, .nat topEnd, number, .bool withTies]

/-- Composite literal `&CreateLiveView{...}` (parser/ast.go:4032-4043); fields left out are zero. -/
def CreateLiveView (createPos : Nat := 0) (statementEnd : Nat := 0) (name : V := .nil) (ifNotExists : Bool := false) (uuid : V := .nil) (onCluster : V := .nil) (destination : V := .nil) (tableSchema : V := .nil) (withTimeout : V := .nil) (subQuery : V := .nil) : V :=
  .mk .CreateLiveView [.nat createPos, .nat statementEnd, name, .bool ifNotExists, uuid, onCluster, destination, tableSchema, withTimeout, subQuery]

/-- Composite literal `&CreateDictionary{...}` (parser/ast.go:4096-4107); fields left out are zero. -/
def CreateDictionary (createPos : Nat := 0) (statementEnd : Nat := 0) (orReplace : Bool := false) (name : V := .nil) (ifNotExists : Bool := false) (uuid : V := .nil) (onCluster : V := .nil) (schema : V := .nil) (engine : V := .nil) (comment : V := .nil) : V :=
  .mk .CreateDictionary [.nat createPos, .nat statementEnd, .bool orReplace, name, .bool ifNotExists, uuid, onCluster, schema, engine, comment]

/-- Composite literal `&CreateNamedCollection{...}` (parser/ast.go:4155-4162); fields left out are zero. -/
def CreateNamedCollection (createPos : Nat := 0) (statementEnd : Nat := 0) (name : V := .nil) (ifNotExists : Bool := false) (onCluster : V := .nil) (params : V := .nil) : V :=
  .mk .CreateNamedCollection [.nat createPos, .nat statementEnd, name, .bool ifNotExists, onCluster, params]

/-- Composite literal `&NamedCollectionParam{...}` (parser/ast.go:4195-4201); fields left out are zero. -/
def NamedCollectionParam (paramPos : Nat := 0) (name : V := .nil) (value : V := .nil) (overridable : Bool := false) (notOverridable : Bool := false) : V :=
  .mk .NamedCollectionParam [.nat paramPos, name, value, .bool overridable, .bool notOverridable]

/-- Composite literal `&DictionarySchemaClause{...}` (parser/ast.go:4223-4227); fields left out are zero. -/
def DictionarySchemaClause (schemaPos : Nat := 0) (attributes : V := .nil) (rParenPos : Nat := 0) : V :=
  .mk .DictionarySchemaClause [.nat schemaPos, attributes, .nat rParenPos]

/-- Composite literal `&DictionaryAttribute{...}` (parser/ast.go:4248-4258); fields left out are zero. -/
def DictionaryAttribute (namePos : Nat := 0) (attrEnd : Nat := 0) (name : V := .nil) (type_ : V := .nil) (default : V := .nil) (expression : V := .nil) (hierarchical : Bool := false) (injective : Bool := false) (isObjectId : Bool := false) : V :=
  .mk .DictionaryAttribute [.nat namePos, .nat attrEnd, name, type_, default, expression, .bool hierarchical, .bool injective, .bool isObjectId]

/-- Composite literal `&DictionaryEngineClause{...}` (parser/ast.go:4290-4298); fields left out are zero. -/
def DictionaryEngineClause (enginePos : Nat := 0) (primaryKey : V := .nil) (source : V := .nil) (lifetime : V := .nil) (layout : V := .nil) (range : V := .nil) (settings : V := .nil) : V :=
  .mk .DictionaryEngineClause [.nat enginePos, primaryKey, source, lifetime, layout, range, settings]

/-- Composite literal `&DictionaryPrimaryKeyClause{...}` (parser/ast.go:4362-4366); fields left out are zero. -/
def DictionaryPrimaryKeyClause (primaryKeyPos : Nat := 0) (keys : V := .nil) (rParenPos : Nat := 0) : V :=
  .mk .DictionaryPrimaryKeyClause [.nat primaryKeyPos, keys, .nat rParenPos]

/-- Composite literal `&DictionarySourceClause{...}` (parser/ast.go:4385-4390); fields left out are zero. -/
def DictionarySourceClause (sourcePos : Nat := 0) (source : V := .nil) (args : V := .nil) (rParenPos : Nat := 0) : V :=
  .mk .DictionarySourceClause [.nat sourcePos, source, args, .nat rParenPos]

/-- Composite literal `&DictionaryArgExpr{...}` (parser/ast.go:4414-4424); fields left out are zero. -/
def DictionaryArgExpr (argPos : Nat := 0) (name : V := .nil) (value : V := .nil) (args : V := .nil) (lParenPos : Nat := 0) (rParenPos : Nat := 0) : V :=
  .mk .DictionaryArgExpr [.nat argPos, name, value, args, .nat lParenPos, .nat rParenPos]

/-- Composite literal `&DictionaryLifetimeClause{...}` (parser/ast.go:4460-4466); fields left out are zero. -/
def DictionaryLifetimeClause (lifetimePos : Nat := 0) (min : V := .nil) (max : V := .nil) (value : V := .nil) (rParenPos : Nat := 0) : V :=
  .mk .DictionaryLifetimeClause [.nat lifetimePos, min, max, value, .nat rParenPos]

/-- Composite literal `&DictionaryLayoutClause{...}` (parser/ast.go:4497-4502); fields left out are zero. -/
def DictionaryLayoutClause (layoutPos : Nat := 0) (layout : V := .nil) (args : V := .nil) (rParenPos : Nat := 0) : V :=
  .mk .DictionaryLayoutClause [.nat layoutPos, layout, args, .nat rParenPos]

/-- Composite literal `&DictionaryRangeClause{...}` (parser/ast.go:4526-4531); fields left out are zero. -/
def DictionaryRangeClause (rangePos : Nat := 0) (min : V := .nil) (max : V := .nil) (rParenPos : Nat := 0) : V :=
  .mk .DictionaryRangeClause [.nat rangePos, min, max, .nat rParenPos]

/-- Composite literal `&WithTimeoutClause{...}` (parser/ast.go:4553-4557); fields left out are zero. -/
def WithTimeoutClause (withTimeoutPos : Nat := 0) (expr : V := .nil) (number : V := .nil) : V :=
  .mk .WithTimeoutClause [.nat withTimeoutPos, expr, number]

/-- Composite literal `&TableExpr{...}` (parser/ast.go:4589-4595); fields left out are zero. -/
def TableExpr (tablePos : Nat := 0) (tableEnd : Nat := 0) (alias : V := .nil) (expr : V := .nil) (hasFinal : Bool := false) : V :=
  .mk .TableExpr [.nat tablePos, .nat tableEnd, alias, expr, .bool hasFinal]

/-- Composite literal `&OnClause{...}` (parser/ast.go:4619-4622); fields left out are zero. -/
def OnClause (onPos : Nat := 0) (on : V := .nil) : V :=
  .mk .OnClause [.nat onPos, on]

/-- Composite literal `&UsingClause{...}` (parser/ast.go:4641-4644); fields left out are zero. -/
def UsingClause (usingPos : Nat := 0) (using_ : V := .nil) : V :=
  .mk .UsingClause [.nat usingPos, using_]

/-- Composite literal `&JoinExpr{...}` (parser/ast.go:4663-4669); fields left out are zero. -/
def JoinExpr (joinPos : Nat := 0) (left : V := .nil) (right : V := .nil) (modifiers : V := .nil) (constraints : V := .nil) : V :=
  .mk .JoinExpr [.nat joinPos, left, right, modifiers, constraints]

/-- Composite literal `&JoinConstraintClause{...}` (parser/ast.go:4705-4709); fields left out are zero. -/
def JoinConstraintClause (constraintPos : Nat := 0) (on : V := .nil) (using_ : V := .nil) : V :=
  .mk .JoinConstraintClause [.nat constraintPos, on, using_]

/-- Composite literal `&FromClause{...}` (parser/ast.go:4738-4741); fields left out are zero. -/
def FromClause (fromPos : Nat := 0) (expr : V := .nil) : V :=
  .mk .FromClause [.nat fromPos, expr]

/-- Composite literal `&IsNullExpr{...}` (parser/ast.go:4760-4764); fields left out are zero. -/
def IsNullExpr (isPos : Nat := 0) (nullEnd : Nat := 0) (expr : V := .nil) : V :=
  .mk .IsNullExpr [.nat isPos, .nat nullEnd, expr]

/-- Composite literal `&IsNotNullExpr{...}` (parser/ast.go:4783-4787); fields left out are zero. -/
def IsNotNullExpr (isPos : Nat := 0) (nullEnd : Nat := 0) (expr : V := .nil) : V :=
  .mk .IsNotNullExpr [.nat isPos, .nat nullEnd, expr]

/-- Composite literal `&AliasExpr{...}` (parser/ast.go:4806-4810); fields left out are zero. -/
def AliasExpr (expr : V := .nil) (aliasPos : Nat := 0) (alias : V := .nil) : V :=
  .mk .AliasExpr [expr, .nat aliasPos, alias]

/-- Composite literal `&WhereClause{...}` (parser/ast.go:4832-4835); fields left out are zero. -/
def WhereClause (wherePos : Nat := 0) (expr : V := .nil) : V :=
  .mk .WhereClause [.nat wherePos, expr]

/-- Composite literal `&PrewhereClause{...}` (parser/ast.go:4854-4857); fields left out are zero. -/
def PrewhereClause (prewherePos : Nat := 0) (expr : V := .nil) : V :=
  .mk .PrewhereClause [.nat prewherePos, expr]

/-- Composite literal `&GroupByClause{...}` (parser/ast.go:4876-4884); fields left out are zero. -/
def GroupByClause (groupByPos : Nat := 0) (groupByEnd : Nat := 0) (aggregateType : Str := []) (expr : V := .nil) (withCube : Bool := false) (withRollup : Bool := false) (withTotals : Bool := false) : V :=
  .mk .GroupByClause [.nat groupByPos, .nat groupByEnd, .str aggregateType, expr, .bool withCube, .bool withRollup, .bool withTotals]

/-- Composite literal `&HavingClause{...}` (parser/ast.go:4905-4908); fields left out are zero. -/
def HavingClause (havingPos : Nat := 0) (expr : V := .nil) : V :=
  .mk .HavingClause [.nat havingPos, expr]

/-- Composite literal `&LimitClause{...}` (parser/ast.go:4927-4931); fields left out are zero. -/
def LimitClause (limitPos : Nat := 0) (limit : V := .nil) (offset : V := .nil) : V :=
  .mk .LimitClause [.nat limitPos, limit, offset]

/-- Composite literal `&LimitByClause{...}` (parser/ast.go:4960-4963); fields left out are zero. -/
def LimitByClause (limit : V := .nil) (byExpr : V := .nil) : V :=
  .mk .LimitByClause [limit, byExpr]

/-- Composite literal `&WindowExpr{...}` (parser/ast.go:4995-5002); fields left out are zero. -/
def WindowExpr (leftParenPos : Nat := 0) (rightParenPos : Nat := 0) (windowName : V := .nil) (partitionBy : V := .nil) (orderBy : V := .nil) (frame : V := .nil) : V :=
  .mk .WindowExpr [.nat leftParenPos, .nat rightParenPos, windowName, partitionBy, orderBy, frame]

/-- Composite literal `&WindowDefinition{...}` (parser/ast.go:5038-5042); fields left out are zero. -/
def WindowDefinition (name : V := .nil) (asPos : Nat := 0) (expr : V := .nil) : V :=
  .mk .WindowDefinition [name, .nat asPos, expr]

/-- Composite literal `&WindowClause{...}` (parser/ast.go:5058-5062); fields left out are zero. -/
def WindowClause (windowPos : Nat := 0) (endPos : Nat := 0) (windows : V := .nil) : V :=
  .mk .WindowClause [.nat windowPos, .nat endPos, windows]

/-- Composite literal `&WindowFrameClause{...}` (parser/ast.go:5099-5103); fields left out are zero. -/
def WindowFrameClause (framePos : Nat := 0) (type_ : Str := []) (extend : V := .nil) : V :=
  .mk .WindowFrameClause [.nat framePos, .str type_, extend]

/-- Composite literal `&WindowFrameExtendExpr{...}` (parser/ast.go:5122-5126); fields left out are zero. -/
def WindowFrameExtendExpr (expr : V := .nil) (direction : Str := []) (endPos : Nat := 0) : V :=
  .mk .WindowFrameExtendExpr [expr, .str direction, .nat endPos]

/-- Composite literal `&BetweenClause{...}` (parser/ast.go:5148-5154); fields left out are zero. -/
def BetweenClause (expr : V := .nil) (not : Bool := false) (between : V := .nil) (andPos : Nat := 0) (and : V := .nil) : V :=
  .mk .BetweenClause [expr, .bool not, between, .nat andPos, and]

/-- Composite literal `&WindowFrameCurrentRow{...}` (parser/ast.go:5184-5187); fields left out are zero. -/
def WindowFrameCurrentRow (currentPos : Nat := 0) (rowEnd : Nat := 0) : V :=
  .mk .WindowFrameCurrentRow [.nat currentPos, .nat rowEnd]

/-- Composite literal `&WindowFrameUnbounded{...}` (parser/ast.go:5203-5207); fields left out are zero. -/
def WindowFrameUnbounded (unboundedPos : Nat := 0) (unboundedEnd : Nat := 0) (direction : Str := []) : V :=
  .mk .WindowFrameUnbounded [.nat unboundedPos, .nat unboundedEnd, .str direction]

/-- Composite literal `&WindowFrameNumber{...}` (parser/ast.go:5223-5227); fields left out are zero. -/
def WindowFrameNumber (number : V := .nil) (endPos : Nat := 0) (direction : Str := []) : V :=
  .mk .WindowFrameNumber [number, .nat endPos, .str direction]

/-- Composite literal `&WindowFrameParam{...}` (parser/ast.go:5246-5250); fields left out are zero. -/
def WindowFrameParam (param : V := .nil) (endPos : Nat := 0) (direction : Str := []) : V :=
  .mk .WindowFrameParam [param, .nat endPos, .str direction]

/-- Composite literal `&SelectQuery{...}` (parser/ast.go:5269-5293); fields left out are zero. -/
def SelectQuery (selectPos : Nat := 0) (statementEnd : Nat := 0) (with_ : V := .nil) (top : V := .nil) (hasDistinct : Bool := false) (distinctOn : V := .nil) (selectItems : V := .nil) (from_ : V := .nil) (window : V := .nil) (prewhere : V := .nil) (where_ : V := .nil) (groupBy : V := .nil) (withTotal : Bool := false) (having : V := .nil) (orderBy : V := .nil) (limitBy : V := .nil) (limit : V := .nil) (settings : V := .nil) (format_ : V := .nil) (unionAll : V := .nil) (unionDistinct : V := .nil) (except : V := .nil) (intersect : V := .nil) : V :=
  .mk .SelectQuery [.nat selectPos, .nat statementEnd, with_, top, .bool hasDistinct, distinctOn, selectItems, from_, window, prewhere, where_, groupBy, .bool withTotal, having, orderBy, limitBy, limit, settings, format_, unionAll, unionDistinct, except, intersect]

/-- Composite literal `&DistinctOn{...}` (parser/ast.go:5406-5410); fields left out are zero. -/
def DistinctOn (idents : V := .nil) (distinctOnPos : Nat := 0) (distinctOnEnd : Nat := 0) : V :=
  .mk .DistinctOn [idents, .nat distinctOnPos, .nat distinctOnEnd]

/-- Composite literal `&SubQuery{...}` (parser/ast.go:5431-5434); fields left out are zero. -/
def SubQuery (hasParen : Bool := false) (select : V := .nil) : V :=
  .mk .SubQuery [.bool hasParen, select]

/-- Composite literal `&NotExpr{...}` (parser/ast.go:5455-5458); fields left out are zero. -/
def NotExpr (notPos : Nat := 0) (expr : V := .nil) : V :=
  .mk .NotExpr [.nat notPos, expr]

/-- Composite literal `&NegateExpr{...}` (parser/ast.go:5477-5480); fields left out are zero. -/
def NegateExpr (negatePos : Nat := 0) (expr : V := .nil) : V :=
  .mk .NegateExpr [.nat negatePos, expr]

/-- Composite literal `&GlobalInOperation{...}` (parser/ast.go:5499-5502); fields left out are zero. -/
def GlobalInOperation (globalPos : Nat := 0) (expr : V := .nil) : V :=
  .mk .GlobalInOperation [.nat globalPos, expr]

/-- Composite literal `&IntervalFrom{...}` (parser/ast.go:5521-5525); fields left out are zero. -/
def IntervalFrom (interval : V := .nil) (fromPos : Nat := 0) (fromExpr : V := .nil) : V :=
  .mk .IntervalFrom [interval, .nat fromPos, fromExpr]

/-- Composite literal `&ExtractExpr{...}` (parser/ast.go:5549-5553); fields left out are zero. -/
def ExtractExpr (extractPos : Nat := 0) (extractEnd : Nat := 0) (parameters : V := .nil) : V :=
  .mk .ExtractExpr [.nat extractPos, .nat extractEnd, parameters]

/-- Composite literal `&DropDatabase{...}` (parser/ast.go:5574-5581); fields left out are zero. -/
def DropDatabase (dropPos : Nat := 0) (statementEnd : Nat := 0) (name : V := .nil) (ifExists : Bool := false) (onCluster : V := .nil) (modifier : Str := []) : V :=
  .mk .DropDatabase [.nat dropPos, .nat statementEnd, name, .bool ifExists, onCluster, .str modifier]

/-- Composite literal `&DropStmt{...}` (parser/ast.go:5609-5619); fields left out are zero. -/
def DropStmt (dropPos : Nat := 0) (statementEnd : Nat := 0) (dropTarget : Str := []) (name : V := .nil) (ifExists : Bool := false) (onCluster : V := .nil) (isTemporary : Bool := false) (modifier : Str := []) : V :=
  .mk .DropStmt [.nat dropPos, .nat statementEnd, .str dropTarget, name, .bool ifExists, onCluster, .bool isTemporary, .str modifier]

/-- Composite literal `&DropUserOrRole{...}` (parser/ast.go:5648-5656); fields left out are zero. -/
def DropUserOrRole (dropPos : Nat := 0) (target : Str := []) (statementEnd : Nat := 0) (names : V := .nil) (ifExists : Bool := false) (modifier : Str := []) (from_ : V := .nil) : V :=
  .mk .DropUserOrRole [.nat dropPos, .str target, .nat statementEnd, names, .bool ifExists, .str modifier, from_]

/-- Composite literal `&UseStmt{...}` (parser/ast.go:5686-5690); fields left out are zero. -/
def UseStmt (usePos : Nat := 0) (statementEnd : Nat := 0) (database : V := .nil) : V :=
  .mk .UseStmt [.nat usePos, .nat statementEnd, database]

/-- Composite literal `&CTEStmt{...}` (parser/ast.go:5709-5713); fields left out are zero. -/
def CTEStmt (cTEPos : Nat := 0) (expr : V := .nil) (alias : V := .nil) : V :=
  .mk .CTEStmt [.nat cTEPos, expr, alias]

/-- Composite literal `&SetStmt{...}` (parser/ast.go:5735-5738); fields left out are zero. -/
def SetStmt (setPos : Nat := 0) (settings : V := .nil) : V :=
  .mk .SetStmt [.nat setPos, settings]

/-- Composite literal `&FormatClause{...}` (parser/ast.go:5757-5760); fields left out are zero. -/
def FormatClause (formatPos : Nat := 0) (format_ : V := .nil) : V :=
  .mk .FormatClause [.nat formatPos, format_]

/-- Composite literal `&OptimizeStmt{...}` (parser/ast.go:5779-5787); fields left out are zero. -/
def OptimizeStmt (optimizePos : Nat := 0) (statementEnd : Nat := 0) (table : V := .nil) (onCluster : V := .nil) (partition : V := .nil) (hasFinal : Bool := false) (deduplicate : V := .nil) : V :=
  .mk .OptimizeStmt [.nat optimizePos, .nat statementEnd, table, onCluster, partition, .bool hasFinal, deduplicate]

/-- Composite literal `&DeduplicateClause{...}` (parser/ast.go:5821-5825); fields left out are zero. -/
def DeduplicateClause (deduplicatePos : Nat := 0) (by_ : V := .nil) (except : V := .nil) : V :=
  .mk .DeduplicateClause [.nat deduplicatePos, by_, except]

/-- Composite literal `&SystemStmt{...}` (parser/ast.go:5856-5859); fields left out are zero. -/
def SystemStmt (systemPos : Nat := 0) (expr : V := .nil) : V :=
  .mk .SystemStmt [.nat systemPos, expr]

/-- Composite literal `&SystemFlushExpr{...}` (parser/ast.go:5878-5883); fields left out are zero. -/
def SystemFlushExpr (flushPos : Nat := 0) (statementEnd : Nat := 0) (logs : Bool := false) (distributed : V := .nil) : V :=
  .mk .SystemFlushExpr [.nat flushPos, .nat statementEnd, .bool logs, distributed]

/-- Composite literal `&SystemReloadExpr{...}` (parser/ast.go:5904-5910); fields left out are zero. -/
def SystemReloadExpr (reloadPos : Nat := 0) (statementEnd : Nat := 0) (onCluster : V := .nil) (dictionary : V := .nil) (type_ : Str := []) : V :=
  .mk .SystemReloadExpr [.nat reloadPos, .nat statementEnd, onCluster, dictionary, .str type_]

/-- Composite literal `&SystemSyncExpr{...}` (parser/ast.go:5936-5939); fields left out are zero. -/
def SystemSyncExpr (syncPos : Nat := 0) (cluster : V := .nil) : V :=
  .mk .SystemSyncExpr [.nat syncPos, cluster]

/-- Composite literal `&SystemCtrlExpr{...}` (parser/ast.go:5958-5964); fields left out are zero. -/
def SystemCtrlExpr (ctrlPos : Nat := 0) (statementEnd : Nat := 0) (command : Str := []) (type_ : Str := []) (cluster : V := .nil) : V :=
  .mk .SystemCtrlExpr [.nat ctrlPos, .nat statementEnd, .str command, .str type_, cluster]

/-- Composite literal `&SystemDropExpr{...}` (parser/ast.go:5985-5989); fields left out are zero. -/
def SystemDropExpr (dropPos : Nat := 0) (statementEnd : Nat := 0) (type_ : Str := []) : V :=
  .mk .SystemDropExpr [.nat dropPos, .nat statementEnd, .str type_]

/-- Composite literal `&TruncateTable{...}` (parser/ast.go:6005-6012); fields left out are zero. -/
def TruncateTable (truncatePos : Nat := 0) (statementEnd : Nat := 0) (isTemporary : Bool := false) (ifExists : Bool := false) (name : V := .nil) (onCluster : V := .nil) : V :=
  .mk .TruncateTable [.nat truncatePos, .nat statementEnd, .bool isTemporary, .bool ifExists, name, onCluster]

/-- Composite literal `&SampleClause{...}` (parser/ast.go:6040-6044); fields left out are zero. -/
def SampleClause (samplePos : Nat := 0) (ratio : V := .nil) (offset : V := .nil) : V :=
  .mk .SampleClause [.nat samplePos, ratio, offset]

/-- Composite literal `&DeleteClause{...}` (parser/ast.go:6071-6076); fields left out are zero. -/
def DeleteClause (deletePos : Nat := 0) (table : V := .nil) (onCluster : V := .nil) (whereExpr : V := .nil) : V :=
  .mk .DeleteClause [.nat deletePos, table, onCluster, whereExpr]

/-- Composite literal `&ColumnNamesExpr{...}` (parser/ast.go:6105-6109); fields left out are zero. -/
def ColumnNamesExpr (leftParenPos : Nat := 0) (rightParenPos : Nat := 0) (columnNames : V := .nil) : V :=
  .mk .ColumnNamesExpr [.nat leftParenPos, .nat rightParenPos, columnNames]

/-- Composite literal `&AssignmentValues{...}` (parser/ast.go:6130-6134); fields left out are zero. -/
def AssignmentValues (leftParenPos : Nat := 0) (rightParenPos : Nat := 0) (values : V := .nil) : V :=
  .mk .AssignmentValues [.nat leftParenPos, .nat rightParenPos, values]

/-- Composite literal `&InsertStmt{...}` (parser/ast.go:6155-6163); fields left out are zero. -/
def InsertStmt (insertPos : Nat := 0) (format_ : V := .nil) (hasTableKeyword : Bool := false) (table : V := .nil) (columnNames : V := .nil) (values : V := .nil) (selectExpr : V := .nil) : V :=
  .mk .InsertStmt [.nat insertPos, format_, .bool hasTableKeyword, table, columnNames, values, selectExpr]

/-- Composite literal `&CheckStmt{...}` (parser/ast.go:6216-6220); fields left out are zero. -/
def CheckStmt (checkPos : Nat := 0) (table : V := .nil) (partition : V := .nil) : V :=
  .mk .CheckStmt [.nat checkPos, table, partition]

/-- Composite literal `&UnaryExpr{...}` (parser/ast.go:6244-6248); fields left out are zero. -/
def UnaryExpr (unaryPos : Nat := 0) (kind : Str := []) (expr : V := .nil) : V :=
  .mk .UnaryExpr [.nat unaryPos, .str kind, expr]

/-- Composite literal `&RenameStmt{...}` (parser/ast.go:6267-6274); fields left out are zero. -/
def RenameStmt (renamePos : Nat := 0) (statementEnd : Nat := 0) (renameTarget : Str := []) (targetPairList : V := .nil) (onCluster : V := .nil) : V :=
  .mk .RenameStmt [.nat renamePos, .nat statementEnd, .str renameTarget, targetPairList, onCluster]

/-- Composite literal `&TargetPair{...}` (parser/ast.go:6307-6310); fields left out are zero. -/
def TargetPair (old : V := .nil) (new : V := .nil) : V :=
  .mk .TargetPair [old, new]

/-- Composite literal `&ExplainStmt{...}` (parser/ast.go:6332-6336); fields left out are zero. -/
def ExplainStmt (explainPos : Nat := 0) (type_ : Str := []) (statement : V := .nil) : V :=
  .mk .ExplainStmt [.nat explainPos, .str type_, statement]

/-- Composite literal `&PrivilegeClause{...}` (parser/ast.go:6355-6360); fields left out are zero. -/
def PrivilegeClause (privilegePos : Nat := 0) (privilegeEnd : Nat := 0) (keywords : V := .nil) (params : V := .nil) : V :=
  .mk .PrivilegeClause [.nat privilegePos, .nat privilegeEnd, keywords, params]

/-- Composite literal `&GrantPrivilegeStmt{...}` (parser/ast.go:6381-6389); fields left out are zero. -/
def GrantPrivilegeStmt (grantPos : Nat := 0) (statementEnd : Nat := 0) (onCluster : V := .nil) (privileges : V := .nil) (on : V := .nil) (to : V := .nil) (withOptions : V := .nil) : V :=
  .mk .GrantPrivilegeStmt [.nat grantPos, .nat statementEnd, onCluster, privileges, on, to, withOptions]

/-- Composite literal `&ShowStmt{...}` (parser/ast.go:6427-6440); fields left out are zero. -/
def ShowStmt (showPos : Nat := 0) (statementEnd : Nat := 0) (showType : Str := []) (target : V := .nil) (notLike : Bool := false) (likeType : Str := []) (likePattern : V := .nil) (limit : V := .nil) (outFile : V := .nil) (format_ : V := .nil) : V :=
  .mk .ShowStmt [.nat showPos, .nat statementEnd, .str showType, target, .bool notLike, .str likeType, likePattern, limit, outFile, format_]

/-- Composite literal `&DescribeStmt{...}` (parser/ast.go:6497-6502); fields left out are zero. -/
def DescribeStmt (describePos : Nat := 0) (statementEnd : Nat := 0) (describeType : Str := []) (target : V := .nil) : V :=
  .mk .DescribeStmt [.nat describePos, .nat statementEnd, .str describeType, target]

/-- Composite literal `&Token{...}` (parser/lexer.go:60-68); fields left out are zero. -/
def Token (pos : Nat := 0) (end_ : Nat := 0) (kind : Str := []) (string : Str := []) (base : Nat := 0) (quoteType : Nat := 0) : V :=
  .mk .Token [.nat pos, .nat end_, .str kind, .str string, .nat base, .nat quoteType]

/-- Composite literal `&KeywordArgForm{...}` (parser/parser_column.go:861-868); fields left out are zero. -/
def KeywordArgForm (modifiers : V := .nil) (requireModifier : Bool := false) (separators : V := .nil) (requiredSeparators : Nat := 0) (closedKeywordForm : Bool := false) (maxSlots : Nat := 0) : V :=
  .mk .KeywordArgForm [modifiers, .bool requireModifier, separators, .nat requiredSeparators, .bool closedKeywordForm, .nat maxSlots]

/-- Composite literal `&ParseError{...}` (parser/error.go:13-24); fields left out are zero. -/
def ParseError (pos : Nat := 0) (line : Nat := 0) (column : Nat := 0) (got : V := .nil) (expected : V := .nil) (keyword : Str := []) (msg : Str := []) : V :=
  .mk .ParseError [.nat pos, .nat line, .nat column, got, expected, .str keyword, .str msg]

/-- Composite literal `&PlainError{...}` (Go library, errors.New and fmt.Errorf); fields left out are zero. -/
def PlainError (msg : Str := []) : V :=
  .mk .PlainError [.str msg]

end N
end Verif
