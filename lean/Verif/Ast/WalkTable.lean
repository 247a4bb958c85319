/-
The cases of the type switch of `Walk` (parser/walk.go:12-1588); the helpers
`walkJSONOptions` ... `walkJSONPath` (parser/walk.go:1588-1641) are written out in place.
Written by tools/genast.py from the Go text.
-/
import Verif.Ast.Schema

set_option linter.unusedVariables false

namespace Verif

/-- What `Walk` does with the children of a node of each type. -/
def walkBody : Ty → WCmd
  -- parser/walk.go:85-96
  | .SelectItem =>
      .seq (.visit (rf 0 /-Expr-/) .iface)
      (.seq (.loop (rf 1 /-Modifiers-/) (.visit ⟨1, []⟩ (.ptr .FunctionExpr)))
      (.visit (rf 2 /-Alias-/) (.ptr .Ident)))
  -- parser/walk.go:1464-1465
  | .OperationExpr =>
      .skip
  -- parser/walk.go:1447-1456
  | .TernaryOperation =>
      .seq (.visit (rf 0 /-Condition-/) .iface)
      (.seq (.visit (rf 1 /-TrueExpr-/) .iface)
      (.visit (rf 2 /-FalseExpr-/) .iface))
  -- parser/walk.go:146-152
  | .BinaryOperation =>
      .seq (.visit (rf 0 /-LeftExpr-/) .iface)
      (.visit (rf 2 /-RightExpr-/) .iface)
  -- parser/walk.go:1457-1463
  | .IndexOperation =>
      .seq (.visit (rf 0 /-Object-/) .iface)
      (.visit (rf 2 /-Index-/) .iface)
  -- parser/walk.go:215-221
  | .JoinTableExpr =>
      .seq (.visit (rf 0 /-Table-/) (.ptr .TableExpr))
      (.visit (rf 2 /-SampleRatio-/) (.ptr .SampleClause))
  -- parser/walk.go:830-841
  | .AlterTable =>
      .seq (.visit (rf 2 /-TableIdentifier-/) (.ptr .TableIdentifier))
      (.seq (.visit (rf 3 /-OnCluster-/) (.ptr .ClusterClause))
      (.loop (rf 4 /-AlterExprs-/) (.visit ⟨1, []⟩ .iface)))
  -- parser/walk.go:842-848
  | .AlterTableAttachPartition =>
      .seq (.visit (rf 1 /-Partition-/) (.ptr .PartitionClause))
      (.visit (rf 2 /-From-/) (.ptr .TableIdentifier))
  -- parser/walk.go:849-855
  | .AlterTableDetachPartition =>
      .seq (.visit (rf 1 /-Partition-/) (.ptr .PartitionClause))
      (.visit (rf 2 /-Settings-/) (.ptr .SettingsClause))
  -- parser/walk.go:856-862
  | .AlterTableDropPartition =>
      .seq (.visit (rf 2 /-Partition-/) (.ptr .PartitionClause))
      (.visit (rf 3 /-Settings-/) (.ptr .SettingsClause))
  -- parser/walk.go:863-869
  | .AlterTableMaterializeProjection =>
      .seq (.visit (rf 3 /-ProjectionName-/) (.ptr .NestedIdentifier))
      (.visit (rf 4 /-Partition-/) (.ptr .PartitionClause))
  -- parser/walk.go:870-876
  | .AlterTableMaterializeIndex =>
      .seq (.visit (rf 3 /-IndexName-/) (.ptr .NestedIdentifier))
      (.visit (rf 4 /-Partition-/) (.ptr .PartitionClause))
  -- parser/walk.go:877-880
  | .AlterTableFreezePartition =>
      .visit (rf 2 /-Partition-/) (.ptr .PartitionClause)
  -- parser/walk.go:881-890
  | .AlterTableAddColumn =>
      .seq (.visit (rf 2 /-Column-/) (.ptr .ColumnDef))
      (.seq (.visit (rf 4 /-After-/) (.ptr .NestedIdentifier))
      (.visit (rf 5 /-Settings-/) (.ptr .SettingsClause)))
  -- parser/walk.go:891-897
  | .AlterTableAddIndex =>
      .seq (.visit (rf 2 /-Index-/) (.ptr .TableIndex))
      (.visit (rf 4 /-After-/) (.ptr .NestedIdentifier))
  -- parser/walk.go:1479-1482
  | .ProjectionOrderByClause =>
      .visit (rf 1 /-Columns-/) (.ptr .ColumnExprList)
  -- parser/walk.go:1483-1495
  | .ProjectionSelectStmt =>
      .seq (.visit (rf 2 /-With-/) (.ptr .WithClause))
      (.seq (.visit (rf 3 /-SelectColumns-/) (.ptr .ColumnExprList))
      (.seq (.visit (rf 4 /-GroupBy-/) (.ptr .GroupByClause))
      (.visit (rf 5 /-OrderBy-/) (.ptr .ProjectionOrderByClause))))
  -- parser/walk.go:1496-1502
  | .TableProjection =>
      .seq (.visit (rf 2 /-Identifier-/) (.ptr .NestedIdentifier))
      (.visit (rf 3 /-Select-/) (.ptr .ProjectionSelectStmt))
  -- parser/walk.go:898-904
  | .AlterTableAddProjection =>
      .seq (.visit (rf 3 /-TableProjection-/) (.ptr .TableProjection))
      (.visit (rf 4 /-After-/) (.ptr .NestedIdentifier))
  -- parser/walk.go:905-908
  | .AlterTableDropColumn =>
      .visit (rf 1 /-ColumnName-/) (.ptr .NestedIdentifier)
  -- parser/walk.go:909-912
  | .AlterTableDropIndex =>
      .visit (rf 1 /-IndexName-/) (.ptr .NestedIdentifier)
  -- parser/walk.go:913-916
  | .AlterTableDropProjection =>
      .visit (rf 1 /-ProjectionName-/) (.ptr .NestedIdentifier)
  -- parser/walk.go:917-918
  | .AlterTableRemoveTTL =>
      .skip
  -- parser/walk.go:919-925
  | .AlterTableClearColumn =>
      .seq (.visit (rf 3 /-ColumnName-/) (.ptr .NestedIdentifier))
      (.visit (rf 4 /-PartitionExpr-/) (.ptr .PartitionClause))
  -- parser/walk.go:926-932
  | .AlterTableClearIndex =>
      .seq (.visit (rf 3 /-IndexName-/) (.ptr .NestedIdentifier))
      (.visit (rf 4 /-PartitionExpr-/) (.ptr .PartitionClause))
  -- parser/walk.go:933-939
  | .AlterTableClearProjection =>
      .seq (.visit (rf 3 /-ProjectionName-/) (.ptr .NestedIdentifier))
      (.visit (rf 4 /-PartitionExpr-/) (.ptr .PartitionClause))
  -- parser/walk.go:940-946
  | .AlterTableRenameColumn =>
      .seq (.visit (rf 2 /-OldColumnName-/) (.ptr .NestedIdentifier))
      (.visit (rf 3 /-NewColumnName-/) (.ptr .NestedIdentifier))
  -- parser/walk.go:947-950
  | .AlterTableModifyQuery =>
      .visit (rf 2 /-SelectExpr-/) (.ptr .SelectQuery)
  -- parser/walk.go:951-954
  | .AlterTableModifyOrderBy =>
      .visit (rf 2 /-OrderBy-/) .iface
  -- parser/walk.go:955-958
  | .AlterTableModifyTTL =>
      .visit (rf 2 /-TTL-/) (.ptr .TTLClause)
  -- parser/walk.go:959-965
  | .AlterTableModifyColumn =>
      .seq (.visit (rf 3 /-Column-/) (.ptr .ColumnDef))
      (.visit (rf 4 /-RemovePropertyType-/) (.ptr .RemovePropertyType))
  -- parser/walk.go:966-971
  | .AlterTableModifySetting =>
      .loop (rf 2 /-Settings-/) (.visit ⟨1, []⟩ (.ptr .SettingExpr))
  -- parser/walk.go:972-977
  | .AlterTableResetSetting =>
      .loop (rf 2 /-Settings-/) (.visit ⟨1, []⟩ (.ptr .Ident))
  -- parser/walk.go:978-984
  | .AlterTableReplacePartition =>
      .seq (.visit (rf 1 /-Partition-/) (.ptr .PartitionClause))
      (.visit (rf 2 /-Table-/) (.ptr .TableIdentifier))
  -- parser/walk.go:985-988
  | .AlterTableDelete =>
      .visit (rf 2 /-WhereClause-/) .iface
  -- parser/walk.go:989-1000
  | .AlterTableUpdate =>
      .seq (.loop (rf 2 /-Assignments-/) (.visit ⟨1, []⟩ (.ptr .UpdateAssignment)))
      (.seq (.visit (rf 3 /-InPartition-/) (.ptr .PartitionClause))
      (.visit (rf 4 /-WhereClause-/) .iface))
  -- parser/walk.go:1001-1007
  | .UpdateAssignment =>
      .seq (.visit (rf 1 /-Column-/) (.ptr .NestedIdentifier))
      (.visit (rf 2 /-Expr-/) .iface)
  -- parser/walk.go:1503-1506
  | .RemovePropertyType =>
      .visit (rf 1 /-PropertyType-/) .iface
  -- parser/walk.go:1466-1478
  | .TableIndex =>
      .seq (.visit (rf 1 /-Name-/) (.ptr .NestedIdentifier))
      (.seq (.visit (rf 2 /-ColumnExpr-/) (.ptr .ColumnExpr))
      (.seq (.visit (rf 3 /-ColumnType-/) .iface)
      (.visit (rf 4 /-Granularity-/) (.ptr .NumberLiteral))))
  -- parser/walk.go:125-126
  | .Ident =>
      .skip
  -- parser/walk.go:1534-1537
  | .UUID =>
      .visit (rf 0 /-Value-/) (.ptr .StringLiteral)
  -- parser/walk.go:616-628
  | .CreateDatabase =>
      .seq (.visit (rf 2 /-Name-/) .iface)
      (.seq (.visit (rf 4 /-OnCluster-/) (.ptr .ClusterClause))
      (.seq (.visit (rf 5 /-Engine-/) (.ptr .EngineExpr))
      (.visit (rf 6 /-Comment-/) (.ptr .StringLiteral))))
  -- parser/walk.go:629-653
  | .CreateTable =>
      .seq (.visit (rf 3 /-Name-/) (.ptr .TableIdentifier))
      (.seq (.visit (rf 5 /-UUID-/) (.ptr .UUID))
      (.seq (.visit (rf 6 /-OnCluster-/) (.ptr .ClusterClause))
      (.seq (.visit (rf 7 /-TableSchema-/) (.ptr .TableSchemaClause))
      (.seq (.visit (rf 8 /-Engine-/) (.ptr .EngineExpr))
      (.seq (.visit (rf 9 /-SubQuery-/) (.ptr .SubQuery))
      (.seq (.visit (rf 10 /-TableFunction-/) (.ptr .TableFunctionExpr))
      (.visit (rf 12 /-Comment-/) (.ptr .StringLiteral))))))))
  -- parser/walk.go:673-711
  | .CreateMaterializedView =>
      .seq (.visit (rf 2 /-Name-/) (.ptr .TableIdentifier))
      (.seq (.visit (rf 4 /-OnCluster-/) (.ptr .ClusterClause))
      (.seq (.visit (rf 5 /-Refresh-/) (.ptr .RefreshExpr))
      (.seq (.visit (rf 6 /-RandomizeFor-/) (.ptr .IntervalExpr))
      (.seq (.loop (rf 7 /-DependsOn-/) (.visit ⟨1, []⟩ (.ptr .TableIdentifier)))
      (.seq (.visit (rf 8 /-Settings-/) (.ptr .SettingsClause))
      (.seq (.visit (rf 11 /-TableSchema-/) (.ptr .TableSchemaClause))
      (.seq (.visit (rf 10 /-Engine-/) (.ptr .EngineExpr))
      (.seq (.visit (rf 13 /-Destination-/) (.ptr .DestinationClause))
      (.seq (.visit (rf 14 /-SubQuery-/) (.ptr .SubQuery))
      (.seq (.visit (rf 16 /-Comment-/) (.ptr .StringLiteral))
      (.visit (rf 17 /-Definer-/) (.ptr .Ident))))))))))))
  -- parser/walk.go:654-672
  | .CreateView =>
      .seq (.visit (rf 3 /-Name-/) (.ptr .TableIdentifier))
      (.seq (.visit (rf 5 /-UUID-/) (.ptr .UUID))
      (.seq (.visit (rf 6 /-OnCluster-/) (.ptr .ClusterClause))
      (.seq (.visit (rf 7 /-TableSchema-/) (.ptr .TableSchemaClause))
      (.seq (.visit (rf 8 /-Comment-/) (.ptr .StringLiteral))
      (.visit (rf 9 /-SubQuery-/) (.ptr .SubQuery))))))
  -- parser/walk.go:753-765
  | .CreateFunction =>
      .seq (.visit (rf 3 /-FunctionName-/) (.ptr .Ident))
      (.seq (.visit (rf 4 /-OnCluster-/) (.ptr .ClusterClause))
      (.seq (.visit (rf 5 /-Params-/) (.ptr .ParamExprList))
      (.visit (rf 6 /-Expr-/) .iface)))
  -- parser/walk.go:1215-1224
  | .RoleName =>
      .seq (.visit (rf 0 /-Name-/) .iface)
      (.seq (.visit (rf 1 /-Scope-/) (.ptr .StringLiteral))
      (.visit (rf 2 /-OnCluster-/) (.ptr .ClusterClause)))
  -- parser/walk.go:1225-1231
  | .SettingPair =>
      .seq (.visit (rf 0 /-Name-/) (.ptr .Ident))
      (.visit (rf 2 /-Value-/) .iface)
  -- parser/walk.go:1232-1240
  | .RoleSetting =>
      .seq (.loop (rf 0 /-SettingPairs-/) (.visit ⟨1, []⟩ (.ptr .SettingPair)))
      (.visit (rf 1 /-Modifier-/) (.ptr .Ident))
  -- parser/walk.go:785-798
  | .CreateRole =>
      .seq (.loop (rf 4 /-RoleNames-/) (.visit ⟨1, []⟩ (.ptr .RoleName)))
      (.seq (.visit (rf 5 /-AccessStorageType-/) (.ptr .Ident))
      (.loop (rf 6 /-Settings-/) (.visit ⟨1, []⟩ (.ptr .RoleSetting))))
  -- parser/walk.go:1241-1250
  | .AuthenticationClause =>
      .seq (.visit (rf 4 /-AuthValue-/) (.ptr .StringLiteral))
      (.seq (.visit (rf 5 /-LdapServer-/) (.ptr .StringLiteral))
      (.visit (rf 6 /-KerberosRealm-/) (.ptr .StringLiteral)))
  -- parser/walk.go:1251-1254
  | .HostClause =>
      .visit (rf 3 /-HostValue-/) (.ptr .StringLiteral)
  -- parser/walk.go:1255-1260
  | .DefaultRoleClause =>
      .loop (rf 2 /-Roles-/) (.visit ⟨1, []⟩ (.ptr .RoleName))
  -- parser/walk.go:1261-1271
  | .GranteesClause =>
      .seq (.loop (rf 2 /-Grantees-/) (.visit ⟨1, []⟩ (.ptr .RoleName)))
      (.loop (rf 3 /-ExceptUsers-/) (.visit ⟨1, []⟩ (.ptr .RoleName)))
  -- parser/walk.go:799-829
  | .CreateUser =>
      .seq (.loop (rf 4 /-UserNames-/) (.visit ⟨1, []⟩ (.ptr .RoleName)))
      (.seq (.visit (rf 5 /-Authentication-/) (.ptr .AuthenticationClause))
      (.seq (.visit (rf 6 /-ValidUntil-/) (.ptr .StringLiteral))
      (.seq (.loop (rf 7 /-Hosts-/) (.visit ⟨1, []⟩ (.ptr .HostClause)))
      (.seq (.visit (rf 8 /-DefaultRole-/) (.ptr .DefaultRoleClause))
      (.seq (.visit (rf 9 /-DefaultDatabase-/) (.ptr .Ident))
      (.seq (.visit (rf 11 /-Grantees-/) (.ptr .GranteesClause))
      (.loop (rf 12 /-Settings-/) (.visit ⟨1, []⟩ (.ptr .RoleSetting)))))))))
  -- parser/walk.go:1008-1018
  | .AlterRole =>
      .seq (.loop (rf 3 /-RoleRenamePairs-/) (.visit ⟨1, []⟩ (.ptr .RoleRenamePair)))
      (.loop (rf 4 /-Settings-/) (.visit ⟨1, []⟩ (.ptr .RoleSetting)))
  -- parser/walk.go:1019-1025
  | .RoleRenamePair =>
      .seq (.visit (rf 0 /-RoleName-/) (.ptr .RoleName))
      (.visit (rf 1 /-NewName-/) .iface)
  -- parser/walk.go:1201-1207
  | .DestinationClause =>
      .seq (.visit (rf 1 /-TableIdentifier-/) (.ptr .TableIdentifier))
      (.visit (rf 2 /-TableSchema-/) (.ptr .TableSchemaClause))
  -- parser/walk.go:1208-1214
  | .ConstraintClause =>
      .seq (.visit (rf 1 /-Constraint-/) (.ptr .Ident))
      (.visit (rf 2 /-Expr-/) .iface)
  -- parser/walk.go:133-134
  | .NullLiteral =>
      .skip
  -- parser/walk.go:135-138
  | .NotNullLiteral =>
      .visit (rf 1 /-NullLiteral-/) (.ptr .NullLiteral)
  -- parser/walk.go:365-371
  | .NestedIdentifier =>
      .seq (.visit (rf 0 /-Ident-/) (.ptr .Ident))
      (.visit (rf 1 /-DotIdent-/) (.ptr .Ident))
  -- parser/walk.go:182-187
  | .Path =>
      .loop (rf 0 /-Fields-/) (.visit ⟨1, []⟩ (.ptr .Ident))
  -- parser/walk.go:118-124
  | .TableIdentifier =>
      .seq (.visit (rf 0 /-Database-/) (.ptr .Ident))
      (.visit (rf 1 /-Table-/) (.ptr .Ident))
  -- parser/walk.go:1026-1037
  | .TableSchemaClause =>
      .seq (.loop (rf 2 /-Columns-/) (.visit ⟨1, []⟩ .iface))
      (.seq (.visit (rf 3 /-AliasTable-/) (.ptr .TableIdentifier))
      (.visit (rf 4 /-TableFunction-/) (.ptr .TableFunctionExpr)))
  -- parser/walk.go:359-364
  | .TableArgListExpr =>
      .loop (rf 2 /-Args-/) (.visit ⟨1, []⟩ .iface)
  -- parser/walk.go:352-358
  | .TableFunctionExpr =>
      .seq (.visit (rf 0 /-Name-/) .iface)
      (.visit (rf 1 /-Args-/) (.ptr .TableArgListExpr))
  -- parser/walk.go:1523-1526
  | .ClusterClause =>
      .visit (rf 1 /-Expr-/) .iface
  -- parser/walk.go:1527-1533
  | .PartitionClause =>
      .seq (.visit (rf 1 /-Expr-/) .iface)
      (.visit (rf 2 /-ID-/) (.ptr .StringLiteral))
  -- parser/walk.go:420-423
  | .PartitionByClause =>
      .visit (rf 1 /-Expr-/) .iface
  -- parser/walk.go:1149-1152
  | .PrimaryKeyClause =>
      .visit (rf 1 /-Expr-/) .iface
  -- parser/walk.go:1153-1156
  | .SampleByClause =>
      .visit (rf 1 /-Expr-/) .iface
  -- parser/walk.go:1190-1193
  | .TTLPolicyRuleAction =>
      .visit (rf 3 /-Codec-/) (.ptr .CompressionCodec)
  -- parser/walk.go:1194-1200
  | .RefreshExpr =>
      .seq (.visit (rf 2 /-Interval-/) (.ptr .IntervalExpr))
      (.visit (rf 3 /-Offset-/) (.ptr .IntervalExpr))
  -- parser/walk.go:1180-1189
  | .TTLPolicyRule =>
      .seq (.visit (rf 1 /-ToVolume-/) (.ptr .StringLiteral))
      (.seq (.visit (rf 2 /-ToDisk-/) (.ptr .StringLiteral))
      (.visit (rf 3 /-Action-/) (.ptr .TTLPolicyRuleAction)))
  -- parser/walk.go:1170-1179
  | .TTLPolicy =>
      .seq (.visit (rf 0 /-Item-/) (.ptr .TTLPolicyRule))
      (.seq (.visit (rf 1 /-Where-/) (.ptr .WhereClause))
      (.visit (rf 2 /-GroupBy-/) (.ptr .GroupByClause)))
  -- parser/walk.go:1163-1169
  | .TTLExpr =>
      .seq (.visit (rf 1 /-Expr-/) .iface)
      (.visit (rf 2 /-Policy-/) (.ptr .TTLPolicy))
  -- parser/walk.go:1157-1162
  | .TTLClause =>
      .loop (rf 2 /-Items-/) (.visit ⟨1, []⟩ (.ptr .TTLExpr))
  -- parser/walk.go:265-277
  | .Fill =>
      .seq (.visit (rf 1 /-From-/) .iface)
      (.seq (.visit (rf 2 /-To-/) .iface)
      (.seq (.visit (rf 3 /-Step-/) .iface)
      (.visit (rf 4 /-Staleness-/) .iface)))
  -- parser/walk.go:255-264
  | .OrderExpr =>
      .seq (.visit (rf 1 /-Expr-/) .iface)
      (.seq (.visit (rf 2 /-Alias-/) (.ptr .Ident))
      (.visit (rf 4 /-Fill-/) (.ptr .Fill)))
  -- parser/walk.go:284-290
  | .InterpolateItem =>
      .seq (.visit (rf 0 /-Column-/) (.ptr .Ident))
      (.visit (rf 1 /-Expr-/) .iface)
  -- parser/walk.go:278-283
  | .InterpolateClause =>
      .loop (rf 2 /-Items-/) (.visit ⟨1, []⟩ (.ptr .InterpolateItem))
  -- parser/walk.go:246-254
  | .OrderByClause =>
      .seq (.loop (rf 2 /-Items-/) (.visit ⟨1, []⟩ .iface))
      (.visit (rf 3 /-Interpolate-/) (.ptr .InterpolateClause))
  -- parser/walk.go:311-317
  | .SettingExpr =>
      .seq (.visit (rf 1 /-Name-/) (.ptr .Ident))
      (.visit (rf 2 /-Expr-/) .iface)
  -- parser/walk.go:305-310
  | .SettingsClause =>
      .loop (rf 2 /-Items-/) (.visit ⟨1, []⟩ (.ptr .SettingExpr))
  -- parser/walk.go:382-388
  | .ParamExprList =>
      .seq (.visit (rf 2 /-Items-/) (.ptr .ColumnExprList))
      (.visit (rf 3 /-ColumnArgList-/) (.ptr .ColumnArgList))
  -- parser/walk.go:1384-1392
  | .MapLiteral =>
      .loop (rf 2 /-KeyValues-/) (.seq (.visit ⟨1, [.f 0] /-Key-/⟩ (.ptr .StringLiteral))
      (.visit ⟨1, [.f 1] /-Value-/⟩ .iface))
  -- parser/walk.go:1393-1399
  | .NamedParameterExpr =>
      .seq (.visit (rf 1 /-Name-/) (.ptr .Ident))
      (.visit (rf 2 /-Value-/) .iface)
  -- parser/walk.go:1377-1383
  | .QueryParam =>
      .seq (.visit (rf 2 /-Name-/) (.ptr .Ident))
      (.visit (rf 3 /-Type-/) .iface)
  -- parser/walk.go:372-375
  | .ArrayParamList =>
      .visit (rf 2 /-Items-/) (.ptr .ColumnExprList)
  -- parser/walk.go:1400-1406
  | .ObjectParams =>
      .seq (.visit (rf 0 /-Object-/) .iface)
      (.visit (rf 1 /-Params-/) (.ptr .ArrayParamList))
  -- parser/walk.go:111-117
  | .FunctionExpr =>
      .seq (.visit (rf 0 /-Name-/) (.ptr .Ident))
      (.visit (rf 1 /-Params-/) (.ptr .ParamExprList))
  -- parser/walk.go:1407-1413
  | .WindowFunctionExpr =>
      .seq (.visit (rf 0 /-Function-/) (.ptr .FunctionExpr))
      (.visit (rf 2 /-OverExpr-/) .iface)
  -- parser/walk.go:1370-1376
  | .TypedPlaceholder =>
      .seq (.visit (rf 2 /-Name-/) (.ptr .Ident))
      (.visit (rf 3 /-Type-/) .iface)
  -- parser/walk.go:139-145
  | .ColumnExpr =>
      .seq (.visit (rf 0 /-Expr-/) .iface)
      (.visit (rf 1 /-Alias-/) (.ptr .Ident))
  -- parser/walk.go:1038-1071
  | .ColumnDef =>
      .seq (.visit (rf 2 /-Name-/) (.ptr .NestedIdentifier))
      (.seq (.visit (rf 3 /-Type-/) .iface)
      (.seq (.visit (rf 4 /-NotNull-/) (.ptr .NotNullLiteral))
      (.seq (.visit (rf 5 /-Nullable-/) (.ptr .NullLiteral))
      (.seq (.visit (rf 6 /-DefaultExpr-/) .iface)
      (.seq (.visit (rf 7 /-MaterializedExpr-/) .iface)
      (.seq (.visit (rf 8 /-AliasExpr-/) .iface)
      (.seq (.visit (rf 9 /-Codec-/) (.ptr .CompressionCodec))
      (.seq (.visit (rf 10 /-TTL-/) (.ptr .TTLClause))
      (.seq (.visit (rf 11 /-Comment-/) (.ptr .StringLiteral))
      (.visit (rf 12 /-CompressionCodec-/) (.ptr .Ident)))))))))))
  -- parser/walk.go:1072-1075
  | .ScalarType =>
      .visit (rf 0 /-Name-/) (.ptr .Ident)
  -- parser/walk.go:1076-1082
  | .JSONType =>
      .seq (.visit (rf 0 /-Name-/) (.ptr .Ident))
      (.guard (rf 1 /-Options-/) (.loop ⟨0, [.f 1, .f 2] /-Options.Items-/⟩ (.guard ⟨1, []⟩ (.seq (.guard ⟨1, [.f 0] /-SkipPath-/⟩ (.loop ⟨1, [.f 0, .f 0] /-SkipPath.Idents-/⟩ (.visit ⟨2, []⟩ (.ptr .Ident))))
      (.seq (.visit ⟨1, [.f 1] /-SkipRegex-/⟩ (.ptr .StringLiteral))
      (.seq (.visit ⟨1, [.f 2] /-MaxDynamicPaths-/⟩ (.ptr .NumberLiteral))
      (.seq (.visit ⟨1, [.f 3] /-MaxDynamicTypes-/⟩ (.ptr .NumberLiteral))
      (.guard ⟨1, [.f 4] /-Column-/⟩ (.seq (.guard ⟨1, [.f 4, .f 0] /-Column.Path-/⟩ (.loop ⟨1, [.f 4, .f 0, .f 0] /-Column.Path.Idents-/⟩ (.visit ⟨2, []⟩ (.ptr .Ident))))
      (.visit ⟨1, [.f 4, .f 1] /-Column.Type-/⟩ .iface))))))))))
  -- parser/walk.go:1083-1086
  | .PropertyType =>
      .visit (rf 0 /-Name-/) (.ptr .Ident)
  -- parser/walk.go:1087-1095
  | .TypeWithParams =>
      .seq (.visit (rf 2 /-Name-/) (.ptr .Ident))
      (.loop (rf 3 /-Params-/) (.visit ⟨1, []⟩ .iface))
  -- parser/walk.go:1096-1104
  | .ComplexType =>
      .seq (.visit (rf 2 /-Name-/) (.ptr .Ident))
      (.loop (rf 3 /-Params-/) (.visit ⟨1, []⟩ .iface))
  -- parser/walk.go:1105-1113
  | .NestedType =>
      .seq (.visit (rf 2 /-Name-/) (.ptr .Ident))
      (.loop (rf 3 /-Columns-/) (.visit ⟨1, []⟩ .iface))
  -- parser/walk.go:1114-1126
  | .CompressionCodec =>
      .seq (.visit (rf 2 /-Type-/) (.ptr .Ident))
      (.seq (.visit (rf 3 /-TypeLevel-/) (.ptr .NumberLiteral))
      (.seq (.visit (rf 4 /-Name-/) (.ptr .Ident))
      (.visit (rf 5 /-Level-/) (.ptr .NumberLiteral))))
  -- parser/walk.go:127-128
  | .NumberLiteral =>
      .skip
  -- parser/walk.go:129-130
  | .StringLiteral =>
      .skip
  -- parser/walk.go:131-132
  | .BoolLiteral =>
      .skip
  -- parser/walk.go:1368-1369
  | .PlaceHolder =>
      .skip
  -- parser/walk.go:465-471
  | .RatioExpr =>
      .seq (.visit (rf 0 /-Numerator-/) (.ptr .NumberLiteral))
      (.visit (rf 1 /-Denominator-/) (.ptr .NumberLiteral))
  -- parser/walk.go:1516-1522
  | .EnumValue =>
      .seq (.visit (rf 0 /-Name-/) (.ptr .StringLiteral))
      (.visit (rf 1 /-Value-/) (.ptr .NumberLiteral))
  -- parser/walk.go:1507-1515
  | .EnumType =>
      .seq (.visit (rf 0 /-Name-/) (.ptr .Ident))
      (.loop (rf 3 /-Values-/) (.visit ⟨1, []⟩ (.ptr .EnumValue)))
  -- parser/walk.go:472-478
  | .IntervalExpr =>
      .seq (.visit (rf 1 /-Expr-/) .iface)
      (.visit (rf 2 /-Unit-/) (.ptr .Ident))
  -- parser/walk.go:1127-1148
  | .EngineExpr =>
      .seq (.visit (rf 3 /-Params-/) (.ptr .ParamExprList))
      (.seq (.visit (rf 4 /-PrimaryKey-/) (.ptr .PrimaryKeyClause))
      (.seq (.visit (rf 5 /-PartitionBy-/) (.ptr .PartitionByClause))
      (.seq (.visit (rf 6 /-SampleBy-/) (.ptr .SampleByClause))
      (.seq (.visit (rf 7 /-TTL-/) (.ptr .TTLClause))
      (.seq (.visit (rf 8 /-Settings-/) (.ptr .SettingsClause))
      (.visit (rf 9 /-OrderBy-/) (.ptr .OrderByClause)))))))
  -- parser/walk.go:1538-1541
  | .ColumnTypeExpr =>
      .visit (rf 0 /-Name-/) (.ptr .Ident)
  -- parser/walk.go:389-394
  | .ColumnArgList =>
      .loop (rf 3 /-Items-/) (.visit ⟨1, []⟩ .iface)
  -- parser/walk.go:376-381
  | .ColumnExprList =>
      .loop (rf 3 /-Items-/) (.visit ⟨1, []⟩ .iface)
  -- parser/walk.go:153-162
  | .WhenClause =>
      .seq (.visit (rf 2 /-When-/) .iface)
      (.seq (.visit (rf 3 /-Then-/) .iface)
      (.visit (rf 5 /-Else-/) .iface))
  -- parser/walk.go:163-174
  | .CaseExpr =>
      .seq (.visit (rf 2 /-Expr-/) .iface)
      (.seq (.loop (rf 3 /-Whens-/) (.visit ⟨1, []⟩ (.ptr .WhenClause)))
      (.visit (rf 5 /-Else-/) .iface))
  -- parser/walk.go:175-181
  | .CastExpr =>
      .seq (.visit (rf 1 /-Expr-/) .iface)
      (.visit (rf 4 /-AsType-/) .iface)
  -- parser/walk.go:188-193
  | .WithClause =>
      .loop (rf 2 /-CTEs-/) (.visit ⟨1, []⟩ (.ptr .CTEStmt))
  -- parser/walk.go:454-457
  | .TopClause =>
      .visit (rf 2 /-Number-/) (.ptr .NumberLiteral)
  -- parser/walk.go:712-733
  | .CreateLiveView =>
      .seq (.visit (rf 2 /-Name-/) (.ptr .TableIdentifier))
      (.seq (.visit (rf 4 /-UUID-/) (.ptr .UUID))
      (.seq (.visit (rf 5 /-OnCluster-/) (.ptr .ClusterClause))
      (.seq (.visit (rf 6 /-Destination-/) (.ptr .DestinationClause))
      (.seq (.visit (rf 7 /-TableSchema-/) (.ptr .TableSchemaClause))
      (.seq (.visit (rf 8 /-WithTimeout-/) (.ptr .WithTimeoutClause))
      (.visit (rf 9 /-SubQuery-/) (.ptr .SubQuery)))))))
  -- parser/walk.go:734-752
  | .CreateDictionary =>
      .seq (.visit (rf 3 /-Name-/) (.ptr .TableIdentifier))
      (.seq (.visit (rf 5 /-UUID-/) (.ptr .UUID))
      (.seq (.visit (rf 6 /-OnCluster-/) (.ptr .ClusterClause))
      (.seq (.visit (rf 7 /-Schema-/) (.ptr .DictionarySchemaClause))
      (.seq (.visit (rf 8 /-Engine-/) (.ptr .DictionaryEngineClause))
      (.visit (rf 9 /-Comment-/) (.ptr .StringLiteral))))))
  -- parser/walk.go:766-777
  | .CreateNamedCollection =>
      .seq (.visit (rf 2 /-Name-/) (.ptr .Ident))
      (.seq (.visit (rf 4 /-OnCluster-/) (.ptr .ClusterClause))
      (.loop (rf 5 /-Params-/) (.visit ⟨1, []⟩ (.ptr .NamedCollectionParam))))
  -- parser/walk.go:778-784
  | .NamedCollectionParam =>
      .seq (.visit (rf 1 /-Name-/) (.ptr .Ident))
      (.visit (rf 2 /-Value-/) .iface)
  -- parser/walk.go:1279-1284
  | .DictionarySchemaClause =>
      .loop (rf 1 /-Attributes-/) (.visit ⟨1, []⟩ (.ptr .DictionaryAttribute))
  -- parser/walk.go:1285-1297
  | .DictionaryAttribute =>
      .seq (.visit (rf 2 /-Name-/) (.ptr .Ident))
      (.seq (.visit (rf 3 /-Type-/) .iface)
      (.seq (.visit (rf 4 /-Default-/) .iface)
      (.visit (rf 5 /-Expression-/) .iface)))
  -- parser/walk.go:1298-1316
  | .DictionaryEngineClause =>
      .seq (.visit (rf 1 /-PrimaryKey-/) (.ptr .DictionaryPrimaryKeyClause))
      (.seq (.visit (rf 2 /-Source-/) (.ptr .DictionarySourceClause))
      (.seq (.visit (rf 3 /-Lifetime-/) (.ptr .DictionaryLifetimeClause))
      (.seq (.visit (rf 4 /-Layout-/) (.ptr .DictionaryLayoutClause))
      (.seq (.visit (rf 5 /-Range-/) (.ptr .DictionaryRangeClause))
      (.visit (rf 6 /-Settings-/) (.ptr .SettingsClause))))))
  -- parser/walk.go:1317-1320
  | .DictionaryPrimaryKeyClause =>
      .visit (rf 1 /-Keys-/) (.ptr .ColumnExprList)
  -- parser/walk.go:1321-1329
  | .DictionarySourceClause =>
      .seq (.visit (rf 1 /-Source-/) (.ptr .Ident))
      (.loop (rf 2 /-Args-/) (.visit ⟨1, []⟩ (.ptr .DictionaryArgExpr)))
  -- parser/walk.go:1330-1341
  | .DictionaryArgExpr =>
      .seq (.visit (rf 1 /-Name-/) (.ptr .Ident))
      (.seq (.visit (rf 2 /-Value-/) .iface)
      (.loop (rf 3 /-Args-/) (.visit ⟨1, []⟩ (.ptr .DictionaryArgExpr))))
  -- parser/walk.go:1342-1351
  | .DictionaryLifetimeClause =>
      .seq (.visit (rf 3 /-Value-/) (.ptr .NumberLiteral))
      (.seq (.visit (rf 1 /-Min-/) (.ptr .NumberLiteral))
      (.visit (rf 2 /-Max-/) (.ptr .NumberLiteral)))
  -- parser/walk.go:1352-1360
  | .DictionaryLayoutClause =>
      .seq (.visit (rf 1 /-Layout-/) (.ptr .Ident))
      (.loop (rf 2 /-Args-/) (.visit ⟨1, []⟩ (.ptr .DictionaryArgExpr)))
  -- parser/walk.go:1361-1367
  | .DictionaryRangeClause =>
      .seq (.visit (rf 1 /-Min-/) (.ptr .Ident))
      (.visit (rf 2 /-Max-/) (.ptr .Ident))
  -- parser/walk.go:1272-1278
  | .WithTimeoutClause =>
      .seq (.visit (rf 1 /-Expr-/) .iface)
      (.visit (rf 2 /-Number-/) (.ptr .NumberLiteral))
  -- parser/walk.go:97-103
  | .TableExpr =>
      .seq (.visit (rf 3 /-Expr-/) .iface)
      (.visit (rf 2 /-Alias-/) (.ptr .AliasExpr))
  -- parser/walk.go:222-225
  | .OnClause =>
      .visit (rf 1 /-On-/) (.ptr .ColumnExprList)
  -- parser/walk.go:226-229
  | .UsingClause =>
      .visit (rf 1 /-Using-/) (.ptr .ColumnExprList)
  -- parser/walk.go:205-214
  | .JoinExpr =>
      .seq (.visit (rf 1 /-Left-/) .iface)
      (.seq (.visit (rf 2 /-Right-/) .iface)
      (.visit (rf 4 /-Constraints-/) .iface))
  -- parser/walk.go:1546-1552
  | .JoinConstraintClause =>
      .seq (.visit (rf 1 /-On-/) (.ptr .ColumnExprList))
      (.visit (rf 2 /-Using-/) (.ptr .ColumnExprList))
  -- parser/walk.go:201-204
  | .FromClause =>
      .visit (rf 1 /-Expr-/) .iface
  -- parser/walk.go:1439-1442
  | .IsNullExpr =>
      .visit (rf 2 /-Expr-/) .iface
  -- parser/walk.go:1443-1446
  | .IsNotNullExpr =>
      .visit (rf 2 /-Expr-/) .iface
  -- parser/walk.go:104-110
  | .AliasExpr =>
      .seq (.visit (rf 0 /-Expr-/) .iface)
      (.visit (rf 2 /-Alias-/) .iface)
  -- parser/walk.go:230-233
  | .WhereClause =>
      .visit (rf 1 /-Expr-/) .iface
  -- parser/walk.go:234-237
  | .PrewhereClause =>
      .visit (rf 1 /-Expr-/) .iface
  -- parser/walk.go:238-241
  | .GroupByClause =>
      .visit (rf 3 /-Expr-/) .iface
  -- parser/walk.go:242-245
  | .HavingClause =>
      .visit (rf 1 /-Expr-/) .iface
  -- parser/walk.go:291-297
  | .LimitClause =>
      .seq (.visit (rf 1 /-Limit-/) .iface)
      (.visit (rf 2 /-Offset-/) .iface)
  -- parser/walk.go:298-304
  | .LimitByClause =>
      .seq (.visit (rf 0 /-Limit-/) (.ptr .LimitClause))
      (.visit (rf 1 /-ByExpr-/) (.ptr .ColumnExprList))
  -- parser/walk.go:407-419
  | .WindowExpr =>
      .seq (.visit (rf 2 /-WindowName-/) (.ptr .Ident))
      (.seq (.visit (rf 3 /-PartitionBy-/) (.ptr .PartitionByClause))
      (.seq (.visit (rf 4 /-OrderBy-/) (.ptr .OrderByClause))
      (.visit (rf 5 /-Frame-/) (.ptr .WindowFrameClause))))
  -- parser/walk.go:395-406
  | .WindowClause =>
      .loop (rf 2 /-Windows-/) (.guard ⟨1, []⟩ (.seq (.visit ⟨1, [.f 0] /-Name-/⟩ (.ptr .Ident))
      (.visit ⟨1, [.f 2] /-Expr-/⟩ (.ptr .WindowExpr))))
  -- parser/walk.go:424-427
  | .WindowFrameClause =>
      .visit (rf 2 /-Extend-/) .iface
  -- parser/walk.go:428-431
  | .WindowFrameExtendExpr =>
      .visit (rf 0 /-Expr-/) .iface
  -- parser/walk.go:432-441
  | .BetweenClause =>
      .seq (.visit (rf 0 /-Expr-/) .iface)
      (.seq (.visit (rf 2 /-Between-/) .iface)
      (.visit (rf 4 /-And-/) .iface))
  -- parser/walk.go:442-443
  | .WindowFrameCurrentRow =>
      .skip
  -- parser/walk.go:444-445
  | .WindowFrameUnbounded =>
      .skip
  -- parser/walk.go:446-449
  | .WindowFrameNumber =>
      .visit (rf 0 /-Number-/) (.ptr .NumberLiteral)
  -- parser/walk.go:450-453
  | .WindowFrameParam =>
      .visit (rf 0 /-Param-/) (.ptr .QueryParam)
  -- parser/walk.go:21-80
  | .SelectQuery =>
      .seq (.visit (rf 2 /-With-/) (.ptr .WithClause))
      (.seq (.visit (rf 5 /-DistinctOn-/) (.ptr .DistinctOn))
      (.seq (.visit (rf 3 /-Top-/) (.ptr .TopClause))
      (.seq (.loop (rf 6 /-SelectItems-/) (.visit ⟨1, []⟩ (.ptr .SelectItem)))
      (.seq (.visit (rf 7 /-From-/) (.ptr .FromClause))
      (.seq (.visit (rf 8 /-Window-/) (.ptr .WindowClause))
      (.seq (.visit (rf 9 /-Prewhere-/) (.ptr .PrewhereClause))
      (.seq (.visit (rf 10 /-Where-/) (.ptr .WhereClause))
      (.seq (.visit (rf 11 /-GroupBy-/) (.ptr .GroupByClause))
      (.seq (.visit (rf 13 /-Having-/) (.ptr .HavingClause))
      (.seq (.visit (rf 14 /-OrderBy-/) (.ptr .OrderByClause))
      (.seq (.visit (rf 15 /-LimitBy-/) (.ptr .LimitByClause))
      (.seq (.visit (rf 16 /-Limit-/) (.ptr .LimitClause))
      (.seq (.visit (rf 17 /-Settings-/) (.ptr .SettingsClause))
      (.seq (.visit (rf 19 /-UnionAll-/) (.ptr .SelectQuery))
      (.seq (.visit (rf 20 /-UnionDistinct-/) (.ptr .SelectQuery))
      (.seq (.visit (rf 21 /-Except-/) (.ptr .SelectQuery))
      (.seq (.visit (rf 22 /-Intersect-/) (.ptr .SelectQuery))
      (.visit (rf 18 /-Format-/) (.ptr .FormatClause)))))))))))))))))))
  -- parser/walk.go:1580-1585
  | .DistinctOn =>
      .loop (rf 0 /-Idents-/) (.visit ⟨1, []⟩ (.ptr .NestedIdentifier))
  -- parser/walk.go:81-84
  | .SubQuery =>
      .visit (rf 1 /-Select-/) (.ptr .SelectQuery)
  -- parser/walk.go:1414-1417
  | .NotExpr =>
      .visit (rf 1 /-Expr-/) .iface
  -- parser/walk.go:1418-1421
  | .NegateExpr =>
      .visit (rf 1 /-Expr-/) .iface
  -- parser/walk.go:1422-1425
  | .GlobalInOperation =>
      .visit (rf 1 /-Expr-/) .iface
  -- parser/walk.go:1432-1438
  | .IntervalFrom =>
      .seq (.visit (rf 0 /-Interval-/) (.ptr .Ident))
      (.visit (rf 2 /-FromExpr-/) .iface)
  -- parser/walk.go:1426-1431
  | .ExtractExpr =>
      .loop (rf 2 /-Parameters-/) (.visit ⟨1, []⟩ .iface)
  -- parser/walk.go:486-492
  | .DropDatabase =>
      .seq (.visit (rf 2 /-Name-/) (.ptr .Ident))
      (.visit (rf 4 /-OnCluster-/) (.ptr .ClusterClause))
  -- parser/walk.go:479-485
  | .DropStmt =>
      .seq (.visit (rf 3 /-Name-/) (.ptr .TableIdentifier))
      (.visit (rf 5 /-OnCluster-/) (.ptr .ClusterClause))
  -- parser/walk.go:493-501
  | .DropUserOrRole =>
      .seq (.loop (rf 3 /-Names-/) (.visit ⟨1, []⟩ (.ptr .RoleName)))
      (.visit (rf 6 /-From-/) (.ptr .Ident))
  -- parser/walk.go:561-564
  | .UseStmt =>
      .visit (rf 2 /-Database-/) (.ptr .Ident)
  -- parser/walk.go:194-200
  | .CTEStmt =>
      .seq (.visit (rf 1 /-Expr-/) .iface)
      (.visit (rf 2 /-Alias-/) .iface)
  -- parser/walk.go:565-568
  | .SetStmt =>
      .visit (rf 1 /-Settings-/) (.ptr .SettingsClause)
  -- parser/walk.go:318-321
  | .FormatClause =>
      .visit (rf 1 /-Format-/) (.ptr .Ident)
  -- parser/walk.go:516-528
  | .OptimizeStmt =>
      .seq (.visit (rf 2 /-Table-/) (.ptr .TableIdentifier))
      (.seq (.visit (rf 3 /-OnCluster-/) (.ptr .ClusterClause))
      (.seq (.visit (rf 4 /-Partition-/) (.ptr .PartitionClause))
      (.visit (rf 6 /-Deduplicate-/) (.ptr .DeduplicateClause))))
  -- parser/walk.go:529-535
  | .DeduplicateClause =>
      .seq (.visit (rf 1 /-By-/) (.ptr .ColumnExprList))
      (.visit (rf 2 /-Except-/) (.ptr .ColumnExprList))
  -- parser/walk.go:536-539
  | .SystemStmt =>
      .visit (rf 1 /-Expr-/) .iface
  -- parser/walk.go:540-543
  | .SystemFlushExpr =>
      .visit (rf 3 /-Distributed-/) (.ptr .TableIdentifier)
  -- parser/walk.go:544-550
  | .SystemReloadExpr =>
      .seq (.visit (rf 2 /-OnCluster-/) (.ptr .ClusterClause))
      (.visit (rf 3 /-Dictionary-/) (.ptr .TableIdentifier))
  -- parser/walk.go:551-554
  | .SystemSyncExpr =>
      .visit (rf 1 /-Cluster-/) (.ptr .TableIdentifier)
  -- parser/walk.go:555-558
  | .SystemCtrlExpr =>
      .visit (rf 4 /-Cluster-/) (.ptr .TableIdentifier)
  -- parser/walk.go:559-560
  | .SystemDropExpr =>
      .skip
  -- parser/walk.go:502-508
  | .TruncateTable =>
      .seq (.visit (rf 4 /-Name-/) (.ptr .TableIdentifier))
      (.visit (rf 5 /-OnCluster-/) (.ptr .ClusterClause))
  -- parser/walk.go:458-464
  | .SampleClause =>
      .seq (.visit (rf 1 /-Ratio-/) (.ptr .RatioExpr))
      (.visit (rf 2 /-Offset-/) (.ptr .RatioExpr))
  -- parser/walk.go:606-615
  | .DeleteClause =>
      .seq (.visit (rf 1 /-Table-/) (.ptr .TableIdentifier))
      (.seq (.visit (rf 2 /-OnCluster-/) (.ptr .ClusterClause))
      (.visit (rf 3 /-WhereExpr-/) .iface))
  -- parser/walk.go:340-345
  | .ColumnNamesExpr =>
      .loop (rf 2 /-ColumnNames-/) (.visit ⟨1, []⟩ (.ptr .NestedIdentifier))
  -- parser/walk.go:346-351
  | .AssignmentValues =>
      .loop (rf 2 /-Values-/) (.visit ⟨1, []⟩ .iface)
  -- parser/walk.go:322-339
  | .InsertStmt =>
      .seq (.visit (rf 3 /-Table-/) .iface)
      (.seq (.visit (rf 4 /-ColumnNames-/) (.ptr .ColumnNamesExpr))
      (.seq (.visit (rf 1 /-Format-/) (.ptr .FormatClause))
      (.seq (.loop (rf 5 /-Values-/) (.visit ⟨1, []⟩ (.ptr .AssignmentValues)))
      (.visit (rf 6 /-SelectExpr-/) (.ptr .SelectQuery)))))
  -- parser/walk.go:509-515
  | .CheckStmt =>
      .seq (.visit (rf 1 /-Table-/) (.ptr .TableIdentifier))
      (.visit (rf 2 /-Partition-/) (.ptr .PartitionClause))
  -- parser/walk.go:1542-1545
  | .UnaryExpr =>
      .visit (rf 2 /-Expr-/) .iface
  -- parser/walk.go:594-605
  | .RenameStmt =>
      .seq (.loop (rf 3 /-TargetPairList-/) (.seq (.visit ⟨1, [.f 0] /-Old-/⟩ (.ptr .TableIdentifier))
      (.visit ⟨1, [.f 1] /-New-/⟩ (.ptr .TableIdentifier))))
      (.visit (rf 4 /-OnCluster-/) (.ptr .ClusterClause))
  -- parser/walk.go:1553-1559
  | .TargetPair =>
      .seq (.visit (rf 0 /-Old-/) (.ptr .TableIdentifier))
      (.visit (rf 1 /-New-/) (.ptr .TableIdentifier))
  -- parser/walk.go:569-572
  | .ExplainStmt =>
      .visit (rf 2 /-Statement-/) .iface
  -- parser/walk.go:590-593
  | .PrivilegeClause =>
      .visit (rf 3 /-Params-/) (.ptr .ParamExprList)
  -- parser/walk.go:573-589
  | .GrantPrivilegeStmt =>
      .seq (.loop (rf 3 /-Privileges-/) (.visit ⟨1, []⟩ (.ptr .PrivilegeClause)))
      (.seq (.visit (rf 4 /-On-/) (.ptr .TableIdentifier))
      (.seq (.loop (rf 5 /-To-/) (.visit ⟨1, []⟩ (.ptr .Ident)))
      (.visit (rf 2 /-OnCluster-/) (.ptr .ClusterClause))))
  -- parser/walk.go:1560-1575
  | .ShowStmt =>
      .seq (.visit (rf 3 /-Target-/) (.ptr .TableIdentifier))
      (.seq (.visit (rf 6 /-LikePattern-/) .iface)
      (.seq (.visit (rf 7 /-Limit-/) .iface)
      (.seq (.visit (rf 8 /-OutFile-/) (.ptr .StringLiteral))
      (.visit (rf 9 /-Format-/) (.ptr .StringLiteral)))))
  -- parser/walk.go:1576-1579
  | .DescribeStmt =>
      .visit (rf 3 /-Target-/) (.ptr .TableIdentifier)
  | _ => .skip

end Verif
