/-
The bodies of the `Accept` methods (parser/ast.go) without the calls of `Enter`, `Leave`
and `Visit...` that every one of them has; the helpers `accept` (parser/ast.go:3242-3340) of the
JSON option structs are written out in place.
Written by tools/genast.py from the Go text.
-/
import Verif.Ast.Schema

set_option linter.unusedVariables false

namespace Verif

/-- What `Accept` does with the children of a node of each type. -/
def acceptBody : Ty → WCmd
  -- parser/ast.go:44-61
  | .SelectItem =>
      .seq (.visit (rf 0 /-Expr-/) .iface)
      (.seq (.loop (rf 1 /-Modifiers-/) (.visit ⟨1, []⟩ (.ptr .FunctionExpr)))
      (.guard (rf 2 /-Alias-/) (.visit (rf 2 /-Alias-/) (.ptr .Ident))))
  -- parser/ast.go:76-80
  | .OperationExpr =>
      .skip
  -- parser/ast.go:96-109
  | .TernaryOperation =>
      .seq (.visit (rf 1 /-TrueExpr-/) .iface)
      (.seq (.visit (rf 2 /-FalseExpr-/) .iface)
      (.visit (rf 0 /-Condition-/) .iface))
  -- parser/ast.go:127-137
  | .BinaryOperation =>
      .seq (.visit (rf 0 /-LeftExpr-/) .iface)
      (.visit (rf 2 /-RightExpr-/) .iface)
  -- parser/ast.go:145-155
  | .IndexOperation =>
      .seq (.visit (rf 0 /-Object-/) .iface)
      (.visit (rf 2 /-Index-/) .iface)
  -- parser/ast.go:172-184
  | .JoinTableExpr =>
      .seq (.visit (rf 0 /-Table-/) (.ptr .TableExpr))
      (.guard (rf 2 /-SampleRatio-/) (.visit (rf 2 /-SampleRatio-/) (.ptr .SampleClause)))
  -- parser/ast.go:219-237
  | .AlterTable =>
      .seq (.visit (rf 2 /-TableIdentifier-/) (.ptr .TableIdentifier))
      (.seq (.guard (rf 3 /-OnCluster-/) (.visit (rf 3 /-OnCluster-/) (.ptr .ClusterClause)))
      (.loop (rf 4 /-AlterExprs-/) (.visit ⟨1, []⟩ .iface)))
  -- parser/ast.go:261-273
  | .AlterTableAttachPartition =>
      .seq (.visit (rf 1 /-Partition-/) (.ptr .PartitionClause))
      (.guard (rf 2 /-From-/) (.visit (rf 2 /-From-/) (.ptr .TableIdentifier)))
  -- parser/ast.go:293-305
  | .AlterTableDetachPartition =>
      .seq (.visit (rf 1 /-Partition-/) (.ptr .PartitionClause))
      (.guard (rf 2 /-Settings-/) (.visit (rf 2 /-Settings-/) (.ptr .SettingsClause)))
  -- parser/ast.go:329-341
  | .AlterTableDropPartition =>
      .seq (.visit (rf 2 /-Partition-/) (.ptr .PartitionClause))
      (.guard (rf 3 /-Settings-/) (.visit (rf 3 /-Settings-/) (.ptr .SettingsClause)))
  -- parser/ast.go:363-375
  | .AlterTableMaterializeProjection =>
      .seq (.visit (rf 3 /-ProjectionName-/) (.ptr .NestedIdentifier))
      (.guard (rf 4 /-Partition-/) (.visit (rf 4 /-Partition-/) (.ptr .PartitionClause)))
  -- parser/ast.go:397-409
  | .AlterTableMaterializeIndex =>
      .seq (.visit (rf 3 /-IndexName-/) (.ptr .NestedIdentifier))
      (.guard (rf 4 /-Partition-/) (.visit (rf 4 /-Partition-/) (.ptr .PartitionClause)))
  -- parser/ast.go:429-438
  | .AlterTableFreezePartition =>
      .guard (rf 2 /-Partition-/) (.visit (rf 2 /-Partition-/) (.ptr .PartitionClause))
  -- parser/ast.go:465-482
  | .AlterTableAddColumn =>
      .seq (.visit (rf 2 /-Column-/) (.ptr .ColumnDef))
      (.seq (.guard (rf 4 /-After-/) (.visit (rf 4 /-After-/) (.ptr .NestedIdentifier)))
      (.guard (rf 5 /-Settings-/) (.visit (rf 5 /-Settings-/) (.ptr .SettingsClause))))
  -- parser/ast.go:505-517
  | .AlterTableAddIndex =>
      .seq (.visit (rf 2 /-Index-/) (.ptr .TableIndex))
      (.guard (rf 4 /-After-/) (.visit (rf 4 /-After-/) (.ptr .NestedIdentifier)))
  -- parser/ast.go:532-541
  | .ProjectionOrderByClause =>
      .guard (rf 1 /-Columns-/) (.visit (rf 1 /-Columns-/) (.ptr .ColumnExprList))
  -- parser/ast.go:561-583
  | .ProjectionSelectStmt =>
      .seq (.guard (rf 2 /-With-/) (.visit (rf 2 /-With-/) (.ptr .WithClause)))
      (.seq (.visit (rf 3 /-SelectColumns-/) (.ptr .ColumnExprList))
      (.seq (.guard (rf 4 /-GroupBy-/) (.visit (rf 4 /-GroupBy-/) (.ptr .GroupByClause)))
      (.guard (rf 5 /-OrderBy-/) (.visit (rf 5 /-OrderBy-/) (.ptr .ProjectionOrderByClause)))))
  -- parser/ast.go:600-610
  | .TableProjection =>
      .seq (.visit (rf 2 /-Identifier-/) (.ptr .NestedIdentifier))
      (.visit (rf 3 /-Select-/) (.ptr .ProjectionSelectStmt))
  -- parser/ast.go:633-645
  | .AlterTableAddProjection =>
      .seq (.visit (rf 3 /-TableProjection-/) (.ptr .TableProjection))
      (.guard (rf 4 /-After-/) (.visit (rf 4 /-After-/) (.ptr .NestedIdentifier)))
  -- parser/ast.go:665-672
  | .AlterTableDropColumn =>
      .visit (rf 1 /-ColumnName-/) (.ptr .NestedIdentifier)
  -- parser/ast.go:692-699
  | .AlterTableDropIndex =>
      .visit (rf 1 /-IndexName-/) (.ptr .NestedIdentifier)
  -- parser/ast.go:719-726
  | .AlterTableDropProjection =>
      .visit (rf 1 /-ProjectionName-/) (.ptr .NestedIdentifier)
  -- parser/ast.go:745-749
  | .AlterTableRemoveTTL =>
      .skip
  -- parser/ast.go:772-784
  | .AlterTableClearColumn =>
      .seq (.visit (rf 3 /-ColumnName-/) (.ptr .NestedIdentifier))
      (.guard (rf 4 /-PartitionExpr-/) (.visit (rf 4 /-PartitionExpr-/) (.ptr .PartitionClause)))
  -- parser/ast.go:807-819
  | .AlterTableClearIndex =>
      .seq (.visit (rf 3 /-IndexName-/) (.ptr .NestedIdentifier))
      (.guard (rf 4 /-PartitionExpr-/) (.visit (rf 4 /-PartitionExpr-/) (.ptr .PartitionClause)))
  -- parser/ast.go:842-854
  | .AlterTableClearProjection =>
      .seq (.visit (rf 3 /-ProjectionName-/) (.ptr .NestedIdentifier))
      (.guard (rf 4 /-PartitionExpr-/) (.visit (rf 4 /-PartitionExpr-/) (.ptr .PartitionClause)))
  -- parser/ast.go:876-886
  | .AlterTableRenameColumn =>
      .seq (.visit (rf 2 /-OldColumnName-/) (.ptr .NestedIdentifier))
      (.visit (rf 3 /-NewColumnName-/) (.ptr .NestedIdentifier))
  -- parser/ast.go:906-913
  | .AlterTableModifyQuery =>
      .visit (rf 2 /-SelectExpr-/) (.ptr .SelectQuery)
  -- parser/ast.go:933-940
  | .AlterTableModifyOrderBy =>
      .visit (rf 2 /-OrderBy-/) .iface
  -- parser/ast.go:960-967
  | .AlterTableModifyTTL =>
      .visit (rf 2 /-TTL-/) (.ptr .TTLClause)
  -- parser/ast.go:990-1002
  | .AlterTableModifyColumn =>
      .seq (.visit (rf 3 /-Column-/) (.ptr .ColumnDef))
      (.guard (rf 4 /-RemovePropertyType-/) (.visit (rf 4 /-RemovePropertyType-/) (.ptr .RemovePropertyType)))
  -- parser/ast.go:1022-1031
  | .AlterTableModifySetting =>
      .loop (rf 2 /-Settings-/) (.visit ⟨1, []⟩ (.ptr .SettingExpr))
  -- parser/ast.go:1051-1060
  | .AlterTableResetSetting =>
      .loop (rf 2 /-Settings-/) (.visit ⟨1, []⟩ (.ptr .Ident))
  -- parser/ast.go:1080-1090
  | .AlterTableReplacePartition =>
      .seq (.visit (rf 1 /-Partition-/) (.ptr .PartitionClause))
      (.visit (rf 2 /-Table-/) (.ptr .TableIdentifier))
  -- parser/ast.go:1110-1117
  | .AlterTableDelete =>
      .visit (rf 2 /-WhereClause-/) .iface
  -- parser/ast.go:1139-1156
  | .AlterTableUpdate =>
      .seq (.loop (rf 2 /-Assignments-/) (.visit ⟨1, []⟩ (.ptr .UpdateAssignment)))
      (.seq (.guard (rf 3 /-InPartition-/) (.visit (rf 3 /-InPartition-/) (.ptr .PartitionClause)))
      (.visit (rf 4 /-WhereClause-/) .iface))
  -- parser/ast.go:1172-1182
  | .UpdateAssignment =>
      .seq (.visit (rf 1 /-Column-/) (.ptr .NestedIdentifier))
      (.visit (rf 2 /-Expr-/) .iface)
  -- parser/ast.go:1198-1205
  | .RemovePropertyType =>
      .visit (rf 1 /-PropertyType-/) .iface
  -- parser/ast.go:1224-1240
  | .TableIndex =>
      .seq (.visit (rf 1 /-Name-/) (.ptr .NestedIdentifier))
      (.seq (.visit (rf 2 /-ColumnExpr-/) (.ptr .ColumnExpr))
      (.seq (.visit (rf 3 /-ColumnType-/) .iface)
      (.visit (rf 4 /-Granularity-/) (.ptr .NumberLiteral))))
  -- parser/ast.go:1257-1261
  | .Ident =>
      .skip
  -- parser/ast.go:1275-1284
  | .UUID =>
      .guard (rf 0 /-Value-/) (.visit (rf 0 /-Value-/) (.ptr .StringLiteral))
  -- parser/ast.go:1308-1332
  | .CreateDatabase =>
      .seq (.guard (rf 2 /-Name-/) (.visit (rf 2 /-Name-/) .iface))
      (.seq (.guard (rf 4 /-OnCluster-/) (.visit (rf 4 /-OnCluster-/) (.ptr .ClusterClause)))
      (.seq (.guard (rf 5 /-Engine-/) (.visit (rf 5 /-Engine-/) (.ptr .EngineExpr)))
      (.guard (rf 6 /-Comment-/) (.visit (rf 6 /-Comment-/) (.ptr .StringLiteral)))))
  -- parser/ast.go:1362-1404
  | .CreateTable =>
      .seq (.visit (rf 3 /-Name-/) (.ptr .TableIdentifier))
      (.seq (.guard (rf 5 /-UUID-/) (.visit (rf 5 /-UUID-/) (.ptr .UUID)))
      (.seq (.guard (rf 6 /-OnCluster-/) (.visit (rf 6 /-OnCluster-/) (.ptr .ClusterClause)))
      (.seq (.guard (rf 7 /-TableSchema-/) (.visit (rf 7 /-TableSchema-/) (.ptr .TableSchemaClause)))
      (.seq (.guard (rf 8 /-Engine-/) (.visit (rf 8 /-Engine-/) (.ptr .EngineExpr)))
      (.seq (.guard (rf 9 /-SubQuery-/) (.visit (rf 9 /-SubQuery-/) (.ptr .SubQuery)))
      (.seq (.guard (rf 10 /-TableFunction-/) (.visit (rf 10 /-TableFunction-/) (.ptr .TableFunctionExpr)))
      (.guard (rf 12 /-Comment-/) (.visit (rf 12 /-Comment-/) (.ptr .StringLiteral)))))))))
  -- parser/ast.go:1440-1505
  | .CreateMaterializedView =>
      .seq (.visit (rf 2 /-Name-/) (.ptr .TableIdentifier))
      (.seq (.guard (rf 4 /-OnCluster-/) (.visit (rf 4 /-OnCluster-/) (.ptr .ClusterClause)))
      (.seq (.guard (rf 5 /-Refresh-/) (.visit (rf 5 /-Refresh-/) (.ptr .RefreshExpr)))
      (.seq (.guard (rf 6 /-RandomizeFor-/) (.visit (rf 6 /-RandomizeFor-/) (.ptr .IntervalExpr)))
      (.seq (.guard (rf 7 /-DependsOn-/) (.loop (rf 7 /-DependsOn-/) (.visit ⟨1, []⟩ (.ptr .TableIdentifier))))
      (.seq (.guard (rf 8 /-Settings-/) (.visit (rf 8 /-Settings-/) (.ptr .SettingsClause)))
      (.seq (.guard (rf 11 /-TableSchema-/) (.visit (rf 11 /-TableSchema-/) (.ptr .TableSchemaClause)))
      (.seq (.guard (rf 10 /-Engine-/) (.visit (rf 10 /-Engine-/) (.ptr .EngineExpr)))
      (.seq (.guard (rf 13 /-Destination-/) (.visit (rf 13 /-Destination-/) (.ptr .DestinationClause)))
      (.seq (.guard (rf 14 /-SubQuery-/) (.visit (rf 14 /-SubQuery-/) (.ptr .SubQuery)))
      (.seq (.guard (rf 17 /-Definer-/) (.visit (rf 17 /-Definer-/) (.ptr .Ident)))
      (.guard (rf 16 /-Comment-/) (.visit (rf 16 /-Comment-/) (.ptr .StringLiteral)))))))))))))
  -- parser/ast.go:1532-1564
  | .CreateView =>
      .seq (.visit (rf 3 /-Name-/) (.ptr .TableIdentifier))
      (.seq (.guard (rf 5 /-UUID-/) (.visit (rf 5 /-UUID-/) (.ptr .UUID)))
      (.seq (.guard (rf 6 /-OnCluster-/) (.visit (rf 6 /-OnCluster-/) (.ptr .ClusterClause)))
      (.seq (.guard (rf 7 /-TableSchema-/) (.visit (rf 7 /-TableSchema-/) (.ptr .TableSchemaClause)))
      (.seq (.guard (rf 8 /-Comment-/) (.visit (rf 8 /-Comment-/) (.ptr .StringLiteral)))
      (.guard (rf 9 /-SubQuery-/) (.visit (rf 9 /-SubQuery-/) (.ptr .SubQuery)))))))
  -- parser/ast.go:1588-1606
  | .CreateFunction =>
      .seq (.visit (rf 3 /-FunctionName-/) (.ptr .Ident))
      (.seq (.guard (rf 4 /-OnCluster-/) (.visit (rf 4 /-OnCluster-/) (.ptr .ClusterClause)))
      (.seq (.visit (rf 5 /-Params-/) (.ptr .ParamExprList))
      (.visit (rf 6 /-Expr-/) .iface)))
  -- parser/ast.go:1628-1645
  | .RoleName =>
      .seq (.visit (rf 0 /-Name-/) .iface)
      (.seq (.guard (rf 1 /-Scope-/) (.visit (rf 1 /-Scope-/) (.ptr .StringLiteral)))
      (.guard (rf 2 /-OnCluster-/) (.visit (rf 2 /-OnCluster-/) (.ptr .ClusterClause))))
  -- parser/ast.go:1661-1673
  | .SettingPair =>
      .seq (.visit (rf 0 /-Name-/) (.ptr .Ident))
      (.guard (rf 2 /-Value-/) (.visit (rf 2 /-Value-/) .iface))
  -- parser/ast.go:1694-1708
  | .RoleSetting =>
      .seq (.loop (rf 0 /-SettingPairs-/) (.visit ⟨1, []⟩ (.ptr .SettingPair)))
      (.guard (rf 1 /-Modifier-/) (.visit (rf 1 /-Modifier-/) (.ptr .Ident)))
  -- parser/ast.go:1732-1751
  | .CreateRole =>
      .seq (.loop (rf 4 /-RoleNames-/) (.visit ⟨1, []⟩ (.ptr .RoleName)))
      (.seq (.guard (rf 5 /-AccessStorageType-/) (.visit (rf 5 /-AccessStorageType-/) (.ptr .Ident)))
      (.loop (rf 6 /-Settings-/) (.visit ⟨1, []⟩ (.ptr .RoleSetting))))
  -- parser/ast.go:1772-1791
  | .AuthenticationClause =>
      .seq (.guard (rf 4 /-AuthValue-/) (.visit (rf 4 /-AuthValue-/) (.ptr .StringLiteral)))
      (.seq (.guard (rf 5 /-LdapServer-/) (.visit (rf 5 /-LdapServer-/) (.ptr .StringLiteral)))
      (.guard (rf 6 /-KerberosRealm-/) (.visit (rf 6 /-KerberosRealm-/) (.ptr .StringLiteral))))
  -- parser/ast.go:1808-1817
  | .HostClause =>
      .guard (rf 3 /-HostValue-/) (.visit (rf 3 /-HostValue-/) (.ptr .StringLiteral))
  -- parser/ast.go:1834-1843
  | .DefaultRoleClause =>
      .loop (rf 2 /-Roles-/) (.visit ⟨1, []⟩ (.ptr .RoleName))
  -- parser/ast.go:1862-1876
  | .GranteesClause =>
      .seq (.loop (rf 2 /-Grantees-/) (.visit ⟨1, []⟩ (.ptr .RoleName)))
      (.loop (rf 3 /-ExceptUsers-/) (.visit ⟨1, []⟩ (.ptr .RoleName)))
  -- parser/ast.go:1906-1950
  | .CreateUser =>
      .seq (.loop (rf 4 /-UserNames-/) (.visit ⟨1, []⟩ (.ptr .RoleName)))
      (.seq (.guard (rf 5 /-Authentication-/) (.visit (rf 5 /-Authentication-/) (.ptr .AuthenticationClause)))
      (.seq (.guard (rf 6 /-ValidUntil-/) (.visit (rf 6 /-ValidUntil-/) (.ptr .StringLiteral)))
      (.seq (.loop (rf 7 /-Hosts-/) (.visit ⟨1, []⟩ (.ptr .HostClause)))
      (.seq (.guard (rf 8 /-DefaultRole-/) (.visit (rf 8 /-DefaultRole-/) (.ptr .DefaultRoleClause)))
      (.seq (.guard (rf 9 /-DefaultDatabase-/) (.visit (rf 9 /-DefaultDatabase-/) (.ptr .Ident)))
      (.seq (.guard (rf 11 /-Grantees-/) (.visit (rf 11 /-Grantees-/) (.ptr .GranteesClause)))
      (.loop (rf 12 /-Settings-/) (.visit ⟨1, []⟩ (.ptr .RoleSetting)))))))))
  -- parser/ast.go:1972-1986
  | .AlterRole =>
      .seq (.loop (rf 3 /-RoleRenamePairs-/) (.visit ⟨1, []⟩ (.ptr .RoleRenamePair)))
      (.loop (rf 4 /-Settings-/) (.visit ⟨1, []⟩ (.ptr .RoleSetting)))
  -- parser/ast.go:2002-2014
  | .RoleRenamePair =>
      .seq (.visit (rf 0 /-RoleName-/) (.ptr .RoleName))
      (.guard (rf 1 /-NewName-/) (.visit (rf 1 /-NewName-/) .iface))
  -- parser/ast.go:2033-2045
  | .DestinationClause =>
      .seq (.visit (rf 1 /-TableIdentifier-/) (.ptr .TableIdentifier))
      (.guard (rf 2 /-TableSchema-/) (.visit (rf 2 /-TableSchema-/) (.ptr .TableSchemaClause)))
  -- parser/ast.go:2061-2071
  | .ConstraintClause =>
      .seq (.visit (rf 1 /-Constraint-/) (.ptr .Ident))
      (.visit (rf 2 /-Expr-/) .iface)
  -- parser/ast.go:2085-2089
  | .NullLiteral =>
      .skip
  -- parser/ast.go:2104-2111
  | .NotNullLiteral =>
      .visit (rf 1 /-NullLiteral-/) (.ptr .NullLiteral)
  -- parser/ast.go:2129-2141
  | .NestedIdentifier =>
      .seq (.visit (rf 0 /-Ident-/) (.ptr .Ident))
      (.guard (rf 1 /-DotIdent-/) (.visit (rf 1 /-DotIdent-/) (.ptr .Ident)))
  -- parser/ast.go:2161-2170
  | .Path =>
      .loop (rf 0 /-Fields-/) (.visit ⟨1, []⟩ (.ptr .Ident))
  -- parser/ast.go:2188-2200
  | .TableIdentifier =>
      .seq (.guard (rf 0 /-Database-/) (.visit (rf 0 /-Database-/) (.ptr .Ident)))
      (.visit (rf 1 /-Table-/) (.ptr .Ident))
  -- parser/ast.go:2218-2237
  | .TableSchemaClause =>
      .seq (.loop (rf 2 /-Columns-/) (.visit ⟨1, []⟩ .iface))
      (.seq (.guard (rf 3 /-AliasTable-/) (.visit (rf 3 /-AliasTable-/) (.ptr .TableIdentifier)))
      (.guard (rf 4 /-TableFunction-/) (.visit (rf 4 /-TableFunction-/) (.ptr .TableFunctionExpr))))
  -- parser/ast.go:2253-2262
  | .TableArgListExpr =>
      .loop (rf 2 /-Args-/) (.visit ⟨1, []⟩ .iface)
  -- parser/ast.go:2277-2287
  | .TableFunctionExpr =>
      .seq (.visit (rf 0 /-Name-/) .iface)
      (.visit (rf 1 /-Args-/) (.ptr .TableArgListExpr))
  -- parser/ast.go:2302-2309
  | .ClusterClause =>
      .visit (rf 1 /-Expr-/) .iface
  -- parser/ast.go:2329-2343
  | .PartitionClause =>
      .seq (.guard (rf 1 /-Expr-/) (.visit (rf 1 /-Expr-/) .iface))
      (.guard (rf 2 /-ID-/) (.visit (rf 2 /-ID-/) (.ptr .StringLiteral)))
  -- parser/ast.go:2358-2365
  | .PartitionByClause =>
      .visit (rf 1 /-Expr-/) .iface
  -- parser/ast.go:2380-2387
  | .PrimaryKeyClause =>
      .visit (rf 1 /-Expr-/) .iface
  -- parser/ast.go:2402-2409
  | .SampleByClause =>
      .visit (rf 1 /-Expr-/) .iface
  -- parser/ast.go:2429-2438
  | .TTLPolicyRuleAction =>
      .guard (rf 3 /-Codec-/) (.visit (rf 3 /-Codec-/) (.ptr .CompressionCodec))
  -- parser/ast.go:2458-2472
  | .RefreshExpr =>
      .seq (.guard (rf 2 /-Interval-/) (.visit (rf 2 /-Interval-/) (.ptr .IntervalExpr)))
      (.guard (rf 3 /-Offset-/) (.visit (rf 3 /-Offset-/) (.ptr .IntervalExpr)))
  -- parser/ast.go:2495-2514
  | .TTLPolicyRule =>
      .seq (.guard (rf 1 /-ToVolume-/) (.visit (rf 1 /-ToVolume-/) (.ptr .StringLiteral)))
      (.seq (.guard (rf 2 /-ToDisk-/) (.visit (rf 2 /-ToDisk-/) (.ptr .StringLiteral)))
      (.guard (rf 3 /-Action-/) (.visit (rf 3 /-Action-/) (.ptr .TTLPolicyRuleAction))))
  -- parser/ast.go:2542-2561
  | .TTLPolicy =>
      .seq (.guard (rf 0 /-Item-/) (.visit (rf 0 /-Item-/) (.ptr .TTLPolicyRule)))
      (.seq (.guard (rf 1 /-Where-/) (.visit (rf 1 /-Where-/) (.ptr .WhereClause)))
      (.guard (rf 2 /-GroupBy-/) (.visit (rf 2 /-GroupBy-/) (.ptr .GroupByClause))))
  -- parser/ast.go:2577-2589
  | .TTLExpr =>
      .seq (.visit (rf 1 /-Expr-/) .iface)
      (.guard (rf 2 /-Policy-/) (.visit (rf 2 /-Policy-/) (.ptr .TTLPolicy)))
  -- parser/ast.go:2605-2614
  | .TTLClause =>
      .loop (rf 2 /-Items-/) (.visit ⟨1, []⟩ (.ptr .TTLExpr))
  -- parser/ast.go:2644-2668
  | .Fill =>
      .seq (.guard (rf 1 /-From-/) (.visit (rf 1 /-From-/) .iface))
      (.seq (.guard (rf 2 /-To-/) (.visit (rf 2 /-To-/) .iface))
      (.seq (.guard (rf 3 /-Step-/) (.visit (rf 3 /-Step-/) .iface))
      (.guard (rf 4 /-Staleness-/) (.visit (rf 4 /-Staleness-/) .iface))))
  -- parser/ast.go:2692-2709
  | .OrderExpr =>
      .seq (.visit (rf 1 /-Expr-/) .iface)
      (.seq (.guard (rf 2 /-Alias-/) (.visit (rf 2 /-Alias-/) (.ptr .Ident)))
      (.guard (rf 4 /-Fill-/) (.visit (rf 4 /-Fill-/) (.ptr .Fill))))
  -- parser/ast.go:2727-2739
  | .InterpolateItem =>
      .seq (.visit (rf 0 /-Column-/) (.ptr .Ident))
      (.guard (rf 1 /-Expr-/) (.visit (rf 1 /-Expr-/) .iface))
  -- parser/ast.go:2755-2764
  | .InterpolateClause =>
      .loop (rf 2 /-Items-/) (.visit ⟨1, []⟩ (.ptr .InterpolateItem))
  -- parser/ast.go:2784-2798
  | .OrderByClause =>
      .seq (.loop (rf 2 /-Items-/) (.visit ⟨1, []⟩ .iface))
      (.guard (rf 3 /-Interpolate-/) (.visit (rf 3 /-Interpolate-/) (.ptr .InterpolateClause)))
  -- parser/ast.go:2814-2824
  | .SettingExpr =>
      .seq (.visit (rf 1 /-Name-/) (.ptr .Ident))
      (.visit (rf 2 /-Expr-/) .iface)
  -- parser/ast.go:2840-2849
  | .SettingsClause =>
      .loop (rf 2 /-Items-/) (.visit ⟨1, []⟩ (.ptr .SettingExpr))
  -- parser/ast.go:2866-2878
  | .ParamExprList =>
      .seq (.visit (rf 2 /-Items-/) (.ptr .ColumnExprList))
      (.guard (rf 3 /-ColumnArgList-/) (.visit (rf 3 /-ColumnArgList-/) (.ptr .ColumnArgList)))
  -- parser/ast.go:2899-2911
  | .MapLiteral =>
      .loop (rf 2 /-KeyValues-/) (.seq (.visit ⟨1, [.f 0] /-Key-/⟩ (.ptr .StringLiteral))
      (.visit ⟨1, [.f 1] /-Value-/⟩ .iface))
  -- parser/ast.go:2927-2937
  | .NamedParameterExpr =>
      .seq (.visit (rf 1 /-Name-/) (.ptr .Ident))
      (.visit (rf 2 /-Value-/) .iface)
  -- parser/ast.go:2954-2964
  | .QueryParam =>
      .seq (.visit (rf 2 /-Name-/) (.ptr .Ident))
      (.visit (rf 3 /-Type-/) .iface)
  -- parser/ast.go:2980-2987
  | .ArrayParamList =>
      .visit (rf 2 /-Items-/) (.ptr .ColumnExprList)
  -- parser/ast.go:3002-3012
  | .ObjectParams =>
      .seq (.visit (rf 0 /-Object-/) .iface)
      (.visit (rf 1 /-Params-/) (.ptr .ArrayParamList))
  -- parser/ast.go:3027-3037
  | .FunctionExpr =>
      .seq (.visit (rf 0 /-Name-/) (.ptr .Ident))
      (.visit (rf 1 /-Params-/) (.ptr .ParamExprList))
  -- parser/ast.go:3053-3063
  | .WindowFunctionExpr =>
      .seq (.visit (rf 0 /-Function-/) (.ptr .FunctionExpr))
      (.visit (rf 2 /-OverExpr-/) .iface)
  -- parser/ast.go:3080-3090
  | .TypedPlaceholder =>
      .seq (.visit (rf 2 /-Name-/) (.ptr .Ident))
      (.visit (rf 3 /-Type-/) .iface)
  -- parser/ast.go:3108-3120
  | .ColumnExpr =>
      .seq (.visit (rf 0 /-Expr-/) .iface)
      (.guard (rf 1 /-Alias-/) (.visit (rf 1 /-Alias-/) (.ptr .Ident)))
  -- parser/ast.go:3149-3206
  | .ColumnDef =>
      .seq (.visit (rf 2 /-Name-/) (.ptr .NestedIdentifier))
      (.seq (.guard (rf 3 /-Type-/) (.visit (rf 3 /-Type-/) .iface))
      (.seq (.guard (rf 4 /-NotNull-/) (.visit (rf 4 /-NotNull-/) (.ptr .NotNullLiteral)))
      (.seq (.guard (rf 5 /-Nullable-/) (.visit (rf 5 /-Nullable-/) (.ptr .NullLiteral)))
      (.seq (.guard (rf 6 /-DefaultExpr-/) (.visit (rf 6 /-DefaultExpr-/) .iface))
      (.seq (.guard (rf 7 /-MaterializedExpr-/) (.visit (rf 7 /-MaterializedExpr-/) .iface))
      (.seq (.guard (rf 8 /-AliasExpr-/) (.visit (rf 8 /-AliasExpr-/) .iface))
      (.seq (.guard (rf 9 /-Codec-/) (.visit (rf 9 /-Codec-/) (.ptr .CompressionCodec)))
      (.seq (.guard (rf 10 /-TTL-/) (.visit (rf 10 /-TTL-/) (.ptr .TTLClause)))
      (.seq (.guard (rf 11 /-Comment-/) (.visit (rf 11 /-Comment-/) (.ptr .StringLiteral)))
      (.guard (rf 12 /-CompressionCodec-/) (.visit (rf 12 /-CompressionCodec-/) (.ptr .Ident))))))))))))
  -- parser/ast.go:3225-3232
  | .ScalarType =>
      .visit (rf 0 /-Name-/) (.ptr .Ident)
  -- parser/ast.go:3360-3370
  | .JSONType =>
      .seq (.visit (rf 0 /-Name-/) (.ptr .Ident))
      (.guard (rf 1 /-Options-/) (.loop ⟨0, [.f 1, .f 2] /-Options.Items-/⟩ (.guard ⟨1, []⟩ (.seq (.guard ⟨1, [.f 0] /-SkipPath-/⟩ (.loop ⟨1, [.f 0, .f 0] /-SkipPath.Idents-/⟩ (.guard ⟨2, []⟩ (.visit ⟨2, []⟩ (.ptr .Ident)))))
      (.seq (.guard ⟨1, [.f 1] /-SkipRegex-/⟩ (.visit ⟨1, [.f 1] /-SkipRegex-/⟩ (.ptr .StringLiteral)))
      (.seq (.guard ⟨1, [.f 2] /-MaxDynamicPaths-/⟩ (.visit ⟨1, [.f 2] /-MaxDynamicPaths-/⟩ (.ptr .NumberLiteral)))
      (.seq (.guard ⟨1, [.f 3] /-MaxDynamicTypes-/⟩ (.visit ⟨1, [.f 3] /-MaxDynamicTypes-/⟩ (.ptr .NumberLiteral)))
      (.guard ⟨1, [.f 4] /-Column-/⟩ (.seq (.guard ⟨1, [.f 4, .f 0] /-Column.Path-/⟩ (.loop ⟨1, [.f 4, .f 0, .f 0] /-Column.Path.Idents-/⟩ (.guard ⟨2, []⟩ (.visit ⟨2, []⟩ (.ptr .Ident)))))
      (.guard ⟨1, [.f 4, .f 1] /-Column.Type-/⟩ (.visit ⟨1, [.f 4, .f 1] /-Column.Type-/⟩ .iface)))))))))))
  -- parser/ast.go:3384-3391
  | .PropertyType =>
      .visit (rf 0 /-Name-/) (.ptr .Ident)
  -- parser/ast.go:3412-3424
  | .TypeWithParams =>
      .seq (.visit (rf 2 /-Name-/) (.ptr .Ident))
      (.loop (rf 3 /-Params-/) (.visit ⟨1, []⟩ .iface))
  -- parser/ast.go:3445-3457
  | .ComplexType =>
      .seq (.visit (rf 2 /-Name-/) (.ptr .Ident))
      (.loop (rf 3 /-Params-/) (.visit ⟨1, []⟩ .iface))
  -- parser/ast.go:3478-3490
  | .NestedType =>
      .seq (.visit (rf 2 /-Name-/) (.ptr .Ident))
      (.loop (rf 3 /-Columns-/) (.visit ⟨1, []⟩ .iface))
  -- parser/ast.go:3513-3537
  | .CompressionCodec =>
      .seq (.guard (rf 2 /-Type-/) (.visit (rf 2 /-Type-/) (.ptr .Ident)))
      (.seq (.guard (rf 3 /-TypeLevel-/) (.visit (rf 3 /-TypeLevel-/) (.ptr .NumberLiteral)))
      (.seq (.guard (rf 4 /-Name-/) (.visit (rf 4 /-Name-/) (.ptr .Ident)))
      (.guard (rf 5 /-Level-/) (.visit (rf 5 /-Level-/) (.ptr .NumberLiteral)))))
  -- parser/ast.go:3558-3562
  | .NumberLiteral =>
      .skip
  -- parser/ast.go:3578-3582
  | .StringLiteral =>
      .skip
  -- parser/ast.go:3598-3602
  | .BoolLiteral =>
      .skip
  -- parser/ast.go:3618-3622
  | .PlaceHolder =>
      .skip
  -- parser/ast.go:3641-3653
  | .RatioExpr =>
      .seq (.visit (rf 0 /-Numerator-/) (.ptr .NumberLiteral))
      (.guard (rf 1 /-Denominator-/) (.visit (rf 1 /-Denominator-/) (.ptr .NumberLiteral)))
  -- parser/ast.go:3668-3678
  | .EnumValue =>
      .seq (.visit (rf 0 /-Name-/) (.ptr .StringLiteral))
      (.visit (rf 1 /-Value-/) (.ptr .NumberLiteral))
  -- parser/ast.go:3695-3707
  | .EnumType =>
      .seq (.visit (rf 0 /-Name-/) (.ptr .Ident))
      (.loop (rf 3 /-Values-/) (.visit ⟨1, []⟩ (.ptr .EnumValue)))
  -- parser/ast.go:3732-3742
  | .IntervalExpr =>
      .seq (.visit (rf 1 /-Expr-/) .iface)
      (.visit (rf 2 /-Unit-/) (.ptr .Ident))
  -- parser/ast.go:3766-3805
  | .EngineExpr =>
      .seq (.guard (rf 3 /-Params-/) (.visit (rf 3 /-Params-/) (.ptr .ParamExprList)))
      (.seq (.guard (rf 4 /-PrimaryKey-/) (.visit (rf 4 /-PrimaryKey-/) (.ptr .PrimaryKeyClause)))
      (.seq (.guard (rf 5 /-PartitionBy-/) (.visit (rf 5 /-PartitionBy-/) (.ptr .PartitionByClause)))
      (.seq (.guard (rf 6 /-SampleBy-/) (.visit (rf 6 /-SampleBy-/) (.ptr .SampleByClause)))
      (.seq (.guard (rf 7 /-TTL-/) (.visit (rf 7 /-TTL-/) (.ptr .TTLClause)))
      (.seq (.guard (rf 8 /-Settings-/) (.visit (rf 8 /-Settings-/) (.ptr .SettingsClause)))
      (.guard (rf 9 /-OrderBy-/) (.visit (rf 9 /-OrderBy-/) (.ptr .OrderByClause))))))))
  -- parser/ast.go:3819-3826
  | .ColumnTypeExpr =>
      .visit (rf 0 /-Name-/) (.ptr .Ident)
  -- parser/ast.go:3843-3852
  | .ColumnArgList =>
      .loop (rf 3 /-Items-/) (.visit ⟨1, []⟩ .iface)
  -- parser/ast.go:3869-3878
  | .ColumnExprList =>
      .loop (rf 3 /-Items-/) (.visit ⟨1, []⟩ .iface)
  -- parser/ast.go:3900-3915
  | .WhenClause =>
      .seq (.visit (rf 2 /-When-/) .iface)
      (.seq (.visit (rf 3 /-Then-/) .iface)
      (.guard (rf 5 /-Else-/) (.visit (rf 5 /-Else-/) .iface)))
  -- parser/ast.go:3934-3953
  | .CaseExpr =>
      .seq (.guard (rf 2 /-Expr-/) (.visit (rf 2 /-Expr-/) .iface))
      (.seq (.loop (rf 3 /-Whens-/) (.visit ⟨1, []⟩ (.ptr .WhenClause)))
      (.guard (rf 5 /-Else-/) (.visit (rf 5 /-Else-/) .iface)))
  -- parser/ast.go:3971-3981
  | .CastExpr =>
      .seq (.visit (rf 1 /-Expr-/) .iface)
      (.visit (rf 4 /-AsType-/) .iface)
  -- parser/ast.go:3997-4006
  | .WithClause =>
      .loop (rf 2 /-CTEs-/) (.visit ⟨1, []⟩ (.ptr .CTEStmt))
  -- parser/ast.go:4023-4030
  | .TopClause =>
      .visit (rf 2 /-Number-/) (.ptr .NumberLiteral)
  -- parser/ast.go:4057-4094
  | .CreateLiveView =>
      .seq (.visit (rf 2 /-Name-/) (.ptr .TableIdentifier))
      (.seq (.guard (rf 4 /-UUID-/) (.visit (rf 4 /-UUID-/) (.ptr .UUID)))
      (.seq (.guard (rf 5 /-OnCluster-/) (.visit (rf 5 /-OnCluster-/) (.ptr .ClusterClause)))
      (.seq (.guard (rf 6 /-Destination-/) (.visit (rf 6 /-Destination-/) (.ptr .DestinationClause)))
      (.seq (.guard (rf 7 /-TableSchema-/) (.visit (rf 7 /-TableSchema-/) (.ptr .TableSchemaClause)))
      (.seq (.guard (rf 8 /-WithTimeout-/) (.visit (rf 8 /-WithTimeout-/) (.ptr .WithTimeoutClause)))
      (.guard (rf 9 /-SubQuery-/) (.visit (rf 9 /-SubQuery-/) (.ptr .SubQuery))))))))
  -- parser/ast.go:4121-4153
  | .CreateDictionary =>
      .seq (.visit (rf 3 /-Name-/) (.ptr .TableIdentifier))
      (.seq (.guard (rf 5 /-UUID-/) (.visit (rf 5 /-UUID-/) (.ptr .UUID)))
      (.seq (.guard (rf 6 /-OnCluster-/) (.visit (rf 6 /-OnCluster-/) (.ptr .ClusterClause)))
      (.seq (.guard (rf 7 /-Schema-/) (.visit (rf 7 /-Schema-/) (.ptr .DictionarySchemaClause)))
      (.seq (.guard (rf 8 /-Engine-/) (.visit (rf 8 /-Engine-/) (.ptr .DictionaryEngineClause)))
      (.guard (rf 9 /-Comment-/) (.visit (rf 9 /-Comment-/) (.ptr .StringLiteral)))))))
  -- parser/ast.go:4176-4193
  | .CreateNamedCollection =>
      .seq (.visit (rf 2 /-Name-/) (.ptr .Ident))
      (.seq (.guard (rf 4 /-OnCluster-/) (.visit (rf 4 /-OnCluster-/) (.ptr .ClusterClause)))
      (.loop (rf 5 /-Params-/) (.visit ⟨1, []⟩ (.ptr .NamedCollectionParam))))
  -- parser/ast.go:4211-4221
  | .NamedCollectionParam =>
      .seq (.visit (rf 1 /-Name-/) (.ptr .Ident))
      (.visit (rf 2 /-Value-/) .iface)
  -- parser/ast.go:4237-4246
  | .DictionarySchemaClause =>
      .loop (rf 1 /-Attributes-/) (.visit ⟨1, []⟩ (.ptr .DictionaryAttribute))
  -- parser/ast.go:4268-4288
  | .DictionaryAttribute =>
      .seq (.visit (rf 2 /-Name-/) (.ptr .Ident))
      (.seq (.visit (rf 3 /-Type-/) .iface)
      (.seq (.guard (rf 4 /-Default-/) (.visit (rf 4 /-Default-/) .iface))
      (.guard (rf 5 /-Expression-/) (.visit (rf 5 /-Expression-/) .iface))))
  -- parser/ast.go:4326-4360
  | .DictionaryEngineClause =>
      .seq (.guard (rf 1 /-PrimaryKey-/) (.visit (rf 1 /-PrimaryKey-/) (.ptr .DictionaryPrimaryKeyClause)))
      (.seq (.guard (rf 2 /-Source-/) (.visit (rf 2 /-Source-/) (.ptr .DictionarySourceClause)))
      (.seq (.guard (rf 3 /-Lifetime-/) (.visit (rf 3 /-Lifetime-/) (.ptr .DictionaryLifetimeClause)))
      (.seq (.guard (rf 4 /-Layout-/) (.visit (rf 4 /-Layout-/) (.ptr .DictionaryLayoutClause)))
      (.seq (.guard (rf 5 /-Range-/) (.visit (rf 5 /-Range-/) (.ptr .DictionaryRangeClause)))
      (.guard (rf 6 /-Settings-/) (.visit (rf 6 /-Settings-/) (.ptr .SettingsClause)))))))
  -- parser/ast.go:4376-4383
  | .DictionaryPrimaryKeyClause =>
      .visit (rf 1 /-Keys-/) (.ptr .ColumnExprList)
  -- parser/ast.go:4400-4412
  | .DictionarySourceClause =>
      .seq (.visit (rf 1 /-Source-/) (.ptr .Ident))
      (.loop (rf 2 /-Args-/) (.visit ⟨1, []⟩ (.ptr .DictionaryArgExpr)))
  -- parser/ast.go:4441-4458
  | .DictionaryArgExpr =>
      .seq (.visit (rf 1 /-Name-/) (.ptr .Ident))
      (.seq (.guard (rf 2 /-Value-/) (.visit (rf 2 /-Value-/) .iface))
      (.loop (rf 3 /-Args-/) (.visit ⟨1, []⟩ (.ptr .DictionaryArgExpr))))
  -- parser/ast.go:4476-4495
  | .DictionaryLifetimeClause =>
      .seq (.guard (rf 3 /-Value-/) (.visit (rf 3 /-Value-/) (.ptr .NumberLiteral)))
      (.seq (.guard (rf 1 /-Min-/) (.visit (rf 1 /-Min-/) (.ptr .NumberLiteral)))
      (.guard (rf 2 /-Max-/) (.visit (rf 2 /-Max-/) (.ptr .NumberLiteral))))
  -- parser/ast.go:4512-4524
  | .DictionaryLayoutClause =>
      .seq (.visit (rf 1 /-Layout-/) (.ptr .Ident))
      (.loop (rf 2 /-Args-/) (.visit ⟨1, []⟩ (.ptr .DictionaryArgExpr)))
  -- parser/ast.go:4541-4551
  | .DictionaryRangeClause =>
      .seq (.visit (rf 1 /-Min-/) (.ptr .Ident))
      (.visit (rf 2 /-Max-/) (.ptr .Ident))
  -- parser/ast.go:4573-4587
  | .WithTimeoutClause =>
      .seq (.guard (rf 1 /-Expr-/) (.visit (rf 1 /-Expr-/) .iface))
      (.guard (rf 2 /-Number-/) (.visit (rf 2 /-Number-/) (.ptr .NumberLiteral)))
  -- parser/ast.go:4605-4617
  | .TableExpr =>
      .seq (.visit (rf 3 /-Expr-/) .iface)
      (.guard (rf 2 /-Alias-/) (.visit (rf 2 /-Alias-/) (.ptr .AliasExpr)))
  -- parser/ast.go:4632-4639
  | .OnClause =>
      .visit (rf 1 /-On-/) (.ptr .ColumnExprList)
  -- parser/ast.go:4654-4661
  | .UsingClause =>
      .visit (rf 1 /-Using-/) (.ptr .ColumnExprList)
  -- parser/ast.go:4686-4703
  | .JoinExpr =>
      .seq (.visit (rf 1 /-Left-/) .iface)
      (.seq (.guard (rf 2 /-Right-/) (.visit (rf 2 /-Right-/) .iface))
      (.guard (rf 4 /-Constraints-/) (.visit (rf 4 /-Constraints-/) .iface)))
  -- parser/ast.go:4722-4736
  | .JoinConstraintClause =>
      .seq (.guard (rf 1 /-On-/) (.visit (rf 1 /-On-/) (.ptr .ColumnExprList)))
      (.guard (rf 2 /-Using-/) (.visit (rf 2 /-Using-/) (.ptr .ColumnExprList)))
  -- parser/ast.go:4751-4758
  | .FromClause =>
      .visit (rf 1 /-Expr-/) .iface
  -- parser/ast.go:4774-4781
  | .IsNullExpr =>
      .visit (rf 2 /-Expr-/) .iface
  -- parser/ast.go:4797-4804
  | .IsNotNullExpr =>
      .visit (rf 2 /-Expr-/) .iface
  -- parser/ast.go:4820-4830
  | .AliasExpr =>
      .seq (.visit (rf 0 /-Expr-/) .iface)
      (.visit (rf 2 /-Alias-/) .iface)
  -- parser/ast.go:4845-4852
  | .WhereClause =>
      .visit (rf 1 /-Expr-/) .iface
  -- parser/ast.go:4867-4874
  | .PrewhereClause =>
      .visit (rf 1 /-Expr-/) .iface
  -- parser/ast.go:4894-4903
  | .GroupByClause =>
      .guard (rf 3 /-Expr-/) (.visit (rf 3 /-Expr-/) .iface)
  -- parser/ast.go:4918-4925
  | .HavingClause =>
      .visit (rf 1 /-Expr-/) .iface
  -- parser/ast.go:4944-4958
  | .LimitClause =>
      .seq (.guard (rf 1 /-Limit-/) (.visit (rf 1 /-Limit-/) .iface))
      (.guard (rf 2 /-Offset-/) (.visit (rf 2 /-Offset-/) .iface))
  -- parser/ast.go:4979-4993
  | .LimitByClause =>
      .seq (.guard (rf 0 /-Limit-/) (.visit (rf 0 /-Limit-/) (.ptr .LimitClause)))
      (.guard (rf 1 /-ByExpr-/) (.visit (rf 1 /-ByExpr-/) (.ptr .ColumnExprList)))
  -- parser/ast.go:5012-5036
  | .WindowExpr =>
      .seq (.guard (rf 2 /-WindowName-/) (.visit (rf 2 /-WindowName-/) (.ptr .Ident)))
      (.seq (.guard (rf 3 /-PartitionBy-/) (.visit (rf 3 /-PartitionBy-/) (.ptr .PartitionByClause)))
      (.seq (.guard (rf 4 /-OrderBy-/) (.visit (rf 4 /-OrderBy-/) (.ptr .OrderByClause)))
      (.guard (rf 5 /-Frame-/) (.visit (rf 5 /-Frame-/) (.ptr .WindowFrameClause)))))
  -- parser/ast.go:5078-5097
  | .WindowClause =>
      .loop (rf 2 /-Windows-/) (.guard ⟨1, []⟩ (.seq (.guard ⟨1, [.f 0] /-Name-/⟩ (.visit ⟨1, [.f 0] /-Name-/⟩ (.ptr .Ident)))
      (.guard ⟨1, [.f 2] /-Expr-/⟩ (.visit ⟨1, [.f 2] /-Expr-/⟩ (.ptr .WindowExpr)))))
  -- parser/ast.go:5113-5120
  | .WindowFrameClause =>
      .visit (rf 2 /-Extend-/) .iface
  -- parser/ast.go:5139-5146
  | .WindowFrameExtendExpr =>
      .visit (rf 0 /-Expr-/) .iface
  -- parser/ast.go:5167-5182
  | .BetweenClause =>
      .seq (.guard (rf 0 /-Expr-/) (.visit (rf 0 /-Expr-/) .iface))
      (.seq (.visit (rf 2 /-Between-/) .iface)
      (.visit (rf 4 /-And-/) .iface))
  -- parser/ast.go:5197-5201
  | .WindowFrameCurrentRow =>
      .skip
  -- parser/ast.go:5217-5221
  | .WindowFrameUnbounded =>
      .skip
  -- parser/ast.go:5237-5244
  | .WindowFrameNumber =>
      .visit (rf 0 /-Number-/) (.ptr .NumberLiteral)
  -- parser/ast.go:5260-5267
  | .WindowFrameParam =>
      .visit (rf 0 /-Param-/) (.ptr .QueryParam)
  -- parser/ast.go:5303-5404
  | .SelectQuery =>
      .seq (.guard (rf 2 /-With-/) (.visit (rf 2 /-With-/) (.ptr .WithClause)))
      (.seq (.guard (rf 5 /-DistinctOn-/) (.visit (rf 5 /-DistinctOn-/) (.ptr .DistinctOn)))
      (.seq (.guard (rf 3 /-Top-/) (.visit (rf 3 /-Top-/) (.ptr .TopClause)))
      (.seq (.guard (rf 6 /-SelectItems-/) (.loop (rf 6 /-SelectItems-/) (.visit ⟨1, []⟩ (.ptr .SelectItem))))
      (.seq (.guard (rf 7 /-From-/) (.visit (rf 7 /-From-/) (.ptr .FromClause)))
      (.seq (.guard (rf 8 /-Window-/) (.visit (rf 8 /-Window-/) (.ptr .WindowClause)))
      (.seq (.guard (rf 9 /-Prewhere-/) (.visit (rf 9 /-Prewhere-/) (.ptr .PrewhereClause)))
      (.seq (.guard (rf 10 /-Where-/) (.visit (rf 10 /-Where-/) (.ptr .WhereClause)))
      (.seq (.guard (rf 11 /-GroupBy-/) (.visit (rf 11 /-GroupBy-/) (.ptr .GroupByClause)))
      (.seq (.guard (rf 13 /-Having-/) (.visit (rf 13 /-Having-/) (.ptr .HavingClause)))
      (.seq (.guard (rf 14 /-OrderBy-/) (.visit (rf 14 /-OrderBy-/) (.ptr .OrderByClause)))
      (.seq (.guard (rf 15 /-LimitBy-/) (.visit (rf 15 /-LimitBy-/) (.ptr .LimitByClause)))
      (.seq (.guard (rf 16 /-Limit-/) (.visit (rf 16 /-Limit-/) (.ptr .LimitClause)))
      (.seq (.guard (rf 17 /-Settings-/) (.visit (rf 17 /-Settings-/) (.ptr .SettingsClause)))
      (.seq (.guard (rf 18 /-Format-/) (.visit (rf 18 /-Format-/) (.ptr .FormatClause)))
      (.seq (.guard (rf 19 /-UnionAll-/) (.visit (rf 19 /-UnionAll-/) (.ptr .SelectQuery)))
      (.seq (.guard (rf 20 /-UnionDistinct-/) (.visit (rf 20 /-UnionDistinct-/) (.ptr .SelectQuery)))
      (.seq (.guard (rf 21 /-Except-/) (.visit (rf 21 /-Except-/) (.ptr .SelectQuery)))
      (.guard (rf 22 /-Intersect-/) (.visit (rf 22 /-Intersect-/) (.ptr .SelectQuery))))))))))))))))))))
  -- parser/ast.go:5420-5429
  | .DistinctOn =>
      .loop (rf 0 /-Idents-/) (.visit ⟨1, []⟩ (.ptr .NestedIdentifier))
  -- parser/ast.go:5444-5453
  | .SubQuery =>
      .guard (rf 1 /-Select-/) (.visit (rf 1 /-Select-/) (.ptr .SelectQuery))
  -- parser/ast.go:5468-5475
  | .NotExpr =>
      .visit (rf 1 /-Expr-/) .iface
  -- parser/ast.go:5490-5497
  | .NegateExpr =>
      .visit (rf 1 /-Expr-/) .iface
  -- parser/ast.go:5512-5519
  | .GlobalInOperation =>
      .visit (rf 1 /-Expr-/) .iface
  -- parser/ast.go:5535-5547
  | .IntervalFrom =>
      .seq (.guard (rf 0 /-Interval-/) (.visit (rf 0 /-Interval-/) (.ptr .Ident)))
      (.visit (rf 2 /-FromExpr-/) .iface)
  -- parser/ast.go:5563-5572
  | .ExtractExpr =>
      .loop (rf 2 /-Parameters-/) (.visit ⟨1, []⟩ .iface)
  -- parser/ast.go:5595-5607
  | .DropDatabase =>
      .seq (.visit (rf 2 /-Name-/) (.ptr .Ident))
      (.guard (rf 4 /-OnCluster-/) (.visit (rf 4 /-OnCluster-/) (.ptr .ClusterClause)))
  -- parser/ast.go:5633-5646
  | .DropStmt =>
      .seq (.visit (rf 3 /-Name-/) (.ptr .TableIdentifier))
      (.guard (rf 5 /-OnCluster-/) (.visit (rf 5 /-OnCluster-/) (.ptr .ClusterClause)))
  -- parser/ast.go:5670-5684
  | .DropUserOrRole =>
      .seq (.loop (rf 3 /-Names-/) (.visit ⟨1, []⟩ (.ptr .RoleName)))
      (.guard (rf 6 /-From-/) (.visit (rf 6 /-From-/) (.ptr .Ident)))
  -- parser/ast.go:5700-5707
  | .UseStmt =>
      .visit (rf 2 /-Database-/) (.ptr .Ident)
  -- parser/ast.go:5723-5733
  | .CTEStmt =>
      .seq (.visit (rf 1 /-Expr-/) .iface)
      (.visit (rf 2 /-Alias-/) .iface)
  -- parser/ast.go:5748-5755
  | .SetStmt =>
      .visit (rf 1 /-Settings-/) (.ptr .SettingsClause)
  -- parser/ast.go:5770-5777
  | .FormatClause =>
      .visit (rf 1 /-Format-/) (.ptr .Ident)
  -- parser/ast.go:5797-5819
  | .OptimizeStmt =>
      .seq (.visit (rf 2 /-Table-/) (.ptr .TableIdentifier))
      (.seq (.guard (rf 3 /-OnCluster-/) (.visit (rf 3 /-OnCluster-/) (.ptr .ClusterClause)))
      (.seq (.guard (rf 4 /-Partition-/) (.visit (rf 4 /-Partition-/) (.ptr .PartitionClause)))
      (.guard (rf 6 /-Deduplicate-/) (.visit (rf 6 /-Deduplicate-/) (.ptr .DeduplicateClause)))))
  -- parser/ast.go:5840-5854
  | .DeduplicateClause =>
      .seq (.guard (rf 1 /-By-/) (.visit (rf 1 /-By-/) (.ptr .ColumnExprList)))
      (.guard (rf 2 /-Except-/) (.visit (rf 2 /-Except-/) (.ptr .ColumnExprList)))
  -- parser/ast.go:5869-5876
  | .SystemStmt =>
      .visit (rf 1 /-Expr-/) .iface
  -- parser/ast.go:5893-5902
  | .SystemFlushExpr =>
      .guard (rf 3 /-Distributed-/) (.visit (rf 3 /-Distributed-/) (.ptr .TableIdentifier))
  -- parser/ast.go:5920-5934
  | .SystemReloadExpr =>
      .seq (.guard (rf 2 /-OnCluster-/) (.visit (rf 2 /-OnCluster-/) (.ptr .ClusterClause)))
      (.guard (rf 3 /-Dictionary-/) (.visit (rf 3 /-Dictionary-/) (.ptr .TableIdentifier)))
  -- parser/ast.go:5949-5956
  | .SystemSyncExpr =>
      .visit (rf 1 /-Cluster-/) (.ptr .TableIdentifier)
  -- parser/ast.go:5974-5983
  | .SystemCtrlExpr =>
      .guard (rf 4 /-Cluster-/) (.visit (rf 4 /-Cluster-/) (.ptr .TableIdentifier))
  -- parser/ast.go:5999-6003
  | .SystemDropExpr =>
      .skip
  -- parser/ast.go:6026-6038
  | .TruncateTable =>
      .seq (.visit (rf 4 /-Name-/) (.ptr .TableIdentifier))
      (.guard (rf 5 /-OnCluster-/) (.visit (rf 5 /-OnCluster-/) (.ptr .ClusterClause)))
  -- parser/ast.go:6057-6069
  | .SampleClause =>
      .seq (.visit (rf 1 /-Ratio-/) (.ptr .RatioExpr))
      (.guard (rf 2 /-Offset-/) (.visit (rf 2 /-Offset-/) (.ptr .RatioExpr)))
  -- parser/ast.go:6086-6103
  | .DeleteClause =>
      .seq (.visit (rf 1 /-Table-/) (.ptr .TableIdentifier))
      (.seq (.guard (rf 2 /-OnCluster-/) (.visit (rf 2 /-OnCluster-/) (.ptr .ClusterClause)))
      (.guard (rf 3 /-WhereExpr-/) (.visit (rf 3 /-WhereExpr-/) .iface)))
  -- parser/ast.go:6119-6128
  | .ColumnNamesExpr =>
      .loop (rf 2 /-ColumnNames-/) (.visit ⟨1, []⟩ (.ptr .NestedIdentifier))
  -- parser/ast.go:6144-6153
  | .AssignmentValues =>
      .loop (rf 2 /-Values-/) (.visit ⟨1, []⟩ .iface)
  -- parser/ast.go:6187-6214
  | .InsertStmt =>
      .seq (.visit (rf 3 /-Table-/) .iface)
      (.seq (.guard (rf 4 /-ColumnNames-/) (.visit (rf 4 /-ColumnNames-/) (.ptr .ColumnNamesExpr)))
      (.seq (.guard (rf 1 /-Format-/) (.visit (rf 1 /-Format-/) (.ptr .FormatClause)))
      (.seq (.loop (rf 5 /-Values-/) (.visit ⟨1, []⟩ (.ptr .AssignmentValues)))
      (.guard (rf 6 /-SelectExpr-/) (.visit (rf 6 /-SelectExpr-/) (.ptr .SelectQuery))))))
  -- parser/ast.go:6230-6242
  | .CheckStmt =>
      .seq (.visit (rf 1 /-Table-/) (.ptr .TableIdentifier))
      (.guard (rf 2 /-Partition-/) (.visit (rf 2 /-Partition-/) (.ptr .PartitionClause)))
  -- parser/ast.go:6258-6265
  | .UnaryExpr =>
      .visit (rf 2 /-Expr-/) .iface
  -- parser/ast.go:6288-6305
  | .RenameStmt =>
      .seq (.loop (rf 3 /-TargetPairList-/) (.seq (.visit ⟨1, [.f 0] /-Old-/⟩ (.ptr .TableIdentifier))
      (.visit ⟨1, [.f 1] /-New-/⟩ (.ptr .TableIdentifier))))
      (.guard (rf 4 /-OnCluster-/) (.visit (rf 4 /-OnCluster-/) (.ptr .ClusterClause)))
  -- parser/ast.go:6320-6330
  | .TargetPair =>
      .seq (.visit (rf 0 /-Old-/) (.ptr .TableIdentifier))
      (.visit (rf 1 /-New-/) (.ptr .TableIdentifier))
  -- parser/ast.go:6346-6353
  | .ExplainStmt =>
      .visit (rf 2 /-Statement-/) .iface
  -- parser/ast.go:6370-6379
  | .PrivilegeClause =>
      .guard (rf 3 /-Params-/) (.visit (rf 3 /-Params-/) (.ptr .ParamExprList))
  -- parser/ast.go:6403-6425
  | .GrantPrivilegeStmt =>
      .seq (.guard (rf 2 /-OnCluster-/) (.visit (rf 2 /-OnCluster-/) (.ptr .ClusterClause)))
      (.seq (.loop (rf 3 /-Privileges-/) (.visit ⟨1, []⟩ (.ptr .PrivilegeClause)))
      (.seq (.visit (rf 4 /-On-/) (.ptr .TableIdentifier))
      (.loop (rf 5 /-To-/) (.visit ⟨1, []⟩ (.ptr .Ident)))))
  -- parser/ast.go:6466-6495
  | .ShowStmt =>
      .seq (.guard (rf 3 /-Target-/) (.visit (rf 3 /-Target-/) (.ptr .TableIdentifier)))
      (.seq (.guard (rf 6 /-LikePattern-/) (.visit (rf 6 /-LikePattern-/) .iface))
      (.seq (.guard (rf 7 /-Limit-/) (.visit (rf 7 /-Limit-/) .iface))
      (.seq (.guard (rf 8 /-OutFile-/) (.visit (rf 8 /-OutFile-/) (.ptr .StringLiteral)))
      (.guard (rf 9 /-Format-/) (.visit (rf 9 /-Format-/) (.ptr .StringLiteral))))))
  -- parser/ast.go:6512-6519
  | .DescribeStmt =>
      .visit (rf 3 /-Target-/) (.ptr .TableIdentifier)
  | _ => .skip

end Verif
