/-
The bodies of the `FormatSQL` methods (parser/format.go).
Written by tools/genast.py from the Go text.
-/
import Verif.Ast.Schema

set_option linter.unusedVariables false

namespace Verif

/-- What `FormatSQL` writes for a node of each type. -/
def formatBody : Ty → FCmd
  -- parser/format.go:2276-2286
  | .SelectItem =>
      .seq (.expr (rf 0 /-Expr-/) .iface)
      (.seq (.loop (rf 1 /-Modifiers-/)
      (.seq (.lit b!" ")
      (.expr ⟨1, []⟩ (.ptr .FunctionExpr))))
      (.ite (.nonNil (rf 2 /-Alias-/))
      (.seq (.lit b!" AS ")
      (.expr (rf 2 /-Alias-/) (.ptr .Ident)))
      .skip))
  -- parser/format.go:2027-2029
  | .OperationExpr =>
      .upperF (rf 1 /-Kind-/)
  -- parser/format.go:2688-2694
  | .TernaryOperation =>
      .seq (.expr (rf 0 /-Condition-/) .iface)
      (.seq (.lit b!" ? ")
      (.seq (.expr (rf 1 /-TrueExpr-/) .iface)
      (.seq (.lit b!" : ")
      (.expr (rf 2 /-FalseExpr-/) .iface))))
  -- parser/format.go:159-179
  | .BinaryOperation =>
      .ite (.and (.or (.strEq (rf 1 /-Operation-/) b!"AND") (.strEq (rf 1 /-Operation-/) b!"OR")) .beautify)
      (.seq (.ite (.and (.isTy (rf 0 /-LeftExpr-/) .BinaryOperation) (.or (.strEq ⟨0, [.f 0, .f 1] /-LeftExpr.Operation-/⟩ b!"AND") (.strEq ⟨0, [.f 0, .f 1] /-LeftExpr.Operation-/⟩ b!"OR"))) (.expr (rf 0 /-LeftExpr-/) .iface) (.seq .indent (.seq (.expr (rf 0 /-LeftExpr-/) .iface) .dedent)))
      (.seq .newline
      (.seq (.seq (.ite (.isTrue (rf 3 /-HasGlobal-/))
      (.lit b!"GLOBAL ")
      .skip)
      (.ite (.isTrue (rf 4 /-HasNot-/))
      (.lit b!"NOT ")
      .skip))
      (.seq (.strF (rf 1 /-Operation-/))
      (.seq .newline
      (.ite (.and (.isTy (rf 2 /-RightExpr-/) .BinaryOperation) (.or (.strEq ⟨0, [.f 2, .f 1] /-RightExpr.Operation-/⟩ b!"AND") (.strEq ⟨0, [.f 2, .f 1] /-RightExpr.Operation-/⟩ b!"OR"))) (.expr (rf 2 /-RightExpr-/) .iface) (.seq .indent (.seq (.expr (rf 2 /-RightExpr-/) .iface) .dedent))))))))
      (.seq (.expr (rf 0 /-LeftExpr-/) .iface)
      (.seq (.ite (.not (.strEq (rf 1 /-Operation-/) b!"::"))
      (.lit b!" ")
      .skip)
      (.seq (.seq (.ite (.isTrue (rf 3 /-HasGlobal-/))
      (.lit b!"GLOBAL ")
      .skip)
      (.ite (.isTrue (rf 4 /-HasNot-/))
      (.lit b!"NOT ")
      .skip))
      (.seq (.strF (rf 1 /-Operation-/))
      (.seq (.ite (.not (.strEq (rf 1 /-Operation-/) b!"::"))
      (.lit b!" ")
      .skip)
      (.expr (rf 2 /-RightExpr-/) .iface))))))
  -- parser/format.go:1677-1681
  | .IndexOperation =>
      .seq (.expr (rf 0 /-Object-/) .iface)
      (.seq (.strF (rf 1 /-Operation-/))
      (.expr (rf 2 /-Index-/) .iface))
  -- parser/format.go:1903-1912
  | .JoinTableExpr =>
      .seq (.expr (rf 0 /-Table-/) (.ptr .TableExpr))
      (.seq (.ite (.nonNil (rf 2 /-SampleRatio-/))
      (.seq (.lit b!" ")
      (.expr (rf 2 /-SampleRatio-/) (.ptr .SampleClause)))
      .skip)
      (.ite (.isTrue (rf 3 /-HasFinal-/))
      (.lit b!" FINAL")
      .skip))
  -- parser/format.go:219-233
  | .AlterTable =>
      .seq (.lit b!"ALTER TABLE ")
      (.seq (.expr (rf 2 /-TableIdentifier-/) (.ptr .TableIdentifier))
      (.seq (.ite (.nonNil (rf 3 /-OnCluster-/))
      (.seq .brk
      (.expr (rf 3 /-OnCluster-/) (.ptr .ClusterClause)))
      .skip)
      (.loop (rf 4 /-AlterExprs-/)
      (.seq .brk
      (.seq (.expr ⟨1, []⟩ .iface)
      (.ite (.not .idxLast)
      (.lit b!",")
      .skip))))))
  -- parser/format.go:275-282
  | .AlterTableAttachPartition =>
      .seq (.lit b!"ATTACH ")
      (.seq (.expr (rf 1 /-Partition-/) (.ptr .PartitionClause))
      (.ite (.nonNil (rf 2 /-From-/))
      (.seq (.lit b!" FROM ")
      (.expr (rf 2 /-From-/) (.ptr .TableIdentifier)))
      .skip))
  -- parser/format.go:333-340
  | .AlterTableDetachPartition =>
      .seq (.lit b!"DETACH ")
      (.seq (.expr (rf 1 /-Partition-/) (.ptr .PartitionClause))
      (.ite (.nonNil (rf 2 /-Settings-/))
      (.seq .brk
      (.expr (rf 2 /-Settings-/) (.ptr .SettingsClause)))
      .skip))
  -- parser/format.go:358-368
  | .AlterTableDropPartition =>
      .seq (.lit b!"DROP ")
      (.seq (.ite (.isTrue (rf 1 /-HasDetached-/))
      (.lit b!"DETACHED ")
      .skip)
      (.seq (.expr (rf 2 /-Partition-/) (.ptr .PartitionClause))
      (.ite (.nonNil (rf 3 /-Settings-/))
      (.seq .brk
      (.expr (rf 3 /-Settings-/) (.ptr .SettingsClause)))
      .skip)))
  -- parser/format.go:401-414
  | .AlterTableMaterializeProjection =>
      .seq (.lit b!"MATERIALIZE PROJECTION")
      (.seq (.ite (.isTrue (rf 2 /-IfExists-/))
      (.lit b!" IF EXISTS")
      .skip)
      (.seq (.lit b!" ")
      (.seq (.expr (rf 3 /-ProjectionName-/) (.ptr .NestedIdentifier))
      (.ite (.nonNil (rf 4 /-Partition-/))
      (.seq .brk
      (.seq (.lit b!"IN ")
      (.expr (rf 4 /-Partition-/) (.ptr .PartitionClause))))
      .skip))))
  -- parser/format.go:386-399
  | .AlterTableMaterializeIndex =>
      .seq (.lit b!"MATERIALIZE INDEX")
      (.seq (.ite (.isTrue (rf 2 /-IfExists-/))
      (.lit b!" IF EXISTS")
      .skip)
      (.seq (.lit b!" ")
      (.seq (.expr (rf 3 /-IndexName-/) (.ptr .NestedIdentifier))
      (.ite (.nonNil (rf 4 /-Partition-/))
      (.seq .brk
      (.seq (.lit b!"IN ")
      (.expr (rf 4 /-Partition-/) (.ptr .PartitionClause))))
      .skip))))
  -- parser/format.go:378-384
  | .AlterTableFreezePartition =>
      .seq (.lit b!"FREEZE")
      (.ite (.nonNil (rf 2 /-Partition-/))
      (.seq (.lit b!" ")
      (.expr (rf 2 /-Partition-/) (.ptr .PartitionClause)))
      .skip)
  -- parser/format.go:235-249
  | .AlterTableAddColumn =>
      .seq (.lit b!"ADD COLUMN ")
      (.seq (.ite (.isTrue (rf 3 /-IfNotExists-/))
      (.lit b!"IF NOT EXISTS ")
      .skip)
      (.seq (.expr (rf 2 /-Column-/) (.ptr .ColumnDef))
      (.seq (.ite (.nonNil (rf 4 /-After-/))
      (.seq (.lit b!" AFTER ")
      (.expr (rf 4 /-After-/) (.ptr .NestedIdentifier)))
      .skip)
      (.ite (.nonNil (rf 5 /-Settings-/))
      (.seq .brk
      (.expr (rf 5 /-Settings-/) (.ptr .SettingsClause)))
      .skip))))
  -- parser/format.go:251-261
  | .AlterTableAddIndex =>
      .seq (.lit b!"ADD ")
      (.seq (.ite (.isTrue (rf 3 /-IfNotExists-/))
      (.lit b!"IF NOT EXISTS ")
      .skip)
      (.seq (.expr (rf 2 /-Index-/) (.ptr .TableIndex))
      (.ite (.nonNil (rf 4 /-After-/))
      (.seq (.lit b!" AFTER ")
      (.expr (rf 4 /-After-/) (.ptr .NestedIdentifier)))
      .skip)))
  -- parser/format.go:2145-2148
  | .ProjectionOrderByClause =>
      .seq (.lit b!"ORDER BY ")
      (.expr (rf 1 /-Columns-/) (.ptr .ColumnExprList))
  -- parser/format.go:2150-2167
  | .ProjectionSelectStmt =>
      .seq (.lit b!"(")
      (.seq (.ite (.nonNil (rf 2 /-With-/))
      (.seq (.expr (rf 2 /-With-/) (.ptr .WithClause))
      (.lit b!" "))
      .skip)
      (.seq (.lit b!"SELECT ")
      (.seq (.expr (rf 3 /-SelectColumns-/) (.ptr .ColumnExprList))
      (.seq (.ite (.nonNil (rf 4 /-GroupBy-/))
      (.seq (.lit b!" ")
      (.expr (rf 4 /-GroupBy-/) (.ptr .GroupByClause)))
      .skip)
      (.seq (.ite (.nonNil (rf 5 /-OrderBy-/))
      (.seq (.lit b!" ")
      (.expr (rf 5 /-OrderBy-/) (.ptr .ProjectionOrderByClause)))
      .skip)
      (.lit b!")"))))))
  -- parser/format.go:2646-2653
  | .TableProjection =>
      .seq (.ite (.isTrue (rf 0 /-IncludeProjectionKeyword-/))
      (.lit b!"PROJECTION ")
      .skip)
      (.seq (.expr (rf 2 /-Identifier-/) (.ptr .NestedIdentifier))
      (.seq (.lit b!" ")
      (.expr (rf 3 /-Select-/) (.ptr .ProjectionSelectStmt))))
  -- parser/format.go:263-273
  | .AlterTableAddProjection =>
      .seq (.lit b!"ADD PROJECTION ")
      (.seq (.ite (.isTrue (rf 2 /-IfNotExists-/))
      (.lit b!"IF NOT EXISTS ")
      .skip)
      (.seq (.expr (rf 3 /-TableProjection-/) (.ptr .TableProjection))
      (.ite (.nonNil (rf 4 /-After-/))
      (.seq (.lit b!" AFTER ")
      (.expr (rf 4 /-After-/) (.ptr .NestedIdentifier)))
      .skip)))
  -- parser/format.go:342-348
  | .AlterTableDropColumn =>
      .seq (.lit b!"DROP COLUMN ")
      (.seq (.ite (.isTrue (rf 2 /-IfExists-/))
      (.lit b!"IF EXISTS ")
      .skip)
      (.expr (rf 1 /-ColumnName-/) (.ptr .NestedIdentifier)))
  -- parser/format.go:350-356
  | .AlterTableDropIndex =>
      .seq (.lit b!"DROP INDEX ")
      (.seq (.ite (.isTrue (rf 2 /-IfExists-/))
      (.lit b!"IF EXISTS ")
      .skip)
      (.expr (rf 1 /-IndexName-/) (.ptr .NestedIdentifier)))
  -- parser/format.go:370-376
  | .AlterTableDropProjection =>
      .seq (.lit b!"DROP PROJECTION ")
      (.seq (.ite (.isTrue (rf 2 /-IfExists-/))
      (.lit b!"IF EXISTS ")
      .skip)
      (.expr (rf 1 /-ProjectionName-/) (.ptr .NestedIdentifier)))
  -- parser/format.go:460-462
  | .AlterTableRemoveTTL =>
      .lit b!"REMOVE TTL"
  -- parser/format.go:284-296
  | .AlterTableClearColumn =>
      .seq (.lit b!"CLEAR COLUMN ")
      (.seq (.ite (.isTrue (rf 2 /-IfExists-/))
      (.lit b!"IF EXISTS ")
      .skip)
      (.seq (.expr (rf 3 /-ColumnName-/) (.ptr .NestedIdentifier))
      (.ite (.nonNil (rf 4 /-PartitionExpr-/))
      (.seq .brk
      (.seq (.lit b!"IN ")
      (.expr (rf 4 /-PartitionExpr-/) (.ptr .PartitionClause))))
      .skip)))
  -- parser/format.go:298-310
  | .AlterTableClearIndex =>
      .seq (.lit b!"CLEAR INDEX ")
      (.seq (.ite (.isTrue (rf 2 /-IfExists-/))
      (.lit b!"IF EXISTS ")
      .skip)
      (.seq (.expr (rf 3 /-IndexName-/) (.ptr .NestedIdentifier))
      (.ite (.nonNil (rf 4 /-PartitionExpr-/))
      (.seq .brk
      (.seq (.lit b!"IN ")
      (.expr (rf 4 /-PartitionExpr-/) (.ptr .PartitionClause))))
      .skip)))
  -- parser/format.go:312-324
  | .AlterTableClearProjection =>
      .seq (.lit b!"CLEAR PROJECTION ")
      (.seq (.ite (.isTrue (rf 2 /-IfExists-/))
      (.lit b!"IF EXISTS ")
      .skip)
      (.seq (.expr (rf 3 /-ProjectionName-/) (.ptr .NestedIdentifier))
      (.ite (.nonNil (rf 4 /-PartitionExpr-/))
      (.seq .brk
      (.seq (.lit b!"IN ")
      (.expr (rf 4 /-PartitionExpr-/) (.ptr .PartitionClause))))
      .skip)))
  -- parser/format.go:464-472
  | .AlterTableRenameColumn =>
      .seq (.lit b!"RENAME COLUMN ")
      (.seq (.ite (.isTrue (rf 1 /-IfExists-/))
      (.lit b!"IF EXISTS ")
      .skip)
      (.seq (.expr (rf 2 /-OldColumnName-/) (.ptr .NestedIdentifier))
      (.seq (.lit b!" TO ")
      (.expr (rf 3 /-NewColumnName-/) (.ptr .NestedIdentifier)))))
  -- parser/format.go:427-433
  | .AlterTableModifyQuery =>
      .seq (.lit b!"MODIFY QUERY")
      (.seq .indent
      (.seq .brk
      (.seq (.expr (rf 2 /-SelectExpr-/) (.ptr .SelectQuery))
      .dedent)))
  -- parser/format.go:435-438
  | .AlterTableModifyOrderBy =>
      .seq (.lit b!"MODIFY ORDER BY ")
      (.expr (rf 2 /-OrderBy-/) .iface)
  -- parser/format.go:455-458
  | .AlterTableModifyTTL =>
      .seq (.lit b!"MODIFY ")
      (.expr (rf 2 /-TTL-/) (.ptr .TTLClause))
  -- parser/format.go:416-425
  | .AlterTableModifyColumn =>
      .seq (.lit b!"MODIFY COLUMN ")
      (.seq (.ite (.isTrue (rf 2 /-IfExists-/))
      (.lit b!"IF EXISTS ")
      .skip)
      (.seq (.expr (rf 3 /-Column-/) (.ptr .ColumnDef))
      (.ite (.nonNil (rf 4 /-RemovePropertyType-/))
      (.expr (rf 4 /-RemovePropertyType-/) (.ptr .RemovePropertyType))
      .skip)))
  -- parser/format.go:440-453
  | .AlterTableModifySetting =>
      .seq (.lit b!"MODIFY SETTING")
      (.seq .indent
      (.seq (.loop (rf 2 /-Settings-/)
      (.seq (.ite (.not .idxPos)
      .brk
      (.seq (.lit b!",")
      .brk))
      (.expr ⟨1, []⟩ (.ptr .SettingExpr))))
      .dedent))
  -- parser/format.go:481-494
  | .AlterTableResetSetting =>
      .seq (.lit b!"RESET SETTING")
      (.seq .indent
      (.seq (.loop (rf 2 /-Settings-/)
      (.seq (.ite (.not .idxPos)
      .brk
      (.seq (.lit b!",")
      .brk))
      (.expr ⟨1, []⟩ (.ptr .Ident))))
      .dedent))
  -- parser/format.go:474-479
  | .AlterTableReplacePartition =>
      .seq (.lit b!"REPLACE ")
      (.seq (.expr (rf 1 /-Partition-/) (.ptr .PartitionClause))
      (.seq (.lit b!" FROM ")
      (.expr (rf 2 /-Table-/) (.ptr .TableIdentifier))))
  -- parser/format.go:326-331
  | .AlterTableDelete =>
      .seq (.lit b!"DELETE")
      (.seq .brk
      (.seq (.lit b!"WHERE ")
      (.expr (rf 2 /-WhereClause-/) .iface)))
  -- parser/format.go:496-517
  | .AlterTableUpdate =>
      .seq (.lit b!"UPDATE")
      (.seq .indent
      (.seq (.loop (rf 2 /-Assignments-/)
      (.seq (.ite (.not .idxPos)
      .brk
      (.seq (.lit b!",")
      .brk))
      (.expr ⟨1, []⟩ (.ptr .UpdateAssignment))))
      (.seq .dedent
      (.seq (.ite (.nonNil (rf 3 /-InPartition-/))
      (.seq .brk
      (.seq (.lit b!"IN ")
      (.expr (rf 3 /-InPartition-/) (.ptr .PartitionClause))))
      .skip)
      (.seq .brk
      (.seq (.lit b!"WHERE ")
      (.expr (rf 4 /-WhereClause-/) .iface)))))))
  -- parser/format.go:2751-2755
  | .UpdateAssignment =>
      .seq (.expr (rf 1 /-Column-/) (.ptr .NestedIdentifier))
      (.seq (.lit b!" = ")
      (.expr (rf 2 /-Expr-/) .iface))
  -- parser/format.go:2202-2205
  | .RemovePropertyType =>
      .seq (.lit b!" REMOVE ")
      (.expr (rf 1 /-PropertyType-/) .iface)
  -- parser/format.go:2626-2644; see `FCmd.compactExpr`
  | .TableIndex =>
      .seq (.lit b!"INDEX")
      (.seq (.lit b!" ")
      (.seq (.expr (rf 1 /-Name-/) (.ptr .NestedIdentifier))
      (.seq (.compactExpr (rf 2 /-ColumnExpr-/) (.ptr .ColumnExpr))
      (.seq (.lit b!" ")
      (.seq (.lit b!"TYPE")
      (.seq (.lit b!" ")
      (.seq (.expr (rf 3 /-ColumnType-/) .iface)
      (.seq (.lit b!" ")
      (.seq (.lit b!"GRANULARITY")
      (.seq (.lit b!" ")
      (.expr (rf 4 /-Granularity-/) (.ptr .NumberLiteral))))))))))))
  -- parser/format.go:1658-1675
  | .Ident =>
      .ite (.natEq (rf 1 /-QuoteType-/) 3 /-BackTicks-/)
      (.seq (.lit b!"`")
      (.seq (.strF (rf 0 /-Name-/))
      (.lit b!"`")))
      (.ite (.natEq (rf 1 /-QuoteType-/) 2 /-DoubleQuote-/)
      (.seq (.lit b!"\"")
      (.seq (.strF (rf 0 /-Name-/))
      (.lit b!"\"")))
      (.ite (.natEq (rf 1 /-QuoteType-/) 4 /-SingleQuote-/)
      (.seq (.lit b!"'")
      (.seq (.strF (rf 0 /-Name-/))
      (.lit b!"'")))
      (.strF (rf 0 /-Name-/))))
  -- parser/format.go:2740-2743
  | .UUID =>
      .seq (.lit b!"UUID ")
      (.expr (rf 0 /-Value-/) (.ptr .StringLiteral))
  -- parser/format.go:775-793
  | .CreateDatabase =>
      .seq (.lit b!"CREATE DATABASE ")
      (.seq (.ite (.isTrue (rf 3 /-IfNotExists-/))
      (.lit b!"IF NOT EXISTS ")
      .skip)
      (.seq (.expr (rf 2 /-Name-/) .iface)
      (.seq (.ite (.nonNil (rf 4 /-OnCluster-/))
      (.seq (.lit b!" ")
      (.expr (rf 4 /-OnCluster-/) (.ptr .ClusterClause)))
      .skip)
      (.seq (.ite (.nonNil (rf 5 /-Engine-/))
      (.seq .brk
      (.expr (rf 5 /-Engine-/) (.ptr .EngineExpr)))
      .skip)
      (.ite (.nonNil (rf 6 /-Comment-/))
      (.seq (.lit b!" COMMENT ")
      (.expr (rf 6 /-Comment-/) (.ptr .StringLiteral)))
      .skip)))))
  -- parser/format.go:1026-1071
  | .CreateTable =>
      .seq (.lit b!"CREATE")
      (.seq (.ite (.isTrue (rf 2 /-OrReplace-/))
      (.lit b!" OR REPLACE")
      .skip)
      (.seq (.ite (.isTrue (rf 11 /-HasTemporary-/))
      (.lit b!" TEMPORARY")
      .skip)
      (.seq (.lit b!" TABLE ")
      (.seq (.ite (.isTrue (rf 4 /-IfNotExists-/))
      (.lit b!"IF NOT EXISTS ")
      .skip)
      (.seq (.expr (rf 3 /-Name-/) (.ptr .TableIdentifier))
      (.seq (.ite (.nonNil (rf 5 /-UUID-/))
      (.seq (.lit b!" ")
      (.expr (rf 5 /-UUID-/) (.ptr .UUID)))
      .skip)
      (.seq (.ite (.nonNil (rf 6 /-OnCluster-/))
      (.seq (.lit b!" ")
      (.expr (rf 6 /-OnCluster-/) (.ptr .ClusterClause)))
      .skip)
      (.seq (.ite (.nonNil (rf 7 /-TableSchema-/))
      (.seq .brk
      (.expr (rf 7 /-TableSchema-/) (.ptr .TableSchemaClause)))
      .skip)
      (.seq (.ite (.nonNil (rf 8 /-Engine-/))
      (.seq .brk
      (.expr (rf 8 /-Engine-/) (.ptr .EngineExpr)))
      .skip)
      (.seq (.ite (.nonNil (rf 9 /-SubQuery-/))
      (.seq .brk
      (.seq (.lit b!"AS ")
      (.expr (rf 9 /-SubQuery-/) (.ptr .SubQuery))))
      .skip)
      (.seq (.ite (.nonNil (rf 10 /-TableFunction-/))
      (.seq .brk
      (.seq (.lit b!"AS ")
      (.expr (rf 10 /-TableFunction-/) (.ptr .TableFunctionExpr))))
      .skip)
      (.ite (.nonNil (rf 12 /-Comment-/))
      (.seq .brk
      (.seq (.lit b!"COMMENT ")
      (.expr (rf 12 /-Comment-/) (.ptr .StringLiteral))))
      .skip))))))))))))
  -- parser/format.go:888-972
  | .CreateMaterializedView =>
      .seq (.lit b!"CREATE MATERIALIZED VIEW ")
      (.seq (.ite (.isTrue (rf 3 /-IfNotExists-/))
      (.lit b!"IF NOT EXISTS ")
      .skip)
      (.seq (.expr (rf 2 /-Name-/) (.ptr .TableIdentifier))
      (.seq (.ite (.nonNil (rf 4 /-OnCluster-/))
      (.seq .brk
      (.expr (rf 4 /-OnCluster-/) (.ptr .ClusterClause)))
      .skip)
      (.seq (.ite (.nonNil (rf 5 /-Refresh-/))
      (.seq .brk
      (.expr (rf 5 /-Refresh-/) (.ptr .RefreshExpr)))
      .skip)
      (.seq (.ite (.nonNil (rf 6 /-RandomizeFor-/))
      (.seq .brk
      (.seq (.lit b!"RANDOMIZE FOR ")
      (.expr (rf 6 /-RandomizeFor-/) (.ptr .IntervalExpr))))
      .skip)
      (.seq (.ite (.nonNil (rf 7 /-DependsOn-/))
      (.seq .brk
      (.seq (.lit b!"DEPENDS ON ")
      (.loop (rf 7 /-DependsOn-/)
      (.seq (.ite .idxPos
      (.lit b!", ")
      .skip)
      (.expr ⟨1, []⟩ (.ptr .TableIdentifier))))))
      .skip)
      (.seq (.ite (.nonNil (rf 8 /-Settings-/))
      (.seq .brk
      (.expr (rf 8 /-Settings-/) (.ptr .SettingsClause)))
      .skip)
      (.seq (.ite (.isTrue (rf 9 /-HasAppend-/))
      (.seq .brk
      (.lit b!"APPEND"))
      .skip)
      (.seq (.ite (.nonNil (rf 11 /-TableSchema-/))
      (.seq .brk
      (.expr (rf 11 /-TableSchema-/) (.ptr .TableSchemaClause)))
      .skip)
      (.seq (.ite (.nonNil (rf 10 /-Engine-/))
      (.seq .brk
      (.expr (rf 10 /-Engine-/) (.ptr .EngineExpr)))
      .skip)
      (.seq (.ite (.nonNil (rf 13 /-Destination-/))
      (.seq .brk
      (.seq (.expr (rf 13 /-Destination-/) (.ptr .DestinationClause))
      (.ite (.nonNil ⟨0, [.f 13, .f 2] /-Destination.TableSchema-/⟩)
      (.seq .brk
      (.expr ⟨0, [.f 13, .f 2] /-Destination.TableSchema-/⟩ (.ptr .TableSchemaClause)))
      .skip)))
      .skip)
      (.seq (.ite (.isTrue (rf 12 /-HasEmpty-/))
      (.seq .brk
      (.lit b!"EMPTY"))
      .skip)
      (.seq (.ite (.nonNil (rf 17 /-Definer-/))
      (.seq .brk
      (.seq (.lit b!"DEFINER = ")
      (.expr (rf 17 /-Definer-/) (.ptr .Ident))))
      .skip)
      (.seq (.ite (.not (.strEq (rf 18 /-SQLSecurity-/) b!""))
      (.seq .brk
      (.seq (.lit b!"SQL SECURITY ")
      (.strF (rf 18 /-SQLSecurity-/))))
      .skip)
      (.seq (.ite (.isTrue (rf 15 /-Populate-/))
      (.seq .brk
      (.lit b!"POPULATE"))
      .skip)
      (.seq (.ite (.nonNil (rf 14 /-SubQuery-/))
      (.seq .brk
      (.seq (.lit b!"AS")
      (.seq .indent
      (.seq .brk
      (.seq (.expr (rf 14 /-SubQuery-/) (.ptr .SubQuery))
      .dedent)))))
      .skip)
      (.ite (.nonNil (rf 16 /-Comment-/))
      (.seq .brk
      (.seq (.lit b!"COMMENT ")
      (.expr (rf 16 /-Comment-/) (.ptr .StringLiteral))))
      .skip)))))))))))))))))
  -- parser/format.go:1136-1170
  | .CreateView =>
      .seq (.lit b!"CREATE")
      (.seq (.ite (.isTrue (rf 2 /-OrReplace-/))
      (.lit b!" OR REPLACE")
      .skip)
      (.seq (.lit b!" VIEW ")
      (.seq (.ite (.isTrue (rf 4 /-IfNotExists-/))
      (.lit b!"IF NOT EXISTS ")
      .skip)
      (.seq (.expr (rf 3 /-Name-/) (.ptr .TableIdentifier))
      (.seq (.ite (.nonNil (rf 5 /-UUID-/))
      (.seq (.lit b!" ")
      (.expr (rf 5 /-UUID-/) (.ptr .UUID)))
      .skip)
      (.seq (.ite (.nonNil (rf 6 /-OnCluster-/))
      (.seq (.lit b!" ")
      (.expr (rf 6 /-OnCluster-/) (.ptr .ClusterClause)))
      .skip)
      (.seq (.ite (.nonNil (rf 7 /-TableSchema-/))
      (.seq (.lit b!" ")
      (.expr (rf 7 /-TableSchema-/) (.ptr .TableSchemaClause)))
      .skip)
      (.seq (.ite (.nonNil (rf 8 /-Comment-/))
      (.seq (.lit b!" COMMENT ")
      (.expr (rf 8 /-Comment-/) (.ptr .StringLiteral)))
      .skip)
      (.ite (.nonNil (rf 9 /-SubQuery-/))
      (.seq (.lit b!" AS ")
      (.expr (rf 9 /-SubQuery-/) (.ptr .SubQuery)))
      .skip)))))))))
  -- parser/format.go:834-852
  | .CreateFunction =>
      .seq (.lit b!"CREATE")
      (.seq (.ite (.isTrue (rf 1 /-OrReplace-/))
      (.lit b!" OR REPLACE")
      .skip)
      (.seq (.lit b!" FUNCTION ")
      (.seq (.ite (.isTrue (rf 2 /-IfNotExists-/))
      (.lit b!"IF NOT EXISTS ")
      .skip)
      (.seq (.expr (rf 3 /-FunctionName-/) (.ptr .Ident))
      (.seq (.ite (.nonNil (rf 4 /-OnCluster-/))
      (.seq (.lit b!" ")
      (.expr (rf 4 /-OnCluster-/) (.ptr .ClusterClause)))
      .skip)
      (.seq (.lit b!" AS ")
      (.seq (.expr (rf 5 /-Params-/) (.ptr .ParamExprList))
      (.seq (.lit b!" -> ")
      (.expr (rf 6 /-Expr-/) .iface)))))))))
  -- parser/format.go:2223-2233
  | .RoleName =>
      .seq (.expr (rf 0 /-Name-/) .iface)
      (.seq (.ite (.nonNil (rf 1 /-Scope-/))
      (.seq (.lit b!"@")
      (.expr (rf 1 /-Scope-/) (.ptr .StringLiteral)))
      .skip)
      (.ite (.nonNil (rf 2 /-OnCluster-/))
      (.seq (.lit b!" ")
      (.expr (rf 2 /-OnCluster-/) (.ptr .ClusterClause)))
      .skip))
  -- parser/format.go:2410-2420
  | .SettingPair =>
      .seq (.expr (rf 0 /-Name-/) (.ptr .Ident))
      (.ite (.nonNil (rf 2 /-Value-/))
      (.seq (.ite (.strEq (rf 1 /-Operation-/) b!"=")
      (.strF (rf 1 /-Operation-/))
      (.lit b!" "))
      (.expr (rf 2 /-Value-/) .iface))
      .skip)
  -- parser/format.go:2243-2256
  | .RoleSetting =>
      .seq (.loop (rf 0 /-SettingPairs-/)
      (.seq (.ite .idxPos
      .brk
      .skip)
      (.expr ⟨1, []⟩ (.ptr .SettingPair))))
      (.ite (.nonNil (rf 1 /-Modifier-/))
      (.seq (.ite (.lenPos (rf 0 /-SettingPairs-/))
      .brk
      .skip)
      (.expr (rf 1 /-Modifier-/) (.ptr .Ident)))
      .skip)
  -- parser/format.go:993-1024
  | .CreateRole =>
      .seq (.lit b!"CREATE ROLE ")
      (.seq (.ite (.isTrue (rf 2 /-IfNotExists-/))
      (.lit b!"IF NOT EXISTS ")
      .skip)
      (.seq (.ite (.isTrue (rf 3 /-OrReplace-/))
      (.lit b!"OR REPLACE ")
      .skip)
      (.seq (.loop (rf 4 /-RoleNames-/)
      (.seq (.ite .idxPos
      (.lit b!", ")
      .skip)
      (.expr ⟨1, []⟩ (.ptr .RoleName))))
      (.seq (.ite (.nonNil (rf 5 /-AccessStorageType-/))
      (.seq (.lit b!" IN ")
      (.expr (rf 5 /-AccessStorageType-/) (.ptr .Ident)))
      .skip)
      (.ite (.lenPos (rf 6 /-Settings-/))
      (.seq .brk
      (.seq (.lit b!"SETTINGS")
      (.seq .indent
      (.seq (.loop (rf 6 /-Settings-/)
      (.seq (.ite .idxPos
      (.lit b!",")
      .skip)
      (.seq .brk
      (.expr ⟨1, []⟩ (.ptr .RoleSetting)))))
      .dedent))))
      .skip)))))
  -- parser/format.go:541-568
  | .AuthenticationClause =>
      .ite (.isTrue (rf 2 /-NotIdentified-/))
      (.lit b!"NOT IDENTIFIED")
      (.seq (.lit b!"IDENTIFIED")
      (.seq (.ite (.not (.strEq (rf 3 /-AuthType-/) b!""))
      (.seq (.lit b!" WITH ")
      (.strF (rf 3 /-AuthType-/)))
      .skip)
      (.seq (.ite (.nonNil (rf 4 /-AuthValue-/))
      (.seq (.lit b!" BY ")
      (.expr (rf 4 /-AuthValue-/) (.ptr .StringLiteral)))
      .skip)
      (.seq (.ite (.nonNil (rf 5 /-LdapServer-/))
      (.seq .brk
      (.seq (.lit b!"WITH ldap SERVER ")
      (.expr (rf 5 /-LdapServer-/) (.ptr .StringLiteral))))
      .skip)
      (.ite (.isTrue (rf 7 /-IsKerberos-/))
      (.seq .brk
      (.seq (.lit b!"WITH kerberos")
      (.ite (.and (.nonNil (rf 6 /-KerberosRealm-/)) (.not (.strEq ⟨0, [.f 6, .f 2] /-KerberosRealm.Literal-/⟩ b!"")))
      (.seq (.lit b!" REALM ")
      (.expr (rf 6 /-KerberosRealm-/) (.ptr .StringLiteral)))
      .skip)))
      .skip)))))
  -- parser/format.go:1649-1656
  | .HostClause =>
      .seq (.lit b!"HOST ")
      (.seq (.strF (rf 2 /-HostType-/))
      (.ite (.nonNil (rf 3 /-HostValue-/))
      (.seq (.lit b!" ")
      (.expr (rf 3 /-HostValue-/) (.ptr .StringLiteral)))
      .skip))
  -- parser/format.go:1184-1196
  | .DefaultRoleClause =>
      .seq (.lit b!"DEFAULT ROLE ")
      (.ite (.isTrue (rf 3 /-None-/))
      (.lit b!"NONE")
      (.loop (rf 2 /-Roles-/)
      (.seq (.ite .idxPos
      (.lit b!", ")
      .skip)
      (.expr ⟨1, []⟩ (.ptr .RoleName)))))
  -- parser/format.go:1589-1613
  | .GranteesClause =>
      .seq (.lit b!"GRANTEES ")
      (.seq (.ite (.isTrue (rf 4 /-Any-/))
      (.lit b!"ANY")
      (.ite (.isTrue (rf 5 /-None-/))
      (.lit b!"NONE")
      (.loop (rf 2 /-Grantees-/)
      (.seq (.ite .idxPos
      (.lit b!", ")
      .skip)
      (.expr ⟨1, []⟩ (.ptr .RoleName))))))
      (.ite (.lenPos (rf 3 /-ExceptUsers-/))
      (.seq .brk
      (.seq (.lit b!"EXCEPT ")
      (.loop (rf 3 /-ExceptUsers-/)
      (.seq (.ite .idxPos
      (.lit b!", ")
      .skip)
      (.expr ⟨1, []⟩ (.ptr .RoleName))))))
      .skip))
  -- parser/format.go:1073-1134
  | .CreateUser =>
      .seq (.lit b!"CREATE USER ")
      (.seq (.ite (.isTrue (rf 2 /-IfNotExists-/))
      (.lit b!"IF NOT EXISTS ")
      .skip)
      (.seq (.ite (.isTrue (rf 3 /-OrReplace-/))
      (.lit b!"OR REPLACE ")
      .skip)
      (.seq (.loop (rf 4 /-UserNames-/)
      (.seq (.ite .idxPos
      (.lit b!", ")
      .skip)
      (.expr ⟨1, []⟩ (.ptr .RoleName))))
      (.seq (.ite (.nonNil (rf 5 /-Authentication-/))
      (.seq .brk
      (.expr (rf 5 /-Authentication-/) (.ptr .AuthenticationClause)))
      .skip)
      (.seq (.ite (.nonNil (rf 6 /-ValidUntil-/))
      (.seq .brk
      (.seq (.lit b!"VALID UNTIL ")
      (.expr (rf 6 /-ValidUntil-/) (.ptr .StringLiteral))))
      .skip)
      (.seq (.ite (.lenPos (rf 7 /-Hosts-/))
      (.seq .brk
      (.loop (rf 7 /-Hosts-/)
      (.seq (.ite .idxPos
      (.lit b!", ")
      .skip)
      (.expr ⟨1, []⟩ (.ptr .HostClause)))))
      .skip)
      (.seq (.ite (.nonNil (rf 8 /-DefaultRole-/))
      (.seq .brk
      (.expr (rf 8 /-DefaultRole-/) (.ptr .DefaultRoleClause)))
      .skip)
      (.seq (.ite (.nonNil (rf 9 /-DefaultDatabase-/))
      (.seq .brk
      (.seq (.lit b!"DEFAULT DATABASE ")
      (.expr (rf 9 /-DefaultDatabase-/) (.ptr .Ident))))
      (.ite (.isTrue (rf 10 /-DefaultDbNone-/))
      (.seq .brk
      (.lit b!"DEFAULT DATABASE NONE"))
      .skip))
      (.seq (.ite (.nonNil (rf 11 /-Grantees-/))
      (.seq .brk
      (.expr (rf 11 /-Grantees-/) (.ptr .GranteesClause)))
      .skip)
      (.ite (.lenPos (rf 12 /-Settings-/))
      (.seq .brk
      (.seq (.lit b!"SETTINGS")
      (.seq .indent
      (.seq (.loop (rf 12 /-Settings-/)
      (.seq .brk
      (.seq (.expr ⟨1, []⟩ (.ptr .RoleSetting))
      (.ite (.not .idxLast)
      (.lit b!",")
      .skip))))
      .dedent))))
      .skip))))))))))
  -- parser/format.go:193-217
  | .AlterRole =>
      .seq (.lit b!"ALTER ROLE ")
      (.seq (.ite (.isTrue (rf 2 /-IfExists-/))
      (.lit b!"IF EXISTS ")
      .skip)
      (.seq (.loop (rf 3 /-RoleRenamePairs-/)
      (.seq (.ite .idxPos
      (.lit b!", ")
      .skip)
      (.expr ⟨1, []⟩ (.ptr .RoleRenamePair))))
      (.ite (.lenPos (rf 4 /-Settings-/))
      (.seq .brk
      (.seq (.lit b!"SETTINGS")
      (.seq .indent
      (.seq (.loop (rf 4 /-Settings-/)
      (.seq (.ite .idxPos
      (.lit b!",")
      .skip)
      (.seq .brk
      (.expr ⟨1, []⟩ (.ptr .RoleSetting)))))
      .dedent))))
      .skip)))
  -- parser/format.go:2235-2241
  | .RoleRenamePair =>
      .seq (.expr (rf 0 /-RoleName-/) (.ptr .RoleName))
      (.ite (.nonNil (rf 1 /-NewName-/))
      (.seq (.lit b!" RENAME TO ")
      (.expr (rf 1 /-NewName-/) .iface))
      .skip)
  -- parser/format.go:1220-1223
  | .DestinationClause =>
      .seq (.lit b!"TO ")
      (.expr (rf 1 /-TableIdentifier-/) (.ptr .TableIdentifier))
  -- parser/format.go:769-773
  | .ConstraintClause =>
      .seq (.expr (rf 1 /-Constraint-/) (.ptr .Ident))
      (.seq (.lit b!" ")
      (.expr (rf 2 /-Expr-/) .iface))
  -- parser/format.go:2009-2011
  | .NullLiteral =>
      .lit b!"NULL"
  -- parser/format.go:2005-2007
  | .NotNullLiteral =>
      .lit b!"NOT NULL"
  -- parser/format.go:1975-1983
  | .NestedIdentifier =>
      .ite (.nonNil (rf 1 /-DotIdent-/))
      (.seq (.expr (rf 0 /-Ident-/) (.ptr .Ident))
      (.seq (.lit b!".")
      (.expr (rf 1 /-DotIdent-/) (.ptr .Ident))))
      (.expr (rf 0 /-Ident-/) (.ptr .Ident))
  -- parser/format.go:2110-2117
  | .Path =>
      .loop (rf 0 /-Fields-/)
      (.seq (.ite .idxPos
      (.lit b!".")
      .skip)
      (.expr ⟨1, []⟩ (.ptr .Ident)))
  -- parser/format.go:2618-2624
  | .TableIdentifier =>
      .seq (.ite (.nonNil (rf 0 /-Database-/))
      (.seq (.expr (rf 0 /-Database-/) (.ptr .Ident))
      (.lit b!"."))
      .skip)
      (.expr (rf 1 /-Table-/) (.ptr .Ident))
  -- parser/format.go:2655-2680
  | .TableSchemaClause =>
      .seq (.ite (.lenPos (rf 2 /-Columns-/))
      (.seq (.lit b!"(")
      (.seq .indent
      (.seq (.loop (rf 2 /-Columns-/)
      (.seq (.ite (.not .idxPos)
      .newline
      (.seq (.lit b!",")
      .brk))
      (.expr ⟨1, []⟩ .iface)))
      (.seq .dedent
      (.seq .newline
      (.lit b!")"))))))
      .skip)
      (.seq (.ite (.nonNil (rf 3 /-AliasTable-/))
      (.seq (.lit b!" AS ")
      (.expr (rf 3 /-AliasTable-/) (.ptr .TableIdentifier)))
      .skip)
      (.ite (.nonNil (rf 4 /-TableFunction-/))
      (.seq (.lit b!" AS ")
      (.expr (rf 4 /-TableFunction-/) (.ptr .TableFunctionExpr)))
      .skip))
  -- parser/format.go:2591-2600
  | .TableArgListExpr =>
      .seq (.lit b!"(")
      (.seq (.loop (rf 2 /-Args-/)
      (.seq (.ite .idxPos
      (.lit b!", ")
      .skip)
      (.expr ⟨1, []⟩ .iface)))
      (.lit b!")"))
  -- parser/format.go:2613-2616
  | .TableFunctionExpr =>
      .seq (.expr (rf 0 /-Name-/) .iface)
      (.expr (rf 1 /-Args-/) (.ptr .TableArgListExpr))
  -- parser/format.go:645-648
  | .ClusterClause =>
      .seq (.lit b!"ON CLUSTER ")
      (.expr (rf 1 /-Expr-/) .iface)
  -- parser/format.go:2099-2108
  | .PartitionClause =>
      .seq (.lit b!"PARTITION ")
      (.ite (.nonNil (rf 2 /-ID-/))
      (.expr (rf 2 /-ID-/) (.ptr .StringLiteral))
      (.ite (.isTrue (rf 3 /-All-/))
      (.lit b!"ALL")
      (.expr (rf 1 /-Expr-/) .iface)))
  -- parser/format.go:2094-2097
  | .PartitionByClause =>
      .seq (.lit b!"PARTITION BY ")
      (.expr (rf 1 /-Expr-/) .iface)
  -- parser/format.go:2128-2131
  | .PrimaryKeyClause =>
      .seq (.lit b!"PRIMARY KEY ")
      (.expr (rf 1 /-Expr-/) .iface)
  -- parser/format.go:2258-2261
  | .SampleByClause =>
      .seq (.lit b!"SAMPLE BY ")
      (.expr (rf 1 /-Expr-/) .iface)
  -- parser/format.go:2583-2589
  | .TTLPolicyRuleAction =>
      .seq (.strF (rf 2 /-Action-/))
      (.ite (.nonNil (rf 3 /-Codec-/))
      (.seq (.lit b!" ")
      (.expr (rf 3 /-Codec-/) (.ptr .CompressionCodec)))
      .skip)
  -- parser/format.go:2189-2200
  | .RefreshExpr =>
      .seq (.lit b!"REFRESH ")
      (.seq (.strF (rf 1 /-Frequency-/))
      (.seq (.ite (.nonNil (rf 2 /-Interval-/))
      (.seq (.lit b!" ")
      (.expr (rf 2 /-Interval-/) (.ptr .IntervalExpr)))
      .skip)
      (.ite (.nonNil (rf 3 /-Offset-/))
      (.seq (.lit b!" OFFSET ")
      (.expr (rf 3 /-Offset-/) (.ptr .IntervalExpr)))
      .skip)))
  -- parser/format.go:2571-2581
  | .TTLPolicyRule =>
      .ite (.nonNil (rf 1 /-ToVolume-/))
      (.seq (.lit b!"TO VOLUME ")
      (.expr (rf 1 /-ToVolume-/) (.ptr .StringLiteral)))
      (.ite (.nonNil (rf 2 /-ToDisk-/))
      (.seq (.lit b!"TO DISK ")
      (.expr (rf 2 /-ToDisk-/) (.ptr .StringLiteral)))
      (.ite (.nonNil (rf 3 /-Action-/))
      (.expr (rf 3 /-Action-/) (.ptr .TTLPolicyRuleAction))
      .skip))
  -- parser/format.go:2556-2569
  | .TTLPolicy =>
      .seq (.ite (.nonNil (rf 0 /-Item-/))
      (.expr (rf 0 /-Item-/) (.ptr .TTLPolicyRule))
      .skip)
      (.seq (.ite (.nonNil (rf 1 /-Where-/))
      (.seq (.lit b!" ")
      (.expr (rf 1 /-Where-/) (.ptr .WhereClause)))
      .skip)
      (.ite (.nonNil (rf 2 /-GroupBy-/))
      (.seq (.lit b!" ")
      (.expr (rf 2 /-GroupBy-/) (.ptr .GroupByClause)))
      .skip))
  -- parser/format.go:2548-2554
  | .TTLExpr =>
      .seq (.expr (rf 1 /-Expr-/) .iface)
      (.ite (.nonNil (rf 2 /-Policy-/))
      (.seq (.lit b!" ")
      (.expr (rf 2 /-Policy-/) (.ptr .TTLPolicy)))
      .skip)
  -- parser/format.go:2538-2546
  | .TTLClause =>
      .seq (.lit b!"TTL ")
      (.loop (rf 2 /-Items-/)
      (.seq (.ite .idxPos
      (.lit b!", ")
      .skip)
      (.expr ⟨1, []⟩ (.ptr .TTLExpr))))
  -- parser/format.go:1519-1537
  | .Fill =>
      .seq (.lit b!"WITH FILL")
      (.seq (.ite (.nonNil (rf 1 /-From-/))
      (.seq (.lit b!" FROM ")
      (.expr (rf 1 /-From-/) .iface))
      .skip)
      (.seq (.ite (.nonNil (rf 2 /-To-/))
      (.seq (.lit b!" TO ")
      (.expr (rf 2 /-To-/) .iface))
      .skip)
      (.seq (.ite (.nonNil (rf 3 /-Step-/))
      (.seq (.lit b!" STEP ")
      (.expr (rf 3 /-Step-/) .iface))
      .skip)
      (.ite (.nonNil (rf 4 /-Staleness-/))
      (.seq (.lit b!" STALENESS ")
      (.expr (rf 4 /-Staleness-/) .iface))
      .skip))))
  -- parser/format.go:2069-2083
  | .OrderExpr =>
      .seq (.expr (rf 1 /-Expr-/) .iface)
      (.seq (.ite (.nonNil (rf 2 /-Alias-/))
      (.seq (.lit b!" AS ")
      (.expr (rf 2 /-Alias-/) (.ptr .Ident)))
      .skip)
      (.seq (.ite (.not (.strEq (rf 3 /-Direction-/) b!""))
      (.seq (.lit b!" ")
      (.strF (rf 3 /-Direction-/)))
      .skip)
      (.ite (.nonNil (rf 4 /-Fill-/))
      (.seq (.lit b!" ")
      (.expr (rf 4 /-Fill-/) (.ptr .Fill)))
      .skip)))
  -- parser/format.go:1732-1738
  | .InterpolateItem =>
      .seq (.expr (rf 0 /-Column-/) (.ptr .Ident))
      (.ite (.nonNil (rf 1 /-Expr-/))
      (.seq (.lit b!" AS ")
      (.expr (rf 1 /-Expr-/) .iface))
      .skip)
  -- parser/format.go:1718-1730
  | .InterpolateClause =>
      .seq (.lit b!"INTERPOLATE")
      (.ite (.lenPos (rf 2 /-Items-/))
      (.seq (.lit b!" (")
      (.seq (.loop (rf 2 /-Items-/)
      (.seq (.expr ⟨1, []⟩ (.ptr .InterpolateItem))
      (.ite (.not .idxLast)
      (.lit b!", ")
      .skip)))
      (.lit b!")")))
      .skip)
  -- parser/format.go:2050-2067
  | .OrderByClause =>
      .seq (.lit b!"ORDER BY")
      (.seq .indent
      (.seq (.loop (rf 2 /-Items-/)
      (.seq (.ite (.not .idxPos)
      .brk
      (.seq (.lit b!",")
      .brk))
      (.expr ⟨1, []⟩ .iface)))
      (.seq (.ite (.nonNil (rf 3 /-Interpolate-/))
      (.seq .brk
      (.expr (rf 3 /-Interpolate-/) (.ptr .InterpolateClause)))
      .skip)
      .dedent)))
  -- parser/format.go:2404-2408
  | .SettingExpr =>
      .seq (.expr (rf 1 /-Name-/) (.ptr .Ident))
      (.seq (.lit b!"=")
      (.expr (rf 2 /-Expr-/) .iface))
  -- parser/format.go:2422-2435
  | .SettingsClause =>
      .seq (.lit b!"SETTINGS")
      (.seq .indent
      (.seq (.loop (rf 2 /-Items-/)
      (.seq (.ite (.not .idxPos)
      .brk
      (.seq (.lit b!",")
      .brk))
      (.expr ⟨1, []⟩ (.ptr .SettingExpr))))
      .dedent))
  -- parser/format.go:2085-2092
  | .ParamExprList =>
      .seq (.lit b!"(")
      (.seq (.expr (rf 2 /-Items-/) (.ptr .ColumnExprList))
      (.seq (.lit b!")")
      (.ite (.nonNil (rf 3 /-ColumnArgList-/))
      (.expr (rf 3 /-ColumnArgList-/) (.ptr .ColumnArgList))
      .skip)))
  -- parser/format.go:1938-1951
  | .MapLiteral =>
      .seq (.lit b!"{")
      (.seq (.loop (rf 2 /-KeyValues-/)
      (.seq (.ite .idxPos
      (.lit b!", ")
      .skip)
      (.seq (.expr ⟨1, [.f 0] /-Key-/⟩ (.ptr .StringLiteral))
      (.seq (.lit b!": ")
      (.expr ⟨1, [.f 1] /-Value-/⟩ .iface)))))
      (.lit b!"}"))
  -- parser/format.go:1964-1968
  | .NamedParameterExpr =>
      .seq (.expr (rf 1 /-Name-/) (.ptr .Ident))
      (.seq (.lit b!"=")
      (.expr (rf 2 /-Value-/) .iface))
  -- parser/format.go:2173-2179
  | .QueryParam =>
      .seq (.lit b!"{")
      (.seq (.expr (rf 2 /-Name-/) (.ptr .Ident))
      (.seq (.lit b!": ")
      (.seq (.expr (rf 3 /-Type-/) .iface)
      (.lit b!"}"))))
  -- parser/format.go:519-528
  | .ArrayParamList =>
      .seq (.lit b!"[")
      (.seq (.loop ⟨0, [.f 2, .f 3] /-Items.Items-/⟩
      (.seq (.ite .idxPos
      (.lit b!", ")
      .skip)
      (.expr ⟨1, []⟩ .iface)))
      (.lit b!"]"))
  -- parser/format.go:2017-2020
  | .ObjectParams =>
      .seq (.expr (rf 0 /-Object-/) .iface)
      (.expr (rf 1 /-Params-/) (.ptr .ArrayParamList))
  -- parser/format.go:1552-1555
  | .FunctionExpr =>
      .seq (.expr (rf 0 /-Name-/) (.ptr .Ident))
      (.expr (rf 1 /-Params-/) (.ptr .ParamExprList))
  -- parser/format.go:2872-2876
  | .WindowFunctionExpr =>
      .seq (.expr (rf 0 /-Function-/) (.ptr .FunctionExpr))
      (.seq (.lit b!" OVER ")
      (.expr (rf 2 /-OverExpr-/) .iface))
  -- parser/format.go:2732-2738
  | .TypedPlaceholder =>
      .seq (.lit b!"{")
      (.seq (.expr (rf 2 /-Name-/) (.ptr .Ident))
      (.seq (.lit b!":")
      (.seq (.expr (rf 3 /-Type-/) .iface)
      (.lit b!"}"))))
  -- parser/format.go:698-704
  | .ColumnExpr =>
      .seq (.expr (rf 0 /-Expr-/) .iface)
      (.ite (.nonNil (rf 1 /-Alias-/))
      (.seq (.lit b!" AS ")
      (.expr (rf 1 /-Alias-/) (.ptr .Ident)))
      .skip)
  -- parser/format.go:661-696
  | .ColumnDef =>
      .seq (.expr (rf 2 /-Name-/) (.ptr .NestedIdentifier))
      (.seq (.ite (.nonNil (rf 3 /-Type-/))
      (.seq (.lit b!" ")
      (.expr (rf 3 /-Type-/) .iface))
      .skip)
      (.seq (.ite (.nonNil (rf 4 /-NotNull-/))
      (.lit b!" NOT NULL")
      (.ite (.nonNil (rf 5 /-Nullable-/))
      (.lit b!" NULL")
      .skip))
      (.seq (.ite (.nonNil (rf 6 /-DefaultExpr-/))
      (.seq (.lit b!" DEFAULT ")
      (.expr (rf 6 /-DefaultExpr-/) .iface))
      .skip)
      (.seq (.ite (.nonNil (rf 7 /-MaterializedExpr-/))
      (.seq (.lit b!" MATERIALIZED ")
      (.expr (rf 7 /-MaterializedExpr-/) .iface))
      .skip)
      (.seq (.ite (.nonNil (rf 8 /-AliasExpr-/))
      (.seq (.lit b!" ALIAS ")
      (.expr (rf 8 /-AliasExpr-/) .iface))
      .skip)
      (.seq (.ite (.nonNil (rf 9 /-Codec-/))
      (.seq (.lit b!" ")
      (.expr (rf 9 /-Codec-/) (.ptr .CompressionCodec)))
      .skip)
      (.seq (.ite (.nonNil (rf 10 /-TTL-/))
      (.seq (.lit b!" ")
      (.expr (rf 10 /-TTL-/) (.ptr .TTLClause)))
      .skip)
      (.ite (.nonNil (rf 11 /-Comment-/))
      (.seq (.lit b!" COMMENT ")
      (.expr (rf 11 /-Comment-/) (.ptr .StringLiteral)))
      .skip))))))))
  -- parser/format.go:2272-2274
  | .ScalarType =>
      .expr (rf 0 /-Name-/) (.ptr .Ident)
  -- parser/format.go:1765-1772
  | .JSONPath =>
      .loop (rf 0 /-Idents-/)
      (.seq (.ite .idxPos
      (.lit b!".")
      .skip)
      (.expr ⟨1, []⟩ (.ptr .Ident)))
  -- parser/format.go:1774-1807
  | .JSONOption =>
      .seq (.ite (.nonNil (rf 0 /-SkipPath-/))
      (.seq (.lit b!"SKIP ")
      (.seq (.direct (rf 0 /-SkipPath-/) .JSONPath)
      .setFlag))
      .skip)
      (.seq (.ite (.nonNil (rf 1 /-SkipRegex-/))
      (.seq (.lit b!" SKIP REGEXP ")
      (.seq (.expr (rf 1 /-SkipRegex-/) (.ptr .StringLiteral))
      .setFlag))
      .skip)
      (.seq (.ite (.nonNil (rf 2 /-MaxDynamicPaths-/))
      (.seq (.lit b!"max_dynamic_paths")
      (.seq (.lit b!"=")
      (.seq (.expr (rf 2 /-MaxDynamicPaths-/) (.ptr .NumberLiteral))
      .setFlag)))
      .skip)
      (.seq (.ite (.nonNil (rf 3 /-MaxDynamicTypes-/))
      (.seq (.lit b!"max_dynamic_types")
      (.seq (.lit b!"=")
      (.seq (.expr (rf 3 /-MaxDynamicTypes-/) (.ptr .NumberLiteral))
      .setFlag)))
      .skip)
      (.ite (.and (.nonNil (rf 4 /-Column-/)) (.and (.nonNil ⟨0, [.f 4, .f 0] /-Column.Path-/⟩) (.nonNil ⟨0, [.f 4, .f 1] /-Column.Type-/⟩)))
      (.seq (.ite .flag
      (.lit b!" ")
      .skip)
      (.seq (.direct ⟨0, [.f 4, .f 0] /-Column.Path-/⟩ .JSONPath)
      (.seq (.lit b!" ")
      (.expr ⟨0, [.f 4, .f 1] /-Column.Type-/⟩ .iface))))
      .skip))))
  -- parser/format.go:1809-1849; the three sorted lists are three passes over the items
  | .JSONOptions =>
      .seq (.lit b!"(")
      (.seq (.loop (rf 2 /-Items-/) (.ite (.or (.or (.nonNil ⟨1, [.f 2] /-MaxDynamicPaths-/⟩) (.nonNil ⟨1, [.f 3] /-MaxDynamicTypes-/⟩)) (.not (.or (.nonNil ⟨1, [.f 4] /-Column-/⟩) (.or (.nonNil ⟨1, [.f 0] /-SkipPath-/⟩) (.nonNil ⟨1, [.f 1] /-SkipRegex-/⟩))))) (.seq (.ite .flag (.lit b!", ") .skip) (.seq (.direct ⟨1, []⟩ .JSONOption) .setFlag)) .skip))
      (.seq (.loop (rf 2 /-Items-/) (.ite (.and (.not (.or (.nonNil ⟨1, [.f 2] /-MaxDynamicPaths-/⟩) (.nonNil ⟨1, [.f 3] /-MaxDynamicTypes-/⟩))) (.nonNil ⟨1, [.f 4] /-Column-/⟩)) (.seq (.ite .flag (.lit b!", ") .skip) (.seq (.direct ⟨1, []⟩ .JSONOption) .setFlag)) .skip))
      (.seq (.loop (rf 2 /-Items-/) (.ite (.and (.not (.or (.nonNil ⟨1, [.f 2] /-MaxDynamicPaths-/⟩) (.nonNil ⟨1, [.f 3] /-MaxDynamicTypes-/⟩))) (.and (.not (.nonNil ⟨1, [.f 4] /-Column-/⟩)) (.or (.nonNil ⟨1, [.f 0] /-SkipPath-/⟩) (.nonNil ⟨1, [.f 1] /-SkipRegex-/⟩)))) (.seq (.ite .flag (.lit b!", ") .skip) (.seq (.direct ⟨1, []⟩ .JSONOption) .setFlag)) .skip))
      (.lit b!")"))))
  -- parser/format.go:1851-1856
  | .JSONType =>
      .seq (.expr (rf 0 /-Name-/) (.ptr .Ident))
      (.ite (.nonNil (rf 1 /-Options-/))
      (.direct (rf 1 /-Options-/) .JSONOptions)
      .skip)
  -- parser/format.go:2169-2171
  | .PropertyType =>
      .expr (rf 0 /-Name-/) (.ptr .Ident)
  -- parser/format.go:2720-2730
  | .TypeWithParams =>
      .seq (.expr (rf 2 /-Name-/) (.ptr .Ident))
      (.seq (.lit b!"(")
      (.seq (.loop (rf 3 /-Params-/)
      (.seq (.ite .idxPos
      (.lit b!", ")
      .skip)
      (.expr ⟨1, []⟩ .iface)))
      (.lit b!")")))
  -- parser/format.go:734-744
  | .ComplexType =>
      .seq (.expr (rf 2 /-Name-/) (.ptr .Ident))
      (.seq (.lit b!"(")
      (.seq (.loop (rf 3 /-Params-/)
      (.seq (.ite .idxPos
      (.lit b!", ")
      .skip)
      (.expr ⟨1, []⟩ .iface)))
      (.lit b!")")))
  -- parser/format.go:1985-1997
  | .NestedType =>
      .seq (.expr (rf 2 /-Name-/) (.ptr .Ident))
      (.seq (.lit b!"(")
      (.seq (.loop (rf 3 /-Columns-/)
      (.seq (.expr ⟨1, []⟩ .iface)
      (.ite (.not .idxLast)
      (.lit b!", ")
      .skip)))
      (.lit b!")")))
  -- parser/format.go:746-767
  | .CompressionCodec =>
      .seq (.lit b!"CODEC(")
      (.seq (.ite (.nonNil (rf 2 /-Type-/))
      (.seq (.expr (rf 2 /-Type-/) (.ptr .Ident))
      (.seq (.ite (.nonNil (rf 3 /-TypeLevel-/))
      (.seq (.lit b!"(")
      (.seq (.expr (rf 3 /-TypeLevel-/) (.ptr .NumberLiteral))
      (.lit b!")")))
      .skip)
      (.seq (.lit b!",")
      (.lit b!" "))))
      .skip)
      (.seq (.ite (.nonNil (rf 4 /-Name-/))
      (.seq (.expr (rf 4 /-Name-/) (.ptr .Ident))
      (.ite (.nonNil (rf 5 /-Level-/))
      (.seq (.lit b!"(")
      (.seq (.expr (rf 5 /-Level-/) (.ptr .NumberLiteral))
      (.lit b!")")))
      .skip))
      .skip)
      (.lit b!")")))
  -- parser/format.go:2013-2015
  | .NumberLiteral =>
      .strF (rf 2 /-Literal-/)
  -- parser/format.go:2474-2478
  | .StringLiteral =>
      .seq (.lit b!"'")
      (.seq (.strF (rf 2 /-Literal-/))
      (.lit b!"'"))
  -- parser/format.go:587-589
  | .BoolLiteral =>
      .strF (rf 2 /-Literal-/)
  -- parser/format.go:2119-2121
  | .PlaceHolder =>
      .strF (rf 2 /-Type-/)
  -- parser/format.go:2181-2187
  | .RatioExpr =>
      .seq (.expr (rf 0 /-Numerator-/) (.ptr .NumberLiteral))
      (.ite (.nonNil (rf 1 /-Denominator-/))
      (.seq (.lit b!"/")
      (.expr (rf 1 /-Denominator-/) (.ptr .NumberLiteral)))
      .skip)
  -- parser/format.go:1495-1499
  | .EnumValue =>
      .seq (.expr (rf 0 /-Name-/) (.ptr .StringLiteral))
      (.seq (.lit b!"=")
      (.expr (rf 1 /-Value-/) (.ptr .NumberLiteral)))
  -- parser/format.go:1482-1493
  | .EnumType =>
      .seq (.expr (rf 0 /-Name-/) (.ptr .Ident))
      (.seq (.lit b!"(")
      (.seq (.loop (rf 3 /-Values-/)
      (.seq (.ite .idxPos
      (.lit b!", ")
      .skip)
      (.expr ⟨1, []⟩ (.ptr .EnumValue))))
      (.lit b!")")))
  -- parser/format.go:1740-1747
  | .IntervalExpr =>
      .seq (.ite (.not (.natEq (rf 0 /-IntervalPos-/) 0))
      (.lit b!"INTERVAL ")
      .skip)
      (.seq (.expr (rf 1 /-Expr-/) .iface)
      (.seq (.lit b!" ")
      (.expr (rf 2 /-Unit-/) (.ptr .Ident))))
  -- parser/format.go:1450-1480
  | .EngineExpr =>
      .seq (.lit b!"ENGINE = ")
      (.seq (.strF (rf 2 /-Name-/))
      (.seq (.ite (.nonNil (rf 3 /-Params-/))
      (.expr (rf 3 /-Params-/) (.ptr .ParamExprList))
      .skip)
      (.seq (.ite (.nonNil (rf 9 /-OrderBy-/))
      (.seq .brk
      (.expr (rf 9 /-OrderBy-/) (.ptr .OrderByClause)))
      .skip)
      (.seq (.ite (.nonNil (rf 5 /-PartitionBy-/))
      (.seq .brk
      (.expr (rf 5 /-PartitionBy-/) (.ptr .PartitionByClause)))
      .skip)
      (.seq (.ite (.nonNil (rf 4 /-PrimaryKey-/))
      (.seq .brk
      (.expr (rf 4 /-PrimaryKey-/) (.ptr .PrimaryKeyClause)))
      .skip)
      (.seq (.ite (.nonNil (rf 6 /-SampleBy-/))
      (.seq .brk
      (.expr (rf 6 /-SampleBy-/) (.ptr .SampleByClause)))
      .skip)
      (.seq (.ite (.nonNil (rf 7 /-TTL-/))
      (.seq .brk
      (.expr (rf 7 /-TTL-/) (.ptr .TTLClause)))
      .skip)
      (.ite (.nonNil (rf 8 /-Settings-/))
      (.seq .brk
      (.expr (rf 8 /-Settings-/) (.ptr .SettingsClause)))
      .skip))))))))
  -- parser/format.go:730-732
  | .ColumnTypeExpr =>
      .expr (rf 0 /-Name-/) (.ptr .Ident)
  -- parser/format.go:650-659
  | .ColumnArgList =>
      .seq (.lit b!"(")
      (.seq (.loop (rf 3 /-Items-/)
      (.seq (.ite .idxPos
      (.lit b!", ")
      .skip)
      (.expr ⟨1, []⟩ .iface)))
      (.lit b!")"))
  -- parser/format.go:706-716
  | .ColumnExprList =>
      .seq (.ite (.isTrue (rf 2 /-HasDistinct-/))
      (.lit b!"DISTINCT ")
      .skip)
      (.loop (rf 3 /-Items-/)
      (.seq (.expr ⟨1, []⟩ .iface)
      (.ite (.not .idxLast)
      (.lit b!", ")
      .skip)))
  -- parser/format.go:2767-2776
  | .WhenClause =>
      .seq (.lit b!"WHEN ")
      (.seq (.expr (rf 2 /-When-/) .iface)
      (.seq (.lit b!" THEN ")
      (.seq (.expr (rf 3 /-Then-/) .iface)
      (.ite (.nonNil (rf 5 /-Else-/))
      (.seq (.lit b!" ELSE ")
      (.expr (rf 5 /-Else-/) .iface))
      .skip))))
  -- parser/format.go:603-622
  | .CaseExpr =>
      .seq (.lit b!"CASE")
      (.seq (.ite (.nonNil (rf 2 /-Expr-/))
      (.seq (.lit b!" ")
      (.expr (rf 2 /-Expr-/) .iface))
      .skip)
      (.seq .indent
      (.seq (.loop (rf 3 /-Whens-/)
      (.seq .brk
      (.expr ⟨1, []⟩ (.ptr .WhenClause))))
      (.seq (.ite (.nonNil (rf 5 /-Else-/))
      (.seq .brk
      (.seq (.lit b!"ELSE ")
      (.expr (rf 5 /-Else-/) .iface)))
      .skip)
      (.seq .dedent
      (.seq .brk
      (.lit b!"END")))))))
  -- parser/format.go:624-634
  | .CastExpr =>
      .seq (.lit b!"CAST(")
      (.seq (.expr (rf 1 /-Expr-/) .iface)
      (.seq (.ite (.strEq (rf 2 /-Separator-/) b!",")
      (.lit b!", ")
      (.lit b!" AS "))
      (.seq (.expr (rf 4 /-AsType-/) .iface)
      (.lit b!")"))))
  -- parser/format.go:2878-2886
  | .WithClause =>
      .seq (.lit b!"WITH ")
      (.loop (rf 2 /-CTEs-/)
      (.seq (.ite .idxPos
      (.lit b!", ")
      .skip)
      (.expr ⟨1, []⟩ (.ptr .CTEStmt))))
  -- parser/format.go:2696-2702
  | .TopClause =>
      .seq (.lit b!"TOP ")
      (.seq (.strF ⟨0, [.f 2, .f 2] /-Number.Literal-/⟩)
      (.ite (.isTrue (rf 3 /-WithTies-/))
      (.lit b!" WITH TIES")
      .skip))
  -- parser/format.go:854-886
  | .CreateLiveView =>
      .seq (.lit b!"CREATE LIVE VIEW ")
      (.seq (.ite (.isTrue (rf 3 /-IfNotExists-/))
      (.lit b!"IF NOT EXISTS ")
      .skip)
      (.seq (.expr (rf 2 /-Name-/) (.ptr .TableIdentifier))
      (.seq (.ite (.nonNil (rf 5 /-OnCluster-/))
      (.seq .brk
      (.expr (rf 5 /-OnCluster-/) (.ptr .ClusterClause)))
      .skip)
      (.seq (.ite (.nonNil (rf 8 /-WithTimeout-/))
      (.seq .brk
      (.expr (rf 8 /-WithTimeout-/) (.ptr .WithTimeoutClause)))
      .skip)
      (.seq (.ite (.nonNil (rf 6 /-Destination-/))
      (.seq .brk
      (.expr (rf 6 /-Destination-/) (.ptr .DestinationClause)))
      .skip)
      (.seq (.ite (.nonNil (rf 7 /-TableSchema-/))
      (.seq .brk
      (.expr (rf 7 /-TableSchema-/) (.ptr .TableSchemaClause)))
      .skip)
      (.ite (.nonNil (rf 9 /-SubQuery-/))
      (.seq .brk
      (.seq (.lit b!"AS ")
      (.expr (rf 9 /-SubQuery-/) (.ptr .SubQuery))))
      .skip)))))))
  -- parser/format.go:795-832
  | .CreateDictionary =>
      .seq (.lit b!"CREATE ")
      (.seq (.ite (.isTrue (rf 2 /-OrReplace-/))
      (.lit b!"OR REPLACE ")
      .skip)
      (.seq (.lit b!"DICTIONARY ")
      (.seq (.ite (.isTrue (rf 4 /-IfNotExists-/))
      (.lit b!"IF NOT EXISTS ")
      .skip)
      (.seq (.expr (rf 3 /-Name-/) (.ptr .TableIdentifier))
      (.seq (.ite (.nonNil (rf 5 /-UUID-/))
      (.seq .brk
      (.expr (rf 5 /-UUID-/) (.ptr .UUID)))
      .skip)
      (.seq (.ite (.nonNil (rf 6 /-OnCluster-/))
      (.seq .brk
      (.expr (rf 6 /-OnCluster-/) (.ptr .ClusterClause)))
      .skip)
      (.seq (.ite (.nonNil (rf 7 /-Schema-/))
      (.seq .brk
      (.expr (rf 7 /-Schema-/) (.ptr .DictionarySchemaClause)))
      .skip)
      (.seq (.ite (.nonNil (rf 8 /-Engine-/))
      (.seq .brk
      (.expr (rf 8 /-Engine-/) (.ptr .DictionaryEngineClause)))
      .skip)
      (.ite (.nonNil (rf 9 /-Comment-/))
      (.seq .brk
      (.seq (.lit b!"COMMENT ")
      (.expr (rf 9 /-Comment-/) (.ptr .StringLiteral))))
      .skip)))))))))
  -- parser/format.go:974-991
  | .CreateNamedCollection =>
      .seq (.lit b!"CREATE NAMED COLLECTION ")
      (.seq (.ite (.isTrue (rf 3 /-IfNotExists-/))
      (.lit b!"IF NOT EXISTS ")
      .skip)
      (.seq (.expr (rf 2 /-Name-/) (.ptr .Ident))
      (.seq (.ite (.nonNil (rf 4 /-OnCluster-/))
      (.seq (.lit b!" ")
      (.expr (rf 4 /-OnCluster-/) (.ptr .ClusterClause)))
      .skip)
      (.seq (.lit b!" AS ")
      (.loop (rf 5 /-Params-/)
      (.seq (.ite .idxPos
      (.lit b!", ")
      .skip)
      (.expr ⟨1, []⟩ (.ptr .NamedCollectionParam))))))))
  -- parser/format.go:1953-1962
  | .NamedCollectionParam =>
      .seq (.expr (rf 1 /-Name-/) (.ptr .Ident))
      (.seq (.lit b!" = ")
      (.seq (.expr (rf 2 /-Value-/) .iface)
      (.ite (.isTrue (rf 4 /-NotOverridable-/))
      (.lit b!" NOT OVERRIDABLE")
      (.ite (.isTrue (rf 3 /-Overridable-/))
      (.lit b!" OVERRIDABLE")
      .skip))))
  -- parser/format.go:1355-1370
  | .DictionarySchemaClause =>
      .seq (.lit b!"(")
      (.seq .indent
      (.seq (.loop (rf 1 /-Attributes-/)
      (.seq (.ite (.not .idxPos)
      .newline
      (.seq (.lit b!",")
      .brk))
      (.expr ⟨1, []⟩ (.ptr .DictionaryAttribute))))
      (.seq .dedent
      (.seq .newline
      (.lit b!")")))))
  -- parser/format.go:1242-1269
  | .DictionaryAttribute =>
      .seq (.expr (rf 2 /-Name-/) (.ptr .Ident))
      (.seq (.lit b!" ")
      (.seq (.expr (rf 3 /-Type-/) .iface)
      (.seq (.ite (.nonNil (rf 4 /-Default-/))
      (.seq (.lit b!" DEFAULT ")
      (.expr (rf 4 /-Default-/) .iface))
      .skip)
      (.seq (.ite (.nonNil (rf 5 /-Expression-/))
      (.seq (.lit b!" EXPRESSION ")
      (.expr (rf 5 /-Expression-/) .iface))
      .skip)
      (.seq (.ite (.isTrue (rf 6 /-Hierarchical-/))
      (.lit b!" HIERARCHICAL")
      .skip)
      (.seq (.ite (.isTrue (rf 7 /-Injective-/))
      (.lit b!" INJECTIVE")
      .skip)
      (.ite (.isTrue (rf 8 /-IsObjectId-/))
      (.lit b!" IS_OBJECT_ID")
      .skip)))))))
  -- parser/format.go:1271-1309; the closure `breakAndWrite` is written out
  | .DictionaryEngineClause =>
      .seq (.ite (.nonNil (rf 1 /-PrimaryKey-/)) (.seq (.ite .flag .brk .skip) (.seq (.expr (rf 1 /-PrimaryKey-/) (.ptr .DictionaryPrimaryKeyClause)) .setFlag)) .skip)
      (.seq (.ite (.nonNil (rf 2 /-Source-/)) (.seq (.ite .flag .brk .skip) (.seq (.expr (rf 2 /-Source-/) (.ptr .DictionarySourceClause)) .setFlag)) .skip)
      (.seq (.ite (.nonNil (rf 3 /-Lifetime-/)) (.seq (.ite .flag .brk .skip) (.seq (.expr (rf 3 /-Lifetime-/) (.ptr .DictionaryLifetimeClause)) .setFlag)) .skip)
      (.seq (.ite (.nonNil (rf 4 /-Layout-/)) (.seq (.ite .flag .brk .skip) (.seq (.expr (rf 4 /-Layout-/) (.ptr .DictionaryLayoutClause)) .setFlag)) .skip)
      (.seq (.ite (.nonNil (rf 5 /-Range-/)) (.seq (.ite .flag .brk .skip) (.seq (.expr (rf 5 /-Range-/) (.ptr .DictionaryRangeClause)) .setFlag)) .skip)
      (.ite (.nonNil (rf 6 /-Settings-/)) (.seq (.ite .flag .brk .skip)
      (.seq (.lit b!"SETTINGS(")
      (.seq (.loop ⟨0, [.f 6, .f 2] /-Settings.Items-/⟩ (.seq (.ite .idxPos (.lit b!", ") .skip) (.expr ⟨1, []⟩ (.ptr .SettingExpr))))
      (.lit b!")")))) .skip)))))
  -- parser/format.go:1337-1340
  | .DictionaryPrimaryKeyClause =>
      .seq (.lit b!"PRIMARY KEY ")
      (.expr (rf 1 /-Keys-/) (.ptr .ColumnExprList))
  -- parser/format.go:1372-1383
  | .DictionarySourceClause =>
      .seq (.lit b!"SOURCE(")
      (.seq (.expr (rf 1 /-Source-/) (.ptr .Ident))
      (.seq (.lit b!"(")
      (.seq (.loop (rf 2 /-Args-/)
      (.seq (.ite .idxPos
      (.lit b!" ")
      .skip)
      (.expr ⟨1, []⟩ (.ptr .DictionaryArgExpr))))
      (.lit b!"))"))))
  -- parser/format.go:1225-1240
  | .DictionaryArgExpr =>
      .seq (.expr (rf 1 /-Name-/) (.ptr .Ident))
      (.ite (.not (.not (.natEq (rf 4 /-LParenPos-/) 0)))
      (.seq (.lit b!" ")
      (.expr (rf 2 /-Value-/) .iface))
      (.seq (.lit b!"(")
      (.seq (.loop (rf 3 /-Args-/)
      (.seq (.ite .idxPos
      (.lit b!" ")
      .skip)
      (.expr ⟨1, []⟩ (.ptr .DictionaryArgExpr))))
      (.lit b!")"))))
  -- parser/format.go:1324-1335
  | .DictionaryLifetimeClause =>
      .seq (.lit b!"LIFETIME(")
      (.seq (.ite (.nonNil (rf 3 /-Value-/))
      (.expr (rf 3 /-Value-/) (.ptr .NumberLiteral))
      (.ite (.and (.nonNil (rf 1 /-Min-/)) (.nonNil (rf 2 /-Max-/)))
      (.seq (.lit b!"MIN ")
      (.seq (.expr (rf 1 /-Min-/) (.ptr .NumberLiteral))
      (.seq (.lit b!" MAX ")
      (.expr (rf 2 /-Max-/) (.ptr .NumberLiteral)))))
      .skip))
      (.lit b!")"))
  -- parser/format.go:1311-1322
  | .DictionaryLayoutClause =>
      .seq (.lit b!"LAYOUT(")
      (.seq (.expr (rf 1 /-Layout-/) (.ptr .Ident))
      (.seq (.lit b!"(")
      (.seq (.loop (rf 2 /-Args-/)
      (.seq (.ite .idxPos
      (.lit b!" ")
      .skip)
      (.expr ⟨1, []⟩ (.ptr .DictionaryArgExpr))))
      (.lit b!"))"))))
  -- parser/format.go:1342-1353
  | .DictionaryRangeClause =>
      .seq (.lit b!"RANGE(")
      (.seq (.lit b!"MIN ")
      (.seq (.ite (.nonNil (rf 1 /-Min-/))
      (.expr (rf 1 /-Min-/) (.ptr .Ident))
      .skip)
      (.seq (.ite (.nonNil (rf 2 /-Max-/))
      (.seq (.lit b!" MAX ")
      (.expr (rf 2 /-Max-/) (.ptr .Ident)))
      .skip)
      (.lit b!")"))))
  -- parser/format.go:2888-2895
  | .WithTimeoutClause =>
      .seq (.lit b!"WITH TIMEOUT ")
      (.ite (.nonNil (rf 2 /-Number-/))
      (.expr (rf 2 /-Number-/) (.ptr .NumberLiteral))
      (.expr (rf 1 /-Expr-/) .iface))
  -- parser/format.go:2602-2611
  | .TableExpr =>
      .seq (.expr (rf 3 /-Expr-/) .iface)
      (.seq (.ite (.nonNil (rf 2 /-Alias-/))
      (.seq (.lit b!" ")
      (.expr (rf 2 /-Alias-/) (.ptr .AliasExpr)))
      .skip)
      (.ite (.isTrue (rf 4 /-HasFinal-/))
      (.lit b!" FINAL")
      .skip))
  -- parser/format.go:2022-2025
  | .OnClause =>
      .seq (.lit b!"ON ")
      (.expr (rf 1 /-On-/) (.ptr .ColumnExprList))
  -- parser/format.go:2762-2765
  | .UsingClause =>
      .seq (.lit b!"USING ")
      (.expr (rf 1 /-Using-/) (.ptr .ColumnExprList))
  -- parser/format.go:1868-1873
  | .JoinExpr =>
      .seq (.expr (rf 1 /-Left-/) .iface)
      (.ite (.nonNil (rf 2 /-Right-/))
      (.joinSQL (rf 2 /-Right-/))
      .skip)
  -- parser/format.go:1858-1866
  | .JoinConstraintClause =>
      .ite (.nonNil (rf 1 /-On-/))
      (.seq (.lit b!"ON ")
      (.expr (rf 1 /-On-/) (.ptr .ColumnExprList)))
      (.seq (.lit b!"USING ")
      (.expr (rf 2 /-Using-/) (.ptr .ColumnExprList)))
  -- parser/format.go:1544-1550
  | .FromClause =>
      .seq (.lit b!"FROM")
      (.seq .indent
      (.seq .brk
      (.seq (.expr (rf 1 /-Expr-/) .iface)
      .dedent)))
  -- parser/format.go:1760-1763
  | .IsNullExpr =>
      .seq (.expr (rf 2 /-Expr-/) .iface)
      (.lit b!" IS NULL")
  -- parser/format.go:1755-1758
  | .IsNotNullExpr =>
      .seq (.expr (rf 2 /-Expr-/) .iface)
      (.lit b!" IS NOT NULL")
  -- parser/format.go:181-191
  | .AliasExpr =>
      .seq (.ite (.isTy (rf 0 /-Expr-/) .SelectQuery)
      (.seq (.lit b!"(")
      (.seq (.expr (rf 0 /-Expr-/) .iface)
      (.lit b!")")))
      (.expr (rf 0 /-Expr-/) .iface))
      (.seq (.lit b!" AS ")
      (.expr (rf 2 /-Alias-/) .iface))
  -- parser/format.go:2778-2789
  | .WhereClause =>
      .seq (.lit b!"WHERE")
      (.ite (.and (.isTy (rf 1 /-Expr-/) .BinaryOperation) (.or (.strEq ⟨0, [.f 1, .f 1] /-Expr.Operation-/⟩ b!"AND") (.strEq ⟨0, [.f 1, .f 1] /-Expr.Operation-/⟩ b!"OR")))
      (.seq .brk
      (.expr (rf 1 /-Expr-/) .iface))
      (.seq .indent
      (.seq .brk
      (.seq (.expr (rf 1 /-Expr-/) .iface)
      .dedent))))
  -- parser/format.go:2123-2126
  | .PrewhereClause =>
      .seq (.lit b!"PREWHERE ")
      (.expr (rf 1 /-Expr-/) .iface)
  -- parser/format.go:1615-1642
  | .GroupByClause =>
      .seq (.lit b!"GROUP BY")
      (.seq .indent
      (.seq (.seq (.ite (.not (.strEq (rf 2 /-AggregateType-/) b!""))
      (.seq .brk
      (.strF (rf 2 /-AggregateType-/)))
      .skip)
      (.seq (.ite (.nonNil (rf 3 /-Expr-/))
      (.seq (.ite (.strEq (rf 2 /-AggregateType-/) b!"")
      .brk
      .skip)
      (.expr (rf 3 /-Expr-/) .iface))
      .skip)
      (.seq (.ite (.isTrue (rf 4 /-WithCube-/))
      (.seq .brk
      (.lit b!"WITH CUBE"))
      .skip)
      (.seq (.ite (.isTrue (rf 5 /-WithRollup-/))
      (.seq .brk
      (.lit b!"WITH ROLLUP"))
      .skip)
      (.ite (.isTrue (rf 6 /-WithTotals-/))
      (.seq .brk
      (.lit b!"WITH TOTALS"))
      .skip)))))
      .dedent))
  -- parser/format.go:1644-1647
  | .HavingClause =>
      .seq (.lit b!"HAVING ")
      (.expr (rf 1 /-Expr-/) .iface)
  -- parser/format.go:1924-1936
  | .LimitClause =>
      .seq (.ite (.nonNil (rf 1 /-Limit-/))
      (.seq (.lit b!"LIMIT ")
      (.seq (.expr (rf 1 /-Limit-/) .iface)
      (.ite (.nonNil (rf 2 /-Offset-/))
      (.lit b!" ")
      .skip)))
      .skip)
      (.ite (.nonNil (rf 2 /-Offset-/))
      (.seq (.lit b!"OFFSET ")
      (.expr (rf 2 /-Offset-/) .iface))
      .skip)
  -- parser/format.go:1914-1922
  | .LimitByClause =>
      .seq (.ite (.nonNil (rf 0 /-Limit-/))
      (.expr (rf 0 /-Limit-/) (.ptr .LimitClause))
      .skip)
      (.ite (.nonNil (rf 1 /-ByExpr-/))
      (.seq (.lit b!" BY ")
      (.expr (rf 1 /-ByExpr-/) (.ptr .ColumnExprList)))
      .skip)
  -- parser/format.go:2807-2835
  | .WindowExpr =>
      .seq (.lit b!"(")
      (.seq (.ite (.nonNil (rf 2 /-WindowName-/))
      (.seq (.expr (rf 2 /-WindowName-/) (.ptr .Ident))
      .setFlag)
      .skip)
      (.seq (.ite (.nonNil (rf 3 /-PartitionBy-/))
      (.seq (.ite .flag
      (.lit b!" ")
      .skip)
      (.seq (.expr (rf 3 /-PartitionBy-/) (.ptr .PartitionByClause))
      .setFlag))
      .skip)
      (.seq (.ite (.nonNil (rf 4 /-OrderBy-/))
      (.seq (.ite .flag
      (.lit b!" ")
      .skip)
      (.seq (.expr (rf 4 /-OrderBy-/) (.ptr .OrderByClause))
      .setFlag))
      .skip)
      (.seq (.ite (.nonNil (rf 5 /-Frame-/))
      (.seq (.ite .flag
      (.lit b!" ")
      .skip)
      (.expr (rf 5 /-Frame-/) (.ptr .WindowFrameClause)))
      .skip)
      (.lit b!")")))))
  -- parser/format.go:2791-2795
  | .WindowDefinition =>
      .seq (.expr (rf 0 /-Name-/) (.ptr .Ident))
      (.seq (.lit b!" AS ")
      (.expr (rf 2 /-Expr-/) (.ptr .WindowExpr)))
  -- parser/format.go:2797-2805
  | .WindowClause =>
      .seq (.lit b!"WINDOW ")
      (.loop (rf 2 /-Windows-/)
      (.seq (.direct ⟨1, []⟩ .WindowDefinition)
      (.ite (.not .idxLast)
      (.lit b!", ")
      .skip)))
  -- parser/format.go:2837-2841
  | .WindowFrameClause =>
      .seq (.strF (rf 1 /-Type-/))
      (.seq (.lit b!" ")
      (.expr (rf 2 /-Extend-/) .iface))
  -- parser/format.go:2847-2853
  | .WindowFrameExtendExpr =>
      .seq (.expr (rf 0 /-Expr-/) .iface)
      (.ite (.not (.strEq (rf 1 /-Direction-/) b!""))
      (.seq (.lit b!" ")
      (.strF (rf 1 /-Direction-/)))
      .skip)
  -- parser/format.go:570-585; the local `keyword` is written out
  | .BetweenClause =>
      .seq (.ite (.nonNil (rf 0 /-Expr-/)) (.seq (.expr (rf 0 /-Expr-/) .iface) (.lit b!" ")) .skip)
      (.seq (.ite (.isTrue (rf 1 /-Not-/)) (.lit b!"NOT BETWEEN ") (.lit b!"BETWEEN "))
      (.seq (.expr (rf 2 /-Between-/) .iface)
      (.seq (.lit b!" AND ")
      (.expr (rf 4 /-And-/) .iface))))
  -- parser/format.go:2843-2845
  | .WindowFrameCurrentRow =>
      .lit b!"CURRENT ROW"
  -- parser/format.go:2867-2870
  | .WindowFrameUnbounded =>
      .seq (.lit b!"UNBOUNDED ")
      (.strF (rf 2 /-Direction-/))
  -- parser/format.go:2855-2859
  | .WindowFrameNumber =>
      .seq (.expr (rf 0 /-Number-/) (.ptr .NumberLiteral))
      (.seq (.lit b!" ")
      (.strF (rf 2 /-Direction-/)))
  -- parser/format.go:2861-2865
  | .WindowFrameParam =>
      .seq (.expr (rf 0 /-Param-/) (.ptr .QueryParam))
      (.seq (.lit b!" ")
      (.strF (rf 2 /-Direction-/)))
  -- parser/format.go:2288-2392
  | .SelectQuery =>
      .seq (.ite (.nonNil (rf 2 /-With-/))
      (.seq (.lit b!"WITH")
      (.seq .indent
      (.seq (.loop ⟨0, [.f 2, .f 2] /-With.CTEs-/⟩
      (.seq (.ite (.not .idxPos)
      .brk
      (.seq (.lit b!",")
      .brk))
      (.expr ⟨1, []⟩ (.ptr .CTEStmt))))
      (.seq .dedent
      .brk))))
      .skip)
      (.seq (.lit b!"SELECT")
      (.seq (.ite (.isTrue (rf 4 /-HasDistinct-/))
      (.seq (.lit b!" DISTINCT")
      (.ite (.nonNil (rf 5 /-DistinctOn-/))
      (.seq (.lit b!" ")
      (.expr (rf 5 /-DistinctOn-/) (.ptr .DistinctOn)))
      .skip))
      .skip)
      (.seq (.ite (.nonNil (rf 3 /-Top-/))
      (.seq (.lit b!" ")
      (.expr (rf 3 /-Top-/) (.ptr .TopClause)))
      .skip)
      (.seq .indent
      (.seq (.loop (rf 6 /-SelectItems-/)
      (.seq (.ite (.not .idxPos)
      .brk
      (.seq (.lit b!",")
      .brk))
      (.expr ⟨1, []⟩ (.ptr .SelectItem))))
      (.seq .dedent
      (.seq (.ite (.nonNil (rf 7 /-From-/))
      (.seq .brk
      (.expr (rf 7 /-From-/) (.ptr .FromClause)))
      .skip)
      (.seq (.ite (.nonNil (rf 8 /-Window-/))
      (.seq .brk
      (.expr (rf 8 /-Window-/) (.ptr .WindowClause)))
      .skip)
      (.seq (.ite (.nonNil (rf 9 /-Prewhere-/))
      (.seq .brk
      (.expr (rf 9 /-Prewhere-/) (.ptr .PrewhereClause)))
      .skip)
      (.seq (.ite (.nonNil (rf 10 /-Where-/))
      (.seq .brk
      (.expr (rf 10 /-Where-/) (.ptr .WhereClause)))
      .skip)
      (.seq (.ite (.nonNil (rf 11 /-GroupBy-/))
      (.seq .brk
      (.expr (rf 11 /-GroupBy-/) (.ptr .GroupByClause)))
      .skip)
      (.seq (.ite (.nonNil (rf 13 /-Having-/))
      (.seq .brk
      (.expr (rf 13 /-Having-/) (.ptr .HavingClause)))
      .skip)
      (.seq (.ite (.nonNil (rf 14 /-OrderBy-/))
      (.seq .brk
      (.expr (rf 14 /-OrderBy-/) (.ptr .OrderByClause)))
      .skip)
      (.seq (.ite (.nonNil (rf 15 /-LimitBy-/))
      (.seq .brk
      (.expr (rf 15 /-LimitBy-/) (.ptr .LimitByClause)))
      .skip)
      (.seq (.ite (.nonNil (rf 16 /-Limit-/))
      (.seq .brk
      (.expr (rf 16 /-Limit-/) (.ptr .LimitClause)))
      .skip)
      (.seq (.ite (.nonNil (rf 17 /-Settings-/))
      (.seq .brk
      (.expr (rf 17 /-Settings-/) (.ptr .SettingsClause)))
      .skip)
      (.seq (.ite (.nonNil (rf 18 /-Format-/))
      (.seq .brk
      (.expr (rf 18 /-Format-/) (.ptr .FormatClause)))
      .skip)
      (.ite (.nonNil (rf 19 /-UnionAll-/))
      (.seq .brk
      (.seq (.lit b!"UNION ALL")
      (.seq .brk
      (.expr (rf 19 /-UnionAll-/) (.ptr .SelectQuery)))))
      (.ite (.nonNil (rf 20 /-UnionDistinct-/))
      (.seq .brk
      (.seq (.lit b!"UNION DISTINCT")
      (.seq .brk
      (.expr (rf 20 /-UnionDistinct-/) (.ptr .SelectQuery)))))
      (.ite (.nonNil (rf 21 /-Except-/))
      (.seq .brk
      (.seq (.lit b!"EXCEPT")
      (.seq .brk
      (.expr (rf 21 /-Except-/) (.ptr .SelectQuery)))))
      (.ite (.nonNil (rf 22 /-Intersect-/))
      (.seq .brk
      (.seq (.lit b!"INTERSECT")
      (.seq .brk
      (.expr (rf 22 /-Intersect-/) (.ptr .SelectQuery)))))
      .skip)))))))))))))))))))))
  -- parser/format.go:1385-1394
  | .DistinctOn =>
      .seq (.lit b!"ON (")
      (.seq (.loop (rf 0 /-Idents-/)
      (.seq (.ite .idxPos
      (.lit b!", ")
      .skip)
      (.expr ⟨1, []⟩ (.ptr .NestedIdentifier))))
      (.lit b!")"))
  -- parser/format.go:2480-2488
  | .SubQuery =>
      .seq (.ite (.isTrue (rf 0 /-HasParen-/))
      (.lit b!"(")
      .skip)
      (.seq (.expr (rf 1 /-Select-/) (.ptr .SelectQuery))
      (.ite (.isTrue (rf 0 /-HasParen-/))
      (.lit b!")")
      .skip))
  -- parser/format.go:1999-2003
  | .NotExpr =>
      .seq (.lit b!"NOT")
      (.seq (.lit b!" ")
      (.expr (rf 1 /-Expr-/) .iface))
  -- parser/format.go:1970-1973
  | .NegateExpr =>
      .seq (.lit b!"-")
      (.expr (rf 1 /-Expr-/) .iface)
  -- parser/format.go:1557-1560
  | .GlobalInOperation =>
      .seq (.lit b!"GLOBAL ")
      (.expr (rf 1 /-Expr-/) .iface)
  -- parser/format.go:1749-1753
  | .IntervalFrom =>
      .seq (.expr (rf 0 /-Interval-/) (.ptr .Ident))
      (.seq (.lit b!" FROM ")
      (.expr (rf 2 /-FromExpr-/) .iface))
  -- parser/format.go:1508-1517
  | .ExtractExpr =>
      .seq (.lit b!"EXTRACT(")
      (.seq (.loop (rf 2 /-Parameters-/)
      (.seq (.ite .idxPos
      (.lit b!", ")
      .skip)
      (.expr ⟨1, []⟩ .iface)))
      (.lit b!")"))
  -- parser/format.go:1396-1409
  | .DropDatabase =>
      .seq (.lit b!"DROP DATABASE ")
      (.seq (.ite (.isTrue (rf 3 /-IfExists-/))
      (.lit b!"IF EXISTS ")
      .skip)
      (.seq (.expr (rf 2 /-Name-/) (.ptr .Ident))
      (.seq (.ite (.nonNil (rf 4 /-OnCluster-/))
      (.seq (.lit b!" ")
      (.expr (rf 4 /-OnCluster-/) (.ptr .ClusterClause)))
      .skip)
      (.ite (.lenPos (rf 5 /-Modifier-/))
      (.seq (.lit b!" ")
      (.strF (rf 5 /-Modifier-/)))
      .skip))))
  -- parser/format.go:1411-1428
  | .DropStmt =>
      .seq (.lit b!"DROP ")
      (.seq (.ite (.isTrue (rf 6 /-IsTemporary-/))
      (.lit b!"TEMPORARY ")
      .skip)
      (.seq (.seq (.strF (rf 2 /-DropTarget-/))
      (.lit b!" "))
      (.seq (.ite (.isTrue (rf 4 /-IfExists-/))
      (.lit b!"IF EXISTS ")
      .skip)
      (.seq (.expr (rf 3 /-Name-/) (.ptr .TableIdentifier))
      (.seq (.ite (.nonNil (rf 5 /-OnCluster-/))
      (.seq (.lit b!" ")
      (.expr (rf 5 /-OnCluster-/) (.ptr .ClusterClause)))
      .skip)
      (.ite (.lenPos (rf 7 /-Modifier-/))
      (.seq (.lit b!" ")
      (.strF (rf 7 /-Modifier-/)))
      .skip))))))
  -- parser/format.go:1430-1448
  | .DropUserOrRole =>
      .seq (.seq (.lit b!"DROP ")
      (.seq (.strF (rf 1 /-Target-/))
      (.lit b!" ")))
      (.seq (.ite (.isTrue (rf 4 /-IfExists-/))
      (.lit b!"IF EXISTS ")
      .skip)
      (.seq (.loop (rf 3 /-Names-/)
      (.seq (.ite .idxPos
      (.lit b!", ")
      .skip)
      (.expr ⟨1, []⟩ (.ptr .RoleName))))
      (.seq (.ite (.lenPos (rf 5 /-Modifier-/))
      (.seq (.lit b!" ")
      (.strF (rf 5 /-Modifier-/)))
      .skip)
      (.ite (.nonNil (rf 6 /-From-/))
      (.seq (.lit b!" FROM ")
      (.expr (rf 6 /-From-/) (.ptr .Ident)))
      .skip))))
  -- parser/format.go:2757-2760
  | .UseStmt =>
      .seq (.lit b!"USE ")
      (.expr (rf 2 /-Database-/) (.ptr .Ident))
  -- parser/format.go:591-601
  | .CTEStmt =>
      .seq (.expr (rf 1 /-Expr-/) .iface)
      (.seq (.lit b!" AS ")
      (.ite (.isTy (rf 2 /-Alias-/) .SelectQuery)
      (.seq (.lit b!"(")
      (.seq (.expr (rf 2 /-Alias-/) .iface)
      (.lit b!")")))
      (.expr (rf 2 /-Alias-/) .iface)))
  -- parser/format.go:2394-2402
  | .SetStmt =>
      .seq (.lit b!"SET ")
      (.loop ⟨0, [.f 1, .f 2] /-Settings.Items-/⟩
      (.seq (.ite .idxPos
      (.lit b!", ")
      .skip)
      (.expr ⟨1, []⟩ (.ptr .SettingExpr))))
  -- parser/format.go:1539-1542
  | .FormatClause =>
      .seq (.lit b!"FORMAT ")
      (.expr (rf 1 /-Format-/) (.ptr .Ident))
  -- parser/format.go:2031-2048
  | .OptimizeStmt =>
      .seq (.lit b!"OPTIMIZE TABLE ")
      (.seq (.expr (rf 2 /-Table-/) (.ptr .TableIdentifier))
      (.seq (.ite (.nonNil (rf 3 /-OnCluster-/))
      (.seq (.lit b!" ")
      (.expr (rf 3 /-OnCluster-/) (.ptr .ClusterClause)))
      .skip)
      (.seq (.ite (.nonNil (rf 4 /-Partition-/))
      (.seq (.lit b!" ")
      (.expr (rf 4 /-Partition-/) (.ptr .PartitionClause)))
      .skip)
      (.seq (.ite (.isTrue (rf 5 /-HasFinal-/))
      (.lit b!" FINAL")
      .skip)
      (.ite (.nonNil (rf 6 /-Deduplicate-/))
      (.expr (rf 6 /-Deduplicate-/) (.ptr .DeduplicateClause))
      .skip)))))
  -- parser/format.go:1172-1182
  | .DeduplicateClause =>
      .seq (.lit b!" DEDUPLICATE")
      (.seq (.ite (.nonNil (rf 1 /-By-/))
      (.seq (.lit b!" BY ")
      (.expr (rf 1 /-By-/) (.ptr .ColumnExprList)))
      .skip)
      (.ite (.nonNil (rf 2 /-Except-/))
      (.seq (.lit b!" EXCEPT ")
      (.expr (rf 2 /-Except-/) (.ptr .ColumnExprList)))
      .skip))
  -- parser/format.go:2527-2531
  | .SystemStmt =>
      .seq (.lit b!"SYSTEM")
      (.seq (.lit b!" ")
      (.expr (rf 1 /-Expr-/) .iface))
  -- parser/format.go:2505-2512
  | .SystemFlushExpr =>
      .seq (.lit b!"FLUSH ")
      (.ite (.isTrue (rf 2 /-Logs-/))
      (.lit b!"LOGS")
      (.expr (rf 3 /-Distributed-/) (.ptr .TableIdentifier)))
  -- parser/format.go:2514-2525
  | .SystemReloadExpr =>
      .seq (.lit b!"RELOAD ")
      (.seq (.strF (rf 4 /-Type-/))
      (.seq (.ite (.nonNil (rf 2 /-OnCluster-/))
      (.seq (.lit b!" ")
      (.expr (rf 2 /-OnCluster-/) (.ptr .ClusterClause)))
      .skip)
      (.ite (.nonNil (rf 3 /-Dictionary-/))
      (.seq (.lit b!" ")
      (.expr (rf 3 /-Dictionary-/) (.ptr .TableIdentifier)))
      .skip)))
  -- parser/format.go:2533-2536
  | .SystemSyncExpr =>
      .seq (.lit b!"SYNC ")
      (.expr (rf 1 /-Cluster-/) (.ptr .TableIdentifier))
  -- parser/format.go:2490-2498
  | .SystemCtrlExpr =>
      .seq (.strF (rf 2 /-Command-/))
      (.seq (.lit b!" ")
      (.seq (.strF (rf 3 /-Type-/))
      (.ite (.nonNil (rf 4 /-Cluster-/))
      (.seq (.lit b!" ")
      (.expr (rf 4 /-Cluster-/) (.ptr .TableIdentifier)))
      .skip)))
  -- parser/format.go:2500-2503
  | .SystemDropExpr =>
      .seq (.lit b!"DROP ")
      (.strF (rf 2 /-Type-/))
  -- parser/format.go:2704-2718
  | .TruncateTable =>
      .seq (.lit b!"TRUNCATE ")
      (.seq (.ite (.isTrue (rf 2 /-IsTemporary-/))
      (.lit b!"TEMPORARY ")
      .skip)
      (.seq (.lit b!"TABLE ")
      (.seq (.ite (.isTrue (rf 3 /-IfExists-/))
      (.lit b!"IF EXISTS ")
      .skip)
      (.seq (.expr (rf 4 /-Name-/) (.ptr .TableIdentifier))
      (.ite (.nonNil (rf 5 /-OnCluster-/))
      (.seq (.lit b!" ")
      (.expr (rf 5 /-OnCluster-/) (.ptr .ClusterClause)))
      .skip)))))
  -- parser/format.go:2263-2270
  | .SampleClause =>
      .seq (.lit b!"SAMPLE ")
      (.seq (.expr (rf 1 /-Ratio-/) (.ptr .RatioExpr))
      (.ite (.nonNil (rf 2 /-Offset-/))
      (.seq (.lit b!" OFFSET ")
      (.expr (rf 2 /-Offset-/) (.ptr .RatioExpr)))
      .skip))
  -- parser/format.go:1198-1209
  | .DeleteClause =>
      .seq (.lit b!"DELETE FROM ")
      (.seq (.expr (rf 1 /-Table-/) (.ptr .TableIdentifier))
      (.seq (.ite (.nonNil (rf 2 /-OnCluster-/))
      (.seq (.lit b!" ")
      (.expr (rf 2 /-OnCluster-/) (.ptr .ClusterClause)))
      .skip)
      (.ite (.nonNil (rf 3 /-WhereExpr-/))
      (.seq (.lit b!" WHERE ")
      (.expr (rf 3 /-WhereExpr-/) .iface))
      .skip)))
  -- parser/format.go:718-728
  | .ColumnNamesExpr =>
      .seq (.lit b!"(")
      (.seq (.loop (rf 2 /-ColumnNames-/)
      (.seq (.ite .idxPos
      (.lit b!", ")
      .skip)
      (.expr ⟨1, []⟩ (.ptr .NestedIdentifier))))
      (.lit b!")"))
  -- parser/format.go:530-539
  | .AssignmentValues =>
      .seq (.lit b!"(")
      (.seq (.loop (rf 2 /-Values-/)
      (.seq (.ite .idxPos
      (.lit b!", ")
      .skip)
      (.expr ⟨1, []⟩ .iface)))
      (.lit b!")"))
  -- parser/format.go:1683-1716
  | .InsertStmt =>
      .seq (.lit b!"INSERT INTO ")
      (.seq (.ite (.isTrue (rf 2 /-HasTableKeyword-/))
      (.lit b!"TABLE ")
      .skip)
      (.seq (.expr (rf 3 /-Table-/) .iface)
      (.seq (.ite (.nonNil (rf 4 /-ColumnNames-/))
      (.seq .brk
      (.seq .indent
      (.seq (.expr (rf 4 /-ColumnNames-/) (.ptr .ColumnNamesExpr))
      .dedent)))
      .skip)
      (.seq (.ite (.nonNil (rf 1 /-Format-/))
      (.seq (.lit b!" ")
      (.expr (rf 1 /-Format-/) (.ptr .FormatClause)))
      .skip)
      (.ite (.nonNil (rf 6 /-SelectExpr-/))
      (.seq .brk
      (.expr (rf 6 /-SelectExpr-/) (.ptr .SelectQuery)))
      (.ite (.lenPos (rf 5 /-Values-/))
      (.seq .brk
      (.seq (.lit b!"VALUES")
      (.seq .indent
      (.seq (.loop (rf 5 /-Values-/)
      (.seq .brk
      (.seq (.expr ⟨1, []⟩ (.ptr .AssignmentValues))
      (.ite (.not .idxLast)
      (.lit b!",")
      .skip))))
      .dedent))))
      .skip))))))
  -- parser/format.go:636-643
  | .CheckStmt =>
      .seq (.lit b!"CHECK TABLE ")
      (.seq (.expr (rf 1 /-Table-/) (.ptr .TableIdentifier))
      (.ite (.nonNil (rf 2 /-Partition-/))
      (.seq (.lit b!" ")
      (.expr (rf 2 /-Partition-/) (.ptr .PartitionClause)))
      .skip))
  -- parser/format.go:2745-2749
  | .UnaryExpr =>
      .seq (.strF (rf 1 /-Kind-/))
      (.seq (.lit b!" ")
      (.expr (rf 2 /-Expr-/) .iface))
  -- parser/format.go:2207-2221
  | .RenameStmt =>
      .seq (.seq (.lit b!"RENAME ")
      (.seq (.strF (rf 2 /-RenameTarget-/))
      (.lit b!" ")))
      (.seq (.loop (rf 3 /-TargetPairList-/)
      (.seq (.ite .idxPos
      (.lit b!", ")
      .skip)
      (.seq (.expr ⟨1, [.f 0] /-Old-/⟩ (.ptr .TableIdentifier))
      (.seq (.lit b!" TO ")
      (.expr ⟨1, [.f 1] /-New-/⟩ (.ptr .TableIdentifier))))))
      (.ite (.nonNil (rf 4 /-OnCluster-/))
      (.seq (.lit b!" ")
      (.expr (rf 4 /-OnCluster-/) (.ptr .ClusterClause)))
      .skip))
  -- parser/format.go:2682-2686
  | .TargetPair =>
      .seq (.expr (rf 0 /-Old-/) (.ptr .TableIdentifier))
      (.seq (.lit b!" TO ")
      (.expr (rf 1 /-New-/) (.ptr .TableIdentifier)))
  -- parser/format.go:1501-1506
  | .ExplainStmt =>
      .seq (.lit b!"EXPLAIN ")
      (.seq (.strF (rf 1 /-Type-/))
      (.seq (.lit b!" ")
      (.expr (rf 2 /-Statement-/) .iface)))
  -- parser/format.go:2133-2143
  | .PrivilegeClause =>
      .seq (.loop (rf 2 /-Keywords-/)
      (.seq (.ite .idxPos
      (.lit b!" ")
      .skip)
      (.strF ⟨1, []⟩)))
      (.ite (.nonNil (rf 3 /-Params-/))
      (.expr (rf 3 /-Params-/) (.ptr .ParamExprList))
      .skip)
  -- parser/format.go:1562-1587
  | .GrantPrivilegeStmt =>
      .seq (.lit b!"GRANT ")
      (.seq (.ite (.nonNil (rf 2 /-OnCluster-/))
      (.seq (.lit b!" ")
      (.expr (rf 2 /-OnCluster-/) (.ptr .ClusterClause)))
      .skip)
      (.seq (.loop (rf 3 /-Privileges-/)
      (.seq (.ite .idxPos
      (.lit b!", ")
      .skip)
      (.expr ⟨1, []⟩ (.ptr .PrivilegeClause))))
      (.seq (.lit b!" ON ")
      (.seq (.expr (rf 4 /-On-/) (.ptr .TableIdentifier))
      (.seq (.lit b!" TO ")
      (.seq (.loop (rf 5 /-To-/)
      (.seq (.ite .idxPos
      (.lit b!", ")
      .skip)
      (.expr ⟨1, []⟩ (.ptr .Ident))))
      (.loop (rf 6 /-WithOptions-/)
      (.seq (.lit b!" WITH ")
      (.seq (.strF ⟨1, []⟩)
      (.lit b!" OPTION"))))))))))
  -- parser/format.go:2437-2472
  | .ShowStmt =>
      .seq (.lit b!"SHOW ")
      (.seq (.strF (rf 2 /-ShowType-/))
      (.seq (.ite (.nonNil (rf 3 /-Target-/))
      (.seq (.lit b!" ")
      (.expr (rf 3 /-Target-/) (.ptr .TableIdentifier)))
      .skip)
      (.seq (.ite (.and (.not (.strEq (rf 5 /-LikeType-/) b!"")) (.nonNil (rf 6 /-LikePattern-/)))
      (.seq (.ite (.isTrue (rf 4 /-NotLike-/))
      (.lit b!" NOT ")
      (.lit b!" "))
      (.seq (.strF (rf 5 /-LikeType-/))
      (.seq (.lit b!" ")
      (.expr (rf 6 /-LikePattern-/) .iface))))
      .skip)
      (.seq (.ite (.nonNil (rf 7 /-Limit-/))
      (.seq (.lit b!" LIMIT ")
      (.expr (rf 7 /-Limit-/) .iface))
      .skip)
      (.seq (.ite (.nonNil (rf 8 /-OutFile-/))
      (.seq (.lit b!" INTO OUTFILE ")
      (.expr (rf 8 /-OutFile-/) (.ptr .StringLiteral)))
      .skip)
      (.ite (.nonNil (rf 9 /-Format-/))
      (.seq (.lit b!" FORMAT ")
      (.expr (rf 9 /-Format-/) (.ptr .StringLiteral)))
      .skip))))))
  -- parser/format.go:1211-1218
  | .DescribeStmt =>
      .seq (.lit b!"DESCRIBE ")
      (.seq (.ite (.not (.strEq (rf 2 /-DescribeType-/) b!""))
      (.seq (.strF (rf 2 /-DescribeType-/))
      (.lit b!" "))
      .skip)
      (.expr (rf 3 /-Target-/) (.ptr .TableIdentifier)))
  | _ => .skip

/-- `writeJoinSQL(formatter, expr)`, parser/format.go:1875-1901; variable 0 is `expr`. -/
def joinBody : FCmd :=
  (.ite (.not (.isTy ⟨0, []⟩ .JoinExpr))
      (.seq (.lit b!",") (.expr ⟨0, []⟩ .iface))
      (.seq (.ite (.not (.lenPos (rf 3 /-Modifiers-/)))
      (.seq (.lit b!",") (.expr (rf 1 /-Left-/) .iface))
      (.seq .brk
      (.seq (.joinF (rf 3 /-Modifiers-/) b!" ")
      (.seq .indent
      (.seq .brk
      (.seq (.expr (rf 1 /-Left-/) .iface)
      (.seq (.ite (.nonNil (rf 4 /-Constraints-/)) (.seq (.lit b!" ") (.expr (rf 4 /-Constraints-/) .iface)) .skip)
      .dedent)))))))
      (.ite (.nonNil (rf 2 /-Right-/)) (.joinSQL (rf 2 /-Right-/)) .skip)))

end Verif
