/-
The fields of the struct types of parser/ast.go that `Accept` and `FormatSQL` use without comparing
them to nil first.
-/
import Verif.Spec.Tree

namespace Verif

/-- Numbers of the fields of each struct (parser/ast.go, see `schema`) that must not be nil. -/
def requiredFields : Ty → List Nat
  | .SelectItem => [0]
  | .TernaryOperation => [0, 1, 2]
  | .BinaryOperation => [0, 2]
  | .IndexOperation => [0, 2]
  | .JoinTableExpr => [0]
  | .AlterTable => [2]
  | .AlterTableAttachPartition => [1]
  | .AlterTableDetachPartition => [1]
  | .AlterTableDropPartition => [2]
  | .AlterTableMaterializeProjection => [3]
  | .AlterTableMaterializeIndex => [3]
  | .AlterTableAddColumn => [2]
  | .AlterTableAddIndex => [2]
  | .ProjectionSelectStmt => [3]
  | .TableProjection => [2, 3]
  | .AlterTableAddProjection => [3]
  | .AlterTableDropColumn => [1]
  | .AlterTableDropIndex => [1]
  | .AlterTableDropProjection => [1]
  | .AlterTableClearColumn => [3]
  | .AlterTableClearIndex => [3]
  | .AlterTableClearProjection => [3]
  | .AlterTableRenameColumn => [2, 3]
  | .AlterTableModifyQuery => [2]
  | .AlterTableModifyOrderBy => [2]
  | .AlterTableModifyTTL => [2]
  | .AlterTableModifyColumn => [3]
  | .AlterTableReplacePartition => [1, 2]
  | .AlterTableDelete => [2]
  | .AlterTableUpdate => [4]
  | .UpdateAssignment => [1, 2]
  | .RemovePropertyType => [1]
  | .TableIndex => [1, 2, 3, 4]
  | .CreateTable => [3]
  | .CreateMaterializedView => [2]
  | .CreateView => [3]
  | .CreateFunction => [3, 5, 6]
  | .RoleName => [0]
  | .SettingPair => [0]
  | .RoleRenamePair => [0]
  | .DestinationClause => [1]
  | .ConstraintClause => [1, 2]
  | .NotNullLiteral => [1]
  | .NestedIdentifier => [0]
  | .TableIdentifier => [1]
  | .TableFunctionExpr => [0, 1]
  | .ClusterClause => [1]
  | .PartitionByClause => [1]
  | .PrimaryKeyClause => [1]
  | .SampleByClause => [1]
  | .TTLExpr => [1]
  | .OrderExpr => [1]
  | .InterpolateItem => [0]
  | .SettingExpr => [1, 2]
  | .ParamExprList => [2]
  | .NamedParameterExpr => [1, 2]
  | .QueryParam => [2, 3]
  | .ArrayParamList => [2]
  | .ObjectParams => [0, 1]
  | .FunctionExpr => [0, 1]
  | .WindowFunctionExpr => [0, 2]
  | .TypedPlaceholder => [2, 3]
  | .ColumnExpr => [0]
  | .ColumnDef => [2]
  | .ScalarType => [0]
  | .JSONType => [0]
  | .PropertyType => [0]
  | .TypeWithParams => [2]
  | .ComplexType => [2]
  | .NestedType => [2]
  | .RatioExpr => [0]
  | .EnumValue => [0, 1]
  | .EnumType => [0]
  | .IntervalExpr => [1, 2]
  | .ColumnTypeExpr => [0]
  | .WhenClause => [2, 3]
  | .CastExpr => [1, 4]
  | .TopClause => [2]
  | .CreateLiveView => [2]
  | .CreateDictionary => [3]
  | .CreateNamedCollection => [2]
  | .NamedCollectionParam => [1, 2]
  | .DictionaryAttribute => [2, 3]
  | .DictionaryPrimaryKeyClause => [1]
  | .DictionarySourceClause => [1]
  | .DictionaryArgExpr => [1]
  | .DictionaryLayoutClause => [1]
  | .DictionaryRangeClause => [1, 2]
  | .TableExpr => [3]
  | .OnClause => [1]
  | .UsingClause => [1]
  | .JoinExpr => [1]
  | .FromClause => [1]
  | .IsNullExpr => [2]
  | .IsNotNullExpr => [2]
  | .AliasExpr => [0, 2]
  | .WhereClause => [1]
  | .PrewhereClause => [1]
  | .HavingClause => [1]
  | .WindowFrameClause => [2]
  | .WindowFrameExtendExpr => [0]
  | .BetweenClause => [2, 4]
  | .WindowFrameNumber => [0]
  | .WindowFrameParam => [0]
  | .NotExpr => [1]
  | .NegateExpr => [1]
  | .GlobalInOperation => [1]
  | .IntervalFrom => [0, 2]
  | .DropDatabase => [2]
  | .DropStmt => [3]
  | .UseStmt => [2]
  | .CTEStmt => [1, 2]
  | .SetStmt => [1]
  | .FormatClause => [1]
  | .OptimizeStmt => [2]
  | .SystemStmt => [1]
  | .SystemSyncExpr => [1]
  | .TruncateTable => [4]
  | .SampleClause => [1]
  | .DeleteClause => [1]
  | .InsertStmt => [3]
  | .CheckStmt => [1]
  | .UnaryExpr => [2]
  | .TargetPair => [0, 1]
  | .ExplainStmt => [2]
  | .GrantPrivilegeStmt => [4]
  | .DescribeStmt => [3]
  | .KeyValue => [0, 1]
  | .ProjectionOrderByClause => [1]
  | .UUID => [0]
  | .WindowDefinition => [0, 2]
  | .SubQuery => [1]
  | _ => []

/-- Pairs of fields one of which must be set: `FormatSQL` of these types uses one if the other is
not there (parser/format.go, cited in `formatBody`). -/
def alternatives : Ty → List (Nat × Nat)
  | .JoinConstraintClause => [(1, 2)]
  | .SystemFlushExpr => [(2, 3)]
  | _ => []

/-- All requirements. -/
def required (t : Ty) : List Need :=
  (requiredFields t).map .filled ++ (alternatives t).map fun p => .either p.1 p.2

end Verif
