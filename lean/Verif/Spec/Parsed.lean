/-
What it means that the parser accepts, rejects or crashes on a text, and the lists of exceptions in
the properties of its results.
-/
import Verif.Parser.Entry
import Verif.Spec.Tree

namespace Verif

/-- `ParseStmts` returns the statements `vs` and no error. -/
def Parses (input : Str) (vs : List V) : Prop := ∃ v s, parseStmts input = .ret [v, .nil] s ∧ v.items = vs

/-- `ParseStmts` returns the error `e`. -/
def Fails (input : Str) (e : V) : Prop := ∃ v s, parseStmts input = .ret [v, e] s ∧ e.nonNil = true

/-- `ParseStmts` panics in the source line `ln`, written `10000 * file + line` with file 1
parser_common.go, 2 parser_query.go, 3 parser_column.go, 4 parser_table.go, 5 parse_system.go,
6 parser_alter.go, 7 parser_drop.go, 8 parser_view.go. -/
def Panics (input : Str) (ln : Nat) : Prop := parseStmts input = .panic ln

/-- All structs inside a value, also tokens and other structs that are no nodes. -/
def V.structs (v : V) : List V := v.nodes (fun _ => true)

/-- The source lines in which the parser can dereference nil. -/
def panicLines : List Nat :=
  [30949, 31314, 41036, 50086, 50303, 50551, 50573, 50580, 50597, 50611, 50639, 50669, 50702, 50705, 50814,
   50827, 50898, 51435, 60077, 60513, 60574, 60826]

/-- By how much the position in field `i` of a struct of type `t` may exceed the length of the input:
fields that hold the end of something.  The 1s come from `Parser.End()` at the end of the input
(parser/parser_common.go:58-63), the 4s from `Fill.End()` (parser/ast.go, see `endBody .Fill`). -/
def posSlack : Ty → Nat → Nat
  | .JoinTableExpr, 1 => 4
  | .AlterTable, 1 => 4
  | .AlterTableMaterializeProjection, 1 => 4
  | .AlterTableMaterializeIndex, 1 => 4
  | .AlterTableFreezePartition, 1 => 4
  | .AlterTableAddColumn, 1 => 4
  | .AlterTableClearColumn, 1 => 4
  | .AlterTableClearIndex, 1 => 4
  | .AlterTableClearProjection, 1 => 4
  | .AlterTableModifyQuery, 1 => 4
  | .AlterTableModifyOrderBy, 1 => 4
  | .AlterTableModifyTTL, 1 => 4
  | .AlterTableModifyColumn, 1 => 4
  | .AlterTableDelete, 1 => 4
  | .AlterTableUpdate, 1 => 4
  | .CreateDatabase, 1 => 4
  | .CreateTable, 1 => 4
  | .CreateMaterializedView, 1 => 4
  | .CreateView, 1 => 4
  | .TableSchemaClause, 1 => 1
  | .TTLClause, 1 => 4
  | .OrderByClause, 1 => 4
  | .ColumnDef, 1 => 4
  | .CompressionCodec, 1 => 1
  | .EngineExpr, 1 => 4
  | .ColumnExprList, 1 => 4
  | .WithClause, 1 => 4
  | .TopClause, 1 => 1
  | .CreateLiveView, 1 => 4
  | .DictionaryAttribute, 1 => 4
  | .DictionaryPrimaryKeyClause, 2 => 4
  | .TableExpr, 1 => 4
  | .IsNullExpr, 1 => 1
  | .IsNotNullExpr, 1 => 1
  | .GroupByClause, 1 => 4
  | .WindowFrameCurrentRow, 1 => 1
  | .SelectQuery, 1 => 4
  | .OptimizeStmt, 1 => 4
  | .GrantPrivilegeStmt, 1 => 1
  | .ShowStmt, 1 => 1
  | _, _ => 0

/-- The types whose `End()` may dereference nil. -/
def endMayPanic : List Ty :=
  [.AlterTableAttachPartition, .SettingPair, .RoleSetting, .PartitionClause, .FunctionExpr, .DictionaryArgExpr, .CheckStmt]

/-- Every function call in `v` has its list of parameters (field `Params`, parser/ast.go). -/
def V.hasParams (v : V) : Prop := ∀ fs, V.mk .FunctionExpr fs ∈ v.structs → ∃ w, fs[1]? = some w ∧ w.nonNil = true

end Verif
