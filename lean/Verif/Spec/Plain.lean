/-
The class of syntax trees whose formatted text is shown to have the tokens of the source.
-/
import Verif.Ast.Lang

namespace Verif.Spec

/-- Expressions that do not end with a number: `1 .x` would be printed as `1.x`. -/
def dotObject : V → Bool
  | .mk .IndexOperation [_, _, .mk .Ident _] => true
  | .mk t _ => [.Ident, .Path, .NestedIdentifier, .ParamExprList, .FunctionExpr, .ObjectParams, .ArrayParamList, .CaseExpr, .StringLiteral,
      .PlaceHolder, .ExtractExpr].contains t
  | _ => false

/-- What is printed right after `CUBE`, `ROLLUP` or `GROUPING SETS` is in parentheses (which is so in all trees of the parser). -/
def groupExpr : V → V → Bool
  | .str (_ :: _), e => !e.nonNil || decide (e.ty? = some .ParamExprList)
  | _, _ => true

/-- Nodes of the class, by their type and fields. -/
def plainNode : Ty → List V → Bool
  | .Ident, _ | .NumberLiteral, _ | .StringLiteral, _ | .BinaryOperation, _ | .UnaryExpr, _ | .Path, _ | .NestedIdentifier, _
  | .ParamExprList, _ | .ColumnExprList, _ | .ColumnExpr, _ | .FunctionExpr, _ | .ObjectParams, _
  | .TernaryOperation, _ | .IsNullExpr, _ | .IsNotNullExpr, _ | .BetweenClause, _ | .PlaceHolder, _ => true
  | .CaseExpr, _ | .WhenClause, _ | .IntervalFrom, _ | .ExtractExpr, _ => true
  | .DistinctOn, _ | .TopClause, _ | .SelectItem, _ | .FromClause, _ | .PrewhereClause, _ | .WhereClause, _ | .HavingClause, _ | .OrderExpr, _ | .Fill, _
  | .InterpolateItem, _ | .InterpolateClause, _ | .OrderByClause, _ | .LimitByClause, _ | .LimitClause, _ | .BoolLiteral, _ | .SettingExpr, _
  | .SettingsClause, _ | .FormatClause, _ | .CTEStmt, _ | .WithClause, _ | .TableIdentifier, _ | .TableArgListExpr, _ | .TableFunctionExpr, _
  | .SubQuery, _ | .AliasExpr, _ | .TableExpr, _ | .RatioExpr, _ | .SampleClause, _ | .OnClause, _ | .UsingClause, _ | .JoinExpr, _
  | .PartitionByClause, _ | .WindowFunctionExpr, _ => true
  -- the order of `FINAL` and `SAMPLE` is not kept
  | .JoinTableExpr, [_, _, s, .bool f] => !(f && s.nonNil)
  -- `WITH CUBE`, `WITH ROLLUP` and `WITH TOTALS` are printed in this order, each once
  | .GroupByClause, [_, _, s, e, .bool c, .bool r, .bool t] => !c && !r && !t && groupExpr s e
  | .IndexOperation, [o, _, _] => dotObject o
  -- windows with a frame are left out
  | .WindowExpr, [_, _, _, _, _, f] => !f.nonNil
  -- `WINDOW` is printed after `FROM`, `WITH TOTALS` without `GROUP BY` is not printed, nor `ON` without `DISTINCT`
  | .SelectQuery, [_, _, _, _, .bool d, on, .list (_ :: _), _, w, _, _, _, .bool t, _, _, _, _, _, _, _, _, _, _] => (d || !on.nonNil) && !w.nonNil && !t
  -- `DISTINCT` is not printed
  | .ColumnArgList, [.bool d, _, _, _] => !d
  | .ArrayParamList, [_, _, .mk .ColumnExprList [_, _, .bool d, _]] => !d
  | _, _ => false

mutual
/-- All nodes of the tree are in the class. -/
def _root_.Verif.V.plain : V → Bool
  | .mk t fs => plainNode t fs && V.plainL fs
  | .list vs => V.plainL vs
  | _ => true
def _root_.Verif.V.plainL : List V → Bool
  | [] => true
  | v :: vs => v.plain && V.plainL vs
end

end Verif.Spec
