/-
The formatter writes the elements of the tree.
-/
import Verif.Echo.Parts

namespace Verif.Echo
open Verif.Spec

/-- Closes a side goal on static types. -/
macro "st" : tactic => `(tactic| first
  | exact StOk.p (by assumption) | exact StOk.i (by assumption) | exact StOks.p (by assumption) | exact StOks.i (by assumption))
/-- Evaluates a condition. -/
macro "evalc" : tactic => `(tactic| (simp [Cond.eval, Ref.get, getSels, Sel.get, V.field, V.nonNil, V.toBool?, V.toStr?, V.toNat?, V.items, *]; done))

/-- What statements write. -/
macro "wrs" : tactic => `(tactic| repeat' first
  | exact wr_skip | exact wr_indent | exact wr_dedent | exact wr_brk | exact wr_lit
  | exact wrE rfl (by assumption) (by st)
  | exact wrO0 rfl (by assumption) (by st) | exact wrO1 rfl (by assumption) (by st)
  | exact wrO2 rfl (by assumption) (by st) | exact wrO3 rfl (by assumption) (by st)
  | exact wrLA rfl (by assumption) (by st) | exact wrLB rfl (by assumption) (by st)
  | exact wrLC rfl (by assumption) (by first | assumption | simpa [V.items]) (by st)
  | exact wrLP rfl (by assumption) (by st) (fun _ _ _ => wr_brk) | exact wrLP rfl (by assumption) (by st) (fun _ _ _ => wr_lit)
  | exact wr_strH rfl (by assumption)
  | apply wr_seq
  | (apply wrN rfl; focus assumption)
  | (apply wr_iteT; focus evalc) | (apply wr_iteF; focus evalc))

/-- The case of a constructor. -/
macro "wnode" : tactic => `(tactic| (
  simp only [PK] at *
  refine ⟨pn_mk ?_, pw_ne (by decide)⟩
  rintro ⟨τ, hτ⟩ k
  simp only [V.hasTy, V.fieldsTy, schema, Bool.and_eq_true, Bool.and_true] at hτ
  casesm* _ ∧ _
  unfold formatBody
  dsimp only))
macro "wfin" : tactic => `(tactic| simp [toks, flush, isBlank, isLetter])
macro "wauto" : tactic => `(tactic| (
  wnode
  apply Exists.intro
  apply Wr.cast
  · wrs
  · wfin))
theorem p_path {m} {vs us} : PK m (.l [.op b!"."]) (.list vs) us → PK m .n (.mk .Path [.list vs]) us := by
  intros
  wauto
theorem p_params {m} {p q v us w ws} : PK m .n v us → PK m (.o []) w ws → PK m .n (.mk .ParamExprList [p, q, v, w]) ([.op b!"("] ++ us ++ [.op b!")"] ++ ws) := by
  intros
  wauto
theorem p_args {m} {p q v us} : PK m (.l comma) v us → PK m .n (.mk .ColumnArgList [.bool false, p, q, v]) ([.op b!"("] ++ us ++ [.op b!")"]) := by
  intros
  wauto
theorem p_exprs {m} {p q v us} : PK m (.l comma) v us → PK m .n (.mk .ColumnExprList [p, q, .bool false, v]) us := by
  intros
  wauto
theorem p_exprsD {m} {p q v us} : PK m (.l comma) v us → PK m .n (.mk .ColumnExprList [p, q, .bool true, v]) ([.kw b!"DISTINCT", .sp] ++ us) := by
  intros
  wauto
theorem p_column {m} {v us w ws} : PK m .n v us → PK m (.o [.sp, .kw b!"AS", .sp]) w ws → PK m .n (.mk .ColumnExpr [v, w]) (us ++ ws) := by
  intros
  wauto
theorem p_func {m} {v us w ws} : PK m .n v us → PK m .n w ws → PK m .n (.mk .FunctionExpr [v, w]) (us ++ ws) := by
  intros
  wauto
theorem p_object {m} {v us w ws} : PK m .n v us → PK m .n w ws → PK m .n (.mk .ObjectParams [v, w]) (us ++ ws) := by
  intros
  wauto
theorem p_array {m} {p q a b v us} : PK m (.l comma) v us →
      PK m .n (.mk .ArrayParamList [p, q, .mk .ColumnExprList [a, b, .bool false, v]]) ([.op b!"["] ++ us ++ [.op b!"]"]) := by
  intros
  wauto
theorem p_ternary {m} {a b c us vs ws} : PK m .n a us → PK m .n b vs → PK m .n c ws →
      PK m .n (.mk .TernaryOperation [a, b, c]) (us ++ [.sp, .op b!"?", .sp] ++ vs ++ [.sp, .op b!":", .sp] ++ ws) := by
  intros
  wauto
theorem p_isNull {m} {p q v us} : PK m .n v us → PK m .n (.mk .IsNullExpr [p, q, v]) (us ++ [.sp, .kw b!"IS", .sp, .kw b!"NULL"]) := by
  intros
  wauto
theorem p_isNotNull {m} {p q v us} : PK m .n v us → PK m .n (.mk .IsNotNullExpr [p, q, v]) (us ++ [.sp, .kw b!"IS", .sp, .kw b!"NOT", .sp, .kw b!"NULL"]) := by
  intros
  wauto
theorem p_between {m} {a b p c us vs ws} : PK m .n a us → PK m .n b vs → PK m .n c ws →
      PK m .n (.mk .BetweenClause [a, .bool false, b, p, c]) (us ++ [.sp, .kw b!"BETWEEN", .sp] ++ vs ++ [.sp, .kw b!"AND", .sp] ++ ws) := by
  intros
  wauto
theorem p_notBetween {m} {a b p c us vs ws} : PK m .n a us → PK m .n b vs → PK m .n c ws →
      PK m .n (.mk .BetweenClause [a, .bool true, b, p, c])
        (us ++ [.sp, .kw b!"NOT", .sp, .kw b!"BETWEEN", .sp] ++ vs ++ [.sp, .kw b!"AND", .sp] ++ ws) := by
  intros
  wauto
theorem p_when {m} {p q r a b us ws} : PK m .n a us → PK m .n b ws →
      PK m .n (.mk .WhenClause [p, q, a, b, r, .nil]) ([.kw b!"WHEN", .sp] ++ us ++ [.sp, .kw b!"THEN", .sp] ++ ws) := by
  intros
  wauto
theorem p_caseEnd {m} {p q r a v b us ws xs} : PK m (.o [.sp]) a us → PK m (.p [.sp]) v ws → PK m (.o [.sp, .kw b!"ELSE", .sp]) b xs →
      PK m .n (.mk .CaseExpr [p, q, a, v, r, b]) ([.kw b!"CASE"] ++ us ++ ws ++ xs ++ [.sp, .kw b!"END"]) := by
  intros
  wauto
theorem p_intervalFrom {m} {p a b us ws} : PK m .n a us → PK m .n b ws → PK m .n (.mk .IntervalFrom [a, p, b]) (us ++ [.sp, .kw b!"FROM", .sp] ++ ws) := by
  intros
  wauto
theorem p_extract {m} {p q v us} : PK m (.l comma) v us → PK m .n (.mk .ExtractExpr [p, q, v]) ([.kw b!"EXTRACT", .op b!"("] ++ us ++ [.op b!")"]) := by
  intros
  wauto
theorem p_distinctOn {m} {v us p q} : PK m (.l comma) v us → PK m .n (.mk .DistinctOn [v, p, q]) ([.kw b!"ON", .sp, .op b!"("] ++ us ++ [.op b!")"]) := by
  intros
  wauto
theorem p_from_ {m} {p v us} : PK m .n v us → PK m .n (.mk .FromClause [p, v]) ([.kw b!"FROM", .sp] ++ us) := by
  intros
  wauto
theorem p_prewhere {m} {p v us} : PK m .n v us → PK m .n (.mk .PrewhereClause [p, v]) ([.kw b!"PREWHERE", .sp] ++ us) := by
  intros
  wauto
theorem p_having {m} {p v us} : PK m .n v us → PK m .n (.mk .HavingClause [p, v]) ([.kw b!"HAVING", .sp] ++ us) := by
  intros
  wauto
theorem p_group {m} {p q v us} : PK m .n v us → v ≠ .nil →
      PK m .n (.mk .GroupByClause [p, q, .str [], v, .bool false, .bool false, .bool false]) ([.kw b!"GROUP", .sp, .kw b!"BY", .sp] ++ us) := by
  intros
  wauto
theorem p_order {m} {p v a f us vs ws} : PK m .n v us → PK m (.o [.sp, .kw b!"AS", .sp]) a vs → PK m (.o [.sp]) f ws →
      PK m .n (.mk .OrderExpr [p, v, a, .str [], f]) (us ++ vs ++ ws) := by
  intros
  wauto
theorem p_fill {m} {p a b c d us vs ws xs} : PK m (.o [.sp, .kw b!"FROM", .sp]) a us → PK m (.o [.sp, .kw b!"TO", .sp]) b vs →
      PK m (.o [.sp, .kw b!"STEP", .sp]) c ws → PK m (.o [.sp, .kw b!"STALENESS", .sp]) d xs →
      PK m .n (.mk .Fill [p, a, b, c, d]) ([.kw b!"WITH", .sp, .kw b!"FILL"] ++ us ++ vs ++ ws ++ xs) := by
  intros
  wauto
theorem p_interItem {m} {a b us vs} : PK m .n a us → PK m (.o [.sp, .kw b!"AS", .sp]) b vs → PK m .n (.mk .InterpolateItem [a, b]) (us ++ vs) := by
  intros
  wauto
theorem p_inter0 {m} {p q} : PK m .n (.mk .InterpolateClause [p, q, .nil]) [.kw b!"INTERPOLATE"] := by
  intros
  wauto
theorem p_inter {m} {p q vs us} : PK m (.l comma) (.list vs) us → vs ≠ [] →
      PK m .n (.mk .InterpolateClause [p, q, .list vs]) ([.kw b!"INTERPOLATE", .sp, .op b!"("] ++ us ++ [.op b!")"]) := by
  intros
  wauto
theorem p_orderBy {m} {p q vs w us ws} : PK m (.l comma) (.list vs) us → vs ≠ [] → PK m (.o [.sp]) w ws →
      PK m .n (.mk .OrderByClause [p, q, .list vs, w]) ([.kw b!"ORDER", .sp, .kw b!"BY", .sp] ++ us ++ ws) := by
  intros
  wauto
theorem p_limitBy {m} {a b us ws} : PK m .n a us → PK m .n b ws → a ≠ .nil → b ≠ .nil → PK m .n (.mk .LimitByClause [a, b]) (us ++ [.sp, .kw b!"BY", .sp] ++ ws) := by
  intros
  wauto
theorem p_limit {m} {p a us} : PK m .n a us → a ≠ .nil → PK m .n (.mk .LimitClause [p, a, .nil]) ([.kw b!"LIMIT", .sp] ++ us) := by
  intros
  wauto
theorem p_limitOff {m} {p a b us ws} : PK m .n a us → PK m .n b ws → a ≠ .nil → b ≠ .nil →
      PK m .n (.mk .LimitClause [p, a, b]) ([.kw b!"LIMIT", .sp] ++ us ++ [.sp, .kw b!"OFFSET", .sp] ++ ws) := by
  intros
  wauto
theorem p_offset {m} {p b us} : PK m .n b us → b ≠ .nil → PK m .n (.mk .LimitClause [p, .nil, b]) ([.kw b!"OFFSET", .sp] ++ us) := by
  intros
  wauto
theorem p_limit0 {m} {p} : PK m .n (.mk .LimitClause [p, .nil, .nil]) [] := by
  intros
  wauto
theorem p_setting {m} {p a b us ws} : PK m .n a us → PK m .n b ws → PK m .n (.mk .SettingExpr [p, a, b]) (us ++ [.op b!"="] ++ ws) := by
  intros
  wauto
theorem p_settings {m} {p q vs us} : PK m (.l comma) (.list vs) us → vs ≠ [] → PK m .n (.mk .SettingsClause [p, q, .list vs]) ([.kw b!"SETTINGS", .sp] ++ us) := by
  intros
  wauto
theorem p_format {m} {p v us} : PK m .n v us → PK m .n (.mk .FormatClause [p, v]) ([.kw b!"FORMAT", .sp] ++ us) := by
  intros
  wauto
theorem p_cte {m} {p a b us ws} : PK m .n a us → PK m .n b ws → b.ty? = some .SelectQuery →
      PK m .n (.mk .CTEStmt [p, a, b]) (us ++ [.sp, .kw b!"AS", .sp, .op b!"("] ++ ws ++ [.op b!")"]) := by
  intros
  wauto
theorem p_cteName {m} {p a b us ws} : PK m .n a us → PK m .n b ws → b.ty? = some .Ident → PK m .n (.mk .CTEStmt [p, a, b]) (us ++ [.sp, .kw b!"AS", .sp] ++ ws) := by
  intros
  wauto
theorem p_tableName {m} {b us} : PK m .n b us → PK m .n (.mk .TableIdentifier [.nil, b]) us := by
  intros
  wauto
theorem p_tableArgs {m} {p q v us} : PK m (.l comma) v us → PK m .n (.mk .TableArgListExpr [p, q, v]) ([.op b!"("] ++ us ++ [.op b!")"]) := by
  intros
  wauto
theorem p_tableFunc {m} {a b us ws} : PK m .n a us → PK m .n b ws → PK m .n (.mk .TableFunctionExpr [a, b]) (us ++ ws) := by
  intros
  wauto
theorem p_subParen {m} {v us} : PK m .n v us → PK m .n (.mk .SubQuery [.bool true, v]) ([.op b!"("] ++ us ++ [.op b!")"]) := by
  intros
  wauto
theorem p_sub {m} {v us} : PK m .n v us → PK m .n (.mk .SubQuery [.bool false, v]) us := by
  intros
  wauto
theorem p_table {m} {p q v us} : PK m .n v us → PK m .n (.mk .TableExpr [p, q, .nil, v, .bool false]) us := by
  intros
  wauto
theorem p_tableFinal {m} {p q v us} : PK m .n v us → PK m .n (.mk .TableExpr [p, q, .nil, v, .bool true]) (us ++ [.sp, .kw b!"FINAL"]) := by
  intros
  wauto
theorem p_ratio {m} {a b us ws} : PK m .n a us → PK m (.o [.op b!"/"]) b ws → PK m .n (.mk .RatioExpr [a, b]) (us ++ ws) := by
  intros
  wauto
theorem p_sample {m} {p a b us ws} : PK m .n a us → PK m (.o [.sp, .kw b!"OFFSET", .sp]) b ws → PK m .n (.mk .SampleClause [p, a, b]) ([.kw b!"SAMPLE", .sp] ++ us ++ ws) := by
  intros
  wauto
theorem p_joinTable {m} {p a b us ws} : PK m .n a us → PK m (.o [.sp]) b ws → PK m .n (.mk .JoinTableExpr [a, p, b, .bool false]) (us ++ ws) := by
  intros
  wauto
theorem p_joinFinal {m} {p a us} : PK m .n a us → PK m .n (.mk .JoinTableExpr [a, p, .nil, .bool true]) (us ++ [.sp, .kw b!"FINAL"]) := by
  intros
  wauto
theorem p_on {m} {p v us} : PK m .n v us → PK m .n (.mk .OnClause [p, v]) ([.kw b!"ON", .sp] ++ us) := by
  intros
  wauto
theorem p_using_ {m} {p v us} : PK m .n v us → PK m .n (.mk .UsingClause [p, v]) ([.kw b!"USING", .sp] ++ us) := by
  intros
  wauto
theorem p_partition {m} {p v us} : PK m .n v us → PK m .n (.mk .PartitionByClause [p, v]) ([.kw b!"PARTITION", .sp, .kw b!"BY", .sp] ++ us) := by
  intros
  wauto
theorem p_over {m} {p a b us ws} : PK m .n a us → PK m .n b ws → PK m .n (.mk .WindowFunctionExpr [a, p, b]) (us ++ [.sp, .kw b!"OVER", .sp] ++ ws) := by
  intros
  wauto

end Verif.Echo
