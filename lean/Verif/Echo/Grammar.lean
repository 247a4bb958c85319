/-
The elements that are printed for a tree of the class.  No definition here is part of the model.
-/
import Verif.Echo.Elems
import Verif.Spec.Plain

namespace Verif.Echo
open Verif.Spec

/-- What is printed: a node, a list with separators, something that may be missing, after `pre`,
a list with `pre` before each element, words that are joined by blanks, or the rest of a join. -/
inductive K where
  | n
  | l (sep : List E)
  | o (pre : List E)
  | p (pre : List E)
  | m
  | j

/-- The operators that are keywords. -/
def kwOps : List Str := [b!"IN", b!"LIKE", b!"ILIKE", b!"REGEXP", b!"AND", b!"OR", b!"FROM", b!"FOR", b!"PLACING"]
/-- The operators that are not, printed between blanks. -/
def opOps : List Str := [b!"=", b!"<", b!"<=", b!">=", b!">", b!"!=", b!"<>", b!"-", b!"+", b!"*", b!"/", b!"%", b!"||", b!"==", b!"->"]

/-- Separator of lists. -/
abbrev comma : List E := [.op b!",", .sp]

/-- A blank, sometimes. -/
def bl (b : Bool) : List E := if b then [.sp] else []

/-- These elements are printed for this value. -/
inductive Echo : K → V → List E → Prop
  | lnil0 {sep} : Echo (.l sep) .nil []
  | lnil {sep} : Echo (.l sep) (.list []) []
  | lone {sep v us} : Echo .n v us → Echo (.l sep) (.list [v]) us
  | lcons {sep v w vs us ws} : Echo .n v us → Echo (.l sep) (.list (w :: vs)) ws → Echo (.l sep) (.list (v :: w :: vs)) (us ++ sep ++ ws)
  | onil {pre} : Echo (.o pre) .nil []
  | osome {pre v us} : Echo .n v us → Echo (.o pre) v (pre ++ us)
  | pnil {pre} : Echo (.p pre) (.list []) []
  | psnoc {pre v vs us ws} : Echo (.p pre) (.list vs) us → Echo .n v ws → Echo (.p pre) (.list (vs ++ [v])) (us ++ pre ++ ws)
  | word {n q p e} : Echo .n (.mk .Ident [.str n, .nat q, p, e]) [.word n q]
  | wordStr {n p e} : Echo .n (.mk .Ident [.str n, .nat 4, p, e]) [.str n]
  | star {p e} : Echo .n (.mk .Ident [.str b!"*", .nat 0, p, e]) [.op b!"*"]
  | num {p e s b} : Echo .n (.mk .NumberLiteral [p, e, .str s, b]) [.num s]
  | dotNum {p e s b} : Echo .n (.mk .NumberLiteral [p, e, .str (b!"." ++ s), b]) [.op b!".", .num s]
  | str {p e s} : Echo .n (.mk .StringLiteral [p, e, .str s]) [.str s]
  | placeholder {p e} : Echo .n (.mk .PlaceHolder [p, e, .str b!"?"]) [.op b!"?"]
  | binOp {a b s us ws} : s ∈ opOps → Echo .n a us → Echo .n b ws →
      Echo .n (.mk .BinaryOperation [a, .str s, b, .bool false, .bool false]) (us ++ [.sp, .op s, .sp] ++ ws)
  | binKw {a b s us ws} : s ∈ kwOps → Echo .n a us → Echo .n b ws →
      Echo .n (.mk .BinaryOperation [a, .str s, b, .bool false, .bool false]) (us ++ [.sp, .kw s, .sp] ++ ws)
  | binNot {a b s us ws} : s ∈ kwOps → Echo .n a us → Echo .n b ws →
      Echo .n (.mk .BinaryOperation [a, .str (b!"NOT " ++ s), b, .bool false, .bool false]) (us ++ [.sp, .kw b!"NOT", .sp, .kw s, .sp] ++ ws)
  | cast {a b us ws} : Echo .n a us → Echo .n b ws →
      Echo .n (.mk .BinaryOperation [a, .str b!"::", b, .bool false, .bool false]) (us ++ [.op b!"::"] ++ ws)
  | global {a b us ws} : Echo .n a us → Echo .n b ws →
      Echo .n (.mk .BinaryOperation [a, .str b!"IN", b, .bool true, .bool false]) (us ++ [.sp, .kw b!"GLOBAL", .sp, .kw b!"IN", .sp] ++ ws)
  | globalNot {a b us ws} : Echo .n a us → Echo .n b ws →
      Echo .n (.mk .BinaryOperation [a, .str b!"IN", b, .bool true, .bool true])
        (us ++ [.sp, .kw b!"GLOBAL", .sp, .kw b!"NOT", .sp, .kw b!"IN", .sp] ++ ws)
  | unaryOp {p s v us} : s ∈ [b!"+", b!"-"] → Echo .n v us → Echo .n (.mk .UnaryExpr [p, .str s, v]) ([.op s, .sp] ++ us)
  | unaryKw {p s v us} : s ∈ [b!"NOT", b!"BOTH", b!"LEADING", b!"TRAILING"] → Echo .n v us → Echo .n (.mk .UnaryExpr [p, .str s, v]) ([.kw s, .sp] ++ us)
  | path {vs us} : Echo (.l [.op b!"."]) (.list vs) us → Echo .n (.mk .Path [.list vs]) us
  | nested {a b us ws} : Echo .n a us → Echo (.o [.op b!"."]) b ws → Echo .n (.mk .NestedIdentifier [a, b]) (us ++ ws)
  | index {a b us ws} : Echo .n a us → Echo .n b ws → Echo .n (.mk .IndexOperation [a, .str b!".", b]) (us ++ [.op b!"."] ++ ws)
  | params {p q v us w ws} : Echo .n v us → Echo (.o []) w ws → Echo .n (.mk .ParamExprList [p, q, v, w]) ([.op b!"("] ++ us ++ [.op b!")"] ++ ws)
  | args {p q v us} : Echo (.l comma) v us → Echo .n (.mk .ColumnArgList [.bool false, p, q, v]) ([.op b!"("] ++ us ++ [.op b!")"])
  | exprs {p q v us} : Echo (.l comma) v us → Echo .n (.mk .ColumnExprList [p, q, .bool false, v]) us
  | exprsD {p q v us} : Echo (.l comma) v us → Echo .n (.mk .ColumnExprList [p, q, .bool true, v]) ([.kw b!"DISTINCT", .sp] ++ us)
  | column {v us w ws} : Echo .n v us → Echo (.o [.sp, .kw b!"AS", .sp]) w ws → Echo .n (.mk .ColumnExpr [v, w]) (us ++ ws)
  | func {v us w ws} : Echo .n v us → Echo .n w ws → Echo .n (.mk .FunctionExpr [v, w]) (us ++ ws)
  | object {v us w ws} : Echo .n v us → Echo .n w ws → Echo .n (.mk .ObjectParams [v, w]) (us ++ ws)
  | array {p q a b v us} : Echo (.l comma) v us →
      Echo .n (.mk .ArrayParamList [p, q, .mk .ColumnExprList [a, b, .bool false, v]]) ([.op b!"["] ++ us ++ [.op b!"]"])
  | ternary {a b c us vs ws} : Echo .n a us → Echo .n b vs → Echo .n c ws →
      Echo .n (.mk .TernaryOperation [a, b, c]) (us ++ [.sp, .op b!"?", .sp] ++ vs ++ [.sp, .op b!":", .sp] ++ ws)
  | isNull {p q v us} : Echo .n v us → Echo .n (.mk .IsNullExpr [p, q, v]) (us ++ [.sp, .kw b!"IS", .sp, .kw b!"NULL"])
  | isNotNull {p q v us} : Echo .n v us → Echo .n (.mk .IsNotNullExpr [p, q, v]) (us ++ [.sp, .kw b!"IS", .sp, .kw b!"NOT", .sp, .kw b!"NULL"])
  | between {a b p c us vs ws} : Echo .n a us → Echo .n b vs → Echo .n c ws →
      Echo .n (.mk .BetweenClause [a, .bool false, b, p, c]) (us ++ [.sp, .kw b!"BETWEEN", .sp] ++ vs ++ [.sp, .kw b!"AND", .sp] ++ ws)
  | notBetween {a b p c us vs ws} : Echo .n a us → Echo .n b vs → Echo .n c ws →
      Echo .n (.mk .BetweenClause [a, .bool true, b, p, c])
        (us ++ [.sp, .kw b!"NOT", .sp, .kw b!"BETWEEN", .sp] ++ vs ++ [.sp, .kw b!"AND", .sp] ++ ws)
  | when {p q r a b us ws} : Echo .n a us → Echo .n b ws →
      Echo .n (.mk .WhenClause [p, q, a, b, r, .nil]) ([.kw b!"WHEN", .sp] ++ us ++ [.sp, .kw b!"THEN", .sp] ++ ws)
  | caseEnd {p q r a v b us ws xs} : Echo (.o [.sp]) a us → Echo (.p [.sp]) v ws → Echo (.o [.sp, .kw b!"ELSE", .sp]) b xs →
      Echo .n (.mk .CaseExpr [p, q, a, v, r, b]) ([.kw b!"CASE"] ++ us ++ ws ++ xs ++ [.sp, .kw b!"END"])
  | intervalFrom {p a b us ws} : Echo .n a us → Echo .n b ws → Echo .n (.mk .IntervalFrom [a, p, b]) (us ++ [.sp, .kw b!"FROM", .sp] ++ ws)
  | extract {p q v us} : Echo (.l comma) v us → Echo .n (.mk .ExtractExpr [p, q, v]) ([.kw b!"EXTRACT", .op b!"("] ++ us ++ [.op b!")"])
  | distinctOn {v us p q} : Echo (.l comma) v us → Echo .n (.mk .DistinctOn [v, p, q]) ([.kw b!"ON", .sp, .op b!"("] ++ us ++ [.op b!")"])
  | top {p q v us} : Echo .n v us → v.ty? = some .NumberLiteral → Echo .n (.mk .TopClause [p, q, v, .bool false]) ([.kw b!"TOP", .sp] ++ us)
  | topTies {p q v us} : Echo .n v us → v.ty? = some .NumberLiteral →
      Echo .n (.mk .TopClause [p, q, v, .bool true]) ([.kw b!"TOP", .sp] ++ us ++ [.sp, .kw b!"WITH", .sp, .kw b!"TIES"])
  | item {a b c us vs ws} : Echo .n a us → Echo (.p [.sp]) b vs → Echo (.o [.sp, .as_, .sp]) c ws → Echo .n (.mk .SelectItem [a, b, c]) (us ++ vs ++ ws)
  | from_ {p v us} : Echo .n v us → Echo .n (.mk .FromClause [p, v]) ([.kw b!"FROM", .sp] ++ us)
  | prewhere {p v us} : Echo .n v us → Echo .n (.mk .PrewhereClause [p, v]) ([.kw b!"PREWHERE", .sp] ++ us)
  | where_ {p v us} : Echo .n v us → Echo .n (.mk .WhereClause [p, v]) ([.kw b!"WHERE", .sp] ++ us)
  | having {p v us} : Echo .n v us → Echo .n (.mk .HavingClause [p, v]) ([.kw b!"HAVING", .sp] ++ us)
  | group {p q v us} : Echo .n v us → v ≠ .nil →
      Echo .n (.mk .GroupByClause [p, q, .str [], v, .bool false, .bool false, .bool false]) ([.kw b!"GROUP", .sp, .kw b!"BY", .sp] ++ us)
  | groupAs {p q s v us} : Echo .n v us → upper s = b!"CUBE" ∨ upper s = b!"ROLLUP" → v ≠ .nil →
      Echo .n (.mk .GroupByClause [p, q, .str s, v, .bool false, .bool false, .bool false]) ([.kw b!"GROUP", .sp, .kw b!"BY", .sp, .raw s] ++ us)
  | groupSets {p q v us} : Echo .n v us → v ≠ .nil →
      Echo .n (.mk .GroupByClause [p, q, .str b!"GROUPING SETS", v, .bool false, .bool false, .bool false])
        ([.kw b!"GROUP", .sp, .kw b!"BY", .sp, .kw b!"GROUPING", .sp, .kw b!"SETS"] ++ us)
  | groupAll {p q} :
      Echo .n (.mk .GroupByClause [p, q, .str b!"ALL", .nil, .bool false, .bool false, .bool false]) [.kw b!"GROUP", .sp, .kw b!"BY", .sp, .kw b!"ALL"]
  | order {p v a f us vs ws} : Echo .n v us → Echo (.o [.sp, .kw b!"AS", .sp]) a vs → Echo (.o [.sp]) f ws →
      Echo .n (.mk .OrderExpr [p, v, a, .str [], f]) (us ++ vs ++ ws)
  | orderDir {p v a d f us vs ws} : d ∈ [b!"ASC", b!"DESC"] → Echo .n v us → Echo (.o [.sp, .kw b!"AS", .sp]) a vs → Echo (.o [.sp]) f ws →
      Echo .n (.mk .OrderExpr [p, v, a, .str d, f]) (us ++ vs ++ [.sp, .kw d] ++ ws)
  | fill {p a b c d us vs ws xs} : Echo (.o [.sp, .kw b!"FROM", .sp]) a us → Echo (.o [.sp, .kw b!"TO", .sp]) b vs →
      Echo (.o [.sp, .kw b!"STEP", .sp]) c ws → Echo (.o [.sp, .kw b!"STALENESS", .sp]) d xs →
      Echo .n (.mk .Fill [p, a, b, c, d]) ([.kw b!"WITH", .sp, .kw b!"FILL"] ++ us ++ vs ++ ws ++ xs)
  | interItem {a b us vs} : Echo .n a us → Echo (.o [.sp, .kw b!"AS", .sp]) b vs → Echo .n (.mk .InterpolateItem [a, b]) (us ++ vs)
  | inter0 {p q} : Echo .n (.mk .InterpolateClause [p, q, .nil]) [.kw b!"INTERPOLATE"]
  | inter {p q vs us} : Echo (.l comma) (.list vs) us → vs ≠ [] →
      Echo .n (.mk .InterpolateClause [p, q, .list vs]) ([.kw b!"INTERPOLATE", .sp, .op b!"("] ++ us ++ [.op b!")"])
  | orderBy {p q vs w us ws} : Echo (.l comma) (.list vs) us → vs ≠ [] → Echo (.o [.sp]) w ws →
      Echo .n (.mk .OrderByClause [p, q, .list vs, w]) ([.kw b!"ORDER", .sp, .kw b!"BY", .sp] ++ us ++ ws)
  | limitBy {a b us ws} : Echo .n a us → Echo .n b ws → a ≠ .nil → b ≠ .nil → Echo .n (.mk .LimitByClause [a, b]) (us ++ [.sp, .kw b!"BY", .sp] ++ ws)
  | limit {p a us} : Echo .n a us → a ≠ .nil → Echo .n (.mk .LimitClause [p, a, .nil]) ([.kw b!"LIMIT", .sp] ++ us)
  | limitOff {p a b us ws} : Echo .n a us → Echo .n b ws → a ≠ .nil → b ≠ .nil →
      Echo .n (.mk .LimitClause [p, a, b]) ([.kw b!"LIMIT", .sp] ++ us ++ [.sp, .kw b!"OFFSET", .sp] ++ ws)
  | offset {p b us} : Echo .n b us → b ≠ .nil → Echo .n (.mk .LimitClause [p, .nil, b]) ([.kw b!"OFFSET", .sp] ++ us)
  | limit0 {p} : Echo .n (.mk .LimitClause [p, .nil, .nil]) []
  | bool {p q s} : Echo .n (.mk .BoolLiteral [p, q, .str s]) [.raw s]
  | setting {p a b us ws} : Echo .n a us → Echo .n b ws → Echo .n (.mk .SettingExpr [p, a, b]) (us ++ [.op b!"="] ++ ws)
  | settings {p q vs us} : Echo (.l comma) (.list vs) us → vs ≠ [] → Echo .n (.mk .SettingsClause [p, q, .list vs]) ([.kw b!"SETTINGS", .sp] ++ us)
  | format {p v us} : Echo .n v us → Echo .n (.mk .FormatClause [p, v]) ([.kw b!"FORMAT", .sp] ++ us)
  | cte {p a b us ws} : Echo .n a us → Echo .n b ws → b.ty? = some .SelectQuery →
      Echo .n (.mk .CTEStmt [p, a, b]) (us ++ [.sp, .kw b!"AS", .sp, .op b!"("] ++ ws ++ [.op b!")"])
  | cteName {p a b us ws} : Echo .n a us → Echo .n b ws → b.ty? = some .Ident → Echo .n (.mk .CTEStmt [p, a, b]) (us ++ [.sp, .kw b!"AS", .sp] ++ ws)
  | with_ {p q vs us} : Echo (.l comma) (.list vs) us → vs ≠ [] → Echo .n (.mk .WithClause [p, q, .list vs]) ([.kw b!"WITH", .sp] ++ us)
  | tableName {b us} : Echo .n b us → Echo .n (.mk .TableIdentifier [.nil, b]) us
  | tableName2 {a b us ws} : Echo .n a us → Echo (.o [.op b!"."]) b ws → b ≠ .nil → Echo .n (.mk .TableIdentifier [a, b]) (us ++ ws)
  | tableArgs {p q v us} : Echo (.l comma) v us → Echo .n (.mk .TableArgListExpr [p, q, v]) ([.op b!"("] ++ us ++ [.op b!")"])
  | tableFunc {a b us ws} : Echo .n a us → Echo .n b ws → Echo .n (.mk .TableFunctionExpr [a, b]) (us ++ ws)
  | subParen {v us} : Echo .n v us → Echo .n (.mk .SubQuery [.bool true, v]) ([.op b!"("] ++ us ++ [.op b!")"])
  | sub {v us} : Echo .n v us → Echo .n (.mk .SubQuery [.bool false, v]) us
  | alias {p a b us ws} : Echo .n a us → Echo .n b ws → a.ty? ≠ some .SelectQuery → Echo .n (.mk .AliasExpr [a, p, b]) (us ++ [.sp, .as_, .sp] ++ ws)
  | table {p q v us} : Echo .n v us → Echo .n (.mk .TableExpr [p, q, .nil, v, .bool false]) us
  | tableFinal {p q v us} : Echo .n v us → Echo .n (.mk .TableExpr [p, q, .nil, v, .bool true]) (us ++ [.sp, .kw b!"FINAL"])
  | ratio {a b us ws} : Echo .n a us → Echo (.o [.op b!"/"]) b ws → Echo .n (.mk .RatioExpr [a, b]) (us ++ ws)
  | sample {p a b us ws} : Echo .n a us → Echo (.o [.sp, .kw b!"OFFSET", .sp]) b ws → Echo .n (.mk .SampleClause [p, a, b]) ([.kw b!"SAMPLE", .sp] ++ us ++ ws)
  | joinTable {p a b us ws} : Echo .n a us → Echo (.o [.sp]) b ws → Echo .n (.mk .JoinTableExpr [a, p, b, .bool false]) (us ++ ws)
  | joinFinal {p a us} : Echo .n a us → Echo .n (.mk .JoinTableExpr [a, p, .nil, .bool true]) (us ++ [.sp, .kw b!"FINAL"])
  | on {p v us} : Echo .n v us → Echo .n (.mk .OnClause [p, v]) ([.kw b!"ON", .sp] ++ us)
  | using_ {p v us} : Echo .n v us → Echo .n (.mk .UsingClause [p, v]) ([.kw b!"USING", .sp] ++ us)
  | join {p a b us ws} : Echo .n a us → Echo .j b ws → Echo .n (.mk .JoinExpr [p, a, b, .nil, .nil]) (us ++ ws)
  | jnil : Echo .j .nil []
  | jtable {v us} : v.ty? = some .JoinTableExpr → Echo .n v us → Echo .j v ([.op b!","] ++ us)
  | jcomma {p a b us ws} : Echo .n a us → Echo .j b ws → Echo .j (.mk .JoinExpr [p, a, b, .nil, .nil]) ([.op b!","] ++ us ++ ws)
  | jmods {p a b ms c us vs ws xs} : Echo .m (.list ms) us → ms ≠ [] → Echo .n a vs → Echo (.o [.sp]) c ws → Echo .j b xs →
      Echo .j (.mk .JoinExpr [p, a, b, .list ms, c]) ([.sp] ++ us ++ [.sp] ++ vs ++ ws ++ xs)
  | mone {s} : Echo .m (.list [.str s]) [.raw s]
  | mkw {s} : Echo .m (.list [.str s]) [.kw s]
  | msnoc {vs us s} : vs ≠ [] → Echo .m (.list vs) us → Echo .m (.list (vs ++ [.str s])) (us ++ [.sp, .raw s])
  | mkws {vs us s} : vs ≠ [] → Echo .m (.list vs) us → Echo .m (.list (vs ++ [.str s])) (us ++ [.sp, .kw s])
  | partition {p v us} : Echo .n v us → Echo .n (.mk .PartitionByClause [p, v]) ([.kw b!"PARTITION", .sp, .kw b!"BY", .sp] ++ us)
  | window {p q a b c us vs ws} : Echo (.o []) a us → Echo (.o []) b vs → Echo (.o []) c ws →
      Echo .n (.mk .WindowExpr [p, q, a, b, c, .nil])
        ([.op b!"("] ++ us ++ bl (a.nonNil && b.nonNil) ++ vs ++ bl ((a.nonNil || b.nonNil) && c.nonNil) ++ ws ++ [.op b!")"])
  | over {p a b us ws} : Echo .n a us → Echo .n b ws → Echo .n (.mk .WindowFunctionExpr [a, p, b]) (us ++ [.sp, .kw b!"OVER", .sp] ++ ws)
  | select {p q w d don top its fr pw wh gb hv ob lb lm st fm ua ud ex is u0 u1 u2 u3 u4 u5 u6 u7 u8 u9 u10 u11 u12 u13 u14 u15 u16 u17} :
      Echo (.o []) w u0 → Echo (.o [.sp]) don u1 → (don.nonNil = true → d = true) → Echo (.o [.sp]) top u2 → Echo (.l comma) (.list its) u3 → its ≠ [] →
      Echo (.o [.sp]) fr u4 → Echo (.o [.sp]) pw u5 → Echo (.o [.sp]) wh u6 → Echo (.o [.sp]) gb u7 → Echo (.o [.sp]) hv u8 →
      Echo (.o [.sp]) ob u9 → Echo (.o [.sp]) lb u10 → Echo (.o [.sp]) lm u11 → Echo (.o [.sp]) st u12 → Echo (.o [.sp]) fm u13 →
      Echo (.o [.sp, .kw b!"UNION", .sp, .kw b!"ALL", .sp]) ua u14 → Echo (.o [.sp, .kw b!"UNION", .sp, .kw b!"DISTINCT", .sp]) ud u15 →
      Echo (.o [.sp, .kw b!"EXCEPT", .sp]) ex u16 → Echo (.o [.sp, .kw b!"INTERSECT", .sp]) is u17 →
      (ua ≠ .nil → ud = .nil ∧ ex = .nil ∧ is = .nil) → (ud ≠ .nil → ex = .nil ∧ is = .nil) → (ex ≠ .nil → is = .nil) →
      Echo .n (.mk .SelectQuery [p, q, w, top, .bool d, don, .list its, fr, .nil, pw, wh, gb, .bool false, hv, ob, lb, lm, st, fm, ua, ud, ex, is])
        (u0 ++ bl w.nonNil ++ [.kw b!"SELECT"] ++ (if d then [.sp, .kw b!"DISTINCT"] else []) ++ u1 ++ u2 ++ [.sp] ++ u3 ++ u4 ++ u5 ++ u6 ++ u7 ++ u8 ++ u9 ++ u10 ++
          u11 ++ u12 ++ u13 ++ u14 ++ u15 ++ u16 ++ u17)

/-- A list with one more element. -/
theorem Echo.snoc {sep : List E} {v : V} {ws : List E} (hv : Echo .n v ws) : ∀ {vs : List V} {us : List E}, vs ≠ [] →
    Echo (.l sep) (.list vs) us → Echo (.l sep) (.list (vs ++ [v])) (us ++ sep ++ ws)
  | [], _, h, _ => absurd rfl h
  | [a], us, _, h => by
    cases h with
    | lone h => exact .lcons h (.lone hv)
  | a :: b :: r, us, _, h => by
    cases h with
    | @lcons _ _ _ _ us1 us2 h1 h2 =>
      have := Echo.snoc hv (by simp) h2
      have := Echo.lcons (sep := sep) h1 this
      simp only [List.append_assoc, List.cons_append] at this ⊢
      exact this

end Verif.Echo
