/-
A grammar of a core of SQL, over tokens, that says which tree a piece of text stands for.  It is written with
precedence levels, as one writes a grammar by hand; nothing here mentions the functions of the parser.  The trees
have all positions 0.

The grammar covers, of the queries the parser knows: names, numbers, strings, `*`, calls, lists in parentheses
and brackets, subqueries, `CASE`, window functions, the operators except `.` and `[`; `WITH`, `SELECT` with `DISTINCT`, aliases, `FROM` with
tables, subqueries, aliases and `FINAL`, joins with `ON` or `USING`, `PREWHERE`, `WHERE`, `GROUP BY`, `HAVING`, `ORDER BY`, `LIMIT`, `LIMIT BY`,
`OFFSET`, `SETTINGS` and `FORMAT`; and `UNION ALL`, `UNION DISTINCT`, `EXCEPT` and `INTERSECT` of queries.
-/
import Verif.Ast.Schema
import Verif.Lexer

namespace Verif.Spec
open Verif

/-- A keyword, in any case. -/
def isWord (t : Token) (k : Str) : Prop := t.kind = .keyword ∧ upper t.str = k
/-- A sign such as `(` or `+`. -/
def isSign (t : Token) (s : Str) : Prop := t.kind = .op s
/-- A name that is no keyword, quoted or not. -/
def isPlainName (t : Token) : Prop := t.kind = .ident
/-- A name, where a keyword may be one as well. -/
def isAnyName (t : Token) : Prop := t.kind = .ident ∨ t.kind = .keyword

/-- How an operator is written in the tree. -/
def spelling (t : Token) : Str := match t.kind with
  | .keyword => upper t.str
  | _ => t.str

/-- The name as a tree. -/
def name (t : Token) : V := N.Ident (name := t.str) (quoteType := t.quote)

/-- The levels of the operators that group to the left, from loose to tight. -/
def infixLevels : List (Nat × List Str × List Str) :=
  [(3, [b!"OR"], []),
   (4, [b!"AND"], []),
   (8, [], [b!"=", b!"==", b!"!=", b!"<>", b!"<", b!"<=", b!">", b!">="]),
   (9, [b!"LIKE", b!"ILIKE", b!"REGEXP"], []),
   (10, [b!"IN"], []),
   (11, [], [b!"||"]),
   (12, [], [b!"+", b!"-"]),
   (13, [], [b!"*", b!"/", b!"%"])]

/-- The token is an operator of level `q`. -/
def isInfix (t : Token) (q : Nat) : Prop :=
  ∃ ws ss, (q, ws, ss) ∈ infixLevels ∧ ((t.kind = .keyword ∧ upper t.str ∈ ws) ∨ ∃ s ∈ ss, t.kind = .op s)

/-- The operators that may follow `NOT`, with their levels. -/
def negatable : List (Str × Nat) := [(b!"IN", 10), (b!"LIKE", 9), (b!"ILIKE", 9)]

/-- The functions with words between their arguments. -/
def keywordCalls : List Str := [b!"TRIM", b!"SUBSTRING", b!"OVERLAY", b!"OVERLAYUTF8"]

/-- A token that would make the parser take the word `CASE` before it for a name. -/
def isContinuation (t : Token) : Prop := isSign t b!"+" ∨ isSign t b!"-" ∨ isSign t b!"*" ∨ isWord t b!"NOT"

/-- The words before `JOIN`. -/
def joinWords : List (List Str) :=
  [[], [b!"CROSS"], [b!"INNER"], [b!"LEFT"], [b!"RIGHT"], [b!"FULL"], [b!"LEFT", b!"OUTER"], [b!"RIGHT", b!"OUTER"], [b!"FULL", b!"OUTER"],
   [b!"ANY"], [b!"ALL"], [b!"ASOF"], [b!"SEMI"], [b!"ANY", b!"LEFT"], [b!"ANY", b!"INNER"], [b!"ALL", b!"LEFT"], [b!"ALL", b!"INNER"],
   [b!"ASOF", b!"LEFT"], [b!"SEMI", b!"LEFT"], [b!"LEFT", b!"ANY"], [b!"LEFT", b!"ALL"], [b!"LEFT", b!"SEMI"], [b!"LEFT", b!"ANTI"],
   [b!"LEFT", b!"ASOF"], [b!"INNER", b!"ANY"], [b!"INNER", b!"ALL"], [b!"RIGHT", b!"ANY"], [b!"RIGHT", b!"SEMI"], [b!"RIGHT", b!"ANTI"]]

/-- How such a word is written in the tree. -/
def joinText (t : Token) : V := .str (if upper t.str = b!"CROSS" then b!"CROSS" else t.str)

/-- The parts of a query.  `expr p` is an expression whose outermost operators have levels above `p`. -/
inductive Cat where
  | expr (p : Nat) | atom | dotted | call | partition
  | arg | args1 | args | distinct
  | whens | else_
  | item | items
  | table | aliased | final | ref | tables | tail | join | joinKind | using_ | on | from_
  | prewhere | where_ | groupBy | having | orderItem | orderItems | orderBy | limit | limits
  | cte | ctes | with_ | setting | settingItems | settings | format | compound
  | query
deriving DecidableEq, Repr

/-- A list of arguments as a tree. -/
def columns (d : Bool) (vs : List V) : V := N.ColumnExprList (hasDistinct := d) (items := .list vs)

/-- `Core c ts v`: the tokens `ts` are a part of kind `c` that stands for the tree `v`. -/
inductive Core : Cat → List Token → V → Prop
  -- expressions
  | atom {p : Nat} {ts : List Token} {v : V} : Core .atom ts v → Core (.expr p) ts v
  | sign {p : Nat} {t : Token} {ts : List Token} {v : V} : isSign t b!"+" ∨ isSign t b!"-" → Core .atom ts v →
      Core (.expr p) (t :: ts) (N.UnaryExpr (kind := t.str) (expr := v))
  | not_ {p : Nat} {t : Token} {ts : List Token} {v : V} : p ≤ 5 → isWord t b!"NOT" → Core (.expr 5) ts v →
      Core (.expr p) (t :: ts) (N.UnaryExpr (kind := b!"NOT") (expr := v))
  | infix_ {p q : Nat} {o : Token} {ts us : List Token} {v w : V} : p < q → isInfix o q → Core (.expr (q - 1)) ts v → Core (.expr q) us w →
      Core (.expr p) (ts ++ o :: us) (N.BinaryOperation (leftExpr := v) (operation := spelling o) (rightExpr := w))
  | notInfix {p q : Nat} {n o : Token} {ts us : List Token} {v w : V} : p < q → isWord n b!"NOT" → (upper o.str, q) ∈ negatable → o.kind = .keyword →
      Core (.expr (q - 1)) ts v → Core (.expr q) us w →
      Core (.expr p) (ts ++ n :: o :: us) (N.BinaryOperation (leftExpr := v) (operation := b!"NOT " ++ spelling o) (rightExpr := w))
  | between {p : Nat} {o a : Token} {ts us xs : List Token} {v w x : V} : p < 9 → isWord o b!"BETWEEN" → isWord a b!"AND" →
      Core (.expr 8) ts v → Core (.expr 9) us w → Core (.expr 9) xs x →
      Core (.expr p) (ts ++ o :: (us ++ a :: xs)) (N.BetweenClause (expr := v) (between := w) (and := x))
  | notBetween {p : Nat} {n o a : Token} {ts us xs : List Token} {v w x : V} : p < 9 → isWord n b!"NOT" → isWord o b!"BETWEEN" → isWord a b!"AND" →
      Core (.expr 8) ts v → Core (.expr 9) us w → Core (.expr 9) xs x →
      Core (.expr p) (ts ++ n :: o :: (us ++ a :: xs)) (N.BetweenClause (expr := v) (not := true) (between := w) (and := x))
  | isNull {p : Nat} {i n : Token} {ts : List Token} {v : V} : p < 7 → isWord i b!"IS" → isWord n b!"NULL" → Core (.expr 6) ts v →
      Core (.expr p) (ts ++ [i, n]) (N.IsNullExpr (expr := v))
  | isNotNull {p : Nat} {i o n : Token} {ts : List Token} {v : V} : p < 7 → isWord i b!"IS" → isWord o b!"NOT" → isWord n b!"NULL" → Core (.expr 6) ts v →
      Core (.expr p) (ts ++ [i, o, n]) (N.IsNotNullExpr (expr := v))
  | global {p : Nat} {g i : Token} {ts us : List Token} {v w : V} : p < 10 → isWord g b!"GLOBAL" → isWord i b!"IN" →
      Core (.expr 9) ts v → Core (.expr 10) us w →
      Core (.expr p) (ts ++ g :: i :: us) (N.BinaryOperation (leftExpr := v) (operation := b!"IN") (rightExpr := w) (hasGlobal := true))
  | globalNot {p : Nat} {g n i : Token} {ts us : List Token} {v w : V} : p < 10 → isWord g b!"GLOBAL" → isWord n b!"NOT" → isWord i b!"IN" →
      Core (.expr 9) ts v → Core (.expr 10) us w →
      Core (.expr p) (ts ++ g :: n :: i :: us) (N.BinaryOperation (leftExpr := v) (operation := b!"IN") (rightExpr := w) (hasGlobal := true) (hasNot := true))
  | cast {p : Nat} {o t : Token} {ts : List Token} {v : V} : p < 16 → isSign o b!"::" → isPlainName t → t.str ≠ b!"Tuple" → Core (.expr 15) ts v →
      Core (.expr p) (ts ++ [o, t]) (N.BinaryOperation (leftExpr := v) (operation := b!"::") (rightExpr := name t))
  | ternary {q c : Token} {ts us xs : List Token} {v w x : V} : isSign q b!"?" → isSign c b!":" →
      Core (.expr 2) ts v → Core (.expr 0) us w → Core (.expr 0) xs x →
      Core (.expr 0) (ts ++ q :: (us ++ c :: xs)) (N.TernaryOperation (condition := v) (trueExpr := w) (falseExpr := x))
  | lambda {o : Token} {ts us : List Token} {v w : V} : isSign o b!"->" → Core (.expr 1) ts v → Core (.expr 0) us w →
      Core (.expr 0) (ts ++ o :: us) (N.BinaryOperation (leftExpr := v) (operation := b!"->") (rightExpr := w))
  -- units
  | name {t : Token} : isPlainName t → Core .atom [t] (name t)
  | number {t : Token} : t.kind = .int ∨ t.kind = .float → Core .atom [t] (N.NumberLiteral (literal := t.str) (base := t.base))
  | string {t : Token} : t.kind = .string → Core .atom [t] (N.StringLiteral (literal := t.str))
  | star {t : Token} : isSign t b!"*" → Core .atom [t] (N.Ident (name := b!"*"))
  | path {t d : Token} {ts : List Token} {vs : List V} : isPlainName t → isSign d b!"." → Core .dotted ts (.list vs) →
      Core .atom (t :: d :: ts) (N.Path (fields := .list (name t :: vs)))
  | dotOne {t : Token} : isAnyName t → Core .dotted [t] (.list [name t])
  | dotMore {t d : Token} {ts : List Token} {vs : List V} : isAnyName t → isSign d b!"." → Core .dotted ts (.list vs) →
      Core .dotted (t :: d :: ts) (.list (name t :: vs))
  | tableStar {t d s : Token} : isPlainName t → isSign d b!"." → isSign s b!"*" →
      Core .atom [t, d, s] (N.NestedIdentifier (ident := name t) (dotIdent := N.Ident (name := b!"*")))
  | list {o c : Token} {b : Bool} {ts us : List Token} {vs : List V} : isSign o b!"(" → Core .distinct ts (.bool b) → Core .args us (.list vs) → isSign c b!")" →
      Core .atom (o :: (ts ++ (us ++ [c]))) (N.ParamExprList (items := columns b vs))
  | array {o c : Token} {b : Bool} {ts us : List Token} {vs : List V} : isSign o b!"[" → Core .distinct ts (.bool b) → Core .args us (.list vs) → isSign c b!"]" →
      Core .atom (o :: (ts ++ (us ++ [c]))) (N.ArrayParamList (items := columns b vs))
  | call {f o c : Token} {b : Bool} {ts us : List Token} {vs : List V} : isPlainName f → upper f.str ∉ keywordCalls →
      isSign o b!"(" → Core .distinct ts (.bool b) → Core .args us (.list vs) → isSign c b!")" →
      Core .call (f :: o :: (ts ++ (us ++ [c]))) (N.FunctionExpr (name := name f) (params := N.ParamExprList (items := columns b vs)))
  | called {ts : List Token} {v : V} : Core .call ts v → Core .atom ts v
  | overName {k t : Token} {ts : List Token} {v : V} : Core .call ts v → isWord k b!"OVER" → isAnyName t →
      Core .atom (ts ++ [k, t]) (N.WindowFunctionExpr (function := v) (overExpr := name t))
  | overWindow {k o c : Token} {ts ps os : List Token} {v p w : V} : Core .call ts v → isWord k b!"OVER" → isSign o b!"(" → Core .partition ps p →
      Core .orderBy os w → isSign c b!")" →
      Core .atom (ts ++ k :: o :: (ps ++ (os ++ [c]))) (N.WindowFunctionExpr (function := v) (overExpr := N.WindowExpr (partitionBy := p) (orderBy := w)))
  | partitionNo : Core .partition [] .nil
  | partition {k b : Token} {ts : List Token} {vs : List V} : isWord k b!"PARTITION" → isWord b b!"BY" → Core .args1 ts (.list vs) →
      Core .partition (k :: b :: ts) (N.PartitionByClause (expr := columns false vs))
  -- in an expression the parser looks for `SELECT` after the parenthesis, so `(WITH …)` is no query there
  | subquery {o c : Token} {ts : List Token} {v : V} : isSign o b!"(" → Core .query ts v → (∀ t ∈ ts.head?, ¬ isWord t b!"WITH") → isSign c b!")" →
      Core .atom (o :: (ts ++ [c])) (N.SubQuery (hasParen := true) (select := v))
  | case_ {k e : Token} {ts us : List Token} {vs : List V} {v : V} : isWord k b!"CASE" → Core .whens ts (.list vs) → Core .else_ us v → isWord e b!"END" →
      Core .atom (k :: (ts ++ (us ++ [e]))) (N.CaseExpr (whens := .list vs) (else_ := v))
  | caseOf {k e : Token} {xs ts us : List Token} {vs : List V} {x v : V} : isWord k b!"CASE" → (∀ t ∈ xs.head?, ¬ isContinuation t) →
      Core (.expr 0) xs x → Core .whens ts (.list vs) → Core .else_ us v →
      isWord e b!"END" → Core .atom (k :: (xs ++ (ts ++ (us ++ [e])))) (N.CaseExpr (expr := x) (whens := .list vs) (else_ := v))
  -- the branches of `CASE`
  | whenOne {w t : Token} {ts us : List Token} {v x : V} : isWord w b!"WHEN" → Core (.expr 0) ts v → isWord t b!"THEN" → Core (.expr 0) us x →
      Core .whens (w :: (ts ++ t :: us)) (.list [N.WhenClause (when := v) (then_ := x)])
  | whenMore {w t : Token} {ts us xs : List Token} {v x : V} {vs : List V} : isWord w b!"WHEN" → Core (.expr 0) ts v → isWord t b!"THEN" → Core (.expr 0) us x →
      Core .whens xs (.list vs) → Core .whens (w :: (ts ++ t :: (us ++ xs))) (.list (N.WhenClause (when := v) (then_ := x) :: vs))
  | elseNo : Core .else_ [] .nil
  | elseYes {e : Token} {ts : List Token} {v : V} : isWord e b!"ELSE" → Core (.expr 0) ts v → Core .else_ (e :: ts) v
  -- arguments
  | arg {ts : List Token} {v : V} : Core (.expr 0) ts v → Core .arg ts (N.ColumnExpr (expr := v))
  | argAs {a t : Token} {ts : List Token} {v : V} : Core (.expr 0) ts v → isWord a b!"AS" → isAnyName t →
      Core .arg (ts ++ [a, t]) (N.ColumnExpr (expr := v) (alias := name t))
  | argOne {ts : List Token} {v : V} : Core .arg ts v → Core .args1 ts (.list [v])
  | argMore {c : Token} {ts us : List Token} {v : V} {vs : List V} : Core .arg ts v → isSign c b!"," → Core .args1 us (.list vs) →
      Core .args1 (ts ++ c :: us) (.list (v :: vs))
  | argsNo : Core .args [] (.list [])
  | args {ts : List Token} {v : V} : Core .args1 ts v → Core .args ts v
  | distinctNo : Core .distinct [] (.bool false)
  | distinctYes {t : Token} : isWord t b!"DISTINCT" → Core .distinct [t] (.bool true)
  -- the list after `SELECT`
  | item {ts : List Token} {v : V} : Core (.expr 0) ts v → Core .item ts (N.SelectItem (expr := v) (modifiers := .list []))
  | itemAs {a t : Token} {ts : List Token} {v : V} : Core (.expr 0) ts v → isWord a b!"AS" → isAnyName t →
      Core .item (ts ++ [a, t]) (N.SelectItem (expr := v) (modifiers := .list []) (alias := name t))
  | itemName {t : Token} {ts : List Token} {v : V} : Core (.expr 0) ts v → isPlainName t →
      Core .item (ts ++ [t]) (N.SelectItem (expr := v) (modifiers := .list []) (alias := name t))
  | itemOne {ts : List Token} {v : V} : Core .item ts v → Core .items ts (.list [v])
  | itemMore {c : Token} {ts us : List Token} {v : V} {vs : List V} : Core .item ts v → isSign c b!"," → Core .items us (.list vs) →
      Core .items (ts ++ c :: us) (.list (v :: vs))
  -- tables
  | tableName {t : Token} : isPlainName t → Core .table [t] (N.TableIdentifier (table := name t))
  | tableOf {d p t : Token} : isPlainName d → isSign p b!"." → isAnyName t → Core .table [d, p, t] (N.TableIdentifier (database := name d) (table := name t))
  | tableQuery {o c : Token} {ts : List Token} {v : V} : isSign o b!"(" → Core .query ts v → isSign c b!")" →
      Core .table (o :: (ts ++ [c])) (N.SubQuery (hasParen := true) (select := v))
  | bare {ts : List Token} {v : V} : Core .table ts v → Core .aliased ts v
  | aliasAs {a t : Token} {ts : List Token} {v : V} : Core .table ts v → isWord a b!"AS" → isAnyName t →
      Core .aliased (ts ++ [a, t]) (N.AliasExpr (expr := v) (alias := name t))
  | aliasName {t : Token} {ts : List Token} {v : V} : Core .table ts v → isPlainName t →
      Core .aliased (ts ++ [t]) (N.AliasExpr (expr := v) (alias := name t))
  | finalNo : Core .final [] (.bool false)
  | finalYes {t : Token} : isWord t b!"FINAL" → Core .final [t] (.bool true)
  | ref {ts us : List Token} {v : V} {b : Bool} : Core .aliased ts v → Core .final us (.bool b) →
      Core .ref (ts ++ us) (N.JoinTableExpr (table := N.TableExpr (expr := v) (hasFinal := b)))
  | tablesOne {ts : List Token} {v : V} : Core .ref ts v → Core .tables ts v
  | tablesMore {ts us : List Token} {v w : V} : Core .ref ts v → Core .tail us w → Core .tables (ts ++ us) (N.JoinExpr (left := v) (right := w))
  | tailComma {c : Token} {ts : List Token} {v : V} : isSign c b!"," → Core .tables ts v → Core .tail (c :: ts) v
  | tailJoin {ts : List Token} {v : V} : Core .join ts v → Core .tail ts v
  | joinKind {j : Token} {ms : List Token} : (∀ t ∈ ms, t.kind = .keyword) → ms.map (fun t => upper t.str) ∈ joinWords → isWord j b!"JOIN" →
      Core .joinKind (ms ++ [j]) (.list (ms.map joinText ++ [.str b!"JOIN"]))
  | joinEnd {ks ts us : List Token} {k v w : V} : Core .joinKind ks k → Core .ref ts v → Core .using_ us w →
      Core .join (ks ++ (ts ++ us)) (N.JoinExpr (left := v) (modifiers := k) (constraints := w))
  | joinMore {ks ts us xs : List Token} {k v w x : V} : Core .joinKind ks k → Core .ref ts v → Core .using_ us w → Core .tail xs x →
      Core .join (ks ++ (ts ++ (us ++ xs))) (N.JoinExpr (left := v) (right := x) (modifiers := k) (constraints := w))
  | joinOn {ks ts us : List Token} {k v w : V} : Core .joinKind ks k → Core .ref ts v → Core .on us w →
      Core .join (ks ++ (ts ++ us)) (N.JoinExpr (left := v) (modifiers := k) (constraints := w))
  | joinOnMore {ks ts us xs : List Token} {k v w x : V} : Core .joinKind ks k → Core .ref ts v → Core .on us w → Core .join xs x →
      Core .join (ks ++ (ts ++ (us ++ xs))) (N.JoinExpr (left := v) (right := x) (modifiers := k) (constraints := w))
  | usingNo : Core .using_ [] .nil
  | using_ {u o c : Token} {ts : List Token} {vs : List V} : isWord u b!"USING" → isSign o b!"(" → Core .args1 ts (.list vs) → isSign c b!")" →
      Core .using_ (u :: o :: (ts ++ [c])) (N.UsingClause (using_ := columns false vs))
  | on {o : Token} {ts : List Token} {vs : List V} : isWord o b!"ON" → Core .args1 ts (.list vs) → Core .on (o :: ts) (N.OnClause (on := columns false vs))
  | usingBare {u : Token} {ts : List Token} {vs : List V} : isWord u b!"USING" → (∀ t ∈ ts.head?, ¬ isSign t b!"(") → Core .args1 ts (.list vs) →
      Core .on (u :: ts) (N.UsingClause (using_ := columns false vs))
  | fromNo : Core .from_ [] .nil
  | from_ {k : Token} {ts : List Token} {v : V} : isWord k b!"FROM" → Core .tables ts v → Core .from_ (k :: ts) (N.FromClause (expr := v))
  -- a query
  | prewhereNo : Core .prewhere [] .nil
  | prewhere {k : Token} {ts : List Token} {v : V} : isWord k b!"PREWHERE" → Core (.expr 0) ts v → Core .prewhere (k :: ts) (N.PrewhereClause (expr := v))
  | whereNo : Core .where_ [] .nil
  | where_ {k : Token} {ts : List Token} {v : V} : isWord k b!"WHERE" → Core (.expr 0) ts v → Core .where_ (k :: ts) (N.WhereClause (expr := v))
  | groupByNo : Core .groupBy [] .nil
  | groupBy {k b : Token} {ts : List Token} {vs : List V} : isWord k b!"GROUP" → isWord b b!"BY" → Core .args1 ts (.list vs) →
      Core .groupBy (k :: b :: ts) (N.GroupByClause (expr := columns false vs))
  | havingNo : Core .having [] .nil
  | having {k : Token} {ts : List Token} {v : V} : isWord k b!"HAVING" → Core .arg ts v → Core .having (k :: ts) (N.HavingClause (expr := v))
  | orderItem {ts : List Token} {v : V} : Core (.expr 0) ts v → Core .orderItem ts (N.OrderExpr (expr := v))
  | orderAsc {d : Token} {ts : List Token} {v : V} : Core (.expr 0) ts v → isWord d b!"ASC" ∨ isWord d b!"ASCENDING" →
      Core .orderItem (ts ++ [d]) (N.OrderExpr (expr := v) (direction := b!"ASC"))
  | orderDesc {d : Token} {ts : List Token} {v : V} : Core (.expr 0) ts v → isWord d b!"DESC" ∨ isWord d b!"DESCENDING" →
      Core .orderItem (ts ++ [d]) (N.OrderExpr (expr := v) (direction := b!"DESC"))
  | orderOne {ts : List Token} {v : V} : Core .orderItem ts v → Core .orderItems ts (.list [v])
  | orderMore {c : Token} {ts us : List Token} {v : V} {vs : List V} : Core .orderItem ts v → isSign c b!"," → Core .orderItems us (.list vs) →
      Core .orderItems (ts ++ c :: us) (.list (v :: vs))
  | orderByNo : Core .orderBy [] .nil
  | orderBy {k b : Token} {ts : List Token} {v : V} : isWord k b!"ORDER" → isWord b b!"BY" → Core .orderItems ts v →
      Core .orderBy (k :: b :: ts) (N.OrderByClause (items := v))
  | limit {k : Token} {ts : List Token} {v : V} : isWord k b!"LIMIT" → Core (.expr 0) ts v → Core .limit (k :: ts) (N.LimitClause (limit := v))
  | limitOffset {k o : Token} {ts us : List Token} {v w : V} : isWord k b!"LIMIT" → Core (.expr 0) ts v → isWord o b!"OFFSET" → Core (.expr 0) us w →
      Core .limit (k :: (ts ++ o :: us)) (N.LimitClause (limit := v) (offset := w))
  -- `LIMIT BY`, if there is one, and `LIMIT`
  | limitsNo : Core .limits [] (.list [.nil, .nil])
  | limitsOne {ts : List Token} {v : V} : Core .limit ts v → Core .limits ts (.list [.nil, v])
  | limitsOffset {o : Token} {us : List Token} {w : V} : isWord o b!"OFFSET" → Core (.expr 0) us w →
      Core .limits (o :: us) (.list [.nil, N.LimitClause (offset := w)])
  | limitsBy {b : Token} {ts us : List Token} {v : V} {vs : List V} : Core .limit ts v → isWord b b!"BY" → Core .args1 us (.list vs) →
      Core .limits (ts ++ b :: us) (.list [N.LimitByClause (limit := v) (byExpr := columns false vs), .nil])
  | limitsBoth {b : Token} {ts us xs : List Token} {v w : V} {vs : List V} : Core .limit ts v → isWord b b!"BY" → Core .args1 us (.list vs) → Core .limit xs w →
      Core .limits (ts ++ b :: (us ++ xs)) (.list [N.LimitByClause (limit := v) (byExpr := columns false vs), w])
  -- what comes before `SELECT`
  | cteQuery {a o c : Token} {ts us : List Token} {v w : V} : Core (.expr 0) ts v → isWord a b!"AS" → isSign o b!"(" → Core .query us w → isSign c b!")" →
      Core .cte (ts ++ a :: o :: (us ++ [c])) (N.CTEStmt (expr := v) (alias := w))
  | cteName {a t : Token} {ts : List Token} {v : V} : Core (.expr 0) ts v → isWord a b!"AS" → isAnyName t →
      Core .cte (ts ++ [a, t]) (N.CTEStmt (expr := v) (alias := name t))
  | cteOne {ts : List Token} {v : V} : Core .cte ts v → Core .ctes ts (.list [v])
  | cteMore {c : Token} {ts us : List Token} {v : V} {vs : List V} : Core .cte ts v → isSign c b!"," → Core .ctes us (.list vs) →
      Core .ctes (ts ++ c :: us) (.list (v :: vs))
  | withNo : Core .with_ [] .nil
  | with_ {k : Token} {ts : List Token} {v : V} : isWord k b!"WITH" → Core .ctes ts v → Core .with_ (k :: ts) (N.WithClause (cTEs := v))
  -- settings and the format
  | settingNumber {n e t : Token} : isPlainName n → isSign e b!"=" → t.kind = .int →
      Core .setting [n, e, t] (N.SettingExpr (name := name n) (expr := N.NumberLiteral (literal := t.str) (base := t.base)))
  | settingString {n e t : Token} : isPlainName n → isSign e b!"=" → t.kind = .string →
      Core .setting [n, e, t] (N.SettingExpr (name := name n) (expr := N.StringLiteral (literal := t.str)))
  | settingBool {n e t : Token} : isPlainName n → isSign e b!"=" → isWord t b!"TRUE" ∨ isWord t b!"FALSE" →
      Core .setting [n, e, t] (N.SettingExpr (name := name n) (expr := N.BoolLiteral (literal := t.str)))
  | settingOne {ts : List Token} {v : V} : Core .setting ts v → Core .settingItems ts (.list [v])
  | settingMore {c : Token} {ts us : List Token} {v : V} {vs : List V} : Core .setting ts v → isSign c b!"," → Core .settingItems us (.list vs) →
      Core .settingItems (ts ++ c :: us) (.list (v :: vs))
  | settingsNo : Core .settings [] .nil
  | settings {k : Token} {ts : List Token} {v : V} : isWord k b!"SETTINGS" → Core .settingItems ts v → Core .settings (k :: ts) (N.SettingsClause (items := v))
  | formatNo : Core .format [] .nil
  | format {k t : Token} : isWord k b!"FORMAT" → isPlainName t → Core .format [k, t] (N.FormatClause (format_ := name t))
  -- what comes after the first `SELECT`: the fields for `UNION ALL`, `UNION DISTINCT`, `EXCEPT` and `INTERSECT`
  | alone : Core .compound [] (.list [.nil, .nil, .nil, .nil])
  | unionAll {k a : Token} {ts : List Token} {v : V} : isWord k b!"UNION" → isWord a b!"ALL" → Core .query ts v →
      Core .compound (k :: a :: ts) (.list [v, .nil, .nil, .nil])
  | unionDistinct {k a : Token} {ts : List Token} {v : V} : isWord k b!"UNION" → isWord a b!"DISTINCT" → Core .query ts v →
      Core .compound (k :: a :: ts) (.list [.nil, v, .nil, .nil])
  | except {k : Token} {ts : List Token} {v : V} : isWord k b!"EXCEPT" → Core .query ts v → Core .compound (k :: ts) (.list [.nil, .nil, v, .nil])
  | intersect {k : Token} {ts : List Token} {v : V} : isWord k b!"INTERSECT" → Core .query ts v → Core .compound (k :: ts) (.list [.nil, .nil, .nil, v])
  -- without `FROM`, the word `EXCEPT` belongs to the list of what is selected; `INTERSECT` is no reserved word and is left out there
  | query {k : Token} {b : Bool} {es ds is fs ps ws gs hs os ls ss ms us : List Token} {e i f p w g h o y l s m ua ud ex it : V} : Core .with_ es e →
      isWord k b!"SELECT" → Core .distinct ds (.bool b) →
      Core .items is i → Core .from_ fs f → Core .prewhere ps p → Core .where_ ws w → Core .groupBy gs g → Core .having hs h → Core .orderBy os o →
      Core .limits ls (.list [y, l]) → Core .settings ss s → Core .format ms m → Core .compound us (.list [ua, ud, ex, it]) → (ex = .nil ∧ it = .nil ∨ f ≠ .nil) →
      Core .query (es ++ k :: (ds ++ (is ++ (fs ++ (ps ++ (ws ++ (gs ++ (hs ++ (os ++ (ls ++ (ss ++ (ms ++ us))))))))))))
        (N.SelectQuery (with_ := e) (hasDistinct := b) (selectItems := i) (from_ := f) (prewhere := p) (where_ := w) (groupBy := g) (having := h) (orderBy := o)
          (limitBy := y) (limit := l) (settings := s) (format_ := m) (unionAll := ua) (unionDistinct := ud) (except := ex) (intersect := it))

/-- A text of the core language: queries with semicolons between them.  Semicolons may stand everywhere else. -/
inductive Queries : List Token → List V → Prop
  | none : Queries [] []
  | semi {s : Token} {ts : List Token} {vs : List V} : isSign s b!";" → Queries ts vs → Queries (s :: ts) vs
  | last {ts : List Token} {v : V} : Core .query ts v → Queries ts [v]
  | more {s : Token} {ts us : List Token} {v : V} {vs : List V} : Core .query ts v → isSign s b!";" → Queries us vs → Queries (ts ++ s :: us) (v :: vs)

end Verif.Spec
