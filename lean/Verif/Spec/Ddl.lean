/-
A grammar of a core of the statements that are no queries, over tokens, that says which tree a text stands for.  It
uses the grammar of queries in Spec/Core.lean for the expressions and the queries in them; nothing here mentions
the functions of the parser.  The trees have all positions 0.

The grammar covers `USE`, `SET`, `CREATE DATABASE`, `CREATE TABLE` with columns (types, `NULL`, `DEFAULT` and the like,
`COMMENT`, `CODEC`, `TTL`), the engine and its clauses in any order and `AS` a query, `CREATE VIEW`, `DROP`, `TRUNCATE`,
`RENAME`, `INSERT` with `VALUES`, `FORMAT` or a query, `DELETE`, `ALTER TABLE` (columns, `DELETE`, `UPDATE`), `OPTIMIZE`,
`CHECK`, `EXPLAIN`, `SHOW` and `DESCRIBE`.
-/
import Verif.Spec.Core

namespace Verif.Spec
open Verif

/-- The types that are keywords. -/
def typeWords : List Str := [b!"DATE", b!"UUID", b!"ARRAY"]
/-- The name of a type. -/
def isTypeName (t : Token) : Prop := t.kind = .ident ∨ (t.kind = .keyword ∧ upper t.str ∈ typeWords)
/-- The types that have arguments of their own form. -/
def specialTypes : List Str := [b!"NESTED", b!"JSON", b!"QBIT", b!"TUPLE"]
/-- The codecs that may come before another one. -/
def firstCodecs : List Str := [b!"DELTA", b!"DOUBLEDELTA", b!"T64", b!"GORILLA", b!"GCD"]
/-- The other codecs with a level. -/
def levelCodecs : List Str := [b!"ZSTD", b!"LZ4HC", b!"LH4"]

/-- The number as a tree. -/
def number (t : Token) : V := N.NumberLiteral (literal := t.str) (base := t.base)
/-- The string as a tree. -/
def text (t : Token) : V := N.StringLiteral (literal := t.str)

/-- The parts of statements. -/
inductive Part where
  | ifExists | ifNotExists | orReplace | temporary | id | cluster | comment | modifier | column | columnNames
  | type | types | literal | literals | enumValues | fields
  | null | value | level | codec | ttl | columnDef | columnDefs | schema
  | params | ttls | engineClauses (queryNext : Bool) | engine (queryNext : Bool)
  | pair | pairs | cell | cells | rows | names
  | after | assignment | assignments | alteration | alterations | final
deriving DecidableEq, Repr

/-- The six fields for the clauses of an engine. -/
def clauses (key partition sample ttl settings order : V) : V := .list [key, partition, sample, ttl, settings, order]

/-- `Piece c ts v`: the tokens `ts` are a part of kind `c` that stands for the tree `v`. -/
inductive Piece : Part → List Token → V → Prop
  | existsNo : Piece .ifExists [] (.bool false)
  | existsYes {i e : Token} : isWord i b!"IF" → isWord e b!"EXISTS" → Piece .ifExists [i, e] (.bool true)
  | notExistsNo : Piece .ifNotExists [] (.bool false)
  | notExistsYes {i n e : Token} : isWord i b!"IF" → isWord n b!"NOT" → isWord e b!"EXISTS" → Piece .ifNotExists [i, n, e] (.bool true)
  | replaceNo : Piece .orReplace [] (.bool false)
  | replaceYes {o r : Token} : isWord o b!"OR" → isWord r b!"REPLACE" → Piece .orReplace [o, r] (.bool true)
  | temporaryNo : Piece .temporary [] (.bool false)
  | temporaryYes {t : Token} : isWord t b!"TEMPORARY" → Piece .temporary [t] (.bool true)
  -- names
  | idName {t : Token} : isPlainName t → Piece .id [t] (N.TableIdentifier (table := name t))
  | idOf {d p t : Token} : isPlainName d → isSign p b!"." → isAnyName t → Piece .id [d, p, t] (N.TableIdentifier (database := name d) (table := name t))
  | clusterNo : Piece .cluster [] .nil
  | clusterName {o k t : Token} : isWord o b!"ON" → isWord k b!"CLUSTER" → isPlainName t → Piece .cluster [o, k, t] (N.ClusterClause (expr := name t))
  | clusterText {o k t : Token} : isWord o b!"ON" → isWord k b!"CLUSTER" → t.kind = .string → Piece .cluster [o, k, t] (N.ClusterClause (expr := text t))
  | commentNo : Piece .comment [] .nil
  | comment {k t : Token} : isWord k b!"COMMENT" → t.kind = .string → Piece .comment [k, t] (text t)
  | modifierNo : Piece .modifier [] (.str b!"")
  | sync {t : Token} : isWord t b!"SYNC" → Piece .modifier [t] (.str b!"SYNC")
  | noDelay {n d : Token} : isWord n b!"NO" → isWord d b!"DELAY" → Piece .modifier [n, d] (.str b!"NO DELAY")
  | column {t : Token} : isPlainName t → Piece .column [t] (N.NestedIdentifier (ident := name t))
  | columnOf {t d u : Token} : isPlainName t → isSign d b!"." → isAnyName u →
      Piece .column [t, d, u] (N.NestedIdentifier (ident := name t) (dotIdent := name u))
  | nameOne {ts : List Token} {v : V} : Piece .column ts v → Piece .names ts (.list [v])
  | nameMore {c : Token} {ts us : List Token} {v : V} {vs : List V} : Piece .column ts v → isSign c b!"," → Piece .names us (.list vs) →
      Piece .names (ts ++ c :: us) (.list (v :: vs))
  | columnNamesNo : Piece .columnNames [] .nil
  | columnNames {o c : Token} {ts : List Token} {v : V} : isSign o b!"(" → Piece .names ts v → isSign c b!")" →
      Piece .columnNames (o :: (ts ++ [c])) (N.ColumnNamesExpr (columnNames := v))
  -- types
  | scalar {t : Token} : isTypeName t → Piece .type [t] (N.ScalarType (name := name t))
  | complex {t o c : Token} {ts : List Token} {v : V} : isTypeName t → upper t.str ∉ specialTypes → isSign o b!"(" → Piece .types ts v → isSign c b!")" →
      Piece .type (t :: o :: (ts ++ [c])) (N.ComplexType (name := name t) (params := v))
  | tuple {t o c : Token} {ts : List Token} {v : V} : isTypeName t → upper t.str = b!"TUPLE" → isSign o b!"(" → Piece .types ts v → isSign c b!")" →
      Piece .type (t :: o :: (ts ++ [c])) (N.NestedType (name := name t) (columns := v))
  | nested {t o c : Token} {ts : List Token} {v : V} : isTypeName t → upper t.str = b!"TUPLE" ∨ upper t.str = b!"NESTED" → isSign o b!"(" → Piece .fields ts v →
      isSign c b!")" → Piece .type (t :: o :: (ts ++ [c])) (N.NestedType (name := name t) (columns := v))
  | empty {t o c : Token} : isTypeName t → isSign o b!"(" → isSign c b!")" → Piece .type [t, o, c] (N.TypeWithParams (name := name t))
  | typeParams {t o c : Token} {ts : List Token} {v : V} : isTypeName t → isSign o b!"(" → Piece .literals ts v → isSign c b!")" →
      Piece .type (t :: o :: (ts ++ [c])) (N.TypeWithParams (name := name t) (params := v))
  | enum {t o c : Token} {ts : List Token} {v : V} : isTypeName t → isSign o b!"(" → Piece .enumValues ts v → isSign c b!")" →
      Piece .type (t :: o :: (ts ++ [c])) (N.EnumType (name := name t) (values := v))
  | typeOne {ts : List Token} {v : V} : Piece .type ts v → Piece .types ts (.list [v])
  | typeMore {c : Token} {ts us : List Token} {v : V} {vs : List V} : Piece .type ts v → isSign c b!"," → Piece .types us (.list vs) →
      Piece .types (ts ++ c :: us) (.list (v :: vs))
  | literalNumber {t : Token} : t.kind = .int ∨ t.kind = .float → Piece .literal [t] (number t)
  | literalText {t : Token} : t.kind = .string → Piece .literal [t] (text t)
  | literalOne {ts : List Token} {v : V} : Piece .literal ts v → Piece .literals ts (.list [v])
  | literalMore {c : Token} {ts us : List Token} {v : V} {vs : List V} : Piece .literal ts v → isSign c b!"," → Piece .literals us (.list vs) →
      Piece .literals (ts ++ c :: us) (.list (v :: vs))
  | enumOne {s e n : Token} : s.kind = .string → isSign e b!"=" → n.kind = .int → Piece .enumValues [s, e, n] (.list [N.EnumValue (name := text s) (value := number n)])
  | enumMore {s e n c : Token} {us : List Token} {vs : List V} : s.kind = .string → isSign e b!"=" → n.kind = .int → isSign c b!"," → Piece .enumValues us (.list vs) →
      Piece .enumValues (s :: e :: n :: c :: us) (.list (N.EnumValue (name := text s) (value := number n) :: vs))
  | fieldOne {t : Token} {ts : List Token} {v : V} : isPlainName t → Piece .type ts v →
      Piece .fields (t :: ts) (.list [N.ColumnDef (name := N.NestedIdentifier (ident := name t)) (type_ := v)])
  | fieldMore {t c : Token} {ts us : List Token} {v : V} {vs : List V} : isPlainName t → Piece .type ts v → isSign c b!"," → Piece .fields us (.list vs) →
      Piece .fields (t :: (ts ++ c :: us)) (.list (N.ColumnDef (name := N.NestedIdentifier (ident := name t)) (type_ := v) :: vs))
  -- columns; the fields for `NOT NULL` and `NULL`, and those for `DEFAULT`, `MATERIALIZED` and `ALIAS`
  | nullNo : Piece .null [] (.list [.nil, .nil])
  | null {n : Token} : isWord n b!"NULL" → Piece .null [n] (.list [.nil, N.NullLiteral])
  | notNull {o n : Token} : isWord o b!"NOT" → isWord n b!"NULL" → Piece .null [o, n] (.list [N.NotNullLiteral (nullLiteral := N.NullLiteral), .nil])
  | valueNo : Piece .value [] (.list [.nil, .nil, .nil])
  | default {k : Token} {ts : List Token} {v : V} : isWord k b!"DEFAULT" → Core (.expr 0) ts v → Piece .value (k :: ts) (.list [v, .nil, .nil])
  | materialized {k : Token} {ts : List Token} {v : V} : isWord k b!"MATERIALIZED" → Core (.expr 0) ts v → Piece .value (k :: ts) (.list [.nil, v, .nil])
  | alias {k : Token} {ts : List Token} {v : V} : isWord k b!"ALIAS" → Core (.expr 0) ts v → Piece .value (k :: ts) (.list [.nil, .nil, v])
  | levelNo : Piece .level [] .nil
  | level {o n c : Token} : isSign o b!"(" → n.kind = .int → isSign c b!")" → Piece .level [o, n, c] (number n)
  | codecNo : Piece .codec [] .nil
  | codec {k o n c : Token} {ts : List Token} {v : V} : isWord k b!"CODEC" → isSign o b!"(" → isPlainName n → Piece .level ts v →
      (ts ≠ [] → upper n.str ∈ firstCodecs ++ levelCodecs) → isSign c b!")" →
      Piece .codec (k :: o :: n :: (ts ++ [c])) (N.CompressionCodec (name := name n) (level := v))
  | codecs {k o f m n c : Token} {ts us : List Token} {v w : V} : isWord k b!"CODEC" → isSign o b!"(" → isPlainName f → upper f.str ∈ firstCodecs → Piece .level ts v →
      isSign m b!"," → isPlainName n → Piece .level us w → (us ≠ [] → upper n.str ∈ levelCodecs) → isSign c b!")" →
      Piece .codec (k :: o :: f :: (ts ++ m :: n :: (us ++ [c]))) (N.CompressionCodec (type_ := name f) (typeLevel := v) (name := name n) (level := w))
  | ttlNo : Piece .ttl [] .nil
  | ttl {k : Token} {ts : List Token} {v : V} : isWord k b!"TTL" → Core (.expr 0) ts v → Piece .ttl (k :: ts) (N.TTLClause (items := .list [N.TTLExpr (expr := v)]))
  | columnDef {as bs cs ds es fs gs : List Token} {a b c1 c2 d1 d2 d3 e f g : V} : Piece .column as a → Piece .type bs b → Piece .null cs (.list [c1, c2]) →
      Piece .value ds (.list [d1, d2, d3]) → Piece .comment es e → Piece .codec fs f → Piece .ttl gs g →
      Piece .columnDef (as ++ (bs ++ (cs ++ (ds ++ (es ++ (fs ++ gs))))))
        (N.ColumnDef (name := a) (type_ := b) (notNull := c1) (nullable := c2) (defaultExpr := d1) (materializedExpr := d2) (aliasExpr := d3) (comment := e)
          (codec := f) (ttl := g))
  | columnDefOne {ts : List Token} {v : V} : Piece .columnDef ts v → Piece .columnDefs ts (.list [v])
  | columnDefMore {c : Token} {ts us : List Token} {v : V} {vs : List V} : Piece .columnDef ts v → isSign c b!"," → Piece .columnDefs us (.list vs) →
      Piece .columnDefs (ts ++ c :: us) (.list (v :: vs))
  | schemaNo : Piece .schema [] .nil
  | schema {o c : Token} {ts : List Token} {v : V} : isSign o b!"(" → Piece .columnDefs ts v → isSign c b!")" →
      Piece .schema (o :: (ts ++ [c])) (N.TableSchemaClause (columns := v))
  -- engines
  | paramsNo : Piece .params [] .nil
  | params {o c : Token} {ts : List Token} {vs : List V} : isSign o b!"(" → Core .args ts (.list vs) → isSign c b!")" →
      Piece .params (o :: (ts ++ [c])) (N.ParamExprList (items := columns false vs))
  | ttlsOne {ts : List Token} {v : V} : Core (.expr 0) ts v → Piece .ttls ts (.list [N.TTLExpr (expr := v)])
  | ttlsMore {c : Token} {ts us : List Token} {v : V} {vs : List V} : Core (.expr 0) ts v → isSign c b!"," → Piece .ttls us (.list vs) →
      Piece .ttls (ts ++ c :: us) (.list (N.TTLExpr (expr := v) :: vs))
  | clausesNo {q : Bool} : Piece (.engineClauses q) [] (clauses .nil .nil .nil .nil .nil .nil)
  | primaryKey {q : Bool} {k e : Token} {ts us : List Token} {v p s t g o : V} : isWord k b!"PRIMARY" → isWord e b!"KEY" → Core (.expr 0) ts v →
      Piece (.engineClauses q) us (clauses .nil p s t g o) →
      Piece (.engineClauses q) (k :: e :: (ts ++ us)) (clauses (N.PrimaryKeyClause (expr := v)) p s t g o)
  -- the parser would take the word `AS` before a query for an alias of what to partition by
  | partitionBy {q : Bool} {k b : Token} {ts us : List Token} {vs : List V} {y s t g o : V} : isWord k b!"PARTITION" → isWord b b!"BY" → Core .args1 ts (.list vs) →
      Piece (.engineClauses q) us (clauses y .nil s t g o) → (q = true → us ≠ []) →
      Piece (.engineClauses q) (k :: b :: (ts ++ us)) (clauses y (N.PartitionByClause (expr := columns false vs)) s t g o)
  | sampleBy {q : Bool} {k b : Token} {ts us : List Token} {v y p t g o : V} : isWord k b!"SAMPLE" → isWord b b!"BY" → Core (.expr 0) ts v →
      Piece (.engineClauses q) us (clauses y p .nil t g o) →
      Piece (.engineClauses q) (k :: b :: (ts ++ us)) (clauses y p (N.SampleByClause (expr := v)) t g o)
  | ttlBy {q : Bool} {k : Token} {ts us : List Token} {v y p s g o : V} : isWord k b!"TTL" → Piece .ttls ts v →
      Piece (.engineClauses q) us (clauses y p s .nil g o) → Piece (.engineClauses q) (k :: (ts ++ us)) (clauses y p s (N.TTLClause (items := v)) g o)
  | settingsBy {q : Bool} {k : Token} {ts us : List Token} {v y p s t o : V} : isWord k b!"SETTINGS" → Core .settingItems ts v →
      Piece (.engineClauses q) us (clauses y p s t .nil o) → Piece (.engineClauses q) (k :: (ts ++ us)) (clauses y p s t (N.SettingsClause (items := v)) o)
  | orderBy {q : Bool} {k b : Token} {ts us : List Token} {v y p s t g : V} : isWord k b!"ORDER" → isWord b b!"BY" → Core (.expr 0) ts v →
      Piece (.engineClauses q) us (clauses y p s t g .nil) →
      Piece (.engineClauses q) (k :: b :: (ts ++ us)) (clauses y p s t g (N.OrderByClause (items := .list [N.OrderExpr (expr := v)])))
  | engineNo {q : Bool} : Piece (.engine q) [] .nil
  | engine {q : Bool} {k n : Token} {es ts us : List Token} {v y p s t g o : V} : isWord k b!"ENGINE" → es = [] ∨ (∃ e, es = [e] ∧ isSign e b!"=") → isPlainName n →
      Piece .params ts v → Piece (.engineClauses q) us (clauses y p s t g o) →
      Piece (.engine q) (k :: (es ++ n :: (ts ++ us)))
        (N.EngineExpr (name := n.str) (params := v) (primaryKey := y) (partitionBy := p) (sampleBy := s) (ttl := t) (settings := g) (orderBy := o))
  -- `RENAME`
  | pair {k : Token} {ts us : List Token} {v w : V} : Piece .id ts v → isWord k b!"TO" → Piece .id us w → Piece .pair (ts ++ k :: us) (N.TargetPair (old := v) (new := w))
  | pairOne {ts : List Token} {v : V} : Piece .pair ts v → Piece .pairs ts (.list [v])
  | pairMore {c : Token} {ts us : List Token} {v : V} {vs : List V} : Piece .pair ts v → isSign c b!"," → Piece .pairs us (.list vs) →
      Piece .pairs (ts ++ c :: us) (.list (v :: vs))
  -- `INSERT`; a parenthesis in a row opens a row within it
  | cell {ts : List Token} {v : V} : Core (.expr 0) ts v → (∀ t ∈ ts.head?, ¬ isSign t b!"(") → Piece .cell ts v
  | cellRow {o c : Token} {ts : List Token} {v : V} : isSign o b!"(" → Piece .cells ts v → isSign c b!")" →
      Piece .cell (o :: (ts ++ [c])) (N.AssignmentValues (values := v))
  | cellOne {ts : List Token} {v : V} : Piece .cell ts v → Piece .cells ts (.list [v])
  | cellMore {c : Token} {ts us : List Token} {v : V} {vs : List V} : Piece .cell ts v → isSign c b!"," → Piece .cells us (.list vs) →
      Piece .cells (ts ++ c :: us) (.list (v :: vs))
  | rowOne {o c : Token} {ts : List Token} {v : V} : isSign o b!"(" → Piece .cells ts v → isSign c b!")" →
      Piece .rows (o :: (ts ++ [c])) (.list [N.AssignmentValues (values := v)])
  | rowMore {o c m : Token} {ts us : List Token} {v : V} {vs : List V} : isSign o b!"(" → Piece .cells ts v → isSign c b!")" → isSign m b!"," → Piece .rows us (.list vs) →
      Piece .rows (o :: (ts ++ c :: m :: us)) (.list (N.AssignmentValues (values := v) :: vs))
  -- `ALTER TABLE`
  | afterNo : Piece .after [] .nil
  | after {k : Token} {ts : List Token} {v : V} : isWord k b!"AFTER" → Piece .column ts v → Piece .after (k :: ts) v
  | assignment {e : Token} {ts us : List Token} {v w : V} : Piece .column ts v → isSign e b!"=" → Core (.expr 10) us w →
      Piece .assignment (ts ++ e :: us) (N.UpdateAssignment (column := v) (expr := w))
  | assignmentOne {ts : List Token} {v : V} : Piece .assignment ts v → Piece .assignments ts (.list [v])
  | assignmentMore {c : Token} {ts us : List Token} {v : V} {vs : List V} : Piece .assignment ts v → isSign c b!"," → Piece .assignments us (.list vs) →
      Piece .assignments (ts ++ c :: us) (.list (v :: vs))
  | addColumn {a k : Token} {b : Bool} {ts us xs : List Token} {v w : V} : isWord a b!"ADD" → isWord k b!"COLUMN" → Piece .ifNotExists ts (.bool b) →
      Piece .columnDef us v → Piece .after xs w →
      Piece .alteration (a :: k :: (ts ++ (us ++ xs))) (N.AlterTableAddColumn (column := v) (ifNotExists := b) (after := w))
  | modifyColumn {a k : Token} {b : Bool} {ts us : List Token} {v : V} : isWord a b!"MODIFY" → isWord k b!"COLUMN" → Piece .ifExists ts (.bool b) →
      Piece .columnDef us v → Piece .alteration (a :: k :: (ts ++ us)) (N.AlterTableModifyColumn (column := v) (ifExists := b))
  | dropColumn {a k : Token} {b : Bool} {ts us : List Token} {v : V} : isWord a b!"DROP" → isWord k b!"COLUMN" → Piece .ifExists ts (.bool b) →
      Piece .column us v → Piece .alteration (a :: k :: (ts ++ us)) (N.AlterTableDropColumn (columnName := v) (ifExists := b))
  | dropIndex {a k : Token} {b : Bool} {ts us : List Token} {v : V} : isWord a b!"DROP" → isWord k b!"INDEX" → Piece .ifExists ts (.bool b) →
      Piece .column us v → Piece .alteration (a :: k :: (ts ++ us)) (N.AlterTableDropIndex (indexName := v) (ifExists := b))
  | dropProjection {a k : Token} {b : Bool} {ts us : List Token} {v : V} : isWord a b!"DROP" → isWord k b!"PROJECTION" → Piece .ifExists ts (.bool b) →
      Piece .column us v → Piece .alteration (a :: k :: (ts ++ us)) (N.AlterTableDropProjection (projectionName := v) (ifExists := b))
  | renameColumn {a k t : Token} {b : Bool} {ts us xs : List Token} {v w : V} : isWord a b!"RENAME" → isWord k b!"COLUMN" → Piece .ifExists ts (.bool b) →
      Piece .column us v → isWord t b!"TO" → Piece .column xs w →
      Piece .alteration (a :: k :: (ts ++ (us ++ t :: xs))) (N.AlterTableRenameColumn (oldColumnName := v) (newColumnName := w) (ifExists := b))
  | deleteWhere {a k : Token} {ts : List Token} {v : V} : isWord a b!"DELETE" → isWord k b!"WHERE" → Core (.expr 0) ts v →
      Piece .alteration (a :: k :: ts) (N.AlterTableDelete (whereClause := v))
  | updateWhere {a k : Token} {ts us : List Token} {v w : V} : isWord a b!"UPDATE" → Piece .assignments ts v → isWord k b!"WHERE" → Core (.expr 0) us w →
      Piece .alteration (a :: (ts ++ k :: us)) (N.AlterTableUpdate (assignments := v) (whereClause := w))
  | alterationOne {ts : List Token} {v : V} : Piece .alteration ts v → Piece .alterations ts (.list [v])
  | alterationMore {c : Token} {ts us : List Token} {v : V} {vs : List V} : Piece .alteration ts v → isSign c b!"," → Piece .alterations us (.list vs) →
      Piece .alterations (ts ++ c :: us) (.list (v :: vs))
  | finalNo : Piece .final [] (.bool false)
  | finalYes {t : Token} : isWord t b!"FINAL" → Piece .final [t] (.bool true)

/-- `Statement ts v`: the tokens `ts` are a statement that stands for the tree `v`. -/
inductive Statement : List Token → V → Prop
  | query {ts : List Token} {v : V} : Core .query ts v → Statement ts v
  | use {k t : Token} : isWord k b!"USE" → isPlainName t → Statement [k, t] (N.UseStmt (database := name t))
  | set {k : Token} {ts : List Token} {v : V} : isWord k b!"SET" → Core .settingItems ts v → Statement (k :: ts) (N.SetStmt (settings := N.SettingsClause (items := v)))
  | createDatabase {k d t : Token} {b : Bool} {bs cs es ms : List Token} {c e m : V} : isWord k b!"CREATE" → isWord d b!"DATABASE" → Piece .ifNotExists bs (.bool b) →
      isPlainName t → Piece .cluster cs c → Piece (.engine false) es e → Piece .comment ms m →
      Statement (k :: d :: (bs ++ t :: (cs ++ (es ++ ms)))) (N.CreateDatabase (name := name t) (ifNotExists := b) (onCluster := c) (engine := e) (comment := m))
  | createTable {k t : Token} {r p b : Bool} {rs ps bs is cs ss es ms : List Token} {i c s e m : V} : isWord k b!"CREATE" → Piece .orReplace rs (.bool r) →
      Piece .temporary ps (.bool p) → isWord t b!"TABLE" → Piece .ifNotExists bs (.bool b) → Piece .id is i → Piece .cluster cs c → Piece .schema ss s →
      Piece (.engine false) es e → Piece .comment ms m →
      Statement (k :: (rs ++ (ps ++ t :: (bs ++ (is ++ (cs ++ (ss ++ (es ++ ms))))))))
        (N.CreateTable (orReplace := r) (hasTemporary := p) (ifNotExists := b) (name := i) (onCluster := c) (tableSchema := s) (engine := e) (comment := m))
  -- the parser would take the word `WITH` for an alias of the sorting key
  | createTableAs {k t a : Token} {r p b : Bool} {rs ps bs is cs ss es qs : List Token} {i c s e q : V} : isWord k b!"CREATE" → Piece .orReplace rs (.bool r) →
      Piece .temporary ps (.bool p) → isWord t b!"TABLE" → Piece .ifNotExists bs (.bool b) → Piece .id is i → Piece .cluster cs c → Piece .schema ss s →
      Piece (.engine true) es e → isWord a b!"AS" → Core .query qs q → (es ≠ [] → ∀ t ∈ qs.head?, ¬ isWord t b!"WITH") →
      Statement (k :: (rs ++ (ps ++ t :: (bs ++ (is ++ (cs ++ (ss ++ (es ++ a :: qs))))))))
        (N.CreateTable (orReplace := r) (hasTemporary := p) (ifNotExists := b) (name := i) (onCluster := c) (tableSchema := s) (engine := e)
          (subQuery := N.SubQuery (select := q)))
  | createView {k t a : Token} {r b : Bool} {rs bs is cs ss ms qs : List Token} {i c s m q : V} : isWord k b!"CREATE" → Piece .orReplace rs (.bool r) →
      isWord t b!"VIEW" → Piece .ifNotExists bs (.bool b) → Piece .id is i → Piece .cluster cs c → Piece .schema ss s → Piece .comment ms m →
      isWord a b!"AS" → Core .query qs q →
      Statement (k :: (rs ++ t :: (bs ++ (is ++ (cs ++ (ss ++ (ms ++ a :: qs)))))))
        (N.CreateView (orReplace := r) (ifNotExists := b) (name := i) (onCluster := c) (tableSchema := s) (comment := m) (subQuery := N.SubQuery (select := q)))
  | dropDatabase {k d t : Token} {b : Bool} {m : Str} {bs cs ms : List Token} {c : V} : isWord k b!"DROP" → isWord d b!"DATABASE" → Piece .ifExists bs (.bool b) →
      isPlainName t → Piece .cluster cs c → Piece .modifier ms (.str m) →
      Statement (k :: d :: (bs ++ t :: (cs ++ ms))) (N.DropDatabase (name := name t) (ifExists := b) (onCluster := c) (modifier := m))
  | dropTable {k d : Token} {p b : Bool} {m : Str} {ps bs is cs ms : List Token} {i c : V} : isWord k b!"DROP" → Piece .temporary ps (.bool p) → isWord d b!"TABLE" →
      Piece .ifExists bs (.bool b) → Piece .id is i → Piece .cluster cs c → Piece .modifier ms (.str m) →
      Statement (k :: (ps ++ d :: (bs ++ (is ++ (cs ++ ms)))))
        (N.DropStmt (dropTarget := b!"TABLE") (name := i) (ifExists := b) (onCluster := c) (isTemporary := p) (modifier := m))
  | dropOther {k d : Token} {b : Bool} {w m : Str} {bs is cs ms : List Token} {i c : V} : isWord k b!"DROP" → w = b!"VIEW" ∨ w = b!"DICTIONARY" → isWord d w →
      Piece .ifExists bs (.bool b) → Piece .id is i → Piece .cluster cs c → Piece .modifier ms (.str m) →
      Statement (k :: d :: (bs ++ (is ++ (cs ++ ms)))) (N.DropStmt (dropTarget := w) (name := i) (ifExists := b) (onCluster := c) (modifier := m))
  | truncate {k d : Token} {p b : Bool} {ps bs is cs : List Token} {i c : V} : isWord k b!"TRUNCATE" → Piece .temporary ps (.bool p) → isWord d b!"TABLE" →
      Piece .ifExists bs (.bool b) → Piece .id is i → Piece .cluster cs c →
      Statement (k :: (ps ++ d :: (bs ++ (is ++ cs)))) (N.TruncateTable (isTemporary := p) (ifExists := b) (name := i) (onCluster := c))
  | rename {k d : Token} {w : Str} {ts cs : List Token} {v c : V} : isWord k b!"RENAME" → w = b!"TABLE" ∨ w = b!"DICTIONARY" ∨ w = b!"DATABASE" → isWord d w →
      Piece .pairs ts v → Piece .cluster cs c → Statement (k :: d :: (ts ++ cs)) (N.RenameStmt (renameTarget := w) (targetPairList := v) (onCluster := c))
  | insertValues {k i t : Token} {is ns rs ws : List Token} {b : Bool} {v n r : V} : isWord k b!"INSERT" → isWord i b!"INTO" →
      (ws = [] ∧ b = false ∨ ∃ w, ws = [w] ∧ isWord w b!"TABLE" ∧ b = true) → Piece .id is v → Piece .columnNames ns n → isWord t b!"VALUES" → Piece .rows rs r →
      Statement (k :: i :: (ws ++ (is ++ (ns ++ t :: rs)))) (N.InsertStmt (hasTableKeyword := b) (table := v) (columnNames := n) (values := r))
  | insertFormat {k i t f : Token} {is ns ws : List Token} {b : Bool} {v n : V} : isWord k b!"INSERT" → isWord i b!"INTO" →
      (ws = [] ∧ b = false ∨ ∃ w, ws = [w] ∧ isWord w b!"TABLE" ∧ b = true) → Piece .id is v → Piece .columnNames ns n → isWord t b!"FORMAT" → isPlainName f →
      Statement (k :: i :: (ws ++ (is ++ (ns ++ [t, f])))) (N.InsertStmt (hasTableKeyword := b) (table := v) (columnNames := n) (format_ := N.FormatClause (format_ := name f)))
  -- the parser looks for `SELECT` there, so `INSERT … WITH …` is no statement
  | insertQuery {k i : Token} {is ns qs ws : List Token} {b : Bool} {v n q : V} : isWord k b!"INSERT" → isWord i b!"INTO" →
      (ws = [] ∧ b = false ∨ ∃ w, ws = [w] ∧ isWord w b!"TABLE" ∧ b = true) → Piece .id is v → Piece .columnNames ns n → Core .query qs q →
      (∀ t ∈ qs.head?, ¬ isWord t b!"WITH") →
      Statement (k :: i :: (ws ++ (is ++ (ns ++ qs)))) (N.InsertStmt (hasTableKeyword := b) (table := v) (columnNames := n) (selectExpr := q))
  | delete {k f w : Token} {is cs ts : List Token} {i c v : V} : isWord k b!"DELETE" → isWord f b!"FROM" → Piece .id is i → Piece .cluster cs c → isWord w b!"WHERE" →
      Core (.expr 0) ts v → Statement (k :: f :: (is ++ (cs ++ w :: ts))) (N.DeleteClause (table := i) (onCluster := c) (whereExpr := v))
  | alterTable {k d : Token} {is cs ts : List Token} {i c v : V} : isWord k b!"ALTER" → isWord d b!"TABLE" → Piece .id is i → Piece .cluster cs c → Piece .alterations ts v →
      Statement (k :: d :: (is ++ (cs ++ ts))) (N.AlterTable (tableIdentifier := i) (onCluster := c) (alterExprs := v))
  | optimize {k d : Token} {b : Bool} {is cs fs : List Token} {i c : V} : isWord k b!"OPTIMIZE" → isWord d b!"TABLE" → Piece .id is i → Piece .cluster cs c →
      Piece .final fs (.bool b) → Statement (k :: d :: (is ++ (cs ++ fs))) (N.OptimizeStmt (table := i) (onCluster := c) (hasFinal := b))
  | check {k d : Token} {is : List Token} {i : V} : isWord k b!"CHECK" → isWord d b!"TABLE" → Piece .id is i → Statement (k :: d :: is) (N.CheckStmt (table := i))
  | explain {k t : Token} {qs : List Token} {q : V} : isWord k b!"EXPLAIN" → t.kind = .keyword → upper t.str ∈ [b!"SYNTAX", b!"PIPELINE", b!"ESTIMATE", b!"AST"] →
      Core .query qs q → Statement (k :: t :: qs) (N.ExplainStmt (type_ := t.str) (statement := q))
  | showCreate {k c t : Token} {is : List Token} {i : V} : isWord k b!"SHOW" → isWord c b!"CREATE" → isWord t b!"TABLE" → Piece .id is i →
      Statement (k :: c :: t :: is) (N.ShowStmt (showType := b!"CREATE TABLE") (target := i))
  | showDatabases {k t : Token} : isWord k b!"SHOW" → isWord t b!"DATABASES" → Statement [k, t] (N.ShowStmt (showType := b!"DATABASES"))
  | showTables {k t : Token} : isWord k b!"SHOW" → isWord t b!"TABLES" → Statement [k, t] (N.ShowStmt (showType := b!"TABLES"))
  | describe {k : Token} {is : List Token} {i : V} : isWord k b!"DESC" ∨ isWord k b!"DESCRIBE" → Piece .id is i → Statement (k :: is) (N.DescribeStmt (target := i))
  | describeTable {k t : Token} {is : List Token} {i : V} : isWord k b!"DESC" ∨ isWord k b!"DESCRIBE" → isWord t b!"TABLE" → Piece .id is i →
      Statement (k :: t :: is) (N.DescribeStmt (describeType := b!"TABLE") (target := i))

/-- A text: statements with semicolons between them.  Semicolons may stand everywhere else. -/
inductive Statements : List Token → List V → Prop
  | none : Statements [] []
  | semi {s : Token} {ts : List Token} {vs : List V} : isSign s b!";" → Statements ts vs → Statements (s :: ts) vs
  | last {ts : List Token} {v : V} : Statement ts v → Statements ts [v]
  | more {s : Token} {ts us : List Token} {v : V} {vs : List V} : Statement ts v → isSign s b!";" → Statements us vs → Statements (ts ++ s :: us) (v :: vs)

end Verif.Spec
