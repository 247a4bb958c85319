/-
When two results of the parser say the same, although they come from different texts: they may
differ in positions, and in the spelling of words as far as a relation `R` allows.
-/
import Verif.Spec.Parsed
import Verif.Spec.Scan

namespace Verif

/-- What is asked of two values in the same place, besides being alike: nothing (`rel`), both nil,
both nil or the empty slice, equal, the same number, both numbers, both or neither 0, a pointer to a struct of
type `t`, a slice of such pointers, or a pointer to a token of which only a keyword may be spelled
differently. -/
inductive RTy where
  | nul | emp | exact | int | num | zero
  | st (t : Ty)
  | ls (t : Ty)
  | tok
  | rel
deriving DecidableEq, Repr

/-- The fields that hold neither a position nor a piece of the source text, and so must be equal.
`Line` and `Column` of an error are positions.  Four methods ask whether a position is 0
(parser/ast.go:3722, 4438, 5069, 5133): `IntervalPos`, `LParenPos` of a dictionary argument and `EndPos` of a window
frame or a `WINDOW` clause, which is the end of its last window, are 0 in both or in none. -/
def fieldTy : Ty → Nat → RTy
  | .Token, 2 | .Token, 4 | .Token, 5 => .exact
  | .Ident, 1 => .exact
  | .NumberLiteral, 3 => .exact
  | .KeywordArgForm, _ => .exact
  | .ParseError, 1 | .ParseError, 2 => .num
  | .CreateMaterializedView, 13 => .st .DestinationClause
  | .IntervalExpr, 0 | .DictionaryArgExpr, 4 | .WindowFrameExtendExpr, 2 | .WindowClause, 1 | .WindowExpr, 1 => .zero
  | .WindowDefinition, 2 => .st .WindowExpr
  | _, _ => .rel

/-- The texts (field 3) of tokens that are no keywords (field 2) are equal. -/
def TokenSide (v w : V) : Prop :=
  ∀ k, v.field 2 = some (.str k) → k ≠ Kind.keyword.toStr → v.field 3 = w.field 3

/-- The condition of `RTy`. -/
def RTy.side : RTy → V → V → Prop
  | .nul, v, _ => v = .nil
  | .emp, v, w => v = w ∧ (v = .nil ∨ v = .list [])
  | .exact, v, w => v = w
  | .int, v, w => ∃ n, v = .nat n ∧ w = .nat n
  | .num, v, w => ∃ m n, v = .nat m ∧ w = .nat n
  | .zero, v, w => v = .nat 0 ↔ w = .nat 0
  | .st t, v, _ => v = .nil ∨ v.ty? = some t
  | .ls t, v, _ => ∀ x ∈ v.items, x = .nil ∨ x.ty? = some t
  | .tok, v, w => (v = .nil ∨ v.ty? = some .Token) ∧ TokenSide v w
  | .rel, _, _ => True

mutual
/-- The values are alike: of the same shape, with numbers that are free except in the fields given by
`fieldTy`, and with strings related by `R`. -/
inductive V.Sim (R : Str → Str → Prop) : V → V → Prop
  | nil : V.Sim R .nil .nil
  | nat (m n : Nat) : V.Sim R (.nat m) (.nat n)
  | bool (b : Bool) : V.Sim R (.bool b) (.bool b)
  | str {s t : Str} : R s t → V.Sim R (.str s) (.str t)
  | list {vs ws : List V} : V.SimL R vs ws → V.Sim R (.list vs) (.list ws)
  | mk {t : Ty} {fs gs : List V} : V.SimF R t 0 fs gs → V.Sim R (.mk t fs) (.mk t gs)
/-- Lists of the same length with values that are alike. -/
inductive V.SimL (R : Str → Str → Prop) : List V → List V → Prop
  | nil : V.SimL R [] []
  | cons {v w : V} {vs ws : List V} : V.Sim R v w → V.SimL R vs ws → V.SimL R (v :: vs) (w :: ws)
/-- Fields from number `i` on of two structs of type `t`. -/
inductive V.SimF (R : Str → Str → Prop) : Ty → Nat → List V → List V → Prop
  | nil {t : Ty} {i : Nat} : V.SimF R t i [] []
  | cons {t : Ty} {i : Nat} {v w : V} {vs ws : List V} : V.Sim R v w → (fieldTy t i).side v w →
      V.SimF R t (i + 1) vs ws → V.SimF R t i (v :: vs) (w :: ws)
end

mutual
/-- A value without its positions, and with `c` applied to all strings: of a struct the fields of the Go type
`Pos` (parser/ast.go, tabulated in `schema`) become 0. -/
def V.norm (c : Str → Str) : V → V
  | .str s => .str (c s)
  | .list l => .list (V.normL c l)
  | .mk t fs => .mk t (V.normF c (schema t) fs)
  | v => v
/-- The same for a list. -/
def V.normL (c : Str → Str) : List V → List V
  | [] => []
  | v :: l => v.norm c :: V.normL c l
/-- The same for fields of the given types. -/
def V.normF (c : Str → Str) : List FTy → List V → List V
  | .pos :: τs, _ :: fs => .nat 0 :: V.normF c τs fs
  | _ :: τs, v :: fs => v.norm c :: V.normF c τs fs
  | _, _ => []
end

/-- The same trees up to positions. -/
def SameTrees (vs ws : List V) : Prop := vs.map (V.norm id) = ws.map (V.norm id)

/-- The same trees up to positions and the letter case of the strings in them. -/
def SameTreesFold (vs ws : List V) : Prop := vs.map (V.norm upper) = ws.map (V.norm upper)

/-- The values are alike and meet the condition of `τ`. -/
def RTy.holds (R : Str → Str → Prop) (τ : RTy) (v w : V) : Prop := V.Sim R v w ∧ τ.side v w

/-- The words the parser compares with a piece of source text letter by letter, although words are otherwise
compared up to letter case (parser/parser_column.go:134, 1458, 1464, 1518, 1524, parser_query.go:360,
parse_system.go:440, 462, 814, 822, 1212). -/
def exactWords : List Str :=
  [b!"Tuple", b!"dictGet", b!"MIN", b!"MAX", b!"PROFILE", b!"NONE", b!"READABLE", b!"WRITABLE", b!"CONST",
   b!"CHANGEABLE_IN_READONLY", b!"ROLE", b!"DATABASE", b!"ARRAY", b!"max_dynamic_types", b!"max_dynamic_paths"]

/-- What is put in front of a piece of source text (parser/parser_column.go:236, parser_common.go). -/
def prefixes : List Str := [b!"NOT ", b!"."]

/-- What is put behind a piece of source text (parser/parser_query.go:311, parse_system.go, parser_table.go). -/
def suffixes : List Str := [b!" cannot be combined with ARRAY JOIN", b!" CACHE", b!" TABLE"]

/-- Spellings that the parser cannot tell apart. -/
structure Spelling (R : Str → Str → Prop) : Prop where
  refl : ∀ s, R s s
  upper : ∀ {s t}, R s t → Verif.upper s = Verif.upper t
  word : ∀ {s t}, R s t → ∀ w ∈ exactWords, (s = w ↔ t = w)
  pre : ∀ {s t}, R s t → ∀ p ∈ prefixes, R (p ++ s) (p ++ t)
  suf : ∀ {s t}, R s t → ∀ p ∈ suffixes, R (s ++ p) (t ++ p)

/-- Two tokens are the same but for their positions and, if they are keywords, their spelling. -/
def Token.Sim (R : Str → Str → Prop) (t u : Token) : Prop :=
  t.kind = u.kind ∧ R t.str u.str ∧ (t.kind ≠ .keyword → t.str = u.str) ∧ t.base = u.base ∧ t.quote = u.quote

/-- `S` relates lexers that yield the same tokens, errors and end of the input, now and later. -/
structure Bisim (R : Str → Str → Prop) (S : Lx → Lx → Prop) : Prop where
  cur : ∀ {l m}, S l m → Option.Rel (Token.Sim R) l.cur m.cur
  eof : ∀ {l m}, S l m → l.isEOF = m.isEOF
  step : ∀ {l m}, S l m → match l.consume, m.consume with
    | .ok l', .ok m' => S l' m'
    | .err l', .err m' => S l' m'
    | _, _ => False

/-- The lexers yield the same tokens, errors and end of the input. -/
def SameTokens (R : Str → Str → Prop) (l m : Lx) : Prop := ∃ S, Bisim R S ∧ S l m

/-- The texts consist of the same tokens. -/
def SameText (R : Str → Str → Prop) (a b : Str) : Prop := SameTokens R (Lx.new a) (Lx.new b)

/-- A token without its position. -/
def Token.content (t : Token) : Kind × Str × Nat × Nat := (t.kind, t.str, t.base, t.quote)

/-- The last token stands at the end of the text, with no white space or comment behind it. -/
def Tight (a : Str) : Prop := ∃ ts l, Spec.Run (Lx.new a) ts l ∧ l.rest = []

/-- `a` consists of the tokens `ts`, and `b` is `a` with the case of some letters changed, all of them in
keywords that do not spell a word of `exactWords`. -/
def Recased (a b : Str) (ts : List Token) : Prop :=
  Spec.Scan (Lx.new a) ts true ∧ Spec.SameLetters a b ∧
  ∀ i : Nat, a[i]? ≠ b[i]? → ∃ t ∈ ts, t.kind = .keyword ∧ upper t.str ∉ exactWords.map upper ∧ t.pos ≤ i ∧ i < t.endp

/-- Spellings that differ in letter case only, and are not the one or the other of the words the parser
compares letter by letter. -/
def CaseOnly (s t : Str) : Prop := upper s = upper t ∧ ∀ w ∈ exactWords, (s = w ↔ t = w)

end Verif
