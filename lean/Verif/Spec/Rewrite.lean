/-
How the tokens of a formatted SELECT statement come from the tokens of the text it was parsed from, written down without the parser
and the formatter.
-/
import Verif.Spec.Same

namespace Verif.Spec

/-- `u` is written for `t`: the same token, or the same keyword in capitals. -/
def Printed (t u : Token) : Prop :=
  u.content = t.content ∨ (t.kind = .keyword ∧ u.content = (t.kind, upper t.str, t.base, t.quote))

/-- The token is this keyword, in capitals or not. -/
def Spells (t : Token) (k : Str) : Prop := t.kind = .keyword ∧ upper t.str = k

/-- `Rewritten ts us rest`: of the tokens `ts` all but `rest` are written as `us`. -/
inductive Rewritten : List Token → List Token → List Token → Prop
  /-- nothing more is written -/
  | done {ts} : Rewritten ts [] ts
  /-- a token is written as it is; keywords possibly in capitals -/
  | keep {t u ts us rest} : Printed t u → Rewritten ts us rest → Rewritten (t :: ts) (u :: us) rest
  /-- a number with a sign is written as two tokens, if it now stands after an operand -/
  | sign {t u u' : Token} {s : Nat} {n : Str} {ts us rest} : (s = 43 ∨ s = 45) → t.kind = .int ∨ t.kind = .float → t.str = s :: n →
      u.content = (.op [s], [s], 0, 0) → u'.content = (t.kind, n, t.base, t.quote) → Rewritten ts us rest → Rewritten (t :: ts) (u :: u' :: us) rest
  /-- `AS` is added before a name -/
  | addAs {t u ts us rest} : t.kind = .ident ∨ t.kind = .keyword → u.content = (.keyword, b!"AS", 0, 1) →
      Rewritten (t :: ts) us rest → Rewritten (t :: ts) (u :: us) rest
  /-- a comma is dropped before a closing bracket, a keyword or the end -/
  | dropComma {t ts us rest} : t.kind = .op b!"," → (∀ t', ts.head? = some t' → t'.kind = .op b!")" ∨ t'.kind = .op b!"]" ∨ t'.kind = .keyword) →
      Rewritten ts us rest → Rewritten (t :: ts) us rest
  /-- the parentheses around a query are dropped -/
  | dropParens {t q t' ts ms us ws rest} : t.kind = .op b!"(" → Spells q b!"SELECT" ∨ Spells q b!"WITH" →
      Rewritten (q :: ts) us (t' :: ms) → t'.kind = .op b!")" → Rewritten ms ws rest → Rewritten (t :: q :: ts) (us ++ ws) rest
  /-- the parentheses after `USING` are dropped -/
  | dropUsing {q u t t' ts ms us ws rest} : Spells q b!"USING" → Printed q u → t.kind = .op b!"(" →
      Rewritten ts us (t' :: ms) → t'.kind = .op b!")" → Rewritten ms ws rest → Rewritten (q :: t :: ts) (u :: us ++ ws) rest
  /-- `LIMIT a, b` is written `LIMIT b OFFSET a` -/
  | swapLimit {q u t o ts ms ks us ws xs rest} : Spells q b!"LIMIT" → Printed q u →
      Rewritten ts us (t :: ms) → t.kind = .op b!"," → Rewritten ms ws ks → o.content = (.keyword, b!"OFFSET", 0, 1) →
      Rewritten ks xs rest → Rewritten (q :: ts) (u :: ws ++ o :: us ++ xs) rest

/-- What may follow the statement: `FORMAT` and a name, semicolons, and, after a semicolon, one token at the very end. -/
def Left (rest : List Token) : Prop :=
  ∃ fmt semis last, rest = fmt ++ semis ++ last ∧ (fmt = [] ∨ ∃ f n, fmt = [f, n] ∧ Spells f b!"FORMAT" ∧ (n.kind = .ident ∨ n.kind = .keyword)) ∧
    (∀ t ∈ semis, t.kind = .op b!";") ∧ last.length ≤ 1 ∧ (semis = [] → last = [])

/-- The token is not one of those that have a second spelling: `==`, `<>` and the like, `ASCENDING`, `DESCENDING`. -/
def Canonical (t : Token) : Prop :=
  (∀ k, t.kind = .op k → t.str = k) ∧ (t.kind = .keyword → upper t.str ≠ b!"ASCENDING" ∧ upper t.str ≠ b!"DESCENDING")

/-- The text starts with a query: semicolons, then `SELECT` or `WITH`. -/
def Query (ts pre src : List Token) : Prop :=
  ts = pre ++ src ∧ (∀ t ∈ pre, t.kind = .op b!";") ∧ ∃ q, src.head? = some q ∧ (Spells q b!"SELECT" ∨ Spells q b!"WITH")

/-- The kind of a token; of a keyword also its letters, in capitals. -/
def sort (t : Token) : Kind × Str := (t.kind, if t.kind = .keyword then upper t.str else [])

/-- How many tokens are of this sort. -/
def tally (k : Kind × Str) (ts : List Token) : Nat := ts.countP fun t => decide (sort t = k)

/-- The sorts that are added or dropped. -/
def marks : List (Kind × Str) :=
  [(.keyword, b!"AS"), (.keyword, b!"FORMAT"), (.op b!",", []), (.op b!"(", []), (.op b!";", []), (.op b!"+", []), (.op b!"-", [])]

/-- Of each of these sorts there are equally many tokens. -/
def SameMarks (ts us : List Token) : Prop := ∀ k ∈ marks, tally k ts = tally k us

end Verif.Spec
