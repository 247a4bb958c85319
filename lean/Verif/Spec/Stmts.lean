/-
The statements of a text: its tokens are cut at the `;`s.
-/
import Verif.Spec.Memo
import Verif.Spec.Parsed

namespace Verif
open Spec

/-- The token is a `;`. -/
def Token.semi (t : Token) : Bool := t.kind == .op b!";"

/-- Cut at the `;`s; `acc` are the tokens since the last one. Empty pieces are dropped. -/
def cut (acc : List Token) : List Token → List (List Token)
  | [] => if acc = [] then [] else [acc]
  | t :: ts => if t.semi then (if acc = [] then cut [] ts else acc :: cut [] ts) else cut (acc ++ [t]) ts

/-- The non-empty pieces between `;`s. -/
def segments (ts : List Token) : List (List Token) := cut [] ts

/-- The tokens `seg` of `input` are read as the statement `v`: `parseStmt` (parser/parser_table.go:1489), called
at the first of them, returns `v` when it has read all of them and has arrived at a `;` or the end of the text.
Simplification: without the memo of failed attempts, which makes no difference by C22. -/
def ReadAs (input : Str) (seg : List Token) (v : V) : Prop := ∃ t rest l n s, seg = t :: rest ∧ Reach input l ∧ l.cur = some t ∧
  runFn retryTable n .parseStmt [.nat t.pos] ⟨l, [], input⟩ = .ret [v, .nil] s ∧
  ((∃ u, u.semi = true ∧ Run l (rest ++ [u]) s.lx) ∨ (Scan l rest true ∧ s.lx.cur = none ∧ s.lx.rest = []))

/-- A `;` put behind `a` is a token on its own: `a` does not end in the middle of a comment, string or quoted
identifier, and has no lexical error. -/
def Closed (a : Str) : Prop := ∃ ts t, Run (Lx.new (a ++ b!";")) ts ⟨a.length + 1, [], some t⟩ ∧ t.semi = true

/-- `n` blanks. -/
def blanks (n : Nat) : Str := List.replicate n 32

/-- The text is, behind a gap, an unterminated comment or an unclosed quoted identifier. -/
inductive OpenEnd : Str → Prop
  | comment {g b : Str} : Gap g → ¬ b!"*/" <:+: b → OpenEnd (g ++ (b!"/*" ++ b))
  | quoted {g b : Str} {q : Nat} : Gap g → (q = 96 ∨ q = 34) → q ∉ b → OpenEnd (g ++ q :: b)

end Verif
