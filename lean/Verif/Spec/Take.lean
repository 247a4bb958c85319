/-
Taking tokens: what it means that a parser step has consumed given tokens or keywords.
-/
import Verif.Spec.Scan
import Mathlib.Data.List.Forall2

namespace Verif.Spec

/-- Going on to the next token, whether or not the scan succeeds. -/
def Next (l l' : Lx) : Prop := l.consume = .ok l' ∨ l.consume = .err l'

/-- The tokens `ts` are the current token of `l` and those after it, and the current token of `l'` is
the one behind them. -/
inductive Takes : Lx → List Token → Lx → Prop
  | nil {l} : Takes l [] l
  | cons {l t l1 ts l2} : l.cur = some t → Next l l1 → Takes l1 ts l2 → Takes l (t :: ts) l2

/-- The token spells the keyword `k`, in any letter case. -/
def IsKw (t : Token) (k : Str) : Prop := t.kind = .keyword ∧ SameLetters t.str k

/-- The tokens are the keywords `ks` in this order. -/
def AreKws (ts : List Token) (ks : List Str) : Prop := List.Forall₂ IsKw ts ks

/-- A token that may stand as a plain identifier: an identifier, quoted or not, or a keyword that is
not reserved. -/
def IdentLike (t : Token) : Prop := t.kind = .ident ∨ (t.kind = .keyword ∧ ∀ r ∈ reservedList, ¬ SameLetters t.str r)

end Verif.Spec
