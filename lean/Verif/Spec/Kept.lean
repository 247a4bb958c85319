/-
The queries of the core language that keep their meaning when they are formatted.
-/
import Verif.Spec.Core

namespace Verif.Spec
open Verif

/-- The tables after a comma. -/
def afterComma : V → Bool
  | .mk .JoinTableExpr _ => true
  | .mk .JoinExpr [_, _, _, .nil, _] => true
  | _ => false

/-- The formatter does not print `DISTINCT` in an array, and it does not print the parentheses of `USING`, so a comma after them changes its meaning. -/
def keptNode : Ty → List V → Bool
  | .ArrayParamList, [_, _, .mk .ColumnExprList [_, _, .bool d, _]] => !d
  | .JoinExpr, [_, _, r, _, .mk .UsingClause _] => !afterComma r
  | _, _ => true

mutual
/-- All nodes of the tree are kept. -/
def _root_.Verif.V.kept : V → Bool
  | .mk t fs => keptNode t fs && V.keptL fs
  | .list vs => V.keptL vs
  | _ => true
def _root_.Verif.V.keptL : List V → Bool
  | [] => true
  | v :: vs => v.kept && V.keptL vs
end

/-- A number with a sign. -/
def isSigned (t : Token) : Prop := (t.kind = .int ∨ t.kind = .float) ∧ ∃ s n, t.str = s :: n ∧ (s = 43 ∨ s = 45)

/-- The list of `USING` begins neither with a parenthesis nor with a signed number: without its parentheses it would be read differently. -/
def PlainUsing (ts : List Token) : Prop :=
  ∀ a b c, [a, b, c] <:+: ts → isWord a b!"USING" → isSign b b!"(" → ¬ isSign c b!"(" ∧ ¬ isSigned c

end Verif.Spec
