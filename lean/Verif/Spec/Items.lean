/-
The sequence of operands and operators of which an expression consists.
-/
import Verif.Spec.Grouping

namespace Verif.Spec
open Verif

/-- An operand, or an operator with the powers with which it holds the operands on its sides.  The operator
is written as the struct with the operands at its ends taken out; what stands inside an operator, such as
`b` in `a ? b : c`, is part of it. -/
inductive Item
  | operand (v : V)
  | binary (label : V) (p q : Nat)
  | prefix (label : V) (q : Nat)
  | postfix (label : V) (p : Nat)

/-- An expression as a tree of items. -/
inductive Tree
  | operand (v : V)
  | binary (label : V) (p q : Nat) (l r : Tree)
  | prefix (label : V) (q : Nat) (r : Tree)
  | postfix (label : V) (p : Nat) (l : Tree)

/-- The items from left to right. -/
def Tree.items : Tree → List Item
  | .operand v => [.operand v]
  | .binary a p q l r => l.items ++ .binary a p q :: r.items
  | .prefix a q r => .prefix a q :: r.items
  | .postfix a p l => l.items ++ [.postfix a p]

/-- The expression as a tree. -/
def tree : V → Tree
  | .mk .BinaryOperation [l, .str op, r, g, n] =>
    .binary (.mk .BinaryOperation [.nil, .str op, .nil, g, n]) (level op) (if op = b!"->" then 0 else level op) (tree l) (tree r)
  | .mk .TernaryOperation [c, a, b] => .binary (.mk .TernaryOperation [.nil, a, .nil]) 2 0 (tree c) (tree b)
  | .mk .IsNullExpr [p, q, e] => .postfix (.mk .IsNullExpr [p, q, .nil]) 7 (tree e)
  | .mk .IsNotNullExpr [p, q, e] => .postfix (.mk .IsNotNullExpr [p, q, .nil]) 7 (tree e)
  | .mk .BetweenClause [e, n, b, p, a] =>
    if e.nonNil then .binary (.mk .BetweenClause [.nil, n, b, p, .nil]) 9 9 (tree e) (tree a)
    else .operand (.mk .BetweenClause [e, n, b, p, a])
  | .mk .ObjectParams [o, ps] => if isName o then .operand (.mk .ObjectParams [o, ps]) else .postfix (.mk .ObjectParams [.nil, ps]) 14 (tree o)
  | .mk .IndexOperation [o, op, i] =>
    if isName o then .operand (.mk .IndexOperation [o, op, i]) else .postfix (.mk .IndexOperation [.nil, op, i]) 15 (tree o)
  | .mk .UnaryExpr [p, .str op, r] => .prefix (.mk .UnaryExpr [p, .str op, .nil]) (prefixPower op) (tree r)
  | v => .operand v

/-- The items of an expression from left to right. -/
def items (v : V) : List Item := (tree v).items

end Verif.Spec
