/-
How operators group their operands.

Every operator has a power with which it holds the operand on its left and one with which it holds the
operand on its right, if it has an operand there.  Where two operators compete for an operand that stands
between them, the one with the greater power gets it; if the powers are equal, the left one.  A tree is
grouped if every operator in it holds its operands in this sense.

Nothing here mentions the functions of the parser.
-/
import Verif.Spec.Parsed

namespace Verif.Spec
open Verif

/-- The levels of the binary operators, from loose to tight. -/
def levels : List (Nat × List Str) :=
  [(1, [b!"->"]),
   (3, [b!"OR"]),
   (4, [b!"AND"]),
   (8, [b!"=", b!"==", b!"!=", b!"<>", b!"<", b!"<=", b!">", b!">="]),
   (9, [b!"LIKE", b!"ILIKE", b!"REGEXP", b!"NOT LIKE", b!"NOT ILIKE"]),
   (10, [b!"IN", b!"NOT IN"]),
   (11, [b!"||"]),
   (12, [b!"+", b!"-"]),
   (13, [b!"*", b!"/", b!"%"]),
   (16, [b!"::"])]

/-- The level of a binary operator; the separators inside a call such as `substring(a FROM b)` have level 0. -/
def level (op : Str) : Nat := match levels.find? (fun l => l.2.contains op) with
  | some l => l.1
  | none => 0

/-- The power with which a prefix operator holds its operand: `NOT`, a sign, or a word such as `BOTH`
inside a call of `trim`. -/
def prefixPower (op : Str) : Nat :=
  if op = b!"NOT" then 5 else if op = b!"+" ∨ op = b!"-" then 16 else 0

/-- A name, or nothing.  `a[1]` and `a.1` with a plain name `a` are read as a unit. -/
def isName (v : V) : Bool := match v.ty? with
  | none => true
  | some t => t == .Ident

/-- If the expression is an operation with an operand at its left end: the power with which the operator
holds it, and the operand. -/
def leftOpen : V → Option (Nat × V)
  | .mk .BinaryOperation [l, .str op, _, _, _] => some (level op, l)
  | .mk .TernaryOperation [c, _, _] => some (2, c)
  | .mk .IsNullExpr [_, _, e] => some (7, e)
  | .mk .IsNotNullExpr [_, _, e] => some (7, e)
  | .mk .BetweenClause [e, _, _, _, _] => if e.nonNil then some (9, e) else none
  | .mk .ObjectParams [o, _] => if isName o then none else some (14, o)
  | .mk .IndexOperation [o, _, _] => if isName o then none else some (15, o)
  | _ => none

/-- If the expression is an operation with an operand at its right end: the power with which the operator
holds it, and the operand.  `->` and `? :` take as much as they can.  (A `BETWEEN` without a left operand is
the frame of a window.) -/
def rightOpen : V → Option (Nat × V)
  | .mk .BinaryOperation [_, .str op, r, _, _] => some (if op = b!"->" then 0 else level op, r)
  | .mk .TernaryOperation [_, _, r] => some (0, r)
  | .mk .BetweenClause [e, _, _, _, r] => if e.nonNil then some (9, r) else none
  | .mk .UnaryExpr [_, .str op, r] => some (prefixPower op, r)
  | _ => none

/-- `v` begins with an operand held with power `p` from the right: the left powers of `v` itself, of its left
operand, and so on. -/
inductive LeftPower : V → Nat → Prop
  | here {v : V} {p : Nat} {l : V} : leftOpen v = some (p, l) → LeftPower v p
  | down {v : V} {p : Nat} {l : V} {q : Nat} : leftOpen v = some (p, l) → LeftPower l q → LeftPower v q

/-- `v` ends with an operand held with power `p` from the left: the right powers of `v` itself, of its right
operand, and so on. -/
inductive RightPower : V → Nat → Prop
  | here {v : V} {p : Nat} {r : V} : rightOpen v = some (p, r) → RightPower v p
  | down {v : V} {p : Nat} {r : V} {q : Nat} : rightOpen v = some (p, r) → RightPower r q → RightPower v q

/-- An operator holds its operands: no operator at the right end of its left operand is weaker than the
operator, and every operator at the left end of its right operand is stronger.  The operand between `BETWEEN`
and `AND` is held from both sides, by `BETWEEN` and as if by the operator `AND`. -/
structure Grouped (v : V) : Prop where
  left : ∀ p l, leftOpen v = some (p, l) → ∀ q, RightPower l q → p ≤ q
  right : ∀ p r, rightOpen v = some (p, r) → ∀ q, LeftPower r q → p < q
  between : ∀ e n b p a, v = .mk .BetweenClause [e, n, b, p, a] → e.nonNil = true →
    (∀ q, LeftPower b q → 9 < q) ∧ ∀ q, RightPower b q → 4 ≤ q

end Verif.Spec
