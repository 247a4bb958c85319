/- Specification of lines, columns and sets, independent of `source.go` and `set.go`. -/
import Verif.Bytes

namespace Verif.Spec

/-- Line of an offset: one more than the number of newlines before it. -/
def lineOf (s : Str) (off : Nat) : Nat := (s.take off).count 10 + 1

/-- Column of an offset: one more than the number of bytes since the last newline. -/
def columnOf (s : Str) (off : Nat) : Nat := ((s.take off).reverse.takeWhile (· ≠ 10)).length + 1

/-- The lines of a text, without the newlines. -/
def lines : Str → List Str
  | [] => [[]]
  | c :: t =>
    if c = 10 then [] :: lines t
    else match lines t with
      | [] => [[c]]
      | l :: ls => (c :: l) :: ls

/-- Lines put together again, with a newline between them. -/
def unlines : List Str → Str
  | [] => []
  | [l] => l
  | l :: ls => l ++ 10 :: unlines ls

/-- A line without one trailing carriage return. -/
def dropCR (l : Str) : Str := if l.getLast? = some 13 then l.dropLast else l

/-- An operation on a set. -/
inductive SetOp (α : Type) where
  | add (a : α)
  | remove (a : α)

/-- Membership after a sequence of operations on the set with the given initial members. -/
def Member {α : Type} (init : List α) : List (SetOp α) → α → Prop
  | [], a => a ∈ init
  | .add b :: ops, a => a = b ∨ Member init ops a
  | .remove b :: ops, a => a ≠ b ∧ Member init ops a

end Verif.Spec
