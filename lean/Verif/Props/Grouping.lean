/-
C24: operators bind by the precedence table.
-/
import Verif.Group.Run
import Verif.Group.Unique
import Verif.Props.Parser

namespace Verif
open Spec Group

/-! ### C24

The statement of C24 compares every operation with its operands.  Read literally it is false, because of
operands that have no operand on the side of the operator: in `1 + NOT a` the operand `NOT a` of `+` is an
operation of lower precedence, and so is the operand `a IS NULL` of `+` in `a IS NULL + 1`.  There is no
other way to group these texts.  And `->` groups to the right.  What holds is that wherever two operators
compete for the operand between them, the table decides. -/

/-- The power of an operation, whatever operands it has. -/
def power (v : V) : Option Nat := ((leftOpen v).or (rightOpen v)).map Prod.fst

/-- C24, literally: no operand is an operation that binds more loosely, and equal precedence groups to the left. -/
def C24_literal : Prop := ∀ (input : Str) (vs : List V), Parses input vs → ∀ v ∈ vs, ∀ u ∈ v.structs,
  (∀ p l q, leftOpen u = some (p, l) → power l = some q → p ≤ q) ∧
  (∀ p r q, rightOpen u = some (p, r) → power r = some q → p < q)

/-- C24: every operation in a tree that the parser returns holds its operands.  Missing for `C24_literal`:
operands that are prefix operations (on the right of an operator) or postfix operations (on the left). -/
theorem C24_grouped_partial (input : Str) (vs : List V) (h : Parses input vs) (v : V) (hv : v ∈ vs) (u : V) (hu : u ∈ v.structs) : Grouped u :=
  parses_grouped h hv u hu

/-- C24, for two operators next to each other: the operator on the right of the operand between them gets it
only if it is stronger, the one on the left also if the powers are equal. -/
theorem C24_neighbours_partial (input : Str) (vs : List V) (h : Parses input vs) (v : V) (hv : v ∈ vs) (u : V) (hu : u ∈ v.structs)
    (p q : Nat) (l r w : V) :
    (leftOpen u = some (p, l) → rightOpen l = some (q, w) → p ≤ q) ∧ (rightOpen u = some (p, r) → leftOpen r = some (q, w) → p < q) :=
  have hg := parses_grouped h hv u hu
  ⟨fun h1 h2 => hg.left _ _ h1 _ (.here h2), fun h1 h2 => hg.right _ _ h1 _ (.here h2)⟩

/-- C24 for binary operators, without exception: a binary operator below another one binds at least as
tightly on the left and more tightly on the right; only `->` groups to the right. -/
theorem C24_binary (input : Str) (vs : List V) (h : Parses input vs) (v : V) (hv : v ∈ vs) (l r g n : V) (op : Str)
    (hu : V.mk .BinaryOperation [l, .str op, r, g, n] ∈ v.structs) (op' : Str) (l' r' g' n' : V) :
    (l = .mk .BinaryOperation [l', .str op', r', g', n'] → level op ≤ level op' ∧ (op' = b!"->" → level op = 0)) ∧
    (r = .mk .BinaryOperation [l', .str op', r', g', n'] → if op = b!"->" then 0 < level op' else level op < level op') := by
  have hg := parses_grouped h hv _ hu
  refine ⟨fun hl => ?_, fun hr => ?_⟩
  · have := hg.left _ _ rfl _ (.here (r := r') (p := if op' = b!"->" then 0 else level op') (by subst hl; rfl))
    split at this
    · exact ⟨by omega, fun _ => by omega⟩
    · rename_i hne; exact ⟨this, fun h => absurd h hne⟩
  · have := hg.right _ _ rfl _ (.here (l := l') (p := level op') (by subst hr; rfl))
    split at this <;> rename_i hc
    · rw [if_pos hc]; exact this
    · rw [if_neg hc]; exact this

/-- What C24 says determines the tree: two grouped expressions that consist of the same operands and
operators in the same order are the same. -/
theorem C24_unique (v w : V) (hv : ∀ u ∈ v.structs, Grouped u) (hw : ∀ u ∈ w.structs, Grouped u) (h : items v = items w) : v = w :=
  Group.unique hv hw h

/-- C24 is false if read literally. -/
theorem C24_literal_fails : ¬ C24_literal := by
  intro h
  obtain ⟨vs, v, fs, h1, hv, hu, hp⟩ := parsesTo_iff (input := b!"SELECT 1 + NOT a") (t := .BinaryOperation)
    (p := fun w => match rightOpen w with
      | some (p, r) => p == 12 && power r == some 5
      | none => false) (by decide +kernel)
  split at hp
  · rename_i p r hr
    simp only [Bool.and_eq_true, beq_iff_eq] at hp
    have := (h _ vs h1 v hv _ hu).2 p r 5 hr hp.2
    omega
  · simp at hp

/-! ### Examples -/

/-- The binary operations of the statements and their operands, as far as these are binary operations themselves. -/
def binaries (input : Str) : List (Str × Option Str × Option Str) := match parseStmts input with
  | .ret [v, .nil] _ => v.items.flatMap fun v => v.structs.filterMap fun w => match w with
    | .mk .BinaryOperation [l, .str op, r, _, _] =>
      let f : V → Option Str := fun x => match x with
        | .mk .BinaryOperation [_, .str op, _, _, _] => some op
        | _ => none
      some (op, f l, f r)
    | _ => none
  | _ => []

/-- `*` before `-`, and equal precedence from the left. -/
example : binaries b!"SELECT a - b * c + d" = [(b!"+", some b!"-", none), (b!"-", none, some b!"*"), (b!"*", none, none)] := by decide +kernel

/-- `->` groups to the right. -/
example : binaries b!"SELECT x -> y -> z" = [(b!"->", none, some b!"->"), (b!"->", none, none)] := by decide +kernel

/-- The right operand of `AND` may be a comparison, and parentheses hide what is inside them. -/
example : binaries b!"SELECT (a OR b) AND c = d" = [(b!"AND", none, some b!"="), (b!"OR", none, none), (b!"=", none, none)] := by decide +kernel

/-- A text with all kinds of operators is accepted, so that `C24_grouped_partial` applies to it. -/
example : ∃ vs, Parses b!"SELECT NOT a BETWEEN -b + 1 AND c[1].2 OR d IS NOT NULL ? x -> y : z::Int8 NOT IN (1, 2)" vs ∧ vs.length = 1 := by
  obtain ⟨vs, h1, h2⟩ := acceptsWith_iff (input := b!"SELECT NOT a BETWEEN -b + 1 AND c[1].2 OR d IS NOT NULL ? x -> y : z::Int8 NOT IN (1, 2)")
    (p := fun vs => vs.length == 1) (by decide +kernel)
  exact ⟨vs, h1, by simpa using h2⟩

/-- Atoms for the examples. -/
def exAtom (s : Str) : V := .mk .Ident [.str s, .nat 0, .nat 0, .nat 0]

/-- A binary operation for the examples. -/
def exOp (op : Str) (l r : V) : V := .mk .BinaryOperation [l, .str op, r, .bool false, .bool false]

/-- `a - (b - c)` and `(a - b) - c` have the same items, and only the second is grouped. -/
example : items (exOp b!"-" (exAtom b!"a") (exOp b!"-" (exAtom b!"b") (exAtom b!"c"))) =
      items (exOp b!"-" (exOp b!"-" (exAtom b!"a") (exAtom b!"b")) (exAtom b!"c")) ∧
    ¬ Grouped (exOp b!"-" (exAtom b!"a") (exOp b!"-" (exAtom b!"b") (exAtom b!"c"))) ∧
    Grouped (exOp b!"-" (exOp b!"-" (exAtom b!"a") (exAtom b!"b")) (exAtom b!"c")) := by
  refine ⟨by simp [items, tree, exOp, exAtom, Tree.items], fun h => ?_, ?_⟩
  · have := h.right 12 (exOp b!"-" (exAtom b!"b") (exAtom b!"c")) rfl 12 (.here (l := exAtom b!"b") rfl)
    omega
  · refine ⟨fun p l h q hq => ?_, fun p r h q hq => ?_, fun _ _ _ _ _ h => nomatch h⟩
    · cases h
      cases hq with
      | here h => cases h; decide
      | down h hq =>
        cases h
        exact absurd hq (noRight rfl)
    · cases h
      exact absurd hq (noLeft rfl)

end Verif
