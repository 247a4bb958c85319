/-
The parser that retries every INTERVAL: it is like the parser, but records no failed attempts.
-/
import Verif.Parser.Entry
import Verif.Spec.Scan

namespace Verif
open Spec (Reach)

/-- A statement without the recording of failed attempts (parser/parser_column.go:595-598). -/
def Stmt.noMemo {Fn : Type} : Stmt Fn → Stmt Fn
  | .seq a b => .seq a.noMemo b.noMemo
  | .ite ln c a b => .ite ln c a.noMemo b.noMemo
  | .loop b => .loop b.noMemo
  | .memoAdd _ _ => .skip
  | s => s

/-- The methods without the recording of failed attempts. -/
def retryTable (f : Fn) : Func Fn := { fnTable f with body := (fnTable f).body.noMemo }

/-- `ParseStmts` without the memo.  As nothing is ever recorded, the test at
parser/parser_column.go:588 always fails. -/
def parseRetrying (input : Str) : COut := runFn retryTable (parseFuel input) .ParseStmts [] (PS.new input)

/-- The outcome of a call without the contents of the memo. -/
def COut.clear : COut → COut
  | .ret vs s => .ret vs { s with memo := [] }
  | o => o
/-- What the memo holds: positions of an INTERVAL whose reading as an operator fails without a memo. -/
def MemoOK (input : Str) (memo : List Nat) : Prop := ∀ p ∈ memo, ∃ l, Reach input l ∧
  l.matchKw b!"INTERVAL" = true ∧ l.curPos = p ∧
  ∃ m v e s, runFn retryTable m .parseInterval [.bool true] ⟨l, [], input⟩ = .ret [v, e] s ∧ e.nonNil = true

/-- A state of the parser between two steps: the lexer has read some tokens of the input, the memo is
correct. -/
def Fine (input : Str) (s : PS) : Prop := Reach input s.lx ∧ s.input = input ∧ MemoOK input s.memo

/-- The state without the memo. -/
def PS.clear (s : PS) : PS := { s with memo := [] }

end Verif
