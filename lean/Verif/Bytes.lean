/-
Byte strings and the byte classes of `parser/helper.go`.
A Go string is a list of bytes; bytes are natural numbers (theorems are stated for all
lists of naturals, which includes all byte strings).
-/
import Lean.Elab.Term

namespace Verif

/-- A Go `string`: its bytes. Simplification: a byte is a `Nat`, not a number below 256. -/
abbrev Str := List Nat

open Lean in
/-- `b!"SELECT"` is the list of the UTF-8 bytes of the literal. -/
macro:max "b!" s:str : term => do
  let bs := s.getString.toUTF8.toList.map (fun b => b.toNat)
  let elems ← bs.mapM (fun n => `($(Syntax.mkNumLit (toString n))))
  let arr := elems.toArray
  `(([$arr,*] : List Nat))

/-- `IsDigit`, parser/helper.go:3-5. -/
def isDigit (c : Nat) : Bool := 48 ≤ c && c ≤ 57

/-- `IsHexDigit`, parser/helper.go:7-9. -/
def isHexDigit (c : Nat) : Bool :=
  (48 ≤ c && c ≤ 57) || (97 ≤ c && c ≤ 102) || (65 ≤ c && c ≤ 70)

/-- `IsIdentStart`, parser/helper.go:11-13. -/
def isIdentStart (c : Nat) : Bool :=
  (97 ≤ c && c ≤ 122) || (65 ≤ c && c ≤ 90) || c == 95

/-- `IsIdentPart`, parser/helper.go:15-17. -/
def isIdentPart (c : Nat) : Bool :=
  (48 ≤ c && c ≤ 57) || (97 ≤ c && c ≤ 122) || (65 ≤ c && c ≤ 90) || c == 95 || c == 36

/-- One byte of `strings.ToUpper` (Go library), ASCII letters only.
Simplification: the two non-ASCII characters whose upper case is an ASCII letter
(U+017F, U+0131) are not mapped; they can only occur inside quoted identifiers. -/
def upperByte (c : Nat) : Nat := if 97 ≤ c && c ≤ 122 then c - 32 else c

/-- `strings.ToUpper` as used in parser/lexer.go:72, 223 and parser/parser_common.go:93. -/
def upper (s : Str) : Str := s.map upperByte

/-- `strings.EqualFold` as used in parser/parser_common.go:121: equality up to letter case.
Simplification: ASCII folding only (see `upperByte`; also U+212A, which folds to `k`). -/
def equalFold (s t : Str) : Bool := upper s == upper t

/-- `strings.Repeat(s, n)` (Go library) for one byte, used in parser/error.go:63-70. -/
def repeatByte (c : Nat) (n : Nat) : Str := List.replicate n c

/-- Decimal digits of a number, as `fmt`'s `%d` prints them (parser/error.go:28).
`fuel` bounds the number of digits. -/
def digitsF : Nat → Nat → Str → Str
  | 0, _, acc => acc
  | f + 1, n, acc =>
      if n < 10 then (48 + n) :: acc else digitsF f (n / 10) ((48 + n % 10) :: acc)

/-- `fmt.Sprintf("%d", n)`. -/
def decimal (n : Nat) : Str := digitsF (n + 1) n []

end Verif
