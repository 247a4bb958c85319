/- Model of `parser/source.go` and `parser/error.go`. -/
import Verif.Lexer

namespace Verif

/-- The loop of `newLineStarts`, parser/source.go:12-16, from index `i` on. -/
def lineStartsFrom : Nat → Str → List Nat
  | _, [] => []
  | i, c :: t => if c == 10 then (i + 1) :: lineStartsFrom (i + 1) t else lineStartsFrom (i + 1) t

/-- `newLineStarts`, parser/source.go:10-18. -/
def newLineStarts (input : Str) : List Nat := 0 :: lineStartsFrom 0 input

/-- The loop of Go's `sort.Search` (library): binary search for the least index in `[i, j)` at
which `f` is true.  `fuel` bounds the iterations. -/
def searchLoop (f : Nat → Bool) : Nat → Nat → Nat → Nat
  | 0, i, _ => i
  | n + 1, i, j =>
    if i < j then
      let h := (i + j) / 2
      if !f h then searchLoop f n (h + 1) j else searchLoop f n i h
    else i

/-- `sort.Search(n, f)` (Go library), used in parser/source.go:23. -/
def sortSearch (n : Nat) (f : Nat → Bool) : Nat := searchLoop f n 0 n

/-- `lineStarts.position`, parser/source.go:21-30.  The result of `sort.Search` minus one, with
`if i < 0 { i = 0 }`, is truncated subtraction.  `s[j]` is `getD` here; the indices used are
proved in range. -/
def position (s : List Nat) (offset : Nat) : Nat × Nat :=
  let i := sortSearch s.length (fun j => decide (s.getD j 0 > offset)) - 1
  (i + 1, offset - s.getD i 0 + 1)

/-- The slice `input[start:end]` of a Go string. -/
def slice (input : Str) (start stop : Nat) : Str := (input.take stop).drop start

/-- `lineStarts.lineText`, parser/source.go:34-48. -/
def lineText (s : List Nat) (input : Str) (line : Nat) : Str :=
  if line < 1 || line > s.length then []
  else
    let start := s.getD (line - 1) 0
    let e0 := if line < s.length then s.getD line 0 - 1 else input.length
    let e := if e0 > start && input.getD (e0 - 1) 0 == 13 then e0 - 1 else e0
    slice input start e

/-- `ParseError`, parser/error.go:13-24.  `starts = none` is the nil slice.
`expected` keeps the kinds, `msg` the free-form text. -/
structure ParseError where
  pos : Nat
  line : Nat := 0
  column : Nat := 0
  got : Option Token := none
  expected : List Kind := []
  keyword : Str := []
  msg : Str := []
  input : Str := []
  starts : Option (List Nat) := none
deriving DecidableEq, Repr

/-- `tokenDesc`, parser/error.go:76-81. -/
def tokenDesc : Option Token → Str
  | none => Kind.eof.toStr
  | some t => t.kind.toStr

/-- `strings.Join(parts, ", ")` (Go library), parser/error.go:48. -/
def joinComma : List Str → Str
  | [] => []
  | [a] => a
  | a :: t => a ++ b!", " ++ joinComma t

namespace ParseError

/-- `summary`, parser/error.go:35-52.  `%q` of a keyword is the keyword in double quotes: keyword
texts contain no byte that `%q` would escape. -/
def summary (e : ParseError) : Str :=
  if e.msg ≠ [] then e.msg
  else if e.keyword ≠ [] then
    b!"expected keyword <\"" ++ e.keyword ++ b!"\">, but got '" ++ tokenDesc e.got ++ b!"'"
  else match e.expected with
    | [] => b!"syntax error"
    | [k] => b!"expected '" ++ k.toStr ++ b!"', but got '" ++ tokenDesc e.got ++ b!"'"
    | ks => b!"expected one of [" ++ joinComma (ks.map Kind.toStr) ++ b!"], but got '" ++
        tokenDesc e.got ++ b!"'"

/-- The width of the caret marker, parser/error.go:66-69. -/
def caretWidth (e : ParseError) : Nat :=
  match e.got with
  | some t => if t.str.length > 1 then t.str.length else 1
  | none => 1

/-- `renderCaret`, parser/error.go:56-72. -/
def renderCaret (e : ParseError) : Str :=
  match e.starts with
  | none => []
  | some s =>
    lineText s e.input e.line ++ [10] ++ repeatByte 32 (e.column - 1) ++
      repeatByte 94 e.caretWidth ++ [10]

/-- `Error`, parser/error.go:26-31. -/
def error (e : ParseError) : Str :=
  b!"line " ++ decimal e.line ++ b!":" ++ decimal e.column ++ b!" " ++ e.summary ++ b!"\n" ++
    e.renderCaret

end ParseError
end Verif
