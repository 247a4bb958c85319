/-
The entry point of the parser.
-/
import Verif.Parser.Table

namespace Verif

/-- A bound for the nesting of calls and for the iterations of each loop; `C18_bound` proves that it
is never reached. -/
def parseFuel (input : Str) : Nat := 28 * (input.length + 1)

/-- `NewParser(input).ParseStmts()`: parser/parser_common.go:29-33, parser/parser_table.go:1548-1567
(translated as `fnTable .ParseStmts`). -/
def parseStmts (input : Str) : COut := runFn fnTable (parseFuel input) .ParseStmts [] (PS.new input)

end Verif
