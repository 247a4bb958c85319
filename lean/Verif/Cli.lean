/-
The command line tool with `-format` or `-beautify`.
-/
import Verif.Parser.Entry
import Verif.Ast.Methods

namespace Verif

/-- What the tool does: it prints to its standard output and ends with status 0, or it reports an error of the parser and ends with status 1
(main.go:101-104 and 109-118). -/
inductive CliResult
  | stdout (out : Str)
  | failed (err : V)

/-- The loop over the statements, main.go:109-118: every statement is formatted and printed on a line of its own.  `none` is a panic of the formatter.
`WithBeautify` changes the formatter in place, so its result can be ignored (parser/format.go:35-38); the indentation of a new formatter is two blanks
(parser/format.go:27-33). -/
def cliLoop (beautify : Bool) : List V → Option Str
  | [] => some []
  | w :: ws => (if beautify then formatBeautify b!"  " w else formatCompact w).bind fun a => (cliLoop beautify ws).map fun b => a ++ [10] ++ b

/-- `main` for a text given with `-format` (`beautify = false`) or `-beautify`, main.go:99-118.  `none` is a panic.  Simplified: reading the arguments and the
file (main.go:70-98), the output of the tree as JSON (main.go:105-107), and the text of the error are left out. -/
def cli (beautify : Bool) (input : Str) : Option CliResult :=
  match parseStmts input with
  | .ret [v, .nil] _ => (cliLoop beautify v.items).map .stdout
  | .ret [_, e] _ => some (.failed e)
  | _ => none

end Verif
