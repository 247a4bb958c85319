/-
The nodes whose `FormatSQL` depends on a position.
-/
import Verif.Ast.Ty

namespace Verif

/-- `FormatSQL` of these types asks whether a position is zero: of the keyword `INTERVAL`
(parser/format.go:1741) and of the parenthesis (parser/format.go:1228). -/
def posReaders : List Ty := [.IntervalExpr, .DictionaryArgExpr]

end Verif
