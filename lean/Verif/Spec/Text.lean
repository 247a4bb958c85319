/-
White space in the output of the formatter.
-/
import Verif.Bytes

namespace Verif

/-- ASCII white space: tab, line feed, vertical tab, form feed, carriage return, blank. -/
def isBlank (c : Nat) : Bool := c == 9 || c == 10 || c == 11 || c == 12 || c == 13 || c == 32

/-- A text without its white space. -/
def dropBlanks (s : Str) : Str := s.filter (fun c => !isBlank c)

end Verif
