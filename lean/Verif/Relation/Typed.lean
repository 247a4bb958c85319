/-
All methods of the parser are well-typed in the sense of `Verif.Relation.Check`.
-/
import Verif.Relation.Types
import Verif.Relation.Guard

namespace Verif

/-- All methods are well-typed. -/
theorem methods_typed (f : Fn) : (guardTable f).typed runSig (runSig f) = true := by
  cases f <;> decide +kernel

end Verif
