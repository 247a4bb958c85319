/-
The whole table of `Accept` passes the check.
-/
import Verif.Lemmas.WalkTable
import Verif.Spec.Required

namespace Verif

theorem acceptTable_ok : ∀ t : Ty, t.isNode = true → bodyOK required true t (acceptBody t) = true := by
  intro t; cases t <;> decide +kernel

end Verif
