/-
The conditions of the analysis hold for each of the methods below, by evaluation in the kernel.
Written by tools/gencheck.py.
-/
import Verif.Analysis.Certificate
import Verif.Parser.Table

namespace Verif.An.Checks

set_option maxHeartbeats 4000000 in
theorem ok_parseSelectStmt : check Cert.tables fnTable .parseSelectStmt = true := by decide +kernel

end Verif.An.Checks
