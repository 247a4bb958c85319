#!/usr/bin/env python3
"""Writes lean/Verif/Analysis/Checked{1..5}.lean and Checked.lean: the kernel evaluates the analysis of
every translated method (one theorem for each), and the theorems are put together."""
import re, pathlib
root = pathlib.Path(__file__).resolve().parent.parent / "lean" / "Verif"
names = re.findall(r"^  \| (\w+)$", (root / "Parser" / "Fn.lean").read_text(), re.M)
BIG = ["parseSelectStmt"]  # takes more than two minutes
small = [n for n in names if n not in BIG]
groups = [small[k::4] for k in range(4)] + [BIG]
PARTS = len(groups)
for k in range(PARTS):
    out = ["/-",
           "The conditions of the analysis hold for each of the methods below, by evaluation in the kernel.",
           "Written by tools/gencheck.py.", "-/",
           "import Verif.Analysis.Certificate", "import Verif.Parser.Table", "", "namespace Verif.An.Checks", ""]
    for n in groups[k]:
        if n in BIG:
            out.append("set_option maxHeartbeats 4000000 in")
        out.append(f"theorem ok_{n} : check Cert.tables fnTable .{n} = true := by decide +kernel")
    out += ["", "end Verif.An.Checks", ""]
    (root / "Analysis" / f"Checked{k+1}.lean").write_text("\n".join(out))
out = ["/-", "All methods of the parser meet the conditions of the analysis.  Written by tools/gencheck.py.", "-/"]
out += [f"import Verif.Analysis.Checked{k+1}" for k in range(PARTS)]
out += ["import Verif.Analysis.Sound.Func", "", "namespace Verif.An", "",
        "/-- All methods meet their conditions. -/",
        "theorem checked : Checked Cert.tables fnTable := by", "  intro f", "  cases f with"]
out += [f"  | {n} => exact Checks.ok_{n}" for n in names]
out += ["", "end Verif.An", ""]
(root / "Analysis" / "Checked.lean").write_text("\n".join(out))
print(len(names))
