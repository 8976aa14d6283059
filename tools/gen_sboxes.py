#!/usr/bin/env python3
"""Transcribes the substitution blocks of /repo/gost89.c into Lean (pure reformatting)."""
import re, os
src = open('/repo/gost89.c').read()
out = ["import Verif.Model.Gost89", "", "/-! Generated by /verif/tools/gen_sboxes.py from /repo/gost89.c lines 24-238. -/",
       "", "namespace Gost", ""]
names = []
for m in re.finditer(r'gost_subst_block (\w+) = \{(.*?)\n\};', src, re.S):
    ln = src[:m.start()].count('\n') + 1
    ln2 = src[:m.end()].count('\n') + 1
    rows = re.findall(r'\{([^{}]*)\}', m.group(2))
    assert len(rows) == 8
    rows = [[int(x, 16) for x in re.findall(r'0[xX][0-9a-fA-F]+', r)] for r in rows]
    assert all(len(r) == 16 for r in rows)
    names.append(m.group(1))
    out.append(f"/-- `/repo/gost89.c` lines {ln}-{ln2}: `{m.group(1)}`. -/")
    out.append(f"def {m.group(1)} : SubstBlock where")
    for k, r in zip(['k8','k7','k6','k5','k4','k3','k2','k1'], rows):
        out.append(f"  {k} := [" + ", ".join(str(x) for x in r) + "]")
    out.append("")
out.append("/-- All substitution blocks defined in `/repo/gost89.c` (lines 24-238). -/")
out.append("def allSubstBlocks : List SubstBlock :=\n  [" + ",\n   ".join(names) + "]")
out.append("\nend Gost")
open('/verif/lean/Verif/Model/SBoxes.lean', 'w').write("\n".join(out) + "\n")
