#!/usr/bin/env python3
"""Transcribes the big-endian constant tables of Streebog (Ax, C, buffer512) into Lean (pure reformatting): a row of Ax
becomes one natural number, entry x at bits 64x."""
import re
src=open('/repo/gosthash2012_precalc.h').read()
m=re.search(r'#ifndef __GOST3411_BIG_ENDIAN__(.*?)#else(.*?)#endif',src,re.S)
a=src[:m.start(2)].count('\n')+1; b=src[:m.end(2)].count('\n')+1
v=[int(x,16) for x in re.findall(r'0x([0-9a-f]+)ULL',m.group(2))]
assert len(v)==2048
rows=[v[256*i:256*i+256] for i in range(8)]
cs=open('/repo/gosthash2012_const.h').read()
i0=cs.index('#else',cs.index('C[12]')); i1=cs.index('#endif',i0)
ca=cs[:i0].count('\n')+1; cb=cs[:i1].count('\n')+1
c=[int(x,16) for x in re.findall(r'0x([0-9a-f]+)ULL',cs[i0:i1])]
assert len(c)==96
j0=cs.index('#else',cs.index('buffer512')); j1=cs.index('#endif',j0)
ba=cs[:j0].count('\n')+1; bb=cs[:j1].count('\n')+1
b5=[int(x,16) for x in re.findall(r'0x([0-9a-f]+)ULL',cs[j0:j1])]
assert len(b5)==8
out=["import Verif.Model.Basic","","/-! Generated by /verif/tools/gen_streebog_be.py from /repo/gosthash2012_precalc.h and /repo/gosthash2012_const.h",
"(the big-endian variants).  A row of `Ax` is one natural number, entry `x` at bits `64x`. -/","","namespace Gost",""]
for i,r in enumerate(rows):
    n=sum(x<<(64*k) for k,x in enumerate(r))
    out.append(f"/-- Row {i} of the big-endian `Ax` (`/repo/gosthash2012_precalc.h` lines {a}-{b}). -/\ndef AxBE_row{i} : Nat :=\n  0x{n:x}\n")
out.append("/-- The rows of the big-endian `Ax` (`/repo/gosthash2012_precalc.h`). -/\ndef AxBE_rows : Nat → Nat")
for i in range(7): out.append(f"  | {i} => AxBE_row{i}")
out.append("  | _ => AxBE_row7\n")
out.append(f"/-- The big-endian `C[12]`, `/repo/gosthash2012_const.h` lines {ca}-{cb}: the `QWORD`s. -/\ndef streebogCBE : List (List W64) :=\n  [" +
 ",\n   ".join("["+", ".join(f"0x{x:016x}#64" for x in c[8*i:8*i+8])+"]" for i in range(12))+"]\n")
out.append(f"/-- The big-endian `buffer512`, `/repo/gosthash2012_const.h` lines {ba}-{bb}: the `QWORD`s. -/\ndef buffer512BEq : List W64 :=\n  [" + ", ".join(f"0x{x:016x}#64" for x in b5)+"]\n")
out.append("end Gost")
open('/verif/lean/Verif/Model/StreebogTablesBE.lean','w').write("\n".join(out)+"\n")
