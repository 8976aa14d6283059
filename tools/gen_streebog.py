#!/usr/bin/env python3
"""Transcribes the little-endian constant tables of Streebog (Ax, C) into Lean (pure reformatting): a row of Ax
becomes one natural number, entry x at bits 64x.  Also writes the matrix A used by the specification
(the rows of A as listed in GOST R 34.11-2012 section 5.4; printed here from Ax, the kernel checks Ax against A)."""
import re
src=open('/repo/gosthash2012_precalc.h').read()
m=re.search(r'#ifndef __GOST3411_BIG_ENDIAN__(.*?)#else',src,re.S)
a=src[:m.start(1)].count('\n')+1; b=src[:m.end(1)].count('\n')+1
v=[int(x,16) for x in re.findall(r'0x([0-9a-f]+)ULL',m.group(1))]
assert len(v)==2048
rows=[v[256*i:256*i+256] for i in range(8)]
cs=open('/repo/gosthash2012_const.h').read()
i0=cs.index('C[12]'); i1=cs.index('#else',i0)
ca=cs[:i0].count('\n')+1; cb=cs[:i1].count('\n')
c=[int(x,16) for x in re.findall(r'0x([0-9a-f]+)ULL',cs[i0:i1])]
assert len(c)==96
out=["import Verif.Model.Basic","","/-! Generated by /verif/tools/gen_streebog.py from /repo/gosthash2012_precalc.h and /repo/gosthash2012_const.h",
"(the little-endian variants).  A row of `Ax` is one natural number, entry `x` at bits `64x`. -/","","namespace Gost",""]
for i,r in enumerate(rows):
    n=sum(x<<(64*k) for k,x in enumerate(r))
    out.append(f"/-- Row {i} of `Ax` (`/repo/gosthash2012_precalc.h` lines {a}-{b}). -/\ndef Ax_row{i} : Nat :=\n  0x{n:x}\n")
out.append("/-- The rows of `Ax` (`/repo/gosthash2012_precalc.h`). -/\ndef Ax_rows : Nat → Nat")
for i in range(7): out.append(f"  | {i} => Ax_row{i}")
out.append("  | _ => Ax_row7\n")
out.append(f"/-- `C[12]`, `/repo/gosthash2012_const.h` lines {ca}-{cb}: the `QWORD`s. -/\ndef streebogC : List (List W64) :=\n  [" +
 ",\n   ".join("["+", ".join(f"0x{x:016x}#64" for x in c[8*i:8*i+8])+"]" for i in range(12))+"]\n")
out.append("end Gost")
open('/verif/lean/Verif/Model/StreebogTables.lean','w').write("\n".join(out)+"\n")
pi=[252,238,221]
import ast
sp=open('/verif/lean/Verif/Spec/Kuznyechik.lean').read()
pi=ast.literal_eval(re.search(r'def piTable.*?:=\s*(\[.*?\])',sp,re.S).group(1))
A=[]
for i in range(64):
    bit=63-i; j,k=divmod(bit,8)
    A.append(rows[j][pi.index(1<<k)])
print(",\n".join("   "+", ".join(f"0x{x:016x}#64" for x in A[4*i:4*i+4]) for i in range(16)))
print()
for i in range(12):
    print("0x"+"".join(f"{x:016x}" for x in reversed(c[8*i:8*i+8])))
