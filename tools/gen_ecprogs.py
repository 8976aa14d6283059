#!/usr/bin/env python3
"""Write lean/Verif/Model/EcpProgs.lean from the C files (see ecslp.py)."""
import sys; sys.path.insert(0,'/verif/tools')
from ecslp import out
fam={}
def family(n):
    if 'Test' in n: return 'gen'
    if n.endswith('256_paramSetA') or n.endswith('512_paramSetC'): return 'ed'
    return 'am3'
progs={}
for (n,half,name),(s,e,ptr,prog) in out.items():
    k=(family(n),name)
    # rename registers
    ren={}
    for a,(b,c) in ptr.items():
        if b=='': ren[a]='.c_'+c[6:]
        elif name=='point_double' and b=='P': ren[a]='.'+c+'1'
        else: ren[a]='.'+a
    ops=[]
    for op,args in prog:
        if op in('nonzero','selectznz'): continue
        r=[ren.get(a,'.'+a) for a in args]
        ops.append((op,r))
    txt=[f".{'sq' if op=='square' else op} "+' '.join(r) for op,r in ops]
    if k in progs: assert progs[k][0]==txt,(k,n)
    progs.setdefault(k,(txt,[]))[1].append((n,half,s,e))
L=['import Verif.Model.Basic','','''/-!
# The field programs of the point operations

The bodies of `point_double`, `point_add_mixed`, `point_add_proj`, `point_edwards2legacy` and `point_legacy2edwards` of the
eight files `/repo/ecp_*.c`, statement by statement.  The text was extracted from the C sources by `tools/gen_ecprogs.py`,
which checked that all the places listed with each program (the 64-bit and the 32-bit half of every file) have the same
text.  `am3`: curves with `a = -3`; `gen`: general `a`; `ed`: Edwards coordinates.
-/

namespace Gost

/-- The variables of the programs: coordinates of the operands and of the result, temporaries, constants. -/
inductive FReg
  | X1 | Y1 | Z1 | T1 | X2 | Y2 | Z2 | T2 | X3 | Y3 | Z3 | T3
  | t0 | t1 | t2 | t3 | t4 | t5
  | c_a | c_b | c_b3 | c_d | c_S | c_T
deriving DecidableEq, Repr

/-- The statements of the programs: `fiat_*_mul(d, a, b)` and so on (in the files with unsaturated limbs `carry_mul`,
`carry_square`, `carry_add`, `carry_sub`). -/
inductive FInstr
  | mul (d a b : FReg)
  | sq (d a : FReg)
  | add (d a b : FReg)
  | sub (d a b : FReg)
deriving DecidableEq, Repr
''']
for (f,name),(txt,places) in progs.items():
    L.append(f'/-- `{name}`:')
    byf={}
    for n,h,s,e in places: byf.setdefault(n,[]).append(f'{s}-{e}')
    L.append('; '.join(f'`/repo/ecp_{n}.c` lines {" and ".join(v)}' for n,v in byf.items()).replace('; ',';\n')+'. -/')
    L.append(f'def {f}_{name} : List FInstr := [')
    L.append(',\n'.join('  '+t for t in txt)+']')
    L.append('')
L.append('end Gost')
open('/verif/lean/Verif/Model/EcpProgs.lean','w').write('\n'.join(L)+'\n')
