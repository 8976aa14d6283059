#!/usr/bin/env python3
"""Transcribes the constant tables of Kuznyechik into Lean (pure reformatting).
Byte tables become one natural number with byte i at bits 8i; each row of a 16x256 table of
16-byte entries becomes one natural number with byte j of entry x at bits 128x + 8j."""
import re
R='/repo/'
def nums(s): return [int(x,0) for x in re.findall(r'0[xX][0-9a-fA-F]+|\b\d+\b', s)]
def strip(s): return re.sub(r'//[^\n]*','',re.sub(r'/\*.*?\*/','',s,flags=re.S))
def packed(bs): return int.from_bytes(bytes(bs),'little')
out=["import Verif.Model.Basic","",
"/-! Generated by /verif/tools/gen_kuz.py from /repo/gost_grasshopper_defines.c,",
"/repo/gost_grasshopper_galois_precompiled.c and /repo/gost_grasshopper_precompiled.c.",
"A byte table is one natural number, byte `i` of the table at bits `8i`; a row of a 16x256 table of",
"16-byte entries is one natural number, byte `j` of entry `x` at bits `128x + 8j`. -/","",
"namespace Gost",""]
def find(fn,name):
    src=open(R+fn).read()
    m=re.search(r'[^\n]*\b'+name+r'\b\s*\[[^=]*=\s*\{(.*?)\n\};',src,re.S)
    a=src[:m.start()].count('\n')+1; b=src[:m.end()].count('\n')+1
    return m.group(1),a,b
for fn,name,n in [('gost_grasshopper_defines.c','grasshopper_pi',256),('gost_grasshopper_defines.c','grasshopper_pi_inv',256),
             ('gost_grasshopper_defines.c','grasshopper_lvec',16),
             ('gost_grasshopper_galois_precompiled.c','grasshopper_galois_alpha_to',256),
             ('gost_grasshopper_galois_precompiled.c','grasshopper_galois_index_of',256)]:
    body,a,b=find(fn,name)
    v=nums(strip(body)); assert len(v)==n,(name,len(v))
    out.append(f"/-- `{R}{fn}` lines {a}-{b}: `{name}`, packed. -/\ndef {name}_packed : Nat :=\n  0x{packed(v):x}\n")
rows={}
for name in ['grasshopper_pil_enc128','grasshopper_pil_dec128','grasshopper_l_dec128']:
    body,a,b=find('gost_grasshopper_precompiled.c',name)
    v=nums(strip(body)); assert len(v)==16*256*16
    rows[name]=v
    for i in range(16):
        r=v[i*4096:(i+1)*4096]
        out.append(f"/-- Row {i} of `{name}` (`{R}gost_grasshopper_precompiled.c` lines {a}-{b}). -/\ndef {name}_row{i} : Nat :=\n  0x{packed(r):x}\n")
    out.append(f"/-- The rows of `{name}`. -/\ndef {name}_rows : Nat → Nat")
    for i in range(15): out.append(f"  | {i} => {name}_row{i}")
    out.append(f"  | _ => {name}_row15\n")
out.append("end Gost")
open('/verif/lean/Verif/Model/KuzTables.lean','w').write("\n".join(out)+"\n")
# basis images of L and L^-1, used only in proofs (checked there by the kernel)
al=nums(strip(find('gost_grasshopper_galois_precompiled.c','grasshopper_galois_alpha_to')[0]))
ix=nums(strip(find('gost_grasshopper_galois_precompiled.c','grasshopper_galois_index_of')[0]))
lv=nums(strip(find('gost_grasshopper_defines.c','grasshopper_lvec')[0]))
mul=lambda x,y: al[(ix[x]+ix[y])%255] if x and y else 0
def L(w):
    w=list(w)
    for _ in range(16):
        x=w[15]
        for i in range(14,-1,-1):
            w[i+1]=w[i]; x^=mul(w[i],lv[i])
        w[0]=x
    return w
def Li(w):
    w=list(w)
    for _ in range(16):
        x=w[0]
        for i in range(15):
            w[i]=w[i+1]; x^=mul(w[i],lv[i])
        w[15]=x
    return w
def basis(f,nm,doc):
    o=[f"/-- {doc} -/",f"def {nm} : Nat → Nat"]
    for i in range(16):
        # 8 packed 128 bit values
        v=[]
        for b in range(8):
            w=[0]*16; w[i]=1<<b
            v+=f(w)
        o.append(f"  | {i if i<15 else '_'} => 0x{packed(v):x}")
    return o
o2=["/-! Generated by /verif/tools/gen_kuz.py: images of the unit vectors under L and its inverse, as",
"proof witnesses (Lemmas/KuzTables.lean has the kernel check them against the model of the code).",
"Entry `b` of row `i` is the image of the block with byte `i` equal to `2^b`, at bits `128b`. -/","","namespace Gost",""]
o2+=basis(L,'lBasis','Images under L.')+[""]+basis(Li,'lInvBasis','Images under the inverse of L.')+["","end Gost"]
open('/verif/lean/Verif/Lemmas/KuzBasis.lean','w').write("\n".join(o2)+"\n")
