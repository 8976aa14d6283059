import sys; sys.path.insert(0,'/verif/tools')
from ecpdata import *
imports=[]; defs=[]
for c in FILES:
    for half in (64,32):
        suf='' if half==64 else '_32'
        imports.append(f'import Verif.Model.Ecp.{c}{suf}')
ED=('tc26_256_paramSetA','tc26_512_paramSetC')
def code(c,half):
    suf='' if half==64 else '_32'; N=f'Ecp_{c}{suf}'
    nb,n=(64,102) if '512' in c else (32,51)
    r,co=shape(c,half)
    if c in ED: return f'EcpFile.of {N}.file.ops (eCode {N}.file.ops {N}.lut_cmb {nb} {n} {r} {co})'
    pr='genProgs' if c=='Test' else 'am3Progs'
    return f'EcpFile.of {N}.file.ops (wCode {N}.file.ops {pr} {N}.lut_cmb {nb} {n} {r} {co})'
o='\n'.join(imports)+'''
import Verif.Model.EcpField
import Verif.Model.EcParams
import Verif.Model.Ec

/-!
# The choice of the curve file

`gost_ec_point_mul`, `/repo/gost_ec_sign.c` lines 498-591, as a function of the name of the curve, over the eight curve files
with their limb arithmetic.  Points are coordinates, as OpenSSL delivers and accepts them.
-/

namespace Gost

/-- The three functions of a curve file; the first argument is the check of coordinates in `EC_POINT_set_affine_coordinates`. -/
structure EcpFile where
  mulTwo : (Nat → Nat → Bool) → Nat → EcPoint → Nat → Option EcPoint
  mul : (Nat → Nat → Bool) → EcPoint → Nat → Option EcPoint
  mulG : (Nat → Nat → Bool) → Nat → Option EcPoint

/-- The functions of a file with the given field arithmetic and point operations. -/
def EcpFile.of {T prj aff : Type} (O : FeOps T) (C : SmulCode prj aff (AffW T)) : EcpFile where
  mulTwo := ecp_mul_two O C
  mul := ecp_mul O C
  mulG := ecp_mul_g O C

/-- Which half of the files the compiler sees: with `__SIZEOF_INT128__` or without. -/
inductive WordSize where
  | w64 | w32
  deriving DecidableEq

'''
for c in FILES:
    lf=FILES[c][0]
    l64=None
    o+=f'/-- `/repo/{lf}`; the shape of the comb is that of `fixed_smul_cmb`, the loop bounds those of `scalar_rwnaf`. -/\ndef file_{c} : WordSize → EcpFile\n  | .w64 => {code(c,64)}\n  | .w32 => {code(c,32)}\n\n'
cases=[('CryptoPro_A','CryptoPro_A'),('CryptoPro_XchA','CryptoPro_A'),('tc26_256_paramSetB','CryptoPro_A'),('CryptoPro_B','CryptoPro_B'),('tc26_256_paramSetC','CryptoPro_B'),('CryptoPro_C','CryptoPro_C'),('CryptoPro_XchB','CryptoPro_C'),('tc26_256_paramSetD','CryptoPro_C'),('Test','Test')]+[(c,c) for c in ('tc26_256_paramSetA','tc26_512_paramSetA','tc26_512_paramSetB','tc26_512_paramSetC')]
def sw(n,f,ty,lines,what):
    return f'/-- The `switch` of `gost_ec_point_mul` for {what}, `/repo/gost_ec_sign.c` lines {lines}; `ossl` stands for OpenSSL\'s `EC_POINT_mul`. -/\ndef {n} (ws : WordSize) (ossl : EcpFile) : CurveNid → {ty}\n'+''.join(f'  | .{a} => (file_{b} ws).{f}\n' for a,b in cases)+f'  | _ => ossl.{f}\n\n'
SA='(Nat → Nat → Bool)'
o+=sw('switchMulTwo','mulTwo',SA+' → Nat → EcPoint → Nat → Option EcPoint','508-532','both numbers')
o+=sw('switchMulG','mulG',SA+' → Nat → Option EcPoint','535-559','a multiple of the base point')
o+=sw('switchMul','mul',SA+' → EcPoint → Nat → Option EcPoint','564-588','a multiple of another point')
o+='''/-- `EC_POINT_set_affine_coordinates` accepts coordinates that satisfy the equation of the curve. -/
def EcGroupRec.setAffine (g : EcGroupRec) (x y : Nat) : Bool := y ^ 2 % g.p == (x ^ 3 + g.a * x + g.b) % g.p

/-- The group of a key as the signature and key agreement code sees it, `/repo/gost_ec_sign.c` lines 498-591: `ossl` stands for
OpenSSL's `EC_POINT_mul`. -/
def engineGroup (ws : WordSize) (ossl : EcpFile) (g : EcGroupRec) : EcGroup EcPoint where
  gen := some (g.x, g.y)
  order := g.q
  field := g.p
  cofactor := g.cofactor
  coords := id
  mulTwo n Q m := switchMulTwo ws ossl g.name g.setAffine n Q m
  mulG n := switchMulG ws ossl g.name g.setAffine n
  mulVar Q m := switchMul ws ossl g.name g.setAffine Q m

end Gost
'''
open('/verif/lean/Verif/Model/EcpFiles.lean','w').write(o)
