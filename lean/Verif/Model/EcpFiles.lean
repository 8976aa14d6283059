import Verif.Model.Ecp.CryptoPro_A
import Verif.Model.Ecp.CryptoPro_A_32
import Verif.Model.Ecp.CryptoPro_B
import Verif.Model.Ecp.CryptoPro_B_32
import Verif.Model.Ecp.CryptoPro_C
import Verif.Model.Ecp.CryptoPro_C_32
import Verif.Model.Ecp.Test
import Verif.Model.Ecp.Test_32
import Verif.Model.Ecp.tc26_256_paramSetA
import Verif.Model.Ecp.tc26_256_paramSetA_32
import Verif.Model.Ecp.tc26_512_paramSetA
import Verif.Model.Ecp.tc26_512_paramSetA_32
import Verif.Model.Ecp.tc26_512_paramSetB
import Verif.Model.Ecp.tc26_512_paramSetB_32
import Verif.Model.Ecp.tc26_512_paramSetC
import Verif.Model.Ecp.tc26_512_paramSetC_32
import Verif.Model.EcpField
import Verif.Model.EcParams
import Verif.Model.Ec

/-!
# The choice of the curve file

`gost_ec_point_mul`, `/repo/gost_ec_sign.c` lines 498-591, as a function of the name of the curve, over the eight curve files
with their limb arithmetic.  Points are coordinates, as OpenSSL delivers and accepts them.
-/

namespace Gost

/-- The three functions of a curve file; the first argument is the check of coordinates in `EC_POINT_set_affine_coordinates`. -/
structure EcpFile where
  mulTwo : (Nat → Nat → Bool) → Nat → EcPoint → Nat → Option EcPoint
  mul : (Nat → Nat → Bool) → EcPoint → Nat → Option EcPoint
  mulG : (Nat → Nat → Bool) → Nat → Option EcPoint

/-- The functions of a file with the given field arithmetic and point operations. -/
def EcpFile.of {T prj aff : Type} (O : FeOps T) (C : SmulCode prj aff (AffW T)) : EcpFile where
  mulTwo := ecp_mul_two O C
  mul := ecp_mul O C
  mulG := ecp_mul_g O C

/-- Which half of the files the compiler sees: with `__SIZEOF_INT128__` or without. -/
inductive WordSize where
  | w64 | w32
  deriving DecidableEq

/-- `/repo/ecp_id_GostR3410_2001_CryptoPro_A_ParamSet.c`; the shape of the comb is that of `fixed_smul_cmb`, the loop bounds those of `scalar_rwnaf`. -/
def file_CryptoPro_A : WordSize → EcpFile
  | .w64 => EcpFile.of Ecp_CryptoPro_A.file.ops (wCode Ecp_CryptoPro_A.file.ops am3Progs Ecp_CryptoPro_A.lut_cmb 32 51 19 3)
  | .w32 => EcpFile.of Ecp_CryptoPro_A_32.file.ops (wCode Ecp_CryptoPro_A_32.file.ops am3Progs Ecp_CryptoPro_A_32.lut_cmb 32 51 19 3)

/-- `/repo/ecp_id_GostR3410_2001_CryptoPro_B_ParamSet.c`; the shape of the comb is that of `fixed_smul_cmb`, the loop bounds those of `scalar_rwnaf`. -/
def file_CryptoPro_B : WordSize → EcpFile
  | .w64 => EcpFile.of Ecp_CryptoPro_B.file.ops (wCode Ecp_CryptoPro_B.file.ops am3Progs Ecp_CryptoPro_B.lut_cmb 32 51 27 2)
  | .w32 => EcpFile.of Ecp_CryptoPro_B_32.file.ops (wCode Ecp_CryptoPro_B_32.file.ops am3Progs Ecp_CryptoPro_B_32.lut_cmb 32 51 27 2)

/-- `/repo/ecp_id_GostR3410_2001_CryptoPro_C_ParamSet.c`; the shape of the comb is that of `fixed_smul_cmb`, the loop bounds those of `scalar_rwnaf`. -/
def file_CryptoPro_C : WordSize → EcpFile
  | .w64 => EcpFile.of Ecp_CryptoPro_C.file.ops (wCode Ecp_CryptoPro_C.file.ops am3Progs Ecp_CryptoPro_C.lut_cmb 32 51 27 2)
  | .w32 => EcpFile.of Ecp_CryptoPro_C_32.file.ops (wCode Ecp_CryptoPro_C_32.file.ops am3Progs Ecp_CryptoPro_C_32.lut_cmb 32 51 27 2)

/-- `/repo/ecp_id_GostR3410_2001_TestParamSet.c`; the shape of the comb is that of `fixed_smul_cmb`, the loop bounds those of `scalar_rwnaf`. -/
def file_Test : WordSize → EcpFile
  | .w64 => EcpFile.of Ecp_Test.file.ops (wCode Ecp_Test.file.ops genProgs Ecp_Test.lut_cmb 32 51 27 2)
  | .w32 => EcpFile.of Ecp_Test_32.file.ops (wCode Ecp_Test_32.file.ops genProgs Ecp_Test_32.lut_cmb 32 51 27 2)

/-- `/repo/ecp_id_tc26_gost_3410_2012_256_paramSetA.c`; the shape of the comb is that of `fixed_smul_cmb`, the loop bounds those of `scalar_rwnaf`. -/
def file_tc26_256_paramSetA : WordSize → EcpFile
  | .w64 => EcpFile.of Ecp_tc26_256_paramSetA.file.ops (eCode Ecp_tc26_256_paramSetA.file.ops Ecp_tc26_256_paramSetA.lut_cmb 32 51 14 4)
  | .w32 => EcpFile.of Ecp_tc26_256_paramSetA_32.file.ops (eCode Ecp_tc26_256_paramSetA_32.file.ops Ecp_tc26_256_paramSetA_32.lut_cmb 32 51 14 4)

/-- `/repo/ecp_id_tc26_gost_3410_2012_512_paramSetA.c`; the shape of the comb is that of `fixed_smul_cmb`, the loop bounds those of `scalar_rwnaf`. -/
def file_tc26_512_paramSetA : WordSize → EcpFile
  | .w64 => EcpFile.of Ecp_tc26_512_paramSetA.file.ops (wCode Ecp_tc26_512_paramSetA.file.ops am3Progs Ecp_tc26_512_paramSetA.lut_cmb 64 102 12 10)
  | .w32 => EcpFile.of Ecp_tc26_512_paramSetA_32.file.ops (wCode Ecp_tc26_512_paramSetA_32.file.ops am3Progs Ecp_tc26_512_paramSetA_32.lut_cmb 64 102 11 11)

/-- `/repo/ecp_id_tc26_gost_3410_2012_512_paramSetB.c`; the shape of the comb is that of `fixed_smul_cmb`, the loop bounds those of `scalar_rwnaf`. -/
def file_tc26_512_paramSetB : WordSize → EcpFile
  | .w64 => EcpFile.of Ecp_tc26_512_paramSetB.file.ops (wCode Ecp_tc26_512_paramSetB.file.ops am3Progs Ecp_tc26_512_paramSetB.lut_cmb 64 102 14 8)
  | .w32 => EcpFile.of Ecp_tc26_512_paramSetB_32.file.ops (wCode Ecp_tc26_512_paramSetB_32.file.ops am3Progs Ecp_tc26_512_paramSetB_32.lut_cmb 64 102 14 8)

/-- `/repo/ecp_id_tc26_gost_3410_2012_512_paramSetC.c`; the shape of the comb is that of `fixed_smul_cmb`, the loop bounds those of `scalar_rwnaf`. -/
def file_tc26_512_paramSetC : WordSize → EcpFile
  | .w64 => EcpFile.of Ecp_tc26_512_paramSetC.file.ops (eCode Ecp_tc26_512_paramSetC.file.ops Ecp_tc26_512_paramSetC.lut_cmb 64 102 8 15)
  | .w32 => EcpFile.of Ecp_tc26_512_paramSetC_32.file.ops (eCode Ecp_tc26_512_paramSetC_32.file.ops Ecp_tc26_512_paramSetC_32.lut_cmb 64 102 7 18)

/-- The `switch` of `gost_ec_point_mul` for both numbers, `/repo/gost_ec_sign.c` lines 508-532; `ossl` stands for OpenSSL's `EC_POINT_mul`. -/
def switchMulTwo (ws : WordSize) (ossl : EcpFile) : CurveNid → (Nat → Nat → Bool) → Nat → EcPoint → Nat → Option EcPoint
  | .CryptoPro_A => (file_CryptoPro_A ws).mulTwo
  | .CryptoPro_XchA => (file_CryptoPro_A ws).mulTwo
  | .tc26_256_paramSetB => (file_CryptoPro_A ws).mulTwo
  | .CryptoPro_B => (file_CryptoPro_B ws).mulTwo
  | .tc26_256_paramSetC => (file_CryptoPro_B ws).mulTwo
  | .CryptoPro_C => (file_CryptoPro_C ws).mulTwo
  | .CryptoPro_XchB => (file_CryptoPro_C ws).mulTwo
  | .tc26_256_paramSetD => (file_CryptoPro_C ws).mulTwo
  | .Test => (file_Test ws).mulTwo
  | .tc26_256_paramSetA => (file_tc26_256_paramSetA ws).mulTwo
  | .tc26_512_paramSetA => (file_tc26_512_paramSetA ws).mulTwo
  | .tc26_512_paramSetB => (file_tc26_512_paramSetB ws).mulTwo
  | .tc26_512_paramSetC => (file_tc26_512_paramSetC ws).mulTwo
  | _ => ossl.mulTwo

/-- The `switch` of `gost_ec_point_mul` for a multiple of the base point, `/repo/gost_ec_sign.c` lines 535-559; `ossl` stands for OpenSSL's `EC_POINT_mul`. -/
def switchMulG (ws : WordSize) (ossl : EcpFile) : CurveNid → (Nat → Nat → Bool) → Nat → Option EcPoint
  | .CryptoPro_A => (file_CryptoPro_A ws).mulG
  | .CryptoPro_XchA => (file_CryptoPro_A ws).mulG
  | .tc26_256_paramSetB => (file_CryptoPro_A ws).mulG
  | .CryptoPro_B => (file_CryptoPro_B ws).mulG
  | .tc26_256_paramSetC => (file_CryptoPro_B ws).mulG
  | .CryptoPro_C => (file_CryptoPro_C ws).mulG
  | .CryptoPro_XchB => (file_CryptoPro_C ws).mulG
  | .tc26_256_paramSetD => (file_CryptoPro_C ws).mulG
  | .Test => (file_Test ws).mulG
  | .tc26_256_paramSetA => (file_tc26_256_paramSetA ws).mulG
  | .tc26_512_paramSetA => (file_tc26_512_paramSetA ws).mulG
  | .tc26_512_paramSetB => (file_tc26_512_paramSetB ws).mulG
  | .tc26_512_paramSetC => (file_tc26_512_paramSetC ws).mulG
  | _ => ossl.mulG

/-- The `switch` of `gost_ec_point_mul` for a multiple of another point, `/repo/gost_ec_sign.c` lines 564-588; `ossl` stands for OpenSSL's `EC_POINT_mul`. -/
def switchMul (ws : WordSize) (ossl : EcpFile) : CurveNid → (Nat → Nat → Bool) → EcPoint → Nat → Option EcPoint
  | .CryptoPro_A => (file_CryptoPro_A ws).mul
  | .CryptoPro_XchA => (file_CryptoPro_A ws).mul
  | .tc26_256_paramSetB => (file_CryptoPro_A ws).mul
  | .CryptoPro_B => (file_CryptoPro_B ws).mul
  | .tc26_256_paramSetC => (file_CryptoPro_B ws).mul
  | .CryptoPro_C => (file_CryptoPro_C ws).mul
  | .CryptoPro_XchB => (file_CryptoPro_C ws).mul
  | .tc26_256_paramSetD => (file_CryptoPro_C ws).mul
  | .Test => (file_Test ws).mul
  | .tc26_256_paramSetA => (file_tc26_256_paramSetA ws).mul
  | .tc26_512_paramSetA => (file_tc26_512_paramSetA ws).mul
  | .tc26_512_paramSetB => (file_tc26_512_paramSetB ws).mul
  | .tc26_512_paramSetC => (file_tc26_512_paramSetC ws).mul
  | _ => ossl.mul

/-- `EC_POINT_set_affine_coordinates` accepts coordinates that satisfy the equation of the curve. -/
def EcGroupRec.setAffine (g : EcGroupRec) (x y : Nat) : Bool := y ^ 2 % g.p == (x ^ 3 + g.a * x + g.b) % g.p

/-- The group of a key as the signature and key agreement code sees it, `/repo/gost_ec_sign.c` lines 498-591: `ossl` stands for
OpenSSL's `EC_POINT_mul`. -/
def engineGroup (ws : WordSize) (ossl : EcpFile) (g : EcGroupRec) : EcGroup EcPoint where
  gen := some (g.x, g.y)
  order := g.q
  field := g.p
  cofactor := g.cofactor
  coords := id
  mulTwo n Q m := switchMulTwo ws ossl g.name g.setAffine n Q m
  mulG n := switchMulG ws ossl g.name g.setAffine n
  mulVar Q m := switchMul ws ossl g.name g.setAffine Q m

end Gost
