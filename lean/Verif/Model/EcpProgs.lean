import Verif.Model.Basic

/-!
# The field programs of the point operations

The bodies of `point_double`, `point_add_mixed`, `point_add_proj`, `point_edwards2legacy` and `point_legacy2edwards` of the
eight files `/repo/ecp_*.c`, statement by statement.  The text was extracted from the C sources by `tools/gen_ecprogs.py`,
which checked that all the places listed with each program (the 64-bit and the 32-bit half of every file) have the same
text.  `am3`: curves with `a = -3`; `gen`: general `a`; `ed`: Edwards coordinates.
-/

namespace Gost

/-- The variables of the programs: coordinates of the operands and of the result, temporaries, constants. -/
inductive FReg
  | X1 | Y1 | Z1 | T1 | X2 | Y2 | Z2 | T2 | X3 | Y3 | Z3 | T3
  | t0 | t1 | t2 | t3 | t4 | t5
  | c_a | c_b | c_b3 | c_d | c_S | c_T
deriving DecidableEq, Repr

/-- The statements of the programs: `fiat_*_mul(d, a, b)` and so on (in the files with unsaturated limbs `carry_mul`,
`carry_square`, `carry_add`, `carry_sub`). -/
inductive FInstr
  | mul (d a b : FReg)
  | sq (d a : FReg)
  | add (d a b : FReg)
  | sub (d a b : FReg)
deriving DecidableEq, Repr

/-- `point_double`:
`/repo/ecp_id_GostR3410_2001_CryptoPro_A_ParamSet.c` lines 3065-3113 and 8006-8054;
`/repo/ecp_id_GostR3410_2001_CryptoPro_B_ParamSet.c` lines 3722-3770 and 11236-11284;
`/repo/ecp_id_GostR3410_2001_CryptoPro_C_ParamSet.c` lines 4380-4428 and 14789-14837;
`/repo/ecp_id_tc26_gost_3410_2012_512_paramSetA.c` lines 4094-4142 and 12128-12176;
`/repo/ecp_id_tc26_gost_3410_2012_512_paramSetB.c` lines 6320-6368 and 21804-21852. -/
def am3_point_double : List FInstr := [
  .sq .t0 .X1,
  .sq .t1 .Y1,
  .sq .t2 .Z1,
  .mul .t3 .X1 .Y1,
  .add .t3 .t3 .t3,
  .mul .t4 .Y1 .Z1,
  .mul .Z3 .X1 .Z1,
  .add .Z3 .Z3 .Z3,
  .mul .Y3 .c_b .t2,
  .sub .Y3 .Y3 .Z3,
  .add .X3 .Y3 .Y3,
  .add .Y3 .X3 .Y3,
  .sub .X3 .t1 .Y3,
  .add .Y3 .t1 .Y3,
  .mul .Y3 .X3 .Y3,
  .mul .X3 .X3 .t3,
  .add .t3 .t2 .t2,
  .add .t2 .t2 .t3,
  .mul .Z3 .c_b .Z3,
  .sub .Z3 .Z3 .t2,
  .sub .Z3 .Z3 .t0,
  .add .t3 .Z3 .Z3,
  .add .Z3 .Z3 .t3,
  .add .t3 .t0 .t0,
  .add .t0 .t3 .t0,
  .sub .t0 .t0 .t2,
  .mul .t0 .t0 .Z3,
  .add .Y3 .Y3 .t0,
  .add .t0 .t4 .t4,
  .mul .Z3 .t0 .Z3,
  .sub .X3 .X3 .Z3,
  .mul .Z3 .t0 .t1,
  .add .Z3 .Z3 .Z3,
  .add .Z3 .Z3 .Z3]

/-- `point_add_mixed`:
`/repo/ecp_id_GostR3410_2001_CryptoPro_A_ParamSet.c` lines 3137-3198 and 8078-8139;
`/repo/ecp_id_GostR3410_2001_CryptoPro_B_ParamSet.c` lines 3780-3841 and 11294-11355;
`/repo/ecp_id_GostR3410_2001_CryptoPro_C_ParamSet.c` lines 4438-4499 and 14847-14908;
`/repo/ecp_id_tc26_gost_3410_2012_512_paramSetA.c` lines 4166-4227 and 12200-12261;
`/repo/ecp_id_tc26_gost_3410_2012_512_paramSetB.c` lines 6378-6439 and 21862-21923. -/
def am3_point_add_mixed : List FInstr := [
  .mul .t0 .X1 .X2,
  .mul .t1 .Y1 .Y2,
  .add .t3 .X2 .Y2,
  .add .t4 .X1 .Y1,
  .mul .t3 .t3 .t4,
  .add .t4 .t0 .t1,
  .sub .t3 .t3 .t4,
  .mul .t4 .Y2 .Z1,
  .add .t4 .t4 .Y1,
  .mul .Y3 .X2 .Z1,
  .add .Y3 .Y3 .X1,
  .mul .Z3 .c_b .Z1,
  .sub .X3 .Y3 .Z3,
  .add .Z3 .X3 .X3,
  .add .X3 .X3 .Z3,
  .sub .Z3 .t1 .X3,
  .add .X3 .t1 .X3,
  .mul .Y3 .c_b .Y3,
  .add .t1 .Z1 .Z1,
  .add .t2 .t1 .Z1,
  .sub .Y3 .Y3 .t2,
  .sub .Y3 .Y3 .t0,
  .add .t1 .Y3 .Y3,
  .add .Y3 .t1 .Y3,
  .add .t1 .t0 .t0,
  .add .t0 .t1 .t0,
  .sub .t0 .t0 .t2,
  .mul .t1 .t4 .Y3,
  .mul .t2 .t0 .Y3,
  .mul .Y3 .X3 .Z3,
  .add .Y3 .Y3 .t2,
  .mul .X3 .t3 .X3,
  .sub .X3 .X3 .t1,
  .mul .Z3 .t4 .Z3,
  .mul .t1 .t3 .t0,
  .add .Z3 .Z3 .t1]

/-- `point_add_proj`:
`/repo/ecp_id_GostR3410_2001_CryptoPro_A_ParamSet.c` lines 3208-3268 and 8149-8209;
`/repo/ecp_id_GostR3410_2001_CryptoPro_B_ParamSet.c` lines 3851-3911 and 11365-11425;
`/repo/ecp_id_GostR3410_2001_CryptoPro_C_ParamSet.c` lines 4509-4569 and 14918-14978;
`/repo/ecp_id_tc26_gost_3410_2012_512_paramSetA.c` lines 4237-4297 and 12271-12331;
`/repo/ecp_id_tc26_gost_3410_2012_512_paramSetB.c` lines 6449-6509 and 21933-21993. -/
def am3_point_add_proj : List FInstr := [
  .mul .t0 .X1 .X2,
  .mul .t1 .Y1 .Y2,
  .mul .t2 .Z1 .Z2,
  .add .t3 .X1 .Y1,
  .add .t4 .X2 .Y2,
  .mul .t3 .t3 .t4,
  .add .t4 .t0 .t1,
  .sub .t3 .t3 .t4,
  .add .t4 .Y1 .Z1,
  .add .t5 .Y2 .Z2,
  .mul .t4 .t4 .t5,
  .add .t5 .t1 .t2,
  .sub .t4 .t4 .t5,
  .add .X3 .X1 .Z1,
  .add .Y3 .X2 .Z2,
  .mul .X3 .X3 .Y3,
  .add .Y3 .t0 .t2,
  .sub .Y3 .X3 .Y3,
  .mul .Z3 .c_b .t2,
  .sub .X3 .Y3 .Z3,
  .add .Z3 .X3 .X3,
  .add .X3 .X3 .Z3,
  .sub .Z3 .t1 .X3,
  .add .X3 .t1 .X3,
  .mul .Y3 .c_b .Y3,
  .add .t1 .t2 .t2,
  .add .t2 .t1 .t2,
  .sub .Y3 .Y3 .t2,
  .sub .Y3 .Y3 .t0,
  .add .t1 .Y3 .Y3,
  .add .Y3 .t1 .Y3,
  .add .t1 .t0 .t0,
  .add .t0 .t1 .t0,
  .sub .t0 .t0 .t2,
  .mul .t1 .t4 .Y3,
  .mul .t2 .t0 .Y3,
  .mul .Y3 .X3 .Z3,
  .add .Y3 .Y3 .t2,
  .mul .X3 .t3 .X3,
  .sub .X3 .X3 .t1,
  .mul .Z3 .t4 .Z3,
  .mul .t1 .t3 .t0,
  .add .Z3 .Z3 .t1]

/-- `point_double`:
`/repo/ecp_id_GostR3410_2001_TestParamSet.c` lines 3661-3707 and 10989-11035. -/
def gen_point_double : List FInstr := [
  .sq .t0 .X1,
  .sq .t1 .Y1,
  .sq .t2 .Z1,
  .mul .t3 .X1 .Y1,
  .add .t3 .t3 .t3,
  .mul .t4 .Y1 .Z1,
  .mul .Z3 .X1 .Z1,
  .add .Z3 .Z3 .Z3,
  .mul .X3 .c_a .Z3,
  .mul .Y3 .c_b3 .t2,
  .add .Y3 .X3 .Y3,
  .sub .X3 .t1 .Y3,
  .add .Y3 .t1 .Y3,
  .mul .Y3 .X3 .Y3,
  .mul .X3 .t3 .X3,
  .mul .Z3 .c_b3 .Z3,
  .mul .t2 .c_a .t2,
  .sub .t3 .t0 .t2,
  .mul .t3 .c_a .t3,
  .add .t3 .t3 .Z3,
  .add .Z3 .t0 .t0,
  .add .t0 .Z3 .t0,
  .add .t0 .t0 .t2,
  .mul .t0 .t0 .t3,
  .add .Y3 .Y3 .t0,
  .add .t2 .t4 .t4,
  .mul .t0 .t2 .t3,
  .sub .X3 .X3 .t0,
  .mul .Z3 .t2 .t1,
  .add .Z3 .Z3 .Z3,
  .add .Z3 .Z3 .Z3]

/-- `point_add_mixed`:
`/repo/ecp_id_GostR3410_2001_TestParamSet.c` lines 3716-3775 and 11044-11103. -/
def gen_point_add_mixed : List FInstr := [
  .mul .t0 .X1 .X2,
  .mul .t1 .Y1 .Y2,
  .add .t3 .X2 .Y2,
  .add .t4 .X1 .Y1,
  .mul .t3 .t3 .t4,
  .add .t4 .t0 .t1,
  .sub .t3 .t3 .t4,
  .mul .t4 .X2 .Z1,
  .add .t4 .t4 .X1,
  .mul .t5 .Y2 .Z1,
  .add .t5 .t5 .Y1,
  .mul .Z3 .c_a .t4,
  .mul .X3 .c_b3 .Z1,
  .add .Z3 .X3 .Z3,
  .sub .X3 .t1 .Z3,
  .add .Z3 .t1 .Z3,
  .mul .Y3 .X3 .Z3,
  .add .t1 .t0 .t0,
  .add .t1 .t1 .t0,
  .mul .t2 .c_a .Z1,
  .mul .t4 .c_b3 .t4,
  .add .t1 .t1 .t2,
  .sub .t2 .t0 .t2,
  .mul .t2 .c_a .t2,
  .add .t4 .t4 .t2,
  .mul .t0 .t1 .t4,
  .add .Y3 .Y3 .t0,
  .mul .t0 .t5 .t4,
  .mul .X3 .t3 .X3,
  .sub .X3 .X3 .t0,
  .mul .t0 .t3 .t1,
  .mul .Z3 .t5 .Z3,
  .add .Z3 .Z3 .t0]

/-- `point_add_proj`:
`/repo/ecp_id_GostR3410_2001_TestParamSet.c` lines 3784-3842 and 11112-11170. -/
def gen_point_add_proj : List FInstr := [
  .mul .t0 .X1 .X2,
  .mul .t1 .Y1 .Y2,
  .mul .t2 .Z1 .Z2,
  .add .t3 .X1 .Y1,
  .add .t4 .X2 .Y2,
  .mul .t3 .t3 .t4,
  .add .t4 .t0 .t1,
  .sub .t3 .t3 .t4,
  .add .t4 .X1 .Z1,
  .add .t5 .X2 .Z2,
  .mul .t4 .t4 .t5,
  .add .t5 .t0 .t2,
  .sub .t4 .t4 .t5,
  .add .t5 .Y1 .Z1,
  .add .X3 .Y2 .Z2,
  .mul .t5 .t5 .X3,
  .add .X3 .t1 .t2,
  .sub .t5 .t5 .X3,
  .mul .Z3 .c_a .t4,
  .mul .X3 .c_b3 .t2,
  .add .Z3 .X3 .Z3,
  .sub .X3 .t1 .Z3,
  .add .Z3 .t1 .Z3,
  .mul .Y3 .X3 .Z3,
  .add .t1 .t0 .t0,
  .add .t1 .t1 .t0,
  .mul .t2 .c_a .t2,
  .mul .t4 .c_b3 .t4,
  .add .t1 .t1 .t2,
  .sub .t2 .t0 .t2,
  .mul .t2 .c_a .t2,
  .add .t4 .t4 .t2,
  .mul .t0 .t1 .t4,
  .add .Y3 .Y3 .t0,
  .mul .t0 .t5 .t4,
  .mul .X3 .t3 .X3,
  .sub .X3 .X3 .t0,
  .mul .t0 .t3 .t1,
  .mul .Z3 .t5 .Z3,
  .add .Z3 .Z3 .t0]

/-- `point_double`:
`/repo/ecp_id_tc26_gost_3410_2012_256_paramSetA.c` lines 3256-3285 and 8466-8495;
`/repo/ecp_id_tc26_gost_3410_2012_512_paramSetC.c` lines 4102-4131 and 12032-12061. -/
def ed_point_double : List FInstr := [
  .sq .t0 .X1,
  .sq .t1 .Y1,
  .sq .t2 .Z1,
  .add .t3 .t2 .t2,
  .add .X3 .X1 .Y1,
  .sq .Y3 .X3,
  .sub .T3 .Y3 .t0,
  .sub .Z3 .T3 .t1,
  .add .Y3 .t0 .t1,
  .sub .t2 .Y3 .t3,
  .sub .t3 .t0 .t1,
  .mul .X3 .Z3 .t2,
  .mul .T3 .Z3 .t3,
  .mul .Z3 .t2 .Y3,
  .mul .Y3 .Y3 .t3]

/-- `point_add_mixed`:
`/repo/ecp_id_tc26_gost_3410_2012_256_paramSetA.c` lines 3295-3330 and 8505-8540;
`/repo/ecp_id_tc26_gost_3410_2012_512_paramSetC.c` lines 4141-4176 and 12071-12106. -/
def ed_point_add_mixed : List FInstr := [
  .mul .t0 .X1 .X2,
  .mul .t1 .Y1 .Y2,
  .mul .t2 .c_d .T2,
  .mul .t2 .T1 .t2,
  .add .X3 .X1 .Y1,
  .add .Y3 .X2 .Y2,
  .mul .T3 .X3 .Y3,
  .sub .t3 .T3 .t0,
  .sub .T3 .t3 .t1,
  .add .t3 .Z1 .t2,
  .sub .Z3 .Z1 .t2,
  .sub .t1 .t1 .t0,
  .mul .X3 .T3 .Z3,
  .mul .Y3 .t3 .t1,
  .mul .T3 .T3 .t1,
  .mul .Z3 .Z3 .t3]

/-- `point_add_proj`:
`/repo/ecp_id_tc26_gost_3410_2012_256_paramSetA.c` lines 3340-3377 and 8550-8587;
`/repo/ecp_id_tc26_gost_3410_2012_512_paramSetC.c` lines 4186-4223 and 12116-12153. -/
def ed_point_add_proj : List FInstr := [
  .mul .t0 .X1 .X2,
  .mul .t1 .Y1 .Y2,
  .mul .t2 .c_d .T2,
  .mul .t2 .T1 .t2,
  .mul .t3 .Z1 .Z2,
  .add .X3 .X1 .Y1,
  .add .Y3 .X2 .Y2,
  .mul .T3 .X3 .Y3,
  .sub .Z3 .T3 .t0,
  .sub .T3 .Z3 .t1,
  .sub .Z3 .t3 .t2,
  .add .t3 .t3 .t2,
  .sub .t1 .t1 .t0,
  .mul .X3 .T3 .Z3,
  .mul .Y3 .t3 .t1,
  .mul .T3 .T3 .t1,
  .mul .Z3 .Z3 .t3]

/-- `point_edwards2legacy`:
`/repo/ecp_id_tc26_gost_3410_2012_256_paramSetA.c` lines 3384-3407 and 8594-8617;
`/repo/ecp_id_tc26_gost_3410_2012_512_paramSetC.c` lines 4230-4253 and 12160-12183. -/
def ed_point_edwards2legacy : List FInstr := [
  .add .T3 .Z1 .Y1,
  .sub .t0 .Z1 .Y1,
  .mul .T3 .c_S .T3,
  .mul .Y3 .Z1 .T3,
  .mul .Z3 .X1 .t0,
  .mul .t0 .t0 .c_T,
  .add .t0 .T3 .t0,
  .mul .X3 .X1 .t0]

/-- `point_legacy2edwards`:
`/repo/ecp_id_tc26_gost_3410_2012_256_paramSetA.c` lines 3414-3436 and 8624-8646;
`/repo/ecp_id_tc26_gost_3410_2012_512_paramSetC.c` lines 4260-4282 and 12190-12212. -/
def ed_point_legacy2edwards : List FInstr := [
  .sub .T3 .X1 .c_T,
  .add .Y3 .T3 .c_S,
  .mul .X3 .T3 .Y3,
  .mul .Z3 .Y1 .Y3,
  .sub .T3 .T3 .c_S,
  .mul .Y3 .Y1 .T3,
  .mul .T3 .X3 .Y3,
  .mul .X3 .X3 .Z3,
  .mul .Y3 .Y3 .Z3,
  .sq .Z3 .Z3]

end Gost
