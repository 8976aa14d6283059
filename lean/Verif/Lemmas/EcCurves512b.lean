import Verif.Lemmas.EcOrder
import Verif.Lemmas.EcFacts
import Verif.Lemmas.EcCurves512
import Verif.Model.EcParams

/-!
# The built-in curves satisfy the conditions of the standard

Generated by `tools/mkeccurves.py`.
-/

namespace Gost

open Spec (GostCurve)

theorem check_tc26_512_paramSetB : ecCheck ec_tc26_512_paramSetB.p ec_tc26_512_paramSetB.a ec_tc26_512_paramSetB.b ec_tc26_512_paramSetB.x ec_tc26_512_paramSetB.y ec_tc26_512_paramSetB.q 512 1024 = true := by decide +kernel

theorem prime_p_tc26_512_paramSetB : ec_tc26_512_paramSetB.p.Prime :=
  ecpp ec_tc26_512_paramSetB.a ec_tc26_512_paramSetB.b ec_tc26_512_paramSetB.x ec_tc26_512_paramSetB.y ec_tc26_512_paramSetB.q 512 1024 prime_q_512b (by decide +kernel) check_tc26_512_paramSetB

theorem noRoot_tc26_512_paramSetB : noRootCheck ec_tc26_512_paramSetB.p ec_tc26_512_paramSetB.a ec_tc26_512_paramSetB.b 512 (0x573C085BC05E3B738EC6D390BEB109EE6E2C7A19CB1232454953306262F712835445787BDFA660034940B4CA8E6E069589ABB66525EC1C8896719579BC990A19, 0xEEF7568604A870BF432AE109BEC6E9A456B4C7A1F207C0DBC5F24585C7A946CE9A3E35C8A6BD4DB1EF1A6C4255B12FF4AB4C4AF3F9FAF3B29BCF1481F86C8F5, 0x4DCB443D0A80DAB3D7D1648928F8F272AAEFD069D34FD2FB03A2D30899806D102555F01CF0D6929E23BFF1531888C9B4DD6CF3133E3D4636D6C0C2F6D00917F) = true := by decide +kernel

theorem gostCurve_tc26_512_paramSetB : GostCurve ec_tc26_512_paramSetB.p ec_tc26_512_paramSetB.a ec_tc26_512_paramSetB.b ec_tc26_512_paramSetB.q ec_tc26_512_paramSetB.x ec_tc26_512_paramSetB.y ec_tc26_512_paramSetB.cofactor :=
  gostCurve_of_noRoot prime_p_tc26_512_paramSetB prime_q_512b check_tc26_512_paramSetB noRoot_tc26_512_paramSetB (by decide +kernel)

end Gost
