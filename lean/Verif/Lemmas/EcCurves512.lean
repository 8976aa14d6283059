import Verif.Lemmas.EcOrder
import Verif.Lemmas.EcFacts
import Verif.Lemmas.EcCurves512t
import Verif.Model.EcParams

/-!
# The built-in curves satisfy the conditions of the standard

Generated by `tools/mkeccurves.py`.
-/

namespace Gost

open Spec (GostCurve)

theorem check_tc26_512_paramSetA : ecCheck ec_tc26_512_paramSetA.p ec_tc26_512_paramSetA.a ec_tc26_512_paramSetA.b ec_tc26_512_paramSetA.x ec_tc26_512_paramSetA.y ec_tc26_512_paramSetA.q 512 1024 = true := by decide +kernel

theorem prime_p_tc26_512_paramSetA : ec_tc26_512_paramSetA.p.Prime :=
  ecpp ec_tc26_512_paramSetA.a ec_tc26_512_paramSetA.b ec_tc26_512_paramSetA.x ec_tc26_512_paramSetA.y ec_tc26_512_paramSetA.q 512 1024 prime_q_512a (by decide +kernel) check_tc26_512_paramSetA

theorem noRoot_tc26_512_paramSetA : noRootCheck ec_tc26_512_paramSetA.p ec_tc26_512_paramSetA.a ec_tc26_512_paramSetA.b 512 (0xCEB557D47AC4DAD02B22B23C29314ECFE2D757D6AEAE5C3AEFD50BA12701D7CF0D998B303A9FE2F85FE62E54E7F22A8C66A84E87E5861FC747D3A3A6BCD283D1, 0xF2CE93AA6B39B4045DA92BFC6A10180CD509F18002F4ECA95D15728EFE85CA0BFF8EB909D2560DD7BE776974A3C942C2F0FA4DF28211C7295DEC1EBBCC26EC49, 0x48AAE8787A349B9E134305EF7AD9848A05AD0321570199095780E27F1F590A326A807A7B016AF2EBC357F6D63062D452A86A211D4E6AD0664EDD62859A20E041) = true := by decide +kernel

theorem gostCurve_tc26_512_paramSetA : GostCurve ec_tc26_512_paramSetA.p ec_tc26_512_paramSetA.a ec_tc26_512_paramSetA.b ec_tc26_512_paramSetA.q ec_tc26_512_paramSetA.x ec_tc26_512_paramSetA.y ec_tc26_512_paramSetA.cofactor :=
  gostCurve_of_noRoot prime_p_tc26_512_paramSetA prime_q_512a check_tc26_512_paramSetA noRoot_tc26_512_paramSetA (by decide +kernel)

end Gost
