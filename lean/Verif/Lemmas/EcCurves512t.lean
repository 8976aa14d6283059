import Verif.Lemmas.EcOrder
import Verif.Lemmas.EcFacts
import Verif.Lemmas.Primes512
import Verif.Model.EcParams

/-!
# The built-in curves satisfy the conditions of the standard

Generated by `tools/mkeccurves.py`.
-/

namespace Gost

open Spec (GostCurve)

theorem check_tc26_512_paramSetTest : ecCheck ec_tc26_512_paramSetTest.p ec_tc26_512_paramSetTest.a ec_tc26_512_paramSetTest.b ec_tc26_512_paramSetTest.x ec_tc26_512_paramSetTest.y ec_tc26_512_paramSetTest.q 511 1022 = true := by decide +kernel

theorem prime_p_tc26_512_paramSetTest : ec_tc26_512_paramSetTest.p.Prime :=
  ecpp ec_tc26_512_paramSetTest.a ec_tc26_512_paramSetTest.b ec_tc26_512_paramSetTest.x ec_tc26_512_paramSetTest.y ec_tc26_512_paramSetTest.q 511 1022 prime_q_512t (by decide +kernel) check_tc26_512_paramSetTest

theorem noRoot_tc26_512_paramSetTest : noRootCheck ec_tc26_512_paramSetTest.p ec_tc26_512_paramSetTest.a ec_tc26_512_paramSetTest.b 511 (0xCC4463F497901C083BDFE029B8A37C387405A6EF4E90EF2D1D1EA2E1CFBFA5ABA0503478FA6A5EDBA8544C1605354A99CC962A5831252D6E964587EFDCAFB83, 0x37DD62BFE7D943D8D923D7096ABEF36985AC34986461DDB8B8A4E398633567FBD96FD9F55CE36EC32653D32DB6C0AE65FA1F44B5753B8460871C4DBCB6A35A7F, 0x380B381F922670DA08E08ECACA79104FAF30922B35FE912034F3812C8E6EC420BE886C38140431F3C4587DCE3A8A72DD64104B61F900147F2248FA15E5145D49) = true := by decide +kernel

theorem gostCurve_tc26_512_paramSetTest : GostCurve ec_tc26_512_paramSetTest.p ec_tc26_512_paramSetTest.a ec_tc26_512_paramSetTest.b ec_tc26_512_paramSetTest.q ec_tc26_512_paramSetTest.x ec_tc26_512_paramSetTest.y ec_tc26_512_paramSetTest.cofactor :=
  gostCurve_of_noRoot prime_p_tc26_512_paramSetTest prime_q_512t check_tc26_512_paramSetTest noRoot_tc26_512_paramSetTest (by decide +kernel)

end Gost
