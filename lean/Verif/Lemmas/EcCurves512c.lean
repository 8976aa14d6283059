import Verif.Lemmas.EcOrder
import Verif.Lemmas.EcFacts
import Verif.Lemmas.EcCurves512b
import Verif.Model.EcParams

/-!
# The built-in curves satisfy the conditions of the standard

Generated by `tools/mkeccurves.py`.
-/

namespace Gost

open Spec (GostCurve)

theorem check_tc26_512_paramSetC : ecCheck ec_tc26_512_paramSetC.p ec_tc26_512_paramSetC.a ec_tc26_512_paramSetC.b ec_tc26_512_paramSetC.x ec_tc26_512_paramSetC.y ec_tc26_512_paramSetC.q 510 1024 = true := by decide +kernel

theorem prime_p_tc26_512_paramSetC : ec_tc26_512_paramSetC.p.Prime :=
  ecpp ec_tc26_512_paramSetC.a ec_tc26_512_paramSetC.b ec_tc26_512_paramSetC.x ec_tc26_512_paramSetC.y ec_tc26_512_paramSetC.q 510 1024 prime_q_512c (by decide +kernel) check_tc26_512_paramSetC

theorem edwards_tc26_512_paramSetC : edCheck ec_tc26_512_paramSetC.p ec_tc26_512_paramSetC.a ec_tc26_512_paramSetC.b 512 0x186C289CFFA09C983B168C30C829006C952FF4AAF99C73850875D7E77BEBEF18D653187D6BA8FE533EC74C6F061872585B97CC0F50F57752CD73F4913304621E 0x9A628F975594ECEFD89BA28A2539FFB79C8AB238AEED0851FA5C1ABB02B80B44C6734501B83A011DD625CD0B5145091A6D9ACD4B1F5C5B1E21B2B249DDFD1271 0x9E4F5D8C017D8D9F13A5CF3CDF5BFE4DAB402D54198E31EBDE28A0621050439CA6B39E0A515C06B304E2CE43E79E369E91A0CFC2BC2A22B4CA302DBB33EE7550 = true := by decide +kernel

theorem gostCurve_tc26_512_paramSetC : GostCurve ec_tc26_512_paramSetC.p ec_tc26_512_paramSetC.a ec_tc26_512_paramSetC.b ec_tc26_512_paramSetC.q ec_tc26_512_paramSetC.x ec_tc26_512_paramSetC.y ec_tc26_512_paramSetC.cofactor :=
  gostCurve_of_edwards prime_p_tc26_512_paramSetC prime_q_512c check_tc26_512_paramSetC edwards_tc26_512_paramSetC (by decide +kernel)

end Gost
