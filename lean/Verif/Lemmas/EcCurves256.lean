import Verif.Lemmas.EcOrder
import Verif.Lemmas.EcFacts
import Verif.Lemmas.Primes256
import Verif.Model.EcParams

/-!
# The built-in curves satisfy the conditions of the standard

Generated by `tools/mkeccurves.py`.
-/

namespace Gost

open Spec (GostCurve)

theorem check_Test : ecCheck ec_Test.p ec_Test.a ec_Test.b ec_Test.x ec_Test.y ec_Test.q 256 512 = true := by decide +kernel

theorem prime_p_Test : ec_Test.p.Prime :=
  ecpp ec_Test.a ec_Test.b ec_Test.x ec_Test.y ec_Test.q 256 512 prime_q_test (by decide +kernel) check_Test

theorem noRoot_Test : noRootCheck ec_Test.p ec_Test.a ec_Test.b 256 (0x1BADAB6300E4ADC1585D1A9371813F6CEA6180FC7985BF0A1898D8AAF5B3DF1E, 0x349A0D295C64166C76EB435EF5709657E5DE62EE609B32C792CD6A6DBB74255D, 0x681D2A97EFB6AFC06BE287CD10B93261907FD33B7575A5B6518842B7245C315C) = true := by decide +kernel

theorem gostCurve_Test : GostCurve ec_Test.p ec_Test.a ec_Test.b ec_Test.q ec_Test.x ec_Test.y ec_Test.cofactor :=
  gostCurve_of_noRoot prime_p_Test prime_q_test check_Test noRoot_Test (by decide +kernel)

theorem check_CryptoPro_A : ecCheck ec_CryptoPro_A.p ec_CryptoPro_A.a ec_CryptoPro_A.b ec_CryptoPro_A.x ec_CryptoPro_A.y ec_CryptoPro_A.q 256 512 = true := by decide +kernel

theorem prime_p_CryptoPro_A : ec_CryptoPro_A.p.Prime :=
  ecpp ec_CryptoPro_A.a ec_CryptoPro_A.b ec_CryptoPro_A.x ec_CryptoPro_A.y ec_CryptoPro_A.q 256 512 prime_q_cpa (by decide +kernel) check_CryptoPro_A

theorem noRoot_CryptoPro_A : noRootCheck ec_CryptoPro_A.p ec_CryptoPro_A.a ec_CryptoPro_A.b 256 (0xCBCABC6968CFCA09B4C84F6AFB432C8CAB1E9EC4380E8985EE4DE141A43FD6E3, 0x4405F252A849BCCDC05F252A849BCCDC05F252A849BCCDC05F252A849BCCDB62, 0x1404194BEDC028D8423A7289C070EA87CC00BE96E617B84DF0F2EC2ED8A5B493) = true := by decide +kernel

theorem gostCurve_CryptoPro_A : GostCurve ec_CryptoPro_A.p ec_CryptoPro_A.a ec_CryptoPro_A.b ec_CryptoPro_A.q ec_CryptoPro_A.x ec_CryptoPro_A.y ec_CryptoPro_A.cofactor :=
  gostCurve_of_noRoot prime_p_CryptoPro_A prime_q_cpa check_CryptoPro_A noRoot_CryptoPro_A (by decide +kernel)

theorem check_CryptoPro_B : ecCheck ec_CryptoPro_B.p ec_CryptoPro_B.a ec_CryptoPro_B.b ec_CryptoPro_B.x ec_CryptoPro_B.y ec_CryptoPro_B.q 256 512 = true := by decide +kernel

theorem prime_p_CryptoPro_B : ec_CryptoPro_B.p.Prime :=
  ecpp ec_CryptoPro_B.a ec_CryptoPro_B.b ec_CryptoPro_B.x ec_CryptoPro_B.y ec_CryptoPro_B.q 256 512 prime_q_cpb (by decide +kernel) check_CryptoPro_B

theorem noRoot_CryptoPro_B : noRootCheck ec_CryptoPro_B.p ec_CryptoPro_B.a ec_CryptoPro_B.b 256 (0x2FAF84BB604B245056A438074C8050A855D29C55EE8CA999DFDB376757415483, 0x4B9BE6524B30F85E90E6D11E5B2143CE666A187C14004D1AE2B195887071784B, 0x1D4829456FEF188A12E98A950E67EA59C383E592DDD0A21F29EA90CD828125DF) = true := by decide +kernel

theorem gostCurve_CryptoPro_B : GostCurve ec_CryptoPro_B.p ec_CryptoPro_B.a ec_CryptoPro_B.b ec_CryptoPro_B.q ec_CryptoPro_B.x ec_CryptoPro_B.y ec_CryptoPro_B.cofactor :=
  gostCurve_of_noRoot prime_p_CryptoPro_B prime_q_cpb check_CryptoPro_B noRoot_CryptoPro_B (by decide +kernel)

theorem check_CryptoPro_C : ecCheck ec_CryptoPro_C.p ec_CryptoPro_C.a ec_CryptoPro_C.b ec_CryptoPro_C.x ec_CryptoPro_C.y ec_CryptoPro_C.q 256 512 = true := by decide +kernel

theorem prime_p_CryptoPro_C : ec_CryptoPro_C.p.Prime :=
  ecpp ec_CryptoPro_C.a ec_CryptoPro_C.b ec_CryptoPro_C.x ec_CryptoPro_C.y ec_CryptoPro_C.q 256 512 prime_q_cpc (by decide +kernel) check_CryptoPro_C

theorem noRoot_CryptoPro_C : noRootCheck ec_CryptoPro_C.p ec_CryptoPro_C.a ec_CryptoPro_C.b 256 (0x30386ECB3D90A27CE4F725479A857A78FDAEFAE46F8B0DA577602AF2C9613C44, 0x60D5D547855E00700D14149D8540F7B66189C7A8DF258FFAF1D561A51FAD364, 0x3C301072B3CD1F8A45F4010E77B85DA4B7479A3A6D340E6EAB62A14925FA3914) = true := by decide +kernel

theorem gostCurve_CryptoPro_C : GostCurve ec_CryptoPro_C.p ec_CryptoPro_C.a ec_CryptoPro_C.b ec_CryptoPro_C.q ec_CryptoPro_C.x ec_CryptoPro_C.y ec_CryptoPro_C.cofactor :=
  gostCurve_of_noRoot prime_p_CryptoPro_C prime_q_cpc check_CryptoPro_C noRoot_CryptoPro_C (by decide +kernel)

theorem check_tc26_256_paramSetA : ecCheck ec_tc26_256_paramSetA.p ec_tc26_256_paramSetA.a ec_tc26_256_paramSetA.b ec_tc26_256_paramSetA.x ec_tc26_256_paramSetA.y ec_tc26_256_paramSetA.q 255 512 = true := by decide +kernel

theorem prime_p_tc26_256_paramSetA : ec_tc26_256_paramSetA.p.Prime :=
  ecpp ec_tc26_256_paramSetA.a ec_tc26_256_paramSetA.b ec_tc26_256_paramSetA.x ec_tc26_256_paramSetA.y ec_tc26_256_paramSetA.q 255 512 prime_q_256a (by decide +kernel) check_tc26_256_paramSetA

theorem edwards_tc26_256_paramSetA : edCheck ec_tc26_256_paramSetA.p ec_tc26_256_paramSetA.a ec_tc26_256_paramSetA.b 256 0x7E7E82520F9F015FAA1D0F18C14AB9FB35188275DA3FD94206B74F34A48E0ECD 0x100FE73F595FF158E974B44D478D9588744FE5C192AC47EA63075DCE7A14AAA 0x605F6B7C183FA81578BC39CFAD518132B9DF62897009AF7E522C32D6DC7BFFB = true := by decide +kernel

theorem gostCurve_tc26_256_paramSetA : GostCurve ec_tc26_256_paramSetA.p ec_tc26_256_paramSetA.a ec_tc26_256_paramSetA.b ec_tc26_256_paramSetA.q ec_tc26_256_paramSetA.x ec_tc26_256_paramSetA.y ec_tc26_256_paramSetA.cofactor :=
  gostCurve_of_edwards prime_p_tc26_256_paramSetA prime_q_256a check_tc26_256_paramSetA edwards_tc26_256_paramSetA (by decide +kernel)

end Gost
