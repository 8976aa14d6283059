import Verif.Model.Basic

/-!
# The built-in curves (`/repo/gost_params.c`) and how a key gets its curve (`/repo/gost_ec_sign.c` lines 26-175)

The tables are generated from the C source by `tools/mkecparams.py`: each hexadecimal string is written as the number
`BN_hex2bn` makes of it.  OpenSSL's `EC_GROUP` is the record of the numbers it was built from and the curve name; the
functions of OpenSSL that can refuse (`EC_GROUP_new_curve_GFp`, `EC_POINT_set_affine_coordinates`, `EC_GROUP_set_generator`)
are modelled by the conditions OpenSSL checks; allocations succeed.
-/

namespace Gost

/-- The NIDs of curves; `other` stands for every other number. -/
inductive CurveNid where
  | Test | CryptoPro_A | CryptoPro_B | CryptoPro_C | CryptoPro_XchA | CryptoPro_XchB
  | tc26_256_paramSetA | tc26_256_paramSetB | tc26_256_paramSetC | tc26_256_paramSetD
  | tc26_512_paramSetTest | tc26_512_paramSetA | tc26_512_paramSetB | tc26_512_paramSetC
  | other (n : Nat)
  deriving DecidableEq

/-- `R3410_ec_params`, `/repo/gost_lcl.h` lines 32-42 (the cached `group` is part of the state below). -/
structure EcParams where
  nid : CurveNid
  a : Nat
  b : Nat
  p : Nat
  q : Nat
  x : Nat
  y : Nat
  cofactor : Nat
  deriving DecidableEq

/-- `NID_id_GostR3410_2001_TestParamSet`, `/repo/gost_params.c` lines 16-23. -/
def ec_Test : EcParams where
  nid := .Test
  a := 0x7
  b := 0x5FBFF498AA938CE739B8E022FBAFEF40563F6E6A3472FC2A514C0CE9DAE23B7E
  p := 0x8000000000000000000000000000000000000000000000000000000000000431
  q := 0x8000000000000000000000000000000150FE8A1892976154C59CFC193ACCF5B3
  x := 0x2
  y := 0x08E2A8A0E65147D4BD6316030E16D19C85C97F0A9CA267122B96ABBCEA7E8FC8
  cofactor := 0x1

/-- `NID_id_GostR3410_2001_CryptoPro_A_ParamSet`, `/repo/gost_params.c` lines 28-35. -/
def ec_CryptoPro_A : EcParams where
  nid := .CryptoPro_A
  a := 0xFFFFFFFFFFFFFFFFFFFFFFFFFFFFFFFFFFFFFFFFFFFFFFFFFFFFFFFFFFFFFD94
  b := 0xa6
  p := 0xFFFFFFFFFFFFFFFFFFFFFFFFFFFFFFFFFFFFFFFFFFFFFFFFFFFFFFFFFFFFFD97
  q := 0xFFFFFFFFFFFFFFFFFFFFFFFFFFFFFFFF6C611070995AD10045841B09B761B893
  x := 0x1
  y := 0x8D91E471E0989CDA27DF505A453F2B7635294F2DDF23E3B122ACC99C9E9F1E14
  cofactor := 0x1

/-- `NID_id_GostR3410_2001_CryptoPro_B_ParamSet`, `/repo/gost_params.c` lines 40-47. -/
def ec_CryptoPro_B : EcParams where
  nid := .CryptoPro_B
  a := 0x8000000000000000000000000000000000000000000000000000000000000C96
  b := 0x3E1AF419A269A5F866A7D3C25C3DF80AE979259373FF2B182F49D4CE7E1BBC8B
  p := 0x8000000000000000000000000000000000000000000000000000000000000C99
  q := 0x800000000000000000000000000000015F700CFFF1A624E5E497161BCC8A198F
  x := 0x1
  y := 0x3FA8124359F96680B83D1C3EB2C070E5C545C9858D03ECFB744BF8D717717EFC
  cofactor := 0x1

/-- `NID_id_GostR3410_2001_CryptoPro_C_ParamSet`, `/repo/gost_params.c` lines 52-59. -/
def ec_CryptoPro_C : EcParams where
  nid := .CryptoPro_C
  a := 0x9B9F605F5A858107AB1EC85E6B41C8AACF846E86789051D37998F7B9022D7598
  b := 0x805a
  p := 0x9B9F605F5A858107AB1EC85E6B41C8AACF846E86789051D37998F7B9022D759B
  q := 0x9B9F605F5A858107AB1EC85E6B41C8AA582CA3511EDDFB74F02F3A6598980BB9
  x := 0x0
  y := 0x41ECE55743711A8C3CBF3783CD08C0EE4D4DC440D4641A8F366E550DFDB3BB67
  cofactor := 0x1

/-- `NID_id_GostR3410_2001_CryptoPro_XchA_ParamSet`, `/repo/gost_params.c` lines 64-71. -/
def ec_CryptoPro_XchA : EcParams where
  nid := .CryptoPro_XchA
  a := 0xFFFFFFFFFFFFFFFFFFFFFFFFFFFFFFFFFFFFFFFFFFFFFFFFFFFFFFFFFFFFFD94
  b := 0xa6
  p := 0xFFFFFFFFFFFFFFFFFFFFFFFFFFFFFFFFFFFFFFFFFFFFFFFFFFFFFFFFFFFFFD97
  q := 0xFFFFFFFFFFFFFFFFFFFFFFFFFFFFFFFF6C611070995AD10045841B09B761B893
  x := 0x1
  y := 0x8D91E471E0989CDA27DF505A453F2B7635294F2DDF23E3B122ACC99C9E9F1E14
  cofactor := 0x1

/-- `NID_id_GostR3410_2001_CryptoPro_XchB_ParamSet`, `/repo/gost_params.c` lines 76-83. -/
def ec_CryptoPro_XchB : EcParams where
  nid := .CryptoPro_XchB
  a := 0x9B9F605F5A858107AB1EC85E6B41C8AACF846E86789051D37998F7B9022D7598
  b := 0x805a
  p := 0x9B9F605F5A858107AB1EC85E6B41C8AACF846E86789051D37998F7B9022D759B
  q := 0x9B9F605F5A858107AB1EC85E6B41C8AA582CA3511EDDFB74F02F3A6598980BB9
  x := 0x0
  y := 0x41ECE55743711A8C3CBF3783CD08C0EE4D4DC440D4641A8F366E550DFDB3BB67
  cofactor := 0x1

/-- `NID_id_tc26_gost_3410_2012_256_paramSetA`, `/repo/gost_params.c` lines 88-102. -/
def ec_tc26_256_paramSetA : EcParams where
  nid := .tc26_256_paramSetA
  a := 0xC2173F1513981673AF4892C23035A27CE25E2013BF95AA33B22C656F277E7335
  b := 0x295F9BAE7428ED9CCC20E7C359A9D41A22FCCD9108E17BF7BA9337A6F8AE9513
  p := 0xFFFFFFFFFFFFFFFFFFFFFFFFFFFFFFFFFFFFFFFFFFFFFFFFFFFFFFFFFFFFFD97
  q := 0x400000000000000000000000000000000FD8CDDFC87B6635C115AF556C360C67
  x := 0x91E38443A5E82C0D880923425712B2BB658B9196932E02C78B2582FE742DAA28
  y := 0x32879423AB1A0375895786C4BB46E9565FDE0B5344766740AF268ADB32322E5C
  cofactor := 0x4

/-- `R3410_2001_paramset`, `/repo/gost_params.c` lines 14-105 (without the terminating entry). -/
def R3410_2001_paramset : List EcParams := [ec_Test, ec_CryptoPro_A, ec_CryptoPro_B, ec_CryptoPro_C, ec_CryptoPro_XchA, ec_CryptoPro_XchB, ec_tc26_256_paramSetA]

/-- `NID_id_tc26_gost_3410_2012_512_paramSetTest`, `/repo/gost_params.c` lines 112-130. -/
def ec_tc26_512_paramSetTest : EcParams where
  nid := .tc26_512_paramSetTest
  a := 0x7
  b := 0x1CFF0806A31116DA29D8CFA54E57EB748BC5F377E49400FDD788B649ECA1AC4361834013B2AD7322480A89CA58E0CF74BC9E540C2ADD6897FAD0A3084F302ADC
  p := 0x4531ACD1FE0023C7550D267B6B2FEE80922B14B2FFB90F04D4EB7C09B5D2D15DF1D852741AF4704A0458047E80E4546D35B8336FAC224DD81664BBF528BE6373
  q := 0x4531ACD1FE0023C7550D267B6B2FEE80922B14B2FFB90F04D4EB7C09B5D2D15DA82F2D7ECB1DBAC719905C5EECC423F1D86E25EDBE23C595D644AAF187E6E6DF
  x := 0x24D19CC64572EE30F396BF6EBBFD7A6C5213B3B3D7057CC825F91093A68CD762FD60611262CD838DC6B60AA7EEE804E28BC849977FAC33B4B530F1B120248A9A
  y := 0x2BB312A43BD2CE6E0D020613C857ACDDCFBF061E91E5F2C3F32447C259F39B2C83AB156D77F1496BF7EB3351E1EE4E43DC1A18B91B24640B6DBB92CB1ADD371E
  cofactor := 0x1

/-- `NID_id_tc26_gost_3410_2012_512_paramSetA`, `/repo/gost_params.c` lines 132-150. -/
def ec_tc26_512_paramSetA : EcParams where
  nid := .tc26_512_paramSetA
  a := 0xFFFFFFFFFFFFFFFFFFFFFFFFFFFFFFFFFFFFFFFFFFFFFFFFFFFFFFFFFFFFFFFFFFFFFFFFFFFFFFFFFFFFFFFFFFFFFFFFFFFFFFFFFFFFFFFFFFFFFFFFFFFFFDC4
  b := 0xE8C2505DEDFC86DDC1BD0B2B6667F1DA34B82574761CB0E879BD081CFD0B6265EE3CB090F30D27614CB4574010DA90DD862EF9D4EBEE4761503190785A71C760
  p := 0xFFFFFFFFFFFFFFFFFFFFFFFFFFFFFFFFFFFFFFFFFFFFFFFFFFFFFFFFFFFFFFFFFFFFFFFFFFFFFFFFFFFFFFFFFFFFFFFFFFFFFFFFFFFFFFFFFFFFFFFFFFFFFDC7
  q := 0xFFFFFFFFFFFFFFFFFFFFFFFFFFFFFFFFFFFFFFFFFFFFFFFFFFFFFFFFFFFFFFFF27E69532F48D89116FF22B8D4E0560609B4B38ABFAD2B85DCACDB1411F10B275
  x := 0x3
  y := 0x7503CFE87A836AE3A61B8816E25450E6CE5E1C93ACF1ABC1778064FDCBEFA921DF1626BE4FD036E93D75E6A50E3A41E98028FE5FC235F5B889A589CB5215F2A4
  cofactor := 0x1

/-- `NID_id_tc26_gost_3410_2012_512_paramSetB`, `/repo/gost_params.c` lines 152-170. -/
def ec_tc26_512_paramSetB : EcParams where
  nid := .tc26_512_paramSetB
  a := 0x8000000000000000000000000000000000000000000000000000000000000000000000000000000000000000000000000000000000000000000000000000006C
  b := 0x687D1B459DC841457E3E06CF6F5E2517B97C7D614AF138BCBF85DC806C4B289F3E965D2DB1416D217F8B276FAD1AB69C50F78BEE1FA3106EFB8CCBC7C5140116
  p := 0x8000000000000000000000000000000000000000000000000000000000000000000000000000000000000000000000000000000000000000000000000000006F
  q := 0x800000000000000000000000000000000000000000000000000000000000000149A1EC142565A545ACFDB77BD9D40CFA8B996712101BEA0EC6346C54374F25BD
  x := 0x2
  y := 0x1A8F7EDA389B094C2C071E3647A8940F3C123B697578C213BE6DD9E6C8EC7335DCB228FD1EDF4A39152CBCAAF8C0398828041055F94CEEEC7E21340780FE41BD
  cofactor := 0x1

/-- `NID_id_tc26_gost_3410_2012_512_paramSetC`, `/repo/gost_params.c` lines 172-191. -/
def ec_tc26_512_paramSetC : EcParams where
  nid := .tc26_512_paramSetC
  a := 0xDC9203E514A721875485A529D2C722FB187BC8980EB866644DE41C68E143064546E861C0E2C9EDD92ADE71F46FCF50FF2AD97F951FDA9F2A2EB6546F39689BD3
  b := 0xB4C4EE28CEBC6C2C8AC12952CF37F16AC7EFB6A9F69F4B57FFDA2E4F0DE5ADE038CBC2FFF719D2C18DE0284B8BFEF3B52B8CC7A5F5BF0A3C8D2319A5312557E1
  p := 0xFFFFFFFFFFFFFFFFFFFFFFFFFFFFFFFFFFFFFFFFFFFFFFFFFFFFFFFFFFFFFFFFFFFFFFFFFFFFFFFFFFFFFFFFFFFFFFFFFFFFFFFFFFFFFFFFFFFFFFFFFFFFFDC7
  q := 0x3FFFFFFFFFFFFFFFFFFFFFFFFFFFFFFFFFFFFFFFFFFFFFFFFFFFFFFFFFFFFFFFC98CDBA46506AB004C33A9FF5147502CC8EDA9E7A769A12694623CEF47F023ED
  x := 0xE2E31EDFC23DE7BDEBE241CE593EF5DE2295B7A9CBAEF021D385F7074CEA043AA27272A7AE602BF2A7B9033DB9ED3610C6FB85487EAE97AAC5BC7928C1950148
  y := 0xF5CE40D95B5EB899ABBCCFF5911CB8577939804D6527378B8C108C3D2090FF9BE18E2D33E3021ED2EF32D85822423B6304F726AA854BAE07D0396E9A9ADDC40F
  cofactor := 0x4

/-- `R3410_2012_512_paramset`, `/repo/gost_params.c` lines 111-194 (without the terminating entry). -/
def R3410_2012_512_paramset : List EcParams := [ec_tc26_512_paramSetTest, ec_tc26_512_paramSetA, ec_tc26_512_paramSetB, ec_tc26_512_paramSetC]

/-- The `switch` of `gost_nid2params`, `/repo/gost_ec_sign.c` lines 31-41. -/
def mapTc26Nid : CurveNid → CurveNid
  | .tc26_256_paramSetB => .CryptoPro_A
  | .tc26_256_paramSetC => .CryptoPro_B
  | .tc26_256_paramSetD => .CryptoPro_C
  | n => n

/-- `gost_nid2params`, `/repo/gost_ec_sign.c` lines 26-60: the 512-bit table first. -/
def gost_nid2params (nid : CurveNid) : Option EcParams :=
  let nid := mapTc26Nid nid
  match R3410_2012_512_paramset.find? (fun e => e.nid = nid) with
  | some e => some e
  | none => R3410_2001_paramset.find? (fun e => e.nid = nid)

/-- An `EC_GROUP`: the numbers it was made from and its curve name. -/
structure EcGroupRec where
  p : Nat
  a : Nat
  b : Nat
  x : Nat
  y : Nat
  q : Nat
  cofactor : Nat
  name : CurveNid
  deriving DecidableEq

/-- The `group` fields of the two tables (`params->group`), by the NID of the entry. -/
abbrev GroupCache := CurveNid → Option EcGroupRec

/-- `free_cached_groups`, `/repo/gost_ec_sign.c` lines 62-81; also the state after loading the engine. -/
def free_cached_groups : GroupCache := fun _ => none

/-- OpenSSL's `EC_GROUP_new_curve_GFp`, `EC_POINT_set_affine_coordinates`, `EC_GROUP_set_generator` accept the numbers: an odd
`p` of more than 2 bits, a point that satisfies the equation of the curve, an order that is positive and at most one bit
longer than `p`. -/
def opensslAccepts (e : EcParams) : Bool :=
  decide (e.p % 2 = 1) && decide (3 < e.p) && decide (e.x < e.p) && decide (e.y < e.p) &&
    decide (e.y * e.y % e.p = (e.x * e.x * e.x + e.a * e.x + e.b) % e.p) && decide (0 < e.q) &&
    decide (Nat.log2 e.q ≤ Nat.log2 e.p + 1)

/-- `fill_GOST_EC_params`, `/repo/gost_ec_sign.c` lines 90-175: the new cache and the group given to the key
(`EC_KEY_set_group` copies it), `none` for the return value 0. -/
def fill_GOST_EC_params (cache : GroupCache) (nid : CurveNid) : GroupCache × Option EcGroupRec :=
  match gost_nid2params nid with
  | none => (cache, none)
  | some e =>
    match cache e.nid with
    | some g =>
      let g := { g with name := nid }
      (fun n => if n = e.nid then some g else cache n, some g)
    | none =>
      if opensslAccepts e then
        let g : EcGroupRec := { p := e.p, a := e.a, b := e.b, x := e.x, y := e.y, q := e.q, cofactor := e.cofactor, name := nid }
        (fun n => if n = e.nid then some g else cache n, some g)
      else (cache, none)

end Gost
