import Verif.Model.FiatField

/-!
# The functions, constants and table of `/repo/ecp_id_tc26_gost_3410_2012_256_paramSetA.c`

64 bit version of the file (`__SIZEOF_INT128__` is defined).  Generated by `tools/mkfiat.py`, statement by statement;
see `Verif/Model/Fiat.lean` for the meaning.  All line numbers refer to this file.
-/

namespace Gost.Ecp_tc26_256_paramSetA

set_option maxRecDepth 100000

/-- `fiat_id_tc26_gost_3410_2012_256_paramSetA_carry_mul`, lines 275-426. -/
def carry_mul : CProg := ⟨[
  .set (.mul 128 (.c 0x269) (.mul 128 (.a 4) (.b 4))), .set (.mul 128 (.c 0x269) (.mul 128 (.a 4) (.b 3))),
  .set (.mul 128 (.c 0x269) (.mul 128 (.a 4) (.b 2))), .set (.mul 128 (.c 0x269) (.mul 128 (.mul 128 (.a 4) (.b 1)) (.c 2))),
  .set (.mul 128 (.c 0x269) (.mul 128 (.a 3) (.b 4))), .set (.mul 128 (.c 0x269) (.mul 128 (.a 3) (.b 3))),
  .set (.mul 128 (.c 0x269) (.mul 128 (.mul 128 (.a 3) (.b 2)) (.c 2))), .set (.mul 128 (.c 0x269) (.mul 128 (.a 2) (.b 4))),
  .set (.mul 128 (.c 0x269) (.mul 128 (.mul 128 (.a 2) (.b 3)) (.c 2))),
  .set (.mul 128 (.c 0x269) (.mul 128 (.mul 128 (.a 1) (.b 4)) (.c 2))), .set (.mul 128 (.a 4) (.b 0)),
  .set (.mul 128 (.a 3) (.mul 64 (.b 1) (.c 2))), .set (.mul 128 (.a 3) (.b 0)), .set (.mul 128 (.a 2) (.mul 64 (.b 2) (.c 2))),
  .set (.mul 128 (.a 2) (.mul 64 (.b 1) (.c 2))), .set (.mul 128 (.a 2) (.b 0)), .set (.mul 128 (.a 1) (.mul 64 (.b 3) (.c 2))),
  .set (.mul 128 (.a 1) (.mul 64 (.b 2) (.c 2))), .set (.mul 128 (.a 1) (.mul 64 (.b 1) (.c 2))), .set (.mul 128 (.a 1) (.b 0)),
  .set (.mul 128 (.a 0) (.b 4)), .set (.mul 128 (.a 0) (.b 3)), .set (.mul 128 (.a 0) (.b 2)), .set (.mul 128 (.a 0) (.b 1)),
  .set (.mul 128 (.a 0) (.b 0)), .set (.add 128 (.x 25) (.add 128 (.x 10) (.add 128 (.x 9) (.add 128 (.x 7) (.x 4))))),
  .set (.shr (.x 26) 52), .set (.cast 64 (.and (.x 26) (.c 0xfffffffffffff))),
  .set (.add 128 (.x 21) (.add 128 (.x 17) (.add 128 (.x 14) (.add 128 (.x 12) (.x 11))))),
  .set (.add 128 (.x 22) (.add 128 (.x 18) (.add 128 (.x 15) (.add 128 (.x 13) (.x 1))))),
  .set (.add 128 (.x 23) (.add 128 (.x 19) (.add 128 (.x 16) (.add 128 (.x 5) (.x 2))))),
  .set (.add 128 (.x 24) (.add 128 (.x 20) (.add 128 (.x 8) (.add 128 (.x 6) (.x 3))))), .set (.add 128 (.x 27) (.x 32)),
  .set (.shr (.x 33) 51), .set (.cast 64 (.and (.x 33) (.c 0x7ffffffffffff))), .set (.add 128 (.x 34) (.x 31)), .set (.shr (.x 36) 51),
  .set (.cast 64 (.and (.x 36) (.c 0x7ffffffffffff))), .set (.add 128 (.x 37) (.x 30)), .set (.cast 64 (.shr (.x 39) 51)),
  .set (.cast 64 (.and (.x 39) (.c 0x7ffffffffffff))), .set (.add 128 (.x 40) (.x 29)), .set (.cast 64 (.shr (.x 42) 51)),
  .set (.cast 64 (.and (.x 42) (.c 0x7ffffffffffff))), .set (.mul 128 (.c 0x269) (.x 43)), .set (.add 128 (.x 28) (.x 45)),
  .set (.cast 64 (.shr (.x 46) 52)), .set (.cast 64 (.and (.x 46) (.c 0xfffffffffffff))), .set (.add 64 (.x 47) (.x 35)),
  .set (.cast 8 (.shr (.x 49) 51)), .set (.and (.x 49) (.c 0x7ffffffffffff)), .set (.add 64 (.x 50) (.x 38))], [48, 51, 52, 41, 44]⟩

/-- `fiat_id_tc26_gost_3410_2012_256_paramSetA_carry_square`, lines 438-553. -/
def carry_square : CProg := ⟨[
  .set (.mul 64 (.a 4) (.c 0x269)), .set (.mul 64 (.x 1) (.c 2)), .set (.mul 64 (.a 4) (.c 2)), .set (.mul 64 (.a 3) (.c 0x269)),
  .set (.mul 64 (.x 4) (.c 2)), .set (.mul 64 (.a 3) (.c 2)), .set (.mul 64 (.a 2) (.c 2)), .set (.mul 64 (.a 1) (.c 2)),
  .set (.mul 128 (.a 4) (.x 1)), .set (.mul 128 (.a 3) (.x 2)), .set (.mul 128 (.a 3) (.x 4)), .set (.mul 128 (.a 2) (.x 2)),
  .set (.mul 128 (.a 2) (.mul 64 (.x 5) (.c 2))), .set (.mul 128 (.a 2) (.mul 64 (.a 2) (.c 2))),
  .set (.mul 128 (.a 1) (.mul 64 (.x 2) (.c 2))), .set (.mul 128 (.a 1) (.mul 64 (.x 6) (.c 2))),
  .set (.mul 128 (.a 1) (.mul 64 (.x 7) (.c 2))), .set (.mul 128 (.a 1) (.mul 64 (.a 1) (.c 2))), .set (.mul 128 (.a 0) (.x 3)),
  .set (.mul 128 (.a 0) (.x 6)), .set (.mul 128 (.a 0) (.x 7)), .set (.mul 128 (.a 0) (.x 8)), .set (.mul 128 (.a 0) (.a 0)),
  .set (.add 128 (.x 23) (.add 128 (.x 15) (.x 13))), .set (.shr (.x 24) 52), .set (.cast 64 (.and (.x 24) (.c 0xfffffffffffff))),
  .set (.add 128 (.x 19) (.add 128 (.x 16) (.x 14))), .set (.add 128 (.x 20) (.add 128 (.x 17) (.x 9))),
  .set (.add 128 (.x 21) (.add 128 (.x 18) (.x 10))), .set (.add 128 (.x 22) (.add 128 (.x 12) (.x 11))), .set (.add 128 (.x 25) (.x 30)),
  .set (.shr (.x 31) 51), .set (.cast 64 (.and (.x 31) (.c 0x7ffffffffffff))), .set (.add 128 (.x 32) (.x 29)), .set (.shr (.x 34) 51),
  .set (.cast 64 (.and (.x 34) (.c 0x7ffffffffffff))), .set (.add 128 (.x 35) (.x 28)), .set (.cast 64 (.shr (.x 37) 51)),
  .set (.cast 64 (.and (.x 37) (.c 0x7ffffffffffff))), .set (.add 128 (.x 38) (.x 27)), .set (.cast 64 (.shr (.x 40) 51)),
  .set (.cast 64 (.and (.x 40) (.c 0x7ffffffffffff))), .set (.mul 128 (.c 0x269) (.x 41)), .set (.add 128 (.x 26) (.x 43)),
  .set (.cast 64 (.shr (.x 44) 52)), .set (.cast 64 (.and (.x 44) (.c 0xfffffffffffff))), .set (.add 64 (.x 45) (.x 33)),
  .set (.cast 8 (.shr (.x 47) 51)), .set (.and (.x 47) (.c 0x7ffffffffffff)), .set (.add 64 (.x 48) (.x 36))], [46, 49, 50, 39, 42]⟩

/-- `fiat_id_tc26_gost_3410_2012_256_paramSetA_carry`, lines 565-598. -/
def carry : CProg := ⟨[
  .set (.a 0), .set (.add 64 (.shr (.x 1) 52) (.a 1)), .set (.add 64 (.shr (.x 2) 51) (.a 2)), .set (.add 64 (.shr (.x 3) 51) (.a 3)),
  .set (.add 64 (.shr (.x 4) 51) (.a 4)), .set (.add 64 (.and (.x 1) (.c 0xfffffffffffff)) (.mul 64 (.c 0x269) (.shr (.x 5) 51))),
  .set (.add 64 (.cast 8 (.shr (.x 6) 52)) (.and (.x 2) (.c 0x7ffffffffffff))), .set (.and (.x 6) (.c 0xfffffffffffff)),
  .set (.and (.x 7) (.c 0x7ffffffffffff)), .set (.add 64 (.cast 8 (.shr (.x 7) 51)) (.and (.x 3) (.c 0x7ffffffffffff))),
  .set (.and (.x 4) (.c 0x7ffffffffffff)), .set (.and (.x 5) (.c 0x7ffffffffffff))], [8, 9, 10, 11, 12]⟩

/-- `fiat_id_tc26_gost_3410_2012_256_paramSetA_add`, lines 611-628. -/
def add : CProg := ⟨[
  .set (.add 64 (.a 0) (.b 0)), .set (.add 64 (.a 1) (.b 1)), .set (.add 64 (.a 2) (.b 2)), .set (.add 64 (.a 3) (.b 3)),
  .set (.add 64 (.a 4) (.b 4))], [1, 2, 3, 4, 5]⟩

/-- `fiat_id_tc26_gost_3410_2012_256_paramSetA_sub`, lines 641-658. -/
def sub : CProg := ⟨[
  .set (.sub 64 (.add 64 (.c 0x1ffffffffffb2e) (.a 0)) (.b 0)), .set (.sub 64 (.add 64 (.c 0xffffffffffffe) (.a 1)) (.b 1)),
  .set (.sub 64 (.add 64 (.c 0xffffffffffffe) (.a 2)) (.b 2)), .set (.sub 64 (.add 64 (.c 0xffffffffffffe) (.a 3)) (.b 3)),
  .set (.sub 64 (.add 64 (.c 0xffffffffffffe) (.a 4)) (.b 4))], [1, 2, 3, 4, 5]⟩

/-- `fiat_id_tc26_gost_3410_2012_256_paramSetA_opp`, lines 670-687. -/
def opp : CProg := ⟨[
  .set (.sub 64 (.c 0x1ffffffffffb2e) (.a 0)), .set (.sub 64 (.c 0xffffffffffffe) (.a 1)), .set (.sub 64 (.c 0xffffffffffffe) (.a 2)),
  .set (.sub 64 (.c 0xffffffffffffe) (.a 3)), .set (.sub 64 (.c 0xffffffffffffe) (.a 4))], [1, 2, 3, 4, 5]⟩

/-- `fiat_id_tc26_gost_3410_2012_256_paramSetA_from_bytes`, lines 965-1114. -/
def from_bytes : CProg := ⟨[
  .set (.shl 64 (.a 31) 43), .set (.shl 64 (.a 30) 35), .set (.shl 64 (.a 29) 27), .set (.shl 64 (.a 28) 19), .set (.shl 64 (.a 27) 11),
  .set (.shl 64 (.a 26) 3), .set (.shl 64 (.a 25) 46), .set (.shl 64 (.a 24) 38), .set (.shl 64 (.a 23) 30), .set (.shl 64 (.a 22) 22),
  .set (.shl 64 (.a 21) 14), .set (.shl 64 (.a 20) 6), .set (.shl 64 (.a 19) 49), .set (.shl 64 (.a 18) 41), .set (.shl 64 (.a 17) 33),
  .set (.shl 64 (.a 16) 25), .set (.shl 64 (.a 15) 17), .set (.shl 64 (.a 14) 9), .set (.mul 64 (.a 13) (.c 2)), .set (.shl 64 (.a 12) 44),
  .set (.shl 64 (.a 11) 36), .set (.shl 64 (.a 10) 28), .set (.shl 64 (.a 9) 20), .set (.shl 64 (.a 8) 12), .set (.shl 64 (.a 7) 4),
  .set (.shl 64 (.a 6) 48), .set (.shl 64 (.a 5) 40), .set (.shl 64 (.a 4) 32), .set (.shl 64 (.a 3) 24), .set (.shl 64 (.a 2) 16),
  .set (.shl 64 (.a 1) 8), .set (.a 0), .set (.add 64 (.x 31) (.x 32)), .set (.add 64 (.x 30) (.x 33)), .set (.add 64 (.x 29) (.x 34)),
  .set (.add 64 (.x 28) (.x 35)), .set (.add 64 (.x 27) (.x 36)), .set (.add 64 (.x 26) (.x 37)), .set (.and (.x 38) (.c 0xfffffffffffff)),
  .set (.cast 8 (.shr (.x 38) 52)), .set (.add 64 (.x 25) (.x 40)), .set (.add 64 (.x 24) (.x 41)), .set (.add 64 (.x 23) (.x 42)),
  .set (.add 64 (.x 22) (.x 43)), .set (.add 64 (.x 21) (.x 44)), .set (.add 64 (.x 20) (.x 45)), .set (.and (.x 46) (.c 0x7ffffffffffff)),
  .set (.cast 8 (.shr (.x 46) 51)), .set (.add 64 (.x 19) (.x 48)), .set (.add 64 (.x 18) (.x 49)), .set (.add 64 (.x 17) (.x 50)),
  .set (.add 64 (.x 16) (.x 51)), .set (.add 64 (.x 15) (.x 52)), .set (.add 64 (.x 14) (.x 53)), .set (.add 64 (.x 13) (.x 54)),
  .set (.and (.x 55) (.c 0x7ffffffffffff)), .set (.cast 8 (.shr (.x 55) 51)), .set (.add 64 (.x 12) (.x 57)),
  .set (.add 64 (.x 11) (.x 58)), .set (.add 64 (.x 10) (.x 59)), .set (.add 64 (.x 9) (.x 60)), .set (.add 64 (.x 8) (.x 61)),
  .set (.add 64 (.x 7) (.x 62)), .set (.and (.x 63) (.c 0x7ffffffffffff)), .set (.cast 8 (.shr (.x 63) 51)), .set (.add 64 (.x 6) (.x 65)),
  .set (.add 64 (.x 5) (.x 66)), .set (.add 64 (.x 4) (.x 67)), .set (.add 64 (.x 3) (.x 68)), .set (.add 64 (.x 2) (.x 69)),
  .set (.add 64 (.x 1) (.x 70))], [39, 47, 56, 64, 71]⟩

/-- `fiat_id_tc26_gost_3410_2012_256_paramSetA_to_bytes`, lines 736-953. -/
def to_bytes : CProg := ⟨[
  .sbb 64 52 (.c 0) (.a 0) (.c 0xffffffffffd97), .sbb 64 51 (.x 2) (.a 1) (.c 0x7ffffffffffff),
  .sbb 64 51 (.x 4) (.a 2) (.c 0x7ffffffffffff), .sbb 64 51 (.x 6) (.a 3) (.c 0x7ffffffffffff),
  .sbb 64 51 (.x 8) (.a 4) (.c 0x7ffffffffffff), .cmov 64 (.x 10) (.c 0) (.c 0xffffffffffffffff),
  .adc 64 52 (.c 0) (.x 1) (.and (.x 11) (.c 0xffffffffffd97)), .adc 64 51 (.x 13) (.x 3) (.and (.x 11) (.c 0x7ffffffffffff)),
  .adc 64 51 (.x 15) (.x 5) (.and (.x 11) (.c 0x7ffffffffffff)), .adc 64 51 (.x 17) (.x 7) (.and (.x 11) (.c 0x7ffffffffffff)),
  .adc 64 51 (.x 19) (.x 9) (.and (.x 11) (.c 0x7ffffffffffff)), .set (.shl 64 (.x 20) 5), .set (.shl 64 (.x 18) 2),
  .set (.shl 64 (.x 16) 7), .set (.shl 64 (.x 14) 4), .set (.cast 8 (.and (.x 12) (.c 0xff))), .set (.shr (.x 12) 8),
  .set (.cast 8 (.and (.x 27) (.c 0xff))), .set (.shr (.x 27) 8), .set (.cast 8 (.and (.x 29) (.c 0xff))), .set (.shr (.x 29) 8),
  .set (.cast 8 (.and (.x 31) (.c 0xff))), .set (.shr (.x 31) 8), .set (.cast 8 (.and (.x 33) (.c 0xff))), .set (.shr (.x 33) 8),
  .set (.cast 8 (.and (.x 35) (.c 0xff))), .set (.cast 8 (.shr (.x 35) 8)), .set (.add 64 (.x 25) (.x 37)),
  .set (.cast 8 (.and (.x 38) (.c 0xff))), .set (.shr (.x 38) 8), .set (.cast 8 (.and (.x 40) (.c 0xff))), .set (.shr (.x 40) 8),
  .set (.cast 8 (.and (.x 42) (.c 0xff))), .set (.shr (.x 42) 8), .set (.cast 8 (.and (.x 44) (.c 0xff))), .set (.shr (.x 44) 8),
  .set (.cast 8 (.and (.x 46) (.c 0xff))), .set (.shr (.x 46) 8), .set (.cast 8 (.and (.x 48) (.c 0xff))), .set (.cast 8 (.shr (.x 48) 8)),
  .set (.add 64 (.x 24) (.x 50)), .set (.cast 8 (.and (.x 51) (.c 0xff))), .set (.shr (.x 51) 8), .set (.cast 8 (.and (.x 53) (.c 0xff))),
  .set (.shr (.x 53) 8), .set (.cast 8 (.and (.x 55) (.c 0xff))), .set (.shr (.x 55) 8), .set (.cast 8 (.and (.x 57) (.c 0xff))),
  .set (.shr (.x 57) 8), .set (.cast 8 (.and (.x 59) (.c 0xff))), .set (.shr (.x 59) 8), .set (.cast 8 (.and (.x 61) (.c 0xff))),
  .set (.shr (.x 61) 8), .set (.cast 8 (.and (.x 63) (.c 0xff))), .set (.cast 8 (.shr (.x 63) 8)), .set (.add 64 (.x 23) (.x 65)),
  .set (.cast 8 (.and (.x 66) (.c 0xff))), .set (.shr (.x 66) 8), .set (.cast 8 (.and (.x 68) (.c 0xff))), .set (.shr (.x 68) 8),
  .set (.cast 8 (.and (.x 70) (.c 0xff))), .set (.shr (.x 70) 8), .set (.cast 8 (.and (.x 72) (.c 0xff))), .set (.shr (.x 72) 8),
  .set (.cast 8 (.and (.x 74) (.c 0xff))), .set (.shr (.x 74) 8), .set (.cast 8 (.and (.x 76) (.c 0xff))), .set (.cast 8 (.shr (.x 76) 8)),
  .set (.add 64 (.x 22) (.x 78)), .set (.cast 8 (.and (.x 79) (.c 0xff))), .set (.shr (.x 79) 8), .set (.cast 8 (.and (.x 81) (.c 0xff))),
  .set (.shr (.x 81) 8), .set (.cast 8 (.and (.x 83) (.c 0xff))), .set (.shr (.x 83) 8), .set (.cast 8 (.and (.x 85) (.c 0xff))),
  .set (.shr (.x 85) 8), .set (.cast 8 (.and (.x 87) (.c 0xff))), .set (.shr (.x 87) 8), .set (.cast 8 (.and (.x 89) (.c 0xff))),
  .set (.cast 8 (.shr (.x 89) 8))], [26, 28, 30, 32, 34, 36, 39, 41, 43, 45, 47, 49, 52, 54, 56, 58, 60, 62, 64, 67, 69, 71, 73, 75, 77, 80, 82, 84, 86, 88, 90, 91]⟩

/-- `fiat_id_tc26_gost_3410_2012_256_paramSetA_inv`, lines 1124-1179; the variables are 0 = t1, 0 = output, 1 = acc, 2 = t2, 3 = t4, 4 = t8, 5 = t16, 6 = t32, 7 = t64, 8 = t80, 9 = t82, 10 = t164, 11 = t246. -/
def inv : List InvStep := [.sq 1 0 1, .mul 2 1 0, .sq 1 2 1, .sq 1 1 1, .mul 3 1 2, .sq 1 3 1, .sq 1 1 3, .mul 4 1 3, .sq 1 4 1, .sq 1 1 7,
  .mul 5 1 4, .sq 1 5 1, .sq 1 1 15, .mul 6 1 5, .sq 1 6 1, .sq 1 1 31, .mul 7 1 6, .sq 1 7 1, .sq 1 1 15, .mul 8 1 5,
  .sq 1 8 1, .sq 1 1 1, .mul 9 1 2, .sq 1 9 1, .sq 1 1 81, .mul 10 1 9, .sq 1 10 1, .sq 1 1 81, .mul 11 1 9, .sq 1 11 1,
  .sq 1 1 2, .mul 1 1 2, .sq 1 1 3, .mul 1 1 0, .sq 1 1 2, .mul 1 1 0, .sq 1 1 2, .mul 0 1 0]

/-- The constants, lines: `const_one` 1183-1186, `const_d` 1188-1191, `const_S` 1193-1196, `const_T` 1198-1201; the file has no others. -/
def consts : FiatConsts where
  one := [1, 0, 0, 0, 0]
  a := [0, 0, 0, 0, 0]
  b := [0, 0, 0, 0, 0]
  b3 := [0, 0, 0, 0, 0]
  d := [0x2c32d6dc7bffb, 0x2897009af7e52, 0x5aa3026573bec, 0x6a055e2f0e73e, 0x302fb5be0c1f]
  S := [0x74f34a48e0ecd, 0x75da3fd94206b, 0x29573f66a3104, 0x57ea8743c630, 0x3f3f412907cf8]
  T := [0x75dce7a14aaa, 0x5c192ac47ea63, 0xf1b2b10e89fc, 0x7c563a5d2d135, 0x807f39facaf]

/-- The functions of the file. -/
def file : FiatSol where
  carry_mul := carry_mul
  carry_square := carry_square
  carry := carry
  add := add
  sub := sub
  opp := opp
  from_bytes := from_bytes
  to_bytes := to_bytes
  inv := inv
  limbs := 5
  consts := consts

/-- `lut_cmb`, lines 1204-3248. -/
def lut_data : List (List (AffE (List Nat))) := [
  [⟨[13, 0, 0, 0, 0], [0xb2592dba300e7, 0x3e87f22e81f92, 0x60ec939cfdf1b, 0x6cd212230e3ea, 0x30650f195523a], [0xe8752747155f, 0x2ce74c5c99a73, 0x6c037ef8e5465, 0x6aaebc7b92eb, 0x7521c44952cfd]⟩,
   ⟨[0xa63d93451134c, 0x3f7a46c1c4ca7, 0x2af35693661ce, 0x5313f13e9cc60, 0x54e15958a5d97], [0x4525ddcdb5791, 0x736aacccb7bc8, 0x174f4885153cf, 0xcb27666a2367, 0x16bdebb39e143], [0xc732788cbc030, 0x5c721e676d06f, 0x24101fdbbcce2, 0x59473ae8cd7ca, 0x586898ac013b2]⟩,
   ⟨[0xa894e457058ad, 0x47d7f48e61013, 0x35b4a672fe227, 0x2a23302c060b2, 0xf011d09fb149], [0xfb80eb0b22bcc, 0x606da3c1fac0b, 0x49bb0ce05b2ee, 0x513f1be099f41, 0x2aee30c375862], [0x4ed5422831c0c, 0x7ed2e735ef7e7, 0x6f38521f75f30, 0x40f086dbfa045, 0x2ba6dcb264756]⟩,
   ⟨[0xe66cd5db0b356, 0x68408f9a4857d, 0x1f32e8fc1fd9f, 0x6283c082bf3ee, 0x7b28870e5b67c], [0xfe1fdb8efdcbe, 0x3f21273425384, 0x5870eec15951b, 0x6c844f52108d5, 0x1cd6f3261afa2], [0x712d2beaa7e64, 0x6ca4e1492a890, 0x1f6f63f92c63c, 0x7e2ffa1f1c544, 0x2725a45a8e238]⟩,
   ⟨[0x3e27f874c6781, 0x80bddc3e44d5, 0x5afc7a11a0693, 0x1b7278aa23afd, 0x4d7cf0d085a3b], [0xd80090dd1ae96, 0x2433971543626, 0x276f2fb600a27, 0x5e6ba3fc73b39, 0x5f6dba95d6230], [0xe7885a2499a0e, 0x4547b7f6c185e, 0x3dcacbba1c5, 0x642667d8cf12b, 0x2ea8e4237a0d7]⟩,
   ⟨[0xfde7b60226f30, 0x6e61454cc4c1b, 0x479c4c24e0377, 0xb58c33813041, 0x2403059a551b8], [0xf0ef2e06ae25f, 0x65b351500fa13, 0x4884d79149e34, 0x20a52f78f4d69, 0x52a46e43d1e6f], [0xd0ecc557f4e9d, 0x7d12b76ddbf72, 0x1e35d93266d1, 0x60ec982223c71, 0x1388a4fba5cc2]⟩,
   ⟨[0x288dd0895a16c, 0x602071d0efe2e, 0x7dea3e3ba4068, 0x49db99ea55e0f, 0x57c4fba5bf59f], [0x15beba4e2b732, 0x1f7f8e714e8b3, 0xa952ef156c40, 0x17371509c8e81, 0x362b2b97378ed], [0xa85d2d8d51136, 0x5f222a81c7f67, 0x7182e92b465da, 0x37f522c4e8e6d, 0x4310842f64a2b]⟩,
   ⟨[0x5a383213dc33c, 0x7e9b816cd42c6, 0x7fa8ae87087aa, 0x4e55f40d4a3ee, 0x4f6d263536b6d], [0x20f67059f55a3, 0x7763eea276d3, 0x19a17f705b71a, 0x5944e63eb82fe, 0x7650a0dc5d1cb], [0xfcd65dd4c828b, 0x4ca6637691ea4, 0x3cca5d1052701, 0x712031f0647a6, 0x21cff42584b2a]⟩,
   ⟨[0x6c8a92f922362, 0x44311fb926b9a, 0x24a255f064898, 0x4502c0490e488, 0x181b9c7be07a7], [0xac7eb3f012fcf, 0x66fe14d676159, 0xe913992c9940, 0x5a66b28860b80, 0x4fa013bb9a8c7], [0xad18cd3393ab, 0x615e7db492bcf, 0x65c59e4108193, 0x1c03c21b9cd4, 0x53fd4d84c40b2]⟩,
   ⟨[0x3fc89a2c6b0cb, 0xf3fe6593c6b3, 0x33e7b9efd7774, 0x202569acd3fd6, 0x304e71bd74a19], [0x70b3e67c53736, 0x62c9877c0935f, 0x5596ce3ded78, 0x65742f67b602, 0x1f8fd1e49e6ff], [0xc98d8b880ccbf, 0x2c564715f7115, 0x3131e65c288f0, 0x32e11b2e67fc3, 0x306235c4203e9]⟩,
   ⟨[0x2ee57bc2f49e9, 0x72b3e30ac4a02, 0x7db1e3840852, 0x1dd33d665342a, 0x1a7633225aeb5], [0xb7f7b5b762a44, 0x331a035435fa2, 0x67e3dc1ddb9a7, 0x4b831b6e64d06, 0x6f2281134099e], [0xb980ef7392e55, 0xb89e617a9ca2, 0x7aba1a8be9857, 0x39aca46853bd7, 0x75b4d3e20eed0]⟩,
   ⟨[0x250edac297799, 0x5f2c18c18bf27, 0x1ca515336c8ca, 0x559e66bdeb0df, 0x1deedad609a8e], [0x955e31c58dedb, 0x669d9c0842b27, 0x6deb790d54552, 0x3f019c46019da, 0x471f509c91c79], [0x732102c57b4c9, 0x6a2a9c28278b1, 0x2324651bb700f, 0x35daf397e77fd, 0x663bbd174f83c]⟩,
   ⟨[0xb929354fc042f, 0x11c492eccd647, 0x9741f291bef2, 0x1b4c7302c0158, 0x53ae1a0a0cf65], [0x3ef8b2c9bc0fd, 0x2cc7ca0f574c, 0x6d4b65a91c0c0, 0x37510a240479f, 0xc64fa252a385], [0xa88bd59ed7c65, 0x7addae9cf1b08, 0x19ba0f9c07f82, 0x678db16c95452, 0x56623a2d43cd]⟩,
   ⟨[0xb7e8a540d0bb7, 0x584f51d57a3a5, 0x1d8f204e79366, 0x50ab42d36bb78, 0x1f1939e53c5f0], [0x6f36130edf74c, 0x4f887f8a3c1ae, 0x287ba42f1a8b2, 0x59f26236fedc0, 0x4e7e15665ab6b], [0xbef0a5861c3bc, 0x1c09cd88554a1, 0x61d92810426b4, 0xb7288e75d464, 0x6309911a5eded]⟩,
   ⟨[0x85b811b64f095, 0x5d8dfef0da78a, 0xfac6bd61618c, 0x4baaa6c8b2729, 0x4b56e9d2abd89], [0x43e639cd4d3ba, 0x74deabeabdb28, 0x7e3fba43ed6f6, 0x3aee8b7aff1c3, 0x3f53f79d2ee85], [0xd24432d4f4aa5, 0x78d7cf1ed698d, 0x4ff1a468ed10e, 0x401d16c0d8d9f, 0x2f258fe117334]⟩,
   ⟨[0xfb19d593a119f, 0x573b9c8ef8ef8, 0x3d940302f6503, 0x182ef3d826ee0, 0x3f7471c590f65], [0x299b06daa3c6c, 0x7746e79edd442, 0x3ac79e8c5e3a4, 0x7eec70eb2d955, 0x725068bb9e5f2], [0x2bc325e5a930b, 0x107f46e629456, 0x640b07b73e5d1, 0x1279dbe60561, 0x225709c5657e7]⟩],
  [⟨[0x192b0ceaba3b, 0xc849471353c7, 0x7933577181965, 0x142c9ea69016e, 0x4567e065866d3], [0xb6b66959b52d6, 0x430844adc8f3e, 0x6380bd764ffc3, 0x16d901a803eac, 0x86b9a477dc01], [0x23367321e8b93, 0x32ea758921a81, 0x4882218493c4b, 0x363b5842d9a7d, 0x15a99d8110971]⟩,
   ⟨[0x300698ce29666, 0x4eeca6154042b, 0x166b994cfb4cc, 0x4acf422430e4c, 0x25f72d8d2619], [0x675e071bc36f8, 0x4dff904d1f8c7, 0x3d505499703df, 0x20099265edeb5, 0x3cc88b51f7700], [0x7d2fcaa25e5b3, 0x265d6e2479291, 0x11547c45b8fb, 0x7bb46d4b019e2, 0x56f6cd9966342]⟩,
   ⟨[0x716456f1af846, 0x6ec66d0f766db, 0x46a2790a7cdeb, 0x7d9fe58069e97, 0x6f455e4c8baf4], [0x2de3d52161a5b, 0x1322ef1230b3d, 0x64226a5d94e2, 0x4f0c2721e80e3, 0x55430c4fd1472], [0xf3fe53622b34e, 0x400e37e2f6b5e, 0x786904ca5be13, 0x447c21e951630, 0x30e6760567848]⟩,
   ⟨[0xb726fc584b729, 0x414d51bce0a43, 0x618f6813d930c, 0x40a56d66c1756, 0x3d984c56008c4], [0xeb2683acbed46, 0x652cb350659d6, 0x13634382fca77, 0x2f5d25e61b8ff, 0xb4620f79b12a], [0x1e7a57930b5b8, 0x73653ec2b76d1, 0x613302fe0b30d, 0xa6c4e5761f63, 0x6adf86a72cc92]⟩,
   ⟨[0x19186a824fdd7, 0x11924f7f2750c, 0x29ad4044367a7, 0x7e9538b9decca, 0x280d45d483e14], [0xbb52ab225dcb5, 0x28b165cb1e4da, 0x5bc09b05fcbe4, 0x381d12c463328, 0x76d0b0f76f027], [0xfedf306c25c01, 0x3fecb41117000, 0x2fd6a35e50e23, 0x337ed65b03733, 0x574ecbae7cdc]⟩,
   ⟨[0x6db58e6ed0d33, 0x6b3191ff18b0a, 0x3ea3b063f5e91, 0x46c617ac41dae, 0x55b8985867163], [0xfe332d0609f49, 0x29e2b6c0590bb, 0x27b083a8281e3, 0x23f54a6691576, 0x1f9b2324b7af4], [0xb28b2b17c7fe4, 0x6080357fba43e, 0x615c5b81fbef7, 0x3954270a7909a, 0x1a2f47d0a04eb]⟩,
   ⟨[0xba17581986197, 0x34870f30008da, 0x13ca300cca469, 0xb162692148b6, 0x3f7cf95609f4d], [0xbae83e74f002f, 0x69841112f14b8, 0x78c4efe35a991, 0x60bce9ed310b3, 0x754449fd8083c], [0xaf607f5b16e11, 0x353a2b8acc91e, 0xef1d9e0ef391, 0x4541cff0ea8df, 0x16aeae7b3f2f0]⟩,
   ⟨[0x4d0c351d81066, 0x558e4f8f8b3b, 0x16ab2e6954da6, 0x1322a57507762, 0x48180b80ab80], [0x8458bffcb303a, 0x22f59a0891ba3, 0x15fd6ca3084ef, 0x96545eb531a3, 0x6e575563bc013], [0x51f33b08869e8, 0x26605dc18d15d, 0x55cac08cde2c6, 0x688ffa5c8bae7, 0x1b5e984904b9c]⟩,
   ⟨[0x6b8b443814972, 0x55fb9a76e0cc9, 0x9ce2aab60a30, 0x3ef83a2f57151, 0x54d67d9a4f513], [0x7becda40a587f, 0x66610e3756505, 0x667aed7c671a5, 0x45c3e37289fa8, 0x3ee1deb8bf15f], [0x36da9491a8276, 0x7f3ba7f45d5f3, 0x5491780986582, 0x17d2a21bab7fa, 0x2173c231405f]⟩,
   ⟨[0xf3db9923407c2, 0x34756d5dcf8d4, 0x12004cc7c2a34, 0x333fe8258f7d8, 0x22bb7c7e2afdf], [0xf405ee8ce31c, 0xead90d22334e, 0x33d2a3c4c1541, 0xc208cd2f4ba6, 0x531d1a514c9b5], [0x9f9f19d9c76d2, 0x50fde66cc4397, 0x7e0c2178203b, 0x2a55e72d96e80, 0x3c184a5ab3faa]⟩,
   ⟨[0x1563d94e10fcd, 0x2f2a35d0db543, 0x6e7768e05cfd7, 0x275c5fc14d586, 0x433ec2f348324], [0x4d3d54c94da0b, 0x794ddfdb2ee1e, 0x682353d05bb00, 0x62d8667c93a51, 0x4dadca5a8ce84], [0x8950dcba27a08, 0x59bb3d4e3abe9, 0x3822c18a53312, 0x244b26bfd9780, 0x21363f385a671]⟩,
   ⟨[0x8d4a03fc03231, 0x23e2a19529871, 0x7e6f5f8c1e22d, 0x5603802b4085e, 0x3ffa733f66be0], [0xcc0d81c2c08e7, 0x18d23fc4f115c, 0x3051462bf328, 0x4db5d451fa8eb, 0x10acd436db7aa], [0x316fc2858c718, 0x1c94a21ae0f16, 0x7fcca25487fef, 0x75860e5cd985c, 0x5097bc8151c25]⟩,
   ⟨[0xdd0d0a35b9b1d, 0x69baaa4b56ff0, 0x4c778899053be, 0x2fdc9fa10add, 0x7a47afd52f5e3], [0xe3285c26be9bf, 0x33a7071d32e1a, 0x5d4d66bcc2faf, 0x48588a74f8ea8, 0x67f167fcdc66e], [0x8784a422379c4, 0x7470006e5302b, 0x21e9843d3b99, 0x3d41527492dda, 0x6326ec5940067]⟩,
   ⟨[0xff43284bb2391, 0x53cd58e6d70aa, 0x6ae6fa42e6ddf, 0x28b006426c7d9, 0x52b4eb53aa929], [0x5cdde09c1b9a5, 0xa96e981f65ec, 0x1b2c7538b9e62, 0x441a392439deb, 0x6a2b722dc6381], [0x900cfd32a9792, 0x1a7b4a6cf54d6, 0x3cbab4adcd36d, 0x7b9c1aa60b86d, 0x702520e53679]⟩,
   ⟨[0xc9a305d7834cb, 0x5b7b9fe0ccce7, 0x16a6095a241b, 0x4b712fdf75b13, 0x2c53655bbd91a], [0x8a6ed2314ddc8, 0x7da70cdf279e7, 0x6d2d0c3606e50, 0x3283daaa8966f, 0x6ef64b4e41560], [0x42a16ecaeb238, 0x5a981b79eaff2, 0x5427bfc071a2b, 0x49349a5ab5626, 0x41bc86960bd2c]⟩,
   ⟨[0xabcdbe3a9e5d5, 0x405363a4b3483, 0x120cfbb24a873, 0x5aae474a462d0, 0x35d540394697d], [0xa64659efe52c3, 0x4db773d047e7a, 0x2162abb1cfd3d, 0x15b391c39d9d5, 0x45b7d89dc266b], [0xb2d1fbc9fc441, 0x12722cd49f3e8, 0x4a0cffd68110c, 0x1b6ecff11a156, 0x7d2f58ce5e926]⟩],
  [⟨[0xe1788c8c3cc62, 0x43fd128363765, 0x69ae472062eab, 0x35d256fe91217, 0x67910c5563600], [0xf768b1233a3db, 0x7df4c7cd2ea86, 0x2cae86ef8da2a, 0x2329535de9283, 0x5a07c9f89c3c4], [0x54ff768f9ca3, 0x43d9e4b66b860, 0x7df913ca8b203, 0x719b3b558ddaa, 0x49b2bb9b923f3]⟩,
   ⟨[0x890be7f18cd54, 0x44aebc732fc6c, 0xf98b4946a855, 0x12b28b7a38b2d, 0x30c9fad322292], [0x9d307a4d23d40, 0x56fc224e7f4c7, 0x54a676de6f4d3, 0x6e886b5e9ab59, 0x5165d23a85bc8], [0xed25967873511, 0x6c6a9c182b080, 0x6978a72802608, 0x6bf34b9518468, 0x6871d973df84b]⟩,
   ⟨[0xf875d00421e67, 0x42edccb1c82c1, 0x48fc0a2e1bb9, 0x733fcf9823770, 0x49255ae9dedff], [0xb76a27f806a6b, 0x2c8618fecd22f, 0x7ca416389db51, 0x72b231f4e3df8, 0x37e6c81d4c8a3], [0x315ae714c164a, 0x651074cd146c, 0x70a110b6fa83c, 0x292beb2445915, 0x7bae86e66340a]⟩,
   ⟨[0x5a42303fa5032, 0x79c0eed4c5482, 0x70faf28317aa9, 0x252f900bca786, 0x4c6df6ac32d72], [0x899ef622c1092, 0x24300ea163f80, 0x5d78541f9c58d, 0xa82cf29a5335, 0x57651841e4857], [0x2ddaf4534e914, 0x5c3f8e3cedf3d, 0x7e428dfe30abb, 0xcfa8ef984856, 0x7f54de1239314]⟩,
   ⟨[0x3e194bb770b21, 0x5fe5004f0d44c, 0xe420e05b0cd, 0x7f4c1eb04adea, 0x42cf75f5849cb], [0xdfbff2f58474e, 0x23e38cacc0a2, 0x7940aaa1d2aef, 0x66b3671ef7d12, 0x2262304e8fd69], [0x8190a96fa31a5, 0x342b2840b29b6, 0x692023cf41b60, 0x438ccb9ad9326, 0x6a74aeef91383]⟩,
   ⟨[0x18fbc15ee9825, 0x471ade4e86042, 0x460985ba9c276, 0x273a2cd2f02d, 0x3d497885e0289], [0xfb3f88c29d5d7, 0x6a92797f73b7, 0x40af0bb921ec0, 0x56f0e3b22c834, 0x2624649a67166], [0x27a77b2d5b395, 0x485b55dd21ec2, 0x18f0dd390533c, 0x2c22dc574dced, 0x2023c88609399]⟩,
   ⟨[0x652b6a1715e4, 0x10936cccdbcbb, 0x75d99584830cc, 0x13967de55ae9b, 0x497b11abb2ba5], [0x29098d0d4b7bf, 0x148c12832bf02, 0x1acf592227fc4, 0x361b3459461f5, 0x17789d92b4734], [0x51c79b949ce9c, 0x3a90d40f0533b, 0xff1de7855e3c, 0x63c0b316f0292, 0x79ee9916b16ab]⟩,
   ⟨[0xbaf756382e001, 0x74e66d14aa815, 0x5b5da0dfb4345, 0x6a98ddba8edb0, 0x36757b46a7cb2], [0xd2030d203d167, 0x3c138f45b97d2, 0xd68249398dbc, 0x24992d9ac907a, 0x54b2d81985107], [0xc135eb42b443b, 0x459e57d3f091f, 0x7365731e3cb09, 0x37913422a2661, 0x22eb791c1e99d]⟩,
   ⟨[0xdbbf41597abd7, 0x47a1841fa5cb7, 0x5dffb8d0489ba, 0x207f59d5afdd6, 0x5862958391c33], [0x23d6607bf974f, 0x447a73195d140, 0x1cea4fe1aacb4, 0x9432ce509804, 0x2e2c660e2c2a9], [0x76405764963f7, 0x7b075e1b18e3f, 0x3c86f3db152be, 0x717d762bdbb19, 0x9430702d8371]⟩,
   ⟨[0xaf7f915e85486, 0xb0bbc2bbb069, 0x4a8ac30d65b82, 0x1a98bb8ffccd1, 0xa60c0955a82c], [0x28b7aa8d6e8b3, 0x599aa3afd1f06, 0x495c8a53271ea, 0x10d4ab4581526, 0x5a91911011b4], [0x91e63537a8eaf, 0x4ddc52abae41e, 0x3dd0926fda797, 0x53806de4c5bb3, 0x5e6f1b98e4e5f]⟩,
   ⟨[0xed0d0e611d440, 0x28f43b4f900c1, 0x4c3467d15a321, 0x3fa40b92f63a1, 0x4eb1d7c0f97c7], [0xf31cb2b424218, 0x28fc2cbd4b770, 0x49e2e21b9426, 0x4fba6c0ca6b59, 0x910a8bcbada6], [0x62aa84e5a1e8, 0x55785384b963c, 0x718ee20099ace, 0x1aae6f92cb06b, 0x5c36213b6b09f]⟩,
   ⟨[0x42cd518e7bb1f, 0x621c5ede20ff0, 0x784aa45e52004, 0x1ef5ee32943d1, 0x20eb45f6dce70], [0x1a99725161f74, 0xc92d8de52d6b, 0x4943c545783b6, 0xf2a34f6c04ca, 0x4ba95172eb757], [0x58b38359eef2e, 0x72a003feef0e3, 0x5a1a497c5b5e4, 0x7346a30d5043d, 0x4dcc170ce73b1]⟩,
   ⟨[0x7fca11d67a5f5, 0x51f99020e8da7, 0x32448ad151580, 0x2d682339fd143, 0x5c59954328210], [0x65b65920ea67, 0x64f016acc8db2, 0x2b54fd32dcade, 0x7514ac407f433, 0x6fb8e73cdec87], [0x8d3f0ceb6fef4, 0x8cd1daf58f2, 0x5e29bd86720c8, 0x1f89e2ea7d372, 0xf12d2febc32e]⟩,
   ⟨[0x74c08fe9f6ebb, 0x19bc5a03773e2, 0x2dc6d42fda236, 0x26b76b5dd35aa, 0x4ac140e7698ba], [0x7b671be5225c, 0x75e4e1423b035, 0x5c5078ee3fb12, 0x18fe0631f18ba, 0x49c97c216ada7], [0x288ca79de3fdd, 0x5f95b9694502c, 0x7a90b27755e7b, 0xd6b962a5d7b4, 0x2b73e8eabf5e7]⟩,
   ⟨[0xcf4b90c4f175b, 0x38b2e4adfe275, 0x51c55b83d6c95, 0x55a2d1264c7d4, 0x62e83fe154821], [0x8971a5d058482, 0x37ddd623e19, 0x32867f2b615a5, 0x623016e6aeba8, 0x12a36ab822905], [0x120ee148c51ae, 0x40334fadaa4fb, 0x334965aca2453, 0x6d3e8020844be, 0x67f6de44bcf25]⟩,
   ⟨[0x105d43c9e9178, 0x4721a89809540, 0x6fc38c213b1e4, 0x2647d42f65b1a, 0x376348d66b34], [0xc9949b00a3da8, 0xa0919fc02f1d, 0x28254055c25e6, 0x1d9499a0ae6f5, 0x1aace22f92850], [0xad0e76427572, 0x4c84545b77e18, 0x288f5b54fddb7, 0x38ed121222aba, 0x3a0976aa7e43f]⟩],
  [⟨[0x81fcf9f18835d, 0x431f4c3b0d6b0, 0x4948fec6a3648, 0x4a9b64ed01851, 0x5a8976bdba97f], [0xb16bf1437e1c3, 0x37d028cf83551, 0x1d4890be8b6e0, 0x14cee0109b29d, 0x1d11b49fc55fa], [0xff921373dc1c7, 0x38de820056599, 0x120ce481802b, 0x6ffc1f2c088f4, 0x1ee2d0c6b1df4]⟩,
   ⟨[0xff81329cb03, 0x68780226033b3, 0x6a2545ba20041, 0x5b2bddf462150, 0x3958db9028fb7], [0xc6bc63284596c, 0x348523d1dbf57, 0x46e3f936916f1, 0x5f78f7e010886, 0x4baefbf32edcf], [0x6b10e2c0da1c1, 0x39c183458580, 0x12db6c7b007c5, 0x3f3b7176cf39b, 0x3c1f7265871ac]⟩,
   ⟨[0x85b51f8bcfe19, 0x14e262925bd43, 0x12f59369d7dec, 0x5891e437c785d, 0x79efc6b4adc9], [0x57113f86aefde, 0x31d2a3cbb809f, 0x33dcf8ae19c6c, 0x2213df3ba392, 0x2650edfe84235], [0x4fef6e8e8730e, 0x2e2c593b029f4, 0x2d3e99d33a67f, 0x14e290c55b9bf, 0x4403429d2be3d]⟩,
   ⟨[0x409570f86a1d1, 0x22b63bccd0f01, 0x4f7d7b94f1868, 0x1450e62b7df7c, 0x694daa72bbcac], [0xf24fc804e499a, 0x1c5150b7a2ed2, 0x4aa24eec36d37, 0x2132213761a03, 0x75a13822d103c], [0x67187c39eb19, 0x7765373b31b66, 0x29ceae18e4d79, 0x2c737cc0bd795, 0x3193edeea0158]⟩,
   ⟨[0x5b52c3101e326, 0x7176502d653b5, 0x1fd26bf9cb194, 0x4fb67eadb3779, 0x4d0c770a8accf], [0x11f79b7b344fc, 0x6663499e87a4, 0x450daef594e13, 0x78c2f195a18d1, 0x7978e36566e63], [0x2eb14a8c94333, 0x1c2f764e483ae, 0x31c462060c077, 0x3ef30123095ce, 0x21b6a8af629ff]⟩,
   ⟨[0x6c49c35f232e3, 0xb80eefec6616, 0x680164dfc3701, 0x72ff54666b634, 0x68ab4afc182cd], [0x176ef0c655243, 0x19a1ee66fd2eb, 0x6af04a498ffa9, 0x2514f98e20d4a, 0x1a0821e95f930], [0xd58cc3800fe7f, 0x50c9e092a5673, 0x51cb3347178dd, 0x2c9c1fb2fe677, 0x15ee68a8526b0]⟩,
   ⟨[0xcd72a8856201e, 0x38e8c397ed335, 0xb8e2262fc710, 0x27dc02e17af3, 0x6a5f450f30e8e], [0xb680de0c07ae0, 0x54d907d909686, 0x757c2922b0737, 0x660842fc9a0ba, 0x3fc7b58e7239a], [0x4651b7e8ae200, 0x484d3cb6c7a8e, 0x2f474ba01a0c0, 0x44aa7003c772d, 0x371f52ffc53b]⟩,
   ⟨[0x5c3b547e0b571, 0x209ccabd0ab4b, 0x2d25c9dbf3db1, 0x32a6a6de8522, 0x17a0ad8ecf369], [0x9010b6e71332d, 0x7b69ecc73f71c, 0xffc2ccaf6490, 0x64fdb227e8e46, 0x55085b8768622], [0x39ad933e2c137, 0x171f8e3c0681b, 0x1bcc516668190, 0x63314f511f47a, 0x2fe194634ea7d]⟩,
   ⟨[0xfe52986682b6c, 0x7c7793c6cfa0b, 0x2f120db9fc778, 0x56b1b5d1b696b, 0x6f7b105c7285d], [0xf08f3c79e5fa2, 0x6714a9e5021de, 0x556dfca302233, 0x36a6272a322e0, 0x7958876df034e], [0x1b28b59f70354, 0x7ab27ce51e80d, 0x567bcd43d179, 0x41ef880c69f63, 0x57ccc9da97dcc]⟩,
   ⟨[0x6bdc7393e9b9, 0x56d46935e2d25, 0x40c99ae846e20, 0x277c2a48b7d6b, 0x6f9657dba5ec0], [0xe84fd78e1468c, 0x1f647949ac006, 0x373b20611c903, 0x15e6faff6fa2a, 0x53520ab3070e2], [0xcc15cc69411f0, 0x552fb8719e7d5, 0x7c3b5010848f9, 0xe8af5525076d, 0x58459d1b894e4]⟩,
   ⟨[0xb9009e3531f14, 0x237005679db2, 0x7bf223fd5732a, 0x6429263f091f4, 0x7493705d2adc2], [0x793c60c5eacba, 0x332f859c4d8ee, 0xd090df892e4a, 0x41a3040ec7085, 0x1f585e3fc2c2a], [0x84d3fd3ff468a, 0x38c0475145dfa, 0x56070e08a4838, 0x2ac8e15465366, 0xf1485199ec2c]⟩,
   ⟨[0x12693c9129e3, 0x11009f59e7410, 0x5e068432fb821, 0x509f6a285bc64, 0x64b88e6e8b8a6], [0x739f7074fd4a7, 0x32712493d3f9e, 0x2e3550e33660d, 0x6ee093485a6a5, 0x4cae5f8cdbf10], [0xbb27495cf7ed3, 0x1ceb73051ec2, 0x686dc320d7c1d, 0x7c5ad5ec9f58e, 0x1b98ed417d210]⟩,
   ⟨[0xbcf4c24a4c93e, 0x2415c387fa3b, 0x4b3c58228ddfc, 0x2037f66598fcf, 0x793ff104f8f35], [0xf1f6a9319dca8, 0x7f0e26c6bfdcf, 0x24f06f6521950, 0x1bf65931aad98, 0x4da8b59be0cb7], [0xc49b7018af82e, 0x264df5e55202, 0x4c1b40891f09, 0x37d39139b0395, 0x545cebff22b6c]⟩,
   ⟨[0x535e19606923, 0x389f3ceb25cb9, 0x771a87a5f04ff, 0x712e80b91b905, 0x1f1ea4402629], [0x3a2cffe51751a, 0x1780b59bf2f57, 0x33b2134560e7f, 0xc2fd87484cd4, 0xc1e827bf8c54], [0xbb159a554e7f7, 0x679d0f2669b49, 0x7c8af96eb162d, 0x739f8391987c4, 0x4fd6ba815924d]⟩,
   ⟨[0xcd58a76375ab1, 0xe0b8db7493b2, 0x1f26dc2178bd2, 0x267c3b843a318, 0x3b57558845d7b], [0x62248e93da9d4, 0x1b750d5841f57, 0x5825717c4cdf9, 0x395bd7231bf89, 0x5bb6b5e2e6af9], [0x9c6b9394024e3, 0x75c5446be7237, 0x65e6c801e7bb5, 0x2db2f90a55cc, 0x45dbb4d1ccbde]⟩,
   ⟨[0x53cbfdbe0980a, 0x1407aa377a7ad, 0x1290c47515626, 0x6b6c6ab3118e7, 0x2c22d483e81d6], [0x12acdc7ae7440, 0x69c66640bc7a6, 0x2a4f768809cc, 0x14168bec8d796, 0x52716e75e07b], [0x1bb2f947f80b6, 0x73a86d41b9dc, 0xf191e9de78b6, 0x65df33e390db9, 0x3308f79176bd]⟩],
  [⟨[0xba39c423a0f8a, 0x6ff2c4c49644c, 0x527b0cf9945d1, 0x462bf78f17e13, 0x72f5df073b45], [0xa52b0c9431b86, 0x7413199bdb5a, 0x6ff18c34250cb, 0x5f22c96ac669a, 0x9930cfa11cad], [0x49d54a46b4f00, 0x1aa620def496d, 0x1ff21c12d3280, 0x6da8184b69b09, 0x387f6aa984bf6]⟩,
   ⟨[0x1654e2d2f5512, 0x78f8b53d7341a, 0x470e5bc40fe6, 0x6c2a23bf4231d, 0x8ad4ac154bd4], [0x25588b0e427f0, 0x4b7426292145, 0x4efe16dbdd657, 0x737056241360d, 0x503bbef8bb0a2], [0xe71495d3f3ee8, 0x3b55e84166513, 0x5a32066e89c7a, 0x60fd619143fdc, 0x7af54e13c9a0b]⟩,
   ⟨[0xf35f2359ed4d4, 0x6dad5a1edd9f7, 0x33e72bb06fa4c, 0x4cb0bf2699447, 0x78adc100a9438], [0x58677010f1d44, 0xee3da34d7805, 0x3c19261dbce0e, 0xbe1d2b1915f1, 0x4c27417301a56], [0x10519e74f0fd3, 0x667928b6e2aed, 0x112b7d96f8351, 0x25ac5c3c73843, 0x64f071a913a63]⟩,
   ⟨[0x134221f75e904, 0x1e877fc436184, 0x1043119533f1b, 0x36e12894b6885, 0x1a97dc3a85dd9], [0x5b0e5800ad26d, 0x3c8403b9b7909, 0x578bf28f187b8, 0x6f76a622b025f, 0x1a581506806a], [0xb1b3a779043a2, 0x2bd2ccefc7d40, 0x6880561392822, 0x470820dc7ad05, 0xa8a6dfe39efc]⟩,
   ⟨[0x3b4ae7341a857, 0x6f61ae4525d94, 0x47463c3f47708, 0x13ce30c0e6cd4, 0x1a4d6b43bc1e8], [0x448110cf677d7, 0x2b26f500047c8, 0xa9edee30b5ca, 0x74ceab89a5f26, 0x69dc9e784890e], [0x2384feb025ee8, 0x760169df0e4ed, 0x679a94c441675, 0x6e39a8b9e9323, 0x4f60517e33211]⟩,
   ⟨[0xd1f112d03827c, 0x3e266c25b8cb9, 0x4ddae5e9a861a, 0x3fddd5a19e3fc, 0x525ac4177127a], [0x5e3fbaf1de590, 0x6d0ac9d49ebf, 0x71a842bb0750f, 0x30a965193beb1, 0x74f0f13cf1], [0x569358b8229bf, 0x4d8605014c12d, 0x67cf8f3abb9e2, 0x1913d15fe7e56, 0x4e005335eb124]⟩,
   ⟨[0xdb4b52128b9c8, 0x286d98ec1991f, 0x57d6985b266d5, 0xd63a8186a6ca, 0x3e458c6d43002], [0xfac1001dcf643, 0x1a63a60e69551, 0x770074385a527, 0x716e487acfcbe, 0x3afc421f39471], [0x1ff85ba0dd581, 0x185663e421b6b, 0x3d0cc19588a5b, 0x50a4ed90a0bd8, 0x1adea0dfb4b55]⟩,
   ⟨[0xf8cd682890618, 0x1b4c0fc4bf1b7, 0x4593054904595, 0x44163e1d05297, 0x4ff913b7848ee], [0x44061a1c77bf2, 0x118c6eaf78cbe, 0x121317990c4b0, 0x14f94111d4dbf, 0x50fc488f73a1c], [0x3f8a423ff3b98, 0x57ab9ddb49662, 0x307128f5cd0a4, 0x5c206361126e4, 0x58f1a9b6f58c2]⟩,
   ⟨[0x26d3d15cafc7e, 0x11891bc41e2f2, 0x6f04870d432a4, 0x745c21e77aaa6, 0x3dac061530272], [0x1daf75081bea5, 0x56d5195dd18e2, 0x1dcac8c45410e, 0x4d2da16f980d8, 0x63744829e7170], [0xdf1c42fa10272, 0x741ca2faa037, 0x467c87311fe7, 0x523429446fa40, 0x68bd1a87367d1]⟩,
   ⟨[0xc458b0171251b, 0x1fe9de818f3cf, 0x54a1370707a2c, 0x62f84aa462f0, 0x7cf5a9bf230f7], [0x54404a1098fc2, 0x2411906266825, 0xa193956a70e8, 0xfe137d04bc1f, 0x4e42d21effd81], [0xf2eac10355e39, 0x54f7e065688eb, 0x1a95e0ca9f2c6, 0x7e704c61469a2, 0x7b68adbd82dc6]⟩,
   ⟨[0x899180c1e2363, 0x7958932146e24, 0x43c3bdbe7e084, 0x59983b137251c, 0x181505c38246a], [0xfd89855efabb, 0x3b63d1b15e2de, 0x255391d67495a, 0x4dd2784b95163, 0x512aaaa077953], [0xf74e51e9d1e14, 0x7a0923f8922e5, 0x481df01d3ba5e, 0x78147fe69a25e, 0x2677f7c367d95]⟩,
   ⟨[0xc31ae3acbf754, 0x15b533de0199d, 0x37f5398951f25, 0x7f6d8289614bf, 0x7a746b03a9ad8], [0xa5e8b067361b9, 0x753d2a11e2709, 0x68eb1296dd194, 0x7f60fcc2f2f13, 0x241ecd0a2e455], [0xab9a10a22a500, 0x1b6d59f5e169e, 0x31bbc448574d5, 0x4717c01e2b0bb, 0x3d21e8aca1878]⟩,
   ⟨[0x499194c8b1c66, 0x23dd23cf4a5ff, 0x260f22a1f1e67, 0x46f48d856e7a8, 0x27b4e0522c56b], [0x197955ec21f63, 0x4f7579537c60a, 0x1eed38e27a397, 0x642709a47dd6d, 0xcec4bae6ce94], [0x7e224bd3de334, 0x2bc2a4e547ce3, 0x6c9441e441a2f, 0x66abba46db7c3, 0x7d6d7b2c94d89]⟩,
   ⟨[0x94a1b918036c4, 0x7000dc73238d4, 0x77504c3f1ab6e, 0x4e6a5d5c7c6a1, 0x3821648b33d3a], [0x81e39cdb93f79, 0x4ebbc689100fb, 0x1dd37c191e986, 0x36795a799602, 0x41c1b41711db], [0xa4a21ac6caf3d, 0x744cf7594e6f1, 0x30561165e9a9, 0x74b8ab965b245, 0x244902e385a94]⟩,
   ⟨[0x464bd11afa1e1, 0x2e00b44f4a68c, 0x6c58d5152071b, 0x7cc78f1bea1ee, 0x3d52810acc281], [0xc04b80d28dba4, 0x7c5eaa4a27bff, 0x66248f5bfc255, 0x6bdb404771492, 0x19fa7bb5e292e], [0x6358792ff5820, 0x3bb145a4d0d14, 0x647a0d099804c, 0x1ce6985bbea5d, 0x71f7addb5dec0]⟩,
   ⟨[0xff792012e3ad1, 0x318fc42c34144, 0x18aa9596d5383, 0x4a1e0677aa264, 0x7c9d08a010323], [0xb38da3ffa9d8b, 0x7b37a58db49d5, 0x3cab96e3d6dd9, 0x4877ec3c59320, 0x5f79e6ab22005], [0xd9227d42e392d, 0x383e4a65149e3, 0x1fc4c8988d7d7, 0x301c333e8d0d, 0x566d13b877137]⟩],
  [⟨[0x2819cd64ec5d5, 0x718864eb85dea, 0xb38f635d18b2, 0xfa0d19ec1914, 0x7fc6e0b53a132], [0x681a57637b42a, 0x9516d77453a8, 0x41747d2aff787, 0x484c8caa8775b, 0x69b6edb5beb15], [0xf673ed008533f, 0x5983ae2e9902, 0x696120c054601, 0x2dd10c21d3665, 0x3650b63683f24]⟩,
   ⟨[0x1c85e071e87c9, 0x38e791d5639bc, 0x7eb7b3e0a3bd5, 0x67f05ba2c2992, 0x5a217d19b8e87], [0x9cc57757e7dc9, 0x4c152b026bbf3, 0x7ce941d2bb495, 0x22801029cdb1f, 0x15e56aa9988b8], [0x1f20bb815bf7f, 0x45bbfd494947d, 0x752e00cadd615, 0x30a1ade235d5b, 0x4f475eaac468]⟩,
   ⟨[0x5dec978dc22cc, 0x69e99cc23af7d, 0x1a491c445cf0b, 0x1a2b80570eaf4, 0x519998f23da17], [0x33f2d4f6dfc80, 0x3473c4b91929a, 0x657675912c778, 0x27483c8c74ba9, 0x45aedd79f572e], [0x5b55cf68cf232, 0x5978d5f58c198, 0x463464aa8d74f, 0x768a84f1143, 0x4d85e72d498f7]⟩,
   ⟨[0x65396eb5e1b7c, 0x3ad9bc86d4a9d, 0x7d80aed5f83a2, 0x7bf7e181211dd, 0x53259a33a1c38], [0x4ed7967092aa9, 0x37e220cefd1a7, 0x7d56552e4be39, 0x467e0e1384212, 0x7cb81af42b8e6], [0xf60010d427117, 0x3fe077dd17dac, 0x3d70c978e0e1d, 0x4ec475f514efa, 0x678a033281d8a]⟩,
   ⟨[0x1ddd15d89d0da, 0x5ae12e0dc3f81, 0x21725313e6cd1, 0x58e25dd51cd68, 0x51cc1640e208c], [0xa5bfacd788203, 0x76782156da54a, 0x6546faacebfb5, 0x751697ebd387, 0x403792f66f908], [0x1ed1ba791d84f, 0x7c0c66505b59a, 0x3039e8770455c, 0x176ebe864ccc6, 0xa9d7490bb5e2]⟩,
   ⟨[0xadbb841243625, 0x70ef045ae92e4, 0x3ed707ac6dc1c, 0x2ec569d895e88, 0x7a1f82b8a9f9b], [0x480ed4cc26515, 0x7142fb964f1d8, 0x2d589d76131d9, 0x2041f5e307b5d, 0x4dc0c8dc698e2], [0x639ba125b4eb0, 0x6735ae5885bc9, 0x402130aa29efe, 0x6483ecf5f928a, 0x5c0c2a7450215]⟩,
   ⟨[0x11e1ba90f4d05, 0x3c4aca739b18d, 0x6da6c4d05bb4b, 0x6c9d11a68c07a, 0x7e4ff60853dcc], [0xfc3b1eab98c72, 0x194a565c0d2c0, 0x6774e78078878, 0x2845c8fbe34b8, 0x3fa8ffb470a30], [0xdf02100a29b8e, 0x1edb288fcefef, 0x3a1f05ee527cb, 0x800da11b67cf, 0xf28747f25ba7]⟩,
   ⟨[0xab1fe778d5ac8, 0x7ac5f7720f73d, 0x1f29e35de087b, 0x6594ae6f4b147, 0x3bd0e462820eb], [0x46e4ee5708b31, 0x5f6d4a65795ad, 0x65a6a14fd4dbd, 0x5175d21ecc1c7, 0x7fe00455d7273], [0x7b6f8cc74b2e7, 0x741ab0632d05a, 0x49d46261751f0, 0x6736bd5aea112, 0x69ad164b202c5]⟩,
   ⟨[0x12bdcf8236c6c, 0x367ff9d0f9b9a, 0x3f319b67073d2, 0x760e8b33bdba0, 0x56660c3661195], [0x6a7ea308b1685, 0x6c261a0b19e51, 0x4e083123a5fb3, 0x47a0c38dd3ba2, 0x53c6d2a152664], [0xfaf64fb917431, 0x565756e7faaf4, 0x3d721a24a3704, 0x13317369cbd42, 0x16612511b5aa0]⟩,
   ⟨[0xe652b12074c2e, 0x59d0baf050179, 0x3b5736856800, 0x647959933e44e, 0x3d56153518775], [0xf380f6f1a960, 0x1acbbe16f804f, 0x2997050169d92, 0x6923f3fb9a04c, 0x760d8364cde1d], [0x87864c2c7818e, 0x65bce2c21225e, 0x829d71c17447, 0x624dd657fe09e, 0x78584f6fefd9]⟩,
   ⟨[0x6d584a0fe7a46, 0x69d33d6a2e6e8, 0x67e621c9a0ce7, 0x77a830f59fbff, 0x14c1bd946b545], [0x1b2a1355a4052, 0x675cbe17382b6, 0x641af5cc81253, 0x5eb097d44d21f, 0x9fc2aaae02cc], [0xd414d936e58dd, 0xb296ac88eb92, 0x76ab84dd6056c, 0x685e1ab03c5dc, 0x28348d45f6358]⟩,
   ⟨[0x16cc86d940ffc, 0x6fa98a7f59e71, 0x29ca45e235967, 0x1ddb48758b49f, 0x61464300af54f], [0x43c3ac9312b0d, 0x64fc92bc9377, 0x239f95bd3c366, 0x529c3d8cf33a, 0x181e4547ebd24], [0xe16213d8c28c0, 0x231d13ce48188, 0x7f4b9bea03675, 0x4042e3ac3d778, 0x1eaa475e87aa7]⟩,
   ⟨[0x1daa732854120, 0x2d8c6031f046b, 0x48ca4cd8ba89e, 0x6937503a6724, 0x61b37a983648e], [0x13ac756b13b17, 0x7f99eb1fe63b2, 0x12ef62aa29f91, 0x275a63ac0b82c, 0x41f85ac1748dc], [0x3c3a345e37216, 0xbc95899511a0, 0x67984e11988e2, 0x3790c6a6bd91c, 0x4ae8857a370c0]⟩,
   ⟨[0x59767d1dc7159, 0x59021e287d705, 0x59eecec3be7d9, 0x1eaa18d4eadd0, 0x65a975e23f03e], [0xa95afcf439414, 0x15b75c723f702, 0xbf98929522fb, 0x3085d78e648c0, 0x37d7d62ca4475], [0x4a0da8919f5f5, 0x367d06413644f, 0x354956c041ea1, 0x10755634e2c5d, 0x170791147dd80]⟩,
   ⟨[0x827f7944fe6cc, 0x1c751f20ef72, 0x35f7ca3d66415, 0x5210c82c852ba, 0x4c02a5485650], [0x3b5bdd64b5c0a, 0x4689ebdccff34, 0x70e43eecf0d36, 0x6de61d82dcc84, 0x12e98d82a7298], [0x1e9e5518d471a, 0x7a1bb46de49d9, 0x35b2927b223d1, 0x1ccae464874f4, 0x39dddef590e1e]⟩,
   ⟨[0x24a7a1c775995, 0x7157dd78b8376, 0x135892f3211e4, 0x68f7235fb1ff7, 0x7b084d8e8f5ba], [0x47354d60a9b5c, 0x5528d484b558c, 0x5ea409eb39def, 0x1301d88a26eab, 0x3e8eeea1e9e16], [0x7e18f66eb4040, 0x3d687aac18df1, 0x43407b1b01c5, 0x76026a3612e1d, 0x36ac22c1da7f0]⟩],
  [⟨[0xa1db3fda77dac, 0x4d9593db5c4fa, 0x2d0c711adb1e7, 0x4fa1fd3056ec4, 0x1aea89a06c580], [0xb6e56502bc8a, 0x30fb5da75a109, 0x61ccc955cd549, 0x72ed7e235be62, 0x4ffc550d2c672], [0x1401b07fd2fc2, 0x1363a97814a08, 0x40a250bb0d833, 0x3fdc7eadb00ff, 0x6d0c5f0015d6e]⟩,
   ⟨[0x6c4a3c3dd75d0, 0x35fb0dff6d283, 0x8ec03452d8b5, 0x660aa38d2e81, 0x70999fb1b3622], [0x76c0468e5e93b, 0x691d7e3fc4a00, 0x49cb4185cdaf8, 0x16c0c829b0e8d, 0x6aa160d0c7282], [0x5fa2b7f6bd2e2, 0x158da48e6f8a3, 0x604218b1883ce, 0xcffe74536fde, 0x5d042ab776aa]⟩,
   ⟨[0x27dd79fd8b383, 0x4e3c07f0fc4f0, 0x71e194bbe44d0, 0x516439a5b3612, 0x3f479be23976a], [0xd07783284baf3, 0x44583e7d6e11c, 0x1d132c130cabe, 0x625ddbfb712e6, 0x70a1b85622b32], [0x34c89e9034a6c, 0x78f18070d16d9, 0x5c48940fe1968, 0x7b463d52bff8c, 0x4f9cb24aa3ca3]⟩,
   ⟨[0x210fbd862af4, 0x42d00326cf364, 0x5909cda828553, 0x765038b375968, 0x61244e59e8942], [0x316b2c8856415, 0x2a4748f779ab3, 0x239c5e875089a, 0x36401dd98269b, 0x11ddae2a7e2f2], [0xe9134b0007750, 0x5ef4908ea5f8b, 0x79be217cc5e96, 0x599eca99a489, 0x4c47bbf939482]⟩,
   ⟨[0x3a337c362e13, 0x7780615b15dd1, 0x773a3946a0160, 0x700faaf105d15, 0x1a74be2b6494d], [0x5ca35fe3db4cb, 0x71df8c08deddd, 0x5f7e4acf08ca7, 0x36f543c236fdd, 0x69abf13bda30b], [0xd0bdb4c5fe93d, 0x2b22a4fa5285b, 0x6fa80f65cb79e, 0x379bfa1f4bf5e, 0x46594a6f4c0d4]⟩,
   ⟨[0x7305a30fd1f79, 0x1c6ffd9905695, 0x4645be794d673, 0x342101d707890, 0x1bb588f62a0a3], [0x105a272d17f2a, 0x7b3d6fa991e49, 0x227280611e9a7, 0x1a93aaa75915f, 0x23fa441b3482e], [0x49c1150a4394c, 0x40c4f9bac625e, 0x19d525ad587e, 0x4ff7128ef9688, 0x4fd444389ab05]⟩,
   ⟨[0x238e42ad5eeec, 0x5de60189ed21b, 0x1c3ed84bf7f92, 0x51d4ce9a6e138, 0x4d7509030ce74], [0x14535b829610f, 0x6763be3f420bb, 0x224420ec61552, 0x1d944b492451e, 0x43b7c34ad7e8b], [0x8748fb4b47d51, 0x5abb8e9b2c218, 0x1f774ae8aef2a, 0x4e251530c1540, 0x2c17e01a2cd3e]⟩,
   ⟨[0xa5aedee07b0b0, 0x5f89d3947b76a, 0x2bb62f90e7de8, 0x654a1af24bc3b, 0x3546f95e0ee6f], [0x85679601b8bc5, 0x4bb095d71c7d0, 0x53ecc1c751399, 0x41fe3795cbde2, 0x6ea98f1d1d81d], [0x64ed26f676add, 0x5a7a5bee185b3, 0x130cc8fec6ae2, 0x629fde7c00f10, 0x585d5a1cbfa57]⟩,
   ⟨[0xae0784632d10f, 0x27bfa28563b52, 0x4dece15823b3a, 0x10da131ff58a7, 0x48deffb0fe190], [0xc811ec58f82ea, 0x326da9e04e555, 0x71f177799421b, 0x3e3a474d3e8b8, 0x3d5d6d4de3cef], [0xd9ffaf07322dd, 0x628e14eb89510, 0x75d001d2380ec, 0x50d7e5ef7d399, 0x79765d0a00a45]⟩,
   ⟨[0x90f5a32267e76, 0x19a1b8e57cc65, 0x48b29601ac029, 0x69fa23de54ffb, 0x2fcbe3187f20], [0x125c2704c278b, 0x28493d1ef2120, 0x54f9ad9ff374b, 0x6985537375711, 0x7534eb65121d], [0x4bd9a12979647, 0x788b5bc284e24, 0x4cbd296c6ff6b, 0x7fa0cd5ee5d70, 0x2bc98a33dce4e]⟩,
   ⟨[0x753d51e36094f, 0x11309101dced4, 0x279505a1baa2, 0x6aede7a85aae1, 0x37ae84b6fe0a], [0x7739a4bff6011, 0x710d32f9567e8, 0x40fe60ec00e34, 0xe77282d60fc2, 0x12af7c9905886], [0x10065259dab06, 0x2c1ec736fa56, 0x41e7ac35292dc, 0xddf0a6e3c65e, 0x60ca6abef89fe]⟩,
   ⟨[0xc71b130d21942, 0x650cbcd04857a, 0x3a21705f79de, 0x441b7586abb4b, 0x44ffab824b35e], [0x4fc14956e331f, 0x2df101a872454, 0x1acac797ec78f, 0x6fbe58d90cbb2, 0x2083d4f2ed3d2], [0x2485e01980997, 0x679010a4c7ee8, 0x57361e75e0df0, 0x548ebb7b0f63, 0xadfa873f0adc]⟩,
   ⟨[0xcebad25601c16, 0x40cf38c58593e, 0x548ac165085fc, 0xec8d84a3956, 0x6990d99b70e27], [0x2d6f54c35029c, 0x194eecc0b8d55, 0x599d2c75b688b, 0x646453ac905e4, 0x3daeffc1f7f77], [0x2fb3c155dff91, 0x666676455e39e, 0x94b59579a3d7, 0x131163e64b240, 0x2be896bac1c14]⟩,
   ⟨[0x5372c822b631c, 0x2c792a5d553f9, 0x79a45af14b5db, 0x5728ac606211c, 0x59ef170252365], [0xb216d3837d4e, 0x49608e9da7038, 0x71c88398beb38, 0x1d39322c696db, 0x3270fee25be63], [0xf312227c8bd36, 0x6ea625a52c28e, 0x22dd277705c08, 0x2d9a720b669e6, 0x75102edd2ba08]⟩,
   ⟨[0xca132f90fe15b, 0x7f9d119339816, 0x6e56945e2b2a2, 0x4514fe66aaadd, 0x17af1bc738fb9], [0x4346faa16001e, 0x1c1a89bb2ae60, 0x1399cec955395, 0x3c0bbc0a6e99b, 0x64d29ae483ccc], [0x40acc3e0904b8, 0x36dc23e8ee05e, 0x66d427ada3210, 0x11f6e098f35f7, 0x39151730a7bba]⟩,
   ⟨[0x91ada9145c93c, 0x24194ba72df78, 0x3678d46d1c849, 0x389372773d592, 0x18c36fc253b2c], [0x5f6ddfd39f849, 0x2633241a26c74, 0x474a8b991d2be, 0x2ce50e2c4fe43, 0x293e1c206d813], [0xf47d948a0883b, 0x489f014b14b93, 0x6d2ac8a2e3258, 0xce310a0b2212, 0x1253d16b5d0a2]⟩],
  [⟨[0x1fc6ba4b27045, 0x38f66c4585dd0, 0x44510a543bbba, 0x1ffa25bb30e5e, 0x2d3c1bd993cde], [0xa2bb5f0a56d1f, 0x26c278f22fdac, 0x972239e1602a, 0x6d636075ccb7a, 0x255fee96db6f1], [0xd53d8c21d2ac3, 0x73d8bc6569d5d, 0x611171f31ec1e, 0x7bf39c3fb085a, 0x78cdd196c484e]⟩,
   ⟨[0x7aa3e7172e704, 0x41e6cdc54b308, 0xb05762f3efe5, 0x444bd48fef0c8, 0x4428ab2d08617], [0xbdd2f9b4370e5, 0x2f2670834c4f7, 0x3bb1958a52a76, 0x47cd537305248, 0x1efd0574ccbff], [0xaeb5ef88dca62, 0x117eaa2e61a6b, 0x4fcbb9750c8d0, 0x495792cd27339, 0x1b23c157916f6]⟩,
   ⟨[0x7891b674e71f0, 0x7c4f6fcad4468, 0x476d6c5509a66, 0x5f5a8b9cc77cd, 0x4199343d1fc80], [0x3f18f3d8f0055, 0x752c7d8ba3224, 0x436f715e78e8e, 0x1036795bf501d, 0x236b8319e54b6], [0x2e41c100edd83, 0x58577eb7bbd8b, 0x1f51303aac160, 0x5dc3ca305853e, 0x72b9415f81a28]⟩,
   ⟨[0x5265e75be3284, 0x7167faa26a5df, 0x123d1a2fdb52d, 0x61bbe43a46d84, 0x261b8d88701bd], [0xc87f87048b464, 0x53baec34f322b, 0x4dc58afe19a7d, 0x90ce2820f2c2, 0x6c48ac43ecd33], [0xb402ccf1f1a30, 0x429db8f417641, 0x249fd2dc1a2a4, 0x49f1f51516171, 0x65c94e325a506]⟩,
   ⟨[0x5d0eafd053602, 0xb2eb6445eff1, 0x3ebd9f65805d5, 0x3ca4b8ebf6a36, 0x78bfd685be998], [0xf64b891ddf860, 0x529576b60556c, 0x1b37fd3e24669, 0x33818eef5c8, 0x2b11ebf7e5937], [0x3152b742c702b, 0x6632b1ecd6036, 0x7923afb88728f, 0x6244da1c3448b, 0xad2fb0196ec3]⟩,
   ⟨[0xad563eb3b07a3, 0x1213a17b47ac3, 0x53ec21980e6fc, 0x2c4acc165507f, 0x7a622f28da7be], [0xc8f45e5659e8d, 0x2a78fcb23ce95, 0x24430fd4597d0, 0x347620f5edf93, 0x3dc647ea1ba77], [0x7f8f8703a7dca, 0x795c87daacf66, 0x7534bd87b9ee, 0x5099b2c521f78, 0x273750c74e81d]⟩,
   ⟨[0x24edc3d8abf8e, 0x300dfa97bdde9, 0x446c6f830946c, 0x68f06f4acdd60, 0x18f286bedb687], [0x3287c7040caf8, 0x5a30953d9648b, 0x4c0ced1bf2f16, 0x5022ba173833a, 0x471670e5dd4c8], [0x575c7d920a1fa, 0x28011acaa137, 0x267f433a9bb5d, 0xc0e4b91042b4, 0x1740f314fe330]⟩,
   ⟨[0x9146bfd90884a, 0x24724ae1312fd, 0xcc37ab3544bd, 0x2e4f30e1d877c, 0x78f98059c7cdb], [0x80ef557a2b367, 0x34596d52275e4, 0x3d07b43bc2723, 0x485142da02ea6, 0x52ed77068b052], [0x50c37f84e0b1e, 0x7f90daf676333, 0x14a034e40fe3, 0x1a1ccc5b06fa4, 0x2b57b6aaf5afb]⟩,
   ⟨[0x5a1ec835f93d9, 0x27c73660abd19, 0x51ed4acb98418, 0x5934d9a8c4481, 0x56dce5e599b7], [0xd82f2893e91e9, 0x7db2ed2f5fc8, 0x470bfb2a14a2d, 0x243357800b12b, 0x1586b880d973f], [0x2894a1aee30f0, 0xa56eefc3625, 0x328b708d399db, 0x1e0245e856f01, 0x331a120a8fa38]⟩,
   ⟨[0xb01b89ae8c48, 0x160c2be55859d, 0x32ed748bc62af, 0x3a96ef5b049cb, 0x7d5c6c7c53881], [0xf575f2e610488, 0x50dd2d252d63f, 0x32900a6cab78a, 0x52436afb000ae, 0x1058c522e70b4], [0xc32e693ea545b, 0x363ff953257c4, 0x6bb224e619cf6, 0x4725d9b6cc315, 0x28d022032739e]⟩,
   ⟨[0x130ffbdda7b5b, 0x8b75f47aa474, 0x704583aa71b9f, 0x3f123bf1718, 0xc86888da8826], [0x1e99131ee0cc8, 0x15bd0e81c213f, 0x60db057c2d8c7, 0x3931f8cdbd796, 0xb711d1643aba], [0xcae2e3bd0339c, 0x535fe10f2b9b9, 0x3bac64d32897b, 0x2e04fbe091647, 0x69d6bfb6020f3]⟩,
   ⟨[0x3bf20fbf44c75, 0x3dfdf8aa48e71, 0x755e830f9348a, 0x4dcf2fbc753a0, 0x563c950ded5e7], [0x95173064904b2, 0x1ad16621a4f26, 0x190ebca98f19, 0x25c88e57e353d, 0x7235c78dde09a], [0xab2477b99c193, 0x787d92e572642, 0x254ae25cb36b6, 0x14ff7f61a68ba, 0x2ae23c86da540]⟩,
   ⟨[0xaa69fc65b55ee, 0x602bfeb958d5e, 0x41b4d60aac3e7, 0x6e4587652a12a, 0x538d39db42ea9], [0xa78e9fae803aa, 0x50f1f50c82ccf, 0x690c7b716417, 0x9e9b33d5b1f8, 0x46ad0d9b59a8e], [0xe0fb21ca97546, 0x796398b48aa4b, 0x5bfe2e571682e, 0x79b204c96268f, 0x36514fc4f006a]⟩,
   ⟨[0xab6adda89e077, 0x456219e30b23f, 0x73df2b5b296a7, 0x7416cf096b608, 0x506faf22f148f], [0x4d01231b41f08, 0x4e0de454c9d9, 0x1c359ea53295f, 0x5c16ffe73d620, 0x1fd9a40888d64], [0x82dd110eaa0da, 0x2885d3b8fb45f, 0x7aad0c23075a0, 0x13bf01df39a9, 0x25ffc049c3bb]⟩,
   ⟨[0x188b1dc7cfbb3, 0x73b99a1ad10ba, 0x799a4c5f58a95, 0x5036a5f90050d, 0x7a61558c47079], [0x8e5b50fc0616e, 0x6be2b98b6bab1, 0x214a72d8a4d1e, 0x761e21c815e1a, 0x3d750b6148769], [0xa9f7e8d06e7c1, 0x28f98763eef5, 0x79ea1fd1de978, 0x21613ca3bb40b, 0x70e4362c5401c]⟩,
   ⟨[0x9d08b1089b486, 0x165f2fbd68266, 0x35e25aa132009, 0x44f5f944f1d77, 0x25f71b14da654], [0xbd353769ce1f9, 0x6fa3f3dddc54c, 0x2b84c2ec34b40, 0x2bc5399680fe7, 0x77df80d7d51a4], [0x4e2691b0328f3, 0x50f4537961493, 0x44e2c41c84dca, 0x52b780efdcd69, 0x5376f2a050e19]⟩],
  [⟨[0xda03985f38262, 0x37d5f62914a3c, 0x793b68f7811a9, 0x32b90bcd39ce3, 0x75aa44fe7e19c], [0xf05ab91a2b12a, 0x59af4f8982c00, 0x48cce588ae51a, 0x49e4c670bbe65, 0x6b3d82691a651], [0x8f5698465745b, 0x75be3eb74331d, 0x737d69788ee86, 0x62141377dce86, 0x6efbef11283cc]⟩,
   ⟨[0xfb2d42c8285af, 0x6fd40664a5490, 0x57f0694d97426, 0x2a7a28b3356da, 0x28920886af6ec], [0xa8c24c0bf2760, 0x68c3ec242bf3a, 0xce0d0e1b7f97, 0x61c58fabecf34, 0x4ca319e801fd], [0x325de46c5736b, 0x468915384c263, 0x6347a5799363c, 0x7210bb1344417, 0x11e398c2404cc]⟩,
   ⟨[0x6351562580ed8, 0x6220aa1c9d62b, 0x1cdf640634049, 0x2fa7088b01b0a, 0x19acca28277ee], [0xc65b688ebf493, 0x5b03149c63ae5, 0x6afa8197c4fd1, 0x2d0da5c748e78, 0x662c002d4d15f], [0x1118b8cbbb7e7, 0x4cbab82fd2bf5, 0x2348b0ce469a5, 0x23eb3398a797e, 0x4e228589713e3]⟩,
   ⟨[0xb4e4d027c85c, 0xd803053da772, 0x65984bb60a337, 0x7dc2376f7272a, 0xe9430e355ba4], [0xa8e389d48606f, 0x21f690aa2dbc8, 0x142274abc9f41, 0x72bf593710713, 0x2fd7f4ae2ee22], [0xbf1c20ddd2691, 0x5411630c2a271, 0x2d6c2990baf6c, 0x16e01e690e20c, 0xe8f8ffa954ec]⟩,
   ⟨[0x5a3ab6dafdfd3, 0xd9d486bdd09a, 0x2d2e51b7c9711, 0x17ce407134280, 0x3ad3997fa1672], [0x3d8f172453802, 0x2317fa3185ec2, 0xba91852e2031, 0x5ec464b3ed108, 0x57c6d8cf0e0fd], [0x8ca2766db4a5b, 0x73d443b130a20, 0x58bf472c3ba39, 0x6f5cc0907c053, 0x3fc5c6f14bd87]⟩,
   ⟨[0x4b65645e73cf6, 0x7c5ab1c053774, 0x5018e4ff1fc18, 0x769511d97d00f, 0x6ad6bd6eaa9e9], [0x46576871857e4, 0x215aa0839b591, 0x4e1caa9f6a2ca, 0x7ab0f33e726c5, 0x67f4be171aa28], [0x6531996604b7f, 0x453bf42ec79d2, 0x32113012ccea4, 0x6d0b5464300f, 0x2176b1e5d6d50]⟩,
   ⟨[0x1d3c100dc72d5, 0x3654cb2834c97, 0x5e965ac7da69d, 0x78dc0dd9ae1dd, 0x19e21feccaaf3], [0x13c3fdf2b1672, 0x619ed60ad922a, 0x6a134a3138156, 0x74d7a0eb94f4, 0x655b9265ad61e], [0x91d8e2767e0b1, 0x65aefac257813, 0x38076d1470be1, 0x3c981ea0eb22b, 0x15a7a2d75b203]⟩,
   ⟨[0xcc309ea9da550, 0x167109f6b7eea, 0x36256e39c62a5, 0x23fe04a59a8d0, 0x48f3dcfc704e4], [0xdd13d87bc3fd8, 0x1e1039d0c27a5, 0x13884321dfe6c, 0x18df5eb967d7e, 0x27626cda767fd], [0x81a4c254fe9aa, 0x39710cabefe25, 0x1fe4ed0d3af13, 0x36b4c87ae2c9f, 0x11248b666f136]⟩,
   ⟨[0xe797c4cca0b46, 0x549315e592b39, 0x446b1df8247a1, 0x30ed36c5bb7f3, 0x2aa80bb30e10e], [0x987e78a6334cd, 0x21a51601c5bc5, 0x56cb555352f37, 0x225d060db2429, 0x385db17bd6237], [0x2ed3e680a5e84, 0x5712851dfab33, 0x39a12254b9a45, 0x216d42f43eebb, 0x357331598da83]⟩,
   ⟨[0xf7c1d3279d8a5, 0x43f72163137b9, 0x42c3fe876167f, 0x3b0e73c83522a, 0x1db409981c582], [0x122cd3118d65b, 0x71763f291c87a, 0x561465c8b3331, 0x4944f4c61c7fd, 0x2aac9443a36db], [0x4d4fa4218c372, 0x76c45e03c77eb, 0x72fb97e90d33, 0x5082cf2079905, 0x2fe26bfd54ffa]⟩,
   ⟨[0x7d19a42e4631a, 0x6571b981a6aec, 0x4d393ae74429a, 0x446a87d160168, 0x3af53bfc0f685], [0x2d55d97b6eb19, 0x39e6461f719f3, 0x190259d2c913d, 0x3c976b6fbf37a, 0x19f876ad4bc35], [0xedf4304b4688b, 0xc939fcac59cd, 0x56bfc00be589d, 0x4b4c590a12ac7, 0x7ef9566506ad0]⟩,
   ⟨[0xa585fe0e0c2e0, 0x18d0780a3ad5b, 0x6dd4f15327657, 0x9ab856fe2440, 0x750f36e6e9b65], [0x8b6024e61bb41, 0x6393f246b2ad3, 0x446af58b6ca59, 0x520765881ca, 0x61089abfd62ab], [0x633226585ece4, 0x76bf57cc213cb, 0x484a01c226640, 0x33c1f700f8fba, 0xb0e1b3037271]⟩,
   ⟨[0x54e468a9efe70, 0x608519fbfbf2d, 0x5333558a69061, 0x4d0d77df73b72, 0x5963db206a396], [0x394333a1e85f3, 0x353c23c03493e, 0xc828a97cb1a5, 0x78c43450120ed, 0x555df3569380f], [0x42efa777c3d87, 0x6535188ceb3f6, 0x711f155e76c84, 0xe3ba9883f418, 0x57a3c7f7eccf3]⟩,
   ⟨[0xb073ef993682f, 0x33f05fa3cce30, 0x68b17d4a39381, 0x4a922a545c066, 0x6f6dae315da70], [0x14d0e6682401a, 0x7ccf46a4dd19b, 0x75f65e59ec735, 0x1444919609445, 0x56dea40cfb96b], [0x16af62d5f1a62, 0x31733b90868f3, 0x6590b06472897, 0x49790acfa5796, 0x3ab09b226b35a]⟩,
   ⟨[0x329065372355e, 0x7ab688b6a2989, 0x45ac32571e188, 0x5840e91dc5d76, 0xa0dfc537909e], [0x5f472964ef0ce, 0x3d2fa150c40c5, 0x7cbf1211260fb, 0x3709955ba6654, 0x217dbdd3d5d0d], [0xa1158c12db2a4, 0x4c90a2b817ca8, 0x61f4b5b3a38ec, 0x380423d6ef40b, 0xb4b0ef2c8f0]⟩,
   ⟨[0x28d6e002bca29, 0x7a3997d7d546a, 0x5d8c776975959, 0x317399d2025e, 0x754b217e301a9], [0x2cde1681e8828, 0x380f9fc21b2ab, 0x3ad0f0dc0117, 0x3d01c67cec59b, 0x39049c45c39c8], [0xce99521aeeab, 0x3b4c67c5b669c, 0xe043a30ee5b7, 0x3f0c4e94f62cf, 0x1ab4f30e0a8f5]⟩],
  [⟨[0xdc91f212ab480, 0x5945e1877e8ec, 0x13573e60d6704, 0x69d9c4a961ca2, 0x3de09ec8a48af], [0xe81e566bffa33, 0x33e06b06e4111, 0x2d32a23297afd, 0x5f9bfce126ac6, 0x1ff61c1a88d8e], [0x8d3ec31cfc3ee, 0x46d8793eab63, 0xc143a50bccdc, 0x6eab8519d9bad, 0x74830bd46d5b4]⟩,
   ⟨[0x574a2032b148, 0x4328cba692c33, 0x232f42d123335, 0x181def8ead0dd, 0x451e2578c52d5], [0x695c6731f0527, 0x5cd46b5c17880, 0x15eaa924d0904, 0x7f6fb72e84d0, 0xceb928afdbbd], [0x4d3626ff5b12c, 0x51fe69ca7f94b, 0x772203cee99e4, 0x5f1fac7e8c081, 0x3e578a1665444]⟩,
   ⟨[0xb298801b1fe77, 0x2586b0ce008ac, 0x45e778dc50e87, 0xfdcb5f3cc8f7, 0x17c5d39efc586], [0x2a41d8771ba87, 0x4c8102431a7ba, 0xb390ab74c50c, 0x2c546f7c05d4d, 0x6aad492b3116f], [0x8ff03c1367a73, 0x2a4a748616572, 0x605b500cb4a72, 0x5c39bb9bb5b8b, 0x569fe03a16b9f]⟩,
   ⟨[0x275341cbcadf6, 0x430efd84dcc71, 0x22b997fab00f0, 0x30c5632cf0693, 0x2a0826d840314], [0xc11cd5cf6ee57, 0x1257e6308fbb1, 0x2f7ce59284fb8, 0x57dd9bdd3ef59, 0x3452936337369], [0x530b11f6bdda7, 0x7a51865d93007, 0x76b5bc60f0ac9, 0x212f031e350ea, 0x75aed0a2adae]⟩,
   ⟨[0xad78b391bd2d5, 0x3a11abea7ff04, 0x46a25f0f350a4, 0x1543cc7ef57ab, 0x69223d8309eb4], [0xb33ad1f86a15a, 0x36b112a03501b, 0x344a2066d4ef2, 0x55436bd4b9a9d, 0x41a71a942a508], [0x6ff9618f443d0, 0xf3000cb2f1ba, 0x22c2897daade0, 0x4f604c596fcbc, 0x585c83b55aff4]⟩,
   ⟨[0x84b6af7d110a1, 0x1efc9dbbc4234, 0x796661c37007b, 0x10db07259fc43, 0x202355e8495e8], [0xda5e823077c6c, 0x3c9503e1777c0, 0x1a5e4f1ded645, 0xde482043b271, 0x4b4ccc6b33e65], [0x11797174cd365, 0x242d89859cd09, 0x714a4593bd77, 0x51b9197490ae5, 0x6e6a726266ad0]⟩,
   ⟨[0x6163606cf5614, 0x3b9ba82c96535, 0x75e66f7cf6d4, 0x411e3154ec181, 0x29b40d6f2e74b], [0x5d2e429379a65, 0x8b1a72434343, 0x41e8d9808e74a, 0x4f14cb75eb689, 0x4f434008c1b41], [0x67b260be03b58, 0x1eef4691add3a, 0x2850460d0c4ee, 0x5afcc1ffdaa08, 0x3ab9267b9f6dc]⟩,
   ⟨[0xb5389b777649d, 0x1f24dbd666b73, 0x36dfb5de2a31f, 0x5eb994849e227, 0x4279fbfcc1bd4], [0xb7ea950a7028f, 0x732f69e7cf7de, 0x66069e71f3d7b, 0x28033d27359b1, 0x183d3130f9eed], [0xd74ea5e42f626, 0x4b6bc58ea9c64, 0x3c2c8fea82634, 0x2ce04c5b571dd, 0x1e397436718bf]⟩,
   ⟨[0xb7484714f9403, 0x4fc7bf02108db, 0x3678fa400ad90, 0x28ef7c8ac0fe1, 0x504a42505bdef], [0xa0a066abf7fbb, 0x72aec8d4433ce, 0x2a0384b583ec1, 0x2ab91e995640c, 0x169bc2751e588], [0x9eb12660357b5, 0x77a9937fd5e5f, 0x21ff5ce16f36c, 0x1c906df80df41, 0xcc48ba3df0ea]⟩,
   ⟨[0xe23a04eed9e35, 0x4adc00e39212a, 0x17453a70fe352, 0x6d407b1db39b2, 0x5d825f613189b], [0x40b93828fa640, 0x17c0d3d748e6a, 0x3e2bc36916ca3, 0x26f60a9dd3d92, 0x2cb47886c390f], [0x8e7468212d22e, 0x5e3f127fb8644, 0x6c85dfbc55d78, 0x7dfdfc6c531f3, 0x674e26e15bf6b]⟩,
   ⟨[0x742ab1ce45f49, 0x352695906dac7, 0x67d9dd8206042, 0x2a8f523687321, 0x209c2cc3df3f2], [0x582e07dacb336, 0x659136b8b103e, 0x75bfac5e74bd0, 0x30fa01037a173, 0x27a6e9b54a029], [0x10636dc94228f, 0x334f99ad2d208, 0x210ce39bf48fb, 0x5ce98a1d2f02d, 0x7e987948c2c36]⟩,
   ⟨[0x60bd25865cc5a, 0x717975e64b3fd, 0x791116dd316e7, 0x27fc70709e15, 0x14ce5c4b9fed], [0xfcb5ee438e62f, 0x3918bfdf256e1, 0x122bf1c544888, 0x14620d1e4d6be, 0x31786b5d1aa6e], [0xd8369134de3f1, 0x358e513d33827, 0x1ad06806e9f25, 0x7751294480eb8, 0x70e23870117f1]⟩,
   ⟨[0x6f3bcd1b2f70, 0xfa5c78f50611, 0x411c55245b3ee, 0x4944f3f6fc1fb, 0x44a8c001aa25], [0xd4183c7441852, 0x55d95e60582e, 0x7bcde3e7457f2, 0x8c8db0b27127, 0x151434b629450], [0xe723b7f1eceb3, 0x4ad5542379fd9, 0x7ad503d0f9616, 0x7c70002b01072, 0x14758cef08e44]⟩,
   ⟨[0xc404279d4475b, 0x69fdfed5f482d, 0x4dda9a420b9de, 0x442de4fb067ac, 0x11575126c1a87], [0xd4a13ce38dd3, 0x55443d3a075fc, 0x2d0cc46239cd5, 0x37a0d9341be9f, 0x7d72576a16b0e], [0x18f1c0ea31782, 0x17f5c99216478, 0x70b5287151ce4, 0x69d184d521e3f, 0x50b904149ab2a]⟩,
   ⟨[0xb9757956238be, 0x719ef66129c48, 0x3a4a2018a1497, 0x60697b014c86d, 0x4211842cfcbb6], [0xfc466ba4129, 0x5c2c02129fae5, 0x7cc7e722eddb4, 0x463efb0dea9bc, 0x5ceab5704312e], [0x3cb3ef741a489, 0x447c22a9ac8f6, 0x70dc1ac662c00, 0x643fbd84746c4, 0x47ac14bc4be7f]⟩,
   ⟨[0x1f0ed4eab4bf3, 0x3bdbde234efd5, 0x7f9817db30238, 0x5f1ca682e32c5, 0x4ea29a4cb0ac2], [0x119149bbd8ce2, 0x53b67849c8636, 0xee5d57ddf5a8, 0x4acd87314db39, 0x50b40a053eecc], [0xa4ec0c58b1a27, 0x4144223834f69, 0x6c3a5fa7a66c, 0x1e7c747c08629, 0x6c75f05a9ce16]⟩],
  [⟨[0xda9d6805ab8bd, 0x551d3da5834bb, 0x44e2a3c850244, 0x3c161b738b16, 0x16fa62c9d5e85], [0x2a0101add9a68, 0x5f00a8b73a3e, 0x2700c6352ea8b, 0x58f72766d9cf5, 0x786cdd193df0], [0x8ef307292daa3, 0x78a0b85552dda, 0x2b5e21bab14ca, 0x42fbe2b9e130a, 0x6a1ff64b8dfe0]⟩,
   ⟨[0xc37a44368992f, 0x503ad37567295, 0x22d6e783eb997, 0x73209a3fe24d5, 0x61bea701a085e], [0xf79a9906695e1, 0x6563aa33becca, 0x6d9c258571274, 0x2082e0eff1cf3, 0x6858ac5958cd], [0x73b5df922b953, 0x7d833bb16576f, 0x2d7e0952edc43, 0x4c40b62de9061, 0x6802a03bbc4a8]⟩,
   ⟨[0xaa4ff9cd029fb, 0x6a8f58a61b495, 0x76de5aedd2889, 0x418e79fa28a81, 0x4ac6187ba7e86], [0xbb424077e0f78, 0x6be304793dfb9, 0x1d1a8e8b74e8c, 0x400ee04ca634e, 0xd23ee5f7a76a], [0xe8c82769b883d, 0x61ff0a44b7c0c, 0x71c3f9c0c1c14, 0x1a72bc400f4fb, 0x63c977e0c2a2]⟩,
   ⟨[0xb7ea553156cde, 0x4f77ed1da0116, 0x5313d6ab54554, 0x68205e8633d72, 0x4c0f6f5d7aa5b], [0x2ac03322f3abe, 0x13b9db1e063db, 0x1653067e1d575, 0x68fa0726ebed0, 0x56d9bf5f7acb5], [0x8092305f9e607, 0x50ade9dded289, 0x677c866291c9d, 0xa00d6ad82313, 0x204c6129e7a63]⟩,
   ⟨[0xcc52fb8aa29be, 0x1fd5eba86f95, 0x3edee7ee1584c, 0x7a98d872f3541, 0x41bb59c74740d], [0xb91a314979a22, 0x445cc55fa6e68, 0x29a9728593f50, 0x3d453e9bb2bf4, 0x458e9c150c319], [0x8b902f4166f58, 0x8bf4504aefa7, 0x507f7245632d2, 0x46f4236c007fe, 0x5f8b80ab194ef]⟩,
   ⟨[0xe0e279b58d515, 0x494c3fdfb0d3e, 0x6add516425b77, 0xc99f3f472fc4, 0x23c04a4713378], [0x33c225c70b892, 0x5def1b82b20a8, 0x62d4704ca33ef, 0x1505bb87dfbe, 0x18d6306b777e3], [0xa6436a9f762a4, 0x102abb9e7477d, 0x4bd6fa6c8fd0, 0x2e4fad22e39a3, 0x7d2d079a6b2da]⟩,
   ⟨[0xb537bd4e0a6b1, 0x64415199f9972, 0x2d496fa892827, 0x29834d9583ee0, 0x1f325bfc1aee2], [0xbe9617256c790, 0x2301ef1f61c9f, 0x2a218c8615200, 0x60780eed8c6e7, 0x4a46b99106694], [0x37b99b0cab13c, 0x78242ab738b41, 0x18258bbd69e1c, 0x43d3e9a166688, 0x55321313f52d3]⟩,
   ⟨[0x67501a6250f6d, 0x51135cc1db41, 0x5b70caff3b24d, 0x7af6469dab79a, 0x5a486101ff730], [0xb81d6fb3b7613, 0x705f8371de858, 0x4616eeccc6de2, 0x3b624c3d98f88, 0x2580784e014f7], [0x3c6b7855856c3, 0x2acc5bcb17705, 0x4e8da7bc00d1d, 0x6a7af33bbd40a, 0x4ca608c42e191]⟩,
   ⟨[0x14957f896b8dd, 0x2ee29ed7f94c7, 0x6c535fd580d1, 0x7ee5c2c854b58, 0x390b6176cc0a5], [0xd8e851115f82f, 0x57712c2473469, 0x5fed753d7de49, 0x100e99106eb96, 0x32a5894c01232], [0x3f3bd2cbcd3e4, 0x51b2182a69bc1, 0x47f72bdf9d1e5, 0x4386bb2531556, 0x6251703b0886a]⟩,
   ⟨[0xda5b8ddcc32c8, 0x4b6e439859bac, 0x565788b32a991, 0x7da2c259d0efc, 0x26e2bca2f2403], [0x36bd2b233b8df, 0x25ec957d6035, 0x421c4260564f0, 0x24c08f5533b05, 0x4195603852eb3], [0x7b58166f4c3f1, 0x262ccad523d27, 0x2167831f73fa9, 0x2330a70233315, 0x1e997e60115b3]⟩,
   ⟨[0xb11a8a180a2dd, 0x740de93a3b1bb, 0x1a75730e8d6f7, 0x2787677bcd20b, 0x2c62508d0e0e3], [0x193ff85dc4853, 0x6ff8b716f7c95, 0x5695a400f15d0, 0x6fcea3fd445a5, 0x6827935bb527c], [0xe756880792d5c, 0x17c4cbfdcb6f6, 0x3621a1f5ad47b, 0x8acfec1e2f0b, 0x680ee7bd4fdc9]⟩,
   ⟨[0xb22617017ad54, 0x6d79a05652478, 0x78436bb1a4fc2, 0x588c3017aca81, 0x721cfe104d7fc], [0x58f6241221394, 0x3b5cc42f98968, 0x5b8c26df7368c, 0x258033a96e20a, 0x6cdfd92327819], [0xd5f316e441b95, 0x7262aff6c2ad0, 0x615c867b8a858, 0x2304a98935cf1, 0x1c346c9d50fbe]⟩,
   ⟨[0xb8d64e6633e8b, 0x4415800321d6a, 0x112873db9d153, 0x7454e53f98187, 0x6d9c7b5e085f8], [0x8054c9fc0114a, 0x60a1d43700a51, 0x7f536f76dca7b, 0x59a4adea37323, 0x6f027e38f2362], [0x304c8aa59be30, 0x7fe5a68fcf77d, 0x6bde087ab92a0, 0x25e8f669e08c, 0x18e93c6b2c356]⟩,
   ⟨[0x4a344e63d4aca, 0x7c308bc5ed73e, 0x3a32deaf4e9fa, 0x4472f4e854593, 0x47d341d3ddfd], [0x7532d39e9b3bb, 0x217df5a0a7433, 0x74975495e1565, 0x2821d2eef04cf, 0x54fc7406a916f], [0x913f345c8bbff, 0x6989d1646c723, 0x27764f8a16acb, 0x8c125af8d5f, 0x6800fe91196f4]⟩,
   ⟨[0x82c098b00aa79, 0x770b1c497acd1, 0x344fd551b8cce, 0x23f33be497f56, 0x2eaf897898b65], [0x7f51fa8dc697b, 0x74ce3069bbe12, 0x4c428ea0209f5, 0x2f2d8d0bb62c, 0x4e256afa4c76], [0x1d22bde52262, 0x6de17872b5135, 0x66d4bfed89f63, 0x389fdde527f9d, 0xeb2f6e615478]⟩,
   ⟨[0xc58d612641095, 0x54ca77fcc5570, 0x1da1fc218000a, 0x37f0150dc6c3c, 0x22955963ef643], [0x9c17eb03d6ea7, 0x2dddac1318776, 0x4e4b91fa27202, 0x1e2352ab304e3, 0x60a0e261d6691], [0xb576743ffba33, 0x5a197f3afda0c, 0x429dd4fcb8a3f, 0x1af629993f4b3, 0x45eb119867a22]⟩],
  [⟨[0xac144ef178112, 0x94a0264caf23, 0x4a0ac5a24defd, 0x7c7625d1d184e, 0x5737b194a6a86], [0x8f38ec35ee99b, 0x6d9baa844775f, 0x46f84df77b762, 0x2544d6fe58fdc, 0x77b72bb7289fb], [0xdd166d7288c6e, 0x1c67a51da413c, 0x6973c6fad10e1, 0x31de5e5eda939, 0x393f71ed28892]⟩,
   ⟨[0xb1c84eecf7e6b, 0x56a60ac35bab2, 0x2f06df1910a93, 0x618dc5faeb06, 0x1d49317bbbdf6], [0x493f2a36f71d9, 0x40122e257f266, 0x7974d73d3705, 0x1276fd01a753e, 0x756654735ec6a], [0x7db79632dd089, 0x1fe3fa5f4a3f7, 0x1716e3c167a6f, 0x53b6aa21feb09, 0x23ec2880eeb4a]⟩,
   ⟨[0x25a84454ffe86, 0x780f2e547dcdf, 0x701a2c14fded4, 0x4b8a116f259a3, 0x695574e1284bb], [0xd30440055360d, 0x3410b657f1f4, 0x6ee23795c3521, 0x4c9a2f7e3a24b, 0xfd8b32023bd7], [0xae6f82f35ff69, 0x3f3d6f04fb2c4, 0x5f2596e4aacd, 0x7f09e9725486a, 0x62c57118684fb]⟩,
   ⟨[0x71ab6451b13d2, 0x619fa9abfe206, 0x4c28e4e8fa08c, 0x2cee0dac526f3, 0x5f61b37975a6f], [0x15634247f1514, 0x43246c09599e2, 0x502b5c89d4562, 0x55b6e5b70bd64, 0x924e7d2da3a4], [0xdc2a7c58a69b5, 0x7579fcf83b046, 0x490212587acc9, 0x42c0d4fb52dda, 0x6ea269ea5e4ff]⟩,
   ⟨[0xfab3168e74931, 0x9fc282310c8, 0x2e357a087e03b, 0x2e82b3f54812e, 0xa1378335e998], [0x9e98b211cf746, 0x294635069d795, 0x66c9a8a94c197, 0x49dba942cc086, 0x38be03a6f71f4], [0xd42f0fb6c56df, 0x3d1ef830454e8, 0x225cd3f51b513, 0x2f23e7710f71, 0x7ed09816c213d]⟩,
   ⟨[0x475a30d2f95c3, 0x6534daba67c75, 0x5fff4349e9dcf, 0x5741bfe20e51e, 0x7c9c06e28f6db], [0x4c91d367d647c, 0x5db920659e98b, 0x6e2dc6edeae13, 0x45fadddcd7438, 0x6a3d3ccdd5bde], [0x30afb5d712d2, 0x4232a6e545b6f, 0x6cc8095d31e5a, 0x5e95d17b4f93d, 0x640826f938db4]⟩,
   ⟨[0x54e864ae39a36, 0x75453a7420c12, 0x7550fc0647586, 0xce261f056dac, 0x6ec06688237f9], [0x9d858855a118, 0x35d6e1cac4c58, 0x51bc56edb0309, 0x56720925976fa, 0x3095195ec98c0], [0x28453abbcd94c, 0x442bd67826fa, 0x27091b2c7d123, 0x53d5ce098f2df, 0x33b91cbed8c33]⟩,
   ⟨[0x31bb1aec4eb7b, 0x404bd71986fba, 0x789f140f41c34, 0x46319ec635090, 0x62555bcef03fc], [0xb7957af9df20b, 0x61499b0c64744, 0x5a1460ab6f031, 0x254b48fe3b63c, 0x138da1b0b8458], [0x8fc31f72b00c5, 0x9260daf93e82, 0x7724f21722eec, 0x65104b46de00d, 0x5c74c4aade4a1]⟩,
   ⟨[0xc942d7e200cda, 0x4dccf2c9062f8, 0x33c6dc30ef168, 0x5876e586f49f0, 0x5c625124b23d5], [0xaf942f3b8567f, 0x68dd426ed4b8d, 0x74ce2434e2244, 0x5bc01452baf26, 0x68d340aa53e01], [0x62badb88e1fee, 0x1b7927e30590, 0x7fb96eba04357, 0x63c4c5b983654, 0x3cb27c00b0e03]⟩,
   ⟨[0x3a8aba3ba06d8, 0x5183a547a5052, 0x2fa684e05b048, 0x37dc680820759, 0x3a758e398d110], [0xae41d00f8bbe3, 0x7c91843988cee, 0x8ac196646158, 0x4f9ca63f0d300, 0x4ae71f5595151], [0x9c5c331e75b70, 0x34aeb589633e, 0x3a2afa63836a6, 0x71aa62ca57c97, 0x2588d39981664]⟩,
   ⟨[0x2f5861915f134, 0x2e22b903ad5d1, 0x4b62079b373c7, 0x6e593a78a5789, 0x6acfa4114b928], [0x845994c9f8482, 0x18d23ff32cc4e, 0x1ef02a3741210, 0x3a1f60a318f68, 0x74bbe122c022e], [0x235f03b8817cf, 0x4136ec580474b, 0x30b5be4c70bfd, 0x6771287c6a491, 0x4ee10d834f1d6]⟩,
   ⟨[0x9238c49b5b594, 0x6d951d5930d4a, 0x52c92a1704bf4, 0x58049c0061e24, 0x3414a1dfbd8a0], [0x3b17b475f899e, 0xa207f4c1c87f, 0x5dac41647336, 0x17d58bc6fe28, 0x6090a9cb1708], [0xe353df9aed9f, 0x211a100a66400, 0x537f1dbbf53c6, 0x61176c39ff089, 0xed4dd7183518]⟩,
   ⟨[0xd4a93de96cdc1, 0x1c832b89cb8a0, 0x203277525319e, 0x4cee0f6725575, 0x70ed69af9bf53], [0xc17f8baa5aac7, 0x6af4abbdc969f, 0x3a0e69b82101e, 0x6234479d6a63e, 0x2bf20728c2007], [0x63fef01ae2a02, 0x1c86f09fc4af4, 0x69a1de168ebce, 0x63f996efb8433, 0x72a687da051bd]⟩,
   ⟨[0xa8952f3fb5f0c, 0x22194dc688fae, 0x6f9f5064736bf, 0x7a6a4d691b9db, 0x7f5b139e354fb], [0xb63808606e6e, 0x5e413f0fe0384, 0x24fb74a712242, 0x27b1cb73ddc68, 0x6285935149bf9], [0xd30a9d3ac7820, 0x2b97ed3978df1, 0x3681bab9f5289, 0xd844b826d276, 0x784a758f5fdde]⟩,
   ⟨[0x5ef9827213ee3, 0x42f84e4310a41, 0x4a5143748eb06, 0x3190974f9ff92, 0x5016a42c2eb4b], [0xcb993776c25, 0x5e9694bf91df4, 0x56bc66736d688, 0x2ec931ade934b, 0x1a9c364e091bf], [0xe211dc7632283, 0x35be411aeefd3, 0x15dafebccac46, 0x37714aeb785fd, 0x6253cc0a245ff]⟩,
   ⟨[0x29af81a0d1bd2, 0x3b61c799be14, 0x1c03c6426b11a, 0x7f386ec4c5c3c, 0xb2bc5fe81f9e], [0xad04ee82724d3, 0x5b1d7846b04ca, 0x33d35b52bc659, 0x135a47cd22439, 0x7d7b6caea433e], [0x850d32772e3db, 0x582bed8e87c91, 0x198367ae74473, 0x2f5a5839ceae9, 0x2b8174d7564f2]⟩],
  [⟨[0x5f71e4cc72dc5, 0x729408117ff19, 0x309b7a677423d, 0x4839f84c2ab89, 0x8a95ba320e5d], [0x78965fdb1cb39, 0x5f0c0d8298f25, 0x55c4eedd50e22, 0x23dc216e90b73, 0x797d03a50dc08], [0xd4ca0ad220d40, 0x28cd933850d3b, 0x4d7ee3b9c333b, 0x2966d4130006d, 0xfbd61d1e8f9c]⟩,
   ⟨[0x9e516daada87, 0x4ec925bc0eeee, 0x6effba132bceb, 0x724d09dad4807, 0x452c79585b373], [0xf1401f95c5fb5, 0x5a1ce98bcb0cf, 0x216304328d3d2, 0x4bf1910725fc2, 0x4002028e1f6c0], [0xbca6d33fb4af5, 0x699b08cff3d9e, 0xea0cdc3c332c, 0x630f4f9eac5c7, 0x780b9e89d8ffa]⟩,
   ⟨[0xcf75d097a1682, 0x32545e3ac653a, 0x29db14f338894, 0x351894ca83cae, 0x318cec53a3c6a], [0xf2e2d2a2ea810, 0x54dda2c9bb050, 0x290be850e8961, 0x287bc5ebc0bfc, 0x62d4620bb48f9], [0x5a0f8e756c417, 0x4937af0050d8e, 0x3df98e8fbe4f8, 0x73ef8bba04bac, 0x3743a4a505cd5]⟩,
   ⟨[0xac304ddd850c1, 0x116ae8e058e54, 0x3e025c2caaabc, 0x6fc6fe28ac49a, 0x16e67a015dea5], [0xcf3f158429cd, 0x480063b01884b, 0x363368f078be2, 0x504ab7790ba1a, 0x6710350b446fa], [0xd8b8de6397785, 0x188cd6c441a62, 0x4ad0920b22e3c, 0x5021ecf3c72de, 0x3d133001d1ed5]⟩,
   ⟨[0xb60a8c5faf1cd, 0x4c53c423a845b, 0x520a9e9fa2a69, 0x27d388a1f08d1, 0x32396160ec47], [0x38139094fad75, 0x3cd9876593cd5, 0x71333878088e4, 0x201e8433445e6, 0x112302e7408ff], [0xcbfe63fc06ee2, 0x27425b1f20deb, 0x457b85b95b8b5, 0x76df4d98aeafe, 0x4ec884bb0909d]⟩,
   ⟨[0x560becbeede54, 0x355f2a19e2a7b, 0x3ac869895d894, 0x1b3a88faf6472, 0x30150f70f46d2], [0xc4423ab869b40, 0x3a52f86375064, 0x12f5bc0f20340, 0x6ca222c7412d4, 0x32f1254041880], [0x2b2dbab6499a6, 0x11049f2328790, 0x696584124f8e2, 0x142ab6165955e, 0x63e346daef2ed]⟩,
   ⟨[0xd39355730c824, 0x3fc8cac7d5529, 0x51c9605c77f3a, 0x7a2a90b74d60c, 0x6fa2b0304b184], [0x4eb3441c3fcc1, 0x2caccc532f441, 0x5e09acf224276, 0x58a77259116fc, 0xbdc2a63d5387], [0xf8efb7463ffe8, 0x1057ca428a821, 0x4ed380a470ed0, 0x76f49d6cef5f0, 0x3f9d2d6743030]⟩,
   ⟨[0xaf30896cc3ef, 0x201d4df630dba, 0x52e42f5aff8bf, 0xeb77c14acf5, 0x3ca2dfb8c5edf], [0xb5a205b171808, 0x4c56363842d6c, 0x292d70469611a, 0x6d916356cd45a, 0x6b0027cd19fab], [0x22b2713528a82, 0x6e7be33e7cef0, 0x9fc8141f131, 0x150a7927d149, 0x3b14b0da7ff44]⟩,
   ⟨[0x32efed0f84103, 0x19069cdce6f9f, 0x5c6acb2aba640, 0x6c2b81330e238, 0x3a809bba9b370], [0x4be6c8b688b18, 0x1351c261fed04, 0x2c96d1bc48370, 0x1e95e38ff6352, 0x7bead8d5751aa], [0x98f021aa4db09, 0x78cd1dc9071df, 0x605f5c2a08e6a, 0x2e7d15e83ee69, 0xe6b2ff6d9875]⟩,
   ⟨[0x4de5a07c4323e, 0x2d406347b7064, 0x5aa73a0846c15, 0xb5c4d6c73a87, 0x2aa137fbf2494], [0x4685341c33279, 0x82b2b0e321e2, 0x5643452806d72, 0x626ba7990b3af, 0x7cf53b95b4365], [0x13532346149ff, 0x5947c275c07f1, 0x34f1270eb410f, 0x514a7c01bf670, 0x407161b0257a8]⟩,
   ⟨[0x54b5c52ac8719, 0x2d86cbeb0d6b0, 0x4f84a08f1266b, 0x4d65f37b998ef, 0x6c27ce40b4135], [0x7bf812153fc77, 0x5cddd65d79b11, 0x54a7071923ff6, 0x34fbfff7fa918, 0x261a5361256a4], [0xb13bce19aafb7, 0x6d3b746ce4b8f, 0x53a3635869292, 0x7909536e7719b, 0x8eb20d956cc]⟩,
   ⟨[0x65cf97d492c5d, 0x29d9bcee03b91, 0x6041f5a49c183, 0x2f8117a3a828f, 0x369e3dad33df2], [0xd5176a425f79f, 0x343d6ab0de966, 0x64efb5c97c515, 0x2bf9162998a39, 0x50ef13feec9eb], [0x39c0cfd97e85b, 0x770e1ccbb013e, 0x5f03bd9f7d9c2, 0x690f1ee2f80e3, 0x71787d1339a82]⟩,
   ⟨[0xf7f42b80eb7f2, 0x544c8293f8329, 0x122da47640b5d, 0xfeafa087bc4e, 0x59f0bb3b97004], [0x2aa28745cd9b5, 0x7bc8d5cd03005, 0x1422c4b7a9189, 0x282692e6090a7, 0x867b47d33593], [0x3413e422fa5a2, 0x6887164ebb90b, 0x65c5e1bfdb4a4, 0x4b98c578628ee, 0x4e5352f622184]⟩,
   ⟨[0x2549d88e38b2f, 0x4908dead628d9, 0x73e0a2e146d7, 0x664c6fff36209, 0x130159f64a292], [0xb964e8ecbedbe, 0x30e5c798b68b0, 0x4bfd953930a67, 0x7ca03abb678fb, 0x33fef5b3d5b01], [0x98e12ccf396a9, 0x3a8ca995f3788, 0x7482d4e5faac6, 0x31d5a37583fca, 0x6d982702edc91]⟩,
   ⟨[0xbe837a054accb, 0x4ecb51a8ef070, 0x2f2d57b4fcf60, 0x4c1513045fb2b, 0x47770e3380a5b], [0x425bef82d311b, 0x2005d68620dc, 0x7325f0cd3fbe0, 0x4eefb9471e0ec, 0x28f8c67917260], [0xb0a66b88e76e6, 0xf3a2c9da4f2e, 0x1ea49e958d92a, 0x26e1bdbb6e03, 0x5029291e8fb70]⟩,
   ⟨[0xe54c9aeaeccc3, 0x361674ac1790e, 0x6f9f28b87d9e7, 0x18b8d2b452066, 0x7db9345d70fbc], [0xf3df99a78836c, 0x4914d0d5ae148, 0x571ebd41c1239, 0x5a51875241cfb, 0x7336aa1febf60], [0xa212f131fa1a5, 0xd92e88debb89, 0x558bfdaeca4d2, 0x269a780a65dc8, 0x7265543b97c9d]⟩],
  [⟨[0x9be522b9d7f04, 0x4bc705622740b, 0x7e15ea4e4d172, 0x38bd4a6fdedbc, 0x5e8c142089478], [0x48c72edcc8aa4, 0x6c5e6065406fa, 0x6af3701c24620, 0x42ea0f2e70b8f, 0x33dff74481155], [0x852e6a6e72d7c, 0x42b699fef3bf1, 0x5907ee2406991, 0x4d36621fdf916, 0x6d7911c011b7b]⟩,
   ⟨[0xebfe9b94f7a12, 0x4824a85a9ac4b, 0x14eef07d3d55d, 0x513b829b2ae5c, 0x6011380b7d9cc], [0xa21168961eea8, 0x63cbb9ba57577, 0x6606b05ef2134, 0x6b72a1d536e54, 0x661849203e9cc], [0x4c06869aea3d6, 0x21f578255baf7, 0x67d1096e12882, 0x50b150bd416a4, 0x2910322ac87cd]⟩,
   ⟨[0x644d63db19259, 0x547c0fca86c59, 0x7a198d5d3faee, 0x1e28699860365, 0xefe6732aba42], [0x888204c12f590, 0x1c8e5f2bff85c, 0x1772af32270bc, 0x5d962eaab3158, 0x1a34ab97418fb], [0x8d80bbc8528cc, 0x241d41b76d92e, 0x4513fe5b63ee3, 0x62d1b5de35ce4, 0x5157c5e57c598]⟩,
   ⟨[0xbdb25be3a9fd2, 0x302ed2946793f, 0x12c506ef80331, 0x6d13e5deca318, 0x1a5df0e20f25], [0xbc9fc9ff75df0, 0xbf1c056f5479, 0x36e0e95e2cf70, 0x58a068da69d3d, 0x1555fc948f50d], [0x998a0950c1a1c, 0x5358898a6636e, 0x1cc47b1220d25, 0x7e929e197b7f1, 0x6fe5d94bc2454]⟩,
   ⟨[0xeabc2eb1d0b59, 0x7a05c59336123, 0x7918ff8448b64, 0x57a94a01cab48, 0x2ff15b4cc7487], [0x8799019aecd9, 0x3d8f58ac75312, 0xd4a7df2730c1, 0x5e75d83b3fac3, 0x7180e7e60d802], [0x5aef92672cce1, 0x6637504959ca3, 0x53e5589bfa337, 0x3a21a8478ed35, 0x2dd36e5ac50f9]⟩,
   ⟨[0x62df8e260c004, 0x4de30e71b999a, 0x45c3fa066284d, 0x331d9bb25623d, 0x202123595aec6], [0x47a9ff0131346, 0x3a150d3aac3f1, 0x29452c6c88616, 0x7ca8d3ec1a917, 0x6eec72c9a0bf5], [0xf10845a21f448, 0x1aae742835c2, 0x25e4cfb83a17f, 0x7bf8eb92af3ab, 0x699be9783e779]⟩,
   ⟨[0x1dc9c52a66972, 0x2c0b904c59fba, 0x6c89144084c6d, 0x14ab65019cf29, 0x6ea2401ac315], [0xadc23f3836291, 0x2f1ad8c01f7c1, 0x205df0c8922cf, 0x1751fc5aeb310, 0x6f64db4075476], [0xf82f426a80ae1, 0x13c4a6e62fc16, 0x1fbcdf27e0b34, 0x78e30b91ef3e6, 0x59cbea565341]⟩,
   ⟨[0x62cb978126a51, 0x4e2e7313211fe, 0x66e6e57eed552, 0x9ae384794ac9, 0x77726f8ab9c55], [0x6d6c6c9e72c58, 0x69723c749ea4f, 0x5631bcf116547, 0x4e31fab9d03a6, 0x2b7f538841ee2], [0xbd957a2809d3c, 0x317f1dc4351fd, 0x701ba3438d796, 0x9fbd6563ec5d, 0x3e98abe5b2f47]⟩,
   ⟨[0xae4190e276a10, 0x1ffb966b8121d, 0x4feeda4d78b7e, 0x5db20d5551162, 0x30dc06ef26e4d], [0xa970255208159, 0x1a104788b4aef, 0x4d4c840be3be, 0x6bd8a71949a6c, 0x651c9ff191728], [0xa44663267d2a4, 0x1fc0cab11e883, 0x785a12de63089, 0x6ec9e0189600, 0x375bf7e8ab1b8]⟩,
   ⟨[0xbffbbc3b4ce41, 0x3376a2003a823, 0x91ebf7910590, 0x61fb8363dca05, 0x42807bc01ad4e], [0xacf6d9a5c7646, 0x560f4b3ae3dc2, 0x183ccae76bd95, 0x65764db513046, 0x214f42294e850], [0xf3edc763536b, 0x4e9d5ef6b046e, 0x150d442c37994, 0x1b54e80de1472, 0x7a1d71edf00c]⟩,
   ⟨[0x87407dba8e90b, 0x7e1c66322205f, 0x4fac245accd04, 0x2b13b4e297d86, 0x323b2d23aedae], [0x9941b92e19a5c, 0x195bc242e04db, 0x7cbd2df69ff04, 0x7ca419cc6c1ba, 0x2904a1b8ddf4f], [0x40957907bf307, 0x15c68151c4fe7, 0x3dd3f01fb8e0f, 0x3d31c808fc101, 0x66f1f09c544bb]⟩,
   ⟨[0x3f8a6a6c266c9, 0x1000a75d2d728, 0x149100c338128, 0x48cb6ed6d33b4, 0x69b7380105c27], [0xbbca015bd1302, 0x453e91ef883c4, 0x87a2c55564f3, 0x28661dd26634d, 0x504737350eb4], [0x3ae59a5b3d5e2, 0x1545256aa2218, 0x64a0782a0bf22, 0x365507c34b4aa, 0x32799b2146183]⟩,
   ⟨[0x3d6dbfb2dfb8b, 0x22df9277f3ecf, 0xc42749a48685, 0x1b0e7b30b31b5, 0x75ebf4439768d], [0x39f41ce757e5c, 0x7f8600191731b, 0x6b2813e3967f5, 0x15d1ce8e34a7e, 0x72fbc1f6f13d8], [0x4f6cf2e028861, 0x20f869603abde, 0x42a4aa3f9daab, 0x4a8c0ac2a2950, 0x4b1809e50b53c]⟩,
   ⟨[0x62dda4c355837, 0x2f17314e1ee8d, 0x78ebcb6e2323e, 0x4543455d081fd, 0x791c9da3066c1], [0x7aea83d07ca0e, 0x601d3c4bbca6c, 0x438ecd2eb6b9e, 0x5fe33d87d61c1, 0x2c2cd6f6ef8d2], [0x2daec4b332c81, 0x600000f256a01, 0x647117d50194b, 0x2a7d5456f092c, 0x398a204ac0606]⟩,
   ⟨[0x76419370ec4a0, 0x12369939759b2, 0x23b2960fd0ee0, 0x7af17db515e9b, 0x2cc3165ddfc91], [0x5ee1c6281cbb1, 0x60699623d7d65, 0xf3d85c23d284, 0x18587e7669d1, 0x227aaf5d77845], [0x153114adb9fc3, 0x164f7102a9765, 0x6e7834d58bee3, 0x6f111f5e5acb0, 0x162cf7addffca]⟩,
   ⟨[0x55d7c37a14eac, 0x5223ee335640c, 0x291b30c58f170, 0x23a4eb047d54f, 0x2c3dda0af63cb], [0xc4c6ef153a948, 0x4c4867916ba5, 0x35be98811b8e0, 0x4f3937f720308, 0x41ac616b68b67], [0xd47d0742c184d, 0x63d7733eda001, 0x609767ec0e926, 0x6c3f5d59b36d0, 0x4b14dd7938c89]⟩]]

/-- `lut_cmb[j][k]`. -/
def lut_cmb (j k : Nat) : AffE (List Nat) := (lut_data.getD j []).getD k ⟨[], [], []⟩

end Gost.Ecp_tc26_256_paramSetA
