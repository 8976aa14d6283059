import Verif.Model.FiatField

/-!
# The functions, constants and table of `/repo/ecp_id_GostR3410_2001_CryptoPro_A_ParamSet.c`

64 bit version of the file (`__SIZEOF_INT128__` is defined).  Generated by `tools/mkfiat.py`, statement by statement;
see `Verif/Model/Fiat.lean` for the meaning.  All line numbers refer to this file.
-/

namespace Gost.Ecp_CryptoPro_A

set_option maxRecDepth 100000

/-- `fiat_id_GostR3410_2001_CryptoPro_A_ParamSet_carry_mul`, lines 274-426. -/
def carry_mul : CProg := ⟨[
  .set (.mul 128 (.c 0x269) (.mul 128 (.a 4) (.b 4))), .set (.mul 128 (.c 0x269) (.mul 128 (.a 4) (.b 3))),
  .set (.mul 128 (.c 0x269) (.mul 128 (.a 4) (.b 2))), .set (.mul 128 (.c 0x269) (.mul 128 (.mul 128 (.a 4) (.b 1)) (.c 2))),
  .set (.mul 128 (.c 0x269) (.mul 128 (.a 3) (.b 4))), .set (.mul 128 (.c 0x269) (.mul 128 (.a 3) (.b 3))),
  .set (.mul 128 (.c 0x269) (.mul 128 (.mul 128 (.a 3) (.b 2)) (.c 2))), .set (.mul 128 (.c 0x269) (.mul 128 (.a 2) (.b 4))),
  .set (.mul 128 (.c 0x269) (.mul 128 (.mul 128 (.a 2) (.b 3)) (.c 2))),
  .set (.mul 128 (.c 0x269) (.mul 128 (.mul 128 (.a 1) (.b 4)) (.c 2))), .set (.mul 128 (.a 4) (.b 0)),
  .set (.mul 128 (.a 3) (.mul 64 (.b 1) (.c 2))), .set (.mul 128 (.a 3) (.b 0)), .set (.mul 128 (.a 2) (.mul 64 (.b 2) (.c 2))),
  .set (.mul 128 (.a 2) (.mul 64 (.b 1) (.c 2))), .set (.mul 128 (.a 2) (.b 0)), .set (.mul 128 (.a 1) (.mul 64 (.b 3) (.c 2))),
  .set (.mul 128 (.a 1) (.mul 64 (.b 2) (.c 2))), .set (.mul 128 (.a 1) (.mul 64 (.b 1) (.c 2))), .set (.mul 128 (.a 1) (.b 0)),
  .set (.mul 128 (.a 0) (.b 4)), .set (.mul 128 (.a 0) (.b 3)), .set (.mul 128 (.a 0) (.b 2)), .set (.mul 128 (.a 0) (.b 1)),
  .set (.mul 128 (.a 0) (.b 0)), .set (.add 128 (.x 25) (.add 128 (.x 10) (.add 128 (.x 9) (.add 128 (.x 7) (.x 4))))),
  .set (.shr (.x 26) 52), .set (.cast 64 (.and (.x 26) (.c 0xfffffffffffff))),
  .set (.add 128 (.x 21) (.add 128 (.x 17) (.add 128 (.x 14) (.add 128 (.x 12) (.x 11))))),
  .set (.add 128 (.x 22) (.add 128 (.x 18) (.add 128 (.x 15) (.add 128 (.x 13) (.x 1))))),
  .set (.add 128 (.x 23) (.add 128 (.x 19) (.add 128 (.x 16) (.add 128 (.x 5) (.x 2))))),
  .set (.add 128 (.x 24) (.add 128 (.x 20) (.add 128 (.x 8) (.add 128 (.x 6) (.x 3))))), .set (.add 128 (.x 27) (.x 32)),
  .set (.shr (.x 33) 51), .set (.cast 64 (.and (.x 33) (.c 0x7ffffffffffff))), .set (.add 128 (.x 34) (.x 31)), .set (.shr (.x 36) 51),
  .set (.cast 64 (.and (.x 36) (.c 0x7ffffffffffff))), .set (.add 128 (.x 37) (.x 30)), .set (.cast 64 (.shr (.x 39) 51)),
  .set (.cast 64 (.and (.x 39) (.c 0x7ffffffffffff))), .set (.add 128 (.x 40) (.x 29)), .set (.cast 64 (.shr (.x 42) 51)),
  .set (.cast 64 (.and (.x 42) (.c 0x7ffffffffffff))), .set (.mul 128 (.c 0x269) (.x 43)), .set (.add 128 (.x 28) (.x 45)),
  .set (.cast 64 (.shr (.x 46) 52)), .set (.cast 64 (.and (.x 46) (.c 0xfffffffffffff))), .set (.add 64 (.x 47) (.x 35)),
  .set (.cast 8 (.shr (.x 49) 51)), .set (.and (.x 49) (.c 0x7ffffffffffff)), .set (.add 64 (.x 50) (.x 38))], [48, 51, 52, 41, 44]⟩

/-- `fiat_id_GostR3410_2001_CryptoPro_A_ParamSet_carry_square`, lines 438-554. -/
def carry_square : CProg := ⟨[
  .set (.mul 64 (.a 4) (.c 0x269)), .set (.mul 64 (.x 1) (.c 2)), .set (.mul 64 (.a 4) (.c 2)), .set (.mul 64 (.a 3) (.c 0x269)),
  .set (.mul 64 (.x 4) (.c 2)), .set (.mul 64 (.a 3) (.c 2)), .set (.mul 64 (.a 2) (.c 2)), .set (.mul 64 (.a 1) (.c 2)),
  .set (.mul 128 (.a 4) (.x 1)), .set (.mul 128 (.a 3) (.x 2)), .set (.mul 128 (.a 3) (.x 4)), .set (.mul 128 (.a 2) (.x 2)),
  .set (.mul 128 (.a 2) (.mul 64 (.x 5) (.c 2))), .set (.mul 128 (.a 2) (.mul 64 (.a 2) (.c 2))),
  .set (.mul 128 (.a 1) (.mul 64 (.x 2) (.c 2))), .set (.mul 128 (.a 1) (.mul 64 (.x 6) (.c 2))),
  .set (.mul 128 (.a 1) (.mul 64 (.x 7) (.c 2))), .set (.mul 128 (.a 1) (.mul 64 (.a 1) (.c 2))), .set (.mul 128 (.a 0) (.x 3)),
  .set (.mul 128 (.a 0) (.x 6)), .set (.mul 128 (.a 0) (.x 7)), .set (.mul 128 (.a 0) (.x 8)), .set (.mul 128 (.a 0) (.a 0)),
  .set (.add 128 (.x 23) (.add 128 (.x 15) (.x 13))), .set (.shr (.x 24) 52), .set (.cast 64 (.and (.x 24) (.c 0xfffffffffffff))),
  .set (.add 128 (.x 19) (.add 128 (.x 16) (.x 14))), .set (.add 128 (.x 20) (.add 128 (.x 17) (.x 9))),
  .set (.add 128 (.x 21) (.add 128 (.x 18) (.x 10))), .set (.add 128 (.x 22) (.add 128 (.x 12) (.x 11))), .set (.add 128 (.x 25) (.x 30)),
  .set (.shr (.x 31) 51), .set (.cast 64 (.and (.x 31) (.c 0x7ffffffffffff))), .set (.add 128 (.x 32) (.x 29)), .set (.shr (.x 34) 51),
  .set (.cast 64 (.and (.x 34) (.c 0x7ffffffffffff))), .set (.add 128 (.x 35) (.x 28)), .set (.cast 64 (.shr (.x 37) 51)),
  .set (.cast 64 (.and (.x 37) (.c 0x7ffffffffffff))), .set (.add 128 (.x 38) (.x 27)), .set (.cast 64 (.shr (.x 40) 51)),
  .set (.cast 64 (.and (.x 40) (.c 0x7ffffffffffff))), .set (.mul 128 (.c 0x269) (.x 41)), .set (.add 128 (.x 26) (.x 43)),
  .set (.cast 64 (.shr (.x 44) 52)), .set (.cast 64 (.and (.x 44) (.c 0xfffffffffffff))), .set (.add 64 (.x 45) (.x 33)),
  .set (.cast 8 (.shr (.x 47) 51)), .set (.and (.x 47) (.c 0x7ffffffffffff)), .set (.add 64 (.x 48) (.x 36))], [46, 49, 50, 39, 42]⟩

/-- `fiat_id_GostR3410_2001_CryptoPro_A_ParamSet_carry`, lines 566-599. -/
def carry : CProg := ⟨[
  .set (.a 0), .set (.add 64 (.shr (.x 1) 52) (.a 1)), .set (.add 64 (.shr (.x 2) 51) (.a 2)), .set (.add 64 (.shr (.x 3) 51) (.a 3)),
  .set (.add 64 (.shr (.x 4) 51) (.a 4)), .set (.add 64 (.and (.x 1) (.c 0xfffffffffffff)) (.mul 64 (.c 0x269) (.shr (.x 5) 51))),
  .set (.add 64 (.cast 8 (.shr (.x 6) 52)) (.and (.x 2) (.c 0x7ffffffffffff))), .set (.and (.x 6) (.c 0xfffffffffffff)),
  .set (.and (.x 7) (.c 0x7ffffffffffff)), .set (.add 64 (.cast 8 (.shr (.x 7) 51)) (.and (.x 3) (.c 0x7ffffffffffff))),
  .set (.and (.x 4) (.c 0x7ffffffffffff)), .set (.and (.x 5) (.c 0x7ffffffffffff))], [8, 9, 10, 11, 12]⟩

/-- `fiat_id_GostR3410_2001_CryptoPro_A_ParamSet_add`, lines 612-629. -/
def add : CProg := ⟨[
  .set (.add 64 (.a 0) (.b 0)), .set (.add 64 (.a 1) (.b 1)), .set (.add 64 (.a 2) (.b 2)), .set (.add 64 (.a 3) (.b 3)),
  .set (.add 64 (.a 4) (.b 4))], [1, 2, 3, 4, 5]⟩

/-- `fiat_id_GostR3410_2001_CryptoPro_A_ParamSet_sub`, lines 642-659. -/
def sub : CProg := ⟨[
  .set (.sub 64 (.add 64 (.c 0x1ffffffffffb2e) (.a 0)) (.b 0)), .set (.sub 64 (.add 64 (.c 0xffffffffffffe) (.a 1)) (.b 1)),
  .set (.sub 64 (.add 64 (.c 0xffffffffffffe) (.a 2)) (.b 2)), .set (.sub 64 (.add 64 (.c 0xffffffffffffe) (.a 3)) (.b 3)),
  .set (.sub 64 (.add 64 (.c 0xffffffffffffe) (.a 4)) (.b 4))], [1, 2, 3, 4, 5]⟩

/-- `fiat_id_GostR3410_2001_CryptoPro_A_ParamSet_opp`, lines 671-688. -/
def opp : CProg := ⟨[
  .set (.sub 64 (.c 0x1ffffffffffb2e) (.a 0)), .set (.sub 64 (.c 0xffffffffffffe) (.a 1)), .set (.sub 64 (.c 0xffffffffffffe) (.a 2)),
  .set (.sub 64 (.c 0xffffffffffffe) (.a 3)), .set (.sub 64 (.c 0xffffffffffffe) (.a 4))], [1, 2, 3, 4, 5]⟩

/-- `fiat_id_GostR3410_2001_CryptoPro_A_ParamSet_from_bytes`, lines 966-1115. -/
def from_bytes : CProg := ⟨[
  .set (.shl 64 (.a 31) 43), .set (.shl 64 (.a 30) 35), .set (.shl 64 (.a 29) 27), .set (.shl 64 (.a 28) 19), .set (.shl 64 (.a 27) 11),
  .set (.shl 64 (.a 26) 3), .set (.shl 64 (.a 25) 46), .set (.shl 64 (.a 24) 38), .set (.shl 64 (.a 23) 30), .set (.shl 64 (.a 22) 22),
  .set (.shl 64 (.a 21) 14), .set (.shl 64 (.a 20) 6), .set (.shl 64 (.a 19) 49), .set (.shl 64 (.a 18) 41), .set (.shl 64 (.a 17) 33),
  .set (.shl 64 (.a 16) 25), .set (.shl 64 (.a 15) 17), .set (.shl 64 (.a 14) 9), .set (.mul 64 (.a 13) (.c 2)), .set (.shl 64 (.a 12) 44),
  .set (.shl 64 (.a 11) 36), .set (.shl 64 (.a 10) 28), .set (.shl 64 (.a 9) 20), .set (.shl 64 (.a 8) 12), .set (.shl 64 (.a 7) 4),
  .set (.shl 64 (.a 6) 48), .set (.shl 64 (.a 5) 40), .set (.shl 64 (.a 4) 32), .set (.shl 64 (.a 3) 24), .set (.shl 64 (.a 2) 16),
  .set (.shl 64 (.a 1) 8), .set (.a 0), .set (.add 64 (.x 31) (.x 32)), .set (.add 64 (.x 30) (.x 33)), .set (.add 64 (.x 29) (.x 34)),
  .set (.add 64 (.x 28) (.x 35)), .set (.add 64 (.x 27) (.x 36)), .set (.add 64 (.x 26) (.x 37)), .set (.and (.x 38) (.c 0xfffffffffffff)),
  .set (.cast 8 (.shr (.x 38) 52)), .set (.add 64 (.x 25) (.x 40)), .set (.add 64 (.x 24) (.x 41)), .set (.add 64 (.x 23) (.x 42)),
  .set (.add 64 (.x 22) (.x 43)), .set (.add 64 (.x 21) (.x 44)), .set (.add 64 (.x 20) (.x 45)), .set (.and (.x 46) (.c 0x7ffffffffffff)),
  .set (.cast 8 (.shr (.x 46) 51)), .set (.add 64 (.x 19) (.x 48)), .set (.add 64 (.x 18) (.x 49)), .set (.add 64 (.x 17) (.x 50)),
  .set (.add 64 (.x 16) (.x 51)), .set (.add 64 (.x 15) (.x 52)), .set (.add 64 (.x 14) (.x 53)), .set (.add 64 (.x 13) (.x 54)),
  .set (.and (.x 55) (.c 0x7ffffffffffff)), .set (.cast 8 (.shr (.x 55) 51)), .set (.add 64 (.x 12) (.x 57)),
  .set (.add 64 (.x 11) (.x 58)), .set (.add 64 (.x 10) (.x 59)), .set (.add 64 (.x 9) (.x 60)), .set (.add 64 (.x 8) (.x 61)),
  .set (.add 64 (.x 7) (.x 62)), .set (.and (.x 63) (.c 0x7ffffffffffff)), .set (.cast 8 (.shr (.x 63) 51)), .set (.add 64 (.x 6) (.x 65)),
  .set (.add 64 (.x 5) (.x 66)), .set (.add 64 (.x 4) (.x 67)), .set (.add 64 (.x 3) (.x 68)), .set (.add 64 (.x 2) (.x 69)),
  .set (.add 64 (.x 1) (.x 70))], [39, 47, 56, 64, 71]⟩

/-- `fiat_id_GostR3410_2001_CryptoPro_A_ParamSet_to_bytes`, lines 737-954. -/
def to_bytes : CProg := ⟨[
  .sbb 64 52 (.c 0) (.a 0) (.c 0xffffffffffd97), .sbb 64 51 (.x 2) (.a 1) (.c 0x7ffffffffffff),
  .sbb 64 51 (.x 4) (.a 2) (.c 0x7ffffffffffff), .sbb 64 51 (.x 6) (.a 3) (.c 0x7ffffffffffff),
  .sbb 64 51 (.x 8) (.a 4) (.c 0x7ffffffffffff), .cmov 64 (.x 10) (.c 0) (.c 0xffffffffffffffff),
  .adc 64 52 (.c 0) (.x 1) (.and (.x 11) (.c 0xffffffffffd97)), .adc 64 51 (.x 13) (.x 3) (.and (.x 11) (.c 0x7ffffffffffff)),
  .adc 64 51 (.x 15) (.x 5) (.and (.x 11) (.c 0x7ffffffffffff)), .adc 64 51 (.x 17) (.x 7) (.and (.x 11) (.c 0x7ffffffffffff)),
  .adc 64 51 (.x 19) (.x 9) (.and (.x 11) (.c 0x7ffffffffffff)), .set (.shl 64 (.x 20) 5), .set (.shl 64 (.x 18) 2),
  .set (.shl 64 (.x 16) 7), .set (.shl 64 (.x 14) 4), .set (.cast 8 (.and (.x 12) (.c 0xff))), .set (.shr (.x 12) 8),
  .set (.cast 8 (.and (.x 27) (.c 0xff))), .set (.shr (.x 27) 8), .set (.cast 8 (.and (.x 29) (.c 0xff))), .set (.shr (.x 29) 8),
  .set (.cast 8 (.and (.x 31) (.c 0xff))), .set (.shr (.x 31) 8), .set (.cast 8 (.and (.x 33) (.c 0xff))), .set (.shr (.x 33) 8),
  .set (.cast 8 (.and (.x 35) (.c 0xff))), .set (.cast 8 (.shr (.x 35) 8)), .set (.add 64 (.x 25) (.x 37)),
  .set (.cast 8 (.and (.x 38) (.c 0xff))), .set (.shr (.x 38) 8), .set (.cast 8 (.and (.x 40) (.c 0xff))), .set (.shr (.x 40) 8),
  .set (.cast 8 (.and (.x 42) (.c 0xff))), .set (.shr (.x 42) 8), .set (.cast 8 (.and (.x 44) (.c 0xff))), .set (.shr (.x 44) 8),
  .set (.cast 8 (.and (.x 46) (.c 0xff))), .set (.shr (.x 46) 8), .set (.cast 8 (.and (.x 48) (.c 0xff))), .set (.cast 8 (.shr (.x 48) 8)),
  .set (.add 64 (.x 24) (.x 50)), .set (.cast 8 (.and (.x 51) (.c 0xff))), .set (.shr (.x 51) 8), .set (.cast 8 (.and (.x 53) (.c 0xff))),
  .set (.shr (.x 53) 8), .set (.cast 8 (.and (.x 55) (.c 0xff))), .set (.shr (.x 55) 8), .set (.cast 8 (.and (.x 57) (.c 0xff))),
  .set (.shr (.x 57) 8), .set (.cast 8 (.and (.x 59) (.c 0xff))), .set (.shr (.x 59) 8), .set (.cast 8 (.and (.x 61) (.c 0xff))),
  .set (.shr (.x 61) 8), .set (.cast 8 (.and (.x 63) (.c 0xff))), .set (.cast 8 (.shr (.x 63) 8)), .set (.add 64 (.x 23) (.x 65)),
  .set (.cast 8 (.and (.x 66) (.c 0xff))), .set (.shr (.x 66) 8), .set (.cast 8 (.and (.x 68) (.c 0xff))), .set (.shr (.x 68) 8),
  .set (.cast 8 (.and (.x 70) (.c 0xff))), .set (.shr (.x 70) 8), .set (.cast 8 (.and (.x 72) (.c 0xff))), .set (.shr (.x 72) 8),
  .set (.cast 8 (.and (.x 74) (.c 0xff))), .set (.shr (.x 74) 8), .set (.cast 8 (.and (.x 76) (.c 0xff))), .set (.cast 8 (.shr (.x 76) 8)),
  .set (.add 64 (.x 22) (.x 78)), .set (.cast 8 (.and (.x 79) (.c 0xff))), .set (.shr (.x 79) 8), .set (.cast 8 (.and (.x 81) (.c 0xff))),
  .set (.shr (.x 81) 8), .set (.cast 8 (.and (.x 83) (.c 0xff))), .set (.shr (.x 83) 8), .set (.cast 8 (.and (.x 85) (.c 0xff))),
  .set (.shr (.x 85) 8), .set (.cast 8 (.and (.x 87) (.c 0xff))), .set (.shr (.x 87) 8), .set (.cast 8 (.and (.x 89) (.c 0xff))),
  .set (.cast 8 (.shr (.x 89) 8))], [26, 28, 30, 32, 34, 36, 39, 41, 43, 45, 47, 49, 52, 54, 56, 58, 60, 62, 64, 67, 69, 71, 73, 75, 77, 80, 82, 84, 86, 88, 90, 91]⟩

/-- `fiat_id_GostR3410_2001_CryptoPro_A_ParamSet_inv`, lines 1125-1180; the variables are 0 = t1, 0 = output, 1 = acc, 2 = t2, 3 = t4, 4 = t8, 5 = t16, 6 = t32, 7 = t64, 8 = t80, 9 = t82, 10 = t164, 11 = t246. -/
def inv : List InvStep := [.sq 1 0 1, .mul 2 1 0, .sq 1 2 1, .sq 1 1 1, .mul 3 1 2, .sq 1 3 1, .sq 1 1 3, .mul 4 1 3, .sq 1 4 1, .sq 1 1 7,
  .mul 5 1 4, .sq 1 5 1, .sq 1 1 15, .mul 6 1 5, .sq 1 6 1, .sq 1 1 31, .mul 7 1 6, .sq 1 7 1, .sq 1 1 15, .mul 8 1 5,
  .sq 1 8 1, .sq 1 1 1, .mul 9 1 2, .sq 1 9 1, .sq 1 1 81, .mul 10 1 9, .sq 1 10 1, .sq 1 1 81, .mul 11 1 9, .sq 1 11 1,
  .sq 1 1 2, .mul 1 1 2, .sq 1 1 3, .mul 1 1 0, .sq 1 1 2, .mul 1 1 0, .sq 1 1 2, .mul 0 1 0]

/-- The constants, lines: `const_one` 1184-1187, `const_b` 1189-1192; the file has no others. -/
def consts : FiatConsts where
  one := [1, 0, 0, 0, 0]
  a := [0, 0, 0, 0, 0]
  b := [0xa6, 0, 0, 0, 0]
  b3 := [0, 0, 0, 0, 0]
  d := [0, 0, 0, 0, 0]
  S := [0, 0, 0, 0, 0]
  T := [0, 0, 0, 0, 0]

/-- The functions of the file. -/
def file : FiatSol where
  carry_mul := carry_mul
  carry_square := carry_square
  carry := carry
  add := add
  sub := sub
  opp := opp
  from_bytes := from_bytes
  to_bytes := to_bytes
  inv := inv
  limbs := 5
  consts := consts

/-- `lut_cmb`, lines 1195-3057. -/
def lut_data : List (List (AffW (List Nat))) := [
  [⟨[1, 0, 0, 0, 0], [0xcc99c9e9f1e14, 0x2ddf23e3b122a, 0x27e56ec6a529e, 0x73689f7d41691, 0x46c8f238f04c4]⟩,
   ⟨[0x8e38e38e38d2c, 0x38e38e38e38e3, 0x471c71c71c71c, 0x38e38e38e38e3, 0x471c71c71c71c], [0x117796b788a51, 0x4c838768e8486, 0x74d9b0424cf52, 0x41075366ebd41, 0x3b5e68e54d11d]⟩,
   ⟨[0x1c387172c029, 0x4279b488f6f02, 0x4f05e34b15ad6, 0x258f0da65a32d, 0x483b001f0c3c7], [0x4823b068d7cc0, 0xc7fd37b58763, 0x67ed904b1d771, 0x1d38686a8a56b, 0x484b93d728ea1]⟩,
   ⟨[0x8ea01e4196ee1, 0x34905bf5b297a, 0x7447c611bef5e, 0x1829ae7d7adb, 0x17eec8ca66b06], [0xc10c4d0125fb, 0x20a9f3f3a624, 0x27103cef472d6, 0xb8216e293d29, 0xe3fa5a98c242]⟩,
   ⟨[0x7a462275ecda3, 0x18c170dfcb702, 0x241e756e56216, 0x771f4f24a295d, 0x5b7cb06f71a0f], [0x328ad395ed26a, 0x1caf70a8e7168, 0xff8be664695f, 0x7e4184137ae67, 0x69dfb4a32d69e]⟩,
   ⟨[0x22f3d1a834086, 0x41eca3623b485, 0x674297e63115c, 0x406c9c5d3f28f, 0x31ee39c279cee], [0x53f08bbc2ff84, 0x468767960b588, 0x495e5ad5f0d51, 0x7102439db689c, 0x64070b2980d03]⟩,
   ⟨[0x62e8f3cbbcccd, 0x4bff4eefaa5b5, 0x6c21a84538998, 0x7a46150b4d83d, 0x28c30c35cb4dc], [0x9ebbd29c26cb2, 0x7baf9c97927a1, 0xf1391b4f0f65, 0x1a44160ee4057, 0x1eadea8b087cc]⟩,
   ⟨[0xbd2800f7c58e2, 0x6aa0fc8c17cf8, 0x12b72e124e103, 0x7a22a20c37acd, 0x51583fbf07955], [0xa705e55b12811, 0x77f24806a4501, 0x16cdb1ff83072, 0x1fe2d523f7b40, 0x2b561cd86e47]⟩,
   ⟨[0xdd0548c39a634, 0x7e5c8d222e7f3, 0x77afb529fb66d, 0x7fe6bb0f0e041, 0x1d44ad8e8e1bb], [0x800faca51071c, 0x1b75cb6825594, 0x524055248074a, 0x1fec05998a037, 0x418509ed45ede]⟩,
   ⟨[0x4116786ef5595, 0x2fdc9f0a70af6, 0x1393c9e2010eb, 0x159ce63616097, 0x2c31d8791cb8b], [0x8485469328440, 0x10dbb94ff5733, 0x187e16b5054ce, 0x7a1c20e552236, 0x74b00d96edd39]⟩,
   ⟨[0x21e11c9041497, 0x484a9e464d228, 0x38d73e99fc3a5, 0x37b99e592b813, 0x5f3e5df4c9d8e], [0x369bde19c53ec, 0x6c90bb44ff031, 0x2730c7a423157, 0x4733cd7c2cef1, 0x1779f421c860]⟩,
   ⟨[0x6444b2fc84a66, 0x45cdbbbd00846, 0x3b7859658b40f, 0x6f9c075fa8f30, 0x4c55a76f5abee], [0x9ae065ec53cd0, 0x26684080415be, 0x5aa8d964e4ba5, 0x230b8100d807c, 0x415674003896e]⟩,
   ⟨[0xf7d10028b07c5, 0x1ccb108309571, 0x58d8ce498e384, 0x54aa65a376db0, 0x7f4c660d79dc], [0xff278a9b6438d, 0x4e340fe2bb231, 0x699e71d615994, 0x655479dbe2221, 0x5c130ab3bd570]⟩,
   ⟨[0xc6388b4b53e9c, 0x402286282147, 0x2516cd8798759, 0x7b179435ac419, 0x18cee31a89c76], [0xab9ad0ec3379, 0x65281151de966, 0x71ca903b27001, 0xe28fbcb94233, 0x60976d76a3184]⟩,
   ⟨[0x6d77eb1685c39, 0x3cf8ee0115505, 0x78d2b24ab1841, 0x61b46cb0c6a81, 0x2af8490d4d499], [0x56e3a3305760a, 0x43b60e22b14ee, 0x20c4845cfe0f, 0x3d68ac0f06ca8, 0x722a37e92e49c]⟩,
   ⟨[0xa5f6fecdb7020, 0x42b43e7540e44, 0x2bd2b2059e2fe, 0x631e18bec8a26, 0x580e22efe7168], [0x3035df13c5516, 0x682989776c95e, 0x49780cde914a, 0x182478a356286, 0x2945a3ee07e65]⟩],
  [⟨[0x5a339f915a14b, 0x715d733ba9825, 0x23a52a2a78ca6, 0x5b164eb92a51b, 0x45d9a30b0e65f], [0xadd23f0e6be0f, 0x4271fa00aecff, 0x6f2881fb40864, 0x34a01b35fc99b, 0x58d1d8f643fff]⟩,
   ⟨[0xa0a4c877dd1b7, 0x2b58c866a837, 0x4b11fde6972bd, 0x525d5fef644f2, 0x28801d60d33eb], [0xb74aa40171de8, 0x1482d80e7bb1c, 0x6c7b54bf123bd, 0x44ee83e8aab32, 0x1f0e12809fa9d]⟩,
   ⟨[0x66a9cfb2131c9, 0x1579b4e7d1e27, 0x4032cbc5ccc2f, 0x212394fce5d79, 0x2b5d4452cffbb], [0x6a4c542c01ba9, 0x25184a46bb2da, 0x5344ac81105b, 0xfa6310182db0, 0x5ac302692942]⟩,
   ⟨[0x19d20e0248e22, 0x5ca354c3bcb85, 0x2894dadacb4ec, 0x276f52507a08e, 0x61243f4db4e50], [0xfdf4af08fab34, 0x4350560fccbac, 0x5b2d27bd7791e, 0x38be1b282cedf, 0x645850a8ce169]⟩,
   ⟨[0x568a7c178486c, 0x1f2d08012728c, 0x402de36cab91, 0x709b6dd2bafbb, 0x68f1171227d8d], [0x68279a889ea5b, 0x6e2f73fbcff46, 0x6da5825dc94e7, 0x250f1787a7a74, 0x104623421c27]⟩,
   ⟨[0xb4a1df4b52308, 0x37f70383bce58, 0x5b4b440f91c99, 0x4dfe0e63344a6, 0x3f78adb1149d0], [0x5ee5a5cf1b775, 0x6e82328650cfe, 0x53dbd7cec0ecd, 0x6ad64013c83e3, 0x3baece58084ac]⟩,
   ⟨[0x3535e55fd3bb1, 0x21aa38bd04d1a, 0x30bbc74a0b7b2, 0xd651469a30ea, 0x2beebf0135d98], [0xbe47ea63780dd, 0x7996630e63d8f, 0x3d71b02d21dfe, 0x72ee70bb7f048, 0x3a0c52a51f7b]⟩,
   ⟨[0xe522db194b350, 0x1362a59882c6c, 0x5b09e052c570c, 0x2d26ab280800d, 0x1e221931bdddc], [0x4772e6a06f259, 0x7d07b179d230c, 0x71e03fc15549c, 0x4f77a7edb5e65, 0x510c0c34df5e2]⟩,
   ⟨[0x4f224ff48904f, 0x48434d5472dd5, 0x4edee682d26d3, 0x209bb373c40af, 0x24daa1d2897a9], [0x21d4977542f7c, 0x74599caf0abb5, 0x58be88021c3ed, 0x4208dc3b55b12, 0x52c47e8541e68]⟩,
   ⟨[0x40c5256aa4ec9, 0x415f8f060e908, 0x2805a8b76ebe6, 0x1873a8de991c3, 0x386c4a0579bdc], [0x17774ae596d94, 0x76ed22ce59ec5, 0x35ed29ce7aada, 0x6b0362f90d780, 0x2f704527505ec]⟩,
   ⟨[0xfcf13ceea0cb5, 0x18312abdf7c32, 0x757802e622b3, 0x490dc4fafa5e7, 0x2f574211fd5e9], [0xfe0fd3db8102b, 0x250e79df56839, 0x279e546add6e1, 0x145a2755e6c50, 0x1190ce5089c0d]⟩,
   ⟨[0xe3d775ded50bf, 0x2d12cb77299e9, 0xbb582e43fb17, 0xc592b860cc1, 0x6580719b67251], [0xfae99b30ae7b, 0x40f36f14b66a3, 0x1b1a66b1dff10, 0x7e66d7f84e375, 0x247dd6c1dbf6d]⟩,
   ⟨[0xde16d4416baed, 0x7f25b557a5f90, 0x174197a990092, 0x64e76b1b0e5ad, 0x7c3b0a8276891], [0xff3f0d753bb34, 0x4bc7095e070ba, 0x5ae24b0b13e9d, 0x33d3593791bc1, 0x4a5c64a628512]⟩,
   ⟨[0x679ba1d37863b, 0x7e88bad3ce7ba, 0x7e856bfb2dcd0, 0x1298b3d7e0a07, 0x648da87b47e6c], [0x4116614706e8b, 0x38083a1633124, 0x40275662a5821, 0x5af932de19f46, 0x325815252f969]⟩,
   ⟨[0x7431f85a6a2f2, 0x3e366f4df51ac, 0x7e3fcf91eed, 0x19a60a1f6a15a, 0x5d281d485553a], [0xaee657d07c121, 0x5b6e017cc1ff3, 0x87d40e6ae64b, 0x110b3e1403845, 0x7b4c48be20679]⟩,
   ⟨[0x2edbf68793170, 0x433c366d3e8f9, 0x5954aeaa0ace5, 0x17404ab74c945, 0x5d492dd30dc05], [0x664322925053f, 0x443fcbbeb949a, 0x4bc23b86d7ade, 0x2b04916f727d6, 0x762ff85e51567]⟩],
  [⟨[0x956a68246367e, 0x21897de9a1875, 0x5c9ccffbcb16f, 0x70e4257f8b255, 0xc9a877c9b00], [0xce0b185e2541c, 0x6d5d853109264, 0x56cc68ad4e64d, 0x2af2b66927356, 0x37ee9e95c855d]⟩,
   ⟨[0x53a329418b8a, 0x6646d7c973fb6, 0x5395e69eea7ab, 0x10000b1282007, 0x68cc15f88cfed], [0xe8b128fbfd773, 0x7fb20db05af31, 0x7739b3f5c4bde, 0x4039aafd5f2dc, 0x721c85e9a29ea]⟩,
   ⟨[0xb0d23a656bc62, 0x5ac669cf7c7f3, 0x209617182c48d, 0x218b4cb496794, 0x7180815d1b6b7], [0xeec1fddef69d9, 0x3aef0adef2d2b, 0x30326bf4476db, 0x47e91d24e181, 0x598190a0cfd77]⟩,
   ⟨[0x6d10c22ef9f96, 0x80ec0f94f2f7, 0x7aa4f0aedae30, 0x2516f4d4fe6d7, 0x49efaa3c8bd00], [0x98ea4e6e0992, 0x5bf3f949c023b, 0x380a5eeba5cd8, 0x26413305ed75f, 0xf418433f8a27]⟩,
   ⟨[0x89ecddd1ebca4, 0x359e16f504e76, 0x4cf9626cd6fba, 0x1174c74344098, 0x57564d0f17f65], [0x1195cbb8fb356, 0x5a8577b21d169, 0x6489f105e543f, 0x7b3a20275d3e2, 0x7aab2bb22dfb3]⟩,
   ⟨[0x2ca70745ae235, 0x23a96dde369c5, 0x5012a48800c95, 0x66b4f8bf4154d, 0x6b8f21f53603c], [0xf5462ccfc9d22, 0x30a858c108f13, 0x689819655d129, 0xe720a0fcea3e, 0x11f9dc5101e53]⟩,
   ⟨[0x1de0f018982f2, 0xeade77ecc8d4, 0x3b956ffee4a79, 0x4b8bbfbd7479e, 0x5f99662fe03e], [0x4d7ea312f393c, 0xbd83ae160fcb, 0x1ec8d3fc68c3b, 0x437abd0a447b9, 0x735fc8ad2bb1c]⟩,
   ⟨[0xb9ee6d50ff37d, 0x4d648636cdb2, 0x39c45b71d2eba, 0xf0d22edf891, 0x14c417247c2c5], [0x6cab42b8c5660, 0x18d3158e77bc4, 0x39a7dab63293e, 0x4410b20b68c38, 0x5143c90b7948d]⟩,
   ⟨[0x4b03cf603cb83, 0xd1179a1254f5, 0xfc1ef688a885, 0x2cdcc95c8e925, 0x2791d839354a1], [0x642016f8d0bf2, 0x66e650a9b34e8, 0x41dbf68cbb4a7, 0x512cf961bc16f, 0x3b3e68158737a]⟩,
   ⟨[0x8cf645460d714, 0x7670aa8b430e8, 0x574f16d3ac934, 0x51a943821a714, 0x6de69e5df9951], [0x7de4aadccb9aa, 0x135145c55a55a, 0x238b53ddfba15, 0x68d2109040438, 0x63397853b65b]⟩,
   ⟨[0x78630f0e679a9, 0x648a3915ea099, 0x1b46b606fa986, 0x5de57bb1e25b5, 0x4f4e27d03af36], [0xce066a9452cc5, 0x45772a10ac378, 0x305ffc4931f9c, 0x6b3ae4651216a, 0x1ebd44a8a3e39]⟩,
   ⟨[0x4b0b22dfa4a07, 0x35f7907812083, 0x6f74b674f2672, 0x388f7301dac59, 0x159ad55da44ec], [0xde4afba89c1f3, 0x7e80cab614f22, 0x59a999e84955b, 0xfa70d936db5e, 0x26f2da8417650]⟩,
   ⟨[0xe186902c85447, 0x464f8386f8a64, 0x53b0f937b7cd3, 0x3b7187584567, 0x308946f3d80a4], [0xd1b1c9720bfe2, 0x2400c63a10347, 0x52c5c71281fd2, 0x64118dad42634, 0x2fb1eb2d89702]⟩,
   ⟨[0x80be5600fddd3, 0x2732f61bafb7a, 0x2e5de598d6fbc, 0x41e2fde427cd, 0x506cba13b20af], [0xfd470bc53488d, 0x5f2e4b029ab6d, 0x96963502bb6, 0x5fd18c530903b, 0x5f0ed95e0a6db]⟩,
   ⟨[0xa16408a941aab, 0x21f45eb4dc5bd, 0xf60f2631c101, 0x5ae7748f7edc4, 0x2d03801d3b95d], [0xe8545f3e14db, 0x1650799114990, 0x686592fd11be6, 0x434d0445b2d2a, 0x759d194e76a]⟩,
   ⟨[0x8b92fabb27ee6, 0x7cf7a4e4368a8, 0x5acfdbbb69ed, 0x6891a54c2cc5e, 0x7007c79a1e753], [0xfb2099edfe6f7, 0x4967d75bf94f0, 0x7f61375a45d1e, 0x3b22d99bd3a83, 0x240e6da8b843d]⟩],
  [⟨[0x2b047d234e1e6, 0x51f630db7224, 0x101e259f37ab2, 0x7c1f58c65113b, 0x263dcee305ffc], [0xd1b3a99462779, 0x5034bf259bedd, 0x6e55cd8e9f25d, 0xff1b23c08c9, 0x193e0f15e9d84]⟩,
   ⟨[0x5e42789fde1b6, 0x1894f4e480d11, 0x2fa3c0071679a, 0x5a18a5fed0edd, 0x32e050c320bca], [0x129644b586cc6, 0x46490ab54ee67, 0x14edfb7e99d26, 0x5f72bbb17a488, 0x16d460ca476ae]⟩,
   ⟨[0xed9ff353b3ebd, 0x607194af236f, 0x4b55c55b42b97, 0x7df4b19150c4, 0x71dd14e1914e], [0x6d2391ee57097, 0x6b5c7eafac50a, 0x743b60c540a6e, 0x2052c67ed83b9, 0x7218af829bcd2]⟩,
   ⟨[0xb925893f33c1f, 0x67b1285ba7f1e, 0x653712c1b3339, 0x5676c8172a410, 0x70efc597208ae], [0x960b5f604a33d, 0x7921f9338e496, 0x49fa1ffafc93, 0x161f6dcee43a1, 0x66eea7d1afab]⟩,
   ⟨[0xaf49590893929, 0x70d65ce0014b, 0x140df3289d3dc, 0x345791d5ea109, 0x5255a323dd85], [0x401f6dcf0f1da, 0x74049990b1b6, 0x618d750975313, 0x287bcb87a0714, 0x1f72793687c35]⟩,
   ⟨[0x168dae873f26a, 0x1e0aaff1790b1, 0x459c70c5f4d75, 0x2a897aeb60f5e, 0x4fe8d9ccefe84], [0xc5fa352bd1939, 0xd8ae757a71af, 0x49805c7dbd1b7, 0x52a2eb32e9871, 0x2c5844141b0c6]⟩,
   ⟨[0x5696da8028d2, 0x71fffc7289a23, 0x6341dc5e55f0b, 0x33ae49ffdf4dc, 0x15f09ed39a715], [0x674750bc4c3ad, 0x41954c18ce813, 0x694204d31cc9c, 0x7e21a93a0c726, 0x300024cec65ae]⟩,
   ⟨[0xebd07c0d77453, 0x7bf58c754cc24, 0xf87f9b37b295, 0x24b9a92a35036, 0x289648e3611dd], [0x40bb7d1fd0ece, 0x1a131bead6492, 0x69423be245b95, 0x669c14214a82, 0x379ebc399963b]⟩,
   ⟨[0x7dda0cdd635c8, 0x35e41d7f8650e, 0x3f70dd4244c32, 0x67c3e0f50b486, 0x247b2a722631b], [0xbffd05202d9fb, 0x60a9c44dd611b, 0x36dcf6e5fd0d6, 0x54f5818f5df8, 0x4e905149bd33d]⟩,
   ⟨[0x1a02b8ddadbae, 0x4b904a0731902, 0x2bcfc886a4f5e, 0x50e5a1340e58e, 0x538853d4322bb], [0x4fa19e1071c4b, 0x20dff018fe134, 0x747f9f7b44e41, 0x1a6855ee03199, 0x23b78b0c2da8e]⟩,
   ⟨[0xa78f96c2693d0, 0x4e852c54ab8b2, 0x50bd1203e05c7, 0x7ebcb440e392a, 0x2902087bf3096], [0x3ce5f90574625, 0x3386306a925f7, 0x6406d4f228721, 0x77fa1131f3503, 0x4e5e2e878636f]⟩,
   ⟨[0x931f13967d25a, 0x39563f11adec1, 0x148dc8bdd5189, 0x143e419a5e6c0, 0x5dad68377e37c], [0x68a723527f5d0, 0xf1f89c72a873, 0xcb4fd5169f8d, 0x1c570dc05123d, 0x7de29900acc22]⟩,
   ⟨[0x9281b46548202, 0x14a3f78ce6431, 0x75adda3c012a7, 0xea845b0b8c70, 0x79b908beb53c6], [0x19fe799c7c809, 0x7b93b993a157b, 0x77f3826fc8939, 0x23ce645bc7c8a, 0x7e8659f8e036]⟩,
   ⟨[0x33dc53f98b574, 0x7432f5c3ccd27, 0x1e8355e71a3dc, 0x536f3a5b8a0d5, 0x66fba2484854c], [0xbc9aba085fc08, 0x6cd471084166a, 0x77299b5b548ae, 0xa08f4c0976c0, 0x7ed9bf62b1bfa]⟩,
   ⟨[0x940ecf52afa23, 0x448c9b9325795, 0x6dafb14422be9, 0x331906ded74e7, 0x34aa18796a795], [0x17a1089cf42ab, 0x4bba8e1b7cc68, 0x72f74ccb808a3, 0x18bd75a6c68e2, 0x1b9bdb7daca2]⟩,
   ⟨[0x18f0e8761113, 0x14856fbd5fe7e, 0x52b8e5aa39575, 0x61a72375dbf30, 0x2a1b12b4fd1a0], [0xcccfe4b5ce5e2, 0x13d03a9e9851c, 0x547736db57f8b, 0x2c281b74401a1, 0x6ad41c9a8f14a]⟩],
  [⟨[0xfaa572eb89e8e, 0x167953742d9f0, 0x19869f9fb4b12, 0x7cbe7b69e4d6d, 0x555f44f93253e], [0x652d610cfd61d, 0x450dd0fd70202, 0xfa8099f542aa, 0x28cdd184a6382, 0x5c334a78f9954]⟩,
   ⟨[0x89f7423e24828, 0x6ecc59417ec04, 0x5923fcd743ce4, 0x58e47c67b3854, 0x1fedfdb0eed94], [0x7eee7e104e1b6, 0x2bac9b4c39633, 0x719482e22b7db, 0x289c779b2b427, 0x5a26a1e0e5ec6]⟩,
   ⟨[0x239de0df21e4a, 0x3990ae0816058, 0x7b031a49d9306, 0x3aa82a7c3c63b, 0x24190e64f1da4], [0x44cf3369c86a2, 0x3ecd2b5b335c, 0xc07180f70933, 0x65c0b6a34aa71, 0x2462a8ec2eb00]⟩,
   ⟨[0x5c2bda6a8c3d3, 0x4167c033b9c4c, 0x1cb7df36db648, 0x694122f8abcb3, 0x25f3e2c20b169], [0x7e143bb0c3db3, 0x1781bbe98778, 0x37a2a4a306da9, 0x5470297b20c04, 0x141cf4b717baf]⟩,
   ⟨[0x70eb500b9f037, 0x5727999c118fa, 0x6027735dbd10a, 0x7f78c3c18f3dd, 0x4111344448d53], [0xb19d3d6d2a8d9, 0x516ff15756c60, 0x2ee628f2de048, 0x48114031c65c1, 0x585c81048736a]⟩,
   ⟨[0xab501b01b067a, 0x67899a4477fae, 0x274f338ebab9e, 0x47234930da1ef, 0x7a996a9c60a6d], [0x7b7e042371080, 0x76e9e7ca96e5c, 0x14edee2498639, 0x20537e3a2932f, 0x6743f9afe0cf6]⟩,
   ⟨[0xbb8fb7939bae, 0x595f428f1564b, 0x73aa57a8b8892, 0x443c7156ad97c, 0x394dcde01c803], [0x10277303a2295, 0x36e65529e463b, 0x2050cc0bbf19, 0x7af642321cfd0, 0x7a578db9dca09]⟩,
   ⟨[0xeca0fd78bba28, 0x140dc5dbbd618, 0x2bef02ad1bb50, 0x31a4817c3357e, 0xa1117b528b02], [0xa242c41e7ee0c, 0x24c715e851e5f, 0x711a22bb49d60, 0x2824bd92abec0, 0x43a69559d6b3c]⟩,
   ⟨[0xe68d7a078c305, 0x734955fcfc798, 0xe1e3f52e8aa5, 0x4e9d3fa7ad926, 0x712628e743d52], [0x73814d797a50e, 0x153715ffca99d, 0x558a8fde19c66, 0x2204aa778b5d7, 0x7baa676a5ff03]⟩,
   ⟨[0xdf4bdb34b5256, 0x1d965b241d3bd, 0x1271a0805af80, 0xb84bd41ce836, 0x7f967c3ac88ce], [0xfdb1299f7351c, 0x3c874ee7bcac, 0x39993680976fc, 0x47fe73f6f2145, 0x625098edaef41]⟩,
   ⟨[0xd83af4f7f1e6e, 0xfdc16634a3de, 0x15fb28a735369, 0x7af0b085a2ff6, 0x1b48f17a9e049], [0x3c8ea301dd7e4, 0x40b69de358f2c, 0x50ba0ac83c141, 0xe0d532814ab2, 0x65e5f74f8cab4]⟩,
   ⟨[0xf47568339162, 0x606afe5a96f3b, 0x2ba3a04c6a76c, 0x2488944de85dd, 0x374df90b6c521], [0x382b073cf14e5, 0x7c67c95a17e79, 0x15c33e721463b, 0x73ef909cf6359, 0x50141ff3ed74b]⟩,
   ⟨[0xeeeea5f5ddb32, 0x3acde25b0d36d, 0x2cf889155a989, 0x21fd9c628076e, 0x56a5eb7356dc8], [0x6c202d420a6e2, 0x31babd32e4e48, 0x44c3d05f2d30c, 0x7670e334c2f98, 0x4f79a1917ffec]⟩,
   ⟨[0x51f5bdd58277b, 0x3d523f21bb6, 0x21806dd8f5937, 0xfd12efb4623f, 0x7a4af6f3f8526], [0x4669eb76fe0e1, 0x43fdd719d5f7a, 0x3ca28b366fb6, 0x248847e6f73b9, 0x65da146d053ab]⟩,
   ⟨[0xac0cbd84326a2, 0x4c03cad532948, 0x5e030fe480b61, 0x3db7f18ba70c2, 0x35ce1592de363], [0x203476a5cd536, 0x79198612ca2c7, 0x5bb48d8ac89b9, 0x295999fbc011e, 0x3aaa59b60fe8a]⟩,
   ⟨[0xdd31f74351dce, 0x5b15757ff87f4, 0x2e2b1c4f1048f, 0x69bb62674cd0f, 0x1544612843fe9], [0x39bd2752ee3c1, 0x17a2616fd02e5, 0x447ad0b0a32fc, 0x5ce5c96f64a93, 0x29642594ba9aa]⟩],
  [⟨[0xdee95ca3bb6fe, 0x56f0acb87e096, 0x36182366abc67, 0x5217f2cd26751, 0x21e6d524f4a17], [0xbce9c99bb07d, 0xc27581f2ba83, 0x20cf33cbd1603, 0x10678fb67fff1, 0x5c6cd7703a25e]⟩,
   ⟨[0x5bba8048392c8, 0x2542a96821bd7, 0x75648b3e12141, 0x6d7fbcf181560, 0x2c576a6815e41], [0x518aaf86e6de1, 0x1c518693dd84f, 0x6675dcf58b296, 0x644d5f602501f, 0x77a80ca4e57c8]⟩,
   ⟨[0x159ee8d243a23, 0x6e29dbc72d5e0, 0xda0a1e2f2981, 0x651b05eae7237, 0x582761cc33610], [0x4c0af035dd89c, 0x4d1937b5f3230, 0x68af1e665190f, 0x76067020738a8, 0x3815147c9aee7]⟩,
   ⟨[0x115871847a6cb, 0x20f85c36d0499, 0x4733334c55205, 0x4d650b5cca6a3, 0x2c404c377c0c1], [0xa12df826a93d6, 0x7b4188d135aa7, 0x2d01f76ca5fe4, 0x155326d392240, 0xe516b40ba9fd]⟩,
   ⟨[0xf5546a732c66d, 0x18e15db635dc6, 0x74c7913432090, 0x5f678885345a4, 0x61829fb56d48a], [0x677b5bb743208, 0x238e1e35f0380, 0x24f21b26421f5, 0x405586e33386b, 0x200a7dcd0ce5]⟩,
   ⟨[0xe70ba7605c9b6, 0x57f5cc0b99049, 0x42f0c89079ee3, 0xaf253b6ab483, 0x4dbd3447dee4], [0x5cdccdf6731cf, 0x3aca58f2b6389, 0x2874a4632d9e3, 0x6eab51a6c6508, 0x4974444b06711]⟩,
   ⟨[0x83e23dacb58a, 0x3d224dba9affc, 0xad693ff2352e, 0xee821c843787, 0x6599ddd43ff17], [0x1129bd5e19fa2, 0x1ddf5de008359, 0x4f3504c03bf84, 0x64efd7d15539, 0x427db9dd33f27]⟩,
   ⟨[0xb147505184dfd, 0x5a25b9c7e076d, 0x75cfca22e44b6, 0x2a4bf3c7632e7, 0x32e9918544496], [0x455d9704d3074, 0x37c549c367fb6, 0x4a270b27efbb8, 0x1428cfa018772, 0x7a9637bae976c]⟩,
   ⟨[0x311adc83db0dd, 0xb4bcb0670913, 0x5d30a2c0f96fc, 0x1f1a1ff4d0bb0, 0x7d2975772506e], [0xeff5e207d306e, 0x68be603fe3d2a, 0x5c11f5d2a4998, 0x6f76d4f8557f, 0x6f3cfd87a769f]⟩,
   ⟨[0x65185a90ec696, 0x5e67e616805f1, 0xbbf738a1a711, 0x5428b0d45a57c, 0x4c8ee45621c1c], [0xfaa46b5e985b8, 0x29f0a5a957ddd, 0x236b91a401aee, 0x64166423d44f1, 0xa4fe9bc04a82]⟩,
   ⟨[0xf394fc786a4e4, 0x5d5c301931568, 0x16e5a4e0f86a1, 0x3e462d1c459b7, 0x5c99260a907b9], [0x94616bf27c9ba, 0x3838c1fbfc98b, 0x1aefd5463ce2c, 0x2298f2daa2dc1, 0x2f8398aa1ec1]⟩,
   ⟨[0xb0b54e83eb3cb, 0x46c11cf2c5d85, 0x562c687a5bd26, 0x8cb654c9579d, 0x32a6ec6175f00], [0x3d94a727b903f, 0x33404d23ab3ce, 0x47cfd855ec24d, 0x499392ad55820, 0x184705d6fa8f5]⟩,
   ⟨[0xfc2c43a582997, 0x9b163600d952, 0x7d1fd9fdfc13a, 0x6ddb423abd0a7, 0x6da6449c5cf57], [0xffeb9df5f3e5d, 0x104479dcfa27f, 0x21d3a7738db2d, 0x4045b51b58564, 0x2b174ed65c2fd]⟩,
   ⟨[0xbd918af2d1de7, 0x797fe89e388bd, 0x354f756af6f61, 0x2658b66c8f102, 0x481c3a259a692], [0x28b2886fda782, 0x1acb2e8319ae1, 0x5e65b509e18ea, 0x602680e0d288, 0x1f8b6c2704be0]⟩,
   ⟨[0x4de9dc251e4f5, 0x398dc76312c40, 0x60221101717d7, 0x36e5f8512f680, 0x6aecbbc4faed1], [0x6bcf81ad0f404, 0x56b0d20017cfa, 0x51b33cae4f06, 0x79ba25fd11b60, 0x6c66b1b94906e]⟩,
   ⟨[0xf2eb0a212b2f8, 0x1291549d895df, 0x7ea3fdc6e23d8, 0x3a5fb22527356, 0x44827b3ccbcb7], [0x569b9a0749338, 0x17a1416dd273b, 0x1e3d333fda47a, 0xf6320d57af46, 0x1618e7f9e3803]⟩],
  [⟨[0x6e8a84d02a6b0, 0x2a5ce4dbc212a, 0x9bcab85dd325, 0x33808f9e31f44, 0x711abe8635fb], [0x73ea3098d5496, 0x696f79eec27ae, 0x7b6463961bef1, 0x21dac69de5f30, 0x33f193bea04ac]⟩,
   ⟨[0x4886b6b478d87, 0x26385b4323759, 0x13a2bb416cded, 0x717b3988cf8de, 0x414c09b6b85c5], [0x3390639fe52ff, 0x6ca38def7fd7, 0x431c5bcf60fd8, 0x27bcb334eefb, 0x28319296c6513]⟩,
   ⟨[0x4cb3c06e1ab70, 0x57948510101d5, 0x1c38a22a0693d, 0x2914500b3ea3, 0x578c8d8dd9dd3], [0x16c80c1dbd2ff, 0x33044253fb30d, 0x7941dd6aecd7d, 0x4f200061fecf3, 0x546d982bee1f4]⟩,
   ⟨[0xedbc39ae757a2, 0x34fe0bad67fe3, 0x1971e008f362d, 0x6c12b96f5d1a1, 0x1ff6e4eb688f7], [0x70c4b4e036fa0, 0x611ba94d0e52, 0x7bfc428f0e251, 0x42a78ca211cac, 0x78aab5035f959]⟩,
   ⟨[0x39f022da3a297, 0x1da11c9ee4589, 0x7bc8d152059, 0x5ca88e041209d, 0x396b7e030b90e], [0x6a3afde54f823, 0x2a38aba40380d, 0x394f10ec351b1, 0x7bfa890ff374e, 0x3ed6d3c141924]⟩,
   ⟨[0x7b3b2ab41afa6, 0x5edb0895870a2, 0x4ae56b08a37d7, 0x2e4bcfe71c4ca, 0x2d43d757d8a3b], [0x61c756483a39e, 0x3ac62981046bd, 0x1afb8ead77a64, 0x2ea1e8fd302b3, 0x4db0fb226bb28]⟩,
   ⟨[0xe7b1bdb64ba6c, 0x54e041d4fe699, 0x4ac1deb24137d, 0x74a0697964817, 0x312bdc2d7a256], [0xd14a56072b4cc, 0x1382886183f9c, 0x690ec6a92ca38, 0x3b6bd7e019dd0, 0x69dac1921760b]⟩,
   ⟨[0xcedf14c9eec7f, 0x1ad446c451fab, 0xa7b94d1d1824, 0x3d360209777bd, 0x3312fc6a60827], [0x6925365a89852, 0x532b69c2ac275, 0x8d2bfa9c57df, 0x6b372357986f8, 0xbc6738808c01]⟩,
   ⟨[0xba8848894762e, 0x7c52b109b74ba, 0x55f874e82108d, 0x6bc4b1ab5d607, 0x4f79a87a0f4bc], [0xf22ec08de0d, 0x19bbd488532bc, 0x1f7cc6a46142b, 0x47951401b8854, 0xeefd5f254172]⟩,
   ⟨[0x85c1f80c878d8, 0x6e57903f7cb79, 0x7c43ee3ad7648, 0x397051c967fd8, 0x117c19679f176], [0x2c5d30697dd3, 0xd3ece67318bd, 0x1f44996a833cc, 0x15c569bf7dffb, 0x1e2f38cd9eb4e]⟩,
   ⟨[0x1e36db36ec447, 0x14967cf4a822b, 0x401b78e38eb, 0x5dab9a907f31e, 0x2dacf3f0f0c42], [0xd33c908c6c4f7, 0x66aa9cccc7f70, 0x60c3fcbc4fd7, 0x1581bf7c89f6c, 0x611050b8c54ac]⟩,
   ⟨[0xd068f3d4c0908, 0x1a02e029f619e, 0x2b45fec96d2d8, 0x5a2871779f131, 0x23f7ad0c44ba1], [0x4d3b86980deaf, 0x711d8166ca500, 0x30b3ed70c5899, 0x1d50f687549af, 0x8b4b9b39707d]⟩,
   ⟨[0x466dd9c839775, 0x27b5fc46c6c6b, 0x212095c5e5d6e, 0xa30f03686d71, 0x6e778bb41401b], [0xa1b7784e9c0bd, 0x28b25cb77edc9, 0x75141abc6098a, 0x51285e7389dbd, 0x786bb0adc137b]⟩,
   ⟨[0x2b5755d306294, 0x25d99f2bad0f6, 0x6e9490307fe67, 0x20fbaa40ebe93, 0x621ce633e61ae], [0x63301845bdb1, 0x488a25d032e0b, 0x245b64b6bcf17, 0x5288c9be6908e, 0x39074be491684]⟩,
   ⟨[0x9d726aeaa4bc7, 0x6d9ca435f290, 0x399bb955171b4, 0x707c3166a8265, 0x2eb12aacc834b], [0x2b20ada6782ed, 0x2f055ce8bb68d, 0x7c0eb8cc8170c, 0x82ad8ccdbb94, 0x69541ff4bc978]⟩,
   ⟨[0x65d167d224872, 0x2581c711887f8, 0x74baf45b86a47, 0x5e9e6abe67a2, 0x7213bd0895f3b], [0x72afca61a0254, 0x11742392a0ed5, 0x10832281b6c9, 0x5a0949297a0f6, 0xf164d77e14a3]⟩],
  [⟨[0xed5760b459019, 0x2228aea32c7db, 0x728a39bb925a7, 0x203fa2f13e567, 0x38462a9f1ba7c], [0x4bd4ec1abd7b1, 0xb5ae953dc16b, 0x33e07d29ea8c5, 0x54599995a7cb0, 0x156e38d3ac76e]⟩,
   ⟨[0x20d2f2d61cf6a, 0x773029c680360, 0x5052970e628e8, 0x1743a89ee6c31, 0x86cd11f0dc5d], [0x5c5977fd6c080, 0x27fe3ae450f63, 0x21f4ed6717373, 0x22a3b606c8a66, 0x52eac1f03f5e2]⟩,
   ⟨[0xf339a2b5ce371, 0x65e19d41d0666, 0x7287e48fad9ea, 0x471066e33be31, 0x679f03495f090], [0x74b03158b9d31, 0x5ea499f4a04eb, 0x5feeb553c1808, 0x397d697ed49b1, 0xb67f077dd63d]⟩,
   ⟨[0x3c03ae2687f73, 0x79cc5b29e02d3, 0x72367f9da54cc, 0x7df9a3ad9529a, 0x1cfafb9504592], [0x68acc89a8ee8b, 0x4afc769d61da5, 0x6f0e9603608bc, 0x6792f936b1e02, 0xf1398ed3bf93]⟩,
   ⟨[0x671ca92f0e827, 0x6525ca7c69927, 0x171200fbfeafc, 0x7372ee50a7a5f, 0x6b675f2e394ec], [0x7daa7d3d0d62, 0x16fd73fab54b1, 0x67f158c5cc197, 0x283cef99745bd, 0x3348a74e2e770]⟩,
   ⟨[0x66f8cdcf522e3, 0x6982f90c04fe6, 0x7f81a0ced981e, 0x43551059f8155, 0x1afa647940834], [0x7ced8c2304313, 0x5ae6ce56cc0c8, 0x137ff230da040, 0x568d65c179394, 0x283cd25568788]⟩,
   ⟨[0x2aac2440b7f74, 0x1f509834690fe, 0x45d2233ce00be, 0x222595a3d079c, 0x27c0ff58f688e], [0x1d4b3f39e60b3, 0x4cc3a253b5201, 0x2333a105146c0, 0x69062190db8dd, 0x5d0790291ad5a]⟩,
   ⟨[0xf2d0fb16fc7f9, 0x619f0c8b78c4a, 0x5a8cca7c6916f, 0x1916d4d36752a, 0x1023ef9fd86d6], [0x168aab3670612, 0x5d8b15486e18b, 0x63dd0999e8e18, 0x6162366202858, 0x1a4a2c4870979]⟩,
   ⟨[0xcefe4409994ee, 0x55da9b44a7a13, 0x106df8096a1cd, 0x32d3e8584e2b6, 0x5dd046adeb104], [0xb9b4ff6f4202a, 0x4acb4dbc87a7b, 0x4a78645c47d53, 0x7903be0c0cbed, 0x6faa43697cce6]⟩,
   ⟨[0x5a494e4501dae, 0x463c338f2697, 0x412f90982a2d3, 0x4a9d3f24715d7, 0x72482ca04194d], [0x35900b4af93e8, 0x492fb85261015, 0x2523c6c2876bb, 0x406c75a05701, 0xba73df37c857]⟩,
   ⟨[0xacb525bb4074b, 0x44377012c6937, 0xac6e54e5ee1e, 0x75073183eeee0, 0xed70c9270a43], [0x1c2882cd5040f, 0x6f51f4c4c0e11, 0x5792a7c9cea96, 0x5ae0379baef75, 0x3debb57fc40b0]⟩,
   ⟨[0x14ffb15bbcf14, 0x39e25e41eab98, 0x7ff955a848443, 0x20bc48cd89492, 0x7196cde655f9b], [0x7849f69377955, 0x3c18a2d36539d, 0x27e1e94033f9c, 0xde30941ef01b, 0x8b8e3fc11ec7]⟩,
   ⟨[0xb06e3eef0f157, 0x4007f2abb1b66, 0x7dfec2c450329, 0x64d8a2197b0c0, 0x190c79fc2cd88], [0x6b06b6d6d97e1, 0x1ca489187dece, 0x2c0a5779b1894, 0x4b2ca6fe0e365, 0x43ec85dd748e5]⟩,
   ⟨[0x66d07404cc6b4, 0xa577c566f3fb, 0x7ab67d3ad570a, 0x1f1e9c9856550, 0x3fa767c56fd6], [0x2ca0442245c81, 0x5f36d42201ed8, 0x2f30d51f27e, 0x4e5d7da6c00d3, 0x114c4c91ab28a]⟩,
   ⟨[0xcee008612cf1a, 0x2cf14346ea4c4, 0x6f8b9d96ae467, 0x3f33f3e39a186, 0x4b642581414e2], [0xa079b869d7477, 0x30da90a235ca3, 0x6ad614fdcb2c3, 0x4852a604a706d, 0x157a3839ded1]⟩,
   ⟨[0xb59e444c4eb0d, 0x11676b4ecd851, 0x3d31cb1b12df9, 0x27c08f496eea1, 0xbe08415158fa], [0xa04aef0929eb4, 0x2ce3eb2563b82, 0x20c0e6f08d318, 0x6285c2f629c66, 0x21edba60c1abb]⟩],
  [⟨[0xfbf96e6d13256, 0xb68470d1aab9, 0xbc465046aa9b, 0x3d5203520917c, 0x4b417116fa14f], [0x9a3647e0fac1a, 0x71a016007859e, 0xa7b31060bc87, 0x128f617fe1085, 0x6eb4b51971c6]⟩,
   ⟨[0x56fa126be097d, 0xca15ebccdd85, 0x49ed9e3dc0a72, 0x534a6f2d34ff, 0x727d2633cd1b3], [0x77aefb30f457, 0x24bd5a728da2d, 0x2c9af355ce67c, 0x73999222c6a81, 0x5abf888781842]⟩,
   ⟨[0x7e2b53855e82e, 0x36f75f5b38d7d, 0x1fc3826f69222, 0x551148ff627fa, 0xe21bfc642276], [0xcd49503e4ae88, 0x47c1ef9736822, 0x2aec417d9de9e, 0x564ff1cd1c7c3, 0x102f631f03439]⟩,
   ⟨[0xa9896a4813696, 0x3523d6eebe38d, 0x1f9cad687ddf8, 0x71e17b9265fa2, 0x3dc4e4a6526c5], [0x380987dff3364, 0x31775ed80285c, 0x3f94142b2664d, 0x19b13fd7656c1, 0x3839548bac133]⟩,
   ⟨[0x9059c15c5f8c7, 0x5dce55ce2eb32, 0x64f44509419f0, 0x5813aaebdf343, 0x66f8f9b0f508f], [0x4d3ac3084dcf0, 0x46db6042359ef, 0x707d3efd6f04, 0x39be123fbd3e7, 0x374429c7aa556]⟩,
   ⟨[0x9049f51ac9b9f, 0x69f045b69dba5, 0x3599c0a66fe14, 0x7e37c062cf77a, 0x4ee7a09b3e7ea], [0xbbebf02917c14, 0xa62e0342107, 0x18b2a672798b2, 0x5d31a994a35e2, 0x25fe7ca47e56c]⟩,
   ⟨[0xc0fa78fd24fb4, 0x14b8508f3af59, 0x1d75539aa97b4, 0x30fd522cd0aed, 0x1aef85fcb95c2], [0xce2c59dbebdcb, 0x2f12aebaff60c, 0x4de71444f1374, 0x53a44dd8a0024, 0x43dee537dc07]⟩,
   ⟨[0xf9cb8cd409462, 0x7a5ea9dcfc77, 0x15b9c5672ddac, 0x2dec06e0cd7b9, 0x3829d7dbd8c4b], [0x148a317174a3e, 0x6c135d451348e, 0x614db1ef72449, 0x5ea3039a699c9, 0x5f393c9921cfd]⟩,
   ⟨[0xbd8e78399a837, 0x326ac044cb6be, 0x421b7ff19fdfb, 0x4f2ce100bd03e, 0x64d848daf30f8], [0x9b499ed1fe2e3, 0x6841ba92c3fa2, 0x61a84c7c8363b, 0x14616602672a2, 0x56fff0f1eb104]⟩,
   ⟨[0x6c40beac31bb5, 0x18e17f67f79d1, 0x226cdc803e440, 0x1b07c6f9aa066, 0xf7f08f44d7e2], [0xa2b8b71a878f2, 0x5451e156e406, 0x3f11116e5324a, 0x7f48fabeb6ce3, 0x41ea4652b5893]⟩,
   ⟨[0x80127877eb48e, 0x4f352e0372300, 0x4b4ea89740cb2, 0x2da8620aa1fd0, 0x3dd845928a4a7], [0x3b8912897b9cf, 0x24bfed91b1d58, 0x2574ecc3e424d, 0x37d04b7723902, 0x6d7693b13ad1]⟩,
   ⟨[0x59e9fdea9c944, 0x428dec2ac2842, 0x497aaffa03efc, 0x5fb9332e47452, 0x56c69d8a0c638], [0x9a23a2c6e31bc, 0x3ed95e52136d, 0x34f2df9a2277a, 0x6e2b8948fcbbb, 0x2e56f673b687e]⟩,
   ⟨[0x11f6068178ee8, 0x571d59e914acf, 0x53b116d7b9565, 0x819a7ca2f5c6, 0x5d54b6d9c418], [0x117e6e5f4423f, 0x7bb7d377a5df8, 0x46f1dcce6741f, 0x624c8a21373bd, 0x23e4d22a016df]⟩,
   ⟨[0x3c0eac69d0de5, 0x6cf31dc831402, 0x2bad0a426aca, 0x7864fd5f0e1a, 0x13c70b1a51e7d], [0xe7a74cf7de7b7, 0x59198080c0e1f, 0x2341cea45f848, 0x640334a0b0bd2, 0x73cf34a927a18]⟩,
   ⟨[0x78bb4a9fdf621, 0x42f21fd366ca, 0x39e15cf3e8543, 0x371c9bc5ad61e, 0x4b624e18568cb], [0x78d62b4ade692, 0x4a079dd8e7902, 0x29fa46937f35f, 0x1c7744cc75169, 0x7c882cbf3bbaa]⟩,
   ⟨[0x5c23b09112390, 0x1091f52ea9318, 0x47d031bdbd618, 0x42176e850af62, 0x255756eba373d], [0x8e197b7fdf0d5, 0x1277e4f639650, 0x2e5b807e9012, 0x5c7bcab505a9f, 0x1a25fdd4d5cf9]⟩],
  [⟨[0x5828e38661c25, 0x14bc3733f569b, 0x3412cb1c71958, 0x4dc731462284, 0x1245d94326762], [0xebd2384be5f68, 0x697e3904c2bc5, 0x5d783fcbc6030, 0x4cb401c37be4c, 0x11ffcca4123cc]⟩,
   ⟨[0x10495dbb211e9, 0x25442f7cc4e5c, 0x561db7856a6b7, 0x52325f162ccfc, 0x54ef209d81ab5], [0xc391a115200c4, 0x138919d37f23e, 0x38909464b887e, 0x5167b307e5774, 0x32242323f9935]⟩,
   ⟨[0x7ed46ec46a583, 0x392288dcc4f7a, 0x7fd2eb94b33b0, 0x432cf9fe955b4, 0x2450e4d8a038a], [0x7aff478477329, 0x4d48903d3cd08, 0x708276a425531, 0x606fd71db1d37, 0x142bebd75deb9]⟩,
   ⟨[0xb1fa45676391e, 0x69692eedd270e, 0x498670ebf7399, 0x45c7632b7cfc2, 0x19a09ae2a79fb], [0x2ca58a8153bb1, 0x31337ff678477, 0x418997426a417, 0x655a7996c5020, 0x1936eb94d8e93]⟩,
   ⟨[0x9a2630289a595, 0xca8cfcdba537, 0x56ff9f6e6fe48, 0x5b53be7e2fc07, 0xc8aa9e431c96], [0x8f62b7ec7f8b4, 0x759cd5d73d9a2, 0x15ab8e3a25009, 0x4cc8936067c91, 0x54fc0e3cfd648]⟩,
   ⟨[0x6fa9f5e920fa0, 0xb770a49d3eec, 0x582b079bcd64f, 0x1c35560408e28, 0x44a7950a6ffb], [0xb3a87fed1b513, 0x67ce537da0a6a, 0x707594db6f3af, 0x57ec75ed66c23, 0x69e23f2649e30]⟩,
   ⟨[0xaa072d6126519, 0x1be00610679a4, 0x6c412907f1a7d, 0x163773e6aaa30, 0x3bc5f3e291e74], [0x809166205e3bb, 0x785499ce64078, 0xe3d8fc7f29b8, 0x7e0ef22e29934, 0x30e9a8d252a88]⟩,
   ⟨[0x3a829dcc73ee8, 0x699d7b9bf4ead, 0x7d4b17cc3c7c2, 0x2905bee0ee901, 0x547ff8275c891], [0x52b2910f7f25a, 0x68f778d2e5a27, 0x1b85563815942, 0x13df08225311a, 0x7609fdff08594]⟩,
   ⟨[0xb2e2ec305f2d5, 0x996bbc6e4fa9, 0x30b4cb4168f67, 0x7426fb602045d, 0x943c5adff99f], [0xe48a53ea42c24, 0x57678b9589cbd, 0x52006dcf8d83f, 0x53d7e245ad4fd, 0x77a9e12d48b9d]⟩,
   ⟨[0x7cac10865f9cf, 0x578b7d35b3a19, 0x708eeebb1e6e7, 0x2abfea46c5555, 0x4ca5dc5ae086e], [0xa36376b7a93d2, 0x188095575d2d0, 0x393ef6f8634c, 0x7c039388938c2, 0x31010e90ac0b1]⟩,
   ⟨[0x7df172b9eb768, 0x178d003bb4489, 0x783a956e76079, 0x25accd6c14ec3, 0x46178a9dc6279], [0x15d4ecb7bd0f4, 0x6c0dc296e2c56, 0x53c51b36422fb, 0x549e0f4e67de5, 0x389ccc23186d0]⟩,
   ⟨[0xc532f03c27f78, 0x14a6c28abf4c3, 0x3f90a141b9a5b, 0x69b2ddf5cd3b9, 0x2ca851cf01e00], [0x59440324910f2, 0x729fd333620f7, 0x3cd70bdc8c7b, 0x40c73bd640fdd, 0x4332faa2ffba1]⟩,
   ⟨[0x6664abfd5681d, 0x74e8c029237e, 0x6201249b2b7bd, 0x529e03d66b256, 0x107d890ce2d92], [0xf2b9fee1231ec, 0x37a3da4060374, 0xd270f3481daf, 0x748dd10ec51c1, 0x313aa5b16b013]⟩,
   ⟨[0xdf0e13a34cbfc, 0x3631767d8b18e, 0x6b84d66d0e80, 0x3c82463233ce9, 0xec0876ed459], [0xbfa9bfe16f36e, 0x2b16c346cbe77, 0x1f03779578316, 0x5b6d0ecc3f5ea, 0x392c5dc949b1e]⟩,
   ⟨[0x3ca709674f552, 0x4286a064869f6, 0xe2bb1ed6df2a, 0x4b163e6232515, 0x7fc5bbc23ee21], [0x48d96d1562488, 0x4d9d561fe91f5, 0x5807f49d14f0c, 0xa483741fdc4b, 0x2562ec3a9714b]⟩,
   ⟨[0x77d2d04c4f8b3, 0x3a4d092998582, 0x36f34a3156092, 0x36043316b80d2, 0x387899c0d0389], [0x1d232b890c1ff, 0x2bb8e2a3a7b1e, 0x674044c311f30, 0x42aabc2d14b2f, 0x5fa4e41857301]⟩],
  [⟨[0xb8c87fbe21ca1, 0x4654dd4516e9e, 0x4d4c04111e84c, 0x52f54d6883a97, 0x58fbfacc04077], [0x8b1b2bd6c47e6, 0x406c2b52fddd1, 0x5cd0ac07afc39, 0x25702b023d878, 0x457d9e01d39b]⟩,
   ⟨[0x357ac0e5357e1, 0x603bb8f446d94, 0x526c39b423bf6, 0x652ec95741e38, 0x3ae110f98f0b7], [0x62637ee945699, 0x49ef673613cc9, 0x16ce0e4f9387c, 0x651cec355d9be, 0x268f9ab67fa18]⟩,
   ⟨[0x93f3302f7a85c, 0x45c7103a537c2, 0x19c168efcf12, 0xfce8ac30255c, 0x7b9c2cd636af], [0xc7c15ba124e6a, 0x6096943b520b1, 0x62efd361e552a, 0x1b396cd943ba3, 0x246c5ece49cb6]⟩,
   ⟨[0xc8b07844d0432, 0x193aa51f64178, 0x652032368d613, 0x584636777ebd, 0x76ebd45ae24f8], [0x83a8832371d4d, 0x31c19f58c6c5d, 0x6b31cafc81a4c, 0xf4fb72b9c793, 0x51077aabff976]⟩,
   ⟨[0xaff8e199c7745, 0xb6c8e8c41d7, 0xe037dba37a3b, 0x5bfbb2e8c259e, 0x3066835fd1b75], [0x612167989ffa4, 0x7902fb713c890, 0xa6d25b2214db, 0x60b1391b6bbd8, 0x4e350b3bca4e4]⟩,
   ⟨[0xf3f02af47cc2d, 0x60388da43d42c, 0x632f6353fb249, 0x5f31e07849f64, 0x5ce122608d9a5], [0x6007e5350d389, 0x7742acf4259fe, 0x701ebc914081d, 0x531138485c0d1, 0x76919b7cb5969]⟩,
   ⟨[0xec0dd3f0bb75c, 0x517421a5944b2, 0x64e3d5bdaf79c, 0x77dac3841ba0d, 0x274cfc101ec2d], [0x8cd42dd1c1cfe, 0x572f81fdfd0f, 0x7bbc498b713bc, 0x34b4691eb371d, 0x64ff50bfb9339]⟩,
   ⟨[0xa74289bd66c07, 0x41ae49e4ef440, 0x16bd641d76bfb, 0x6217734484d42, 0x7801cb15fa7ff], [0x6a7999951b22e, 0x73b7132140bc1, 0x1cb156a92521c, 0x47dae07d429c2, 0x34176ae2f6dd1]⟩,
   ⟨[0xf38ae8b585b7c, 0x7d0f5e5336093, 0x634b7780008ca, 0x6cbb99339e01d, 0x48fd2054f121], [0xda75057482fc7, 0x659e2c0ac4adb, 0x2839cee7f858a, 0x5f0ac5233f317, 0x7db0ce3a922d5]⟩,
   ⟨[0x26bed2d1d7fc7, 0x40fd51645942, 0x1c6893567fe50, 0x7beaa7d726bfc, 0x4207cb6f8125b], [0xc744046e92e4a, 0x4889dcce9c25f, 0x298d4ebd978fd, 0x538378f3b449e, 0x103ecf3526132]⟩,
   ⟨[0x70e6e240acd3f, 0x2d0e910c2c5c5, 0x47c4b7a150503, 0x7e03610cfc713, 0x12b1d48802df], [0x5f52f4db5f186, 0x214fe444dac5b, 0x40b88a70b4e77, 0x28db30b535336, 0x269074fcbdb43]⟩,
   ⟨[0x7d8a7faa53fde, 0x73b94b3141959, 0x479fd2a22e7bb, 0x23433e0e79abc, 0x7443bea34a6f6], [0xfef139c8576cc, 0x50fbf061f5893, 0x4558e31bb1220, 0x315c237e0227e, 0xb5335f077dd7]⟩,
   ⟨[0x45cb3299cb9cb, 0x6c0467c3b394d, 0x4e14a26b6171b, 0x38cc5a50e5aa7, 0x5ede90305a8e], [0x7d811a19c3957, 0x4d84d2fdd61e8, 0x3f360ab0c2427, 0x6d66d2ab4a909, 0x7376db64f64be]⟩,
   ⟨[0x51348cbf420a8, 0x3d930ed834a4f, 0x189403bf27676, 0x181b04e39e3d0, 0x5c72602f7c87], [0xff27d92f3f8a6, 0x57f1c3be718b0, 0x7db5fe00d8ac2, 0x6508234b8f600, 0x68f5ac550c57d]⟩,
   ⟨[0xb437344372511, 0x2cc307d9df3ca, 0x65755e585f5c, 0x4484fe311448a, 0x45d0a928f957f], [0x9dc33df29cabf, 0x58aabc130136b, 0x6dd896642ebed, 0x3dd5e6a93cdb6, 0x58bbd544a9587]⟩,
   ⟨[0x23f2f46b77a44, 0x22e0e5444326d, 0xc682ddcb6c24, 0x174710e87d9fd, 0x62440c79cb254], [0xc0b15406c928c, 0x4d56fb1459cb2, 0x12d1e88446d8a, 0xd1cddef21aa8, 0x2c8a130076c5d]⟩],
  [⟨[0xa20a5a11aee99, 0x658f7c4c596bf, 0x31596dd0e0f0c, 0x7fc75cbade15c, 0x24bb69877db99], [0xf47ee95a31e2e, 0x6090bcad2326f, 0x3f84b5aac8fe6, 0x28823088ce92f, 0x2532bf86570cf]⟩,
   ⟨[0x5e2861d5f12f9, 0x537e8118d77d5, 0x631b8799698ae, 0x3cc1412721f76, 0x624db7cbc35f6], [0x7e4cf1383e30f, 0xacf29c3392ab, 0x27424e45cbece, 0x531d9f8abb684, 0x76c6093c294a1]⟩,
   ⟨[0x536ac6395662a, 0x239188aad2807, 0x31eadfe0e7beb, 0x36455a85285dd, 0xdfa70c45530f], [0xaa7b94bec12bf, 0x127af29368714, 0x5b0b1ff2913b2, 0x5b474e2a2bcdf, 0x5b2b977212bd9]⟩,
   ⟨[0xffd50e811bc89, 0x3fa8aa1288df8, 0x4ce42359d496a, 0x5ad22ec8b66b0, 0x35ad636e886a1], [0x36aec1f03e773, 0x4db5a8bca9bb7, 0x378bd3b9e00d0, 0x2f9a1b2588a18, 0x59374c4b84dce]⟩,
   ⟨[0xa5c78c0a09501, 0x438418122fef3, 0x36f391a493f51, 0x1c1581da10d11, 0x4d380efb19759], [0x7ae14448e2f04, 0x3e5e01ca7fd7a, 0x14c4162795998, 0x7bba0161739bc, 0x1cc54400f1ec4]⟩,
   ⟨[0xb4104835823a8, 0x49050c8ff31a, 0x78137f3671127, 0x291a0d2fd7bcd, 0xc5045563a528], [0x216e06610c3fe, 0x6d4eb6ba949c6, 0x5980545dd7a0a, 0x3c47d2617fcca, 0x4e4b15e594dad]⟩,
   ⟨[0xf8babbdf00f70, 0x63df37d0b03b9, 0x3d691146af8de, 0x2891c5c93dc5, 0x1cd90615b01a9], [0xd5d595ebcbd12, 0x179c70c411f6b, 0x470395c25f3bb, 0x5f2dbd08adc8, 0x177ca728981ca]⟩,
   ⟨[0xe456b1f71055, 0x7362e63d73807, 0x40975d13c6956, 0x77c8546a0ddec, 0x255c05fcbffb8], [0x9d08bf388fa6c, 0x5479123177c4e, 0x6ef2ca17dd9cc, 0xa28b766e8543, 0x725ef11c998db]⟩,
   ⟨[0xafd776d46ae2b, 0x3a2987f39de71, 0x4318a4ad86b8, 0x29cb17c4e8ba2, 0x68c1611368562], [0x72bb4043c69e3, 0x355b0d908c97c, 0x1d84483454bea, 0x1086b129da054, 0x77e8521e8b03c]⟩,
   ⟨[0x483bae3e96c40, 0x1033c465dcd03, 0x144124d4c7602, 0xf90a0a3f2373, 0x21d2dda9344d1], [0xbcc16ac03e55c, 0x7907b7596d0a7, 0x1fa7957776f16, 0x330182bce6e91, 0x44b0fcec99956]⟩,
   ⟨[0x57f6c0e0f3bfb, 0x162b3c9264f2c, 0x41c4e863cd2be, 0x44d72fe16345a, 0x666faa55bbb69], [0xe5ad6ed951f40, 0x420a55fd6d09e, 0x45debb67e01e4, 0x57700cda6b2e2, 0x2385bc90ba9cd]⟩,
   ⟨[0xd7fbdbc6992bf, 0x326a5e14a7861, 0x542159b191b29, 0x78df87b779043, 0x7d91072d769fc], [0xf81b25d9a6f04, 0x4f3de069b4e88, 0x3d1d943a8cbc1, 0x3f1fe40d629b, 0x3ec7b27c110ae]⟩,
   ⟨[0xa3fb03b6cc730, 0x23c7a1ae1d095, 0x4d884fc7d66ee, 0x6892eda82276a, 0x7e14dac6f262a], [0x78183982428a, 0xf555b51769f7, 0x2c306a05f265d, 0x7359935b2e81e, 0x17e43ecd283c0]⟩,
   ⟨[0x3a82e91e17bf, 0x2819ab5cb8ac3, 0x4ccb84250f825, 0x5b7b331d46bb5, 0x1d3ba6d0d999a], [0xfed56d79ee4f6, 0x159b4cd69ef9f, 0x1bffe18b5c9b0, 0x4736ad2a4d805, 0x34f5f044ba570]⟩,
   ⟨[0x1343287cdeba0, 0x13d882badab71, 0x5cad7b607fcc4, 0x23e01bf809a99, 0x3312ca1620ac9], [0x282755193459d, 0x4995e4e82e3e5, 0xcbcb85f02225, 0xd409bc19f795, 0x2e6edb143ce9]⟩,
   ⟨[0x4f31cb2d9bccb, 0x628a63902a713, 0x4f007bd385c5e, 0x1f74b1f93394d, 0x3086a647fcb5c], [0x398b0975f65d4, 0x4aa9fdc040688, 0x332d91719b6c9, 0x40bc443e8e4c7, 0x20aa4bacc6b0f]⟩],
  [⟨[0x82c1376036494, 0x381809a5dc13f, 0x7a768f09f3fdd, 0x24f9ad059ddf, 0x434faa3001a00], [0xf6c7e5397ce18, 0x473965da5203f, 0x22d664316484, 0x17d08dde3b42a, 0x32e15813d1d4]⟩,
   ⟨[0xa24c7658ba0cb, 0x4dafae0752e4d, 0x57fee62416fac, 0x7ce89a50a1c66, 0x5b3a87dda42c5], [0x15a6dcd0d9750, 0xdc64ff4d1d60, 0x62be62d48588d, 0x44ced6f7dc105, 0x51fd1713a7272]⟩,
   ⟨[0x31c0a4fba8cd3, 0x4d85d27bffbd, 0x73687ddd1897b, 0x3c18cabeb4462, 0x252009593038e], [0x6a4b0f43b1f03, 0x3596cef096ce4, 0x370a6ba70c9ec, 0x504fa8f22f8d9, 0x42ef23d58a32e]⟩,
   ⟨[0x18c743658227a, 0x59eb06d4851e7, 0x765c0b448c135, 0x2b1cdbe044e7f, 0x3bdf03c33fc4c], [0xb8dd5fb4a505, 0x42cd448fc94ee, 0x41528fb2a0c40, 0x6016ccfd12e3d, 0x50d6616bcb42a]⟩,
   ⟨[0x40b651d6d68fc, 0x4f96b3665f295, 0x32453022450b6, 0x62498b1682588, 0xfab72b2fccdf], [0x274624dfaf9a7, 0x4da952fbad71d, 0xc06372160275, 0x65f4951c1680c, 0x20b63127a4a88]⟩,
   ⟨[0x50a3603e9997, 0x3a6adcdf25d68, 0x1addceb37ff27, 0x4ae1b473a39f1, 0x8e1d46706170], [0xbdea888583d12, 0x58b06e62135f6, 0x6b07ee1cf9cf1, 0x7166bd7374570, 0x1b932b291a438]⟩,
   ⟨[0x5af929b2b37c3, 0x7549202796660, 0x513e2660de7fc, 0x6b6381885392, 0x331ebf4c330bc], [0x5604dfd132a81, 0x18ffb2cf41f7a, 0x5be1ffdb10454, 0x789c57a8eb47d, 0x3c7003c3cc193]⟩,
   ⟨[0xff74cfbd82392, 0x381f44f448a49, 0x37dadab5742d4, 0x3385cd8013c8c, 0x77c42b4529b16], [0x9c56f0944379a, 0x383bfa2b1c2b2, 0x3e4adf6856612, 0x4d8edc69a18ae, 0x782a2f6102155]⟩,
   ⟨[0xc8496202ae6a8, 0x433b75e48a25b, 0x5141d4b503e98, 0x5226a88155633, 0x22ca7649b49e], [0xdde29f41e7545, 0x51980467dce98, 0x5452cd2f2e90b, 0x44681e5a6b9bc, 0xb18699c70658]⟩,
   ⟨[0x454dcdc35f98e, 0x4d3a9a9b829bd, 0x5c82a6f53d23d, 0x54f2336a35986, 0x4f050eaa88bc5], [0x91ae73a0dc4cb, 0x6739166a25ec5, 0xf8dcfd062057, 0x680c6e9553f2e, 0x16c70ff5900ab]⟩,
   ⟨[0xc54ebad62eab1, 0x6a7c01e68f92a, 0x4c8f6fc7d7e91, 0x71f7b41ea0338, 0x441a714bec729], [0x4b4dad4f8a724, 0x33ed22ae26116, 0x79f365bf781ab, 0x2ca67e4caec5, 0x55a4a1a0081ce]⟩,
   ⟨[0x856b7cdede34b, 0x46fa048e577a5, 0x38378b91b299e, 0x4c31eac28396a, 0x1440ceebf654f], [0xde3fd4aced2b3, 0x7a22ff45e43f3, 0x7cc601e3b097, 0x2a04f943fbc69, 0x5c5f64d0d7533]⟩,
   ⟨[0xdbe80786b794b, 0x34c0f990b92ef, 0x330fbbbf05942, 0x27e782dc51868, 0x287a147d07324], [0x213f588bdaf78, 0x435d0191f486, 0x6f097d291a15c, 0x339afb6e98b50, 0x55b5a4ea63e71]⟩,
   ⟨[0x12aeec81a34e7, 0x3dbaaf67991ea, 0x737806f56c38c, 0x43d356c504230, 0x311dcd3f757d5], [0x73e6854beeae4, 0x5fb95f72d5723, 0x411187f7ce78e, 0x77e7ed750a498, 0x5993aa33720f3]⟩,
   ⟨[0x28a5a432f3f67, 0x75d0a5cab6768, 0x6396b9cab93d8, 0x546258d80855a, 0x3c09404670f46], [0xd1a71f0c8dc, 0x1ca62ad6c1c14, 0x494e0150b4553, 0xb039392e5564, 0x2ef65688dcb46]⟩,
   ⟨[0x82ca0145f254d, 0x1317c70253a1c, 0x6973d40e8d54d, 0x10e78cce403c7, 0x265a013fd1b69], [0x339c480223d, 0x55e9e7bb6db26, 0x58f178b4bace4, 0x71f32575fdcd2, 0x1c71c69b2119d]⟩],
  [⟨[0xaf8dfd07525d6, 0x5abddbe90d603, 0x4a248fdf2d0cf, 0x5172b1ca46e8d, 0x7bc8ce3e6b3dd], [0xf6a2beb2b44fc, 0xd349b42c8cf, 0x4b7cd7c88c973, 0x5eca8f4485d17, 0x7d62c28c79894]⟩,
   ⟨[0xb55207f725350, 0x155dfec40cdab, 0x27b783f369edb, 0x11a983c2841d6, 0x12b6224ae4c25], [0x9bf92ae68cf96, 0x1147bf976a441, 0x2ccf3203aaf22, 0x69bd39de1693, 0x32bc9448c60de]⟩,
   ⟨[0x6d373ded15dfb, 0x6bad3e5311a3a, 0x12ccbc4fcb6f2, 0x2a5a3b3908623, 0x542cfc756fe18], [0x657d935ecdc3f, 0xa8a6a301fe80, 0x394a934538ae2, 0x1db171ccfa8f2, 0x490705eeeab8c]⟩,
   ⟨[0x8239926a0236c, 0x4072433544306, 0x7bb7a8ed39fbb, 0x1f54925c1c4e3, 0x664e83a948559], [0xf11625dbae781, 0x692d219d5ff95, 0x73d91b99dd9ea, 0x50fbe7df80371, 0x57654a7f31cc1]⟩,
   ⟨[0xaee343c7c9d05, 0x90117343650e, 0x6cc575aeda322, 0x4f1e2f2b51775, 0x76f6db85d5f21], [0xb8cf913a709d2, 0x7fb116d7dc97e, 0x1529fd6eef6a5, 0x56a6b91e47df0, 0x2e9b775561208]⟩,
   ⟨[0x575d0571791a0, 0x578e1dbfbea77, 0x3a703a52790e7, 0xc97f49b37153, 0x4278132554eb7], [0x157ee9ea2f134, 0x3bb0e79c3342d, 0x2c36a38226e01, 0x7c88322acb85b, 0x4fb186883785f]⟩,
   ⟨[0x2044feb9f9253, 0x22fa260775335, 0x39f6e84f28a2, 0x1836dd1bab756, 0x8e7a67948e3e], [0x54204d45393e2, 0x3cecf402108d1, 0xc701a3210e7d, 0xbeadb8df7d41, 0x17ac9df9c5498]⟩,
   ⟨[0x2f2e0a3e75974, 0x2a9f168a74a87, 0x29f4a8513c289, 0x18e556097bc48, 0x200feb5bad923], [0x1b9ce667358ca, 0x55ae551a801f4, 0x42de696a62306, 0x2c75b9c6c564b, 0x164a218f9f79]⟩,
   ⟨[0xf29f428a74c0c, 0x63f194651b933, 0x528fa6e64e1e3, 0x68143117910ea, 0x1b40977c6ba02], [0x7f5d2bc286354, 0x402f53d46ebf9, 0x3b2c2080b52c, 0x63d348a76083a, 0xfd0d6c7223fa]⟩,
   ⟨[0x147d6e66efe04, 0x5e90ee23c1075, 0x6e84476d5b541, 0x52a8100787130, 0x2d2188343edc6], [0x1f9fad89722f0, 0x4a9f2401f68ae, 0x293427a23d1f0, 0x1d52b70f2e2e3, 0x3c937077da4b5]⟩,
   ⟨[0x874b69e730aad, 0x646b3e1a4c500, 0x7077863f9d016, 0x60558644a040d, 0x36900beb6a2f1], [0x5c370223fb20a, 0x447fb93d1e921, 0x64d502a1f13b6, 0x4251becd4b787, 0x7d125955b235d]⟩,
   ⟨[0xff3e0247628c3, 0x5612c7ef51c2a, 0x2ef572e567422, 0x3f06b0469ab7b, 0x209ba13287307], [0x8994050632779, 0x9a3e92f3709f, 0x16204ee7b6320, 0x2f94d7b3dcaf7, 0xb4460f41ee3d]⟩,
   ⟨[0xc5f26f312d2c5, 0x71e7c34cdfed2, 0x2a8304adf0d4f, 0x5133e4eaa736f, 0x4abe07c40cfa9], [0xa08f9029290ff, 0x3eaf403c6d98b, 0x60dbc0edb37b6, 0x7cec6635832c, 0xc81f88e255bc]⟩,
   ⟨[0xc0f4508fe693d, 0x57782552c17e7, 0x167570039c207, 0x6114c8419f3c0, 0x1712ce2c1cbea], [0x6787a0aa1dbed, 0x2b18b64e45e6a, 0x5fce592027594, 0x2e88eba3ecffd, 0x476fd0c587c15]⟩,
   ⟨[0xcbd80aab36fbf, 0x6aba6598d0a0a, 0xd1c530fcac66, 0x2286c6b68e8f6, 0x6aaf0d091c807], [0x5bdf3cd0e8d0, 0x6960a3e5d2c66, 0x638b2ebda0973, 0x4ee54544d3339, 0x40bdb62e2c15a]⟩,
   ⟨[0xbeccc002bcd28, 0x7346e8c2a60e7, 0x3b9f742d1704b, 0x1370f879a06b2, 0x5a0a68f92c852], [0xbd4fd9cd7c516, 0x4d3d2354f933, 0x3175e3418c5b6, 0x415e970f01d4a, 0x277440ed12c8]⟩],
  [⟨[0x4f80b29259121, 0x4c7ad79241cbb, 0x31a2024b0c285, 0x2905f7dc32728, 0x18f4173185ce8], [0x8d35e043b3193, 0x294db8f82806b, 0x6e11fa9efb7f8, 0x7ec8cc6030101, 0x7ce956aed6cfe]⟩,
   ⟨[0xce55cc1171587, 0x54b3932a64433, 0x5ba7c98fd8209, 0x56cce0ed96a42, 0x79534ed8a0faf], [0xab036181f5c5d, 0x2c036c8a43ede, 0x1d4508e4c7ed0, 0xe128f1a3971f, 0x417208f6464e5]⟩,
   ⟨[0x633c1ff9dfeff, 0x5208bbfbde89e, 0x256f7bbee3ff4, 0x577f9d2d9026b, 0x745c594b0bdc9], [0x21489a9dcd65, 0x77418195c0224, 0x43817466cdb80, 0x1f3bc7125c1d7, 0x22c79f6bb84f9]⟩,
   ⟨[0x175240458c6f2, 0x3ff9b00db6449, 0x1764bb4c86102, 0x4bcc4db3af4f4, 0x7ef78d9e386bb], [0x2dfba149190f7, 0x3da9b88d643cf, 0x1c3155190eeec, 0x5d430c2250a24, 0x2593ace56a866]⟩,
   ⟨[0xa92165b59c268, 0x7b4fd61c8acff, 0x25086fd2da482, 0x694eda01406d5, 0x5dde8f63674a6], [0x70f2a7161678d, 0x5d1daa454feeb, 0x3e403685bec15, 0x3da80c68ec0d1, 0x190b8fd47b2f4]⟩,
   ⟨[0xd2f2403eecab3, 0x6ea952ebf1b65, 0x7d581fecf7ecc, 0x306921de856f0, 0xf2f865d32b26], [0x6463217b9d5f6, 0x5bc460ee03a7d, 0x2c7357e245644, 0x336e4e5beb241, 0x4eaa60fb21263]⟩,
   ⟨[0x31b08269f9703, 0x5209a523b7d2, 0x39942d5f26a4, 0x2779b510c5171, 0x554d0a38e2ed7], [0x9d61a3eb63c62, 0x6b3c74ddabf3e, 0x180175fccd722, 0x5ddf5ef9271a6, 0x5d1b2eb83f58d]⟩,
   ⟨[0x269380cf53650, 0x478cba29c961b, 0x3dce7e460a8af, 0x5dc0399eb13a3, 0x78777353bf27d], [0xed3b71cb3ddf7, 0x4937fd2ac37c7, 0x7a97f8a99835c, 0x7e9175e349529, 0x49ad7788a8375]⟩,
   ⟨[0xafb12685f6754, 0x1cc137990650f, 0x6ec6c0db127ec, 0x2f3f9c92b06, 0x68ed61bed7b48], [0x48477fec95fce, 0x516ed0bb6c079, 0x58ac37081fa80, 0x52743d6e32aaf, 0x135b867d60fa5]⟩,
   ⟨[0x17a14a66889b, 0x5b0aeeae56f98, 0x2236bacae8af2, 0x3c2257520a874, 0x436dd2f42bb1a], [0xe73dee8e27b51, 0x26156fabfd33e, 0x2e3a732b167ef, 0x593856e3ba35d, 0x572bafd316337]⟩,
   ⟨[0x4cccd1bfe2f09, 0x1eb388a46db63, 0x52ec6a89bdb63, 0x3f464068d9320, 0x66681dd5542fc], [0xada67b76dedee, 0x20bc1e48f374e, 0x10a381907fb3d, 0x2a188efb7d771, 0x204a6cb902379]⟩,
   ⟨[0x17228a8f41270, 0x3861fa7811ff1, 0x5c24baa43480b, 0xd91805b4eaef, 0x161df51ff7c92], [0x2e8c34073031b, 0x4fc9fc002e034, 0xc517474bd432, 0x5b028cc00b4fc, 0x32cee00379e56]⟩,
   ⟨[0x4483dbeadb2e0, 0x6513ede13135b, 0x16dad5c521a87, 0x5a3e8526657fc, 0x71d76b3e6d02e], [0x6473d1426baf9, 0x4aa50405810d9, 0x775bf4ea667b2, 0x28f630f480b2a, 0x541e49b3c2921]⟩,
   ⟨[0xc2316d694346, 0x6bb5d8dd7ac20, 0x544ba02c52f67, 0x1a8380e0c329b, 0x6254291b6d56], [0x23469e53de6a0, 0x67b362fc9815b, 0x78587a6abe2a0, 0x1e2ddc24c52fb, 0x2969d891424b8]⟩,
   ⟨[0xdd3be38c271bd, 0x8aadd395b9d4, 0x41097dcd173b3, 0x377212b3119e9, 0xe67bf82272d5], [0x6e0bb94cf58ac, 0x408f1a38e35fd, 0x29ef91d563a40, 0x56766929b4b6c, 0x5c011dcb741ea]⟩,
   ⟨[0x4d1781bd13fd0, 0x4ce399554755, 0x3a691da00b124, 0x7283232ccd5cf, 0x52a1af5a0d851], [0x7bee24a3684d7, 0x5652266b2a4b5, 0x289e5435afe4, 0x15fefbee25260, 0x7347eafaf74a5]⟩],
  [⟨[0xc05e66d978880, 0x25a3cb58deacc, 0x220ab73235f4c, 0x490d8f0df59e2, 0x7c69489bd76e1], [0xdbd924d1922f1, 0x5833be28c2f2f, 0x35b00e5de675f, 0x2f1b35d5a7675, 0x4858f6235f10c]⟩,
   ⟨[0x2a925a417ea11, 0x56e31bc4d175e, 0x38e61d9a3b411, 0x3812ac6aeffe2, 0x228b12a98c126], [0xa7b3e73b423b7, 0x66ccb2668379b, 0x65b91202bd9c8, 0x29ed3be98abf3, 0x273c6405f5146]⟩,
   ⟨[0x5c609d0b22d03, 0xe2d4e998729a, 0x4fccd77c349d1, 0x61b1d24b06088, 0x4891488bbb2d2], [0xd2ae5bca0967e, 0x50335cabfcb67, 0xdde04aeeadb4, 0x28aebb9ad957f, 0x4d067c74ccbc3]⟩,
   ⟨[0xda73f6f1aecd9, 0x79bff45612fc1, 0x51867e472c99f, 0x1a560565247f0, 0x5bed5f4ceb10a], [0xc2d41ffee613b, 0x48cdf00cf0891, 0x5e4502aa3852c, 0x656df596b0089, 0x58d53ae7b7ac]⟩,
   ⟨[0x5633b9b0b6527, 0x2f32bc7dcae54, 0x50df012cc4a7f, 0x1dc2dc80caf77, 0x1cc28bce8b4b0], [0x352fcccd0a46d, 0x20a7d1a52db7f, 0x3e924d7cb5f73, 0x5e0f520791fac, 0x6fbacacfaa219]⟩,
   ⟨[0x7dd39e4996ed6, 0x285231a44d102, 0x2fec0c9baa76e, 0x1d126bb5f5562, 0x720ec42a4351f], [0x2c4d634b2d745, 0x7fff3e43b229c, 0x3a4e652046b82, 0x7fddb53af519, 0x3fd6a967b2866]⟩,
   ⟨[0xdf55ad8667e0f, 0x473081c72aafb, 0x2e3e9dd231d51, 0x638b70aa3f97, 0x19ae4400e8136], [0xe28055bc46447, 0x760478b05575, 0x5aa7505f4850b, 0x5ba7632be614c, 0x4c7deaf3bfa9e]⟩,
   ⟨[0xf0aa2a3aa87c8, 0x19fbb01d0dff, 0x6de474ad0cb2c, 0x1b2d3afee81f5, 0x4b057e9df9f8f], [0x8a62f51812859, 0x96944166a90e, 0x6e95ab6851ba6, 0x55e80de3635da, 0x7f910349b50d7]⟩,
   ⟨[0x24bd4e9a47a8, 0x44e53ac4823a9, 0x60a0b2a2844e1, 0x6ca7fa0ec1ab9, 0x79dbc726a893e], [0x2ecbd617d4bfd, 0xed06a79cd79b, 0x1128125b8c751, 0x1a3cdaf24d9f6, 0x76d2644374fb2]⟩,
   ⟨[0xbb495334d6735, 0x48e4e318d35a5, 0x65ccc9fd612ce, 0x48647bf9ad225, 0x1f308cffc4d92], [0x993066fb5ca15, 0x1024a9dbaaa76, 0x1d8206f56bb3e, 0x791789cb797fc, 0x28daf3708084c]⟩,
   ⟨[0x5f4d6a2bb2865, 0x411783abfeaa9, 0x285fe4d07fdea, 0x12c2888bbab91, 0x2f0d1613cbfea], [0x761dd1f118de4, 0x77d77cab21417, 0x104df213824a8, 0x19bdca8bf3bbe, 0x228e1468298f4]⟩,
   ⟨[0xad4d25721fb0d, 0x5bbec9d9b8fcb, 0x6f18917a24a9, 0x1af194e249824, 0x1c1d002c78c5f], [0x5fcea6541a6d3, 0x12b0a3891c25a, 0x1ca915ef579a4, 0x6a1530d0ca296, 0x405353e349c62]⟩,
   ⟨[0x7dd87797327cf, 0x49a24a1519c3d, 0x7e2d3194c7738, 0x4ade201a4f2b4, 0x5f03f2024d796], [0x3a8a2bf24065f, 0x28b98e4e34848, 0x6cce4be857549, 0x1bfea602c4ab8, 0x57c821f831efa]⟩,
   ⟨[0x117a2cf6fb17, 0x3d763a3738149, 0x74936049cac1e, 0x7f5a417605453, 0x3c597e1af5ea2], [0x3fbdd76dc1695, 0x3c1fdac636fa3, 0x2045f1403ca79, 0x34aec03f7a823, 0x862068283073]⟩,
   ⟨[0x78f961971e1bb, 0x7027c711936c2, 0x69d7ebbb0edbc, 0x2680d032f1c61, 0x615b3503a9f8a], [0xbc2a332182d40, 0x706cf8e7cbe3c, 0x4537d7373214f, 0x2f1c7690b885e, 0x22b7364cf32e1]⟩,
   ⟨[0x62087435b3f31, 0x7ea9c3772e730, 0x6cbd6a025839c, 0x2e4060c1fa411, 0x13a216f147ecc], [0x8e787a8f7310f, 0x7c9628a16653f, 0x4b18b674cf1d2, 0x42c9c4340922b, 0x12dd24a757e97]⟩],
  [⟨[0xd0dab38bac990, 0x14ab1de778bdd, 0x44aac030b8ee5, 0x35662b41d1ca8, 0x3e1b41627aa05], [0x93d56ab528772, 0x56a1f801b8bdd, 0x2395fb846157, 0x55f0166143aab, 0x138392048ce38]⟩,
   ⟨[0x629076955ef18, 0x1f5903edc6036, 0x3b60df38e1955, 0x7d3533d1a0956, 0x616e9e879b346], [0xcc4d2e5a62590, 0x8df009361c78, 0x60924be5f5c3f, 0x5698777d3eb64, 0xbd31c925896b]⟩,
   ⟨[0xcaf98364436a6, 0x1984f8f41d0b8, 0x6839d748040e7, 0x3647a88d1c1, 0x4c9a82c439698], [0x9f1bb2d35d65d, 0x656d1e3913d0b, 0x25d8a8db01f82, 0x716c168ba26fc, 0x5f7eae6da00df]⟩,
   ⟨[0x6900af557123b, 0x48ad482a31c95, 0x224e02fa0d5a3, 0x49f121bc5bb9c, 0x2819539dbcc91], [0x52aa36806e6d3, 0x75d00da560416, 0x20c8d5835b70c, 0x42f7fce2fde3f, 0x18d1671fea942]⟩,
   ⟨[0x126788daf932f, 0x1a2486598e1eb, 0x1fa9390f89087, 0x465b8fba99789, 0x1391087ebf066], [0xd560b9ebe0a12, 0x45df4fd156260, 0x4c0f5bb97f89c, 0xc02d902ad41, 0x6d6abd8b710cb]⟩,
   ⟨[0x240c819be997b, 0x79702659a3fcc, 0x38ff0842940ff, 0x3be2fc37f5dd7, 0x55903d1bf4d50], [0xf7788bbcf7c69, 0x314f86b17508b, 0x759ba40aaa5de, 0x8f55d89b53da, 0x40cd6fef17ac]⟩,
   ⟨[0xbcf2803b34afc, 0x15bcec54183db, 0xe63b583c38d3, 0x543cec0dd9ac8, 0x6dca0edabdf99], [0x6ad8fca4b7a84, 0xecf4c9b4756, 0x2ea049d3c90f8, 0x434f3afa9c904, 0x5bb44fda046a9]⟩,
   ⟨[0x456fff38ce9aa, 0x7628838c3fb34, 0x47defe5f449ab, 0x2ebe6bac977b1, 0x2629151fd158], [0x56d1807a2f107, 0x37d8da4ee56ad, 0x64130e6c56675, 0x59823ccd4bae, 0x351d4561a3074]⟩,
   ⟨[0xd0d5151460dba, 0x41aad3dc6d3f7, 0x30392b1d25432, 0xec685a8f63c0, 0x41e76ed18c1cb], [0xdc86815dbe186, 0x1744c18b22c78, 0x7fff9efe95ad9, 0x5ee221f3a7f26, 0x2ed76ddd0673c]⟩,
   ⟨[0xbe8e0aedd873d, 0x5c21ad1208b00, 0xc2b71802c36, 0x3cee802954bf7, 0x212a13c9706c1], [0xc1f2261d59ff3, 0x5fe776bc7f5cb, 0x52fbd0c5ec34e, 0x431cc02acd223, 0x24d9db51e1e1f]⟩,
   ⟨[0x2c7cae989c78a, 0x53b83ff5723a2, 0x8a8e6302e842, 0x28299a28f9921, 0x4216ee9364122], [0xc023a772c47b9, 0x773c2d287bb4d, 0x6da1f1aa10221, 0x3a3241b2b09fc, 0x8cde7a649b22]⟩,
   ⟨[0x7450c29ebcf74, 0x4439dbeeb77a6, 0x343c10d713c0f, 0x59b68d7feb70f, 0x34672b08f9529], [0xeb776f7fe244b, 0xa1574415007c, 0x2e545671ddcc2, 0xc8f00787b92c, 0x4ccfcc6c1c843]⟩,
   ⟨[0x752c74fa6089e, 0x43769af9d8146, 0x76a2097c10acd, 0x21e5fd7934dfc, 0x44cd453c591f0], [0x5d742fefe529a, 0x52812a2132236, 0x63a0ff82baaa3, 0x3821492fa5799, 0x6c3d3d91e5995]⟩,
   ⟨[0x7f5965bb5061a, 0x33dd3b61a3acd, 0xed9a94eaf477, 0x5e2154735c2d, 0x310c8e2dc1fa9], [0x9c12ca0fab3fe, 0x645039e999a55, 0x27e092d9877a3, 0x234c26b632a1c, 0x1112b3978bbb5]⟩,
   ⟨[0x643ef08eedfda, 0x41557fc7f909e, 0x7d194be89c579, 0x13e7d0eb4169d, 0x68c97c0b130ab], [0x5670e75f30fc3, 0x12abe1f6f59db, 0x31c4929892e23, 0x67c5926ee61d5, 0x5ea09499eb737]⟩,
   ⟨[0x68e5711d3cc63, 0x355284ff4ee0b, 0x2ed6c094527f4, 0x18fd4f583bbbd, 0x7e732542eb790], [0xfbd7d6a2b1252, 0xd8b42a24e7bc, 0x64fe14876840c, 0x128c33f1ae9c6, 0x47654d530aba4]⟩],
  [⟨[0x3bd937849f59d, 0x63606c7698d1, 0x54b2a0fd2fd04, 0x29e53f79f11a6, 0x555baed07f9c6], [0x2d0a2306d73ce, 0x29dff85dcb561, 0xc1c9000dbcd2, 0x21a0f680519e0, 0x1bc10e993db9]⟩,
   ⟨[0x10a2bb8d581b9, 0x43123d8b4d328, 0x3d3f6518c92cf, 0x5ef4037756ef4, 0x23620c43dd673], [0x758b33a3a641c, 0x201801c92394e, 0x7381bd7f0ef26, 0x7c1bda98cf272, 0x446e3cf2318b9]⟩,
   ⟨[0xcaa4017fcf7b6, 0x5167aea33b820, 0x455c15b6b0603, 0x3795daa8317af, 0xa7cffbd6a356], [0xcdf21a7146cd4, 0x5d9c22c0b9910, 0x21d488f79acff, 0x5857d2a8817a3, 0x418b1f899b332]⟩,
   ⟨[0xf3021477826e7, 0x1e04bd00e11cf, 0x6ea82ee2cf354, 0x576e72adfaf95, 0x1d0d5496b0bca], [0xd490f0dd8482a, 0x49d8cff1ac3f4, 0x3460bfa5563d1, 0x55034532a88b0, 0x6a47213652104]⟩,
   ⟨[0x11f911810e70c, 0x2d6b48d33d172, 0x34ab16d9af3d1, 0x561679c3033dd, 0x357cce137a82d], [0xb31f0ef17f79e, 0x6ea6cd3094b9c, 0xb35f3599dbb1, 0x7f52ccb68649e, 0x5046ae5a46633]⟩,
   ⟨[0x6b212836316b9, 0x55299b1c49a9a, 0x705eefd2620e8, 0x46dc053b6ee87, 0x7030884c7ff32], [0x6b7b8e9dc79c4, 0x13a8b2116229f, 0x4292d01383268, 0x265411fe1dfd7, 0x51b40396f7f2d]⟩,
   ⟨[0x46d30b8d0b765, 0x447051a08754c, 0x2c393e136a77, 0x92c51bef8b5b, 0x72a82d90d0c54], [0xe14bc9577fa35, 0x2613d84e90001, 0x7dcd817fc6b73, 0x4ccb07a61114e, 0x128ddae580395]⟩,
   ⟨[0xa65f62b5b469, 0x1449cdf3ba068, 0x2b322e44f8b5c, 0x637cd9daa7cd9, 0x2826d20f6b6e0], [0x935f7ae7ce72c, 0x427c2f3c89114, 0x2bc82197eec1e, 0x1d3ad81c2bb09, 0x113864cb480e5]⟩,
   ⟨[0xdf31256d0fa32, 0x658162f4c433b, 0x357078bbd48e7, 0x5d6c0b50101c9, 0x7f2f4fdfd19fa], [0x8f60ffac3108a, 0x301c7448afa71, 0x15eb2f2a78bef, 0x17f839739c650, 0xc63a5c9b4465]⟩,
   ⟨[0xd2864de66efdb, 0x19367aa93908d, 0x42d4df0ea2c9b, 0x63dabb09387b7, 0x41d7e1b815d0c], [0x94df2a88ce7e3, 0x3e4681539ce25, 0x65386e54f328e, 0x45204f7eb68ff, 0x152316128558c]⟩,
   ⟨[0x85dd706dfbf1a, 0x1cd3a8a2f3283, 0x389177c3b129f, 0x266a3af43485d, 0x4343000537f1e], [0x4ede550cb3a82, 0x7920adcb60ee2, 0x508d86ec186e3, 0x459bb98ae049a, 0x3c8621e0c7957]⟩,
   ⟨[0x3f7b355181e78, 0x34b66a3da0c48, 0x75b38f80b96f, 0x1e51de76b5138, 0x24c9c3d9e4494], [0x3623deb850a90, 0x4c35b7e8127cd, 0x657a5bf58646c, 0x5c440db594283, 0x49678d88daa4e]⟩,
   ⟨[0xf586e6cf04b0c, 0x56b294784ed4, 0x6acfa4c41fbca, 0xf85ba1e98bc9, 0x7be95fd49b8cb], [0xc7f0aef19999c, 0x710b40227e43b, 0x5d2d5948b666c, 0x7c2def57822e5, 0x5e9dd0bca2b4c]⟩,
   ⟨[0x4cd7c5a1f0474, 0x703184e03d953, 0x8847256a3a0a, 0x23256a8f362ce, 0x6fa0a053c19f6], [0x4fda4ec4f6e5a, 0xeaaf716d7474, 0x31b1d9beea00a, 0x6e77cc7b43bea, 0x68b7fe52a5418]⟩,
   ⟨[0x182c3893c913f, 0x5bd035564ddce, 0xefb789eeea1d, 0x2fd7231bce945, 0x1e172f821bfd8], [0xb79c4b183ee97, 0x5aa4e66eb8680, 0x3f0999ea39964, 0x4ccc4c10842f5, 0x1d9639116eb1b]⟩,
   ⟨[0x1f4cff4a6524d, 0x77a87ca5d36ab, 0x79c9cfa901fd4, 0x7141692444638, 0x50a52b8f11178], [0x606812d21a754, 0x6cce87ecefd, 0x70cf16ea53db0, 0x64231a76b8461, 0x1ce749122c65f]⟩],
  [⟨[0x7bb82d3c5b684, 0x665b3553fdd82, 0x622b712414be5, 0x68a66023fd004, 0x2c4f1c507e8e9], [0x67b5c49251a27, 0x767a5fefdecea, 0x6d5127e924f9e, 0x1faef3dffbbb1, 0x43d69e32fad1c]⟩,
   ⟨[0x34e704bf54825, 0x49bdb19e6dc0e, 0x7f28264fb6501, 0x38880b959c688, 0x4f0a3d37e757e], [0x3cac81f94c40c, 0x58393688fff80, 0x347b9e5a5c961, 0x7e8d8d772b424, 0x6c42a57b3abf7]⟩,
   ⟨[0x97fc2e68c8ccf, 0x475cee29f1e8f, 0x298e28356667e, 0x949de8de0d9f, 0x11bd78f109ce1], [0x9593d9ce46006, 0x57e6f9033002a, 0x5def40003f782, 0x18a1e90f301f2, 0x1c9df45910326]⟩,
   ⟨[0xc11204b142486, 0x1de83cff6a309, 0x28e98bd4fbe39, 0x7ff81c2722301, 0x4e8ec07e39c5c], [0x1eacfeacea3a2, 0x121b16b6b2243, 0x28a37b9bd6cdb, 0x21a158458c7ae, 0x633b208185c49]⟩,
   ⟨[0xefde020df8d9, 0x3d774591fde3b, 0x7a513e2e25ca3, 0x5e307a27f1a86, 0x526839795ff69], [0x5d1c8482d8549, 0x6dfd24c6f2ed5, 0x3185ad6610edb, 0x11600733cb20b, 0x561d0593758d]⟩,
   ⟨[0xe7303812e9251, 0x60faa9640ac68, 0x6990e9e84eaab, 0x13205597a21e0, 0x1b36994783e3b], [0x5f117ac96ffd5, 0x726340518125b, 0xb4c646458726, 0x30611fce4a03f, 0x24da1c03f5846]⟩,
   ⟨[0xa7e110a8a2315, 0x7b5efabe2f3df, 0x6dce7cebcdb02, 0x58f4e8dc9c7e1, 0x7ef25de94461b], [0xa9ad49c0f6e54, 0x3cbf884aa9599, 0x6a88c60115d4e, 0x2c8d6cb6a4b63, 0x5526619b4f14f]⟩,
   ⟨[0xa7e10ba3f6e66, 0x4f52ae281a0ec, 0x3476b97096769, 0x11ad428a9fa42, 0x2b4544f28575f], [0x6446f85be14e9, 0x1e6fbeedfad52, 0x581f0641bdaa7, 0x6637991ae7f02, 0x27e73bcc450a7]⟩,
   ⟨[0x4837df05b910e, 0x2779ac207231d, 0x5394bb62f9685, 0x6ac7db912d183, 0x6db2d56a1a285], [0x50eb1aa8e171c, 0x6cb734d7871d7, 0x3489e3a49926a, 0x7a7af3c7269b9, 0x506fb61e5d9d0]⟩,
   ⟨[0xd3e9fbcb8e76e, 0x6bc0ce3973127, 0x3fea5962a9166, 0x10e5cb8b98d3b, 0x3d71f40dfe3fd], [0x66b6980e59640, 0x4772e1bf69616, 0x382f325f1d096, 0xe79b55d3b181, 0xe77d96c328f4]⟩,
   ⟨[0x349b94216387d, 0x4b7a80220d9fd, 0x6912f408ce0c6, 0x539e83f596047, 0x4834100723280], [0xc9832c2f9a7ec, 0x48534033e2cc1, 0x52157f1129fa5, 0x32b2c4930ba32, 0x7d34399534663]⟩,
   ⟨[0xc589fc644caba, 0x3362b2512baef, 0x746159fce3f0, 0x40aaf0341039e, 0x6bafd459922fc], [0xa089c7902ef38, 0x7c692f2f9ce42, 0x26f314ba444b4, 0x70534a8c26791, 0x6a5cf6d52a467]⟩,
   ⟨[0x15cb92041529b, 0x49f22868af3d0, 0x5f3105d324fc9, 0x1ab468a5313f8, 0x73bcebff704d3], [0xcfcbcd02f5cbc, 0x766c24804981a, 0x181e80b278c77, 0x6cb8fbe114da9, 0x57c201dd17423]⟩,
   ⟨[0x47bca3ef2d278, 0x9eae1a7c039d, 0x1eeda0a098a7e, 0x3b5b1c05f89ee, 0x5d3332a3a6013], [0x6490feca06cf9, 0x3ee7d19213955, 0xa5b59824f8e4, 0x4f3fdcfb627e2, 0x56f87225e3ed3]⟩,
   ⟨[0x1b52b2b0f1bd, 0x1aad95a0bf6d7, 0x529216f79e19e, 0x14cf4a2bf207b, 0x236f709d78288], [0xeed40abfa1d8c, 0x6115a9fa586e3, 0x5ae4248864cf2, 0x343cbdcfd5d69, 0x55f0cdac28be]⟩,
   ⟨[0x94b3c9c54cab, 0x34be83cf2dcaa, 0x798965804267e, 0x1968c2a055d56, 0x729ad776cb05c], [0x8022b51ae8a66, 0x4cb32422b0432, 0x69790787abb62, 0x2f124051391fc, 0x3c38c28cbe53c]⟩]]

/-- `lut_cmb[j][k]`. -/
def lut_cmb (j k : Nat) : AffW (List Nat) := (lut_data.getD j []).getD k ⟨[], []⟩

end Gost.Ecp_CryptoPro_A
