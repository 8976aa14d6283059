import Verif.Model.FiatField

/-!
# The functions, constants and table of `/repo/ecp_id_GostR3410_2001_TestParamSet.c`

64 bit version of the file (`__SIZEOF_INT128__` is defined).  Generated by `tools/mkfiat.py`, statement by statement;
see `Verif/Model/Fiat.lean` for the meaning.  All line numbers refer to this file.
-/

namespace Gost.Ecp_Test

set_option maxRecDepth 100000

/-- `fiat_id_GostR3410_2001_TestParamSet_mul`, lines 243-581. -/
def mul : CProg := ⟨[
  .set (.a 1), .set (.a 2), .set (.a 3), .set (.a 0), .mulx 64 (.x 4) (.b 3), .mulx 64 (.x 4) (.b 2), .mulx 64 (.x 4) (.b 1),
  .mulx 64 (.x 4) (.b 0), .adc 128 64 (.c 0) (.x 12) (.x 9), .adc 128 64 (.x 14) (.x 10) (.x 7), .adc 128 64 (.x 16) (.x 8) (.x 5),
  .set (.add 64 (.x 18) (.x 6)), .mulx 64 (.x 11) (.c 0xdbf951d5883b2b2f), .mulx 64 (.x 20) (.c 0x8000000000000000),
  .mulx 64 (.x 20) (.c 0x431), .adc 128 64 (.c 0) (.x 11) (.x 24), .adc 128 64 (.x 27) (.x 13) (.x 25), .adc 128 64 (.x 29) (.x 15) (.c 0),
  .adc 128 64 (.x 31) (.x 17) (.x 22), .adc 128 64 (.x 33) (.x 19) (.x 23), .mulx 64 (.x 1) (.b 3), .mulx 64 (.x 1) (.b 2),
  .mulx 64 (.x 1) (.b 1), .mulx 64 (.x 1) (.b 0), .adc 128 64 (.c 0) (.x 43) (.x 40), .adc 128 64 (.x 45) (.x 41) (.x 38),
  .adc 128 64 (.x 47) (.x 39) (.x 36), .set (.add 64 (.x 49) (.x 37)), .adc 128 64 (.c 0) (.x 28) (.x 42),
  .adc 128 64 (.x 52) (.x 30) (.x 44), .adc 128 64 (.x 54) (.x 32) (.x 46), .adc 128 64 (.x 56) (.x 34) (.x 48),
  .adc 128 64 (.x 58) (.x 35) (.x 50), .mulx 64 (.x 51) (.c 0xdbf951d5883b2b2f), .mulx 64 (.x 61) (.c 0x8000000000000000),
  .mulx 64 (.x 61) (.c 0x431), .adc 128 64 (.c 0) (.x 51) (.x 65), .adc 128 64 (.x 68) (.x 53) (.x 66), .adc 128 64 (.x 70) (.x 55) (.c 0),
  .adc 128 64 (.x 72) (.x 57) (.x 63), .adc 128 64 (.x 74) (.x 59) (.x 64), .set (.add 64 (.x 76) (.x 60)), .mulx 64 (.x 2) (.b 3),
  .mulx 64 (.x 2) (.b 2), .mulx 64 (.x 2) (.b 1), .mulx 64 (.x 2) (.b 0), .adc 128 64 (.c 0) (.x 85) (.x 82),
  .adc 128 64 (.x 87) (.x 83) (.x 80), .adc 128 64 (.x 89) (.x 81) (.x 78), .set (.add 64 (.x 91) (.x 79)),
  .adc 128 64 (.c 0) (.x 69) (.x 84), .adc 128 64 (.x 94) (.x 71) (.x 86), .adc 128 64 (.x 96) (.x 73) (.x 88),
  .adc 128 64 (.x 98) (.x 75) (.x 90), .adc 128 64 (.x 100) (.x 77) (.x 92), .mulx 64 (.x 93) (.c 0xdbf951d5883b2b2f),
  .mulx 64 (.x 103) (.c 0x8000000000000000), .mulx 64 (.x 103) (.c 0x431), .adc 128 64 (.c 0) (.x 93) (.x 107),
  .adc 128 64 (.x 110) (.x 95) (.x 108), .adc 128 64 (.x 112) (.x 97) (.c 0), .adc 128 64 (.x 114) (.x 99) (.x 105),
  .adc 128 64 (.x 116) (.x 101) (.x 106), .set (.add 64 (.x 118) (.x 102)), .mulx 64 (.x 3) (.b 3), .mulx 64 (.x 3) (.b 2),
  .mulx 64 (.x 3) (.b 1), .mulx 64 (.x 3) (.b 0), .adc 128 64 (.c 0) (.x 127) (.x 124), .adc 128 64 (.x 129) (.x 125) (.x 122),
  .adc 128 64 (.x 131) (.x 123) (.x 120), .set (.add 64 (.x 133) (.x 121)), .adc 128 64 (.c 0) (.x 111) (.x 126),
  .adc 128 64 (.x 136) (.x 113) (.x 128), .adc 128 64 (.x 138) (.x 115) (.x 130), .adc 128 64 (.x 140) (.x 117) (.x 132),
  .adc 128 64 (.x 142) (.x 119) (.x 134), .mulx 64 (.x 135) (.c 0xdbf951d5883b2b2f), .mulx 64 (.x 145) (.c 0x8000000000000000),
  .mulx 64 (.x 145) (.c 0x431), .adc 128 64 (.c 0) (.x 135) (.x 149), .adc 128 64 (.x 152) (.x 137) (.x 150),
  .adc 128 64 (.x 154) (.x 139) (.c 0), .adc 128 64 (.x 156) (.x 141) (.x 147), .adc 128 64 (.x 158) (.x 143) (.x 148),
  .set (.add 64 (.x 160) (.x 144)), .sbb 128 64 (.c 0) (.x 153) (.c 0x431), .sbb 128 64 (.x 163) (.x 155) (.c 0),
  .sbb 128 64 (.x 165) (.x 157) (.c 0), .sbb 128 64 (.x 167) (.x 159) (.c 0x8000000000000000), .sbb 128 64 (.x 169) (.x 161) (.c 0),
  .cmov 64 (.x 171) (.x 162) (.x 153), .cmov 64 (.x 171) (.x 164) (.x 155), .cmov 64 (.x 171) (.x 166) (.x 157),
  .cmov 64 (.x 171) (.x 168) (.x 159)], [172, 173, 174, 175]⟩

/-- `fiat_id_GostR3410_2001_TestParamSet_square`, lines 596-933. -/
def square : CProg := ⟨[
  .set (.a 1), .set (.a 2), .set (.a 3), .set (.a 0), .mulx 64 (.x 4) (.a 3), .mulx 64 (.x 4) (.a 2), .mulx 64 (.x 4) (.a 1),
  .mulx 64 (.x 4) (.a 0), .adc 128 64 (.c 0) (.x 12) (.x 9), .adc 128 64 (.x 14) (.x 10) (.x 7), .adc 128 64 (.x 16) (.x 8) (.x 5),
  .set (.add 64 (.x 18) (.x 6)), .mulx 64 (.x 11) (.c 0xdbf951d5883b2b2f), .mulx 64 (.x 20) (.c 0x8000000000000000),
  .mulx 64 (.x 20) (.c 0x431), .adc 128 64 (.c 0) (.x 11) (.x 24), .adc 128 64 (.x 27) (.x 13) (.x 25), .adc 128 64 (.x 29) (.x 15) (.c 0),
  .adc 128 64 (.x 31) (.x 17) (.x 22), .adc 128 64 (.x 33) (.x 19) (.x 23), .mulx 64 (.x 1) (.a 3), .mulx 64 (.x 1) (.a 2),
  .mulx 64 (.x 1) (.a 1), .mulx 64 (.x 1) (.a 0), .adc 128 64 (.c 0) (.x 43) (.x 40), .adc 128 64 (.x 45) (.x 41) (.x 38),
  .adc 128 64 (.x 47) (.x 39) (.x 36), .set (.add 64 (.x 49) (.x 37)), .adc 128 64 (.c 0) (.x 28) (.x 42),
  .adc 128 64 (.x 52) (.x 30) (.x 44), .adc 128 64 (.x 54) (.x 32) (.x 46), .adc 128 64 (.x 56) (.x 34) (.x 48),
  .adc 128 64 (.x 58) (.x 35) (.x 50), .mulx 64 (.x 51) (.c 0xdbf951d5883b2b2f), .mulx 64 (.x 61) (.c 0x8000000000000000),
  .mulx 64 (.x 61) (.c 0x431), .adc 128 64 (.c 0) (.x 51) (.x 65), .adc 128 64 (.x 68) (.x 53) (.x 66), .adc 128 64 (.x 70) (.x 55) (.c 0),
  .adc 128 64 (.x 72) (.x 57) (.x 63), .adc 128 64 (.x 74) (.x 59) (.x 64), .set (.add 64 (.x 76) (.x 60)), .mulx 64 (.x 2) (.a 3),
  .mulx 64 (.x 2) (.a 2), .mulx 64 (.x 2) (.a 1), .mulx 64 (.x 2) (.a 0), .adc 128 64 (.c 0) (.x 85) (.x 82),
  .adc 128 64 (.x 87) (.x 83) (.x 80), .adc 128 64 (.x 89) (.x 81) (.x 78), .set (.add 64 (.x 91) (.x 79)),
  .adc 128 64 (.c 0) (.x 69) (.x 84), .adc 128 64 (.x 94) (.x 71) (.x 86), .adc 128 64 (.x 96) (.x 73) (.x 88),
  .adc 128 64 (.x 98) (.x 75) (.x 90), .adc 128 64 (.x 100) (.x 77) (.x 92), .mulx 64 (.x 93) (.c 0xdbf951d5883b2b2f),
  .mulx 64 (.x 103) (.c 0x8000000000000000), .mulx 64 (.x 103) (.c 0x431), .adc 128 64 (.c 0) (.x 93) (.x 107),
  .adc 128 64 (.x 110) (.x 95) (.x 108), .adc 128 64 (.x 112) (.x 97) (.c 0), .adc 128 64 (.x 114) (.x 99) (.x 105),
  .adc 128 64 (.x 116) (.x 101) (.x 106), .set (.add 64 (.x 118) (.x 102)), .mulx 64 (.x 3) (.a 3), .mulx 64 (.x 3) (.a 2),
  .mulx 64 (.x 3) (.a 1), .mulx 64 (.x 3) (.a 0), .adc 128 64 (.c 0) (.x 127) (.x 124), .adc 128 64 (.x 129) (.x 125) (.x 122),
  .adc 128 64 (.x 131) (.x 123) (.x 120), .set (.add 64 (.x 133) (.x 121)), .adc 128 64 (.c 0) (.x 111) (.x 126),
  .adc 128 64 (.x 136) (.x 113) (.x 128), .adc 128 64 (.x 138) (.x 115) (.x 130), .adc 128 64 (.x 140) (.x 117) (.x 132),
  .adc 128 64 (.x 142) (.x 119) (.x 134), .mulx 64 (.x 135) (.c 0xdbf951d5883b2b2f), .mulx 64 (.x 145) (.c 0x8000000000000000),
  .mulx 64 (.x 145) (.c 0x431), .adc 128 64 (.c 0) (.x 135) (.x 149), .adc 128 64 (.x 152) (.x 137) (.x 150),
  .adc 128 64 (.x 154) (.x 139) (.c 0), .adc 128 64 (.x 156) (.x 141) (.x 147), .adc 128 64 (.x 158) (.x 143) (.x 148),
  .set (.add 64 (.x 160) (.x 144)), .sbb 128 64 (.c 0) (.x 153) (.c 0x431), .sbb 128 64 (.x 163) (.x 155) (.c 0),
  .sbb 128 64 (.x 165) (.x 157) (.c 0), .sbb 128 64 (.x 167) (.x 159) (.c 0x8000000000000000), .sbb 128 64 (.x 169) (.x 161) (.c 0),
  .cmov 64 (.x 171) (.x 162) (.x 153), .cmov 64 (.x 171) (.x 164) (.x 155), .cmov 64 (.x 171) (.x 166) (.x 157),
  .cmov 64 (.x 171) (.x 168) (.x 159)], [172, 173, 174, 175]⟩

/-- `fiat_id_GostR3410_2001_TestParamSet_add`, lines 950-1001. -/
def add : CProg := ⟨[
  .adc 128 64 (.c 0) (.a 0) (.b 0), .adc 128 64 (.x 2) (.a 1) (.b 1), .adc 128 64 (.x 4) (.a 2) (.b 2), .adc 128 64 (.x 6) (.a 3) (.b 3),
  .sbb 128 64 (.c 0) (.x 1) (.c 0x431), .sbb 128 64 (.x 10) (.x 3) (.c 0), .sbb 128 64 (.x 12) (.x 5) (.c 0),
  .sbb 128 64 (.x 14) (.x 7) (.c 0x8000000000000000), .sbb 128 64 (.x 16) (.x 8) (.c 0), .cmov 64 (.x 18) (.x 9) (.x 1),
  .cmov 64 (.x 18) (.x 11) (.x 3), .cmov 64 (.x 18) (.x 13) (.x 5), .cmov 64 (.x 18) (.x 15) (.x 7)], [19, 20, 21, 22]⟩

/-- `fiat_id_GostR3410_2001_TestParamSet_sub`, lines 1018-1058. -/
def sub : CProg := ⟨[
  .sbb 128 64 (.c 0) (.a 0) (.b 0), .sbb 128 64 (.x 2) (.a 1) (.b 1), .sbb 128 64 (.x 4) (.a 2) (.b 2), .sbb 128 64 (.x 6) (.a 3) (.b 3),
  .cmov 64 (.x 8) (.c 0) (.c 0xffffffffffffffff), .adc 128 64 (.c 0) (.x 1) (.and (.x 9) (.c 0x431)), .adc 128 64 (.x 11) (.x 3) (.c 0),
  .adc 128 64 (.x 13) (.x 5) (.c 0), .adc 128 64 (.x 15) (.x 7) (.and (.x 9) (.c 0x8000000000000000))], [10, 12, 14, 16]⟩

/-- `fiat_id_GostR3410_2001_TestParamSet_opp`, lines 1073-1112. -/
def opp : CProg := ⟨[
  .sbb 128 64 (.c 0) (.c 0) (.a 0), .sbb 128 64 (.x 2) (.c 0) (.a 1), .sbb 128 64 (.x 4) (.c 0) (.a 2), .sbb 128 64 (.x 6) (.c 0) (.a 3),
  .cmov 64 (.x 8) (.c 0) (.c 0xffffffffffffffff), .adc 128 64 (.c 0) (.x 1) (.and (.x 9) (.c 0x431)), .adc 128 64 (.x 11) (.x 3) (.c 0),
  .adc 128 64 (.x 13) (.x 5) (.c 0), .adc 128 64 (.x 15) (.x 7) (.and (.x 9) (.c 0x8000000000000000))], [10, 12, 14, 16]⟩

/-- `fiat_id_GostR3410_2001_TestParamSet_from_montgomery`, lines 1127-1281. -/
def from_montgomery : CProg := ⟨[
  .set (.a 0), .mulx 64 (.x 1) (.c 0xdbf951d5883b2b2f), .mulx 64 (.x 2) (.c 0x8000000000000000), .mulx 64 (.x 2) (.c 0x431),
  .adc 128 64 (.c 0) (.x 1) (.x 6), .adc 128 64 (.c 0) (.add 64 (.x 9) (.x 7)) (.a 1), .mulx 64 (.x 10) (.c 0xdbf951d5883b2b2f),
  .mulx 64 (.x 12) (.c 0x8000000000000000), .mulx 64 (.x 12) (.c 0x431), .adc 128 64 (.c 0) (.x 5) (.x 14),
  .adc 128 64 (.c 0) (.x 10) (.x 16), .adc 128 64 (.c 0) (.add 64 (.add 64 (.x 21) (.x 11)) (.x 17)) (.a 2),
  .adc 128 64 (.x 23) (.x 4) (.c 0), .adc 128 64 (.x 25) (.x 18) (.c 0), .mulx 64 (.x 22) (.c 0xdbf951d5883b2b2f),
  .mulx 64 (.x 28) (.c 0x8000000000000000), .mulx 64 (.x 28) (.c 0x431), .adc 128 64 (.c 0) (.x 22) (.x 32),
  .adc 128 64 (.x 35) (.x 24) (.x 33), .adc 128 64 (.x 37) (.x 26) (.c 0),
  .adc 128 64 (.x 39) (.add 64 (.x 27) (.add 64 (.x 19) (.x 15))) (.x 30), .adc 128 64 (.c 0) (.x 36) (.a 3),
  .adc 128 64 (.x 43) (.x 38) (.c 0), .adc 128 64 (.x 45) (.x 40) (.c 0), .mulx 64 (.x 42) (.c 0xdbf951d5883b2b2f),
  .mulx 64 (.x 48) (.c 0x8000000000000000), .mulx 64 (.x 48) (.c 0x431), .adc 128 64 (.c 0) (.x 42) (.x 52),
  .adc 128 64 (.x 55) (.x 44) (.x 53), .adc 128 64 (.x 57) (.x 46) (.c 0),
  .adc 128 64 (.x 59) (.add 64 (.x 47) (.add 64 (.x 41) (.x 31))) (.x 50), .set (.add 64 (.x 61) (.x 51)),
  .sbb 128 64 (.c 0) (.x 56) (.c 0x431), .sbb 128 64 (.x 64) (.x 58) (.c 0), .sbb 128 64 (.x 66) (.x 60) (.c 0),
  .sbb 128 64 (.x 68) (.x 62) (.c 0x8000000000000000), .sbb 128 64 (.x 70) (.c 0) (.c 0), .cmov 64 (.x 72) (.x 63) (.x 56),
  .cmov 64 (.x 72) (.x 65) (.x 58), .cmov 64 (.x 72) (.x 67) (.x 60), .cmov 64 (.x 72) (.x 69) (.x 62)], [73, 74, 75, 76]⟩

/-- `fiat_id_GostR3410_2001_TestParamSet_to_montgomery`, lines 1296-1464. -/
def to_montgomery : CProg := ⟨[
  .mulx 64 (.a 0) (.c 0x464584), .mulx 64 (.x 1) (.c 0xdbf951d5883b2b2f), .mulx 64 (.x 3) (.c 0x8000000000000000),
  .mulx 64 (.x 3) (.c 0x431), .mulx 64 (.a 1) (.c 0x464584), .adc 128 64 (.c 0) (.x 1) (.x 7),
  .adc 128 64 (.c 0) (.add 64 (.add 64 (.x 12) (.x 2)) (.x 8)) (.x 9), .mulx 64 (.x 13) (.c 0xdbf951d5883b2b2f),
  .mulx 64 (.x 15) (.c 0x8000000000000000), .mulx 64 (.x 15) (.c 0x431), .adc 128 64 (.c 0) (.x 6) (.x 17), .mulx 64 (.a 2) (.c 0x464584),
  .adc 128 64 (.c 0) (.x 13) (.x 19), .adc 128 64 (.c 0) (.add 64 (.add 64 (.x 26) (.add 64 (.x 14) (.x 10))) (.x 20)) (.x 23),
  .adc 128 64 (.x 28) (.x 5) (.x 24), .adc 128 64 (.x 30) (.x 21) (.c 0), .mulx 64 (.x 27) (.c 0xdbf951d5883b2b2f),
  .mulx 64 (.x 33) (.c 0x8000000000000000), .mulx 64 (.x 33) (.c 0x431), .adc 128 64 (.c 0) (.x 27) (.x 37),
  .adc 128 64 (.x 40) (.x 29) (.x 38), .adc 128 64 (.x 42) (.x 31) (.c 0),
  .adc 128 64 (.x 44) (.add 64 (.x 32) (.add 64 (.x 22) (.x 18))) (.x 35), .mulx 64 (.a 3) (.c 0x464584),
  .adc 128 64 (.c 0) (.x 41) (.x 47), .adc 128 64 (.x 50) (.x 43) (.x 48), .adc 128 64 (.x 52) (.x 45) (.c 0),
  .mulx 64 (.x 49) (.c 0xdbf951d5883b2b2f), .mulx 64 (.x 55) (.c 0x8000000000000000), .mulx 64 (.x 55) (.c 0x431),
  .adc 128 64 (.c 0) (.x 49) (.x 59), .adc 128 64 (.x 62) (.x 51) (.x 60), .adc 128 64 (.x 64) (.x 53) (.c 0),
  .adc 128 64 (.x 66) (.add 64 (.x 54) (.add 64 (.x 46) (.x 36))) (.x 57), .set (.add 64 (.x 68) (.x 58)),
  .sbb 128 64 (.c 0) (.x 63) (.c 0x431), .sbb 128 64 (.x 71) (.x 65) (.c 0), .sbb 128 64 (.x 73) (.x 67) (.c 0),
  .sbb 128 64 (.x 75) (.x 69) (.c 0x8000000000000000), .sbb 128 64 (.x 77) (.c 0) (.c 0), .cmov 64 (.x 79) (.x 70) (.x 63),
  .cmov 64 (.x 79) (.x 72) (.x 65), .cmov 64 (.x 79) (.x 74) (.x 67), .cmov 64 (.x 79) (.x 76) (.x 69)], [80, 81, 82, 83]⟩

/-- `fiat_id_GostR3410_2001_TestParamSet_from_bytes`, lines 1699-1825. -/
def from_bytes : CProg := ⟨[
  .set (.shl 64 (.a 31) 56), .set (.shl 64 (.a 30) 48), .set (.shl 64 (.a 29) 40), .set (.shl 64 (.a 28) 32), .set (.shl 64 (.a 27) 24),
  .set (.shl 64 (.a 26) 16), .set (.shl 64 (.a 25) 8), .set (.a 24), .set (.shl 64 (.a 23) 56), .set (.shl 64 (.a 22) 48),
  .set (.shl 64 (.a 21) 40), .set (.shl 64 (.a 20) 32), .set (.shl 64 (.a 19) 24), .set (.shl 64 (.a 18) 16), .set (.shl 64 (.a 17) 8),
  .set (.a 16), .set (.shl 64 (.a 15) 56), .set (.shl 64 (.a 14) 48), .set (.shl 64 (.a 13) 40), .set (.shl 64 (.a 12) 32),
  .set (.shl 64 (.a 11) 24), .set (.shl 64 (.a 10) 16), .set (.shl 64 (.a 9) 8), .set (.a 8), .set (.shl 64 (.a 7) 56),
  .set (.shl 64 (.a 6) 48), .set (.shl 64 (.a 5) 40), .set (.shl 64 (.a 4) 32), .set (.shl 64 (.a 3) 24), .set (.shl 64 (.a 2) 16),
  .set (.shl 64 (.a 1) 8), .set (.a 0), .set (.add 64 (.x 31) (.x 32)), .set (.add 64 (.x 30) (.x 33)), .set (.add 64 (.x 29) (.x 34)),
  .set (.add 64 (.x 28) (.x 35)), .set (.add 64 (.x 27) (.x 36)), .set (.add 64 (.x 26) (.x 37)), .set (.add 64 (.x 25) (.x 38)),
  .set (.add 64 (.x 23) (.x 24)), .set (.add 64 (.x 22) (.x 40)), .set (.add 64 (.x 21) (.x 41)), .set (.add 64 (.x 20) (.x 42)),
  .set (.add 64 (.x 19) (.x 43)), .set (.add 64 (.x 18) (.x 44)), .set (.add 64 (.x 17) (.x 45)), .set (.add 64 (.x 15) (.x 16)),
  .set (.add 64 (.x 14) (.x 47)), .set (.add 64 (.x 13) (.x 48)), .set (.add 64 (.x 12) (.x 49)), .set (.add 64 (.x 11) (.x 50)),
  .set (.add 64 (.x 10) (.x 51)), .set (.add 64 (.x 9) (.x 52)), .set (.add 64 (.x 7) (.x 8)), .set (.add 64 (.x 6) (.x 54)),
  .set (.add 64 (.x 5) (.x 55)), .set (.add 64 (.x 4) (.x 56)), .set (.add 64 (.x 3) (.x 57)), .set (.add 64 (.x 2) (.x 58)),
  .set (.add 64 (.x 1) (.x 59))], [39, 46, 53, 60]⟩

/-- `fiat_id_GostR3410_2001_TestParamSet_to_bytes`, lines 1530-1684. -/
def to_bytes : CProg := ⟨[
  .set (.a 3), .set (.a 2), .set (.a 1), .set (.a 0), .set (.cast 8 (.and (.x 4) (.c 0xff))), .set (.shr (.x 4) 8),
  .set (.cast 8 (.and (.x 6) (.c 0xff))), .set (.shr (.x 6) 8), .set (.cast 8 (.and (.x 8) (.c 0xff))), .set (.shr (.x 8) 8),
  .set (.cast 8 (.and (.x 10) (.c 0xff))), .set (.shr (.x 10) 8), .set (.cast 8 (.and (.x 12) (.c 0xff))), .set (.shr (.x 12) 8),
  .set (.cast 8 (.and (.x 14) (.c 0xff))), .set (.shr (.x 14) 8), .set (.cast 8 (.and (.x 16) (.c 0xff))), .set (.cast 8 (.shr (.x 16) 8)),
  .set (.cast 8 (.and (.x 3) (.c 0xff))), .set (.shr (.x 3) 8), .set (.cast 8 (.and (.x 20) (.c 0xff))), .set (.shr (.x 20) 8),
  .set (.cast 8 (.and (.x 22) (.c 0xff))), .set (.shr (.x 22) 8), .set (.cast 8 (.and (.x 24) (.c 0xff))), .set (.shr (.x 24) 8),
  .set (.cast 8 (.and (.x 26) (.c 0xff))), .set (.shr (.x 26) 8), .set (.cast 8 (.and (.x 28) (.c 0xff))), .set (.shr (.x 28) 8),
  .set (.cast 8 (.and (.x 30) (.c 0xff))), .set (.cast 8 (.shr (.x 30) 8)), .set (.cast 8 (.and (.x 2) (.c 0xff))), .set (.shr (.x 2) 8),
  .set (.cast 8 (.and (.x 34) (.c 0xff))), .set (.shr (.x 34) 8), .set (.cast 8 (.and (.x 36) (.c 0xff))), .set (.shr (.x 36) 8),
  .set (.cast 8 (.and (.x 38) (.c 0xff))), .set (.shr (.x 38) 8), .set (.cast 8 (.and (.x 40) (.c 0xff))), .set (.shr (.x 40) 8),
  .set (.cast 8 (.and (.x 42) (.c 0xff))), .set (.shr (.x 42) 8), .set (.cast 8 (.and (.x 44) (.c 0xff))), .set (.cast 8 (.shr (.x 44) 8)),
  .set (.cast 8 (.and (.x 1) (.c 0xff))), .set (.shr (.x 1) 8), .set (.cast 8 (.and (.x 48) (.c 0xff))), .set (.shr (.x 48) 8),
  .set (.cast 8 (.and (.x 50) (.c 0xff))), .set (.shr (.x 50) 8), .set (.cast 8 (.and (.x 52) (.c 0xff))), .set (.shr (.x 52) 8),
  .set (.cast 8 (.and (.x 54) (.c 0xff))), .set (.shr (.x 54) 8), .set (.cast 8 (.and (.x 56) (.c 0xff))), .set (.shr (.x 56) 8),
  .set (.cast 8 (.and (.x 58) (.c 0xff))), .set (.cast 8 (.shr (.x 58) 8))], [5, 7, 9, 11, 13, 15, 17, 18, 19, 21, 23, 25, 27, 29, 31, 32, 33, 35, 37, 39, 41, 43, 45, 46, 47, 49, 51, 53, 55, 57, 59, 60]⟩

/-- `fiat_id_GostR3410_2001_TestParamSet_inv`, lines 1835-1855; the variables are 0 = t1, 0 = output, 1 = acc, 2 = t15; a loop of multiplications is written out. -/
def inv : List InvStep := [.sq 1 0 1, .mul 2 0 1, .mul 2 2 1, .mul 2 2 1, .mul 2 2 1, .mul 2 2 1, .mul 2 2 1, .mul 2 2 1, .sq 1 0 1, .sq 1 1 244,
  .mul 1 1 0, .sq 1 1 5, .mul 1 1 0, .sq 1 1 5, .mul 0 1 2]

/-- The constants, lines: `const_one` 1859-1861, `const_a` 1863-1865, `const_b3` 1867-1869; the file has no others. -/
def consts : FiatConsts where
  one := [0xfffffffffffffbcf, 0xffffffffffffffff, 0xffffffffffffffff, 0x7fffffffffffffff]
  a := [0xffffffffffffc983, 0xffffffffffffffff, 0xffffffffffffffff, 0x7fffffffffffffff]
  b := [0, 0, 0, 0]
  b3 := [0x81733ee96aeab71c, 0xcd3d1cfc4e6fc7, 0x60ab503a75853407, 0xa9ec8ae4556810a]
  d := [0, 0, 0, 0]
  S := [0, 0, 0, 0]
  T := [0, 0, 0, 0]

/-- The functions of the file. -/
def file : FiatMont where
  mul := mul
  square := square
  add := add
  sub := sub
  opp := opp
  from_montgomery := from_montgomery
  to_montgomery := to_montgomery
  from_bytes := from_bytes
  to_bytes := to_bytes
  inv := inv
  limbs := 4
  consts := consts

/-- `lut_cmb`, lines 1872-3654. -/
def lut_data : List (List (AffW (List Nat))) := [
  [⟨[0xfffffffffffff36d, 0xffffffffffffffff, 0xffffffffffffffff, 0x7fffffffffffffff], [0x9af45a5a471125f5, 0x7ce5090af69bf9ae, 0x67617a63e4b6dde6, 0x3f66b354aa3daa4]⟩,
   ⟨[0xb39bdc16149b5d15, 0x87ce978a7309454f, 0xd22f32ef315a7a56, 0x4c7de232b69a6b57], [0x9e2daf6d466dc64d, 0x758c27b14b1c8a55, 0x74a0cb23bd647f1a, 0x27e748682c2f4c70]⟩,
   ⟨[0xf2d8f32e55a62594, 0x8323d57036bc547a, 0x497679eb98d4b25a, 0x61167f2b87e0534], [0xe1fffdce223e4df8, 0x7c83ae78dcd891e9, 0x743985863c1b95d0, 0x11d7320574b3f5ab]⟩,
   ⟨[0x34b9c048acb97f7c, 0x8232e73ce3b9bcc6, 0x81f4b63fda2db71d, 0x4eee5393a2df4c84], [0xca6e63aeac469c69, 0x27bc807c428e4f01, 0x4a2c23ba5f4ec124, 0x74847cfcaae2668b]⟩,
   ⟨[0x4435585f6716af4e, 0xb872d8b71cdb965f, 0x662f1962746ffad0, 0x52761a24db5d0187], [0xf6a09922a57e0e3d, 0x86c69342a9c12b63, 0x91ff20b65af190c5, 0x10db7a2a4eeee1ae]⟩,
   ⟨[0xbb464a5374628b90, 0x6e7a1227057a4f25, 0x4c309d690b0fa41f, 0x7548260777fe7b93], [0xf2583ec70b612421, 0xff2cfc835e2b15ed, 0x1e97a7db8cabc5cf, 0x1ec08faa925c149f]⟩,
   ⟨[0xba0170e30e9fcba9, 0x8976df7c70d9939b, 0xeae6e74b21af14dd, 0x9f098680d0861f9], [0x4f7fe26e21a781ff, 0x1725b8d0d73dcef7, 0x9da632177e743498, 0xf51d42c1b828b99]⟩,
   ⟨[0xbabb076b9afe09bd, 0x4ac8922317c4050d, 0xca3ea6e3da3e57e8, 0x20aaa384a33242c0], [0x6d3a1f2def929bf5, 0xb34e2605e751a62d, 0xe1ac629fb8cf1f99, 0x7152d4e3f0bba01a]⟩,
   ⟨[0xa97a6ce3943e5b8e, 0x1c0f6c7f2d053a9d, 0x9d4a91de64457de4, 0x1e19ea8fc6140057], [0xd4766cb6500995c8, 0xa019d41de70cd7ee, 0xba1828aa7ab0a162, 0xcaca0630b7a4e93]⟩,
   ⟨[0x1e68315ca1b3fe03, 0x21fb277e1aab6b20, 0x210305d76a90fb22, 0x4c3d3eea2e51b9bc], [0xc5662c6d89c3a2e8, 0x66ea48181712bf9b, 0x417f8f042254fbab, 0x2f57df29b057eec1]⟩,
   ⟨[0xf6975c9f6509ae4f, 0x58300438dc89c220, 0xe81da879907ff785, 0x68d600e30910ed2f], [0xfbb25113b43bf686, 0x8b391e3f50a64fae, 0x8c1190d23112b7ed, 0x617bcd41ccb4ca50]⟩,
   ⟨[0x75036e69dd780aca, 0xc90a01de6fbcd996, 0x75e1a8e80c851cef, 0x7225d38af71bdcc6], [0x74ae6935868b78d2, 0xe70570f31cdb5a1e, 0x3e700c48bebd2fa4, 0x3e483638325d3214]⟩,
   ⟨[0x9f272cd5c0e6d8ad, 0x9e29687ce09743a2, 0xbe0e0d5993cd64b3, 0x5d57a75d504b58f0], [0x81a1a6e35d44b092, 0x38ad0169310d7868, 0xc8d3c9a6cc297b73, 0x34d98a19908e0814]⟩,
   ⟨[0xffb946ade5a57e1f, 0xf7ea0aa2191b6c5f, 0x52d070588df529c1, 0x6b7bde52afda727], [0x651e6dc990658555, 0x8f910d891fc416ce, 0xba4d84ecbf086d5, 0x73da158c0c4a4b4a]⟩,
   ⟨[0xe22420a6521db62c, 0x8ebc1a21bc90eb6f, 0xe1529aace50f6eb4, 0x4025bf278be235db], [0x406077109ffe2b82, 0x7a6bb75b696b4634, 0xcef27a92b2f25d3, 0x6c9cffd7ca0b7112]⟩,
   ⟨[0x12b39ff0eda5c43b, 0x2e1fc66c54e0fe3f, 0xfb2dea80248a9167, 0x11bcda103b2bb322], [0xfddf6e8416d2c928, 0x99ddf6a136e887f4, 0x1e56d2f3920092d6, 0x67433bf42d77ae5a]⟩],
  [⟨[0x6c204ddc321bfa62, 0xa96e42b82f138a80, 0x4c98e986e3ec1a7d, 0x223c8bc4136cadc4], [0xfa9f15d3ba3ce54a, 0xa103b9d719963d88, 0x1ed233542f811a21, 0x64d6b14c65a4e833]⟩,
   ⟨[0x2485175ccfbd1039, 0xc4dae65b7c92d8ec, 0x6fc70f541859fd47, 0x6d54344433e8305c], [0x1a65fec2944dda07, 0x7bcf8391ef375b21, 0xddcfc356be4cd8d6, 0x4bf93b9e13850042]⟩,
   ⟨[0xbdf7a56c88b7f950, 0x3a60e5fc81b8590e, 0x475b94d16f6e6807, 0x2f1b9f062f0d49a8], [0x3c36dcf32e6a01d3, 0x807e1d5b30444003, 0xe3768486fecf5768, 0x73c4d0cfef12b5cc]⟩,
   ⟨[0x9d76477cf4c6ff93, 0x3f16687c5a1a495, 0x5071da3db41748b2, 0xf3a3784971d6a7d], [0xb9a5ad62785a782, 0x957e72a009ff09f9, 0x3072c1dcae3cf5f4, 0x63d463accd9cfd7e]⟩,
   ⟨[0xda0dee0bc77b516c, 0x446d7199e6aa0e1f, 0xcc0d1590bffa705c, 0x6a6fc81cc35b59ba], [0x39df210e593e3eb9, 0x17f331ced0dcc01f, 0x2e0e5ebbd176c5b, 0x68946ccc8a2d6290]⟩,
   ⟨[0x8d1400d609ecfef2, 0x57d5f91be1e76a98, 0x5cf76130a12dff8d, 0x5c36192261002939], [0x8d45c8c1fb0fe974, 0xc97725ef942ed70, 0xb1c6649873c5aa42, 0x4a121fc47e203187]⟩,
   ⟨[0x58430ee3fceda76c, 0x3496699af5c88d62, 0x1c3fc81114273e7e, 0x3e38e9fc1d6d67da], [0xbb683ea4ab685b3b, 0xb63f72b1b0904bb3, 0x5dfa23c547a75297, 0x9e80aa038b59560]⟩,
   ⟨[0x7d8325c67f4d22fc, 0xbffb01b18c2fa282, 0x1a037dc4a89be98, 0x92f652584ea8c8a], [0x873d33dac52fd518, 0xa245b1544afdd41, 0x7899373798fa7ff5, 0x1bb48ad221d29087]⟩,
   ⟨[0xc97a991a59313c, 0xbd4f29ee5cf9a6ff, 0xea59d87ad839b62b, 0x16f18f4897cab63c], [0xb339789a6f6c292f, 0xec52e644d005abb2, 0xeeac93c9ae24da46, 0xecb9957e5c43b4f]⟩,
   ⟨[0xd91b220220561af7, 0xeca260dd55f2cfb8, 0xf03a8c1d17b91ccf, 0x55a0491f64b35d9a], [0xa97e5cc1a2f8f39, 0x2c187d123b1d80b, 0xa9c13d26db9fba1a, 0x7ccddbacf8051f0d]⟩,
   ⟨[0x5ca8ea5ed0e9db8, 0xe888079f53a8ea3f, 0x6ddbc40d9209bfa2, 0x68e5ba980dceaea], [0xdb69d133b19d824b, 0x65154fb6e6a3a462, 0x9fcf733d020b2ac7, 0x15178ddee1329315]⟩,
   ⟨[0x76f78865877ee476, 0x5824eacc12b471ba, 0x71bdfadfbbb640a8, 0x5181b08f9a631d09], [0x2913cca5ffe978e8, 0x9cef3612aeb89aa6, 0x93bb373ee02ad6dc, 0x5d7984f004144769]⟩,
   ⟨[0x3219db074f98d2c3, 0xe3ef888fbd40accc, 0x7a30e3a31124c73, 0x5d9c820bb070c53f], [0x94d41768da0661ab, 0x27fc266121ff87eb, 0xb8dcbc7fff17a977, 0x71f75ff9392eb13d]⟩,
   ⟨[0xc5ced56c9ad71ab0, 0xe744eab039d6c9f1, 0x6e49b00b839bd904, 0xc0ede2cd7003054], [0x792c3f801a6a1bb7, 0x6e5093b14b2c7885, 0x2887320913ea65f7, 0x85a2697f381c851]⟩,
   ⟨[0x84fc6b9dda60a255, 0x12397eed4b495bc6, 0x4881df6b71a5aa87, 0x57bb32599572cfe2], [0x306777593a10a65f, 0x670b82ecdb1758dd, 0xd84f3e8fd57b513e, 0x617a512a89088e78]⟩,
   ⟨[0x83971322ae3d7707, 0x66563cde6d34d0b4, 0x95342d9bc13309ed, 0x62c2b1b6082a5887], [0xd94a8712c3c27158, 0xde2c9c9da844bf60, 0xde897386ce3e4f3c, 0x2c22a82e6acebdf1]⟩],
  [⟨[0x2755028a0604e200, 0xade23a7d44189101, 0xa6e418f4f0b7f9b7, 0x36f5503212edc2a], [0xe069d06a3f5e0456, 0x2faff7c80f37f2d8, 0xff08e8797f5ede53, 0x7f97725d797e0427]⟩,
   ⟨[0xe44e39c1b32e5b1b, 0x25cd4614ad3ec706, 0x2e97b090e382c5d2, 0x3e1a1f6bb00d79f2], [0x27573c4ec2375837, 0xad53d2c86c8d5ccd, 0x94ee5460fc09725a, 0x6e59250602dd0df4]⟩,
   ⟨[0x6cffa4bf3d0c7ac4, 0x663b121869ed4317, 0x933094f6c79ad5c1, 0x569f37edffc54767], [0x954eee0c1f338782, 0x5be69673a46ca276, 0x77ba000920cb26dc, 0x2211cac3029316ae]⟩,
   ⟨[0xc8def3cb184ebd7c, 0x393370506a4db0a0, 0x6ff7993a0be1d82c, 0x1d7674afc9252c0], [0xb10ba727f62d9268, 0x6e2338d8817b687b, 0x266443f2e47405f1, 0x6a1bd9ce6872b879]⟩,
   ⟨[0x192137652b2bd346, 0x962ca22ce2acfb8e, 0x518cf45d62fecde1, 0x529ae629a13d9e8d], [0xaf796db0bb69d5e3, 0xa064209dd4e596b7, 0x9f3dfd4a47942c73, 0x7fab6c6d7810d5ec]⟩,
   ⟨[0x55d1525066a3b287, 0x1ecc6a20eefddc75, 0xf683fa6026de8c01, 0x4f5de2a69fba658c], [0xe748d78ac66d82f4, 0x2ba525ef3b24c76b, 0x5a9539e630ee69ce, 0x2da4c4c2b7861b2d]⟩,
   ⟨[0x9d1e982d820743e6, 0x705d9237ab0cc42d, 0xbdd0166347c4e7d7, 0x3d48ee78f8e69896], [0x7a822bcd41132782, 0xbd41befaee46f715, 0x8e5c3b5fd0b2f4b0, 0x690a53d45e47ed55]⟩,
   ⟨[0x390536c165a40e44, 0x4b4d79701c92235c, 0xcac270848b7389e4, 0x7b5b23b219041d01], [0x7c18b9733b5fd5ba, 0xfd14865d84b72217, 0x5592547e267ede4c, 0x22db62e58b369753]⟩,
   ⟨[0x6083d33ddf15bdd, 0x5766555f361925f5, 0xecc0f110b7acdea7, 0x3e3f1b270a3453b5], [0x5a8b7df96f7b980d, 0xeba90e39b44756ac, 0x954d7ecdac9a7db2, 0x43f688d328ea7151]⟩,
   ⟨[0x51f645694638efae, 0x5840a5db3d28bf3c, 0xdd486261134d3e8f, 0x9f17e2c7b6b466b], [0x30d3546378ed7016, 0x342e9701b86d8508, 0xa3ff656542b19533, 0x4405f02c061a4a81]⟩,
   ⟨[0x15c921c03d3aaf1e, 0x2dd720c77d297559, 0x93a07904cb80e3b2, 0x427c610b6b1edb93], [0xd2ce818ff61e2f41, 0x1da534218252fb3c, 0x37a4a997ed07538f, 0x48a928bf962454f2]⟩,
   ⟨[0x65091e4d7a420273, 0x6af382afe54c0b47, 0x150dab088047a423, 0x22c3740a45bd197c], [0x64429aa0e07c3468, 0xc506b8c97b37fe10, 0x30e2fe783cc5062c, 0x2f3b5a5fa9242f2d]⟩,
   ⟨[0x2619a3b25a40bca1, 0xd012df23118c2fea, 0x2868c8b7b73fe15c, 0x45a9cc5aeb10b475], [0x7111ab75069050ad, 0x665182bec2398a9, 0xd9a5126e9b86a240, 0x601cf0e040e2aed6]⟩,
   ⟨[0xe74c9dcdf48c8655, 0xee703ca8900e89d5, 0x6c2dff8b5390f052, 0x8588e891316cc4c], [0xf2cc83a47e80c87, 0x23de34cfd87824e4, 0xc530af41541fe8f9, 0xbf01dc0d142f1c0]⟩,
   ⟨[0x210b0b1e886c0c4a, 0x66369df19c56a126, 0x5d79ae81eac22a5e, 0x4e6c67d4d16f7db6], [0x274572f6247cde60, 0xf3c92ac754e8454b, 0x784ec1a1f08c32d1, 0x222716d8e1fe9c4e]⟩,
   ⟨[0xaf6aef5d3fb1db1e, 0xb8b55842c4c2a4d8, 0x258a2f44ca5ab578, 0x558a803f7d8b2d70], [0x9a7345c37e0247a3, 0x4e5a6904b4d920b1, 0xcf7faa4176bcbbe1, 0x66cf993fee112271]⟩],
  [⟨[0xde7d208f84d2c56b, 0xd1c77403dda20f33, 0xb73fdc099a6f337a, 0x1b2a380740cd2cbd], [0xb642fa2c65988d73, 0x117e75bc059dab8e, 0xc7e2e935d6b279aa, 0x5eeb9654eea2a445]⟩,
   ⟨[0xa84747c0a59d7a2a, 0x4478ad4a1004c5b8, 0xf55c2b1ba22de791, 0x2ff6097d23f8f89f], [0xd079c875e117bc40, 0x14aea36003cb43dd, 0x8c730d890a20d653, 0x6956274a02fd02d8]⟩,
   ⟨[0x9f5d0e9dd46293cf, 0x53748dd4f0d93ab7, 0x6f81339fb9c37cf0, 0xb8677af4b041fc], [0xf76e0ffeb5a6fe97, 0x6d3c71f5f7d198a2, 0xf91e840811420372, 0x36f9f35470036aed]⟩,
   ⟨[0x503af4f25d446956, 0xca08c5372dc9777c, 0xdb4ba888e1308d3a, 0x1ea28ea01db98cb], [0x27cc52a9a7df5fe0, 0x7da5186b7de31e0a, 0x63e32889f136fad5, 0x1bb010a8a363af23]⟩,
   ⟨[0x65828b54c0fe56c9, 0x7322cd514ed3935a, 0x42f068f437b4a727, 0x7aa9f9f0b4c02be4], [0xbb77851adebb2dd4, 0x7757d5f6d105b81f, 0x7805369c52fa1512, 0x4cbc43ae38b6976a]⟩,
   ⟨[0x24fe8abd4096725b, 0xc3fac73a3895d1e2, 0xbcaf7757006a2360, 0x75ae96adc03ebb33], [0x310744780bd1fb6f, 0x729e8e6aea386cbe, 0xa8bbcc0b4845aaec, 0x1a0a2d19e6582656]⟩,
   ⟨[0x332bc9bd69bd55f7, 0x93d987e2efb6f780, 0xe57de09614381f4d, 0x7bdf4217ff01c4d9], [0x2a07c4ab1956bf02, 0x7c7b3684553823d9, 0x8f750e8ed40f600c, 0x63f253e99693a3c3]⟩,
   ⟨[0x250ed8bfc62ce42b, 0xe8a1a295e70674e1, 0x5ed093d163a92f1, 0x515ff44b628969a0], [0xf617df0341ce3af8, 0xcade131af9e60202, 0xfe83c379363b87e9, 0x7196a80b493ef65f]⟩,
   ⟨[0x4b176fe6d7a2047b, 0x6981d18241dca514, 0xddc7ee8edc74ac2e, 0x3a95a20385cc07d1], [0x8d4ba2d8841e3200, 0x837ddd9b5f654197, 0x388d358efbfe4d06, 0x562de2f261143a85]⟩,
   ⟨[0x3ba1f6e5cfacb903, 0xb5bba41fbd97a3a2, 0xb86f117fcfcf2547, 0x506428593d9a13db], [0xc15c82ae7b5f2a8f, 0x47e772ddef89351e, 0x78c53901caac4cc7, 0x6b0f5d3068d72131]⟩,
   ⟨[0x47e17734a0b407e6, 0x29e0683034949a81, 0x63d83340cb1ac772, 0x178a6dd6eb84f909], [0xa9e948263c27d7ba, 0xc86af96ddb027a4c, 0xe7d04e3456d5df86, 0x7212eac22e8d0ee3]⟩,
   ⟨[0xe7e5aa648a75f66b, 0x7e86b6aa8cfd9597, 0x1b7dde0c834c0271, 0x397eaf2ad4ad306f], [0xa3579061657e32b, 0xaaeb2dcf4957b3af, 0x1c0cbd0269d3cee9, 0x7434ec325a6e7d53]⟩,
   ⟨[0xeb5878f785559e86, 0xb9555f704a09c168, 0xbffac5db80501134, 0x4cdbf53a05b53160], [0x1413ba295f90344b, 0xc6a9d1edd0dd0cfd, 0x8c56aa29a0c31b73, 0x1c9b0b61f4e58e08]⟩,
   ⟨[0xbf8d22370e2f595a, 0x7a646816cba13cd8, 0xbd2e93a15cd728b6, 0x30fdf85c07cf9009], [0x3496d94906122b98, 0xe63ec7415a80b3af, 0xa2a39cf782838a44, 0x4a064f99c015e1d4]⟩,
   ⟨[0x9ccdf95b456cb242, 0xda1cb24e6f4517dc, 0x60450e0f931a1115, 0x6780d774b5680a8d], [0xafe48dcd1fda4243, 0x6bdd541cae9733c7, 0xcbbcc69cd79d1d52, 0x334f4f671a513b3e]⟩,
   ⟨[0xce7712c4df49e1a0, 0xb5444862e0b96135, 0x10564c4bf050d010, 0x531aec8febefcc8], [0xd45b4be770df6d29, 0x1acc2d706829054e, 0x9744cde154e56e05, 0x3c5de93e6ee02696]⟩],
  [⟨[0xf43a2b993951b674, 0xe82789e85e72fc98, 0x2ad4843686992601, 0x3fdeb17201a2b65a], [0x926b48393666322b, 0x68847d5c44b3fdb7, 0xd06c450df2f5e247, 0xcec0646bba7c892]⟩,
   ⟨[0x76446d2661f9c9da, 0xef2c7b98ac60376f, 0xeea8cabe2410c057, 0x4c2ce2a73672a2b6], [0x3f77094512879ba5, 0x719d5bd0ad913022, 0x28a82dd936d445a4, 0x26382c23965965aa]⟩,
   ⟨[0x66709d92b8aa8419, 0xfaeff2e40ab5c241, 0xabb7c5dd1dd46deb, 0x7dd03c3339db6cb5], [0x76cdd1ea9e160f01, 0x598d5681c5ca37, 0x16d23b04241772ec, 0x5132b02852a6b807]⟩,
   ⟨[0x6d48d4b5cc041445, 0xb1cd9231528df63, 0x82ee4dc64a815f60, 0x29da60590451e242], [0xcd90bfb017a8a6d0, 0x8bcf439252a7fc3d, 0x49ad55f21974860c, 0x20bbf0105edcb1d2]⟩,
   ⟨[0xb4f0ea84a8f6c08c, 0x4341bea7d50164f3, 0xe538901906320c0f, 0x69d4851a8ba6f033], [0x1ce5866077902045, 0xf3b88d85bd8579b3, 0xf84ff63a4fb0a17b, 0x9ee62eede6581bf]⟩,
   ⟨[0x8b8c15b57c0516de, 0x3b448fc3a530b89f, 0xe385bbe5500b0251, 0x5f643f85ed70804b], [0x550d9b7d239e85a5, 0xdc910b5b8666e41f, 0x655221817d4e390f, 0x5dd2d3e83162fe10]⟩,
   ⟨[0x59609390df024a25, 0xe66a77e908ccba91, 0xc5cea91a65e24db6, 0x888dfb53dcea0a7], [0x8c8e58cc92fa0754, 0x99c259abf7dc9538, 0x3a06d8ed9befe750, 0x71af22e1faacdc97]⟩,
   ⟨[0xcc41d094250ac059, 0xcd792a733be3da01, 0x2da07802cc61efe1, 0x293afb0857053a5d], [0x3e7e48842fd8a8a0, 0x183fa5000b9b48d3, 0x9cac07be431aacf6, 0x4f82d7992df89f10]⟩,
   ⟨[0xfd9f61a80a84935c, 0x78b948d0bb5a7e56, 0xda4787660acceeb3, 0x47bdae4453c3851d], [0x5ae2c60c0cfe8d0d, 0xac8f79b31d8a79c9, 0xa958c15e0a79ca31, 0x1c46e20ef0952018]⟩,
   ⟨[0xae552ecef04ac529, 0xb295b601e2bfefbc, 0xecc1ee5554733412, 0x28bcba5312282094], [0x306c078150b25069, 0x10d5d23ce9a18ffe, 0xc34fc5c71bd5489f, 0x2b610028e191867d]⟩,
   ⟨[0x458a1cc13e17e84d, 0x6eae343d5d7cfb98, 0xc6e0fdaa101f0b7e, 0xb9f7c2c2a023288], [0xbea893a86f3fcaa0, 0x7d711b2b452b07c0, 0x2895873798e2c88d, 0x553a0180dfd99a2a]⟩,
   ⟨[0x8d617be80dba5986, 0xdb763c1413d18594, 0x822cb0dad2dad82f, 0x37acd99f93239947], [0x6a2a7070cdc08be6, 0x86b3b66acf6d63ff, 0x5beff3fb0f7d4a67, 0x5c25557ebc94ae5]⟩,
   ⟨[0x5d1dc08789183418, 0xa25c7ae26ea5a960, 0x74698b9d31f3aae, 0x5a5b510b221788a4], [0x896a87871dce95fe, 0x89e7b93d7f24020c, 0xfc19bf42865b4334, 0x389fbf75b78b06d]⟩,
   ⟨[0x73b6da7b0bb3a3e2, 0xdbc1267044d56755, 0x7af2de287cc1c589, 0x7e248fcb697cb6b7], [0x9410ec06c64202c0, 0x79c8215875eb3a8c, 0x74fdd2f6e95c5ea9, 0x2a40b5b51cca72c7]⟩,
   ⟨[0x569842235c29e320, 0x8266392ae871d9e2, 0x9d86c6c77b391763, 0x5e9e61e202543c9e], [0xd62a9334d2501d1a, 0x9d19f54d9211135d, 0x66d0b9618fe81272, 0x6e64635ad09c2033]⟩,
   ⟨[0x93bd0ad806f84e11, 0x45f18f2b131afdbf, 0x881f053f6058eb37, 0x36b8d656948ad0d5], [0x53dc2e02e1934e38, 0xa8ad5055c0435b6c, 0xdf7bd114bd7154f, 0x6350b05e73bc98fc]⟩],
  [⟨[0x12ac549604bf927a, 0x9bb322dbe749323e, 0xc10c666df6d99ad6, 0xfdf8fb34c883e0a], [0x10667f92665272e8, 0xa30d4ce15bf8702f, 0x56314b47a2d6033d, 0x9ec90d9dac1a10e]⟩,
   ⟨[0x364f06ddc9eb81d1, 0xfd181a564dc5cb76, 0x91cf010ce264567c, 0x71d9a95ba05c02fc], [0xab5afba653967407, 0x3fc779139b0aa089, 0xdf1d4912af29ef02, 0x1c3d61c5796a0a5]⟩,
   ⟨[0x11503a1cb376e8de, 0x5cb17d6db8b98321, 0x96c9d585bd8fe9c2, 0x48c8da7d117171d], [0xdf7fabb8b582282a, 0x75c2a93724fd6bb7, 0xdf0dbd3200633701, 0x4fb7aec039b3e72]⟩,
   ⟨[0xe60cce960e20c09a, 0xad295b31116e1c38, 0xca6b625dc04477d0, 0x32fe03bffa32e36], [0x46334feee2aaabc6, 0x9808b03cda1c6871, 0x76d0e3aaf934a482, 0x2b0bf54af9cb8f97]⟩,
   ⟨[0xb5d527172ca29d02, 0xf9daeafbdbeacf03, 0x3786e64b113a3811, 0x6a01a1a55c30569d], [0xa91e160ba1c28b6, 0x5bfa32ba929d3f05, 0x1108f87540c51084, 0x37fd238342fd5ae1]⟩,
   ⟨[0xabf14ede2a79bfb8, 0x8b34155aa34300c, 0x85c0dfa064077041, 0x3ae5d28df542d447], [0xc303a0feb74dc4fb, 0xb75292fa556e0b87, 0x785628b051bdc64c, 0x43fe786e13c579f6]⟩,
   ⟨[0xbc5898cb5f08790f, 0xa298a59a125644ec, 0xd2d9627bb048217a, 0x6dceef327b1f23f7], [0x7f02fc44fa7b9c6a, 0x90c6496073597bf7, 0x5dd7e4f42cb0b3a2, 0x5ec5f92c43e83553]⟩,
   ⟨[0xc06b4d4959e2c8e9, 0x7dbc82181df8ad8b, 0x35570120dae8b6d7, 0x4222a1ba0cde2691], [0xd2f1efa6c1693046, 0x2707228d7d36d9cd, 0xd668ee25062d499c, 0x7ac81bdfce2621a0]⟩,
   ⟨[0x3a9f04bb16f6a215, 0x739bb2bc89e5494e, 0xcb8dbae8d1ceb043, 0x6b177df009a6b465], [0xb7c4980e1a529744, 0x3941b9970e9012b5, 0xdf317b9504c6d677, 0x17898d81829f51d6]⟩,
   ⟨[0x3d48fd66a12282ba, 0xb775465b899e5a1a, 0xde0ccb9955d95c35, 0x4cb3ccdd950ab9df], [0xb4aba02175c4cae, 0x2da7c698cf86187c, 0x3a4453df9a9bf6ca, 0x53c86f9c8bb9f543]⟩,
   ⟨[0x806b815e5b7db133, 0x2451d6ac118fa7c1, 0x32c148b6fb0befc3, 0x2e6ecef6e433031e], [0x2b78f31754b2ee29, 0xbc321bf95a73bf01, 0xdf6f7840f8f7f981, 0x751a917a22280c40]⟩,
   ⟨[0x73efa6314f9161c8, 0xb61c5e6821145c52, 0x609477736a04dc52, 0x758e38ff2c2073b2], [0xdc6fea7303a54541, 0x5e77682cb6e65787, 0xafef6c1c37370fd0, 0x33deef00d5ac255a]⟩,
   ⟨[0x1ad81101061d35cc, 0xd55eed7d8a77d246, 0x8d59dc22926e64c3, 0x76c9d6ceafc6ffa6], [0x945a89b53f4fcc0f, 0x65eb52cf9087f46a, 0xc3380377ae9f09de, 0x59067edd43dfd5fb]⟩,
   ⟨[0xcbb7bc66cf841445, 0x9ed681d3a3be7c94, 0xf5cf59be396c6dd5, 0x2598a5dcfa763634], [0xad2b445a85cf4fde, 0xc8ce3f42a0d92f4c, 0x78356d5bf01cd0f5, 0x26e44a455d50c9d7]⟩,
   ⟨[0x22eb53e34edf35a5, 0xa0c6cdefaf1a8a60, 0x1d31ba2cd07c1ebd, 0x513511a0d2c2ade1], [0xbd3772d4c4449889, 0xaf5ef819d3f49c61, 0xaaf2159940047745, 0x2128938ca54b8080]⟩,
   ⟨[0x9761a94a73adbec8, 0x4710bbf01fb2f257, 0xfe52603eb3920007, 0x663937507de06f13], [0x35f4e633965ac706, 0xf49dc41833f953e5, 0x1562ad5131cfe467, 0x35fb54d8adb1f7a]⟩],
  [⟨[0xf632081ffd73062e, 0xb2740c19cb740b59, 0x2dfd957f8751e315, 0x5722e015c21039c2], [0x44781bfca4e56d39, 0x894bd2f7da2fbe63, 0x9e81007b5de22de0, 0xced0859c68788fc]⟩,
   ⟨[0x97dd8cf18dda6292, 0x3e9191f727fcf7f1, 0x7885e32daa6ad44, 0x624ce66ebe9f7e62], [0x483da421893a3d9, 0x1041b7ea8f2a105f, 0x5b706f99429a24b9, 0x30bfbcee167c12e1]⟩,
   ⟨[0xeb2c7218c38251d8, 0x5fe5d8f6022b6411, 0xf62200c193dccb63, 0x2cf0f8f1cff221e6], [0xdcf1bcd69217ee42, 0x1904879c9db2580b, 0x2ddb7e5df6510164, 0x7bb299858a0eac6b]⟩,
   ⟨[0x98313c0e0fcf8397, 0xb594d0b742c8eef1, 0xbd31fc3497e842f7, 0x49476b9d8f3adb9b], [0xd1b5fd3750b45445, 0x526c51cad583a89f, 0x5d461f096782c060, 0x414023ec27274a60]⟩,
   ⟨[0x7c809b26eae4285a, 0x939814bf0a066043, 0x9cbac0bb6c640e3d, 0x647e22e130eb1b86], [0x21e2a42d3c7dfa0d, 0xff8cc304e2cd0cce, 0x3dc8c9203496964c, 0x5d91fe782b4df7c2]⟩,
   ⟨[0xd5bbbd6e96d84346, 0x8363527bf91ffa8c, 0x931d0fda7f408588, 0x2c51f17bb0b19d0f], [0x7a693804ff61c86d, 0xbab4ac45b3ffd529, 0xedea275f4c171c84, 0x520925cd59b94d9]⟩,
   ⟨[0xb6a620aae8718bb4, 0x67851f0f88d37a61, 0xcbee8dbc9984a787, 0x7190b766ae834635], [0x3a1d7db4c9ac1a8e, 0x6eebd5ad7b97bcb7, 0x609786259d0ab769, 0x5ad56c0c7c7f02dd]⟩,
   ⟨[0x2c0003de2db3b6f2, 0x3be1ce3fefcf1dd8, 0xe2f79872379e6b8a, 0x3f9640d80b898094], [0x11ebd93715b29d41, 0xd6a076b93ef17d8c, 0xa2c0016b38ed3ba, 0x64329a02ccb161cc]⟩,
   ⟨[0xd135032db1ed1dea, 0x43f7684842f734a0, 0x1f6c12bd3c18d8c5, 0x7d7757b7c0a304e8], [0x3f0c2867de3b6b9f, 0x72f98ebbb7201e4f, 0xcc408000940e748d, 0x34fe6d8fad74b322]⟩,
   ⟨[0xa12a9359e6d884fe, 0xb080a081de063103, 0x672de27d97abb854, 0x712b0883ee6f3485], [0xf430bf2d2044a2a2, 0x665610207d12027a, 0x5ed63ad22c539c3b, 0x7982aad0fe5ee1d1]⟩,
   ⟨[0x873dc8f63be94d26, 0x909236394b41bd76, 0xe439a4960cbe4b5c, 0x424f8d2411782bf1], [0x6612bd9949686ed9, 0x78157aa9fb04e27e, 0x844e1616805f809c, 0x717aeb3262cb8bcd]⟩,
   ⟨[0xe98c1a0e5248cf6a, 0xc84294a8b0e4adf8, 0xd35748a4a7769275, 0x2c3867e103363c82], [0x2ec7af438f43885a, 0x7979d1a23ae516c7, 0x59939ec8b81056c, 0x434aa4dd7e358480]⟩,
   ⟨[0x12ea1c874a5228ea, 0x47b481984d293b9f, 0x319ce379e9696688, 0x7c9ff5957ce6fd05], [0x15e954df3093e3e4, 0xbc98307c304015af, 0x66522df8975c69c5, 0x4c9ebfb3963ce892]⟩,
   ⟨[0x1ceef18a628fb125, 0xfb69a2344bf30bb6, 0x510eb33970c9c864, 0x1ee9d1ed8a89151d], [0x340940284ee1a486, 0x664401672fc79cee, 0xb597625ac7da3a75, 0x6e5b920e65205af9]⟩,
   ⟨[0x749d0ca4d87c914c, 0x55ecbebb0d60c59e, 0x916a1127a65b4652, 0x503964d44e4767a3], [0x8899a4c21b1f94d5, 0xeffcaf5233e0d94d, 0x61b89b3fa3dad87d, 0x3cb455f55088d6be]⟩,
   ⟨[0x5088a52b70678c14, 0x212823d941b00fc3, 0x38d5ceb619865bdb, 0x2e9c7fd712e63491], [0x6656f91659e73913, 0x57ae9a47e9035a63, 0x970dcf2bf02b8dae, 0x3366f8a6950ff8a9]⟩],
  [⟨[0x93dabd6fac4a8f83, 0x272334881cff0aad, 0xbcac3181f500edfb, 0x27c6db15b5297515], [0x9cd142d92f08a89f, 0x3c0054232ead0a80, 0x82845f9544a7623a, 0x5104707072bc4862]⟩,
   ⟨[0x4303797adc1b9159, 0x7842434b5d9c9ac1, 0x8a36ed2d6009fe2e, 0x11fe35c95106429c], [0xdf20a39323554a92, 0x59364a48932e37c2, 0x6d7de6ae7754a5df, 0xccc6a3462725ac]⟩,
   ⟨[0xb1f86ca5bae83077, 0x82fe28a55110782c, 0x8031bbf3d942182c, 0x4f1f3815410d9f83], [0xe57f9907835aba65, 0xa8220c25aa10903, 0x2e9847178812602e, 0xaec467d2a7d2c6c]⟩,
   ⟨[0xc779f708c4dbed03, 0x10a30cd88582bd4e, 0xfa5646c5243feaee, 0x1cfaf38eca459ef7], [0xccdd014695bc8077, 0x4ecde91965858c49, 0x562764c677fee1b6, 0x3cf5a3ab43524407]⟩,
   ⟨[0xcceaadd0f6ef445, 0x690c12c1c297afaf, 0xd67aa6eac15b3d7b, 0x445d233c9ff8884e], [0xc38ffd096cad3234, 0xa690ffd1c7002f6f, 0xd445e85111acb469, 0x64ee138097166e52]⟩,
   ⟨[0x1eb031cccefbfb0a, 0x60f3def4aa40d6a9, 0x240f7ca5f96fcafe, 0x53af2f10e4450a06], [0xe8af980fa84058ef, 0x3e30001734affc6e, 0x62d1d094c86b458c, 0x5338383d75732c7e]⟩,
   ⟨[0x6bd46aeb04d82638, 0x86940a3162e645a0, 0xd025b4b1a5736b40, 0x1056d9d0924e8e5e], [0x3d0495cc1db58101, 0xc300c6e72d677581, 0xfe38b898610aecec, 0x1c8b94e2d66f64ed]⟩,
   ⟨[0x5c9c3a3706d0c7ec, 0x6b4b5437b8a74918, 0x85689c989052a235, 0x4f7c2c8d87b53aa6], [0x9fcd866fd8f1d334, 0xdbaaa2276898223c, 0x933de9da95c7b35a, 0x329ae20f3ea949fd]⟩,
   ⟨[0xb83547af948a2ecd, 0xebf7c1e7be34890c, 0x5f0f44f3f8211c33, 0x14a10bdbc6927638], [0x7fd885675b579bf5, 0xd7c712815b7417f0, 0x7c04f1112083502e, 0x42029128e9ad6283]⟩,
   ⟨[0x32fbffae2c5c0928, 0x4e31d3121469f1d3, 0x17307e28d79f51a2, 0x546c91af79a51ebd], [0x41d464d668086a6, 0x4986bde50db695db, 0xcba5f6eeef317aa0, 0x5879259f730221d3]⟩,
   ⟨[0xbd9c5ca5253bb4ba, 0xbbfc60790e2a75bb, 0xb5f11ae367ab9033, 0x6411cb1eac2bfafe], [0x750734febf5390b0, 0xa044bed4879a3d3d, 0xe1e9f0e4a0c47093, 0x3bcad93eb64da48c]⟩,
   ⟨[0xafc6bcb6b37e16c2, 0xb54f56c02331b0cd, 0x725e81b45bbfbee7, 0x2ae0c039e8b9d922], [0x85301041db958319, 0xdfae34dd0681c4a4, 0x906c9219cbf7bb2b, 0x1463e9ef10a1710a]⟩,
   ⟨[0x41e6c38821e6fc9d, 0xb629a1e24a39ec8, 0xc62f60be1aef7a46, 0x59a50b54c5a16b6e], [0x41ca367a285b891e, 0x70a6ce6be2f8af59, 0x74058747cbceef98, 0x4b912170601c375f]⟩,
   ⟨[0x7d975ce2734ee866, 0x8d3572c6a09f5f14, 0x1db4cc882232ee5e, 0x6c9790497c04c250], [0xb5ec7706ae1ebc20, 0x7bdbd34de21aaa32, 0xad4125fdc5d1c733, 0x28b0302d731e6b09]⟩,
   ⟨[0xd68eec491521415e, 0x31963424092763c0, 0xca90f48d0bfb513b, 0x4814ddff573a056a], [0x7e67599c400e804d, 0x3545275051fd0596, 0x45edd7fbdb331b66, 0x172da8b3bdede107]⟩,
   ⟨[0xd46f284cb5beb1c8, 0x5de5d3f17b125701, 0xc3ba591e248053d1, 0x4e67f1f29c8f487c], [0x380d93e48c252ec5, 0x913f96f122bc5cf6, 0xc1f06bbdd7baa634, 0x7b625179a30bf1b9]⟩],
  [⟨[0x125d398dabd424ac, 0xfe65df039cc70479, 0x89a31794fb5ec82c, 0x63effb55a31c5dca], [0x948f7571045b576a, 0xec9f6fab022b5fc8, 0x174dc936bd9f0dd2, 0x5eea65e6f4c4ee8b]⟩,
   ⟨[0xe97070ae8b800d67, 0xb9cb66fab59b433e, 0xc4496574c6141364, 0x530aa9b56a9677ea], [0x4a4e2ee375200533, 0x4c38a5090f20a9be, 0xa6ffba4ea683510, 0x7340efee65732ea9]⟩,
   ⟨[0x3a5612e4e41c2b43, 0x31f51b80fcb5c0a8, 0x4c5bba64bd1f03e6, 0x253872433694adca], [0xf114efaf1f7e4d5c, 0xbea5223a4ea3a59d, 0x82cef46f67eb414d, 0x9d351c19b6cac3d]⟩,
   ⟨[0xc69f25ce810f5054, 0xe33e5e97548a2cdf, 0x20b3f44236946d3c, 0x572c0f5c65df2d3b], [0xfc5b2df3cc953cc8, 0x934d54c0d1ccadc6, 0x828a906ea6e7b4db, 0x610d36c15ad3076f]⟩,
   ⟨[0x960b0a0174f56e27, 0x9942c6accf3fea75, 0x2e4d786d82c51490, 0x23a516369a4749c9], [0xd86ab36a2f7560fc, 0xda66b49dddb852a9, 0x84e1587d544c1023, 0x7ab8bc696aa3c1da]⟩,
   ⟨[0xfd0397afa5f30701, 0x96ffb15ddfc8b187, 0xf2c864531475e520, 0x71521986ef37300e], [0xd81f75a868006d45, 0xdf7814eacbc06d4d, 0x5bcf959b2e8e9150, 0x146d37d756668c18]⟩,
   ⟨[0x1abd731288e8dc77, 0xb34b877c1c3a4db, 0x85739093f844bace, 0x5dedcf8f04a7cf80], [0xd8bb237ed87cdbdc, 0x89852174ccba784f, 0x6843bab8b2faecc3, 0x15268302aa4bba32]⟩,
   ⟨[0x3b58225ab23d3770, 0x9357eb5910cc9de6, 0x8665f92a42ecf80e, 0x4819cc9dc875c031], [0x9cbe5d8c34b979b, 0x161e8ac07e1d0e63, 0x874df24f282e36e8, 0x6528e6fa0712a0cd]⟩,
   ⟨[0xe37ad786107633e4, 0x122d7123cf1fe646, 0x1e6e682bcfa93ac0, 0xa25f4ee276200db], [0x44e290ede25fbb01, 0x3e392df5c3c1b418, 0xe5e1574583ebe689, 0x16139d24b999926]⟩,
   ⟨[0x48915b065d7da58, 0x6ef7c4efa78f3d9e, 0x78ccce55ad614974, 0x43db7da054b95643], [0xfc423b70e53f1a67, 0x8f8bed814efe2427, 0xf5d6ad5f95b045eb, 0x23582d5dd7407716]⟩,
   ⟨[0x9e5d24fb9f674472, 0x1ae1863668626041, 0x8977e68f7abc4380, 0x7d9ff8e805af2d04], [0x9d31195f4197c4e1, 0x9f3f6e114400f35e, 0x1a87d5867bbef801, 0x42ae0380952bb025]⟩,
   ⟨[0xc6a3ed756b96482b, 0x58b38724a9c6dd2f, 0x464c8ce89297fb47, 0x245797efb6d6c55], [0xbe141c80c0b58c8f, 0xc4c405cb77766c48, 0xd57ee428d10c0f31, 0x3d4862b50e8fe7b]⟩,
   ⟨[0x21976f8a1dc3722c, 0x2ec30d55f476f0d, 0xd711e01dca434b06, 0x551ac91099ff2488], [0x24aec72da56ca3c7, 0x2dd1219a891896ce, 0xd84bad1967882925, 0x27e65d7f9d4778ef]⟩,
   ⟨[0x9f19c8f4685687f, 0xb7c7b9e3bbb58bd3, 0x349d03a78fa34dd5, 0x41f9d0038d59e889], [0xcf3367d42b3ed6fa, 0xcf3c6715378da1ed, 0x86dc39034e935e9a, 0x50692cfff08cb23a]⟩,
   ⟨[0x18ca772ac2d65c87, 0xc9092b384f1d0cb6, 0x91e71cf1bbd2015a, 0x4a09daac4f3def26], [0x7cca7b4a735c9281, 0x2028f1441bf0aaee, 0xcf72a082acb5b748, 0x58957d5d43299b85]⟩,
   ⟨[0x64bb164e901f1789, 0xc68766e65aef97bf, 0x30eca3e2942b6dce, 0x632676faf9e798f3], [0xb52533d3f13896ee, 0xad9128312d8a29c1, 0x12f1b9a4bc14e7ff, 0x4e1d23fd8828d196]⟩],
  [⟨[0xc4f89e00ef494793, 0xa6044bc3c93d2f55, 0x68e60b588797f8af, 0x4d5969fa841e4b5e], [0xb1ee70fbd759bb2d, 0x9ac3043366d8ad01, 0xd93f23db84e9f677, 0x2ad9d16fc53029a4]⟩,
   ⟨[0xd01fc16bdd882d23, 0x3bf921f1fa5b4128, 0x3d3fe145235bc9ce, 0x5955671662e686e1], [0xe329a7c279f99d69, 0xa67ef5eca4f5f5f5, 0xf96a41eed5a34ff0, 0x9d0cf0674674b5f]⟩,
   ⟨[0x8ccdf71c6135b7e2, 0x91f1e33eafb6ad6b, 0xc452f439db0cfedf, 0x15724711c05b06d4], [0x5fee0e0ea3bc1277, 0xd6847fad8d8ba081, 0x8b02666c0d4c8ddd, 0x149e5009c35559db]⟩,
   ⟨[0xb4d0d2c95461d9ca, 0xfe7993b6ce0a3973, 0x42b2a500d6032e95, 0x4deee35a217131c6], [0x94e65c8cffe7c2eb, 0xdad7785b19d4b4a, 0xeeba6794925613f9, 0x6af45bbee30494cb]⟩,
   ⟨[0x41352a6132f43f67, 0xd218de948f886d3, 0xcdfc0c559b33b0f6, 0x21fc63536c5b90cd], [0x5d8ca5ad7898aff2, 0xa743f80e24287c30, 0x4d0371319084a3a2, 0x52041eedb5efc978]⟩,
   ⟨[0x80b588eecc1bcfcb, 0xad871a11e5ce0035, 0xf47224d0f966d746, 0x5215a9d2b387fcc2], [0xc54eb2e7695c02af, 0x36fd06bcdfc8493d, 0x1ce8a9aa98ce7c76, 0x58dfcbf644d398b]⟩,
   ⟨[0xcd7e67dc5bb81464, 0xe7a19301047a7789, 0xccc31ee5573e837b, 0x25ee99afaf7703d5], [0x34fdd6daddb3e807, 0x273d8288109092dd, 0xf8f2464fb7357633, 0x26b2cbadccaa31d5]⟩,
   ⟨[0xba9cfedef707f9f7, 0xa9a6896cac4975fb, 0x62135d9dbb1c35e4, 0x13ae840fcba133d2], [0x6abf39134c2ba3a9, 0xe4d8508a6d8a62c1, 0xf256535466d96607, 0x5c368cceb6cabae8]⟩,
   ⟨[0xc3b52e88b3999bb, 0xb752e28fef691871, 0xa0460abcf17d0d2d, 0x7ddce3c1b7741f2c], [0x76a6bab3673000f, 0xcdb1cd2b425e8a9d, 0x357fcfff2606eab5, 0x308644f8035de7b4]⟩,
   ⟨[0xba64a1276d6ff45e, 0x1f52b6ae6b0c3cef, 0x91295179cbf496cb, 0x2b986fada1b12be4], [0x243d236644dbaf57, 0x48e22bba346e88c2, 0xcdfb79578bbafa0d, 0x94ed36e0d70670e]⟩,
   ⟨[0x2bad1539a0d60407, 0xc1a9286e6e744111, 0x6d08c0db81a6dcaa, 0x108f35ec80afb34f], [0xbe79a6e31e3e34ae, 0x206eaa2816d524e5, 0x563b6e1c344aba64, 0x6c362a613207ca68]⟩,
   ⟨[0x4d8145bef9a9a0f, 0x8b57559ba15b6247, 0x72d53570303afbf3, 0x1c36b41d6db5736], [0x94d583c91173b5fa, 0x71f8e12d013c8aaa, 0xa4b5a532f29cb838, 0x4b1797007ce4eba4]⟩,
   ⟨[0x69cfa7b00ce86fc3, 0x3705d7c0d60e076c, 0xb1a1464ab1091e10, 0x97945a97fe80950], [0xd9c71a959aa381e3, 0x2a929073a410ff56, 0x79ef8353f0feb121, 0x1437c4b05f3107e5]⟩,
   ⟨[0xc5128c8b621db2e5, 0x4e9c9b2e51a9499a, 0x11535880d8cd7594, 0x35a26f59b0697c07], [0xab3f4b75c43b624e, 0x69f82105b8e03e6b, 0xfb268288fb04e036, 0x6a5e6bd3a0bdb41c]⟩,
   ⟨[0x8c716a1ac8082916, 0xb1d1b1524592472c, 0x63657a6d3ab6938a, 0x44882eb6f03214ae], [0x19575b8ac615af7d, 0x14d740c135ee3d98, 0xbc478e8957768d2d, 0x30cc8fa213fc5e4c]⟩,
   ⟨[0x705607c54ebe1e7c, 0x631e5b88284eda2b, 0x7e9e39c07f54ddb, 0x4e554d888dcf6bc5], [0x12e9fb200cbab0fe, 0x6f3bc7ceba5e007f, 0xa770ba1dbc871df6, 0x541aa4c6fe01142c]⟩],
  [⟨[0xbfe26700f2412ec7, 0xe975796cfe96af4, 0x7d30bf7cdd6b04f7, 0x5421925df1d8fce4], [0x1cf5e9f5ec709107, 0x124fcfc2b4580aa9, 0x2f7012b67a835b3, 0x753fe01b47c0760f]⟩,
   ⟨[0x82fd5d47b1d2a896, 0x7eabc17554e75ddb, 0x724fc3a81ab080bc, 0x363d6016a75c31dd], [0x5d465ff2863f308f, 0x9ec70664e515adcb, 0x4bd7a1a2b3bc206a, 0x2022576c4a167d34]⟩,
   ⟨[0xf5ac34515cd6ac65, 0x7629731e5839f554, 0xa3260ae393545a60, 0x49d190e8a7ad1979], [0x5aa8492ff0b35045, 0x4a5fab7b2584e651, 0x5a05420e395e2aae, 0x30613c78547b4038]⟩,
   ⟨[0x47e1c59df9dae7e6, 0x8d68839b247a5a9d, 0x663b5977c1a80d5e, 0x5e51f87240d8cf32], [0x88adbf9eece49494, 0x40b4ac5c1792bae8, 0x278200d19a1b3314, 0x7d15320ed9f83584]⟩,
   ⟨[0xfe6daa74eaf2bff8, 0x6e4ee4c0c156aa6b, 0xd9310ff8d0f4e7d5, 0x552eef9e7bb0c42d], [0x323ff6f1fdc69e1a, 0xfa66b741d79365, 0x6b16ea96b22b4, 0x71bbc653d20f07be]⟩,
   ⟨[0x89a7b7eea440fa1c, 0x52bb5278757cd658, 0xc5906f4bb0cddea4, 0x66aaafee5de2d8da], [0x4d5e016a53b6e226, 0xa2f73dc61993a1d7, 0x7cdd4c1da09dd554, 0x6f723079ab416627]⟩,
   ⟨[0xe641639ec4e5c4af, 0x8bc6100d371cc648, 0x7bd161b19b216e8a, 0x58098aebf810db32], [0xee52bb465ad92372, 0x4b2c48e1eef938ca, 0xe8fde4d6ab43a5d0, 0x459274cda5284c83]⟩,
   ⟨[0xa98925b0d015095d, 0xc8969f5f4611a1a5, 0xbddcd62f2ce4663b, 0x1c9d9007a076c8be], [0xe8de8890749f7be5, 0xc9e455e7ff208e75, 0xdcee17a98f5fac9a, 0x776b72d368a3a666]⟩,
   ⟨[0x28c7d648fee0e89a, 0x621b370f463af60d, 0x9dc1548e5adc8acd, 0x48032acfa0b49504], [0x146c6eac85e992d5, 0x5a2cb5775cb491e0, 0x669dd6d4454c120a, 0x3431ab3398203c39]⟩,
   ⟨[0xe87615039de017bf, 0xab117d2fb60ae61f, 0x846463f827937ff, 0x45e6bd406bd89c65], [0x3160ad67a613bdb8, 0xbd5266f3b8714a49, 0xf7d29c4751a233e4, 0x6887b48d4de6a90c]⟩,
   ⟨[0x87290a5dfde1ef8, 0xc70ccb52a166950a, 0xaa7f095b4a170aae, 0x15301f4e5517ca0b], [0x3c86b787302f1f84, 0x95d4153544676e39, 0xbfec4ae39df5f751, 0x4a0d3986304923d3]⟩,
   ⟨[0x70faaba979b1390c, 0xa9067eee62ba8b9e, 0x987895031e17df6f, 0x5997e8ae78d5b295], [0x31e13ad7ae0c6768, 0x23262f05ef17a7b1, 0x1580322749b7b101, 0x1234a9c536b5ba70]⟩,
   ⟨[0xed65c961395793ac, 0x1157cd8ccde1c47, 0xd0240b01d5614df, 0xf0da1ef568e83a5], [0x57c90846c0b783c1, 0x4501048c81e2f613, 0x3d8a69ba2709dc1, 0x6f365c4a97cce0e]⟩,
   ⟨[0xeaf23159551580cd, 0xf1e586a053dd5ee, 0xeb7a78dd3cbcc3d5, 0x39bbc65ab014b850], [0x13da4e8579b61ac7, 0x33e78dcf0da59e37, 0x4e65af252a643c4c, 0xdc38c9708869d03]⟩,
   ⟨[0x2b648345a3a38837, 0x2fa6d8f7905e261d, 0xa23bd78666a14946, 0x781633fd5e01cc9a], [0xb1352709e2c71ad1, 0x9d74505283a6d365, 0xd88b5cae66567032, 0x27fc40df53d875ca]⟩,
   ⟨[0xb254e54c47f7554f, 0x33ad0ed6d708614d, 0x830566a376ce908d, 0x73df94bdaa1add5c], [0x23ec411f2dbdd8a3, 0x9ba473383a979fdc, 0x56a2c27fc667e9f7, 0x295647c7427e6bfb]⟩],
  [⟨[0x9b5f4652f8e48c13, 0xe979034f9eef4ba3, 0xf95fd7767cf5af6e, 0x4236c47e506ceb46], [0xc02a249e08d2312, 0xaa5a38ccc056499a, 0xcb26a8e27c188b64, 0x38fb961d0ae373d5]⟩,
   ⟨[0xeb179c9e7b23470d, 0xae70102f1ebc44e7, 0x8184c1d492e0eed0, 0x329882815c21bf08], [0x469589678180d11e, 0xebd5518c7fd7278d, 0xfceb7f68ad2b74f7, 0x82d2011f9c7b6da]⟩,
   ⟨[0x65d5aed1bbe0299d, 0x77f756cf565a0a, 0xd44fcd6b344bb90d, 0x6c2a19c0536f3f25], [0x32ee7439bb2a4d91, 0xa97e677aed9351e1, 0x6752edcf413a16e0, 0x5de1b0c71ce4fbe6]⟩,
   ⟨[0x6c10da15d6009b36, 0xaad05f4fe5d8cfbe, 0xd8bce0b431d58b76, 0x8de344e27b2811b], [0xd9a78aae80b51e48, 0x1e1d0a813e41c63a, 0x844376de8076b3c7, 0x73f0d4a35fdf9d53]⟩,
   ⟨[0xf1532922558c7719, 0xf10188aa8221197, 0x51a97e5f5ddc1716, 0xf583a9b444789e7], [0xaa8fc58d97d63b87, 0xa5af048b1cfda59c, 0x2a4a0c5f2ddb34eb, 0x66c0f0c7701e2e07]⟩,
   ⟨[0xc0bc88b836be2abf, 0x265cce745c721b85, 0x483ebb01d54299ba, 0x18f11cbe348ed89e], [0x5e9ae7b9e42129d4, 0x6b3e9e8d81de5b77, 0xb3adbac97a14a74a, 0x1b6cebb20003b266]⟩,
   ⟨[0xd4d4dd1015eb200e, 0xeeaea4c6fb87c57b, 0x48f0b95772ff6321, 0x187c4b75b782b01d], [0x3dc1aacde9b4d622, 0x358418e3f4ed519, 0x981a24f8773d019c, 0x6643ca913db0b4f4]⟩,
   ⟨[0xe3254f4bd47670e3, 0x9822612530b1dde9, 0x61eb6c86da8af160, 0x725c771618363269], [0xb051dc9f02f62462, 0xff8c9edf00ac5531, 0x3909c79b962a92a3, 0x25c90d9327790237]⟩,
   ⟨[0xa5df2cc88adc475, 0x48d26967e5d27d0a, 0x21d5f616359ff194, 0x38acd14189977ce2], [0x39b9bd92fdaa8acb, 0xdb157df2035b62d0, 0x4e33386eb7d252d9, 0x6bd2e33fcf196258]⟩,
   ⟨[0xe0806297ce8f10c5, 0x446afd6d8a14b746, 0xd7931f29bf566190, 0x4d9cfbfa86fdb72a], [0x7752885195009f63, 0x5fe5013434c0ff45, 0xc38cabbb6e134b81, 0x2e60b277e36db037]⟩,
   ⟨[0xa614cf6757184ca5, 0x6cbd8d6325be01e3, 0xe313ee8da0030be3, 0x69af03992b1e7c60], [0x519abfbb50423f30, 0x200111ff486b9519, 0x6ff93ccb3351f692, 0x32eb3e543ed9be71]⟩,
   ⟨[0x851acb954052ebd, 0x3a389b7b6d2336d7, 0x50a8792517c6acd9, 0x31fe845b807d9b1], [0xa348bb01e22f7492, 0x9547ed3605f39661, 0x97df675668ec4ac2, 0x5836fefe85b7f81b]⟩,
   ⟨[0x4e4869a65f0b2acb, 0xc4798f3fdec46001, 0x281a4ed600903474, 0x4f22e9defb9aabd], [0x2ac92264faa721a4, 0xbce2ff0b276f8041, 0x5f605607e4943926, 0x388c5fab55506df7]⟩,
   ⟨[0xff104f6dab5687e2, 0x1b6dafe93b2d0245, 0x6405c02681b2ec4b, 0x2b7676daf489ebbc], [0xbaa158f06da1f57a, 0x9cb044ad27a8457f, 0xc23737a5a3bbd6c9, 0x71fb5b471d2267e1]⟩,
   ⟨[0x779bd825d14f56e4, 0xd7e672a008396f23, 0x23fe3fc0d40ba6ee, 0x41e749e73b56a3ab], [0xd19471ce72042f67, 0x8a686da74989d4d7, 0x52a709c64fa09bc9, 0x1dc21162b3b6aa64]⟩,
   ⟨[0x62c9838bf9b3bd1d, 0x1ee59e5a0ce6384c, 0xa9f5abf6ece8cc7f, 0x1961d80f80bdda83], [0x7a40880cca406fb1, 0x5035d307dfbce2e4, 0x590259e03d637299, 0x1607ac9fd6c34e05]⟩],
  [⟨[0x4abc27109d818b72, 0x2496cea6092607b7, 0xfb1087e1055c4ec8, 0x50a30c6a258adc7d], [0xaf4eb6b30ff502e3, 0x5d5d76ad190607ab, 0xc9c9b71134482c13, 0x574a971842213696]⟩,
   ⟨[0x7c90fafd7018fc70, 0x36a045592b83291c, 0x6120b51e40d1b175, 0x45f10b203dcf9606], [0x3c6a9efff20c5636, 0xb2768ba3ffbbc648, 0x1c9df90ab523b36c, 0x4148bf06d6ff34ed]⟩,
   ⟨[0x3d29821a3b5f9492, 0xae12c78290b24561, 0xef6fb2778a3bdc5f, 0x6034bf3bac3bd74e], [0x131d57cd4acb6f85, 0xded1c4333be79b31, 0xb091348978a896b8, 0x1247c0b7b287862c]⟩,
   ⟨[0xeb6428937c494054, 0x7922793022142d26, 0x8f1c8371943e8398, 0x583c7aef60886db7], [0xafe460223a12ee0e, 0xe9c9253ab6cb8685, 0x5334f9dd6316a4c6, 0x4e2f13d8e6f1dee9]⟩,
   ⟨[0x7499a5b4b37d8ba5, 0xa12aa6371c9bcde2, 0xcc99471dbfd6ae86, 0x996637892048d63], [0x42cbfa9d552e71a3, 0x84a8b153675c1716, 0xb9c07c0e4cf00a7d, 0x32e2322b0da504db]⟩,
   ⟨[0x569f581fe671ee59, 0x293522d7422e86c7, 0x5e4cea7e15dcef10, 0x67c8a9fc483c0fe3], [0x4de5ac0947b79284, 0x22ab8fbd025016ba, 0x51318c232a099b37, 0x542ea0fa49e06623]⟩,
   ⟨[0xdd240f6428909f31, 0x46b66f9e101b7f01, 0x788c29ca20481c3f, 0x3218a509ca5d5182], [0x64bcc7ad63e9a2b9, 0x3d213ca2addf5c0b, 0x6d93ed4c9960d650, 0x3f13db22284ee5f3]⟩,
   ⟨[0x5b678c3a6697e0d1, 0x25a171f416d9d878, 0xc20a6d80faec362b, 0x1bb3f14cc512ea4b], [0xece5313b2ae35fa5, 0xe390a01fbbd76b87, 0xc78ea4c5882da3fc, 0x771bcdae42086a77]⟩,
   ⟨[0x8e9e3c8b565802e9, 0xc37a7b3553fa1be7, 0x9d2f1a264408fb77, 0xb3ece36ff308b7b], [0x8fb35b361f30fc37, 0x463b44e283e1a3c9, 0x7218f09f3402233a, 0x1519638afc9a6990]⟩,
   ⟨[0x51fb3e5d8eaac478, 0x620e4826760ed4ec, 0x46fc5b1f1d865577, 0x15ef2ad95244a538], [0x8d7e477c4bf382bd, 0xcbf170c902a5c9ee, 0xb91a870c4afb0ec1, 0x52ffc5169c31425]⟩,
   ⟨[0x1fd437462018d066, 0xbc5015174c67fc35, 0xe65bc2fbbc990eb6, 0x538ca6f973f87f92], [0x42fbdae08352b03f, 0xf265b1e099a4c9b9, 0x6e3eab2f185ca070, 0x6e6f4f7d37d0a2c1]⟩,
   ⟨[0x9b20d8eec2d5d73e, 0x190521ae75844c15, 0x67663ac426ad08fe, 0x67aeefeff984ec06], [0x61c71142cbdd87ef, 0xfa4995b63396e3b, 0x3196e55185c193b0, 0x36c0a2a8dacb3a3d]⟩,
   ⟨[0xeab89fdc178a1115, 0xc7b764d8d7c31303, 0xa5b2d6fb90203755, 0x3c360bf9d5f8aeee], [0x8dfdcd0502f1cc3c, 0x7f8a64d264e5269e, 0xa36196ecea13ffd7, 0x35e2241577e3839f]⟩,
   ⟨[0x29e7ab0be22e0c52, 0x68bf32c78b27deda, 0x52a762a2dc7971ae, 0x4ca4348718b0cdcc], [0xed429da13fceaf73, 0x49396e6f06718d19, 0xdecb93375bb3301c, 0x4b7723c10ff489b1]⟩,
   ⟨[0xae321f09abee6b9b, 0xf251bf4d37318f60, 0xb0a8a251b63dc269, 0x514a25fc71817963], [0x518f574755c9b2e9, 0x3e56cc3e1c9b4845, 0xbdfd637a283ae1fa, 0x419ba4b4c3de778e]⟩,
   ⟨[0xc7f18e93bcd2eb74, 0x171264c8fc61fb42, 0x27282e7685119033, 0x225006a4d7db91c7], [0x628e0f3c1ecf5024, 0xdc5111e000859cde, 0x4ab1764f1f220711, 0x7c6916f170dded3c]⟩],
  [⟨[0xf9ffe8fc5f0ca58a, 0x9e34f3022879ebb, 0x648d6339ed7b0520, 0xd6719d01af5ecdc], [0x2878714d0b8590e4, 0x827d04ed90ec312b, 0xd415c8b43b5767c3, 0x4170f0adc09fd18d]⟩,
   ⟨[0x9b649cfc3c601031, 0x478603a636ddae7, 0xdc972dfa914e100a, 0x519c55df091621ae], [0x863046cbd4a9963d, 0xdf16763c5acf7c0c, 0x4999a93eff5468a4, 0x35543eff424074a5]⟩,
   ⟨[0x27b1dbfadd33307c, 0xa0d04784927ca6f3, 0xbd3ebc5ea37cf855, 0x59d02ef549f5aa2c], [0xcdabe86fbdd57bf3, 0x7b3add2f37819d86, 0x7b90ba150413b7b0, 0x470717826b99685b]⟩,
   ⟨[0xb7c3218eef0ce97f, 0xdae3b56c0898c79c, 0x6349d83d0908877d, 0x970c6c0c81e8c4e], [0xe45c4a7a47f426c, 0xab000a593fbb194e, 0x570fbba53a6dd13e, 0x66045580c8f44a57]⟩,
   ⟨[0x5abeb74912a72f7f, 0x15072a927ae56f4d, 0x1c77ae00222ab2c4, 0x591eaec69afe63de], [0xb51d41afdfd24304, 0xde28df26dfbcc096, 0x2f046c838a20da7, 0x5ec3dbdc1ae0a45b]⟩,
   ⟨[0x7c19bd7563dd86c2, 0xdb1193118d78a57b, 0xf48bb4fa23c5c4e7, 0x65514c1c97db0a05], [0x1bc1f2f043cac49c, 0x975feb512851b4be, 0xe0a4633dd60d530, 0x32bbbf1409b1d2c6]⟩,
   ⟨[0x79124749a670eac0, 0x504d89d531dd893c, 0xddced74ce0654d63, 0x58956be5e2208707], [0xbe6a3ecd437e7077, 0xb8ab332d574095c8, 0x4e79ac1c3869da42, 0x79d4c3fb68859f51]⟩,
   ⟨[0x1e5fc1b97936a831, 0x1ea42ed2d74f1f41, 0x33d22ec1c4ea3228, 0x5705333f729bebfe], [0xdbd1a67b64596076, 0x6bff269dfa65ba98, 0x8451a9c26c47e715, 0x243d679d22898db3]⟩,
   ⟨[0xe935d705b8323fd0, 0xe2da88456937e5cb, 0x1c9dfff84a5eae1e, 0x796f0b9545df7a79], [0xc24d573f640dba32, 0x2b77521702e4b792, 0xd437eb6394d12c40, 0x6182af6d4ad371f0]⟩,
   ⟨[0x133eda5241fc7551, 0xa0088a2be91714af, 0xb41b9ac25e0a73c0, 0x4808bb5a1d3b3953], [0xd875aa142b9ae648, 0x4f38c9462408244c, 0x4b6b941ff051a87, 0x1d5b0b9e6df48ecd]⟩,
   ⟨[0x27fd368a169e757f, 0x2acb35607b94d9db, 0x81903f4b4d4c9b5f, 0x641f806c169b81de], [0x574e94449e957475, 0xe08814aec6c8ee52, 0xd1ae71ec6c84fddf, 0x44a56014faa040d9]⟩,
   ⟨[0x6da690875a48f60, 0x7ba6c9cbbb2cd408, 0x57d2d0ff3a1bcbff, 0x186f1a8b8928ce36], [0xffd205b7a40f877, 0x2915bc8e01af68f7, 0x816ac4dfc36a5fb1, 0x609b0a872c9e1f7d]⟩,
   ⟨[0x4032ac5eb97536fb, 0x53e6fe68a7c5edb6, 0x2f4149305f0dcba1, 0x209752562837e314], [0xdf5dc4963c3c1d27, 0xdfdaaf371797c36, 0x5f3e9229da504e04, 0x354ea88d8c234246]⟩,
   ⟨[0xaf6741c30922d317, 0x7429853b9df0a572, 0xea1ae041dc207a8, 0x2c1daa1c450075f5], [0x27c71f166ed729b4, 0x785718a653ab8ec0, 0x1eec7bbfa8465487, 0x78da9b044c578ba9]⟩,
   ⟨[0xff9ed65eb3b707fa, 0xf8c8301ff5d28d33, 0xb15d498fa65f5c0f, 0x6def256db0ef2b89], [0xd40a6b252184ef6, 0xc702ebe52bf06f5a, 0x13e50e184ba041aa, 0x53552d887ec4c784]⟩,
   ⟨[0x2cd09b19f28abb3a, 0x4f5c040f724edb9b, 0xd6820590e0dcbd16, 0x45d84de91b7155a3], [0x995bdd01a251b1ba, 0x607f951737caa4dc, 0x747fea1ca15d9674, 0x646c187673e97c97]⟩],
  [⟨[0x1951682b6fac1486, 0x8b578e1e4a4d14c5, 0x83fa101b7384d42, 0x13380ce9ed1c8a87], [0xc7052ed8732a493b, 0xd5fef40fb32e3d69, 0xa64ace8788833566, 0x6e36cfdb4177dc00]⟩,
   ⟨[0xaa14e281e742c3b4, 0xb75e7b2aee5af40a, 0x3fc5ff0b1616efa2, 0x90259b0ad763298], [0x4105b57e38753438, 0x70ed1a00cf2d8926, 0x78921395322f40bb, 0x3aee819967a3ff56]⟩,
   ⟨[0x88073d0011ea75fc, 0xd23d279606a4b4eb, 0x1fd22f9ed85d3a6b, 0x6b5ea051afb43b70], [0x96c9c176d99be576, 0x85ac2b6c4c47261e, 0x2726395999a9c378, 0x6d36e9fe8b5cabda]⟩,
   ⟨[0xc9fc7661a58f614c, 0x82aa317d2e45ae73, 0xdcb1925fc8cb9cc7, 0x1341c1aa27813205], [0xdd06745b6cd478ab, 0xc2534b21e28f6a3, 0xe21833459d27fe63, 0x7f1e2a3306466147]⟩,
   ⟨[0x378d727e5aee2471, 0xb718fc17d47739b6, 0xda27cb9b4145e8ef, 0x3f8ab1a30ef2ab20], [0xa89add37e16c0141, 0x2127823b59df1c95, 0x53f90b73b7455cc2, 0x7f9605861183fbe5]⟩,
   ⟨[0x56d0475ae77235c3, 0xed2907c5b18ed61a, 0x2d02c4cb7d73f6f8, 0x35ef69b4c42e7aed], [0x53a6120a31b7324a, 0x982dd22159f1a395, 0x3eca86f835cfd94, 0x4cba837d73ca1bd5]⟩,
   ⟨[0x64f66d3941b17e6d, 0x3c869bf5cb14f3b3, 0x1eba045a28350efa, 0x7acfb882c7cdec47], [0x7acfd28d8fb3097b, 0xda397c3162986426, 0xd49f84212a1a7a94, 0x7b372e2dfab65156]⟩,
   ⟨[0x3adbdd0701d9db0f, 0x617521e694ff0cfb, 0x5ba5905c3f5bd583, 0x6f89603378670cd1], [0xa59c447fb98ea11, 0x59b918cc653edc59, 0xbf4d2a9f72c01e, 0x748455d147dee00f]⟩,
   ⟨[0xe371a7a8386e7491, 0xf71711cc621a3484, 0x1568256ee0015c3b, 0x5acef7a67d3ffde9], [0x2ed70e5b08e4219, 0x7ece1726832ac3aa, 0xc3c0d32b951d1ca2, 0x4c99166438decc59]⟩,
   ⟨[0xb99df8ba96eb21a4, 0xb88d25f42bbf8e6d, 0x16b3e0b1686daa3c, 0x1131456170d47c57], [0x8dcdc3d13338342d, 0xe6d39b0188e028a7, 0xb781f1ed72855b5e, 0xe0d82f6cc192572]⟩,
   ⟨[0xc86a8e5dcf1e20aa, 0x1a87aef3f9ab96d5, 0xa8941635f3d19051, 0x67b1d0a2654fff15], [0x266fd5ed92862acd, 0xb72587bed11deeac, 0x5cf0d2e2d09320aa, 0x68456eba515e0277]⟩,
   ⟨[0x86a5461c771f64ca, 0xb7a220b748ff8d7a, 0x9a0dd72ad7a568d1, 0x18f5e1dcf644d858], [0xb7ae1bc23e00364f, 0xd7ea31f3cee8d9f7, 0xd18da30fdcdb883d, 0x179cfca5cba00f48]⟩,
   ⟨[0x496f2c0139e7860c, 0xacdf8b4027f15eaf, 0x8871966c687ac815, 0x6228f1b58db8fdb5], [0x8644656af30ecf2b, 0x15576cc2ae1deaff, 0x93d86d56697ab3fc, 0x3e4a428e811e3ff2]⟩,
   ⟨[0xfb85de3d91b9f5df, 0xcdb595d4b20a9c71, 0x55cb08f3b44d671e, 0x780fc2e5fcd7d5ed], [0x815ab41f7f939366, 0xa7597a02ecd52b20, 0x9be078f04648e3c5, 0x7a3e217917bd3dc2]⟩,
   ⟨[0x22758c419d9e5e53, 0x44d675f49ef09fae, 0x1ab7986d27159f97, 0x72b3f02bb6b9465b], [0xa372fac7fe56f578, 0x33fa6479da534f4a, 0xb0003307df63bf2d, 0x34d40b4db80d0f64]⟩,
   ⟨[0x8a8929dc3d2b9fc2, 0x7d12e86c55ee75e5, 0xb3fe1ad392e1a870, 0x27148c94729cfe4c], [0x6a8c3b5218ba868b, 0xdd2006e47f038a9c, 0x4606fa9eb7124908, 0x434a8c07f4940cb1]⟩],
  [⟨[0x15f36ebef98b91ea, 0x94d802dec1ed17b1, 0x3c45fa08085d77f8, 0xa30b3c302ff571a], [0x70f5852d264c93d0, 0x5e51bcab191aee57, 0xd5c14ae9fad8e96e, 0x73b00534d4bc414b]⟩,
   ⟨[0x21cf876b12aff5e7, 0x3e9f664cf75799a6, 0xc23b7d199a0e73cd, 0x77aab691427eea36], [0x2e74f972604ee854, 0x8712c7a0f867c81a, 0x6085980f953a4c56, 0x2db997070f7707e1]⟩,
   ⟨[0x5ecc087f78bdb7a7, 0x43cc156c04c693f2, 0x965067cf039bd7f1, 0x72140e566e3fae2f], [0x26452e4de019ded1, 0x6f4c23492edef154, 0xa7066d7f054dfc0f, 0x544e6f6d3381ab44]⟩,
   ⟨[0x9b6e94699214c791, 0xd74f9c5586938bdc, 0xf1527f6fc2928fd, 0x5b0fbf0f63c3a053], [0xac1f442cfc41ff10, 0x34ef88ef787b4932, 0xf8120f08316732ac, 0x7bccf12ca655dc4a]⟩,
   ⟨[0x750df97fa6c7760e, 0xf1a0a827609bf215, 0x7348c1b467fd04b4, 0x6a581016615c8145], [0x9dc012259a11aafc, 0x24f65b053f2b0c8b, 0xa27cb8bfdcb1b2a4, 0x3c44b811e48c1a71]⟩,
   ⟨[0xbc059af2f780b295, 0xdf58928c0b6b247d, 0x224d4c3c01903f3d, 0x7152e120818ee0ac], [0x6c8f474554bff1be, 0x98a6c7ec431adef7, 0xdcb6bb7591b2cfb6, 0x145f6d397e83a5bb]⟩,
   ⟨[0x827c000c81d23bc1, 0x5cdc1135403956fc, 0xd967a5b13c751158, 0x52af85bc96201d7d], [0x522bc492644558f7, 0xf74a35afed7a060d, 0x10e5f9fd4dc4619e, 0x6071f1f324f60bb]⟩,
   ⟨[0xc5ffd5ef65921c34, 0x46ce1a69302baa5d, 0x89cc84ec4e22ff1d, 0x16a481ae68131754], [0x2a06a156b89039f5, 0x40b6401bb3a95ab9, 0xffcc53eb313820c3, 0x256b00e7ea959f76]⟩,
   ⟨[0xcce87fc954fbdd74, 0xec258542b23c6e1d, 0x5be392b49e5e1928, 0x65af311047a8a759], [0x943f7a2547dffd31, 0xdccda18651e896fa, 0x71a93b1e933e747f, 0x44f5c468dfb043ad]⟩,
   ⟨[0xf6aec52c786fccba, 0x23d49dcf6d51fa78, 0xf81463b9b40d8e6, 0x18b9d932708d3da2], [0x796f94edf986dc6d, 0x33b2ccc1fc2622c3, 0x16790dfb9ccec606, 0x6f5d1452cfd31481]⟩,
   ⟨[0x91f15ddc6c3a15d6, 0x45d12f404d360e75, 0xf2e28ee81daffc9c, 0x5cc6a0566cdf5566], [0x855166d21779b9bf, 0x92ba5ef4cf94d9fe, 0x1266fb2a985bc1dd, 0x4572ce8fca3018ad]⟩,
   ⟨[0x8729a12dbe4bb604, 0x6a29c8494e99e9ab, 0x54ae50117a89894d, 0x5e66a255cdb0eebd], [0x6736eacbee153b, 0x8a36cc2d225e7b86, 0xf731e430ec0598ec, 0x49338e4d7fd9a11f]⟩,
   ⟨[0xe038ce03da6dabaa, 0x13a08dce7c1bce0c, 0x12d00dd0da89efbf, 0x70a13fb96fcf0510], [0x16ed1c925cdb03e2, 0xdf1ab61d08e9ee4b, 0x48983da803af3e3d, 0x63cca113429db770]⟩,
   ⟨[0x6d9ac1ebcfb805e5, 0x47c3fe6950fa37b8, 0xd308ec732c33d457, 0x3cb08e00d4cca340], [0xc078dad0be862794, 0x2d147f83f4e10a57, 0xe91820ff3de1b3d5, 0x3d85dd726f30491b]⟩,
   ⟨[0xd486a022f5cbdd3a, 0x2663134acac0b99e, 0x42de13f55f3abfca, 0x4967a225b365b973], [0x99c98a2510f1f997, 0x23f057c97714fab2, 0xce07ca6e1ba2338d, 0x3ba69161069f65d7]⟩,
   ⟨[0xccd8c86fc026fb0e, 0xf49f1fea50407a8c, 0x72fea37b7f19a1db, 0x22a03e253f457db7], [0x2d6c62b271f736d2, 0xcc99f8e7a5acb4e5, 0x8f7dbf2e0de5f380, 0x24494786352b4933]⟩],
  [⟨[0xf020e7a9ae2a5e8f, 0x5adc788bd14c5f02, 0xc5e5afe465c84db4, 0x392facc435c2633c], [0x47d5007042dee269, 0x76706ed76eb7849c, 0x6bf56d56316548cb, 0x4a466066d37ff4df]⟩,
   ⟨[0xc8ebbfb5c30283ad, 0x31e9cf963544e645, 0x90ea9a4988886b50, 0x5e4b8c88021d3d5d], [0xa4db92250dfeb658, 0x8aa95db61910fdae, 0x82e9a997de400eb9, 0x238967e996769a04]⟩,
   ⟨[0x1abb076a89e2df0a, 0xda8b09b007065929, 0x332be8a563bd349b, 0xeb973cea2d35385], [0x67f7ae639c7d375e, 0xa235818de7ae90b1, 0x2b59c26e817493b0, 0x39dc105033c4acd6]⟩,
   ⟨[0x11801ace7b7db3f5, 0x79c214c38cc97ca5, 0xb4bfe1abbf2674bf, 0x598ea7dc43252011], [0x217ff6d3b08f8ef5, 0x9797bbc98b9226b7, 0xab8e98c97b0edb09, 0x240ec22d083a401f]⟩,
   ⟨[0x55a75bcf459abc3d, 0xb2f9859864ecc2dc, 0x271c47c39ee84779, 0x166e5d4bf9bdbf2], [0xd205380f4215b666, 0xf704139664e9fe64, 0x4c737e942bb0da40, 0x2e763521c8119691]⟩,
   ⟨[0x79550b60fd2f8593, 0x47e00afd0c17a56f, 0xd900a9db44157cf, 0x16cf746a81bed76], [0xc21e861bac47a84b, 0xe14387a1724bd47, 0xc209303e2077f7bc, 0x33b5eb59bad12f0b]⟩,
   ⟨[0x7152354f9850fc1f, 0x1239576f83637934, 0xb00c4e4e82af46ba, 0x563d5062ec3feeff], [0xef25e37333d67b7f, 0x3a80a50e50d9845e, 0x1dced1e9a5787ef5, 0x15723e9aa0f87c3c]⟩,
   ⟨[0x217435112b4a156d, 0xb75c041ccd12bd2b, 0x6947368c79f393a6, 0x32cde49e76420e56], [0x67fba31543d612ff, 0x697f7faee3b87bc2, 0x980dafbc7391129a, 0x438b28586f707469]⟩,
   ⟨[0xda8ad16d5e9d085f, 0xe636f1af768fa87c, 0x8520756b85ff1f1, 0x1b8184816abb31be], [0x25b3dcb92e686f1a, 0xe12821342b0cb829, 0x626232bc3b9b759c, 0x797316bb38c4338e]⟩,
   ⟨[0xf8365b644a62dcbd, 0xc2cf51ba6bf0efed, 0x37e379efabf74764, 0x5dc32071a350d603], [0x5465cc805b732100, 0x3231b4e3b3bb5366, 0x23f5385ed0d067ce, 0x76cd762167d33451]⟩,
   ⟨[0xc6c93a0555d857dd, 0xb4b6f1768f308f7f, 0x2371cd88c0f13577, 0x1e507d6c70807d9d], [0x7a77cce1c73e8e2f, 0x1dd96274fccbdeeb, 0xa4dbea5d03f378b8, 0x44b4df552a1c347f]⟩,
   ⟨[0x9853d2828d067a47, 0xbf0adaf486813e74, 0xfde1f24d39409037, 0xe629604973b045d], [0x9880a74b3bb92fab, 0xbc4e3405c6c4d6c6, 0x98c243185184a2d6, 0x7d65412c210c183]⟩,
   ⟨[0x3938e528441a5fbc, 0x2ccd837dccc66b22, 0x75fade75e606282, 0x321811654bb0e76a], [0xe7240305fc929890, 0x1fa427c8e03aaa52, 0xf23c879b0bc7b9f8, 0x699a1235d6bbc908]⟩,
   ⟨[0x20c2978114124b8a, 0xc6464b348000278, 0xf1939127d644e10c, 0x47a479e64ec07ee3], [0xb631576877023389, 0xc0fd319d8bfdd90f, 0xebec2006cb022d4, 0x6810df3d302f58ef]⟩,
   ⟨[0xcf97fa07acb1c3f2, 0xacc60d84a2c3f2f1, 0x4ef3caac5deb73d4, 0x654d0d90d5472c1d], [0x5a39a718e4729062, 0x84b286b08324e0f2, 0xa07a01cbd21e8457, 0xec091c7b094714e]⟩,
   ⟨[0x7ab81940895736bd, 0x9ae791b7e4679df5, 0x36163d81f064109b, 0x3ddee4a40e956b07], [0xe146e7eefeaae47c, 0x81c0c2a76a8eec03, 0x10bb8dd9a8c315cb, 0x2cb423d8d21b9ab0]⟩],
  [⟨[0x5b11d3c7166a5b9a, 0x973627bb8768861d, 0x82a5e2cd5a3e442a, 0x13f6c741dde63678], [0x8daa3c74d892738e, 0xa07d651a932376f, 0xe12612c56892504b, 0x619d2b1dca3ff301]⟩,
   ⟨[0x2b6d686f1b07ceb7, 0x90c0260c298d0996, 0x8caab926102bc73c, 0x445a6487aeb3911c], [0x7ee1e54757f17290, 0xc055478b417711bf, 0x29ef9fec5cfa42c2, 0x5a022de42b8ea0d6]⟩,
   ⟨[0x81a5ec18aeeb2675, 0xa867c5aaad1bba8a, 0xaecb36888db47ebc, 0x77ce00bc26d1038f], [0xadc635ef3e68504b, 0xefc21dedae8af4f, 0xde57fd43ac70c4c9, 0x123360bee78ffc0d]⟩,
   ⟨[0xd608db32d82b61db, 0x5af2a908e45c853, 0xf1b8213e9d3b0032, 0x2312f8abcad15361], [0xdc8d8e32c29ee818, 0x7d7a475de5cd587, 0x766109130c6c38b8, 0x131b6c6d7984bd9]⟩,
   ⟨[0xc05cd4d0cf69c844, 0x747c092d81a9b005, 0xd793551d9e39f54, 0x3bbb00da7ffef17c], [0x6cab83d9655ad7c1, 0x601becd066a8f590, 0xfadb086dae51811b, 0x7768a5d8d69f734b]⟩,
   ⟨[0x3bb9b347f0e2385e, 0x376c8c48f7d39f23, 0xe656c1a4d82ec840, 0x328b25c9fc2ac59a], [0xd02b2f39a046bee6, 0xdbab19a580066d6c, 0x6a2e8f67e938b7f7, 0x645a57a1aa7f2661]⟩,
   ⟨[0x6227904d9a006fae, 0xa975fc4cb598cb72, 0x945bfc2fa1120b82, 0x437a8ab42ac15ce5], [0xa512a1070f53317c, 0x7b552554ff9bd7d6, 0xf81213e754155af9, 0x923f42cfdce0842]⟩,
   ⟨[0x135239165216bb55, 0xf27e4c7a599ca117, 0x464d040a7dd95be1, 0x408974863c417d05], [0xa3d16bf7c88e5d7, 0xb94c661c13b286f, 0xf73c7126e2214821, 0x4b3d5bf0f2f6dafa]⟩,
   ⟨[0xcfabd8a2f1a4332a, 0x56db1546baac9a51, 0x8cc5204b04416247, 0x75ec13bff0583310], [0xd68896ed35b55d0, 0xe89274e267fc14d9, 0x18d425c0fc322878, 0x69477dd7916c714a]⟩,
   ⟨[0x427cbb6c9bddf0f9, 0xcf6941e2db9f52cb, 0xef144df635e60dfa, 0x27b5246eb61df45c], [0xe124518b8d3d1d9, 0xbb3ba1348b313b95, 0x50dcbdf0fa2b7a9, 0x50dbcf6d1d0a99b5]⟩,
   ⟨[0x8a8b22cb3924a1e5, 0x86cb4c5a118f9d55, 0xe5330acc5b339c53, 0x6d5fddf966a35a67], [0xc95007196f6438a5, 0x9723f2ba07e5394e, 0xa9ce2117866b45a8, 0x1b737d8d045ca2ca]⟩,
   ⟨[0x6093f5a56ee00e30, 0x5cab98d45de0a6fc, 0xadfb652c65de754f, 0x679900d1862efd1d], [0x6e5c230fafc5d235, 0x3a1e557912cf6dd3, 0x241c20fb03fb4fa0, 0x562ffae320f6c013]⟩,
   ⟨[0x6efc732f397f25ec, 0x304d1f7dbc1f03b8, 0xa2fa60018890dade, 0x4f91f97c51a25539], [0xe75f9c5048f4ef02, 0xcc53f460218aee9d, 0xe7b4048910d76649, 0x148f90a242ecdba4]⟩,
   ⟨[0xbf45023a1f683ad6, 0x2ea5f70c95e868d1, 0x47a19f33a97f2de3, 0x3c8cca9e8a76ed9f], [0x1562c6ee1a268d0, 0x9eb6ebacba4ef01e, 0x835e64d4342410fb, 0x6f96b87fff4594d]⟩,
   ⟨[0xe49a383ad233612b, 0x3ca5421fc9c14f64, 0x25192e1bbb53df81, 0x3c1451fea94c046c], [0x72b270f80423faa8, 0xff63513d3763888a, 0xb22f2f20c1745190, 0x2e005a7a35dea32c]⟩,
   ⟨[0x6b5a4e7a6305b2eb, 0xf017bca19ccd05d2, 0xb37027c9d19ad8cb, 0x2cfcb4700cbb36a6], [0x17f4fe51663f3485, 0x7dc20a170dc3467b, 0x6b56ba3f4af63cbd, 0x4e7cf2890d5d64af]⟩],
  [⟨[0xe2c5cd1f7f59d2e9, 0x6b9aceb79d7fbe1e, 0x84f0441da20225b0, 0x15875cda8b369fbc], [0xed1332770659e294, 0x7faa913e7ae02043, 0xca0e58da9dcede14, 0x5f6a70fdcde68547]⟩,
   ⟨[0x524b790de7282711, 0x4b4f6246bca05694, 0x85169ecb949af774, 0x5b168842cc743068], [0xb8d0e9f231fb3ba3, 0x56dd4bc362d471c7, 0xb14d689ce2a34f75, 0x7f4e171702e8d2d2]⟩,
   ⟨[0x8ee3491ab17090b9, 0x67c071166b7edaf4, 0x6876e4ce4d0e6cce, 0x6d2fbb64bc5a86be], [0x431c67a070fa8c3, 0x91eff9be0f5d65f4, 0x332985e2e07088df, 0x6d2583676eada8]⟩,
   ⟨[0xa1fbcc370aa747d6, 0xadea4a90b0dfdf3c, 0x650162c7401ed81b, 0xfbc4841a8b15e22], [0x1044b4e8bf98cdac, 0x37071115ecd1c668, 0x29b93c17233c220c, 0x4bebc3cce69bc0c0]⟩,
   ⟨[0xd1a16e3746bf7e51, 0x889c7782f7a7370c, 0xc73f396e3ccb474d, 0x1c508f18b9d67a2e], [0x3f17e9676b03b7e7, 0x3928f1d8f857bb26, 0x3086fb2ec0ea8620, 0x15dc32c21be7c3e4]⟩,
   ⟨[0xf48d4c3211f4d949, 0xe14a4ae3b0357c05, 0x77a1121f151d91ae, 0x33f85c2fe8c6869d], [0x8ea3bb4c364b77b0, 0x1f155b919bd43e50, 0xa6c2873054748e7d, 0x5aa34ddae7ddc539]⟩,
   ⟨[0xf0f80ddaa6cf8a82, 0x87de6d6c091663b5, 0x9479873402fe5519, 0x109d411f96722130], [0xbc47ca73e661041f, 0x71d605965741541, 0x7cd4df6607e08735, 0x175e1f77e68fc807]⟩,
   ⟨[0xb88bdab8da58865b, 0x14ad911220ed2b89, 0x2b21aedf039bf0a3, 0x789717779d4b77e9], [0x133da2acd6612ef3, 0x6260fcf512ad1785, 0xdba784da9df08843, 0x1a30c4cf4449fbd1]⟩,
   ⟨[0xb6fece874ef7aca2, 0x9ce7b61a13f7c58c, 0x6b0223c9f8719a60, 0x21199aa5a3b3b088], [0x4a7171966938bb02, 0x2e9a17c9e7abc263, 0x83f796234bab12b7, 0x15c0c4af49d7cfbd]⟩,
   ⟨[0x99b3413956d2957f, 0xa51b8dfd07218bb6, 0x47ca4323fc91d7c9, 0x44b01e753dcfd5f0], [0x29f9d18e8ce894f3, 0x22bcc54095227c6f, 0x815cd9363fc75409, 0xd58b325d8989472]⟩,
   ⟨[0x8b4c6980b6c80208, 0xa5d974978fb77ccd, 0x1b8965719477132f, 0x348abc213ae45f53], [0xe438c1c314bcdb96, 0x63150cf98007c1bf, 0xdb861a338508b903, 0x421dfb017b04ecd6]⟩,
   ⟨[0xf2fce58b19430e7b, 0x851a5f03d0f8ecb7, 0xe756c1670a5a1833, 0x25a51405227f866c], [0x40f34cb03c6ee5f3, 0xf4010401f244b5cf, 0xe21bded01349bcf, 0x1b129d8204547f42]⟩,
   ⟨[0x802ec4800927d153, 0xf75e4fe72541520, 0xa4a1557a026c4613, 0x25e8dafb7d92bc18], [0x1d87a14312f15f05, 0x79390e3c7b6b4240, 0xfc199d76492e6273, 0x53f1c47eb090c0]⟩,
   ⟨[0xe790f1caacee6dfc, 0xc8fb4626dfea04ff, 0xbf03627f627d88d7, 0x1b3698843d81a75a], [0x83405dda917fa19d, 0xffb23ff98c7ddcd2, 0x644f54c740f10b48, 0x4636fadf17ff713a]⟩,
   ⟨[0xda62ecc227f417e4, 0xc0dbe48ffd8662be, 0x729ee4aa1011e73c, 0x4bae5d3c3e11c84b], [0x854dfff86cef6cda, 0x7939228ccb7131ea, 0x58b3744ad3ebc607, 0x6eb9248f2049e239]⟩,
   ⟨[0x265cae9ed0d4e57, 0x92166d028aa65aef, 0x2e337cda198345d6, 0x6775330cabe1ad7b], [0xa9a828a8bf6fbc7d, 0x33a56f8dcbfea393, 0x2db72f77d811ec51, 0x3ddfcd268327c78e]⟩],
  [⟨[0x7cf8a521b46aa2c4, 0xe3b20937acf0d567, 0xd47d8d1ba440648e, 0x674e79201e9791a1], [0x27b714eb18366462, 0x1526e5588476f588, 0x72c8d3746c240d70, 0x66bbafb805c1265]⟩,
   ⟨[0x15f1cff5457034e1, 0xcf7c6550dd819fa7, 0x57c2cd5377ac7ad6, 0x7db2a8beafed669d], [0x2dafd95fd4697340, 0x382ff89215a6b6e7, 0x36fc753bf4a6b1b, 0x3e7ac46de4012711]⟩,
   ⟨[0xba5ecded5752a34d, 0xb08749d46baa08dd, 0x8a2b98974a4a47a8, 0x7230966fe42dce02], [0xa6ff614a58654ff5, 0x7f3531d1ab3c2a7e, 0x282a2f00d0ed417, 0x2dc7b872ea9755a3]⟩,
   ⟨[0x7678d7652392536a, 0xc2025f1574c657d, 0x1701c80795413dc, 0x63f0d4965396279e], [0xb0f9968afa32ea64, 0x81265d155bb393de, 0xc05ecc6d0bcd8c10, 0x4f3769f92824457e]⟩,
   ⟨[0x9aa58686f13db92e, 0x1155cdf4ed2e1b18, 0xa06e919409823f5a, 0x7f1bbe734257ab0e], [0x2dfb6472aba6fcd1, 0x4be6bcad73d850e, 0x72aaec34297d312b, 0x31f4c02c7509d9f5]⟩,
   ⟨[0xaa9ba0007ca72ad5, 0x21ee29457fbcb4d6, 0xe210aab1cf8580a, 0x600479fe0fa8de10], [0x246fd26554322f70, 0xc60be9bb60df1893, 0x4d4f99d05137e38, 0x6acb9e016164c176]⟩,
   ⟨[0x126f2c7ec1db7b6c, 0x4c3b30b5cf4dd3c0, 0x827d57a2f782a489, 0x41b897dee52621f0], [0xed31c55adda0a3cd, 0x21c91bb2a11ad179, 0x60e606b843fd6e23, 0x31b8138d51ed7fa6]⟩,
   ⟨[0x1387b313e72e4bc5, 0xdcccb09c82ebfc72, 0xf0b01202aa4432d6, 0x632599c47c52b69d], [0x3922d0c0bce9a04c, 0xc2397d88b53f4268, 0x50ae5ed900669858, 0x1b2bd4c216c7696b]⟩,
   ⟨[0x6fae1b082bf7df06, 0x870b3fe85210db3b, 0x680be4229bdc0b91, 0x56ba83c6bcc970ad], [0x1ae91bac859d6c78, 0xc5bdd5fb2895a1a6, 0xa169e73c550610f5, 0x1b467670cc7d3ea]⟩,
   ⟨[0x1e147a510ec5ece2, 0x9b612a1fd0e2c46c, 0x664fdd555e293783, 0x52070e1567dc4dbc], [0x449b53e54a4903fb, 0x79b53583a8d30103, 0x616c97f3af7cc314, 0x6beb304c2849862c]⟩,
   ⟨[0xb9c636d6019f0313, 0xb08e7cbd3e0188d, 0xeaeb1715d704de15, 0x4990282c837e7543], [0xcbb0bd49fbd3a061, 0x3454a8ac1da124ae, 0xd524a0237d64eab, 0x766807490b3e4ade]⟩,
   ⟨[0xc293e01195b04835, 0x76d304ba23d0c885, 0x36a63627d6552d80, 0x3b4fa680c504ccab], [0xf25b3a04e1fc08df, 0x786380e562d080f8, 0xa731427dac0d110, 0x1d65288fd628429a]⟩,
   ⟨[0x3ce5e929dc94453e, 0xec7cf988b6073324, 0x23361e7dcb35234, 0x3af20624f5e89b7c], [0x860f188ea5b2b103, 0x5eac84cecb6d112f, 0x63b200c3914c9ffd, 0x327870a055a1fdcb]⟩,
   ⟨[0x4f94633c155280ed, 0xf98321d53654b8aa, 0x9c057a23489ae89a, 0x1124a1fbd59ca3b5], [0x2f4ce0521f64afd7, 0x841ee4417c789152, 0x93531ed459a98374, 0x69a4f48c36bb8f07]⟩,
   ⟨[0xd8ffd2435fd512a7, 0xf48c96f19bea1738, 0xf70e1f6a0ffb4553, 0x29db63b15ff91d21], [0xc1355c2377bf7279, 0xd3946ee9a2fc904d, 0x7223881e7b7a9f4, 0x212d896756e08ed6]⟩,
   ⟨[0x32b8c22a45503451, 0x9e4fdaf1e6ab7b3d, 0x7a300e3d04a31294, 0xf529dfd05fe2aeb], [0x7effea9e9951b6fb, 0x18c60266336b9a2b, 0xb78a5ee16c8d0eec, 0x68c17fe446ed0b23]⟩],
  [⟨[0xf707fad596b3222e, 0xd6af61610223f804, 0x13ffdc744f43a0e9, 0x6a3b70e93347f487], [0xbddf02a46a4af4f5, 0x61b451e1e4c69950, 0xff854590f9e3bb99, 0x46eb1f697cd54c54]⟩,
   ⟨[0x70e643b68e6848d3, 0xc58b8519848c2587, 0x2f195c54edf4a38e, 0x206e6a323d2a52e8], [0x234845b5417595bf, 0x90354373ff5ae3cb, 0x13be31ce89c0e555, 0x2d18aa43cc67e26f]⟩,
   ⟨[0xc74ee8c4f041bd17, 0x655cf527c2b3cc64, 0x6735cf0a160ff053, 0x35dab9eb04218a0d], [0x32bb2e9acbc34e46, 0xf780ceaf7d190342, 0x161c0c1a9f0da1a4, 0x7b198c9ee7642fd6]⟩,
   ⟨[0x936c763e122fd0b4, 0xa3819ed9a7e0c435, 0x86228b04caae6d7b, 0x2e1160187a3c65b4], [0xf55bb1f3d4eb0345, 0x858a0bf40630b569, 0x8cc22657cb78a626, 0x7cd93bdeb45e3005]⟩,
   ⟨[0xcaa1f45998e517ab, 0x36e60281b34a6f5c, 0x877a49f30b46f47f, 0x179824b9e7be761], [0x6830a2b2d455d9c0, 0xb734ba0a7ba31962, 0x344665a4065c3b51, 0xb1d2210562e7f1d]⟩,
   ⟨[0x289bafca0b2e22e8, 0x38929a083390107, 0x968a014d0683e782, 0x5a1ad5c853d34463], [0xa26133349527b2ca, 0xe8471271310b745f, 0x49c81a2631387f59, 0x1b955af70343c691]⟩,
   ⟨[0x69328ada4a9fca4, 0x14ef09a7624fcb94, 0x21c76f0de3e0cecd, 0x5f470b866c1bce0f], [0x79319a3fb15bc8b4, 0xb1407cb1db06afa1, 0xd69e9e09911116e0, 0x6e77524e0756579e]⟩,
   ⟨[0xd3ec5ebce2d851d5, 0xc888bc2303b63143, 0x5f3de41edb0c357f, 0x646ffbd3c3d47d37], [0xe53f8beb0692639b, 0x7e194e37d4fbc3d4, 0xe1988a22452b2a2e, 0x5d359a15b013f9e1]⟩,
   ⟨[0xa48160a7b2a6627d, 0x5efdc8483ce8789e, 0x264cbff1b1cd14ee, 0x288823d444d84222], [0x2f091b233a6db1f8, 0xbfd737b5cea89b44, 0x682ab86c17f5e969, 0x7653005cabb0fa87]⟩,
   ⟨[0x619c2629d4b8a43a, 0xbfdaf433b6daf943, 0xdc7aa1ee6d640db8, 0x35adeea83b08d55c], [0x30935454d7af5382, 0x1f9c51a13d68a24a, 0xdbd13cfc78bdbea9, 0x3b6d9931210a3f]⟩,
   ⟨[0xd4547a329c2b515d, 0x4af29aa8fecdaaa9, 0x85c80ecde401d5ad, 0x2830332d8aa315a1], [0x5675882371dce198, 0x55ac9d106acbdee3, 0xf6d468cf575cf4bb, 0x46e4fa98576b5c4a]⟩,
   ⟨[0xad20f82020d859ef, 0x380915882a5462b0, 0x35f45c9f2135da7d, 0x6b426f91f7f20dbd], [0x4a0d8cbef96e77d2, 0x8fc36f5bcc51d3f4, 0x7a1870ddbe16a0a8, 0x29c3e2b3114db780]⟩,
   ⟨[0xff692a4c21779e6e, 0x698231aba6026ec1, 0xdab0d835ef03e21b, 0x770bffacc846d56f], [0xcd28722d3b8b0747, 0x3defe04032ae95e5, 0x6f5d816a0f9857d6, 0x2e483fedfc630f5e]⟩,
   ⟨[0xdbf82ec4967c7140, 0x6265cad10d20a2a5, 0x1509652b5862defe, 0x699dd93994a284e5], [0xc01166460b2cc732, 0x583fe01294c3ef86, 0xcd5daea8cd353430, 0x2b39a746c7ada62b]⟩,
   ⟨[0xf449b989e4257bbc, 0x95ba21baa90dcce6, 0xdd53ad5c93ca4acd, 0x7fcf27380bb4213b], [0xe57c1c0c2e7e54e, 0xd1769daea1a0e975, 0x68f62c4ec3b6e13b, 0x75152f9a781242d8]⟩,
   ⟨[0x4d58276824b8b820, 0x36e37ac45bbd9f84, 0x1f34414ada076f12, 0x8a77c283e0333c6], [0xbb1f017dd9193382, 0x56e9aa2483a5612d, 0x6959b02bd0b4554f, 0x2479bc56e4559b52]⟩],
  [⟨[0x96d631c60f570a8e, 0xe3f566a3d714b807, 0x564dd512ef7e1550, 0x1c5cf24a79fa2f58], [0x973ba599897958db, 0x93951d1711a9cbb1, 0x86ba17f6a37a969a, 0x4807cac7a069b195]⟩,
   ⟨[0xb64ac0d46665b35e, 0xba9cd3947ef72c68, 0x838807b29c4cbc44, 0x2675d26882770197], [0xbfc2f13717087fa9, 0x811e644be7b79b31, 0x597ce23fc963a061, 0x40bc32e42ea0deb0]⟩,
   ⟨[0xc0aefb5027c85959, 0x76d1087e058e0fdd, 0x6ada5aaf7e51a6f8, 0x424b16e0054a058d], [0x9a2c20a963af9766, 0x4c1cb5323cf18dab, 0x599cd9296c5d6a00, 0x57c39bae8aa311bf]⟩,
   ⟨[0x3fdf5b46cd987f02, 0x57755078353175c4, 0x80223ec0cd578394, 0x4bba6acaeb7d278], [0xd27fd2be8688bfb2, 0xb2f80278c27a62e5, 0x8ba6fb07339429d8, 0x57737ff63ab70aa0]⟩,
   ⟨[0x140e47f8eaeb3c9, 0xb91c9798735ac8ea, 0x325e031283d4efaa, 0x1e7da3bed9c5888e], [0xa210cda6f7f1eb13, 0xedc1f6b3936ea9e9, 0x46e831c41b097f65, 0x8576011939a0ae]⟩,
   ⟨[0x7c26f7111f68bb40, 0xea69c84539ddbe6d, 0x590bf426e5316f22, 0x40cdc921cc2df9c9], [0x28a32ddef3f991c6, 0xd75b59e65356ca78, 0xb5dd3861d1f5f318, 0x9eb1a2de7929834]⟩,
   ⟨[0x701f9a2ddbc0370d, 0x559d0faf2870b59d, 0xe89e5df055367b5d, 0x22bbd4fc74005a58], [0x7aced1e499cdc76b, 0xd41c827ce3c219d3, 0x5af3f2ae8221d91f, 0x6d62c990e5b6bc98]⟩,
   ⟨[0x23b2a0bf7ffc9d0f, 0xed98f71d974ca299, 0x10f8c07a151d559b, 0x40e46fc38e949c62], [0xcf53e34bbe55338, 0xf2d6cf26115520d4, 0x915ff09a590b4e23, 0x72e4233bedc75f2]⟩,
   ⟨[0xb67a6b60997e9bfa, 0xe7686ac9973bc3e7, 0x9525b4490b228320, 0x6c7275837ade8f19], [0x3d064298062ff3d5, 0x5483826c07e22768, 0xf4ade9211f7a64a4, 0x70bddcf7bd92eb25]⟩,
   ⟨[0xa8db36115d8a9e36, 0xaa6a5f33fa81065a, 0x8ec120a3366dda90, 0x2aa0ab25d8a15cf7], [0x5e11e169a0dffb9c, 0x8c7572e9118408a7, 0x4eefd13e35833adf, 0x2c6732e8fc2c1811]⟩,
   ⟨[0x15d063f9b1537df6, 0x864176b30414fcfd, 0x9c0a194c8ff9e32e, 0x4db14c6fdde1540b], [0xfaa4aed431f6493f, 0x2c479f1dd3c41a46, 0xc31196678e5e85a2, 0x7e567c8084e9a76c]⟩,
   ⟨[0xb9e2c92a689a6b95, 0xcceac3833b635b01, 0x4fea46534aab952, 0x772e502763b5cf63], [0xcb94f5d225830581, 0x791004afc77fb7de, 0x53273c335140e4ae, 0xc2d329ea524419f]⟩,
   ⟨[0xb7ceda36b307b0e4, 0x12df7fd00f8f9667, 0x74274002bf62bd94, 0x6765c73dc436c319], [0x79b64ce5f6eec946, 0x3b1b4b43dab258b6, 0x377819a3ee1f8b84, 0x1f45f1d676d0eb1f]⟩,
   ⟨[0xcc5bf9b358c953ad, 0x8303250f7bad1d2c, 0xbca7bc36f164972b, 0x2cacf8a9b1dfda64], [0xb03a59b9d4e2a06f, 0xfed68e681b7fb8fd, 0x8f75a527e747ae6, 0x3299ea6b37a4420b]⟩,
   ⟨[0x49a00be6932e5ba6, 0x4921250556114c4b, 0x786b7d31376183c7, 0x1f9e229dd8a5eaf], [0xe9b8e99053094ad4, 0x2eda305cbfaedfa8, 0x344437267f9e3bc8, 0x1729519c6b55b3c3]⟩,
   ⟨[0xea5a68c050a597d6, 0xa65147d4f1e86d1b, 0x554fa36b8b47cdeb, 0x7f38364b9f24ffed], [0x657c7e051d2a8e2b, 0x8270f1a7e3f64d62, 0xfd258b59953af5a2, 0x6de0114143510aa3]⟩],
  [⟨[0x483904280d7a5cbe, 0xd37e8c1fde441e5e, 0x908c88b80de31c8c, 0x7c0e24bb0acd87ce], [0x4a78117725eccce8, 0xc06c2f7acbda746f, 0xdb9e9a08ab565dd4, 0x1e9b44c0be776f5b]⟩,
   ⟨[0x7cfd4e5085b54abc, 0x41a4a4dce7a44f8b, 0x751c5052a4422576, 0x534fe0b2d56b6cb1], [0x22daa5cdd5d767d0, 0x9c1999ab0af8e22c, 0xc70c093299259068, 0x459d212efd0839f0]⟩,
   ⟨[0xa207e7defd32d79b, 0xa7b54991410b479f, 0x806912b6d68e5cdc, 0x1cb7b68c92ab8b64], [0x3db85378df98339f, 0xa24101dc83ea7a18, 0x8892367ce25522c5, 0x491a8bb37753a2c3]⟩,
   ⟨[0x571c547e8c7875a7, 0x7e5f23e4e9747c13, 0xf3bbb21058548d, 0x7081f172e2397102], [0xb4351b8a6b573034, 0xb35a4f44c1a094f0, 0xe2c1daedae951e96, 0x5cf2a742b9daa081]⟩,
   ⟨[0xb4f0d3f09828ed9f, 0x6db312fba9251386, 0xc9a4583f537203f2, 0x5e0996399ce76d40], [0x3381b894c9f8cea8, 0x8242daf8626e07e8, 0x64a0b68c6077dfd9, 0x3cc462c0563cf051]⟩,
   ⟨[0x8937364c87af4a45, 0x8c4acbfa2de0fd60, 0xf10aed11472a5d8a, 0x3f5674b55380c2e6], [0x8f4fd0f52bf8a452, 0xb436e388c7390418, 0xafab7b7ce6ee9406, 0x4f623177951739ba]⟩,
   ⟨[0x90b0ed35a9b50f2a, 0x46dc3f91ac6cf217, 0x2f1420312c7b119c, 0x55a93cbc07d79225], [0x45e0dd7db304a642, 0xb743dfcdd572d446, 0x867b02ebac74b368, 0x67b2b86c169b94b0]⟩,
   ⟨[0x18396da7483cfedb, 0x6c6e03708a3a07c2, 0xf32a1afeab554998, 0x408c911987d1c136], [0x755f63254bbe0b78, 0xdc4a7319d1178550, 0x44b49813b3b9e459, 0x294b9a94c3d3620]⟩,
   ⟨[0x6480f6fe067fa6ff, 0x67891400f307a52e, 0x9f846ef87f865da8, 0x318dac55ae02f671], [0x91119652e288a317, 0x4d7cf2b8038c61b8, 0x98f80dd5154c1a8, 0x10c04f87d239a2d4]⟩,
   ⟨[0x134609265ca6f183, 0x5e97ad18d52001ed, 0x7dcd2477e14843df, 0x27dab27698a30426], [0x7939cae3e120d80c, 0xc9f4646651e5b81a, 0xed620322e2e49d52, 0x3c0f5a2efa172bbb]⟩,
   ⟨[0xbffe87425db1196b, 0xcd45f8ed49b7214e, 0x923aba47c35f5c33, 0x16ed1f1083f3ee48], [0x42e6df099274930, 0xe8ae1dcfc5f8ea16, 0x4462cbf02ea2b2, 0x427f9381d284b04e]⟩,
   ⟨[0x4cd481f875efacc5, 0xd98c3fd421c83368, 0x4335e7c83894ce88, 0x18321f87955a298c], [0x73dd00ad1716e18, 0x66d82a5ffe0bfe61, 0x7d869e202310c532, 0x29a376fb19bf4704]⟩,
   ⟨[0xa1b12b35c149b5b0, 0x3411b2311e828959, 0x56417519560d99fb, 0x4e0eb143ebb52124], [0x7b594b5e6aef3801, 0xaee12e9ecb536e, 0x6bf0fb2956e23145, 0x2b2d83b961ae8e98]⟩,
   ⟨[0x9cb3e2e86ac27f2d, 0x82baca965a6280aa, 0xcbc6c01b2c6b7c8f, 0x390511bcd0c01abd], [0xb322d97249551c0d, 0x7905e82e7b6489c8, 0x4dd0ce8b40eec20d, 0x5c0b3ee72409298a]⟩,
   ⟨[0x4418d685b635fb99, 0x652ea6083ace8b39, 0xe586fbdc46fc4047, 0x3c832d34d8cc13d8], [0x14cc9f23f7aa54a1, 0x80d094e607153b9f, 0x776e5406a2eed8e, 0x3cc3bfc77249085]⟩,
   ⟨[0x5f8f281f1308c1a8, 0x31c8e737d1afc4b7, 0x6778529841ae8ef2, 0x17716086fd028a4b], [0x1a2083e0f922e100, 0xd67ec9d1d53fe691, 0x2df8b6edecca8deb, 0x3b595ee4bccc999e]⟩],
  [⟨[0x11f03f895a4b8c04, 0x254c36487dae8e6b, 0xab6eaaf1637cdb83, 0x41f52243fdded8f6], [0x487078e1bbdf3270, 0x98853b49339cea28, 0x8af0522bab3ede57, 0x734d711f85eb4cc0]⟩,
   ⟨[0xfd1f46adf86ba644, 0xa5332b97a3299855, 0x61be90dbd9493634, 0x308f09b1c2705911], [0xd59f1b1a0b7918a5, 0x9cf333d0cf6399e6, 0xd09c63cdfbb26b6b, 0x76c27913a6536647]⟩,
   ⟨[0x3df1811faaab555c, 0x60853351886c828b, 0xf6ca7707f1e87f41, 0x5b4f6edf7d7082e6], [0xade518e03f672de7, 0xed0b84022541b2, 0x4fe5dd6618e8969, 0x2f5f5c65db9cca4d]⟩,
   ⟨[0xb69b4596bdae2c, 0x6db22cf770604c4, 0xc2eb7f8f856585c3, 0x6e3225390413c614], [0x22c09ea870a46872, 0x143e73bc1ff23734, 0xcac5e2dd575c20b4, 0x225e53903febe787]⟩,
   ⟨[0x594fea4ebe9c512d, 0x5850709292cb73ae, 0xfd8efc7db0ce2096, 0x3b58c199e031d6ab], [0x55da1cbd479f23e4, 0x60c6bb5a6db6137, 0xd8319cf86864488e, 0x6c15a31b21b02eda]⟩,
   ⟨[0x13c483728ca7084d, 0xf7554e59a171ece5, 0x7425c5d823a97699, 0x6f2c68da71e1120e], [0x9591b9b624324b64, 0x2da33472c02ac704, 0xc5de7fc981ee1295, 0x6a646a445d6e93c6]⟩,
   ⟨[0x48684061a39d6554, 0xb70abf61c3df57b6, 0x9824afd658b9eee3, 0x46ebe9d13a14a733], [0x8e70f95dd74f8e94, 0xa9d922a26afca4e2, 0x519a97536988cc16, 0x711def16d545af8a]⟩,
   ⟨[0x362a5d95811a2bf7, 0x42a84a33566b90ce, 0x25cbc7607c41ec87, 0x6b77e39cd4b7dbee], [0xa98b8201833015a4, 0xe412e217c31b26f4, 0x518be8f0e0090782, 0x8d9f4b63db51d4e]⟩,
   ⟨[0x2c80ce87297d421e, 0x2fd137f8adba1498, 0xa2ed3d472899aa14, 0x2ac924a5fe4f365a], [0xac0389b7666dc0a0, 0x3cc997398abf3d9e, 0x33060db6dfbff83a, 0x54eee2150339c3b8]⟩,
   ⟨[0x6c3a4f5820f7e4d, 0x86f083e208c3d311, 0x47e29984fe4b0476, 0x218f52e2ca7df6cf], [0x59317e26bf2c2084, 0xea9c865b289a10cf, 0x7aa1e50b2074fea3, 0x708a1d8c4b3efc31]⟩,
   ⟨[0x34c5c63e864817d7, 0xf614043d89e995b, 0x60ce8bce975e2a03, 0x70916e2978493e0c], [0xbd0748f9216782c6, 0x51c65aed32fb72, 0x9dc5f5584dd64705, 0x674f1a63eec14b50]⟩,
   ⟨[0x73d6e68edb633fd1, 0x7b5f8303f52f9537, 0x980fdddc88a74cfb, 0x6419c18f47fc32d1], [0x93727b4c870b5d59, 0x4bce05decf28021d, 0x3c059b47ab4f0ce5, 0x77ca7f67b85ffdbb]⟩,
   ⟨[0xdbeaddcec525088e, 0x561e12be390d2221, 0xcd224fc1d9ba7af0, 0x3744552394dc073], [0xcfc67b4921bb6b6e, 0xd234fd8d1b5f8e6a, 0x6ddbc18b40b7f8b0, 0x79f40857daaccc74]⟩,
   ⟨[0x30e5f9909dd71b9c, 0xfcbfa5291124ef, 0xbe595a2549b8c570, 0x5b4b8141bc094446], [0xb22b4f04469191b6, 0x10845ac8d73c4d38, 0x39c9f0fbed0c8224, 0x7e009dfbf5813bee]⟩,
   ⟨[0xa47c2989a61d09c0, 0x3706f45659e55a9c, 0x2373976fea0259b9, 0x13fc0e09077d20cc], [0xbb24dd05e78d29cf, 0xd8757a67822cfa02, 0x36ca74863c55a4c6, 0x4234e6893eeabbe1]⟩,
   ⟨[0xa2f54d14b46bdb51, 0x8a530b78675bb770, 0x617d7e8ede9f1f8b, 0x799b3e442dcc4712], [0x658a31d8b486fe8c, 0x45bafc29163d4af0, 0x3a2c7f66a5289c8d, 0x4ecc3c7db91ff3db]⟩],
  [⟨[0x738cf1c7df4dfd43, 0x72943a2de987084c, 0xea21c05f2491ff24, 0x3d3f4ed7da050094], [0xf90644e461c4054d, 0x253792143a50e82a, 0x47edb006c7def970, 0xf8f031c0f53f307]⟩,
   ⟨[0x50feb6d8724976d5, 0x57aa499ff40c7720, 0x6b80ac540daaf428, 0x7ac6845e1f6fc276], [0x8ec7fab117a4b9c5, 0x8336dd62ed0c8f97, 0x6014a510b7b7104e, 0x4991a03ba2911c30]⟩,
   ⟨[0x6d353975cbcc9ba3, 0x23e97e28c4564492, 0xdf432fdaf8aeed3e, 0x11db40dd6f6b472c], [0x5b87005b95aa0174, 0x1db4108089d9f1a8, 0x5a6bc444689df208, 0x16153f87bf38ff8d]⟩,
   ⟨[0xd217003fffd3c814, 0x1ade64c3fd50af95, 0x1936332c9ffb8beb, 0x6ee322dcd70cd8d8], [0xe40a0419f2a60976, 0xa62f6fa1ef93b05b, 0x5978206c596575ff, 0x5cdca200b68bfe5c]⟩,
   ⟨[0x3fb16aedb7949e33, 0x3453892840304a1b, 0x7fa35a343bca4239, 0x22fd1aefee76919e], [0x1f8fe6a40f6a5d50, 0x27cc704f26bba46b, 0x230fd0ca3420cc52, 0x3e9e4da4b3a83d85]⟩,
   ⟨[0x1d82390e7f5cc75e, 0x7025624549d0a605, 0x5b8778134ff4bc44, 0x28e6a057b5ec02e4], [0xbc7a10da2e89fb84, 0x3af182e520e1ea00, 0x4b590ffa9c507274, 0x26ba94d6aa7fd65b]⟩,
   ⟨[0xc02cc77c238cc195, 0x3f175c97a97ee3e4, 0x8a28fa23dfa1f9dc, 0x35cac0ff1f968d15], [0xfc41b3337c7c773, 0x71e06b10bc999443, 0x73a1aba2c87b0a4, 0x29f29b129e5e8b70]⟩,
   ⟨[0xaa25f348e491fe70, 0x9371f94bc1713992, 0x674b478c4fa08818, 0x6f3c31feb1407431], [0xbb7d37fbd93dd5e1, 0xe34a40b87e04ee7a, 0xcf82360df3c33528, 0xa3b8ff501477712]⟩,
   ⟨[0xa45914716b718511, 0x7b0ce8ded2fd6b9b, 0xc42544fa6845dbef, 0x456a698563af476a], [0x5dd611f69cde4e74, 0x860956832b346aeb, 0xd15c5da06e75b3d7, 0x220ffd73c72d5d2c]⟩,
   ⟨[0x478da345d2ed888f, 0xa69d4fb9e04cbcc7, 0xa427150ab3f1179d, 0x1dd3b8c2d5cea78a], [0x9462eff0b8628a22, 0xb2ffff4ab2cb44a5, 0x8234a3ff24039ba8, 0x1be7202916de889]⟩,
   ⟨[0x510669856dfcef0b, 0x25729d98df20cdee, 0x872fd39d9693e5ef, 0x72d03ae12d859635], [0x3f28f84edacaeb82, 0x9eb40fd6cb5284d7, 0x66c2dca6c5f54041, 0x4bdba3821c1f2461]⟩,
   ⟨[0xe53421970e0ed176, 0xf588547aa225a47f, 0xc83b54ed1feb2259, 0x1b03791392f3733d], [0x935c97822271ecfa, 0x5f7e94a653cfe07c, 0xbff5b0e61b40ca19, 0x36c7851d459445e1]⟩,
   ⟨[0xb6547971588c9748, 0xcfd8e81b11970562, 0x41333c80702fe4fa, 0x2f153c8c962a993b], [0x28bbd6a8bda48ac, 0x7b076f88fe1db02a, 0xc9560400078fb3fc, 0x5dcc0946035907ea]⟩,
   ⟨[0x93d7cf33a6233f1c, 0x3184bc4df2a187c, 0x291149bce83dac32, 0x575f4279faedf216], [0x101427b4086fc141, 0xc924f2aed288562e, 0xdb610463eef5799a, 0x20f187676a09661d]⟩,
   ⟨[0xe39bb775f59d0c20, 0x18da90e2723a4ef2, 0x8e747a7bf56b381b, 0x7ef67224f98f26dc], [0xb1373af5e1f94b99, 0x1076fba60c3b6aa8, 0x7fcd0017a3a7811c, 0x6d1a697346554e7e]⟩,
   ⟨[0xe5734077b9ced2c2, 0xc94d17f81f770914, 0x58b47bcb1cd248eb, 0x2e06538c24804b6f], [0x275d933f32e7ca19, 0x1b982b491fc9241e, 0x8b8a6ed53986b6ac, 0x1756822135b4ea6a]⟩],
  [⟨[0x90ad05ae796327f, 0xa78dae5ead21dd4b, 0x8eec9edb9c2f8cbe, 0x33e375e0653e0f2d], [0xda19eff28d67ac72, 0xbfc7e62b2737ab8c, 0xbbf8bd1d4cf53c12, 0x5abfe23f45c6d555]⟩,
   ⟨[0x32460b330de39342, 0x3567454ab8977067, 0x10a1e47df954592c, 0x4de8c6ef4dd019c4], [0x1f1d296b1bdaaafa, 0x4e6b8e8f3a75ad99, 0x259015e1a27fe061, 0x6b6a48209f320632]⟩,
   ⟨[0x8aa089afa0b5e605, 0x1d6c1eee1b4058fd, 0x1d920534b4e89bef, 0x722a3a3516163340], [0xa3b9178cf33b49b2, 0xff8fe9bb65558e90, 0x94766bc09794efae, 0x79a1efa2fdfaeb42]⟩,
   ⟨[0x2fe44b97bcb6d558, 0xb4f4f402db8b0a79, 0xf53d8ab1247c32e5, 0x3b883ce54da4c009], [0xb46168bd2ec9f1c6, 0xd40bde7b6b8fe01a, 0x60a5c168cdfe509f, 0x3314d87823be249e]⟩,
   ⟨[0x2511a854d9f5769, 0x8398f9bdb49d6a8e, 0xe8d773f35d2d7135, 0x9b3b8ab9decc331], [0x8d2b269b584c11d9, 0xf76619446b6b86a9, 0x719a3620c7659af7, 0x3cfc8df037c27dbe]⟩,
   ⟨[0x5ee0be061145b14b, 0xac6950e423193ed6, 0x7291c44cdf244c7f, 0x4650c16243d744ea], [0x60b92d3f34a084d8, 0xbbd44a0e376e5414, 0x5c0e488a0980f36c, 0x4e53fccad7991a09]⟩,
   ⟨[0x7a2adbcf367b55c2, 0x96a88b751fed467e, 0x8e75e37efb263845, 0x4c2e47b8eb508dd0], [0x20bf51deb19fcd14, 0xd907174914cb67d0, 0xec90714b29ebda7c, 0x4acadaa6634c0f2e]⟩,
   ⟨[0xa516b9b8ec715ec9, 0xc7dca26342b8a87b, 0x2ce450c9da27b456, 0x3c97481200a8819f], [0xf4822c23ecded574, 0xfa737fad19fa48d4, 0xe34b2f2a45d718e0, 0x1d6f19febea7b540]⟩,
   ⟨[0xadc8fce798e24789, 0xfe2f890c45869609, 0x6466e03c78a35c19, 0x24c70fedc1f34aa9], [0x89530f7557747dd1, 0x343de05b2b8cde2d, 0xc33134e335cc8d5a, 0x3ccefc38ac9b4f2b]⟩,
   ⟨[0x84c904b8ef923364, 0x46e1fecfbddd31d8, 0xa8126dd6fae79b6b, 0x4a53c034fbf05c9a], [0x44ca3acbbe8f255f, 0x6f0fd374ec319885, 0xadbcb4aaf1836dc2, 0x6cc3a59665187ee9]⟩,
   ⟨[0x941e7821b397b5e7, 0xd3457371fee2a9d5, 0x9f69be4466382f60, 0x6dcead04a1f49e9b], [0xdc6bc23b3bf21647, 0x1500fd7fb5271be9, 0x9b0994ddf23fdf3d, 0x38a2eceb45065cf7]⟩,
   ⟨[0x2667cefe0dca8bf4, 0x8227acb3e46eb469, 0x4c20677da75c5b8b, 0x224fc5b4b36acdfe], [0xa0007e147a6a01d3, 0x15c79558f8a64eed, 0xfb58a76a93dedc09, 0x2057dddc26f10a98]⟩,
   ⟨[0x1ff658aebdb27ae4, 0x7f30df57ddd96647, 0x63490b8dc7294313, 0xeaec5735435869e], [0x85f05c49df115b78, 0x95739c0c62992f5d, 0x72f143192b573963, 0x5600e6486328ff4]⟩,
   ⟨[0x9be7331feab0f425, 0x2e4cf5aa74447c20, 0x9b26f51266243d2a, 0x77c9672284ab5627], [0xec545427601673b4, 0xef6a34fb2f127af7, 0x519559c1e2dfd269, 0x34d7d7548258e37a]⟩,
   ⟨[0xc113747b5e8b5281, 0xc085456e04d779b, 0x3e3260521ccbcfc6, 0x5c954cc12a37d19f], [0xb1a4a5b39124435b, 0x5e8b8d4118ed98e7, 0xc973d969144a3793, 0xcb98cc888dd8b49]⟩,
   ⟨[0xe0233b2b48d04df, 0x1b3916e07beaa4a5, 0xa24a4be4b672be8c, 0x7a61506d845ab94d], [0x160dfa0fe7f4ca3b, 0xa9562c89d84c1148, 0x52979b9592a276eb, 0x17869b53924e86e9]⟩],
  [⟨[0x5d39f4781a86d0d8, 0xde5932dafb8bc8a9, 0xd706c6d72f5b4b70, 0x53f450fc8a36afc2], [0xe1dc35401e550b3b, 0x475507dc8b7eb6d2, 0xf803f78adfa2e5f7, 0x40b5f263c48097ff]⟩,
   ⟨[0x336fb00e226cdb1f, 0xddc1bb0288215c40, 0x6c4dd40e73c07fd0, 0x4d0d2e498f7d15e7], [0xaf96e9b3d2061402, 0x15a3084a1372fcf8, 0x91b571e6307b02d6, 0x2239592f53ae7705]⟩,
   ⟨[0x7d8615a1c20b6645, 0xf4875767c7c4465b, 0xf6d3e718861702ab, 0x7f014a53131f726a], [0x30809f8fdaab77ca, 0x7ce8dc6128f944d3, 0xf915111d9aeef6a1, 0x246d7cc8206902fd]⟩,
   ⟨[0x7677488bef806225, 0x994c8104f4c75eae, 0x17586d4e4e0c8988, 0x70e5258090e33a2a], [0xb993f26a022d2fed, 0x955c130d689fbfbd, 0xd3d1c63a3612e8e, 0x423d73e1b91a8de6]⟩,
   ⟨[0x7274be083027164f, 0xde907b4942fdb769, 0x61d74449b697060d, 0x18a5fdc226602cc9], [0xb08dc02b049caf4a, 0xc84af48578dba1f1, 0xa5b35197178e4df, 0x6ec7a7a55b26d0fe]⟩,
   ⟨[0xdef1782f88554f05, 0xb73e7333d8d6df47, 0x1ddf902290e9c67a, 0x5d217b51d56181ac], [0x7a338c7be27f90ee, 0xb97ccd2a0d84a177, 0x3e1016017c5e3fa9, 0x2706e77c30ff0918]⟩,
   ⟨[0x1bd1274f72a7cb9f, 0x8b60357a0622db90, 0x140e14a2151bb23, 0x358d7ddae9a30c4c], [0x3b15306089bfb2c6, 0x47462c79b6757c69, 0x2b22239db43ef986, 0x6793671f0b774de3]⟩,
   ⟨[0x99edb02ef6f8edc6, 0x24432760c4257dd9, 0x4fdd73010336eed2, 0x44879709f6c6506b], [0x107c7de213f18d89, 0x71c71dfba5701fbd, 0x97017e24c7de3e0b, 0xf8d7e09fc9eddc2]⟩,
   ⟨[0x7a0bb3b13897e01d, 0x7fd4f504c5892bde, 0x2ea9aa77ab752928, 0x19a82f559078b466], [0xef2842c555a0f0d9, 0x5501eee915b6f2b4, 0x9665ea6f942aa4b4, 0x15f41f40e707c32]⟩,
   ⟨[0x1b4d6a919c6b6fd6, 0xcfd2cee968217afc, 0xc5076256bbc9284d, 0x4c7f4eefac36547b], [0xab1aad2c65ee1907, 0xbcfe8c77bac25425, 0x38ba0f85c9048a35, 0x300e6ac460a035f6]⟩,
   ⟨[0xa8edbc5e34707cc6, 0x3da6bc5156adfc16, 0x5c7cb5e1ca8b6f3f, 0x76e4a0282d612dfa], [0x75ab66fd64f49d39, 0x5af9879dc387a739, 0x839648083e9edbcf, 0x555d8bbd7f4c4ffe]⟩,
   ⟨[0xaae8a2fe3c5590b0, 0x461c6ccc8ab34213, 0xb2f3e8229e719b77, 0x25b8fca8663188bb], [0xaa7a047b72548131, 0x878ffee189fa6f0, 0x9e7fb402ce3e17c3, 0x6f260d9344418277]⟩,
   ⟨[0xef1c290b703b647, 0x995009fa651673e4, 0x661f76d7be46362d, 0x74b00fd123e56e7a], [0x9557d0aba1a50e4b, 0xc5a1cf95587688ce, 0x2a14d1b27ae08eca, 0x2da8816c3c23d507]⟩,
   ⟨[0x51cb405fb9934883, 0xc99a67d401a6864b, 0xccf622336cdfffc3, 0x2938f9f998fe0b79], [0x7766691139a5aa28, 0xdf56cbb52427bfc0, 0xa39be968189eb66d, 0x71e6e105a64fd2ab]⟩,
   ⟨[0xa0c6f79560f9d20b, 0xe06dc8bb765670cc, 0x9fa1dd58a67275e0, 0xf7f670de2d23bbb], [0xf8f07cf333fb15ea, 0x1d09b592723a0271, 0xf14029234e6fcaab, 0x5be1273ae301940]⟩,
   ⟨[0x2d83906c114afd1e, 0x91474fdc88e5761, 0xaff18eebef9e4f9b, 0x136ecae5f4e646ed], [0xef4526d0eb01808f, 0x3923ebba940c0aec, 0xab34160ca437f460, 0x7a46966e421ad57c]⟩]]

/-- `lut_cmb[j][k]`. -/
def lut_cmb (j k : Nat) : AffW (List Nat) := (lut_data.getD j []).getD k ⟨[], []⟩

end Gost.Ecp_Test
