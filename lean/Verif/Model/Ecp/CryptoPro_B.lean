import Verif.Model.FiatField

/-!
# The functions, constants and table of `/repo/ecp_id_GostR3410_2001_CryptoPro_B_ParamSet.c`

64 bit version of the file (`__SIZEOF_INT128__` is defined).  Generated by `tools/mkfiat.py`, statement by statement;
see `Verif/Model/Fiat.lean` for the meaning.  All line numbers refer to this file.
-/

namespace Gost.Ecp_CryptoPro_B

set_option maxRecDepth 100000

/-- `fiat_id_GostR3410_2001_CryptoPro_B_ParamSet_mul`, lines 245-605. -/
def mul : CProg := ⟨[
  .set (.a 1), .set (.a 2), .set (.a 3), .set (.a 0), .mulx 64 (.x 4) (.b 3), .mulx 64 (.x 4) (.b 2), .mulx 64 (.x 4) (.b 1),
  .mulx 64 (.x 4) (.b 0), .adc 128 64 (.c 0) (.x 12) (.x 9), .adc 128 64 (.x 14) (.x 10) (.x 7), .adc 128 64 (.x 16) (.x 8) (.x 5),
  .set (.add 64 (.x 18) (.x 6)), .mulx 64 (.x 11) (.c 0xbd667ab8a3347857), .mulx 64 (.x 20) (.c 0x8000000000000000),
  .mulx 64 (.x 20) (.c 0xc99), .adc 128 64 (.c 0) (.x 11) (.x 24), .adc 128 64 (.x 27) (.x 13) (.x 25), .adc 128 64 (.x 29) (.x 15) (.c 0),
  .adc 128 64 (.x 31) (.x 17) (.x 22), .adc 128 64 (.x 33) (.x 19) (.x 23), .mulx 64 (.x 1) (.b 3), .mulx 64 (.x 1) (.b 2),
  .mulx 64 (.x 1) (.b 1), .mulx 64 (.x 1) (.b 0), .adc 128 64 (.c 0) (.x 43) (.x 40), .adc 128 64 (.x 45) (.x 41) (.x 38),
  .adc 128 64 (.x 47) (.x 39) (.x 36), .set (.add 64 (.x 49) (.x 37)), .adc 128 64 (.c 0) (.x 28) (.x 42),
  .adc 128 64 (.x 52) (.x 30) (.x 44), .adc 128 64 (.x 54) (.x 32) (.x 46), .adc 128 64 (.x 56) (.x 34) (.x 48),
  .adc 128 64 (.x 58) (.x 35) (.x 50), .mulx 64 (.x 51) (.c 0xbd667ab8a3347857), .mulx 64 (.x 61) (.c 0x8000000000000000),
  .mulx 64 (.x 61) (.c 0xc99), .adc 128 64 (.c 0) (.x 51) (.x 65), .adc 128 64 (.x 68) (.x 53) (.x 66), .adc 128 64 (.x 70) (.x 55) (.c 0),
  .adc 128 64 (.x 72) (.x 57) (.x 63), .adc 128 64 (.x 74) (.x 59) (.x 64), .set (.add 64 (.x 76) (.x 60)), .mulx 64 (.x 2) (.b 3),
  .mulx 64 (.x 2) (.b 2), .mulx 64 (.x 2) (.b 1), .mulx 64 (.x 2) (.b 0), .adc 128 64 (.c 0) (.x 85) (.x 82),
  .adc 128 64 (.x 87) (.x 83) (.x 80), .adc 128 64 (.x 89) (.x 81) (.x 78), .set (.add 64 (.x 91) (.x 79)),
  .adc 128 64 (.c 0) (.x 69) (.x 84), .adc 128 64 (.x 94) (.x 71) (.x 86), .adc 128 64 (.x 96) (.x 73) (.x 88),
  .adc 128 64 (.x 98) (.x 75) (.x 90), .adc 128 64 (.x 100) (.x 77) (.x 92), .mulx 64 (.x 93) (.c 0xbd667ab8a3347857),
  .mulx 64 (.x 103) (.c 0x8000000000000000), .mulx 64 (.x 103) (.c 0xc99), .adc 128 64 (.c 0) (.x 93) (.x 107),
  .adc 128 64 (.x 110) (.x 95) (.x 108), .adc 128 64 (.x 112) (.x 97) (.c 0), .adc 128 64 (.x 114) (.x 99) (.x 105),
  .adc 128 64 (.x 116) (.x 101) (.x 106), .set (.add 64 (.x 118) (.x 102)), .mulx 64 (.x 3) (.b 3), .mulx 64 (.x 3) (.b 2),
  .mulx 64 (.x 3) (.b 1), .mulx 64 (.x 3) (.b 0), .adc 128 64 (.c 0) (.x 127) (.x 124), .adc 128 64 (.x 129) (.x 125) (.x 122),
  .adc 128 64 (.x 131) (.x 123) (.x 120), .set (.add 64 (.x 133) (.x 121)), .adc 128 64 (.c 0) (.x 111) (.x 126),
  .adc 128 64 (.x 136) (.x 113) (.x 128), .adc 128 64 (.x 138) (.x 115) (.x 130), .adc 128 64 (.x 140) (.x 117) (.x 132),
  .adc 128 64 (.x 142) (.x 119) (.x 134), .mulx 64 (.x 135) (.c 0xbd667ab8a3347857), .mulx 64 (.x 145) (.c 0x8000000000000000),
  .mulx 64 (.x 145) (.c 0xc99), .adc 128 64 (.c 0) (.x 135) (.x 149), .adc 128 64 (.x 152) (.x 137) (.x 150),
  .adc 128 64 (.x 154) (.x 139) (.c 0), .adc 128 64 (.x 156) (.x 141) (.x 147), .adc 128 64 (.x 158) (.x 143) (.x 148),
  .set (.add 64 (.x 160) (.x 144)), .sbb 128 64 (.c 0) (.x 153) (.c 0xc99), .sbb 128 64 (.x 163) (.x 155) (.c 0),
  .sbb 128 64 (.x 165) (.x 157) (.c 0), .sbb 128 64 (.x 167) (.x 159) (.c 0x8000000000000000), .sbb 128 64 (.x 169) (.x 161) (.c 0),
  .cmov 64 (.x 171) (.x 162) (.x 153), .cmov 64 (.x 171) (.x 164) (.x 155), .cmov 64 (.x 171) (.x 166) (.x 157),
  .cmov 64 (.x 171) (.x 168) (.x 159)], [172, 173, 174, 175]⟩

/-- `fiat_id_GostR3410_2001_CryptoPro_B_ParamSet_square`, lines 620-980. -/
def square : CProg := ⟨[
  .set (.a 1), .set (.a 2), .set (.a 3), .set (.a 0), .mulx 64 (.x 4) (.a 3), .mulx 64 (.x 4) (.a 2), .mulx 64 (.x 4) (.a 1),
  .mulx 64 (.x 4) (.a 0), .adc 128 64 (.c 0) (.x 12) (.x 9), .adc 128 64 (.x 14) (.x 10) (.x 7), .adc 128 64 (.x 16) (.x 8) (.x 5),
  .set (.add 64 (.x 18) (.x 6)), .mulx 64 (.x 11) (.c 0xbd667ab8a3347857), .mulx 64 (.x 20) (.c 0x8000000000000000),
  .mulx 64 (.x 20) (.c 0xc99), .adc 128 64 (.c 0) (.x 11) (.x 24), .adc 128 64 (.x 27) (.x 13) (.x 25), .adc 128 64 (.x 29) (.x 15) (.c 0),
  .adc 128 64 (.x 31) (.x 17) (.x 22), .adc 128 64 (.x 33) (.x 19) (.x 23), .mulx 64 (.x 1) (.a 3), .mulx 64 (.x 1) (.a 2),
  .mulx 64 (.x 1) (.a 1), .mulx 64 (.x 1) (.a 0), .adc 128 64 (.c 0) (.x 43) (.x 40), .adc 128 64 (.x 45) (.x 41) (.x 38),
  .adc 128 64 (.x 47) (.x 39) (.x 36), .set (.add 64 (.x 49) (.x 37)), .adc 128 64 (.c 0) (.x 28) (.x 42),
  .adc 128 64 (.x 52) (.x 30) (.x 44), .adc 128 64 (.x 54) (.x 32) (.x 46), .adc 128 64 (.x 56) (.x 34) (.x 48),
  .adc 128 64 (.x 58) (.x 35) (.x 50), .mulx 64 (.x 51) (.c 0xbd667ab8a3347857), .mulx 64 (.x 61) (.c 0x8000000000000000),
  .mulx 64 (.x 61) (.c 0xc99), .adc 128 64 (.c 0) (.x 51) (.x 65), .adc 128 64 (.x 68) (.x 53) (.x 66), .adc 128 64 (.x 70) (.x 55) (.c 0),
  .adc 128 64 (.x 72) (.x 57) (.x 63), .adc 128 64 (.x 74) (.x 59) (.x 64), .set (.add 64 (.x 76) (.x 60)), .mulx 64 (.x 2) (.a 3),
  .mulx 64 (.x 2) (.a 2), .mulx 64 (.x 2) (.a 1), .mulx 64 (.x 2) (.a 0), .adc 128 64 (.c 0) (.x 85) (.x 82),
  .adc 128 64 (.x 87) (.x 83) (.x 80), .adc 128 64 (.x 89) (.x 81) (.x 78), .set (.add 64 (.x 91) (.x 79)),
  .adc 128 64 (.c 0) (.x 69) (.x 84), .adc 128 64 (.x 94) (.x 71) (.x 86), .adc 128 64 (.x 96) (.x 73) (.x 88),
  .adc 128 64 (.x 98) (.x 75) (.x 90), .adc 128 64 (.x 100) (.x 77) (.x 92), .mulx 64 (.x 93) (.c 0xbd667ab8a3347857),
  .mulx 64 (.x 103) (.c 0x8000000000000000), .mulx 64 (.x 103) (.c 0xc99), .adc 128 64 (.c 0) (.x 93) (.x 107),
  .adc 128 64 (.x 110) (.x 95) (.x 108), .adc 128 64 (.x 112) (.x 97) (.c 0), .adc 128 64 (.x 114) (.x 99) (.x 105),
  .adc 128 64 (.x 116) (.x 101) (.x 106), .set (.add 64 (.x 118) (.x 102)), .mulx 64 (.x 3) (.a 3), .mulx 64 (.x 3) (.a 2),
  .mulx 64 (.x 3) (.a 1), .mulx 64 (.x 3) (.a 0), .adc 128 64 (.c 0) (.x 127) (.x 124), .adc 128 64 (.x 129) (.x 125) (.x 122),
  .adc 128 64 (.x 131) (.x 123) (.x 120), .set (.add 64 (.x 133) (.x 121)), .adc 128 64 (.c 0) (.x 111) (.x 126),
  .adc 128 64 (.x 136) (.x 113) (.x 128), .adc 128 64 (.x 138) (.x 115) (.x 130), .adc 128 64 (.x 140) (.x 117) (.x 132),
  .adc 128 64 (.x 142) (.x 119) (.x 134), .mulx 64 (.x 135) (.c 0xbd667ab8a3347857), .mulx 64 (.x 145) (.c 0x8000000000000000),
  .mulx 64 (.x 145) (.c 0xc99), .adc 128 64 (.c 0) (.x 135) (.x 149), .adc 128 64 (.x 152) (.x 137) (.x 150),
  .adc 128 64 (.x 154) (.x 139) (.c 0), .adc 128 64 (.x 156) (.x 141) (.x 147), .adc 128 64 (.x 158) (.x 143) (.x 148),
  .set (.add 64 (.x 160) (.x 144)), .sbb 128 64 (.c 0) (.x 153) (.c 0xc99), .sbb 128 64 (.x 163) (.x 155) (.c 0),
  .sbb 128 64 (.x 165) (.x 157) (.c 0), .sbb 128 64 (.x 167) (.x 159) (.c 0x8000000000000000), .sbb 128 64 (.x 169) (.x 161) (.c 0),
  .cmov 64 (.x 171) (.x 162) (.x 153), .cmov 64 (.x 171) (.x 164) (.x 155), .cmov 64 (.x 171) (.x 166) (.x 157),
  .cmov 64 (.x 171) (.x 168) (.x 159)], [172, 173, 174, 175]⟩

/-- `fiat_id_GostR3410_2001_CryptoPro_B_ParamSet_add`, lines 997-1047. -/
def add : CProg := ⟨[
  .adc 128 64 (.c 0) (.a 0) (.b 0), .adc 128 64 (.x 2) (.a 1) (.b 1), .adc 128 64 (.x 4) (.a 2) (.b 2), .adc 128 64 (.x 6) (.a 3) (.b 3),
  .sbb 128 64 (.c 0) (.x 1) (.c 0xc99), .sbb 128 64 (.x 10) (.x 3) (.c 0), .sbb 128 64 (.x 12) (.x 5) (.c 0),
  .sbb 128 64 (.x 14) (.x 7) (.c 0x8000000000000000), .sbb 128 64 (.x 16) (.x 8) (.c 0), .cmov 64 (.x 18) (.x 9) (.x 1),
  .cmov 64 (.x 18) (.x 11) (.x 3), .cmov 64 (.x 18) (.x 13) (.x 5), .cmov 64 (.x 18) (.x 15) (.x 7)], [19, 20, 21, 22]⟩

/-- `fiat_id_GostR3410_2001_CryptoPro_B_ParamSet_sub`, lines 1064-1105. -/
def sub : CProg := ⟨[
  .sbb 128 64 (.c 0) (.a 0) (.b 0), .sbb 128 64 (.x 2) (.a 1) (.b 1), .sbb 128 64 (.x 4) (.a 2) (.b 2), .sbb 128 64 (.x 6) (.a 3) (.b 3),
  .cmov 64 (.x 8) (.c 0) (.c 0xffffffffffffffff), .adc 128 64 (.c 0) (.x 1) (.and (.x 9) (.c 0xc99)), .adc 128 64 (.x 11) (.x 3) (.c 0),
  .adc 128 64 (.x 13) (.x 5) (.c 0), .adc 128 64 (.x 15) (.x 7) (.and (.x 9) (.c 0x8000000000000000))], [10, 12, 14, 16]⟩

/-- `fiat_id_GostR3410_2001_CryptoPro_B_ParamSet_opp`, lines 1120-1161. -/
def opp : CProg := ⟨[
  .sbb 128 64 (.c 0) (.c 0) (.a 0), .sbb 128 64 (.x 2) (.c 0) (.a 1), .sbb 128 64 (.x 4) (.c 0) (.a 2), .sbb 128 64 (.x 6) (.c 0) (.a 3),
  .cmov 64 (.x 8) (.c 0) (.c 0xffffffffffffffff), .adc 128 64 (.c 0) (.x 1) (.and (.x 9) (.c 0xc99)), .adc 128 64 (.x 11) (.x 3) (.c 0),
  .adc 128 64 (.x 13) (.x 5) (.c 0), .adc 128 64 (.x 15) (.x 7) (.and (.x 9) (.c 0x8000000000000000))], [10, 12, 14, 16]⟩

/-- `fiat_id_GostR3410_2001_CryptoPro_B_ParamSet_from_montgomery`, lines 1176-1338. -/
def from_montgomery : CProg := ⟨[
  .set (.a 0), .mulx 64 (.x 1) (.c 0xbd667ab8a3347857), .mulx 64 (.x 2) (.c 0x8000000000000000), .mulx 64 (.x 2) (.c 0xc99),
  .adc 128 64 (.c 0) (.x 1) (.x 6), .adc 128 64 (.c 0) (.add 64 (.x 9) (.x 7)) (.a 1), .mulx 64 (.x 10) (.c 0xbd667ab8a3347857),
  .mulx 64 (.x 12) (.c 0x8000000000000000), .mulx 64 (.x 12) (.c 0xc99), .adc 128 64 (.c 0) (.x 5) (.x 14),
  .adc 128 64 (.c 0) (.x 10) (.x 16), .adc 128 64 (.c 0) (.add 64 (.add 64 (.x 21) (.x 11)) (.x 17)) (.a 2),
  .adc 128 64 (.x 23) (.x 4) (.c 0), .adc 128 64 (.x 25) (.x 18) (.c 0), .mulx 64 (.x 22) (.c 0xbd667ab8a3347857),
  .mulx 64 (.x 28) (.c 0x8000000000000000), .mulx 64 (.x 28) (.c 0xc99), .adc 128 64 (.c 0) (.x 22) (.x 32),
  .adc 128 64 (.x 35) (.x 24) (.x 33), .adc 128 64 (.x 37) (.x 26) (.c 0),
  .adc 128 64 (.x 39) (.add 64 (.x 27) (.add 64 (.x 19) (.x 15))) (.x 30), .adc 128 64 (.c 0) (.x 36) (.a 3),
  .adc 128 64 (.x 43) (.x 38) (.c 0), .adc 128 64 (.x 45) (.x 40) (.c 0), .mulx 64 (.x 42) (.c 0xbd667ab8a3347857),
  .mulx 64 (.x 48) (.c 0x8000000000000000), .mulx 64 (.x 48) (.c 0xc99), .adc 128 64 (.c 0) (.x 42) (.x 52),
  .adc 128 64 (.x 55) (.x 44) (.x 53), .adc 128 64 (.x 57) (.x 46) (.c 0),
  .adc 128 64 (.x 59) (.add 64 (.x 47) (.add 64 (.x 41) (.x 31))) (.x 50), .set (.add 64 (.x 61) (.x 51)),
  .sbb 128 64 (.c 0) (.x 56) (.c 0xc99), .sbb 128 64 (.x 64) (.x 58) (.c 0), .sbb 128 64 (.x 66) (.x 60) (.c 0),
  .sbb 128 64 (.x 68) (.x 62) (.c 0x8000000000000000), .sbb 128 64 (.x 70) (.c 0) (.c 0), .cmov 64 (.x 72) (.x 63) (.x 56),
  .cmov 64 (.x 72) (.x 65) (.x 58), .cmov 64 (.x 72) (.x 67) (.x 60), .cmov 64 (.x 72) (.x 69) (.x 62)], [73, 74, 75, 76]⟩

/-- `fiat_id_GostR3410_2001_CryptoPro_B_ParamSet_to_montgomery`, lines 1353-1529. -/
def to_montgomery : CProg := ⟨[
  .mulx 64 (.a 0) (.c 0x27acdc4), .mulx 64 (.x 1) (.c 0xbd667ab8a3347857), .mulx 64 (.x 3) (.c 0x8000000000000000),
  .mulx 64 (.x 3) (.c 0xc99), .mulx 64 (.a 1) (.c 0x27acdc4), .adc 128 64 (.c 0) (.x 1) (.x 7),
  .adc 128 64 (.c 0) (.add 64 (.add 64 (.x 12) (.x 2)) (.x 8)) (.x 9), .mulx 64 (.x 13) (.c 0xbd667ab8a3347857),
  .mulx 64 (.x 15) (.c 0x8000000000000000), .mulx 64 (.x 15) (.c 0xc99), .adc 128 64 (.c 0) (.x 6) (.x 17), .mulx 64 (.a 2) (.c 0x27acdc4),
  .adc 128 64 (.c 0) (.x 13) (.x 19), .adc 128 64 (.c 0) (.add 64 (.add 64 (.x 26) (.add 64 (.x 14) (.x 10))) (.x 20)) (.x 23),
  .adc 128 64 (.x 28) (.x 5) (.x 24), .adc 128 64 (.x 30) (.x 21) (.c 0), .mulx 64 (.x 27) (.c 0xbd667ab8a3347857),
  .mulx 64 (.x 33) (.c 0x8000000000000000), .mulx 64 (.x 33) (.c 0xc99), .adc 128 64 (.c 0) (.x 27) (.x 37),
  .adc 128 64 (.x 40) (.x 29) (.x 38), .adc 128 64 (.x 42) (.x 31) (.c 0),
  .adc 128 64 (.x 44) (.add 64 (.x 32) (.add 64 (.x 22) (.x 18))) (.x 35), .mulx 64 (.a 3) (.c 0x27acdc4),
  .adc 128 64 (.c 0) (.x 41) (.x 47), .adc 128 64 (.x 50) (.x 43) (.x 48), .adc 128 64 (.x 52) (.x 45) (.c 0),
  .mulx 64 (.x 49) (.c 0xbd667ab8a3347857), .mulx 64 (.x 55) (.c 0x8000000000000000), .mulx 64 (.x 55) (.c 0xc99),
  .adc 128 64 (.c 0) (.x 49) (.x 59), .adc 128 64 (.x 62) (.x 51) (.x 60), .adc 128 64 (.x 64) (.x 53) (.c 0),
  .adc 128 64 (.x 66) (.add 64 (.x 54) (.add 64 (.x 46) (.x 36))) (.x 57), .set (.add 64 (.x 68) (.x 58)),
  .sbb 128 64 (.c 0) (.x 63) (.c 0xc99), .sbb 128 64 (.x 71) (.x 65) (.c 0), .sbb 128 64 (.x 73) (.x 67) (.c 0),
  .sbb 128 64 (.x 75) (.x 69) (.c 0x8000000000000000), .sbb 128 64 (.x 77) (.c 0) (.c 0), .cmov 64 (.x 79) (.x 70) (.x 63),
  .cmov 64 (.x 79) (.x 72) (.x 65), .cmov 64 (.x 79) (.x 74) (.x 67), .cmov 64 (.x 79) (.x 76) (.x 69)], [80, 81, 82, 83]⟩

/-- `fiat_id_GostR3410_2001_CryptoPro_B_ParamSet_from_bytes`, lines 1764-1890. -/
def from_bytes : CProg := ⟨[
  .set (.shl 64 (.a 31) 56), .set (.shl 64 (.a 30) 48), .set (.shl 64 (.a 29) 40), .set (.shl 64 (.a 28) 32), .set (.shl 64 (.a 27) 24),
  .set (.shl 64 (.a 26) 16), .set (.shl 64 (.a 25) 8), .set (.a 24), .set (.shl 64 (.a 23) 56), .set (.shl 64 (.a 22) 48),
  .set (.shl 64 (.a 21) 40), .set (.shl 64 (.a 20) 32), .set (.shl 64 (.a 19) 24), .set (.shl 64 (.a 18) 16), .set (.shl 64 (.a 17) 8),
  .set (.a 16), .set (.shl 64 (.a 15) 56), .set (.shl 64 (.a 14) 48), .set (.shl 64 (.a 13) 40), .set (.shl 64 (.a 12) 32),
  .set (.shl 64 (.a 11) 24), .set (.shl 64 (.a 10) 16), .set (.shl 64 (.a 9) 8), .set (.a 8), .set (.shl 64 (.a 7) 56),
  .set (.shl 64 (.a 6) 48), .set (.shl 64 (.a 5) 40), .set (.shl 64 (.a 4) 32), .set (.shl 64 (.a 3) 24), .set (.shl 64 (.a 2) 16),
  .set (.shl 64 (.a 1) 8), .set (.a 0), .set (.add 64 (.x 31) (.x 32)), .set (.add 64 (.x 30) (.x 33)), .set (.add 64 (.x 29) (.x 34)),
  .set (.add 64 (.x 28) (.x 35)), .set (.add 64 (.x 27) (.x 36)), .set (.add 64 (.x 26) (.x 37)), .set (.add 64 (.x 25) (.x 38)),
  .set (.add 64 (.x 23) (.x 24)), .set (.add 64 (.x 22) (.x 40)), .set (.add 64 (.x 21) (.x 41)), .set (.add 64 (.x 20) (.x 42)),
  .set (.add 64 (.x 19) (.x 43)), .set (.add 64 (.x 18) (.x 44)), .set (.add 64 (.x 17) (.x 45)), .set (.add 64 (.x 15) (.x 16)),
  .set (.add 64 (.x 14) (.x 47)), .set (.add 64 (.x 13) (.x 48)), .set (.add 64 (.x 12) (.x 49)), .set (.add 64 (.x 11) (.x 50)),
  .set (.add 64 (.x 10) (.x 51)), .set (.add 64 (.x 9) (.x 52)), .set (.add 64 (.x 7) (.x 8)), .set (.add 64 (.x 6) (.x 54)),
  .set (.add 64 (.x 5) (.x 55)), .set (.add 64 (.x 4) (.x 56)), .set (.add 64 (.x 3) (.x 57)), .set (.add 64 (.x 2) (.x 58)),
  .set (.add 64 (.x 1) (.x 59))], [39, 46, 53, 60]⟩

/-- `fiat_id_GostR3410_2001_CryptoPro_B_ParamSet_to_bytes`, lines 1595-1749. -/
def to_bytes : CProg := ⟨[
  .set (.a 3), .set (.a 2), .set (.a 1), .set (.a 0), .set (.cast 8 (.and (.x 4) (.c 0xff))), .set (.shr (.x 4) 8),
  .set (.cast 8 (.and (.x 6) (.c 0xff))), .set (.shr (.x 6) 8), .set (.cast 8 (.and (.x 8) (.c 0xff))), .set (.shr (.x 8) 8),
  .set (.cast 8 (.and (.x 10) (.c 0xff))), .set (.shr (.x 10) 8), .set (.cast 8 (.and (.x 12) (.c 0xff))), .set (.shr (.x 12) 8),
  .set (.cast 8 (.and (.x 14) (.c 0xff))), .set (.shr (.x 14) 8), .set (.cast 8 (.and (.x 16) (.c 0xff))), .set (.cast 8 (.shr (.x 16) 8)),
  .set (.cast 8 (.and (.x 3) (.c 0xff))), .set (.shr (.x 3) 8), .set (.cast 8 (.and (.x 20) (.c 0xff))), .set (.shr (.x 20) 8),
  .set (.cast 8 (.and (.x 22) (.c 0xff))), .set (.shr (.x 22) 8), .set (.cast 8 (.and (.x 24) (.c 0xff))), .set (.shr (.x 24) 8),
  .set (.cast 8 (.and (.x 26) (.c 0xff))), .set (.shr (.x 26) 8), .set (.cast 8 (.and (.x 28) (.c 0xff))), .set (.shr (.x 28) 8),
  .set (.cast 8 (.and (.x 30) (.c 0xff))), .set (.cast 8 (.shr (.x 30) 8)), .set (.cast 8 (.and (.x 2) (.c 0xff))), .set (.shr (.x 2) 8),
  .set (.cast 8 (.and (.x 34) (.c 0xff))), .set (.shr (.x 34) 8), .set (.cast 8 (.and (.x 36) (.c 0xff))), .set (.shr (.x 36) 8),
  .set (.cast 8 (.and (.x 38) (.c 0xff))), .set (.shr (.x 38) 8), .set (.cast 8 (.and (.x 40) (.c 0xff))), .set (.shr (.x 40) 8),
  .set (.cast 8 (.and (.x 42) (.c 0xff))), .set (.shr (.x 42) 8), .set (.cast 8 (.and (.x 44) (.c 0xff))), .set (.cast 8 (.shr (.x 44) 8)),
  .set (.cast 8 (.and (.x 1) (.c 0xff))), .set (.shr (.x 1) 8), .set (.cast 8 (.and (.x 48) (.c 0xff))), .set (.shr (.x 48) 8),
  .set (.cast 8 (.and (.x 50) (.c 0xff))), .set (.shr (.x 50) 8), .set (.cast 8 (.and (.x 52) (.c 0xff))), .set (.shr (.x 52) 8),
  .set (.cast 8 (.and (.x 54) (.c 0xff))), .set (.shr (.x 54) 8), .set (.cast 8 (.and (.x 56) (.c 0xff))), .set (.shr (.x 56) 8),
  .set (.cast 8 (.and (.x 58) (.c 0xff))), .set (.cast 8 (.shr (.x 58) 8))], [5, 7, 9, 11, 13, 15, 17, 18, 19, 21, 23, 25, 27, 29, 31, 32, 33, 35, 37, 39, 41, 43, 45, 46, 47, 49, 51, 53, 55, 57, 59, 60]⟩

/-- `fiat_id_GostR3410_2001_CryptoPro_B_ParamSet_inv`, lines 1900-1919; the variables are 0 = t1, 0 = output, 1 = acc, 2 = t25, 3 = t23; a loop of multiplications is written out. -/
def inv : List InvStep := [.sq 1 0 1, .mul 2 0 1, .mul 2 2 1, .mul 2 2 1, .mul 2 2 1, .mul 2 2 1, .mul 2 2 1, .mul 2 2 1, .mul 2 2 1, .mul 2 2 1,
  .mul 2 2 1, .mul 3 2 1, .mul 2 3 1, .sq 1 0 1, .sq 1 1 247, .mul 1 1 2, .sq 1 1 7, .mul 0 1 3]

/-- The constants, lines: `const_one` 1923-1925, `const_b` 1927-1929; the file has no others. -/
def consts : FiatConsts where
  one := [0xfffffffffffff367, 0xffffffffffffffff, 0xffffffffffffffff, 0x7fffffffffffffff]
  a := [0, 0, 0, 0]
  b := [0x8dcc455aa9c5a084, 0x91ab42df6cf438a8, 0x8f8aa907eeac7d11, 0x3ce5d221f6285375]
  b3 := [0, 0, 0, 0]
  d := [0, 0, 0, 0]
  S := [0, 0, 0, 0]
  T := [0, 0, 0, 0]

/-- The functions of the file. -/
def file : FiatMont where
  mul := mul
  square := square
  add := add
  sub := sub
  opp := opp
  from_montgomery := from_montgomery
  to_montgomery := to_montgomery
  from_bytes := from_bytes
  to_bytes := to_bytes
  inv := inv
  limbs := 4
  consts := consts

/-- `lut_cmb`, lines 1932-3714. -/
def lut_data : List (List (AffW (List Nat))) := [
  [⟨[0xfffffffffffff367, 0xffffffffffffffff, 0xffffffffffffffff, 0x7fffffffffffffff], [0xdddc64b3570c7410, 0xa7b0992513172887, 0xc4e5c4c4b6382db, 0x2763db0f124768de]⟩,
   ⟨[0xcd3e57b68457d15d, 0xeb688f7fbea56e83, 0x235a123c6a13c5ce, 0xcd7eb9d50f57a6d], [0xc0124e91544c1965, 0x4d9c172962afa35e, 0xf92f2c30037c554, 0x1d8998680a3f2665]⟩,
   ⟨[0x9de4b21355f43eff, 0x2e110a425c9e63f5, 0x9350a9c31ce5a6df, 0x377cbf0ba332315e], [0x2805dd4820f0d1b5, 0x3b1975660f9723e5, 0xa1cca78c84b79937, 0x4f87bb1b94d5e03d]⟩,
   ⟨[0xe428fbfb5652c96f, 0x2e9a14d2d261bdd1, 0x82d82967453b76a, 0x61ea580e7ac87b02], [0xa0f8c2bacf368fdb, 0xdf093380d73b2a28, 0xfa0928b2ea8fe5d2, 0x77a674925f86d38a]⟩,
   ⟨[0xdffab41027670451, 0xebc3d0171200ad3a, 0xf68324f325f4f6c4, 0x4a24cd5f7d0eafd0], [0xf8fbd489d3f6bd1c, 0xf6b56d567b473de, 0x6fb063decacf0d6b, 0x27f2e7e996dc574b]⟩,
   ⟨[0xa6a1064593937228, 0xab7550b4a9165bbb, 0xd682d4f1cb0edbe8, 0x2261fcec40e5ad8d], [0x9f2119c6ccbd4e18, 0x2fd094e9aab09697, 0x331713e700929e, 0x6c5f2efe54338fe1]⟩,
   ⟨[0xd631401742fff78a, 0x38f23a912087e055, 0xe30e809c10ef1cac, 0x3bcb0a542432ff74], [0x2b4b5b97b31509e6, 0x117fe9d73e54af47, 0xe513c0be52f63aca, 0x41ed8adab1c80a6b]⟩,
   ⟨[0x61a31837e0a79fcd, 0x8f742b5751d3de38, 0x10635fcd41354b55, 0x61f30c61946510be], [0x9183d6776c416dac, 0x391b7b42345431cb, 0xe3d6f0847c254a8d, 0x777e1f6219d320d8]⟩,
   ⟨[0x90e633ff05bd85d, 0x546c41a0240392ed, 0x6bbcf15d9f4139ca, 0x73f5b6577ffda5da], [0xbc04e353e0622a57, 0xcbd8f01e6e6414f4, 0x53377c0b8c3c0cc5, 0x6d302331e0a14548]⟩,
   ⟨[0x235487f83d6d456e, 0xbd92203db3fdcdcf, 0x15b13d60cffda977, 0x22dcb48731a1c4b5], [0xa367fb4ec76ed9a2, 0x1e4f7956c0c86af4, 0x6f087c495b012ad7, 0x33437e4a4949b444]⟩,
   ⟨[0x261b44feb7cddb38, 0xdce2fe47419216ad, 0xa4ce17ff9428657b, 0x7ce64f48f8329049], [0x4ce742117289c114, 0xe6224098c212a23, 0xcf75bf452096719d, 0x6f5535817bdc1600]⟩,
   ⟨[0xe776aa0cb941cbc9, 0x16d670e0951aaed3, 0x79c019df4b1ec097, 0x635a66bb12266d30], [0x30d843e023aafd2, 0x10fb61576466108f, 0x93774bec08d568d5, 0x29d2796204c1ee73]⟩,
   ⟨[0x6f0f4c2ee00bbc21, 0x9eb34c58a30ab92f, 0x2153d901ae34908b, 0x136a7e1f4edc188f], [0xf709bf5d8bc45ee4, 0xea6984e44fad9a54, 0xfc8e6f8aaf5140eb, 0x25ebf0de87756e47]⟩,
   ⟨[0x5c2a97265b1d4b9f, 0xbe235dfd68e93fc7, 0x7766bdb9471a4ea0, 0x476d17ccd9909cd9], [0x4960e5b47b398bc4, 0x909d0f170f58f328, 0x1abf7e02230ef508, 0x6de6b3e1d29239c9]⟩,
   ⟨[0xccf0aa2885a6dbe3, 0xa5e4b325823c606c, 0xade98b2a15505fc6, 0x4d4e770302e20c3b], [0x241964174730df64, 0x3dd47817a914a59d, 0x4d7a317ec4fdfd97, 0x3767e545be12aa72]⟩,
   ⟨[0xa0c2a028165c7bf4, 0xcd4da6ea36a0b483, 0x1e1e63323af53195, 0x7a025e238d77188f], [0xb3cf03b908d2cef2, 0x8fee9bb825a0afa6, 0x855340e088111895, 0x32e3ef014fb8f8a3]⟩],
  [⟨[0x33ebe39debf87807, 0xb048f96cdbdeff76, 0xa0496c3c342a3087, 0x7623e19250953679], [0x12f767114b932390, 0xf80851eaacece2f7, 0xe447465be5b280ea, 0x412ade811115958]⟩,
   ⟨[0x982f1ac8b5eb0dc2, 0x8464e052bbbcc880, 0xc927b59601335d53, 0x4b0c6f5a4da4d80b], [0x101e1878e04783af, 0x50458ffc41d8a690, 0x11499d881b77dfbf, 0x46dc7d221f77a937]⟩,
   ⟨[0xe9ad22ce620e52c0, 0x990d6aa4140f356, 0xf6b2ef70cbbeee5, 0x2c67dc80ead414c6], [0xe17182bc23d4cd20, 0xfc8fe3cbc13ddea9, 0xd1e4a7b83babc06d, 0x52ea05cc71c06db7]⟩,
   ⟨[0xf8abb7700d022b5b, 0x362b8059199dc689, 0x5d887a4d26bbdec8, 0x7835f183f7fc2a01], [0xeede12f5de99df34, 0xbe952638a3082301, 0x829fdf804c35a162, 0x205a2252c2b9645e]⟩,
   ⟨[0xde284da91356e14c, 0xe40cefe0c37415fe, 0x62be93e947f6016e, 0x2dd989045dbfe2f6], [0x195b0e982ebc70f9, 0x7e52840df01f4d43, 0x1afb1fdf4b1f6ab4, 0x50aabb820b3e491]⟩,
   ⟨[0xc59e1edbc645dad4, 0x5af6b2dc565a286d, 0xc399a48a13076366, 0x19f4881f4ac0e5b9], [0xc07d02a1cd5ac339, 0x18fbd088ed628a55, 0x2d33c6f4ffa4788e, 0x52e9ae42ccb832e7]⟩,
   ⟨[0xa47091ae4e5e934e, 0x2542ce1391ced3c6, 0xdde01fd58fc47857, 0x6ba6e5694304eaa9], [0x2ff0278be24091a9, 0xb895f0ab782bbce0, 0xa80ccc97ab8b8828, 0x6a54b96168a7d8fe]⟩,
   ⟨[0x15e1f5adbac4581a, 0x91620ef0d4baa751, 0x4e65731fc7273c4d, 0x14b166cb7eee33b5], [0x7b0effa53cd06080, 0x4491156a8cf95ff9, 0xc8c64c39e2258574, 0x3d48da9d13315ce9]⟩,
   ⟨[0x97a098a399866ce5, 0xf4ccdb40023a1167, 0x4bb32981f8094782, 0x7342cc98c7d5fd13], [0x3c1c5b1878b99d4e, 0x1277668ff4762ac9, 0x612431d76ae50e4f, 0x36c174e036f9071c]⟩,
   ⟨[0x39194e879327ba7f, 0xc4d251ff7237fa1a, 0x55ed3cd42ba5eb8d, 0x263af07ba590188], [0xb4853127efa82cf3, 0x2cc2d2202b8e761d, 0x4582b81e2722b490, 0x1da7680a610aa621]⟩,
   ⟨[0x6a669ee30d297d4, 0xc336b048e133d393, 0xb733a2c493b7b41b, 0x427cc233c7a8e721], [0x727c14f12867bb00, 0x756f4c7aa736035e, 0xb72a3ede26327a22, 0x4aede2bb77f73f28]⟩,
   ⟨[0xc8a3612fa7282ed0, 0xe4ad8b40b0150579, 0xab1de11d0c3fee4b, 0x613aad4833b31f23], [0xe74ab8565c91bd21, 0x499177357953d695, 0x3831eb601a53d74f, 0x245977a054deb1a6]⟩,
   ⟨[0x15972e4dfffc1468, 0xa758d9cb141dc24c, 0x5e76fcdfed8694c5, 0x5f9daf35069b7a5e], [0xfe50fce4501b5415, 0x6442cf6758cfde50, 0xa89c6db438e5f4d0, 0x21f012dbf5d4fefc]⟩,
   ⟨[0x2a1170ad98cb9a81, 0x934bd9d5036c5e45, 0x27df152eca5095b1, 0x682698dbcceee508], [0x1f4fe3a2b973fb5f, 0xd33cbebe792c7d4d, 0x99d37961e7b33a8f, 0x46b8993b7b6d015d]⟩,
   ⟨[0x93a3809b6fbac8f7, 0x84861bf097c55dc4, 0xa6f89eea15bb65e3, 0x66ae1c5da6e531d1], [0x643a14fcfd83daea, 0xa7a46d0dc585947b, 0xfa20cf074fba1274, 0x5999ed7b93578a7d]⟩,
   ⟨[0x36c8b6ed78e7c6ce, 0x6d400ca55e325f44, 0xc6ae09b320b7aa5c, 0x1af261c189eabc17], [0x64d6ffbbb9e778e4, 0x1c9e223e7fc64beb, 0x4d68b5205d75e6c0, 0x5a72b1d976677a06]⟩],
  [⟨[0x62db66406f08bb17, 0xc34f29dfae75bb73, 0xd501293d7dbd4851, 0x5eaa94caad1f604b], [0x39cfe9d1094408a8, 0xc0f6544ce8a476f2, 0x9f6308b6a42d7607, 0x17f82949d727018f]⟩,
   ⟨[0xc44453cd9c4c4bd2, 0xa895e247ebd0b947, 0xaeb7afcaebc27f4, 0x2472fd08f04abfac], [0x319ec67d73e6e994, 0xd6533e4c798c5fc0, 0xf4c3b24d3fb9aa89, 0x3ec580820a3b376b]⟩,
   ⟨[0x79732d6f144acf7a, 0xfdd630c3911342dd, 0xc577c4b34a630649, 0x14956a17bba999d6], [0x523d3cc8a435a559, 0x488dc690acda8861, 0x4cf70928f051c69a, 0x2d98d573955394cb]⟩,
   ⟨[0xedb7ba2a23a4b840, 0x725ec496f6c2d93b, 0xc94818b8833bb3f, 0x51281a31b142b12a], [0x2a8a5706659eda83, 0x3098f7507f9d6877, 0x87ad0fdf2171f69f, 0x6b7067c31a6f2f28]⟩,
   ⟨[0x3b52107412b1e36f, 0x727a2432f81e4733, 0xb75a2f3553f2cbbd, 0x46de933854960eb0], [0xac5344f8e561d908, 0x4bd40ecb12c67430, 0x1698fd62ef499f97, 0x29ebd7ae6ae9fbd1]⟩,
   ⟨[0x9dec249b1ec8110d, 0x2d19053afd2f5c39, 0xb1189807e01522df, 0x24a04c16c1424c77], [0xa4fc7c7d24f72226, 0x763405fba8322501, 0xc5443c9a18f015e0, 0x6deda19bc55d6cea]⟩,
   ⟨[0x4ef309769eae2ff9, 0x2549b7f25741b21b, 0x859acd103bc23f01, 0x5c0358fbf5fb0d7], [0x85e53aa8fb6ab34c, 0x8daaaa698fd2fd20, 0xbe6d4d3416096fc9, 0x27572c88f8b8b831]⟩,
   ⟨[0xadb98dc547d56a25, 0xcc764328b8e1dc6, 0x32c738ebe48c4a1, 0x31372dad94fc9cf0], [0x8e646a0c78a7dcb2, 0xa32f3e9c6ecd9885, 0x280bb4ad6a3ad963, 0x7dee1bc4817d4327]⟩,
   ⟨[0x1ae6a27bf8a7c1e1, 0x558c652fcbc527c7, 0x4084b56ea65056f6, 0x3fd454596d4c838b], [0xf5c15afd56de792a, 0xf656faa488959282, 0x7f0d8ef41c07d63f, 0x44efff7dcd841acc]⟩,
   ⟨[0xac28f2a68d3695d8, 0x94959eb83f91e781, 0x7693fff7fedd6e1f, 0x2512e6e1a9a699ef], [0x823400eb7955fab7, 0xcf109ef994924c08, 0x12e087793a709f32, 0x187d04139cc6484c]⟩,
   ⟨[0xd3932afbebde477f, 0x9d5a542244538d8a, 0x40b0b159166a87af, 0x31294b3d41d5e078], [0x6c49c853e8c48222, 0x8fbe6620dcd0d611, 0x9ddc7ee2f611007b, 0x12289a60e6652172]⟩,
   ⟨[0x8b85475bdacf80f7, 0xadbab3539b5caef2, 0x7c4090a38d2a7707, 0x271fa4f1dab97830], [0x141b725253173e04, 0x4b483d6406d0b127, 0x8fd15bcf063a7af8, 0x59b19eafe580f34c]⟩,
   ⟨[0xa7eea8c49c0d79b6, 0x766fa113b9185109, 0xb42d74f34642cc64, 0x51d0127bbb817476], [0x6da097f58ab71448, 0x145872e5f95ad0c7, 0xb7e934f3f1759436, 0x4ea883f93160ed1f]⟩,
   ⟨[0x30dc39b70ceabae1, 0x49ec5ee8a606d766, 0x230e276297fc46af, 0x79a531f5be79b8d], [0x48253bc2ef08c93f, 0x2d32af02f124d043, 0x85796d0daf34d231, 0x6a6205c15f8cecd]⟩,
   ⟨[0x1fa77afd47b00d1a, 0x429717b0e48ce97a, 0x38fef11d57433697, 0x3e91bed67d426687], [0x95919bf72ab4bfe9, 0x7a3f33fc97096b3a, 0xe0bbac33dd8c82e, 0x2ce9efcbf8edb675]⟩,
   ⟨[0x2d44e99843d8b81d, 0x8abff4196d68a95c, 0x639000a03b2a18dd, 0x7cd15413871e3ed3], [0xc059855b148f0378, 0x50147459616b62bf, 0x53b699af4d461110, 0x6a0d0ec7ec29e48d]⟩],
  [⟨[0x5173322115797f35, 0x2f2982144bbe6644, 0x7bc8fec64a5ef621, 0x3d2be7857f472f05], [0xa1c3a1c92765c427, 0xbacf08fe24155acf, 0xa9cc1a179d229948, 0x1918c97f27039fd8]⟩,
   ⟨[0x2cf393387843ff7b, 0x5fcbde65258997f2, 0x3980bf90165a98a3, 0x2e80607dbf9458e5], [0x5f646eb67019165c, 0xfa091fbedde34205, 0x695348b669267ae3, 0x385b0b6aabc22051]⟩,
   ⟨[0x3cae0756b537f78c, 0x3012a9588be30367, 0x32d26c06981a22c3, 0x7d091fab2950e833], [0xd8e1b638797acaaf, 0xe7021c8549f2ea10, 0xca382bc117a7af3b, 0x8a5a81dbb809976]⟩,
   ⟨[0xf499fd4287bb97, 0xfb6791cadaa9daf2, 0x9a19e4f3057b2b98, 0x6968d2ffc53c0223], [0xdc741ef5ce88509c, 0x38ae355d306a0570, 0xfecf6589c23af46b, 0x6c0e6ed16ad48836]⟩,
   ⟨[0x22b68698e363495d, 0x120005d039af2be3, 0xe37b19650bf4ba69, 0x3b416e9326e64ae7], [0xfaed5088deac5c59, 0x67436acceb2518a5, 0x636b52f891fa788d, 0x10b2a57a655153d1]⟩,
   ⟨[0xb18060a7833a984c, 0x7ef8374674833bad, 0xcbfaf742c5b3bc88, 0x7981dc36a1a7f135], [0xe70ccafa5d076280, 0xeba80eb707009d85, 0x7d99d24c73778de2, 0x1efee1bba7262d50]⟩,
   ⟨[0xbc47f4a26a7cab32, 0x53f290a7dd6e48a3, 0x82257a1b92f35f9e, 0x73d17b318bb0aab0], [0xbbd4522ac2dffe96, 0x9c37daa1e6eb0501, 0xf4d4d568453db6be, 0x2868cbf5642ad2e4]⟩,
   ⟨[0x40a988e6abe30c59, 0x5aded92993057dec, 0x18fd7e04dacd37b0, 0x6e3fb81e8228aca5], [0xff3eefe64104b0c9, 0xd7dd05e731ca120a, 0xafd3cf1cd01c1cf8, 0x4d0cd264831bc4e9]⟩,
   ⟨[0x2641b32182cac14a, 0x34eb149570990e6c, 0x3e5af58fa1c74ca6, 0x11b50821616b7a2d], [0x891636e3c4fa9719, 0xaee84c27107dd719, 0xa2b0d83ec1872e75, 0x7dd62cbc7383069e]⟩,
   ⟨[0xeba4a024c81b7e15, 0x1cc37e0804516070, 0xef1f0401f90ce59d, 0x3b4259d5e062e133], [0x87a1dbfacf2ca1dd, 0xcfbfb15f61fd1afb, 0xfbfd9899ecf4c7ba, 0x57c84cee2725fa50]⟩,
   ⟨[0x8b0b7414efa6e3d0, 0xd9725c5eb3d04224, 0x670e6c508a91371e, 0x4d1304679b25bd3b], [0x18d77d155cf18d4f, 0xef80dc411ca09677, 0x6f3a961bb9a05cf9, 0xbb8a5187c1433a4]⟩,
   ⟨[0xac0cf52ab33fcf05, 0xad03692f1cdc7782, 0xb345bae6aa02b77e, 0x5096694456fcfa9], [0xa898444825d4cf32, 0xd76393e315184188, 0x7d4a8c0cea069bed, 0x4d22268d11e18347]⟩,
   ⟨[0xc2a0bb753cb3c0f1, 0x61f4ec4c8eba58c6, 0x5d3f0d44dfc4a903, 0xb6ce81bf9b6f79a], [0xf694a44a94e49623, 0xcfcbb7e11bdf75e0, 0x20cee1bde0337e13, 0x694ea40bdff02e18]⟩,
   ⟨[0xc21be0fa78d1dc2e, 0x8b4d9a5ed0e49e0, 0x676731ab827f0b4c, 0x674ecc79ebab5894], [0xb29bd0d439abb148, 0x8207a8f82378a63a, 0xe36a549d1e4c29c2, 0x380d48de3f1c255b]⟩,
   ⟨[0x6ab6f887e5f2c87e, 0xe92c7345a01aec86, 0x697f45208660c26f, 0x4f2488e09b58015b], [0xb2410b3ebb41900c, 0x31267500be1a8a39, 0xa7c9997cb9140554, 0x335b18061cd41524]⟩,
   ⟨[0xb836fd9f14873270, 0x1ae0f512e3243ec5, 0xa743e30483b9ab74, 0x1569c30d3a5758c7], [0x3cef9a9e8f9e52, 0x557afb4a8c22119e, 0x66f2487ef223a966, 0x7fa00273a519378f]⟩],
  [⟨[0x812c024f7b08c1c4, 0xc6017986adba8ad9, 0x59c7b16c0601bd82, 0x41b6a45c0cfa5622], [0x353a67d583c1e3e8, 0x9a83438ec65f5059, 0x9995037786eea346, 0x74e2f4bd330d2570]⟩,
   ⟨[0xdb8e53c1b4a8bda8, 0xa850047e2c003c77, 0xffd48a731b018831, 0x24f96cb68b325062], [0x3779ca4dcd2b821b, 0xc2afbf6ec3159ce7, 0x8a580b1a10f18de9, 0x37043d0d8cf75334]⟩,
   ⟨[0x451dcdaecccf2e8, 0xcf7a3ad9752a134f, 0xd5754596fbdae56c, 0x15237d73f4cdcf6a], [0x1df5912ceca37967, 0x60934339336cd97e, 0xa4e523fe434ddc01, 0x24e81dc679dbe24c]⟩,
   ⟨[0x28f0d73bc83b2b7c, 0x45be220f7b5de1aa, 0x1b785230b136a877, 0x5a94122aaeff115b], [0xef895f0c8e598998, 0xcee32b3ef4c622c3, 0x2d080b1db256cfd0, 0x672686d621075e15]⟩,
   ⟨[0xe85fb5759f9f26fe, 0x1de57b8393a7966e, 0xa9948de8dd8cb696, 0x226c95a6758e685d], [0x38b0753b3729c663, 0xd46ca4d9410e4884, 0x1d6fa5f977516fa4, 0x9a0fdb8696cfafc]⟩,
   ⟨[0xd1dad8e9cc7f6fd8, 0x7bb9f606022195a2, 0x1b997396223a9346, 0x6acd6f7c88dcfb04], [0x9029e5eb3ac52f65, 0xed1d7a0f935a39de, 0xf1d58c3a538d8914, 0x19153569b36b8342]⟩,
   ⟨[0xff600354e2502156, 0xe386a20f733da5ec, 0xd6fbcbbb9d24d11d, 0xb57498c0b06c843], [0x98f1fff87a834667, 0x4aeb8788c7df05f5, 0x8cfa3b01c2681da4, 0x1aecc0e82fa2faea]⟩,
   ⟨[0x3827886594c5cbc5, 0x9ada7cab041a755a, 0xb38f762a8d891640, 0x28f6fbb200ad88f0], [0x3f9629e33709cd6d, 0xd2435a554912f483, 0x305bea64dff5ab69, 0x4d29041a663bb0d9]⟩,
   ⟨[0xdc4bc9d4e2fd9338, 0x5389390dba7938fc, 0xc42b812df329b218, 0x5e809b5efa9f1956], [0xe2a89baa523d74c3, 0x97cd9ffb78cba7b5, 0x25f953015b07bcd2, 0x4042c7052064bb3a]⟩,
   ⟨[0xd8b6ada428d53bf9, 0x5e922ca5a4210f2d, 0x9501f46af05a1629, 0x28094e54c6cd71cd], [0x8d5484d5811285ad, 0xfb2168f41593ee86, 0x693d3b32ac54a41d, 0x3dafec0728a5425c]⟩,
   ⟨[0xe4cf0d0d12837a8, 0x19fa2cc9cf5273bb, 0x56346bae116a20c4, 0x4f3597fe0e436a36], [0x459d3ffbe8eb1b85, 0x7c7186725ae04130, 0xa37c258660302740, 0x2871af37913072d8]⟩,
   ⟨[0xd77249b78590319d, 0x73f7a684eb06b813, 0x4c9dc5b971d1d580, 0x7c91a9f55a50a95b], [0x4f8f2e890475f161, 0xf34ec1dd538b7f94, 0xb8ff6c65d46f2575, 0x79a2ce2c64433c80]⟩,
   ⟨[0x38448a531aeb7039, 0xf5ec03f7417189ec, 0xfa095ca1eb92ff2b, 0x4612f720e4fcaedb], [0xc945e966f30aae0e, 0xf61cfe85340a7a1d, 0xa2560bc6e42d7920, 0x7d7b321a692e9c7]⟩,
   ⟨[0xb9c26307592c60c5, 0xcecbc6c30f59d966, 0x8ba31fd65459d89e, 0x1a4af6b147c7fae8], [0x66487766b431d720, 0x5d5973095108b845, 0xa3b94fd7ca8e6e0d, 0x639519e355c6a48d]⟩,
   ⟨[0xad3ee167052dc195, 0x4df2bfc70947816b, 0x5d463469abadbb3c, 0x6f7aa885c33d4f96], [0x3dd27536fe06133c, 0x27a557b22796e7ed, 0x1117ccb73d314a4f, 0x6f0c0ae023968946]⟩,
   ⟨[0xa3d4daee2110c00, 0x389d3a54c633a23, 0xe167bdfa83aec172, 0x67070cefb38e8f1], [0x411373674df220c5, 0xb255e5d359c39f05, 0xe437984e043c75b3, 0x1dcd7716a22994a]⟩],
  [⟨[0xd2880df24c6fddcf, 0x76a28ff28a00d80f, 0x257cb1f80792f82c, 0x7938abc605703ea], [0xd99f0ac95f61b0fe, 0x440dc63c8ec15433, 0xd9bddff186ab5ddb, 0x3b8875dc744755ea]⟩,
   ⟨[0x1d904404938c9fb, 0x900657fd8db6a890, 0xdcc5068af60a173a, 0x5f3eb242857c7b2a], [0x634240bda4f0eb9e, 0xacdda6c444e85c70, 0x753f02ab0aabe4c5, 0x33d89d21c1d034e1]⟩,
   ⟨[0x4596b52d1279b25b, 0x494669d9a48014ae, 0x9a26b6fc4fd22150, 0x394de0bbf07d5a3f], [0x12dfe5a6634c1733, 0x33ec21d21ebc5177, 0x454b4930527514cc, 0x7f23bd0f41405532]⟩,
   ⟨[0xb2879e7fbac9dd30, 0x259bb1cb06ce7672, 0x201db42ebb97be10, 0x112d60792ea35a8e], [0x7cc756d46b3b9933, 0x4bd24810781ce4dd, 0x53cb4e388733247e, 0x47bd6a309da66787]⟩,
   ⟨[0x8a700953ba600c8e, 0xd466f11dcf388c0d, 0xd485f341e4a17a8e, 0x63278918234fc16d], [0xf4dda875bb82046d, 0xd61e4e582945470a, 0xcdb6c5bd6d0f8976, 0x44cd9e4d10a004a2]⟩,
   ⟨[0x595cd94249c4aa6e, 0xe5a901363de400c8, 0x4bced3bd9dd12d9e, 0x3700cf9278e3d5e4], [0xecfff49875a32d1a, 0xc28dde373c4a54b2, 0x8dc22352993cae6d, 0x46cb540852ed7019]⟩,
   ⟨[0x71ffaed0ea94e7bf, 0xc0817d2cd5ae6185, 0x7b72b8b95cf23687, 0x61dde59960a450e1], [0x17cf0b10d13870e6, 0x7d08e1fb5f2930bb, 0x8d0f4f5583807c14, 0x61ebfc1a6e6db701]⟩,
   ⟨[0x247a3f650fcafe68, 0x575480357ac2a25e, 0xb7466ca53cd0fe06, 0x7b0d8b36bcc31ab3], [0x2faaf49ca6d4358c, 0xd9e5e2fe3e9b4e31, 0xa6a859a0f6086336, 0xc2a442aa9c19f84]⟩,
   ⟨[0x66fea8413bc0ad7d, 0xcd3a546c32c9158e, 0xacd2ee7f8fe1df7f, 0x10f58c0aebe9621e], [0x80047c54478b667d, 0x9eae5faa89870dce, 0xc05beb330520a005, 0x2cfbc921352ac891]⟩,
   ⟨[0x6842e6b8632f6d73, 0x6f2b57242b9ffaea, 0x7accc9829341d2fa, 0x6dad9a1188809b65], [0x3411850cb6cc2240, 0x8547bcafb64937e1, 0x49aedd5f6978f636, 0x38f5975285a53d2a]⟩,
   ⟨[0x5c38eb49f5f5a2d0, 0xe028121be3bf779c, 0x649997c8a783d5e3, 0x4de984a2c06cc0f], [0x52c834b0a49d6239, 0x70a1b09628413ac, 0x2fbe0ca5a8624a1e, 0x687d93c3268d930a]⟩,
   ⟨[0xc7cd6805314c47a4, 0x8bd0c630ce7a9a6d, 0xcdb2dad534f727ba, 0x7814c41425db0189], [0xd7f9c5dc7dd9caee, 0xda6eacc8798690e4, 0x705794e36b675e01, 0x4a31d71475c5ec38]⟩,
   ⟨[0xc162a3ea0519d5f2, 0x92146a782958fabf, 0x1e63cbe46cb31eb0, 0x77ce5aadfbc5ad0f], [0x3631e47032605dc6, 0xc7d1c72f43413dd3, 0x171a37940df6b7c9, 0x6d7117432b5a08bc]⟩,
   ⟨[0xddc8057d509ef0f2, 0x5c0b92b6cabb486, 0xd49692b64244d919, 0x4e181744d297f56e], [0x902f6e73f8cbb897, 0xc3b21fe156d01382, 0xa858abe146890f6d, 0x46b5e2c9506858af]⟩,
   ⟨[0x30441281f4dede56, 0x13f06fbba195aede, 0xad5f575b2fdd3bff, 0x680f656d32acb590], [0xfb60a8e1e3faaba7, 0xc8fbc1e489a14827, 0x5835453fa8616136, 0x2826a47e6f4926f]⟩,
   ⟨[0xaf4319a174f32180, 0x4c9fdd166c2c1712, 0x59ca4fd4ac7e14a7, 0x7aa6e2fabbd4ea4], [0xb4bd441cfe9f121f, 0xdebb4356cda452c5, 0xc29f1cfa51c9f451, 0x7e1eef4c83f598d8]⟩],
  [⟨[0xfc41a3215014135f, 0xbe95f9ba3eeadf3f, 0x54b12123203a540, 0x6dd2fd173721c745], [0xf86b85785a682b59, 0x872aa481be801f7d, 0x64c1600c14f865f2, 0x4bdd47aa25365449]⟩,
   ⟨[0xc96a964cf3a3469f, 0x273c5c859f7da0e3, 0x88edc4ac4c1a9dcd, 0x77623444b48e4caa], [0x7af34a9c31581ff7, 0x23328c37bb57f7cc, 0xe920d8e98b7c86ab, 0x1c7a7a409de6d64c]⟩,
   ⟨[0xbcdcd2279b9451c, 0x2920b43558f5241b, 0xc24df7159b33ef3d, 0x15252c5bf2600224], [0xf9c8d8a69a9160b6, 0x3186f2f9a6b9a6b8, 0xc37267dca377e98a, 0x71319a0a37957189]⟩,
   ⟨[0x48e5033f6baf6ae5, 0x72379b2ea460fce9, 0xfc753d47f3d2fa46, 0x3b67685aed9edf72], [0x1608e304f712500f, 0xdfa358a49ee1b42a, 0xe7a4b37634b8345c, 0x7d0e0bf306753c17]⟩,
   ⟨[0xa88526a68fa62042, 0xd6f32bb5393006bd, 0x14804978a5dd5045, 0x34c02662bf0c5e13], [0xf9beebf9376e3e3d, 0xfd7740415923dc61, 0xfe77bdfaf9735cf5, 0x2e476e224077cfcc]⟩,
   ⟨[0xab8e52eb9ba457ef, 0x95f6c5fe0abed212, 0x7204b1a6386620ff, 0x463b7474dd180719], [0x7f7d27aaf991d8ee, 0xa7eb10858f67722d, 0x78d7095be331480a, 0x1dcc8c1266a1c8fa]⟩,
   ⟨[0xd4c39c183e6a04c1, 0x73db1c4db598abee, 0x381f9780df4a7d42, 0x3c19a23152f860cd], [0x7ec899343ef00740, 0x50867788f37fe0d5, 0x502d870b43e84d4a, 0x5f8a84138f744749]⟩,
   ⟨[0x1c41aaadfaeccfe4, 0xc324f3b921461f41, 0x165aba3f4e90c0ab, 0x2f96ced55f88e7d3], [0x8ca366fcc0e52768, 0x6cca017ca55249a7, 0x41ed002f0f7ebca2, 0xc33b371a2baf655]⟩,
   ⟨[0x3b94cd9c62b928ce, 0x5bc43a6a39729345, 0x44d0c0fc47d223c, 0x3b64b38db0493367], [0x82afb645eb74a6c2, 0xcb01e22d876d71c, 0xce2a7dcc29c6bcd0, 0x4753de1cdfd644ec]⟩,
   ⟨[0xe69fc90362188792, 0xd91db9bc4914328b, 0x44953f4d3b68f8d0, 0x2950435d0654b283], [0xe599a4aebe88f609, 0xf801cd9090f5d10e, 0xab78db1d4f1d3d9, 0x3ed9666ac0f71ecb]⟩,
   ⟨[0x6046a505e1e73e59, 0x8723a3ecf3b5c2e0, 0x4bd95bf6e22c1555, 0x50dc33db6da421e9], [0xcfb51e95f1b01327, 0xe7013f2a199a8765, 0xf486fea777504b0b, 0x2af0f7e9f9ba61c6]⟩,
   ⟨[0x9dba1a02be00b841, 0x488ba4558bed5f08, 0xf6814a6467f1040e, 0x23ac4762dc252336], [0x25040f02f0ed0577, 0x65209b22c6ffae9c, 0xcc441a8c485aa0ac, 0x10dfacb659d63a8a]⟩,
   ⟨[0xbf4a0569c7d86b28, 0x5cda94c4dbda9da4, 0x2235c4ce69058335, 0x68fa5e7cd30c89e2], [0xbb286d3959097b5b, 0x87da80bb9a20ba7e, 0x85ef865e56f47e54, 0x5bb8786774abfa5b]⟩,
   ⟨[0x5db14fabde2fa36e, 0x84e3b54677775f09, 0xda734523da951d99, 0x4a890973975026e], [0xb5753599c0d12be1, 0x5670ce9fb864d61, 0xb7153502305bf3cf, 0x7a9bb3572e60af62]⟩,
   ⟨[0xf43cda07c7566da5, 0x7fc4c7fc53fa4196, 0x1e20e0ed88dcc9f3, 0x7317c7e5fee23dda], [0x305e13f43017070, 0x5568410c6b1ca7c0, 0xe5d55ba104ba029, 0x118b284e90fd49f8]⟩,
   ⟨[0xca0f7b5b8f3c6d8a, 0xaf72dee0af7ecbf6, 0x21c86d85bb0ec4f1, 0x303bc47f0525d17], [0x6adcab9f896ffcc0, 0x65764c4524e970ca, 0xf14c1c3ca718, 0x1cf1ddbd0292587]⟩],
  [⟨[0xec4fabcc86111eba, 0x599c20b6bbbb793f, 0xf74ae7475657668f, 0x24af29b277bae892], [0x47d6876bcfac9d5e, 0xcacf9f5024369e14, 0x8a231d746f9cafef, 0x57645a4eb69aae58]⟩,
   ⟨[0x440a3b15489900f6, 0x4b642fd3961ac3c2, 0x3d668599c265b973, 0x5fa0e65d1139ce78], [0x3ff15af41faa710e, 0xe45d35cea9422fc0, 0x56904c06bd7bb349, 0x40c5bee0e529989d]⟩,
   ⟨[0x8fa4686170b20298, 0xec6295384838a136, 0x23ade0f6137f66d6, 0x1a92e05c8ea53e76], [0x51728e279d51eb7a, 0xa6b0b758c4352e35, 0x84c5933137a11b35, 0x3933efc1f66b75c7]⟩,
   ⟨[0x7fb68d6266916d0a, 0x3325d42ef28a9b14, 0x75e83a658592b544, 0x524d1ce02718628f], [0x88a110ea3c584d76, 0x6b034ac44ac09aac, 0x648863584fd3a36, 0x516f0eb087d944e1]⟩,
   ⟨[0xe2016da0df11d0bb, 0xb34eb471b01f6540, 0x13e3d330165cbb24, 0x3e755d117cf7f676], [0xd70cf4f84fea9a69, 0x98f59e0ad18f4337, 0x7cce7ce6826344ba, 0x30d129d7f4004bbe]⟩,
   ⟨[0x16ef317ba9cb975, 0x8eebed19e4b3ab4d, 0x8c597df0170a2570, 0x451538d85be6de70], [0x6c711dac7a64792f, 0x8f1896eb217ec8fb, 0x82e9c20b7fe18ded, 0x6cebf4a7b0c5f622]⟩,
   ⟨[0xd9403eb549ccc64f, 0x807ebd5628b8a3fd, 0xf08bb6590f291e12, 0x20d13e39c3f4432], [0xda247896752bb92e, 0x9954179486eafa7a, 0x213e94ba274e36ad, 0x4cc0f1fb61a71333]⟩,
   ⟨[0x19cc11bd06478801, 0x1251562a6d18216a, 0x7a5f06bbcdd307fc, 0x4285f6abfaa9ca2a], [0x5a92283181258996, 0x8f7cf8ee27b8b018, 0xf030bef37f81a62d, 0x417acbc1cd4fd4e7]⟩,
   ⟨[0xcfb0ea58ec64412f, 0x9547b64a6091e621, 0x5ea49c7efd0c9815, 0x6789055ae78b355c], [0x8d743e9877e9a73a, 0xb032ea6a2ea3fa49, 0x52ea3801ceaaa33a, 0x73b3bb8df2c3e22b]⟩,
   ⟨[0xaa2a12917db9e301, 0x7f29770fa1293dd7, 0x3135bb2159683dec, 0x70f8df77785b505], [0x8f2158ea37f53677, 0x96cc7b9dabe1af1c, 0x7f9779156d6477d6, 0x55db3922df370eaf]⟩,
   ⟨[0x3028c03aa9dac7ae, 0x16f7df0dbae06be0, 0x9548398410d57d9, 0x5e9c7f431510d51f], [0x33b9be2d07717b3, 0xd5d8116ef08ab91, 0xd5a172b1eeefe88f, 0x72b1d29f0996294e]⟩,
   ⟨[0x9e2b79fbe4d0965c, 0x1f403eef49d8b8e, 0xbd4d2d48ceb12d6a, 0x4d04dd9a11fb24fb], [0x7e613ec5e5c8d24c, 0x568befe8b918e543, 0xd6456d1ee966df28, 0x2ddead63bafc71e2]⟩,
   ⟨[0x1d794f92448d72e9, 0x3978052ee7e62bf2, 0xf6c7a72ee2b92538, 0x43879a886ef321f0], [0x2a82314034f6ffbc, 0x26f84e5135f4c485, 0xdee65540028bfa7e, 0x56216e9d5f033058]⟩,
   ⟨[0x31ca5470cbc772ee, 0xd3621e11811bb5d0, 0x501c4c4770863d71, 0x564518ed28d6bdd], [0x60e3b89bd35b64b9, 0xb4f2599a6621a688, 0x1a8c45083b5e116d, 0x633ef5ccfabf3125]⟩,
   ⟨[0xdb1d2515d4ff62a, 0x6cbd00eb4b17d658, 0x2fa38212fa1db737, 0x7b18cb893a7fa03], [0x531e47ef548e5f82, 0xae7b94fd8276963c, 0x8055d82a6181a13a, 0x5725b51223b6e361]⟩,
   ⟨[0xd84c70416d8b1ffe, 0xf68aca0b5d994200, 0x32bf99446bb908e2, 0x1240a3e61ad88db1], [0xb0be96aaa92b6472, 0xef88a155a1b7726c, 0xfd9ed9349f496, 0x377dcbad454a05d9]⟩],
  [⟨[0xd0a092cdc04111d2, 0x5c43a94c338f06d6, 0x697b4c2625e964f3, 0x2cd5a0597572ccfd], [0xa09fc4d4b5b523e4, 0x7d8141e84e1e9042, 0x2462512bd637409e, 0x503f032f7cb2ce75]⟩,
   ⟨[0xc56f38e3bcbf1450, 0x9f4fc77cf2e5594, 0xf449c3e60fcb653a, 0x6a1fe75264a53c65], [0xff366fed7c039488, 0x23f58ba58c99a6cb, 0x4b5546c68d67f6d6, 0x3405c85178b1668]⟩,
   ⟨[0x969f1b33c0c86696, 0x9346d06c13746468, 0x68aed3c8ae0c6d62, 0x7b3d536174fe63d5], [0xfee8416bc4f4b65d, 0xc79bf488554c6d0a, 0x191d5d27dc402bb0, 0x31b00167e087eb9f]⟩,
   ⟨[0xd5fe0979e05d281f, 0x8373ab503485446b, 0xce5258ba9223681f, 0x5f82843ea37bf244], [0x94ed780bcfc16536, 0x6a9739b3bd477733, 0x137d68f2a04a4195, 0x3a0f27e80032bfce]⟩,
   ⟨[0x7eade421358382f9, 0x490b9ca692e3d912, 0x40ce73ef1afbc2a, 0x5745d47311ae91ba], [0x625bed61ce303b77, 0x85b2a1eb85b03a1d, 0x764f62e43d7c02e0, 0x22c2d16fa7af6dde]⟩,
   ⟨[0x5b985de6d19377be, 0xaf85a06d8e43a10, 0x1465e5040519f4c6, 0x5da01665e3e20ba3], [0xcd9b8e9b675d9e2a, 0x4c77e1ad6448a2cd, 0xd6094bad1e5d4465, 0x4c352951c50db788]⟩,
   ⟨[0x42581152ee5ab903, 0xdad2dbc963311418, 0xbca4f70bb885e56a, 0x1f5dd363b94e0876], [0xf9ad5d043fff479e, 0xef1176e5fe06ad2b, 0x46acb00a216f77af, 0x709cf4eb857c4f78]⟩,
   ⟨[0x70cd666ed0d2ff1c, 0x4bad4a6ae7efe4ad, 0xb43f6c2d0fa72024, 0xd78f8e2e90c0617], [0x543b9662f80dcaa7, 0xb02fb3bcf28adfaf, 0x26c17651c51c54c3, 0x815f6373d648d88]⟩,
   ⟨[0xac4f43c1aea98fa6, 0x2d223416ac4398c6, 0x48b2eeadda5c5070, 0x632b65f1be666f70], [0x971d3bc0952021be, 0x9fdcb7e023b2c578, 0x476d47153cc21796, 0x4015565f95832a94]⟩,
   ⟨[0x8913afac13ca725c, 0xa56dc461dc18f0d9, 0xac3ac72010f3aafe, 0x5d75567ec628d69c], [0xc11be9dceeea4bf7, 0xad97fbca1c193bd5, 0xd1ec5bcec58123e8, 0xf6df9309c73d4e5]⟩,
   ⟨[0xe80a0adafd759ffd, 0xe52df94b239cafc0, 0x59640161fe7a43e9, 0x7a96995cdb1a38f0], [0xa46a15037cd5011b, 0x75cfb637ac0e9689, 0x27b740ca97aad2ba, 0x64a0748bead2f776]⟩,
   ⟨[0xb67e5bb50625b3b1, 0x2fe19ffbc66d2832, 0x47815666f70c07cf, 0x5a1aa24aa43e52ab], [0x4ee11f84cac0e66, 0x51e515833a3a4836, 0x46755f49b44f6dec, 0x6388408bc1e9b282]⟩,
   ⟨[0xd47aa9a69de7a6a7, 0xec94ad9b189bc9d2, 0xfa89099d8ec0e950, 0x1b9fc2069f64d27f], [0x765724840b729de1, 0xfe9e8e714be22eb8, 0x910f0456f9db5942, 0x4d018459c617d82b]⟩,
   ⟨[0xb082b58af5516c6f, 0xffba0e73567a8cf5, 0x8ff64ce8a6dd4a0, 0x6cf3c89c69a9f66a], [0x356782ba62feb0a7, 0x1a18720d3e2907f9, 0xf840ffa30bbd9d92, 0x41d9eeca20926421]⟩,
   ⟨[0xcf2e8aacb6b08321, 0xc76fbe12010d91c0, 0x5492475068e35e02, 0x74dba2e19aee00f8], [0x94c70d6dc5504e82, 0xbdf415fea1770f7, 0xda45b7003ca6db0a, 0x473c6a04e133a980]⟩,
   ⟨[0xd1ff6c1e1e188071, 0x621a7d3cea3f16f8, 0x604673076a160f47, 0x37ca7d3d32dc84ee], [0x54f5f7f667ddfdb5, 0x3a8482f9921ba04b, 0x842f49501a28e238, 0x3a4dc9177214fafd]⟩],
  [⟨[0xedd8360ceea25e82, 0x3db6d933fb7b7ed0, 0x882f3c0babf15199, 0x228664a2516e349d], [0x96e6dcf7e88173df, 0x382c8d3bd7ec0bc3, 0xfbff6d216fa5fa58, 0x780039802f41c959]⟩,
   ⟨[0x713ba43b9d9acf9c, 0xf59a252d94876559, 0x8b310954437b8ed5, 0x76a83790e474e98e], [0x84c1386af6040b05, 0x69fa9f43bf3d8189, 0x5584164ca98d4866, 0x6c89ce1d3b9045d0]⟩,
   ⟨[0xd6ef7540b522fb28, 0xdb561b56bb28d745, 0xc9f7543eefa58b87, 0x5f02a23be9062979], [0xfd3c0c196809d624, 0x94481554a92eb229, 0x72d8ec53f5147efb, 0x143026610d1ba626]⟩,
   ⟨[0xb35bd5989020800, 0x3c6f1527430d7deb, 0x9beb3c8e2fffa0e0, 0x7e181b78afd09a19], [0xe82fd9573b2f0b49, 0x4c9461b10bc0f9da, 0x87d78c412b1c8b85, 0x775bed20c1f5bda1]⟩,
   ⟨[0x883ae89b16350593, 0x85d429cb0c19fec8, 0x5938bdec5742c36d, 0x2ddbc7ebda8a21b7], [0xa249bde407a2e700, 0x42a3897ce8bd6215, 0x87f30ba7732ff181, 0x5385d7091b912c57]⟩,
   ⟨[0x2b5c555b288041f5, 0xd3d900401f425866, 0x37e40cd202e0fa71, 0x8b37f263a386038], [0x165bd7fb5de1ed78, 0x22949e810829ecc9, 0xbb8705ccbce3d01f, 0x7961be851d233cdf]⟩,
   ⟨[0x5d3dbc6b7659b477, 0xfd86577950ef08eb, 0x502729e8f34ea1a5, 0x1548526ed2b64602], [0xb13632fdb91d2675, 0x9a42003f7b37397, 0x37d18f37ccfc4532, 0x3faef63b73c7082c]⟩,
   ⟨[0x3365445fe666db6d, 0x9051fff5339a0076, 0x6167fb769bd6d01d, 0x9737137ca087b41], [0xca2193aeb3270ba7, 0xef0744c28f2217b3, 0x3e030d58f0dd10d8, 0x667246dbccb4f2f9]⟩,
   ⟨[0x31f3030e3773ec8c, 0xaf2b31235ad56010, 0xfc118587b37e9062, 0x52840c2c9c2d5406], [0xa96d3dff6670acbb, 0xf469982f772ec6d3, 0x5be20628a9df4c88, 0x59d01479673633bc]⟩,
   ⟨[0xc9223750afb5083b, 0xf1eb451e191c2160, 0xd913794a38ec005, 0x31062e9e83fd1d18], [0x70538f55f4816ad, 0x90d4855d925f5da1, 0xc0bba87b22f455b6, 0x517b5f80f48d2ae5]⟩,
   ⟨[0xd8b670a3f4fa7ca, 0xe29c88493d114eb2, 0x1823780d916a187e, 0x6961c48365ee66a0], [0x2f6fb20a62fdc12c, 0x51414e5f0cfdde0c, 0x16bd56a7dca39073, 0xcfe6daf648ffd43]⟩,
   ⟨[0x3789f4caaeba9241, 0xe8056bc6107777c6, 0x6ee564c33cb20826, 0x5df3634745448c69], [0xfd0fa84bb22ce624, 0x2aa19672ac753d50, 0x29a1464f677cc0d0, 0x7c2237b13cef5493]⟩,
   ⟨[0x87c2587c24255918, 0x9aa89a0b90b35a37, 0x9932eb7810e7caef, 0x49278f16cde31568], [0xa4d33c6141188ed9, 0xc587bde005ac3a1d, 0x2a5c5acc7248b5e0, 0x60026a1d8510d2cb]⟩,
   ⟨[0xe57cb0c96baf603c, 0x527f28a6ab770af0, 0x2850d8e6016f2bc1, 0xec2a46c936dc2ec], [0xa0bc5306d4f23fc2, 0x6dbeda2653a0130f, 0xb1d52f87ee3314b7, 0x17168b126c234cf5]⟩,
   ⟨[0x8b8bc181dadf17d5, 0x31ec3cadfaffa918, 0x4611a482274e4658, 0x5a9e365273d35ead], [0xba68825bf4028fc7, 0x142859d562e203f5, 0xce516ac41c817a9e, 0x4201468257223f8d]⟩,
   ⟨[0x51fbfb2eb4b66798, 0x3a3f15910ea9c4ef, 0x3fd3d026e8814805, 0x3ca531e4b0c8dfd0], [0x69a6b3f8e585a960, 0x1627cc77bd3f567d, 0x6f4ef4305db9cfd0, 0x5b567078d02278a]⟩],
  [⟨[0x6663f2f310b96338, 0x69373d1fce8ca31c, 0x3d31c5cfd67aec10, 0x2faf554516f2547e], [0xf6e397d51ea2ea64, 0x2281a0dfeeaebe7a, 0x72e53254fa2527ec, 0x660d059a76432155]⟩,
   ⟨[0xd3ca8b132c66d937, 0xc6f34b08cd2df849, 0x9af2c9e3a23a9f73, 0x24d44bd9702388e9], [0x8da4d6a4d1b3da10, 0xb9fafbf440b93b10, 0xbbe51bb3efcfd2a3, 0x68be03951844581d]⟩,
   ⟨[0xdecabd8c0ea1fae1, 0xa7499225fdfed7c2, 0x8489e35fb468b83, 0x5b68934443d95f9c], [0x9fc8364a9d2f522e, 0x114db31a3a5d27a4, 0xc6a35992e33a9ec8, 0x6fe9ec3bdc9acaf6]⟩,
   ⟨[0x98ae2d66deafc64c, 0x95aac8efabe706b7, 0xb15a6604223dfa3b, 0x77dbc24ae24b43cb], [0x65d6f8718542fa2a, 0x1093b2735d326a1a, 0xba82d607f137afef, 0x502b32e3b9dea6a7]⟩,
   ⟨[0x88906bd6885ca6ce, 0x136adf9a1d36bfee, 0xf844088c09aa61e3, 0x4e508ea351bac299], [0x251acd26eb821936, 0xdf6ad7d543d90e10, 0xebcd7046de7f14b9, 0x1db258b1ab503259]⟩,
   ⟨[0x348e301890ad5d55, 0xef6be737067806a, 0x72c113441627fcc, 0x48ee7606e904f823], [0xee6ab582d9fd5ef3, 0x57765d0317ab50bc, 0x1ccfb407fb7dec68, 0x2e1771c7141df51d]⟩,
   ⟨[0xcbdd6235a013284b, 0x4d93fd8720d07125, 0xb3d055b3d485418e, 0x4efb8763c67add2d], [0xec3693821b2df427, 0x2500979164d0ddf4, 0x9bd42ffc163056c8, 0x605277925b88beba]⟩,
   ⟨[0x6d5d6a869d82dadf, 0xc3ba9a167c24a1ca, 0x838167ec2e6981cc, 0x7fb5d8577e1e4237], [0x83b2c2fc86a40bc7, 0x679d2dfc6f9ac4fb, 0xb3714cde45455ef, 0x1c8d833d394a7797]⟩,
   ⟨[0x1fbf89614e641c9d, 0x3330dab0d951dfc8, 0x9d4eba4d051d96db, 0x27c6dbf023066924], [0xb950c648da5d1d79, 0x544d46ba5e9cd783, 0xfa77226fe69ba3ef, 0xa93d219e4da8423]⟩,
   ⟨[0x7c377cc65bdca76b, 0x7df505d7dc58d194, 0x18a24c0b13e389e1, 0x5e0782dd6c3972fd], [0x97ad477e6680fce1, 0x6b07bf223cbab792, 0xb8df3c73dc68c9e2, 0x33ab5a4cc04b2749]⟩,
   ⟨[0xd151c7627e79b5a7, 0xa4356b79c82c7b8a, 0x931ddde896e0a2e2, 0x40378eb252c54fdc], [0xa6bbd5e340c24003, 0xb4f3246e65c34fea, 0x780b21ed9c767a23, 0x5f1e95fe52bd7e83]⟩,
   ⟨[0x4f3453dfcf39f9c4, 0xa3e1cfd1b8cc2ca6, 0xe49bc49c4b898859, 0x4ffd7bd66c0bf055], [0x7de7604cd139ad1b, 0x6973f5eb2a3ce8fe, 0xac66ff97f9501ecc, 0x3d96f1e2a97d46cd]⟩,
   ⟨[0x70d5a0d06106eb96, 0x938e038f398c1fd9, 0xe66b70071f3a1aa9, 0x42bdb264f5bd9308], [0x4b3fd7545af84957, 0x9e3e17fa4e27dc6b, 0x384fcacd51d8560b, 0x42f00d11f8068c09]⟩,
   ⟨[0x794c1e6a7d5897d5, 0x4901097fdf72dca0, 0xded5b1920b01e4c4, 0x364ff58226dd41e9], [0xa3f92dcc32fca925, 0x8a1fb329207aa09a, 0xa9274bd3f512ae3a, 0x161c82bcc47b9007]⟩,
   ⟨[0x482ece3b7ae1175f, 0x97cac7e8bdd5dc6c, 0x562253099fda910d, 0x52a9893b9fc206b9], [0xad9f2a9205bb5aca, 0xb9eefb5ba3b65716, 0xe7bc173b8db5a8d4, 0x6715ec64399dae9e]⟩,
   ⟨[0x780796d15e41ac75, 0x3e165c784fb3a0b4, 0x198599ba237103e9, 0x2c04c3f5fa7ed86b], [0x29547da8ac9356f0, 0xcb345ab479eada37, 0x1d15d377a295bf2d, 0x10292c9d2fdc8131]⟩],
  [⟨[0xadf3b54740e1dc7e, 0x420ce2dd1c345d14, 0xc08e3cbe21dc5c2d, 0x79fdc0006f8fce80], [0x23ebdf7fcb105ce7, 0x793fc99d7c6794a8, 0x4ca3fb21293e3575, 0x7fb2acb97bf73cc8]⟩,
   ⟨[0x67db6c900fc8fcd4, 0x22a3df5f7ee3b705, 0xd50ebf8bc7b2edff, 0xc70104599522fb7], [0x1420cf02ad4f9044, 0xd78dba23e5b59451, 0xdfdc1c7f6aefd853, 0x560dee94dea1daab]⟩,
   ⟨[0xf2355132167a78b, 0xcf4637029f441927, 0xd0ae2723a3d1505c, 0x3149d858cd9fbff4], [0x2a73913af79240fa, 0xc904a575252a958b, 0x10d1819078473d97, 0x42ce7a38203bc8c4]⟩,
   ⟨[0x1d2ad4f2fa59bb8b, 0x8234964c79f137dd, 0xb63a305d02679e, 0x506c45be5dd7543d], [0x4378f900776bf80c, 0x179558b2b312f2bb, 0x5b15368cea37c183, 0x7593b19fb198e42d]⟩,
   ⟨[0xed723535defa1f48, 0xdafc48b87f96ee5, 0xaefa3ba91b1b52c, 0x56ba1b33a1adbea4], [0x8a0b617030a6c905, 0xc5ba3518b272d12e, 0x782100cf4b6643a9, 0x12dee80385c5bd2b]⟩,
   ⟨[0xdd07d2d578fcadd6, 0x8cb8e8a83b25c523, 0x25063508530919cf, 0x45d3dd541e24f7a1], [0x296ae89349ddaf96, 0x7ef3cde0ace559f5, 0x9cdf22e40d36f87b, 0x196847654ac9a845]⟩,
   ⟨[0x3955b5abc597b7ae, 0x59f3ba053ab49731, 0xbca5b117f525c6c8, 0x4969c13432050b8d], [0x353183d9970e8e49, 0x3d005213e95300cf, 0x595f9c8e09022378, 0x70fa8b471a445c28]⟩,
   ⟨[0xecc88ee3badb79ea, 0x5bdaf68cfbd8464e, 0x24af6a4cb4280334, 0x17a5de8b398e5bbe], [0x300b6deb92999e18, 0xa076691867defc2f, 0x4e904450b19f87ff, 0x3010ad94c2871056]⟩,
   ⟨[0x72e747a1461efcc3, 0x329edf18562f923e, 0x65e021d4d081a4e7, 0x4b2dbfffb727b6f4], [0x5a597a809c8505ac, 0x13486480562b82d2, 0x477fd480cc8234c3, 0x6045aba404800c00]⟩,
   ⟨[0x3e0874399c541035, 0x389aa76c6d9d8b6a, 0x68fe5e8336a21299, 0x67ac313d402a32cf], [0x996131d225501a53, 0x5c1b89dea77a85f4, 0xa9822c84ed6702ad, 0x50f014a456609ea0]⟩,
   ⟨[0xf0f8b4e6e5a8e91e, 0x734cff081a2ffefd, 0x9724ee0b27bcb163, 0x6af3808b30b8ef68], [0xe5b3829f126e88fc, 0xf441ee34ee5fd4b, 0x534d2f8cbfec4d34, 0x3e1f16de076e6737]⟩,
   ⟨[0x4db53e8a4ed36e6a, 0x49a9efe94352b22f, 0x7829605c39cf005c, 0x190a8e16d85db959], [0x699810699b073ab3, 0x8c264b878c141aa1, 0x7f614282603ed47c, 0x21fd2e7a9f9b0940]⟩,
   ⟨[0xc5ca10a01ec6bb3d, 0x9403e3f527a9b02b, 0x9d3d186dfb43f790, 0x7855276e67dc0c00], [0x53dbb2affffb14c, 0x2674666343acc0a6, 0x1ee7a9467ffc1c68, 0x14bfaf0156dbb0de]⟩,
   ⟨[0x11c89a47849ea674, 0x194faaf094a540e6, 0xe61163f86050e4c0, 0x6939a166b1a07b76], [0x8166ca8e2ef18325, 0x96112e6530c042e2, 0xa805cae05a394c25, 0x45a0de010392e6bb]⟩,
   ⟨[0xb89cee96b4faaa56, 0x7a7dc8ae529736de, 0x9158aa49a727fcf7, 0x621b8b311896b9da], [0x875930d603bec74b, 0x1056db45a7a50309, 0xee713e04b5657b0e, 0x2d68155e6fcad967]⟩,
   ⟨[0x3bb1e9e365b1e2b3, 0x2a61567088425bab, 0x22f4f32f62f1ba4a, 0x7b5ec25088a59642], [0x7b5ba12a42d30049, 0x4e6ac05586995be6, 0x4431a0445ec87ac, 0x28974ed7ed94823d]⟩],
  [⟨[0x5925805712bb5555, 0x3141cd8bb7608ee, 0x84ebdc49ef77714b, 0x6a45fc3ab5dc1a5f], [0x1f6dc2052fbeec76, 0x17eb733ba920c554, 0xdb022c217a28acdf, 0x6af16156a9b62bf1]⟩,
   ⟨[0x9379d6a880b472cc, 0x6cb08cb07bd92f27, 0x19b3c353147e6e12, 0x3c26cb2f26827839], [0x98aac9a70cc571e4, 0x75d05f2c3c8fc04, 0x718b55a0d79621ac, 0x149feecf5b94b41b]⟩,
   ⟨[0x6a150a64783f9c81, 0x5950c2df0fb18827, 0xf5d75504f15e3a89, 0x5f92f2f7fcb4406b], [0x665f31e76123e858, 0x4e568ea9a95184a3, 0x851eeadc505ff0ad, 0x62ad5ba6542c3ef8]⟩,
   ⟨[0x1103859dc55c23fd, 0x6ab0bd6695e4e9b, 0x2cd00d76dd734990, 0x5d59c693b06460e4], [0x3ba8f2f01f9c76da, 0x8e4a7ec960f5c0e, 0x79c82ad9e4aab060, 0x93d322c0df95c43]⟩,
   ⟨[0x88af12580c627547, 0x81e5f197889a5e12, 0x99e0e1917cbd84fd, 0x3024bce8db0b9711], [0x4075c80db93b1a2, 0x12f30af8628b0e63, 0xa3514f26eb25a4ed, 0x3d42e4897bcd0873]⟩,
   ⟨[0xf1c16c6754b236f, 0x717ce487594f5d3d, 0x7679c7daafad77b1, 0x51afd0146f3e724c], [0xafc9745c3af6938f, 0xca12bfa9c4e61cb4, 0x943b56969425cca7, 0x5bd3e65eb6e48a69]⟩,
   ⟨[0x2d23cf78deae74b1, 0xa686767e043bf2f1, 0x3afed34de464ade9, 0x1e4620735a6ae80b], [0xa86aa408737f7b66, 0xd67a0b49eab3b6ce, 0x6ff3ca4f275355f3, 0x6f385576688f99ab]⟩,
   ⟨[0xc9b63343fd2f9a72, 0xbd0a126dac267e8a, 0x818bd5d85d2839b5, 0x1bbab4ce0bf5afce], [0x2827b24a4d8b67de, 0x841f6bd3c34e6642, 0xe9f5c1c25e4a34d4, 0x4e98795cfda4177c]⟩,
   ⟨[0x3c9ff1c20763ab04, 0x4fc1be619832fcfd, 0x5fa50c388bd0363a, 0x14c9bb2ff26206be], [0xad1a96eb1d31880c, 0xf0a37bc465dfcf8a, 0x389627293d048fe4, 0x17125c06480b254]⟩,
   ⟨[0x1e819f598d4bac6, 0xd3686e0436b99d30, 0xc2876fb200a4a9d, 0x45d50c2fe65782d5], [0xb8316ece865b7a21, 0xa3adb90fcc875503, 0xd72e864e98468fb4, 0x13bb23fdded21f40]⟩,
   ⟨[0x653c3c15c6b96368, 0x9a42fc2c2b9c381f, 0xf06b41b969534d92, 0x46f7292e3fb7bed2], [0x14a2c42097d1875e, 0x45dfa824d3b2df55, 0x59cb7e593f2ba72d, 0x2eec65c9d7d96c98]⟩,
   ⟨[0x907cd4c849650405, 0xfc29320a37e05e06, 0x99b4c1df09e29619, 0x74e69bf834de993f], [0x62c0f296509d9797, 0x2e6bd4e65f1ef554, 0xe30506410d0b71b8, 0x29da0c9d235dde6c]⟩,
   ⟨[0x3cfbca4b689398c1, 0x11e5880440c9df13, 0x3923a39bbcdf2489, 0x3805ccc7387c8089], [0xc1b4eb4870319afa, 0xa6a5fa4ca089604, 0x16abde5473139a20, 0x7c0055e094bd61b5]⟩,
   ⟨[0xa5ab5cefcb05a02a, 0xc0b4e1b40bfe903b, 0xba528329eac9e7e8, 0x266c5a70a2456b6], [0x507e9a415e216eec, 0xfcc06b0ad0f1e440, 0x6faefc8ee5c7b26f, 0x4744cf2eb02f85c1]⟩,
   ⟨[0xf5e2b8121c291bfc, 0xc18e791d2cdcbf7a, 0xc386b96246554345, 0x373e00fb067518cd], [0xc9ba9df9e950051b, 0x182cb132dd6133ee, 0xd6d7f81570a3c71c, 0x44c5aebc7fafe307]⟩,
   ⟨[0x6c7ce359a9d16080, 0xa874386d1e8b643e, 0xa064812907f48e10, 0x2a40220193e4d619], [0x8b429545bd383ea6, 0xc096d593f2880536, 0xb4057d6c20e299b9, 0x303962ce38a825fa]⟩],
  [⟨[0x9e426ebf1e1d70d0, 0x6aea4ddcb83529ca, 0xf3ecd4627cc9a07c, 0x7f255c86c364772e], [0xdf212cf5613bef0, 0x771f02a91309f9d0, 0xe97bee39805fe1f5, 0x54a43430d93522b9]⟩,
   ⟨[0xc01553bdcde4ebbe, 0xb1928ddca02e56c1, 0xb91004ba94a1a417, 0x44f74be656cb9c88], [0x6a7e3e9b921b62e5, 0xf2bf553b5fbf13c4, 0x51cb776d86d55641, 0x71826bc56425a3ad]⟩,
   ⟨[0xd6d49f90c6d70ef9, 0x5bd0da6929eba0dd, 0xbba7571803233ef, 0xeb0959e679a17d5], [0x97818dc2b8a3d6ec, 0x9497fb0c687eaa2, 0x2e2707eaa65fa4c0, 0x6a74d4c67542f472]⟩,
   ⟨[0xd1930061ee0bc40, 0x7d7bee196dc98ba8, 0x1ad37c98447c38d2, 0x3e163ae1b6b4550a], [0x734e36c95bc93243, 0x54e217fd986c35a8, 0xf0576ff09e3285e3, 0x65c950c8186ee7eb]⟩,
   ⟨[0x1ab12c042012d277, 0x97cab84b83872384, 0x479c9cf51c66fcfd, 0x70abc8b4f276933e], [0xe6b15bf7ba4d14f0, 0xf4060ed322e2f5d5, 0xa53f3ca0cdc5462c, 0x593219d4c6fc3854]⟩,
   ⟨[0x9de6993472b6f8a1, 0xecabaeee19e16b3f, 0xb537ca5eda68d7b, 0x744628bdd3ce55b7], [0x3a5b2d8e98a95308, 0x74d0cef16758c6c8, 0x7538198ada204834, 0x1e166aaaa644e880]⟩,
   ⟨[0xe76ee7124674acf0, 0x40a6f6dedf9dfb4c, 0x91b0034c40c65721, 0x54fe8b8bf8e0f5e5], [0x6322ca0f75891895, 0x3d1c821e7d20c522, 0x1691407f08043786, 0x2c3083814847d58]⟩,
   ⟨[0x57def069b8f0c372, 0x50375dc30d5abf2c, 0x2290381475edfbc9, 0x56e39bd7ae37695a], [0xab74b187463d13f2, 0xc50cb8a23cde8886, 0x1efbd1cfb35f7d59, 0x1296c4821057ae42]⟩,
   ⟨[0xa350b57bc347e3fb, 0x4312eb75adf65129, 0xd9a7e2f47f9a6c9e, 0x5493af7b9bfdcb4d], [0x90a443dd9ac0e58e, 0x9777d58ac6f3beef, 0x12f00913965ec900, 0x2f6c5b59480126da]⟩,
   ⟨[0x70b907fcbad8c051, 0x54492d6ad3b4f608, 0xe3b46f1b2e096d9f, 0x522ad6d1747d472a], [0x8fcd161602dab5e5, 0xd3ba292f357b1c85, 0xa6db50cd2704f072, 0x63488ddf8341aa73]⟩,
   ⟨[0x99100a3d0fe2aaab, 0x7d30c4e98ea44560, 0xba458c672b4c776d, 0x2ec11420bba4d85e], [0xb1d9fba27a7aec55, 0x432ab2aa7665aae5, 0xd2755948f3bc7043, 0x2fc331bb82510ead]⟩,
   ⟨[0xaaf11cf946253db1, 0xeb025aedb0df307c, 0xcb7c22a57a82adee, 0x7316c3909c5fa97b], [0x91620554f518067c, 0x20a438ae3c96a804, 0xc4f9dcdf5b0c090c, 0x77c512db6e5c1b45]⟩,
   ⟨[0xc981e682fdd09ede, 0xc3eb36b7bbb3f57d, 0xa07369c6d12bf450, 0x16627566ce017845], [0xfd8dec909494af62, 0x7e79309653fd4b22, 0x21b8e665c8aaeae9, 0x526fa31818bc33c0]⟩,
   ⟨[0xf55d32bf853a2647, 0xd873ed6ccdaee8fe, 0xa3579e2b80e52622, 0x3871aba33d16fe8], [0x714804ac69925edf, 0x340755ff2b964ff, 0x93830f98da0d1a07, 0x2cab201ef7fb1e16]⟩,
   ⟨[0x26de3a3a22a8af77, 0xe77c3dcb45ba630, 0x34f00017fc86e7d1, 0x796abe2f1b62f7f2], [0x9fa092771663b5b1, 0xfffdc93f9b2fb9ac, 0x3aecd1a6b340d75, 0x5d55a168314dccea]⟩,
   ⟨[0x678aef02747dbd0c, 0xf0d47c1cd47a6c09, 0x6c2ac72f3fdd1681, 0x750e70646d789d3a], [0x3f970afeaebedd58, 0x6bba7956e3540951, 0x7cc461b23e71f6af, 0x7e51e548c45fed28]⟩],
  [⟨[0x4a598efb2ce2cbe5, 0x774cde0a89c9a51b, 0x2d003680ca907f34, 0x62c32dca9d3c7d97], [0x37b3a90fb3054d17, 0x1423574c67e58a5a, 0xf1d3bb1a4859fa49, 0x25f0af1c3f5afa63]⟩,
   ⟨[0xd3bf7f621fe53ac9, 0xce2b67c3cbce6164, 0xe081c57695341024, 0x32b0ef5d9a70ecab], [0x3ec93c853be1e5ce, 0xe25f54eda0cb7dcd, 0x9d6b57d7517965b2, 0x159f7ab0129b0b27]⟩,
   ⟨[0xaef88e95eefb67f3, 0xeaeb2889e0316ab2, 0x1491881fc2cb6753, 0x67dcdf28702789d0], [0x8282e0a711c0f3fd, 0x9cdcfdb801ba273d, 0x6bf1e04326279b95, 0xd42aac685852777]⟩,
   ⟨[0xc4ce393e608981ab, 0x210e20f852141cb0, 0x22c2586d6b9234b5, 0x52f1b3664366750e], [0xe38ed0d9760afa55, 0xa43ff25ab5d61a08, 0xbe3a406b5e21691, 0x37b47a28fd4e17b0]⟩,
   ⟨[0xc46dc6d44c2c65c2, 0x2a0b452cc54be778, 0xaf113693f727070e, 0x7b229cd8c68d13a3], [0xf63097e02d43e4b, 0x912f8d3355627fd8, 0x1ebf39612a0dd9ae, 0x7fd33fdef0294b2d]⟩,
   ⟨[0xc72411f5d0cc6d9f, 0x66e04c909b92ff84, 0x678b4f8e1c033b6, 0x5a99f270e49a972a], [0x3743bcd8d265a4df, 0x7bd6ddf4ce0404c3, 0x4043767f131750a5, 0x4a7d89839dd65652]⟩,
   ⟨[0x535bc78412b7822d, 0xdd32dd67f1f9b703, 0xffdbf0eb2eaa2a1c, 0x497c09faf64e9822], [0x18e717e932ee2a36, 0xf01cc4f5583949b1, 0x222ee9740a168755, 0xcd14cd500c81ec9]⟩,
   ⟨[0x7ae0bd1114c79cdc, 0x67323d1a6dc08c80, 0x2fd1abc70ef32432, 0x65923246b0e08ebf], [0xa9fd3d7c0754ece, 0xe76b26245f8644fa, 0xf1f0beba0f8bb385, 0x73251f03fc96778f]⟩,
   ⟨[0x197150ded08795a9, 0xad6935aefbb8b9cf, 0x721186823b2b9efb, 0x265b288dbc2b7240], [0x7bf2eb362f78c431, 0xf03b83caf2a6e469, 0x211592564740e74b, 0x35be57350490f0b9]⟩,
   ⟨[0x207f33b2806c1cae, 0x4249127dac5ade0, 0xc4ccf33e1cc59de7, 0x2a17b520272bd6d7], [0xc36f6b3cb48f6585, 0xd32a73790861acf5, 0x28a12ecb2c3291c6, 0xe945f95f02a88d0]⟩,
   ⟨[0x4836ec01d3b3117b, 0x4c197454a4c2fd72, 0x96fced51f9897721, 0x142028585828c97d], [0xca7aced8774755b9, 0x460ff58297252559, 0xaae457765796dd63, 0x711c916e346ddbf5]⟩,
   ⟨[0xa60e2e7b5e203692, 0xcfc72feaf3bf2a45, 0x78729d2872ac0436, 0x3e16dd8b29abf199], [0xb1705aa615a41f3d, 0x8c7512fe308ab87c, 0xa27411c503995381, 0x3142403ca780ced3]⟩,
   ⟨[0xe4473e94f1718c7f, 0x601bc194a3cab6cb, 0x8f3540f8581d491d, 0x456a9b7c43c15321], [0x6f335a2d593bb7ed, 0xb6d5a23f7d791514, 0x976d2f8379235ead, 0x7d02ea0f44775c97]⟩,
   ⟨[0x322dbc8ce5ec268e, 0x1f2f6050be14bf5c, 0x58ac6397eacf6a50, 0x4167cbd5a5401081], [0x8e6f06a1ee5b4bf5, 0x1a6073d56b2f790f, 0x1c09ff3d4f901250, 0x286af8d7e6b40df4]⟩,
   ⟨[0xf74c805706bd53ff, 0x4fce7281e5788f0d, 0xd6a867ac3d015e6b, 0x4aec38d6e185a42], [0x8dc12b74083d65cb, 0xdb1aa8ac82966668, 0xbd2233bf28af1b90, 0x544569a7172cca11]⟩,
   ⟨[0x9c56fca8149bd0bd, 0x2b4ec788a05f8e44, 0x1569cf6d92478943, 0x67e373e857380986], [0xf5cc8232ed3c14db, 0xe3d184b0f52eaf83, 0x195d41370bc64038, 0x77994388778c3c20]⟩],
  [⟨[0x3daa0c47a0cc77aa, 0xb9794e747c69cdf0, 0x3610e50b4549f5d4, 0x262ca564b8a112ca], [0xd5ec795e554e8714, 0x73ee5502717ebef3, 0xe36e8a1a1947a478, 0x3fbe43a342adc59d]⟩,
   ⟨[0x4de78909021fbcbe, 0xa76a5ee20bbbb324, 0x5b86519acd67810b, 0x4cca44a23710a4ee], [0xd79a121dcd1f8bec, 0x2e12a772dc9ca10e, 0xe301ca3b8c9e9640, 0x4b25fe18b731a957]⟩,
   ⟨[0xa05da2cdf4ad7264, 0x31336489076977a5, 0xc1d269bef2e576a8, 0x1e877adc7532203f], [0x9c9961bc8b92972c, 0x7ba072726a14d810, 0xe51095a906913136, 0x4674896930e0ea8c]⟩,
   ⟨[0xdb8ef3463c73ba49, 0xbf2213123720570d, 0xc07b3639605db0d6, 0x44fcefa6300336a3], [0x121fac5c2d234592, 0x901dee8844e367d7, 0x5b5f3dd61caa6a3a, 0x72e474ecac2f6e64]⟩,
   ⟨[0x15690beef55be61c, 0xe42b945edf2678a2, 0x60a5c8aa3b7b1776, 0x16103fbceb9ab938], [0x79722a1e87ad06ab, 0xd7b509f6d6b632a2, 0x8c4e8b2e3b69eb40, 0x6a50958314db2225]⟩,
   ⟨[0x169f35d893b78659, 0x989b04d28eff83ad, 0x72cf7338a6ae4806, 0x6e156c84f4aaa524], [0x33a608eda1ed5cb2, 0xce274a64c3d28716, 0xfcf1b17045f0435f, 0x101d1bdb1653d6f6]⟩,
   ⟨[0x45bc931d2e5a67d9, 0xaff02c11697da479, 0x7c7972a32ea3e6e1, 0x71a17d505e97bb90], [0x962e84f219ad4c5e, 0xbb8c9fc7692020be, 0xa78fdf2ce7b36665, 0x7ac84ed426f92e33]⟩,
   ⟨[0xbd85a9eec3c9e5c1, 0x72030baa6ed2fd6a, 0xb67185ab39cffb89, 0x3e2e51a4833bf770], [0x248fa3485e27d5bb, 0xf8d435962e6d3dcf, 0x7f5b93c0c8daf81, 0x6a7ffa1dad2fc97d]⟩,
   ⟨[0xff308faefaea33f1, 0x5f29dffb3cc4c7cf, 0xb9ad4527ecc5a2b9, 0x8b95af6048d4b38], [0x56bc43a8dec152bb, 0xd1147b9a3849d869, 0xfe5020c2d02af3b7, 0x54c02b44b918496e]⟩,
   ⟨[0x1611ecfd0b27468d, 0x4afce3290513a562, 0x982782fd2fe74eed, 0x66ac58bf17add2ea], [0x8277bc2d613581d4, 0xbf5bf0c988d1498, 0x8a37134d55c984cb, 0x409a79cc92211390]⟩,
   ⟨[0x8c0081ae816f0462, 0xb431dc245a68bfc2, 0x25c769c65f78c8a1, 0x3be0458db382af14], [0x10583083a171adf2, 0xba5d532537f7c39f, 0x76b03b945eac7585, 0x76159aac9c2df2c6]⟩,
   ⟨[0x886c73ba918e0332, 0xf6fec62ad24b5b52, 0xb98759b436b4d23a, 0x5ec5b3fe5480acf3], [0x30ff297d6dd175bf, 0x501de74475f2b9c3, 0xdebe47caf19230c5, 0x7401f20932bbbb62]⟩,
   ⟨[0x80712e4722496d1e, 0x36a0ef37da80af1d, 0xaf6ca51c940e5e9f, 0x74e17b6f722d9d22], [0xcb70b878b8b3ae1b, 0xbf8b9a0b07df974c, 0x89fcc996f68a4bf4, 0x46f581e86eb0fb2e]⟩,
   ⟨[0xbce0bd6c67137153, 0xad3e92b375f64b78, 0x6454cd1dfd047dd9, 0x181c93eb612ae472], [0xe575307e23a529c3, 0xb9c43a0b59c09eb5, 0xfd233a68aa805840, 0x67c442ea122ffb9]⟩,
   ⟨[0xe1f3f76f2cd6762e, 0xfb68650f9764b53a, 0x4e90ac72f1224580, 0x2bf68f01127eed48], [0xe6b4b40994d389a0, 0xd7bc8108d44593d6, 0xdcf0399148a86677, 0x4a52d961cebce3c7]⟩,
   ⟨[0x55734ab5baa873ea, 0x506de4cf7871f323, 0x7c3f8b00578612c0, 0x730d4b8a9243c9e8], [0xa3290689d385f6bd, 0xaf688c6a913596f5, 0xa2d89b5b646be23, 0x31891165f63a6029]⟩],
  [⟨[0x331f9e57579583c0, 0xe92abadf69c65da2, 0xc796fbeca5b8b057, 0x52e6f9c9312d1e89], [0x318b1dfda68dfd3, 0x8baa2eb3a1cac4f1, 0xcdc89a2bee7d6e1, 0x6102de7a22ab50f4]⟩,
   ⟨[0x2003d83e20c707a, 0xd819249c28289d89, 0x3fbc00b172053ff8, 0x249c43cdf40d261], [0x8794eeacd8f064af, 0xe2359e70dc9f0631, 0xd1603647ada310d0, 0x6a9e3785edc888ec]⟩,
   ⟨[0xf332b384ec41908e, 0xf3274472bde4760b, 0x96185e89140d0ef4, 0x5646208990e698e7], [0x841a31c5f2e64396, 0x8f494ca503c4118f, 0xc98a4c31a188305, 0x1c4b5f6298aab1ab]⟩,
   ⟨[0xddeeebf85d0d8381, 0xd1616f4889044363, 0x2ee41d4721616a13, 0x2dce61104bc769fc], [0xe3707a0116c1c468, 0x3b674187969af612, 0xb64bd4d71e0671cc, 0x7ef01dbab98c297c]⟩,
   ⟨[0x91dcbf99815381ac, 0x8d711f5838b67b97, 0x9c11f5959c6e322c, 0x4a688d0be31a782f], [0x1297d9f3dce93f5b, 0xa79561947c1dc62a, 0x340f217a5f718f63, 0x71f84529fcc0ef6a]⟩,
   ⟨[0xd968e503dd00963, 0x5e696d79d7ff66c3, 0xaa52d60d499a9be2, 0x72482c45cdc289de], [0xc84968f57ffaad3a, 0xee91304cf7cd5bed, 0x684936760a7cc7c0, 0x3411afa780023968]⟩,
   ⟨[0xa0aebc706e3294c0, 0x93263942dc385e50, 0x7b90c0028467fb06, 0x29477ca438cfd0ff], [0xadc04d8192a748d5, 0xae4f309d76cf3ae5, 0xbda34bf04bb2c2ff, 0x65138897368536e4]⟩,
   ⟨[0x9cb8f7d66fe6d4d6, 0x6c2ffbf5af246792, 0xd5a4f34981524707, 0x3afe45ce36766d5e], [0x41991b49513ba267, 0x6ef1eea6c18aa5e, 0xa51763588ea2099, 0x32d2b5e2d245b88b]⟩,
   ⟨[0xae38cdd53f517c5b, 0x1c94fdc5d878feee, 0xabf7a41dbefce107, 0x33bf3fe9d408dfe8], [0x4f2e6ff0947cb8c4, 0x3a8e86abf998c5a0, 0x3adc6abae359209f, 0x37a2de1bd9a50051]⟩,
   ⟨[0x424f4e34e718f6b9, 0x50b1a03b75c58eb6, 0xb949531491390e27, 0x4ae0cc3a880e78d8], [0x10331afaf1e4413c, 0xe7a3e554ddfcd2f0, 0x44f6de850ebf484b, 0x6a762a7e895d0f54]⟩,
   ⟨[0x8e606b0a8d0558f6, 0xaada76045c4dd930, 0x5b2fc7adef4acad0, 0xd969ad087f5b6e2], [0xf9a182b25974e67b, 0xcd8232e723b4009a, 0x3d8f5ddd285bcc3f, 0x114ac56feee1b9bf]⟩,
   ⟨[0xd3ea1b56aa45085a, 0x5de7bb70d314cedf, 0x8a74384c7bccdcfd, 0x64b80f8a8e0e0367], [0xa9ea432b48884ed1, 0x51957a8f8c0ba810, 0x9e88340039e810e3, 0xa73ed5a28b2051c]⟩,
   ⟨[0x655212a313c30826, 0xae53668eb73e8660, 0x6c33b649ff108cce, 0x39e0b11821d49681], [0xfe4d215270525312, 0x2edce32bffd18749, 0xfed19b1cb04d3fb8, 0x4dfe216b2b225a9d]⟩,
   ⟨[0x583e8a6c4c70f8a8, 0xc8206231954a9ae1, 0x9360b592b76517b1, 0x362c5c5ceed10cca], [0x3dba95953d607921, 0x188a5d65a6ecc40, 0xeab43c16cff4ade, 0x1f3673aede3347e0]⟩,
   ⟨[0x7300c4b3796593ee, 0x607e7e76d8d926c3, 0x1762ce2677f9fd06, 0xd0478b3cea891eb], [0xb11297912618b09e, 0x5f9d290d33f928c9, 0xe3192631e6178db0, 0x21260ac808576d3f]⟩,
   ⟨[0x899daf2a76968e1c, 0x519dea9f9c2b3e7, 0x5fdadc3893d0bd4e, 0x467bff743b4d98f], [0x651c316c6f3936c9, 0xe757689aaf27df8b, 0x3ab037eaa0fa9188, 0x2f8b039bd927b60a]⟩],
  [⟨[0x72211bf5de876a70, 0xa836163173d121ce, 0x2385272123d419e4, 0x3f56d47edbd03345], [0xfb0e91a5d6f05bac, 0xa0e02bf6ac9d0f46, 0x5ed9ea2c97f1812f, 0x172f564febd5db5a]⟩,
   ⟨[0xc790e91281f11e58, 0x14a1763099a5dff7, 0xf6f30f2f1627516d, 0x522cad8fefcf43b7], [0xffadd45e6ea01128, 0x5d23234cd61d1964, 0xe9212c852802df86, 0xa3d237b92aa8da3]⟩,
   ⟨[0x2ced05f4e50ed356, 0x1cbc7fb1bffeef3a, 0x885991b1be19f0f0, 0x6ded0794de44a492], [0x9967e83444cbecfc, 0xb0674a8d6a792ed1, 0x360e2de4b7ddd557, 0x26852a7470e95d26]⟩,
   ⟨[0x8cbc15203a6e2116, 0xf09327dfbf285bbe, 0x8c7d9ad54a54d3c5, 0x778f54e66bd2768f], [0x9b489f88ff3dbc0, 0xa0fa7fbd2871932, 0xabb9dc38e0a8cec4, 0x2ee092d821e37a50]⟩,
   ⟨[0xbb9256e7af6d88d8, 0x3cdcb1cb0a218927, 0x8e5b744af216d6e6, 0x6f0617f2bc885afd], [0xfba9cda7268397d5, 0xc61547165d4c75d8, 0x9ed8d17b43fb2cd2, 0x4d0ce3fbbe45bc5c]⟩,
   ⟨[0x4259bb02a38472f5, 0xfafaae0315107d0e, 0x2b8e450ecf0cf2b6, 0x788674c3ed887c3a], [0x1f3ebd594b3d2eac, 0x82cb568475e41b55, 0x5ab76bc02be49a, 0x6f13add2f5f90fee]⟩,
   ⟨[0x116374a7afa7161, 0x8a1ae4482db7f824, 0xd3c0da12db656a22, 0x7b095b95b989204d], [0x24c35202ef8f21ca, 0x91088da72da5a5a1, 0xaaf1944be3f97d68, 0x245d28487c884134]⟩,
   ⟨[0xd80c65d668f5c702, 0xe2fe245f021a2974, 0xfb8520e03a11899c, 0x4806d1fa2be6bf88], [0xf6f8c11a20ed235f, 0x52ac14247f0d651e, 0x44c3c89fdb9cf6d6, 0x6762516db2e2e41f]⟩,
   ⟨[0x2743d874fde91600, 0x60975fd5cdf00100, 0x78acc8642d2954f4, 0x46b9e60256373454], [0x7586a9706f0fb867, 0x888e3677242df35a, 0x5a639e79f1460f62, 0x1256517e55297dbc]⟩,
   ⟨[0x3f78339b7b9294c3, 0x5ba765d1bce77012, 0xa88e0cd8512e39e2, 0x2d63e14bf6ba6a6a], [0xf849a163ea29071b, 0xf32519b74c0a2e22, 0xea5d1315561c35f5, 0x7041f515d9267dca]⟩,
   ⟨[0xe01e839f1fe56e6b, 0x3e473d8c4a93ce88, 0xc4846ecf89aafdae, 0x4111d97a07d946ea], [0xc20881f651a45f02, 0x14c2ac95b9cd841a, 0x2fbe8329f2cbd929, 0x1e8b7469c812608b]⟩,
   ⟨[0xb36a5d03007f0a5d, 0xa7e7a1a85dcf7af4, 0x7227f4c5beb12afb, 0x462277924d276783], [0x9ea64d4c48403b93, 0x58ea31bc0b333ed5, 0x2d6dd219c5c93119, 0x385023a745069280]⟩,
   ⟨[0x8ab9b9eaf60c46af, 0xfa1d3f08e8b827c2, 0x78c6bfbc1bad41db, 0x527a0bed23be0c1e], [0x66212fd26acce641, 0x86125b0dee6f78e7, 0xa2a0271858552a8c, 0x594f2b777e9605c5]⟩,
   ⟨[0x3fb1f6cf88a27989, 0xbc4962f7d96268b8, 0xbd8761e9b95e2a36, 0x64ab934a046dec63], [0xc64d1c592e53cf1a, 0xc9865a9b578c5e8c, 0x5eca62327a0359de, 0x127dd136fb4685e5]⟩,
   ⟨[0xb0f7b0711ae320c9, 0x9bf89bb52525203, 0x97b20027709c5692, 0x16a62485edbf6175], [0x32c18836394c50f9, 0x7d99468fd3b98c19, 0x8ebe50962e8d2729, 0x4e75b3cce655f093]⟩,
   ⟨[0xcbefd1a29eae827e, 0xde2d1234fbf4630d, 0x1b3adcf896086cda, 0x43d3960e2ea6cba7], [0x18321d1d1cb5a0f7, 0xdc94c6f947beabb4, 0xfbacc6d575af6ab7, 0xee5d35789b98e86]⟩],
  [⟨[0x3f01b4aa062e0994, 0x994b28b05c952259, 0x2678f8b80cdeec70, 0x4d06af84212436f3], [0xe9df52fd1cf27a98, 0xd56b9fd10b7718f7, 0x728be624d9aeda0d, 0x98710881a646888]⟩,
   ⟨[0xb1bc922d9b586b13, 0x6c084c543ca3b1ba, 0x54d196c7cf322698, 0x6ec3a5585d527e1], [0x69187102a57caa1, 0x6aeac07d65fd0f6b, 0xb66a34d70f512f84, 0x3860c002a44e6452]⟩,
   ⟨[0x17263b260881608a, 0x78d556aa56c18a7a, 0xa0826a1cac3a47ab, 0x61686a58b6933ff5], [0xea9d8771dbcf2c4f, 0x1c66eb026ab00426, 0xf8daed2b401c466a, 0x1ed0a99adaae8040]⟩,
   ⟨[0x31effc4b7208e58a, 0x28868456b4e4319e, 0x1059c249d46ac4da, 0x3589d2122279b362], [0xb28b8fad45552e92, 0xc9e32541c3ab8098, 0x82604904f14b35a1, 0x1e64a89fdb68c214]⟩,
   ⟨[0xdf0e223dab6947af, 0xe74ef1d6771670d0, 0x70a9ad21f429f03b, 0x7cb1fa1f1385b8dc], [0x25abc0a769053d24, 0x207fe30a6369d02e, 0x57b76e3cc6e4ec2c, 0x2e03d2e3b927cab2]⟩,
   ⟨[0xefa377ff622d57ae, 0x41532f56a885951a, 0x5ed89aa7cc69b9a8, 0x60bff2ec295f5e84], [0x411d65c31e5c3041, 0xdb533f8b4b7772f8, 0x72cadeb63bdd4aea, 0xec79df27c49e454]⟩,
   ⟨[0xc39332c81d0b84b, 0xa76a9a3a95ff472b, 0xd12feb9931db2ba6, 0x4aab92223683e53a], [0x56cb18af24fc6271, 0x671581d62544c72d, 0xcd136492fbd6f4d1, 0x6c2023183579ee09]⟩,
   ⟨[0xedc5af02c103c348, 0xda32344e155a103d, 0xff3a7679b0d1377e, 0x1609197268f02750], [0xd4c6360dd9e9c143, 0xe0aba0ef968ee990, 0x5781687897e4c9ae, 0x5a4d167b9d63e32d]⟩,
   ⟨[0xb04ba52550e25802, 0x11da36e66912f15, 0x8d8b68019e0a182, 0x66aa4ae82e462b0f], [0x3227c3a6e0b9d283, 0x9bf8c4d0f2b2b096, 0x1e51416cba809eb7, 0x68411b752a67d346]⟩,
   ⟨[0xe55b134837a67f3b, 0x5e32d73c96484391, 0xc3f804d56256b91e, 0x67f17a4703b0783b], [0x2010efebdd2334ad, 0xbd9965b5b10ff052, 0x519cda6df58aca52, 0x45beebe2fd3d394]⟩,
   ⟨[0x81722e2cea271bcd, 0x393c082e0a4f1342, 0x573f7cd553b345ce, 0x7ad71fe23d7b4292], [0xda406d0ada8becb8, 0x14fd41ca82fe66bc, 0x80a410620a91dffc, 0x33e38e10f4f0cdeb]⟩,
   ⟨[0x234bf382529532c, 0x9f5d6342a76cae3b, 0xc9944cb3b3c50442, 0x51752df08abfaf17], [0x2bfa58c4a37b13fb, 0x19f80fdeddb14951, 0xdc7026aa7dcb927b, 0x57907272aab9fcba]⟩,
   ⟨[0xce38712df3c046c2, 0x21d1fdb047b29d0e, 0x7f746e0ecd96d414, 0x72f07b52636cfea4], [0xd8fe94fece6382d, 0x9bfb4cba24229ca4, 0xfae55b77e54388b0, 0x74ebc32a188299f]⟩,
   ⟨[0x8af2ebcde21dcca2, 0x9916a6b6377487f2, 0x607dc19ad8051d40, 0x7dfd53f4419dde12], [0xd17d0d619ad07924, 0x14f7ce0f173e266b, 0x687fb8530281c9eb, 0x6b35cc1a3361b273]⟩,
   ⟨[0x7cd6369e16e02de3, 0x118ee0b11f35dfbc, 0x7d8c8dbd98b3ee60, 0x39806fc8d29ea17], [0x3c473872ec2c2597, 0x81294af45e4ef521, 0x5ed048dbc22a9d7c, 0x3879e95b0a08c4d4]⟩,
   ⟨[0x206e47f96a864fe, 0xc94f137aa55d0631, 0x9c1b3d298e8408f8, 0x150a4046b9193a5e], [0x4e8f9345cb1adf21, 0x6ed14d8a7bd5e1f9, 0x7082532960809f68, 0xd2f1c3bfa85a06c]⟩],
  [⟨[0x3c5abe75b5c810c3, 0xea2c3ef9e28f1e26, 0xeeb1c5688bf68280, 0x5a165ceb7ae69110], [0xe36c646044550df1, 0x6fb4b108db909258, 0xbfa1427717d4d8c5, 0x744caf23927976d8]⟩,
   ⟨[0xcbe70df947ea55c7, 0x8f8119ae535457ae, 0x1e3c69ec7dafd732, 0x1a2e162d39d409a2], [0xbd7576a15f81c227, 0xa040af9ec86ac2c3, 0x5690c059c10fc749, 0x20b26e8849cfaec6]⟩,
   ⟨[0x87aebd1ee3ef781e, 0xbc794a621609a1f0, 0x96d8314226e7f61b, 0x5198577ffc51d17d], [0xbfb5fae28e6d0124, 0x91a7172bffd5bd72, 0x474b015402832847, 0x4baf0b4c59827feb]⟩,
   ⟨[0x5eadaa8eba090294, 0x51401bc911a6e9fa, 0x78f117581d2594cd, 0x1811ad3082d203c2], [0x554cc39a53fd07cc, 0x55fc983c7a05601, 0xb3b34e95d5a80b4b, 0x72b4cf941819bc16]⟩,
   ⟨[0x750e4f0514fafd0, 0x297d27e6ad61c7b1, 0x701d743fa2d5d410, 0x535dd97bc83b55c9], [0x2ee96dde1cb11bb0, 0xecea32ea0914450f, 0x4fb812364cdbda6a, 0x5b75b6b2233c8063]⟩,
   ⟨[0xf0a934a6d69d6c6a, 0x313e89773cc80ac9, 0x74692b171e428b71, 0x474fefce1be662d], [0xaa2ff6dbaffbf61b, 0xce1594e1776983af, 0xf00c665b4d5a2596, 0x30dd24497d414b9a]⟩,
   ⟨[0xef862da2acc44ab3, 0xbad6857f6ee7a44a, 0x57674bf9d2f9027e, 0x4d771cc32abf816e], [0x27befc18ac0f1348, 0xd83112ef5e4f1202, 0x3571bde38e9aaae5, 0x7284830c1379b13]⟩,
   ⟨[0xa4c2f36f72a8890c, 0x22df0e815824b392, 0x50fad77f5e720240, 0x1d152a6903278f96], [0x25a3e92ea7d80f17, 0xbbf85b327ef32666, 0xbbb5568727222e52, 0x756d22a67582fe42]⟩,
   ⟨[0xae7493a9bc9eaed, 0x9185f53f0ddbb275, 0x1585d068c3dfdba7, 0x543208a1562e2455], [0x4c417d81cbcf9535, 0xd2dc38d3e35dd6ed, 0x9df1e014346f03a4, 0x65736e3ff0e772a6]⟩,
   ⟨[0x58684a7bcfb7ff06, 0x72cc4afec58e6316, 0x2ca9bf30a8bb508a, 0x61576519e2044c8c], [0xe78fad3d8ff6d2b5, 0x6e5b839fa934c7b2, 0xc1f3d367fafa9f9b, 0x637cc398f8b2afa4]⟩,
   ⟨[0xd6fc1806fe2b2639, 0x1db199b49e98a7f2, 0x508763dc794f900, 0x363f1f7d3232e5ac], [0xdcf2ad74bbdbb351, 0x91f2eaf15a506bc6, 0xbde8459eb850088b, 0x52df883b3e1135af]⟩,
   ⟨[0x12fd053af93779dc, 0x3e3d87289e319e46, 0x4d631005e5e360ae, 0x4a8b5683b1b29a30], [0x305e5e53a8ca45ef, 0x59eacb45c2914843, 0x83677b7a1988ecea, 0x63d9cd36d6fd53e8]⟩,
   ⟨[0xdf2dacf2b77eb45f, 0x3c1303e355bba70e, 0x5ab8eb424526a06c, 0x4d4fd2167fe06bbc], [0x98c5adcfe1486abc, 0x9a503bff07f86f3a, 0x7cebaecb56282e44, 0x4fb090371f230da0]⟩,
   ⟨[0xd1a3738427210752, 0xd10794d602cf1c74, 0x48a2095a820cc08c, 0x6dcdde2ee3284b9d], [0xb8c7203e5d40510d, 0x957e89825385e3a7, 0xd220be2fe27d7c13, 0x2d104ac57b471b5b]⟩,
   ⟨[0x3b31d52bba0afa8d, 0xfa9639f5dcc85f88, 0x150146378861ddd7, 0x31c222db7b5443b0], [0xe2618546c3cdd689, 0x7f3fb754d528a130, 0xa0915810ac5faf99, 0x3863b890e9899ce5]⟩,
   ⟨[0xbdd42ca3579c4353, 0xad30567d4d65cb5b, 0xe343f216d91810b, 0x65e0092d42e19816], [0x76154dccf84e8c8e, 0xba147ca80ba4ae59, 0xca8085e756a1a71e, 0x1d90b4b01a158536]⟩],
  [⟨[0x5c4b7438f8b6c26a, 0xc17a41b645bbe80, 0xa386062d40cf3d85, 0x563e42d2e78f776d], [0x4bb8e3561f07459b, 0xf01a24b775d222cd, 0xbe3d032b24cf3f61, 0x759b01670ad5f3a3]⟩,
   ⟨[0x2f5aebd17d201aab, 0x7b14cbeec0ae02ad, 0xb9b54430edc6388b, 0x69e713fbb622e01f], [0x4630ee8ec5361565, 0x6705961e5c8fb479, 0x125cc97e07c2aa45, 0x4bc459f425ae3b12]⟩,
   ⟨[0xef02549628cf94e4, 0x4cfab259db24de6, 0x52b8c734c62254ef, 0xf2fe922568ab164], [0x48551a05e3f39b40, 0x4a36865f31a7c7f6, 0x4486512c840441ae, 0x559c6caf8c7c4b4d]⟩,
   ⟨[0xfcc0d1da0f103030, 0x7a9f1d5539cd584e, 0x3efb9b94681d0d37, 0x3ae97ccd4d842332], [0x85a8ece13c03676b, 0x30f87753ad435a1, 0xf6019b4d7f2d73b5, 0x6b77e31a2f14f911]⟩,
   ⟨[0x65c8161b9186c671, 0x412c3cc7cdff2f8c, 0xbffc17192c2fea33, 0x75dcf68bc3675845], [0x476afbf3b23d576, 0xb20caee219315f79, 0x1bc2a8590885471a, 0x410ff6cfc328279c]⟩,
   ⟨[0x327394d960569d94, 0xff2aeb6a6ea39d95, 0x1bed71e8ea0ca3ae, 0x1000a81e21072a94], [0x368ea22973c02416, 0xdf5b2a420a4941bc, 0x4ffdc7b8d0d40b3a, 0x7b2c73f148abab4e]⟩,
   ⟨[0x90fe34e481ee1072, 0xae7a2ff4310e13d8, 0x6213d3b1cab3927c, 0x44936fbd7dc7e9ef], [0x3b898ef323a1bdbe, 0x3fa6c6a054cc7b1d, 0x41bcc3b5c6ac54f2, 0x1ab5d168dc10ae39]⟩,
   ⟨[0x1aed113cfeaf67a6, 0x4e3c7a1342ac459, 0x65a392787a99dfbc, 0x3ecbc6b642329ff], [0x799f4ec5a6a4421a, 0x44522c26bee18b3c, 0x1c7bff151975c4bb, 0xfaa03bee6a27857]⟩,
   ⟨[0x173ab9e00743ff7b, 0xb11187ae2cfc95ae, 0xca81bb2e9c112049, 0x6b811db6c03555d5], [0x76c1fc144fe32256, 0xda8c5a96d0e47c4e, 0xb645d41329fdb01c, 0x78898447ac39502a]⟩,
   ⟨[0x4285ff329bf44b35, 0x207f9029e3358c7f, 0xfe8f03263baf4ce, 0x698a0398ff15e1f7], [0x548748437e572df6, 0x746835199f43c07b, 0x47bab49e0a433d6a, 0x9ed8740fab5c858]⟩,
   ⟨[0x8aa5e5c91f6ca820, 0xad290a94d3c25bec, 0xdc4c67bf3ba255f0, 0xd7ef7d91dedd8a9], [0x831a26f5eefd1c3, 0x78ca66f504483e0c, 0x9d5a56122faac15a, 0x43b0c7e75d6facdb]⟩,
   ⟨[0x34ba537c4503899d, 0x9debc8f52af8ed3b, 0x396995e984f416e6, 0x77f10fedc7bce392], [0x65ccb721f8af262, 0xe220ed60d2f00fc4, 0x41a5fb065ee25b46, 0x22505574dd9070b1]⟩,
   ⟨[0x571ff15144bfc5c0, 0xbe2558b83138363c, 0xb2211abd605e356c, 0xb6435da176c5f53], [0xf18c917c8dcf484e, 0x45d4120ccd93d65f, 0xebb0bf9c190ae7f8, 0x3d403de28d8c8d5a]⟩,
   ⟨[0xcde760b4be656644, 0x99dc5e6d2d21dbc5, 0x644fcaf3b6232d08, 0x52955488859341e3], [0x3ab4580d25763919, 0x82ab0c534ef66999, 0xbd395c740180663e, 0x7974f1ab4756474]⟩,
   ⟨[0x8c15cfe731588ea6, 0x9629060ef36c882d, 0xdf8e8e9e862b080d, 0xbd36b48d7a0c5be], [0xebd0c6c976da047b, 0x4f0f08abbb94fd5a, 0x33d41a4e74910d9f, 0x3d6f8d0ba9583754]⟩,
   ⟨[0xec4c896e4e4fc72e, 0xb111210c002ece31, 0x7204d9372af11e21, 0x59b9c1ec5d0509e9], [0xbc97644cf9d5bbc0, 0x25b123af31b4e869, 0x91d7aec5a6caab0, 0x340b9e80ecc911c4]⟩],
  [⟨[0xe8036b20ec208406, 0xaf46a05a214ceb5a, 0x8672084a46cc8379, 0x7de0a42f04ba7885], [0xb772bedcc9d3f32a, 0x7dae3680534b1520, 0x4cd6203ec7120cc, 0x32f88e3b4e99780]⟩,
   ⟨[0xb34bda5ce4a0897e, 0xf7748b26379b2480, 0xf47f6646b2d97522, 0x66ad8de1f9641db9], [0xf8eb919d1bf09c0, 0x7853bb4eb95dc052, 0xbe7ee13d62b1fd4a, 0x2ff7edc5dc7ce53e]⟩,
   ⟨[0xe1009aa0ee81df35, 0x14972f0261d0798b, 0x5a6831a0f1ea1a6a, 0x1dbaba3d0cab301a], [0x421270e2157d5213, 0xa37bea956407b790, 0xead56b1f103a6073, 0x27534624bad909f1]⟩,
   ⟨[0xc92d2209c2621ef1, 0x450710c31d3ad3f3, 0x8cfb8d6c19e481ad, 0x35cacdaee6db01bd], [0x2da4a1d87cdd5b01, 0x3e40c7510f55ba11, 0xa91d9ee7b15c162d, 0x13ad3be511dba157]⟩,
   ⟨[0xae417db0e72f64f5, 0x40822279f13352ba, 0xec43afd91f2b75b9, 0x14d4bb2bc9cf2972], [0x4a55718a0761b2f1, 0xdafbf756d81a9307, 0x2dcdfc1c5d3e5a07, 0x696e42ed2ebbdf28]⟩,
   ⟨[0xf473939968705410, 0xfd581005af5ffc88, 0x5490a69490a9f517, 0x4a5c8c2e8cf8327e], [0xc203cd35f7d83da6, 0xecaa6b907282368d, 0x365bb5712af7ec42, 0x112e7acdd4099316]⟩,
   ⟨[0x9abde0603ae3c25c, 0xe4c03dadeb9925b2, 0x3c28dcb19e03388b, 0x2337a7cf52b63c06], [0x74dc0f134e1af2ea, 0xa010e4e3cd0d59aa, 0x6e4db7ba9fa14c96, 0x5b2c3862557f7cde]⟩,
   ⟨[0xc826e567c8c79ca9, 0xe7d110cae851be0c, 0xffd57057a3606499, 0x2e9dbc40c6482504], [0xc9f0c3c2f784d9af, 0xdd982a05b755172e, 0x6bc6c19da023997f, 0x4ac177bee34493c6]⟩,
   ⟨[0x21c3e0874fa4f134, 0x66e10c3486f9722f, 0xd2927b017398579a, 0x7135b6380352c3d3], [0x2da620073bb5ee11, 0x8b64f13c3a946236, 0x3a83c85430eae6df, 0x31114e2a0eb6f749]⟩,
   ⟨[0x2c7b52e735bfc72b, 0x6dd29ebd2b0d4c2c, 0xe90d39886c92e82d, 0xa9249013864d94d], [0x630508249bee9e78, 0x7929fd62003dd5cf, 0xd04f832ce57507d1, 0x61078bdc37d2c32e]⟩,
   ⟨[0xb118afdd2e75264a, 0x3ab692eaefd65114, 0x58d2ce248b0a2128, 0x4316e6c282ed6d5f], [0x97766fff46345be4, 0xd7ff30140a7451aa, 0x78a423faace2e37, 0x7f1f90c2a6a78919]⟩,
   ⟨[0x988fccb08e9e3d4d, 0xbd003fc0b95c9731, 0x74e40076b0a84e58, 0x5fd1dbe61df7fdd0], [0xd2c700c74e6ce2fa, 0xa6e042e2903c5ae7, 0x561cc25f3c73822e, 0x651a79392a6a0c0c]⟩,
   ⟨[0x103e9ec688cd7642, 0x65ed52183c3c86ce, 0x16bab00282785c8b, 0xb5c18bbf34723c5], [0x528b0546e724d144, 0x5e582a6b780eef9e, 0xc08283b8122f17ad, 0x300edcd1c22f32d]⟩,
   ⟨[0x3ac716a38dcfd39, 0xcd88474c94f12c74, 0xb5e8641ee9042ca8, 0x1d5746cc40d10558], [0x7869f45ecb4bb408, 0x28fb091d569489c3, 0xea371eec50a46306, 0x2802579675aa224c]⟩,
   ⟨[0x4eafa44ef7a5923a, 0xd2427c306b69fd8b, 0x4c4e884a393d83f9, 0x2d34890a6236ab65], [0x80038d4035cc97f5, 0x4fe43c8497897472, 0xe5f56243bef161af, 0x3e1bdd6f9372e631]⟩,
   ⟨[0x6a2b2875732669f, 0x92d00397cdf4d2c0, 0xcd9a25f0454a57f5, 0x23adb7242f0cdb0b], [0x504da603ff0f8cb0, 0x14ef9d30d3e24181, 0xb1b1328e47fc1e66, 0x319b2a846c60354d]⟩],
  [⟨[0xbbf5542ef1d56038, 0xede3e637dd71cfc3, 0xfaa81d212e9f6c8b, 0x4dd2d44b69fbd060], [0x71fb623314366a20, 0x155e486f9575451d, 0x1106f0ec7807d9, 0x1c80e5abc617034c]⟩,
   ⟨[0xd3e478db8619f5f4, 0x1df5c367f68170c2, 0xeab095243430de1d, 0x48f09361c3cd4c24], [0xe49dea4b60644fed, 0x47170f1c758c3679, 0x4cc1e6e8b0382a84, 0x2dbdb9da10a4465e]⟩,
   ⟨[0x67baa79ac8400a4c, 0xfa30675301d28ece, 0x29db5b1c6f33289c, 0x4475757326a8fcb4], [0x59616219e1b0a795, 0x3032d939c5b32fa0, 0x3010c9177c3cea2c, 0x5cf83ef19892bdf4]⟩,
   ⟨[0x55de11413c7e83e6, 0x9d03929c74ea0366, 0x5ca60c5083baf3fe, 0x3d9bca587f70e905], [0xdb79df5afcc5ab59, 0x3cfcf0653f68d30, 0xbe101a784fcfa5f1, 0x115d7078b49e493c]⟩,
   ⟨[0xf14023aa76a0ccbd, 0x4287f0bc086f2e50, 0xc5eaa559f79a37e7, 0x5d527c0904e4f2a2], [0xec91461651daa504, 0x250d90c6eef1dc95, 0x1b0aa868a50330b2, 0x7b45a78354189bbe]⟩,
   ⟨[0xd602e05f019d6ff, 0x563e3893dd1800ba, 0x7146727ef3c7f7e5, 0x59641d984b026635], [0x50bcf90fe91ddbb8, 0x5d43e78e7f8397a6, 0x8734a261eb15896e, 0x4ad1e8649ff6b361]⟩,
   ⟨[0x1a9b601f320322f1, 0x606d40b391f611c4, 0xb984958ba19c918f, 0x67bfb045776f834e], [0xc59e556968dd85f0, 0xb5642834d4067875, 0x247e7d65cb138df3, 0x73640a035cb9281d]⟩,
   ⟨[0xc7c34ccc88639889, 0xd9e44e07a785c707, 0x1be68efe32f83073, 0x249902daae5317ce], [0xf1f0b86a76ca92ff, 0xa7f502cfc01cb06b, 0xa8b4766595aa185, 0x614135aab792de49]⟩,
   ⟨[0x5392caa7564f2bc8, 0x1cdda684cc894fcd, 0x10ac2378a4ebf82f, 0x6211ea465051bff9], [0xe53b017430e8e210, 0x2374fec302c0e381, 0xf8b1506b4da07224, 0x4e451e0154da7a08]⟩,
   ⟨[0xa8404d9c241fc7fb, 0x1d6dbf6ec4406332, 0xfe14231930162118, 0x69de75cca7ef5ef5], [0x8d4d09856e26a5, 0x2bc64b65c588ecf6, 0x7a523d0baa01ee19, 0x213ef390932f0b95]⟩,
   ⟨[0xa42fe5131cd716fa, 0xfb13b3c60e8001b6, 0xbfdc7998d8f530cb, 0x4f9c05bf1c61761], [0xfb57396fafed9d64, 0x28ccee3a421ac123, 0x32590c9bf6c21acc, 0x503b97cbbca75ae3]⟩,
   ⟨[0x745208bc366946ed, 0xa75d88e94c906596, 0x3a30c7eee043530, 0x5c67c151d11bf4d5], [0x4f75dfae7ae4bb3, 0xa08136067f8d7404, 0x8b9f921019d68f64, 0x5ab6797106f73b55]⟩,
   ⟨[0x8064c4ab0687095, 0x27e30dddb0106df4, 0x31d29c708482524a, 0x65dd5896d86fdacd], [0x81c013dc647197e, 0x51c10b9ed7a53a45, 0xacb9a4de0dd7fc53, 0x639997a2f646220b]⟩,
   ⟨[0x97ccf8251fb93b43, 0xb7d7713de488d786, 0x4f7595663e4dbb33, 0x13b5d8a1e0f09964], [0xffddad74316cdd97, 0x67c5578252c92ee9, 0x3b50f940ac5d6fd, 0x56c5c0091484df88]⟩,
   ⟨[0xdce199e31778d303, 0x53a2a4c60f1dd4ec, 0x7cc5ee9e370a7b99, 0x4403202b2598744e], [0xccfaa978228247b6, 0xf50d14bd4a1d0e27, 0x6669506180723abc, 0x750ccb6a742c0015]⟩,
   ⟨[0x7b04693681a109f1, 0x6414d9a3d4c1afe5, 0x35070548dd14ac1f, 0x27172f39dec0d3f0], [0x4ee0a7bff2e273f0, 0x28c7813ec82b8e6, 0x907bf09f2081eae2, 0x72e4c3d3414d6421]⟩],
  [⟨[0x2064097ea073711c, 0x980d830a5a65ec25, 0x7906a87cf0877567, 0x3e5eae10f1980a3a], [0x5f51023a9272ce32, 0x71d69e68a437c974, 0x32006ea1d0b579ff, 0x191935ffa436e129]⟩,
   ⟨[0xe5fe290991c1474c, 0x7350b9fa1f0b10f5, 0x2006f41d6b4ab128, 0x4ebda6cfcd95fa42], [0x450289385da9a7f4, 0xd8129de457fb462b, 0x4f2bf2c9e592ef90, 0x14a1a16bd6751dcc]⟩,
   ⟨[0x7460bb84de0cd47a, 0x261f24d6468cba3d, 0x229d31811e3c2d8a, 0x4ae520c91d19e059], [0x5ac3aee7df8dc66e, 0xcb417060299697ee, 0x227c1497ce97514f, 0x2589b8032e991fde]⟩,
   ⟨[0x7fe9d585a97a5d03, 0x7333a1ef10d58157, 0x54c1ccd2c94c3df6, 0x25c1b25228073b4e], [0xeeb29af90635ad79, 0x880019c19aa38848, 0x1a85994230a9a497, 0x57edcc2d92b25aba]⟩,
   ⟨[0xa98dae7d65e19de6, 0x8007dd1746ad8696, 0x61f2e2cfa7f3bbad, 0x1efcd38754193858], [0xfb54fd6011666ecf, 0xd97ea5df36e7d371, 0x944ca1703b9371ff, 0x32a52cac05de7fb0]⟩,
   ⟨[0xb960fff619ed8b5e, 0xfd6b4c3e660354bb, 0xf8ecaada1c9e95f0, 0x687a6d29a8e08cc7], [0xd38b7670c6a83d12, 0x1646064c1265bf30, 0x7de19ffe2464892d, 0x5b57e081bdbb729]⟩,
   ⟨[0xf3586b04ffb7a98a, 0xf1850cdccb072826, 0xfa3e66a4cf53bfb0, 0x7c78e56706e07221], [0x21e6f2453b4e72ae, 0x10a0d78bc6a3dbe8, 0xb9fc6d77d618ddab, 0x33092d1376951de5]⟩,
   ⟨[0xcaa1bf9d5a0257cb, 0x1044e224866c505f, 0x9b51410781482e7d, 0x538cb86788940bfb], [0xace68b78ac21dcc1, 0x57942f3c1609bf8c, 0x30a47f3266e48c7a, 0x170d301db0da341f]⟩,
   ⟨[0x19643eb218ed9863, 0xbbe55bccd9104f33, 0x77008b6ca15b283c, 0x2a6e0b41873a6a02], [0x517410df3cb9a225, 0x20d76e38f538730a, 0x76c9cad69f8724f0, 0x588ba1066be9a035]⟩,
   ⟨[0xa059dbecf842f66c, 0x59ca186db3ed0481, 0xa5b2abcbd454490f, 0x4a0f600402624902], [0x45af7b514d2f605f, 0x57e8fe0fc368030f, 0x23b745570c0727ae, 0x7e91ec772b603ec4]⟩,
   ⟨[0xedd284cffd582be8, 0x3077cb2381093cda, 0xb1934840fdea4fce, 0xf9b9d1d7f01c9a], [0xa55e5c5b0a1c707b, 0x5cd73cb2f8618a5, 0x7327cecb512eea05, 0x5130a0998bf2a4d5]⟩,
   ⟨[0x34d18880fa7a1c7b, 0x5e0d6c53fd4e043f, 0xb4dd80101b4442ae, 0x59d9183e78ed7563], [0x624ddafcf1fae158, 0xc08c36535c4c1e92, 0x452fd71fce3e42ef, 0x175b490820b902ec]⟩,
   ⟨[0x5f0fdf2418f4ce34, 0xa64a30119b7e61b8, 0x8109acd5663362e2, 0x4d02f82497f3df44], [0x2ce27cce3a4f916a, 0x4a4e6cbb3b85b146, 0xfe7a6199db8c9e5e, 0x53f5d620d94b8d23]⟩,
   ⟨[0x37febec3e77610a9, 0xe82d8eac92245cb0, 0x3fd2ceeaf79a31bc, 0x277acf32b446850c], [0xd89ff4c7ce1a2786, 0x441781e5ffd3a23c, 0x7876efc507e85496, 0xf306c7be6f41b30]⟩,
   ⟨[0x3bf2bfd15ab1b92b, 0xdcc3f5a6f373fcf2, 0x27cfc4a6da53c229, 0x5885737c508e677f], [0x1275d0f17b829f24, 0xbd3c0b024991b75b, 0x3f82acdfe581c569, 0x123294353f28904e]⟩,
   ⟨[0xcf7bdccc99c3a09b, 0x191911075f7d601a, 0xa82f746039fbaa22, 0x3105a6fcd75b5786], [0x9673dac4932f69a6, 0xf5664b25b57d6ee6, 0x1edac1120a3cdd3e, 0x3cf84f8c42778563]⟩],
  [⟨[0xe36fd1b765de3040, 0x240eadea8aa0d3fe, 0x769714317f77f804, 0x6fcc933e591e9694], [0x3218d92b18f48742, 0x215f13e95e1b4001, 0xcdf333cd7a8d69b9, 0x14f159b1d2fd134f]⟩,
   ⟨[0x2d1228d607a50c16, 0xdfd80f629ae42fd, 0x6c18b122bb8f3512, 0xfe61243303f3dca], [0x43a29f4dda50709b, 0x3ff58c084b92bf7b, 0x62dc6b41dfcef797, 0x43f9525ac7b83f32]⟩,
   ⟨[0x17ebbc9a15f08f5b, 0xbcd3b6408bb3e932, 0xd46fbb9f510bbd36, 0x389abba8cf65442b], [0x3a3dafe4b575545c, 0x6ab985ece1d0994d, 0xcc2a697b69e1db27, 0xd483e18271581dc]⟩,
   ⟨[0x380d4095c046d968, 0x5303975555d3318b, 0x57fa762991ce6ffc, 0xa0f2885a4adb641], [0x8b99af1b6e5c2909, 0xbdfe7ffdb8794175, 0x2cfb948a795ed786, 0x11fe74650fd0df66]⟩,
   ⟨[0xfc2cc2bd22e152e2, 0xcf6ab96be30bceb3, 0xae89c041bc89b689, 0x6813430ce7523ab6], [0x3f49e72840a4fa33, 0x25de1b7857cb0c9, 0x6d71465a11ea5ea5, 0x6651f7b946c8d7cb]⟩,
   ⟨[0xd05f1dce5268098f, 0x891dbb680dc75030, 0xd939e428ea916291, 0x5f8eecccea37d060], [0x885f1ea88dc5d544, 0xfd3b3d1757e7448f, 0x5fc791a879531de0, 0x780c1aaf42e66daa]⟩,
   ⟨[0x19697778397bb28f, 0x5ec31d44aaa9069d, 0xdc2dfeaa3ca24a6f, 0x3f66cfca80bed770], [0x2b6b82151a102662, 0x44b4d7a4c5d34ceb, 0x17e0fde688afecf2, 0xdefa14bcff8d214]⟩,
   ⟨[0x14035aa48365ca84, 0x309ceef0197ce2b7, 0x21305426ed39af37, 0x10d01d11d2ea583a], [0x3f2e97499fa5c766, 0x98357584d70549d4, 0x8ff80803d279946d, 0x53dbc43399df1253]⟩,
   ⟨[0x1d0d9efa5329f12f, 0xbc9f74cfbe1f007f, 0xd7f2aa9a18ee4dbc, 0x634bf4cf3a792753], [0xd5dc72ad2fa6255a, 0xee69ea43f3bc00c5, 0xea930f61d8147a1a, 0x25e1368df4e9ad37]⟩,
   ⟨[0x9422aaf7b7c955ec, 0x7c7107616a74d634, 0x4ed89932305ee420, 0x7e422122e937289], [0x7ebb231328566c88, 0xc7ed9c7ac27ed656, 0xf77f3873bf14fb3b, 0x447aa1e5eb957520]⟩,
   ⟨[0x3e3cec7eb5c5e016, 0xb33ddff7bde44d26, 0x2056e9c766e820dd, 0x21a9e5d4f8196fe2], [0x86cb0a1788040c97, 0x18ad8ae7ff515d49, 0xcb8a564a226a400a, 0x6db489798b72a0d2]⟩,
   ⟨[0x4365074b6324ded2, 0x9efb5cc6aedaf0f8, 0xcf952c3cc0792b14, 0x70b82ab997ed965e], [0x931b98863acebce7, 0xda85049118c2425a, 0xd88e1e27e499f7fb, 0x61d3f246960981de]⟩,
   ⟨[0x1d8ea2278393eb0a, 0x9dcc23d27863fb53, 0x961b2337d5ebd297, 0xa96f8b25bfed1e9], [0x39ea1803fe7dd2b7, 0x7e4817bbe5f7772a, 0x3668c5ffd44a41ef, 0x78227653e11f8e11]⟩,
   ⟨[0x272d6933d024880b, 0x733c029ff236fd8a, 0xba5c20bd604868f0, 0x33f211ae321175c2], [0xe40010fb9fd79fe3, 0x9c6ea1dca685a59f, 0x79963ffc8eb9889d, 0x15434e7d5f67108d]⟩,
   ⟨[0x42c14bbfd68b670f, 0x2021ac9d23f1aa69, 0xbf4c6d74aea04636, 0x1e4d2f8ebd1fb11d], [0x4b0cf0e337911aa6, 0x7542d9282c484507, 0x68836751889542dc, 0x5f229f7fe2282a0]⟩,
   ⟨[0xaf269e8b409b2067, 0x6c749952a860f075, 0xcb7492da5df7c7f6, 0x2b010a7fe8e591e1], [0xf744657704d9e871, 0xc2e0a2a35e68408e, 0xd512e9a6d0f0baad, 0x3e2f73e1c6be34a3]⟩],
  [⟨[0x6c466c8e2ec65bb4, 0x912ffae5b1fc8f92, 0x7587be5db50a522d, 0x15939ff7649847cf], [0x69e81d63f464794e, 0x7bb6eee36d3f858e, 0x24fe5c0110813bbb, 0xc491f976d80756c]⟩,
   ⟨[0xbad1c256a5ff3510, 0xf06f38a299c1b7b2, 0xf7c0f164049312d6, 0x73c53745749b3e4], [0xd676148055211a81, 0xf34cb5dbdfa98f45, 0xaf59fa47b4aa4967, 0x116935b98214be48]⟩,
   ⟨[0x1d86fa009fe10e46, 0x73b8099c0b5b8494, 0x9a6ea98da1102be7, 0x3de1948b5514ca21], [0x5d18ed69d0aaaa53, 0x17bf7dff3c952b98, 0xc60143fe7ddbd937, 0x214f2f556f2f10c4]⟩,
   ⟨[0xb2f2869502f047d0, 0x80952dfe923f52bf, 0x56f3306ba5017c3e, 0x5dd62f07052dadfb], [0xdd11592dd5274f90, 0x40632ff3e471965b, 0xad1939a87e618430, 0x5dd9cad233f19556]⟩,
   ⟨[0x7b0aa88cc1094747, 0xcfa6b95df6753a0c, 0xe81afada2a252a4d, 0x364cab7cd3770570], [0xe99d8252b4610a19, 0xb22b2fec55ed9ad3, 0x328acbddbebe7fed, 0x1d379d61fbedfe84]⟩,
   ⟨[0xd9effffa5edf8c9c, 0x9baa71810ce548ec, 0xeb458aeb5fa8feeb, 0x18c5e6910904d841], [0xfcefae288f33d2e5, 0xb3cf853e6fafda18, 0x5de94ba427d6218, 0x21d8aed3731d3e9]⟩,
   ⟨[0x6c8c318e92719da, 0x1f7cde121a65dfdb, 0x9b4d531e4b672a2d, 0x3e39cc63115faf11], [0xc9c3f3390037af60, 0xc1c6758702b43d27, 0x46b77cddc42df26b, 0x7235f2b0ebfa97a7]⟩,
   ⟨[0xaf7ffc9ae898094e, 0x8d18ab93146a27e3, 0x1376b7978aec0416, 0x746a1b1c8d91c25e], [0x16dcccc10ebde2e3, 0xfe4abd418ce7d61e, 0xb9830395e25f1551, 0x543493d7b885a943]⟩,
   ⟨[0x52c659e624ebcfc0, 0x72e3ca91d38367a4, 0xa3086aac4d168f4f, 0x656acfee5d64207b], [0xbe697cbaba196a9e, 0x6a737acc97dffec2, 0x393e266154f04dbd, 0x4fff7c244b0e92bd]⟩,
   ⟨[0xc709cc59828ec659, 0xb275ac8ccbdeacb3, 0xa8d08921f7922523, 0x68b92f96400a6459], [0x45803ec2dfbecb97, 0x49464e057515d696, 0xf39ca9618f03e969, 0x605065a11cd7c79f]⟩,
   ⟨[0xb91c03dc97f1a97a, 0x2f6d50bb201ffb53, 0x39d67d4046241856, 0xa2c025674d04805], [0xd289b94c28374a6d, 0x1176c73a10edd6fc, 0x890e9c3956ae631e, 0x30451cf16027f549]⟩,
   ⟨[0xcb33fdcdf8f4ddb, 0xd9c540de87ff6e63, 0xd844573255a1d8e4, 0x1497403d8ac403a6], [0xa2591c406a4baac6, 0xf493cf1f48dd3e5d, 0x7b9ae39fb69af047, 0x293123c03782b110]⟩,
   ⟨[0x14921836b7a36b62, 0x5ac824304ca3aa39, 0x1303aa652f601ca, 0x7ee1e6c72b43bb72], [0x7f82b37b64d44957, 0x840d0654da4a6fec, 0xfc806fa10290f75d, 0x3027fe4a4c62f0e8]⟩,
   ⟨[0x34e68ab5cd0d3ac0, 0xe6b0b8c1e9bc85bd, 0xe00f505299533831, 0x11327da7cdc83750], [0x6d991df04656a428, 0x6a7be34986228f26, 0x6bf85e3d3019cdc5, 0x42200d2f576913a4]⟩,
   ⟨[0x420d9259707b940f, 0x1bb1ffe13c5e39bb, 0x83d6ba36e40d018e, 0x139bd842044ec576], [0x3c79f8d2c6de63e8, 0x49150b1d96f1fb0b, 0x666160531358a13b, 0x187ca3cfd5ddfd9f]⟩,
   ⟨[0x675370f8d5aee84, 0x30aa7d65dc269114, 0x295f7fe85afc6dc1, 0x4945202955674339], [0x7eb1926ba6f209ec, 0x5232b9d1dc72c3e3, 0xcd788d79ab52141b, 0x3eb561befdd9611f]⟩],
  [⟨[0x9db342ce22241ad, 0x2eab852f2a566653, 0x970843edca6e59f3, 0x6490013ea18c2d89], [0x52293350c7a691cc, 0x6544b49db2079f14, 0xc49c559852dcf090, 0x4069b6fc8817a2c7]⟩,
   ⟨[0xe4a4b0cc86b40f4, 0x2b5350e151f6f853, 0xde26fde21033bec4, 0x4de9d2e7c0e9b971], [0x716605fdd315ad57, 0x5627d732392b101a, 0x628edfc681a9f40a, 0x4bd2a96c5ab9c99d]⟩,
   ⟨[0x2c8df2a1bfbd288a, 0x260c4f1ef4cf7c09, 0x88a2618690e796cb, 0x105acc3a323e0702], [0xa8ada467667664cf, 0x41144c1b3b518622, 0x4a532b87d8b99fe1, 0x4a51c2892289c308]⟩,
   ⟨[0x201dda611d6f6880, 0x47a964d462029898, 0xe44e2eee426c8ca5, 0x2a5182109625dba], [0x170c626eb45b3dfb, 0xfc7f1f715c8343a9, 0xe6cf246fe549f040, 0x4acf60ae2f903ace]⟩,
   ⟨[0x9171535281c807ec, 0x72ac60c347174a58, 0xad62d06fa0f12f61, 0x325c2792aa899c0d], [0x53a1e3929d8ba267, 0x5dc088a5cdaccb05, 0x5bb9127f5025cb69, 0x25d2b42e69214616]⟩,
   ⟨[0x4de5d58addb55121, 0x688aa2f584de0677, 0xf7925a3963aa25e0, 0x4fb42fc785d4dea5], [0x957b933b8f134390, 0xb360dd2c4b9bf8c2, 0x45e6767fffff96cd, 0x26d0a6a91e01d5c3]⟩,
   ⟨[0xc7fc57145a0a98ea, 0xdbb06f30e7535af6, 0x555b22e3df4acd0d, 0x3a011aaf2efd2fbe], [0x341c7733e9166b20, 0x84619e8efb19590a, 0x8ef989fd10574c96, 0x61acfaae0f55f9a2]⟩,
   ⟨[0x8c8a33f26deab094, 0x4a8e5d9f96022ebc, 0xa10df82c7dda92e8, 0x33a19462d1cf3815], [0xe3ff8e43a489d67f, 0xd4b6136f225064aa, 0xe1721d2a92f5e662, 0x4c4f03d7a90a33c6]⟩,
   ⟨[0x70885b35a3463b4a, 0x974bc40edf9d0194, 0x1af71e18273957f4, 0x58ef684b9900cb0d], [0xb09970c820a49a4a, 0x3f28403f42067458, 0x153ff2c4bd7d1ad5, 0x7912cc2ee97a90f7]⟩,
   ⟨[0xf653df598f034d9f, 0xca1671771c409ccf, 0x21f47005175f3583, 0x13b8a94bfaafb66f], [0x64534ee396052c8d, 0x9304dd18d674024, 0xeb468ac30d7a7e2a, 0x40347256cd62052c]⟩,
   ⟨[0xf089165fff11c0e, 0x383562c98d69a45c, 0x7ab3ef9d3125fe61, 0x32c042bce0735f3a], [0x420077c84e268d91, 0x7fb4208244695b4f, 0xfa83216f448a133e, 0x1c66060793062eb3]⟩,
   ⟨[0xa0fcbacaef9e04de, 0xaef9eecb5b86f69a, 0x73d2e95fc39d4c99, 0x98c74f7923a5ba8], [0x5b8c95c84f68decf, 0xcff2e10158976551, 0x5032ae48be5caf91, 0x5ccb9008e09bc8ae]⟩,
   ⟨[0x41a38f203714d3bf, 0x2413653317366520, 0xf12f314cfae17b01, 0x4aa0c969fc9ad43b], [0xd8ab5f728bbac026, 0x35128269526992dc, 0xa2ef6e44d19880aa, 0x28bb3623dbf47628]⟩,
   ⟨[0x294742ba3ba25c35, 0x39d3bc9b061555b7, 0x944e3abcde6ea1a0, 0x4fdc641557ebd394], [0xb615c1dae981e649, 0xaf7edb348be3c95f, 0x38573ae871f7221f, 0x1b30ff04668cf414]⟩,
   ⟨[0x48eff6a2a57a9a4e, 0x4ba2f7374a59c19, 0x5fde389d6779c5da, 0x258e2b246612f160], [0xce8d7a0b6d116d41, 0xaf660436ee2706c8, 0xffad6fe9f81d6398, 0x4fe5ec5414ba128a]⟩,
   ⟨[0x7d5e8299bd4b886c, 0x5403a46edb0db148, 0x32f49fc076a808d7, 0x6d483fd7d3b9a641], [0x731df1223952c70f, 0xb5cabac1cb5e6081, 0x12fa297d7afa8f59, 0x3272360a6ac91952]⟩]]

/-- `lut_cmb[j][k]`. -/
def lut_cmb (j k : Nat) : AffW (List Nat) := (lut_data.getD j []).getD k ⟨[], []⟩

end Gost.Ecp_CryptoPro_B
