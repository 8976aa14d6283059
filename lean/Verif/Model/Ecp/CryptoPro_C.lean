import Verif.Model.FiatField

/-!
# The functions, constants and table of `/repo/ecp_id_GostR3410_2001_CryptoPro_C_ParamSet.c`

64 bit version of the file (`__SIZEOF_INT128__` is defined).  Generated by `tools/mkfiat.py`, statement by statement;
see `Verif/Model/Fiat.lean` for the meaning.  All line numbers refer to this file.
-/

namespace Gost.Ecp_CryptoPro_C

set_option maxRecDepth 100000

/-- `fiat_id_GostR3410_2001_CryptoPro_C_ParamSet_mul`, lines 245-693. -/
def mul : CProg := ⟨[
  .set (.a 1), .set (.a 2), .set (.a 3), .set (.a 0), .mulx 64 (.x 4) (.b 3), .mulx 64 (.x 4) (.b 2), .mulx 64 (.x 4) (.b 1),
  .mulx 64 (.x 4) (.b 0), .adc 128 64 (.c 0) (.x 12) (.x 9), .adc 128 64 (.x 14) (.x 10) (.x 7), .adc 128 64 (.x 16) (.x 8) (.x 5),
  .set (.add 64 (.x 18) (.x 6)), .mulx 64 (.x 11) (.c 0xdf6e6c2c727c176d), .mulx 64 (.x 20) (.c 0x9b9f605f5a858107),
  .mulx 64 (.x 20) (.c 0xab1ec85e6b41c8aa), .mulx 64 (.x 20) (.c 0xcf846e86789051d3), .mulx 64 (.x 20) (.c 0x7998f7b9022d759b),
  .adc 128 64 (.c 0) (.x 29) (.x 26), .adc 128 64 (.x 31) (.x 27) (.x 24), .adc 128 64 (.x 33) (.x 25) (.x 22),
  .set (.add 64 (.x 35) (.x 23)), .adc 128 64 (.c 0) (.x 11) (.x 28), .adc 128 64 (.x 38) (.x 13) (.x 30),
  .adc 128 64 (.x 40) (.x 15) (.x 32), .adc 128 64 (.x 42) (.x 17) (.x 34), .adc 128 64 (.x 44) (.x 19) (.x 36), .mulx 64 (.x 1) (.b 3),
  .mulx 64 (.x 1) (.b 2), .mulx 64 (.x 1) (.b 1), .mulx 64 (.x 1) (.b 0), .adc 128 64 (.c 0) (.x 54) (.x 51),
  .adc 128 64 (.x 56) (.x 52) (.x 49), .adc 128 64 (.x 58) (.x 50) (.x 47), .set (.add 64 (.x 60) (.x 48)),
  .adc 128 64 (.c 0) (.x 39) (.x 53), .adc 128 64 (.x 63) (.x 41) (.x 55), .adc 128 64 (.x 65) (.x 43) (.x 57),
  .adc 128 64 (.x 67) (.x 45) (.x 59), .adc 128 64 (.x 69) (.x 46) (.x 61), .mulx 64 (.x 62) (.c 0xdf6e6c2c727c176d),
  .mulx 64 (.x 72) (.c 0x9b9f605f5a858107), .mulx 64 (.x 72) (.c 0xab1ec85e6b41c8aa), .mulx 64 (.x 72) (.c 0xcf846e86789051d3),
  .mulx 64 (.x 72) (.c 0x7998f7b9022d759b), .adc 128 64 (.c 0) (.x 81) (.x 78), .adc 128 64 (.x 83) (.x 79) (.x 76),
  .adc 128 64 (.x 85) (.x 77) (.x 74), .set (.add 64 (.x 87) (.x 75)), .adc 128 64 (.c 0) (.x 62) (.x 80),
  .adc 128 64 (.x 90) (.x 64) (.x 82), .adc 128 64 (.x 92) (.x 66) (.x 84), .adc 128 64 (.x 94) (.x 68) (.x 86),
  .adc 128 64 (.x 96) (.x 70) (.x 88), .set (.add 64 (.x 98) (.x 71)), .mulx 64 (.x 2) (.b 3), .mulx 64 (.x 2) (.b 2),
  .mulx 64 (.x 2) (.b 1), .mulx 64 (.x 2) (.b 0), .adc 128 64 (.c 0) (.x 107) (.x 104), .adc 128 64 (.x 109) (.x 105) (.x 102),
  .adc 128 64 (.x 111) (.x 103) (.x 100), .set (.add 64 (.x 113) (.x 101)), .adc 128 64 (.c 0) (.x 91) (.x 106),
  .adc 128 64 (.x 116) (.x 93) (.x 108), .adc 128 64 (.x 118) (.x 95) (.x 110), .adc 128 64 (.x 120) (.x 97) (.x 112),
  .adc 128 64 (.x 122) (.x 99) (.x 114), .mulx 64 (.x 115) (.c 0xdf6e6c2c727c176d), .mulx 64 (.x 125) (.c 0x9b9f605f5a858107),
  .mulx 64 (.x 125) (.c 0xab1ec85e6b41c8aa), .mulx 64 (.x 125) (.c 0xcf846e86789051d3), .mulx 64 (.x 125) (.c 0x7998f7b9022d759b),
  .adc 128 64 (.c 0) (.x 134) (.x 131), .adc 128 64 (.x 136) (.x 132) (.x 129), .adc 128 64 (.x 138) (.x 130) (.x 127),
  .set (.add 64 (.x 140) (.x 128)), .adc 128 64 (.c 0) (.x 115) (.x 133), .adc 128 64 (.x 143) (.x 117) (.x 135),
  .adc 128 64 (.x 145) (.x 119) (.x 137), .adc 128 64 (.x 147) (.x 121) (.x 139), .adc 128 64 (.x 149) (.x 123) (.x 141),
  .set (.add 64 (.x 151) (.x 124)), .mulx 64 (.x 3) (.b 3), .mulx 64 (.x 3) (.b 2), .mulx 64 (.x 3) (.b 1), .mulx 64 (.x 3) (.b 0),
  .adc 128 64 (.c 0) (.x 160) (.x 157), .adc 128 64 (.x 162) (.x 158) (.x 155), .adc 128 64 (.x 164) (.x 156) (.x 153),
  .set (.add 64 (.x 166) (.x 154)), .adc 128 64 (.c 0) (.x 144) (.x 159), .adc 128 64 (.x 169) (.x 146) (.x 161),
  .adc 128 64 (.x 171) (.x 148) (.x 163), .adc 128 64 (.x 173) (.x 150) (.x 165), .adc 128 64 (.x 175) (.x 152) (.x 167),
  .mulx 64 (.x 168) (.c 0xdf6e6c2c727c176d), .mulx 64 (.x 178) (.c 0x9b9f605f5a858107), .mulx 64 (.x 178) (.c 0xab1ec85e6b41c8aa),
  .mulx 64 (.x 178) (.c 0xcf846e86789051d3), .mulx 64 (.x 178) (.c 0x7998f7b9022d759b), .adc 128 64 (.c 0) (.x 187) (.x 184),
  .adc 128 64 (.x 189) (.x 185) (.x 182), .adc 128 64 (.x 191) (.x 183) (.x 180), .set (.add 64 (.x 193) (.x 181)),
  .adc 128 64 (.c 0) (.x 168) (.x 186), .adc 128 64 (.x 196) (.x 170) (.x 188), .adc 128 64 (.x 198) (.x 172) (.x 190),
  .adc 128 64 (.x 200) (.x 174) (.x 192), .adc 128 64 (.x 202) (.x 176) (.x 194), .set (.add 64 (.x 204) (.x 177)),
  .sbb 128 64 (.c 0) (.x 197) (.c 0x7998f7b9022d759b), .sbb 128 64 (.x 207) (.x 199) (.c 0xcf846e86789051d3),
  .sbb 128 64 (.x 209) (.x 201) (.c 0xab1ec85e6b41c8aa), .sbb 128 64 (.x 211) (.x 203) (.c 0x9b9f605f5a858107),
  .sbb 128 64 (.x 213) (.x 205) (.c 0), .cmov 64 (.x 215) (.x 206) (.x 197), .cmov 64 (.x 215) (.x 208) (.x 199),
  .cmov 64 (.x 215) (.x 210) (.x 201), .cmov 64 (.x 215) (.x 212) (.x 203)], [216, 217, 218, 219]⟩

/-- `fiat_id_GostR3410_2001_CryptoPro_C_ParamSet_square`, lines 708-1156. -/
def square : CProg := ⟨[
  .set (.a 1), .set (.a 2), .set (.a 3), .set (.a 0), .mulx 64 (.x 4) (.a 3), .mulx 64 (.x 4) (.a 2), .mulx 64 (.x 4) (.a 1),
  .mulx 64 (.x 4) (.a 0), .adc 128 64 (.c 0) (.x 12) (.x 9), .adc 128 64 (.x 14) (.x 10) (.x 7), .adc 128 64 (.x 16) (.x 8) (.x 5),
  .set (.add 64 (.x 18) (.x 6)), .mulx 64 (.x 11) (.c 0xdf6e6c2c727c176d), .mulx 64 (.x 20) (.c 0x9b9f605f5a858107),
  .mulx 64 (.x 20) (.c 0xab1ec85e6b41c8aa), .mulx 64 (.x 20) (.c 0xcf846e86789051d3), .mulx 64 (.x 20) (.c 0x7998f7b9022d759b),
  .adc 128 64 (.c 0) (.x 29) (.x 26), .adc 128 64 (.x 31) (.x 27) (.x 24), .adc 128 64 (.x 33) (.x 25) (.x 22),
  .set (.add 64 (.x 35) (.x 23)), .adc 128 64 (.c 0) (.x 11) (.x 28), .adc 128 64 (.x 38) (.x 13) (.x 30),
  .adc 128 64 (.x 40) (.x 15) (.x 32), .adc 128 64 (.x 42) (.x 17) (.x 34), .adc 128 64 (.x 44) (.x 19) (.x 36), .mulx 64 (.x 1) (.a 3),
  .mulx 64 (.x 1) (.a 2), .mulx 64 (.x 1) (.a 1), .mulx 64 (.x 1) (.a 0), .adc 128 64 (.c 0) (.x 54) (.x 51),
  .adc 128 64 (.x 56) (.x 52) (.x 49), .adc 128 64 (.x 58) (.x 50) (.x 47), .set (.add 64 (.x 60) (.x 48)),
  .adc 128 64 (.c 0) (.x 39) (.x 53), .adc 128 64 (.x 63) (.x 41) (.x 55), .adc 128 64 (.x 65) (.x 43) (.x 57),
  .adc 128 64 (.x 67) (.x 45) (.x 59), .adc 128 64 (.x 69) (.x 46) (.x 61), .mulx 64 (.x 62) (.c 0xdf6e6c2c727c176d),
  .mulx 64 (.x 72) (.c 0x9b9f605f5a858107), .mulx 64 (.x 72) (.c 0xab1ec85e6b41c8aa), .mulx 64 (.x 72) (.c 0xcf846e86789051d3),
  .mulx 64 (.x 72) (.c 0x7998f7b9022d759b), .adc 128 64 (.c 0) (.x 81) (.x 78), .adc 128 64 (.x 83) (.x 79) (.x 76),
  .adc 128 64 (.x 85) (.x 77) (.x 74), .set (.add 64 (.x 87) (.x 75)), .adc 128 64 (.c 0) (.x 62) (.x 80),
  .adc 128 64 (.x 90) (.x 64) (.x 82), .adc 128 64 (.x 92) (.x 66) (.x 84), .adc 128 64 (.x 94) (.x 68) (.x 86),
  .adc 128 64 (.x 96) (.x 70) (.x 88), .set (.add 64 (.x 98) (.x 71)), .mulx 64 (.x 2) (.a 3), .mulx 64 (.x 2) (.a 2),
  .mulx 64 (.x 2) (.a 1), .mulx 64 (.x 2) (.a 0), .adc 128 64 (.c 0) (.x 107) (.x 104), .adc 128 64 (.x 109) (.x 105) (.x 102),
  .adc 128 64 (.x 111) (.x 103) (.x 100), .set (.add 64 (.x 113) (.x 101)), .adc 128 64 (.c 0) (.x 91) (.x 106),
  .adc 128 64 (.x 116) (.x 93) (.x 108), .adc 128 64 (.x 118) (.x 95) (.x 110), .adc 128 64 (.x 120) (.x 97) (.x 112),
  .adc 128 64 (.x 122) (.x 99) (.x 114), .mulx 64 (.x 115) (.c 0xdf6e6c2c727c176d), .mulx 64 (.x 125) (.c 0x9b9f605f5a858107),
  .mulx 64 (.x 125) (.c 0xab1ec85e6b41c8aa), .mulx 64 (.x 125) (.c 0xcf846e86789051d3), .mulx 64 (.x 125) (.c 0x7998f7b9022d759b),
  .adc 128 64 (.c 0) (.x 134) (.x 131), .adc 128 64 (.x 136) (.x 132) (.x 129), .adc 128 64 (.x 138) (.x 130) (.x 127),
  .set (.add 64 (.x 140) (.x 128)), .adc 128 64 (.c 0) (.x 115) (.x 133), .adc 128 64 (.x 143) (.x 117) (.x 135),
  .adc 128 64 (.x 145) (.x 119) (.x 137), .adc 128 64 (.x 147) (.x 121) (.x 139), .adc 128 64 (.x 149) (.x 123) (.x 141),
  .set (.add 64 (.x 151) (.x 124)), .mulx 64 (.x 3) (.a 3), .mulx 64 (.x 3) (.a 2), .mulx 64 (.x 3) (.a 1), .mulx 64 (.x 3) (.a 0),
  .adc 128 64 (.c 0) (.x 160) (.x 157), .adc 128 64 (.x 162) (.x 158) (.x 155), .adc 128 64 (.x 164) (.x 156) (.x 153),
  .set (.add 64 (.x 166) (.x 154)), .adc 128 64 (.c 0) (.x 144) (.x 159), .adc 128 64 (.x 169) (.x 146) (.x 161),
  .adc 128 64 (.x 171) (.x 148) (.x 163), .adc 128 64 (.x 173) (.x 150) (.x 165), .adc 128 64 (.x 175) (.x 152) (.x 167),
  .mulx 64 (.x 168) (.c 0xdf6e6c2c727c176d), .mulx 64 (.x 178) (.c 0x9b9f605f5a858107), .mulx 64 (.x 178) (.c 0xab1ec85e6b41c8aa),
  .mulx 64 (.x 178) (.c 0xcf846e86789051d3), .mulx 64 (.x 178) (.c 0x7998f7b9022d759b), .adc 128 64 (.c 0) (.x 187) (.x 184),
  .adc 128 64 (.x 189) (.x 185) (.x 182), .adc 128 64 (.x 191) (.x 183) (.x 180), .set (.add 64 (.x 193) (.x 181)),
  .adc 128 64 (.c 0) (.x 168) (.x 186), .adc 128 64 (.x 196) (.x 170) (.x 188), .adc 128 64 (.x 198) (.x 172) (.x 190),
  .adc 128 64 (.x 200) (.x 174) (.x 192), .adc 128 64 (.x 202) (.x 176) (.x 194), .set (.add 64 (.x 204) (.x 177)),
  .sbb 128 64 (.c 0) (.x 197) (.c 0x7998f7b9022d759b), .sbb 128 64 (.x 207) (.x 199) (.c 0xcf846e86789051d3),
  .sbb 128 64 (.x 209) (.x 201) (.c 0xab1ec85e6b41c8aa), .sbb 128 64 (.x 211) (.x 203) (.c 0x9b9f605f5a858107),
  .sbb 128 64 (.x 213) (.x 205) (.c 0), .cmov 64 (.x 215) (.x 206) (.x 197), .cmov 64 (.x 215) (.x 208) (.x 199),
  .cmov 64 (.x 215) (.x 210) (.x 201), .cmov 64 (.x 215) (.x 212) (.x 203)], [216, 217, 218, 219]⟩

/-- `fiat_id_GostR3410_2001_CryptoPro_C_ParamSet_add`, lines 1173-1223. -/
def add : CProg := ⟨[
  .adc 128 64 (.c 0) (.a 0) (.b 0), .adc 128 64 (.x 2) (.a 1) (.b 1), .adc 128 64 (.x 4) (.a 2) (.b 2), .adc 128 64 (.x 6) (.a 3) (.b 3),
  .sbb 128 64 (.c 0) (.x 1) (.c 0x7998f7b9022d759b), .sbb 128 64 (.x 10) (.x 3) (.c 0xcf846e86789051d3),
  .sbb 128 64 (.x 12) (.x 5) (.c 0xab1ec85e6b41c8aa), .sbb 128 64 (.x 14) (.x 7) (.c 0x9b9f605f5a858107), .sbb 128 64 (.x 16) (.x 8) (.c 0),
  .cmov 64 (.x 18) (.x 9) (.x 1), .cmov 64 (.x 18) (.x 11) (.x 3), .cmov 64 (.x 18) (.x 13) (.x 5), .cmov 64 (.x 18) (.x 15) (.x 7)], [19, 20, 21, 22]⟩

/-- `fiat_id_GostR3410_2001_CryptoPro_C_ParamSet_sub`, lines 1240-1281. -/
def sub : CProg := ⟨[
  .sbb 128 64 (.c 0) (.a 0) (.b 0), .sbb 128 64 (.x 2) (.a 1) (.b 1), .sbb 128 64 (.x 4) (.a 2) (.b 2), .sbb 128 64 (.x 6) (.a 3) (.b 3),
  .cmov 64 (.x 8) (.c 0) (.c 0xffffffffffffffff), .adc 128 64 (.c 0) (.x 1) (.and (.x 9) (.c 0x7998f7b9022d759b)),
  .adc 128 64 (.x 11) (.x 3) (.and (.x 9) (.c 0xcf846e86789051d3)), .adc 128 64 (.x 13) (.x 5) (.and (.x 9) (.c 0xab1ec85e6b41c8aa)),
  .adc 128 64 (.x 15) (.x 7) (.and (.x 9) (.c 0x9b9f605f5a858107))], [10, 12, 14, 16]⟩

/-- `fiat_id_GostR3410_2001_CryptoPro_C_ParamSet_opp`, lines 1296-1337. -/
def opp : CProg := ⟨[
  .sbb 128 64 (.c 0) (.c 0) (.a 0), .sbb 128 64 (.x 2) (.c 0) (.a 1), .sbb 128 64 (.x 4) (.c 0) (.a 2), .sbb 128 64 (.x 6) (.c 0) (.a 3),
  .cmov 64 (.x 8) (.c 0) (.c 0xffffffffffffffff), .adc 128 64 (.c 0) (.x 1) (.and (.x 9) (.c 0x7998f7b9022d759b)),
  .adc 128 64 (.x 11) (.x 3) (.and (.x 9) (.c 0xcf846e86789051d3)), .adc 128 64 (.x 13) (.x 5) (.and (.x 9) (.c 0xab1ec85e6b41c8aa)),
  .adc 128 64 (.x 15) (.x 7) (.and (.x 9) (.c 0x9b9f605f5a858107))], [10, 12, 14, 16]⟩

/-- `fiat_id_GostR3410_2001_CryptoPro_C_ParamSet_from_montgomery`, lines 1352-1622. -/
def from_montgomery : CProg := ⟨[
  .set (.a 0), .mulx 64 (.x 1) (.c 0xdf6e6c2c727c176d), .mulx 64 (.x 2) (.c 0x9b9f605f5a858107), .mulx 64 (.x 2) (.c 0xab1ec85e6b41c8aa),
  .mulx 64 (.x 2) (.c 0xcf846e86789051d3), .mulx 64 (.x 2) (.c 0x7998f7b9022d759b), .adc 128 64 (.c 0) (.x 11) (.x 8),
  .adc 128 64 (.x 13) (.x 9) (.x 6), .adc 128 64 (.x 15) (.x 7) (.x 4), .adc 128 64 (.c 0) (.x 1) (.x 10),
  .adc 128 64 (.x 19) (.c 0) (.x 12), .adc 128 64 (.x 21) (.c 0) (.x 14), .adc 128 64 (.x 23) (.c 0) (.x 16),
  .adc 128 64 (.c 0) (.x 20) (.a 1), .adc 128 64 (.x 27) (.x 22) (.c 0), .adc 128 64 (.x 29) (.x 24) (.c 0),
  .mulx 64 (.x 26) (.c 0xdf6e6c2c727c176d), .mulx 64 (.x 32) (.c 0x9b9f605f5a858107), .mulx 64 (.x 32) (.c 0xab1ec85e6b41c8aa),
  .mulx 64 (.x 32) (.c 0xcf846e86789051d3), .mulx 64 (.x 32) (.c 0x7998f7b9022d759b), .adc 128 64 (.c 0) (.x 41) (.x 38),
  .adc 128 64 (.x 43) (.x 39) (.x 36), .adc 128 64 (.x 45) (.x 37) (.x 34), .adc 128 64 (.c 0) (.x 26) (.x 40),
  .adc 128 64 (.x 49) (.x 28) (.x 42), .adc 128 64 (.x 51) (.x 30) (.x 44),
  .adc 128 64 (.x 53) (.add 64 (.x 31) (.add 64 (.x 25) (.add 64 (.x 17) (.x 5)))) (.x 46), .adc 128 64 (.c 0) (.x 50) (.a 2),
  .adc 128 64 (.x 57) (.x 52) (.c 0), .adc 128 64 (.x 59) (.x 54) (.c 0), .mulx 64 (.x 56) (.c 0xdf6e6c2c727c176d),
  .mulx 64 (.x 62) (.c 0x9b9f605f5a858107), .mulx 64 (.x 62) (.c 0xab1ec85e6b41c8aa), .mulx 64 (.x 62) (.c 0xcf846e86789051d3),
  .mulx 64 (.x 62) (.c 0x7998f7b9022d759b), .adc 128 64 (.c 0) (.x 71) (.x 68), .adc 128 64 (.x 73) (.x 69) (.x 66),
  .adc 128 64 (.x 75) (.x 67) (.x 64), .adc 128 64 (.c 0) (.x 56) (.x 70), .adc 128 64 (.x 79) (.x 58) (.x 72),
  .adc 128 64 (.x 81) (.x 60) (.x 74), .adc 128 64 (.x 83) (.add 64 (.x 61) (.add 64 (.x 55) (.add 64 (.x 47) (.x 35)))) (.x 76),
  .adc 128 64 (.c 0) (.x 80) (.a 3), .adc 128 64 (.x 87) (.x 82) (.c 0), .adc 128 64 (.x 89) (.x 84) (.c 0),
  .mulx 64 (.x 86) (.c 0xdf6e6c2c727c176d), .mulx 64 (.x 92) (.c 0x9b9f605f5a858107), .mulx 64 (.x 92) (.c 0xab1ec85e6b41c8aa),
  .mulx 64 (.x 92) (.c 0xcf846e86789051d3), .mulx 64 (.x 92) (.c 0x7998f7b9022d759b), .adc 128 64 (.c 0) (.x 101) (.x 98),
  .adc 128 64 (.x 103) (.x 99) (.x 96), .adc 128 64 (.x 105) (.x 97) (.x 94), .adc 128 64 (.c 0) (.x 86) (.x 100),
  .adc 128 64 (.x 109) (.x 88) (.x 102), .adc 128 64 (.x 111) (.x 90) (.x 104),
  .adc 128 64 (.x 113) (.add 64 (.x 91) (.add 64 (.x 85) (.add 64 (.x 77) (.x 65)))) (.x 106),
  .set (.add 64 (.x 115) (.add 64 (.x 107) (.x 95))), .sbb 128 64 (.c 0) (.x 110) (.c 0x7998f7b9022d759b),
  .sbb 128 64 (.x 118) (.x 112) (.c 0xcf846e86789051d3), .sbb 128 64 (.x 120) (.x 114) (.c 0xab1ec85e6b41c8aa),
  .sbb 128 64 (.x 122) (.x 116) (.c 0x9b9f605f5a858107), .sbb 128 64 (.x 124) (.c 0) (.c 0), .cmov 64 (.x 126) (.x 117) (.x 110),
  .cmov 64 (.x 126) (.x 119) (.x 112), .cmov 64 (.x 126) (.x 121) (.x 114), .cmov 64 (.x 126) (.x 123) (.x 116)], [127, 128, 129, 130]⟩

/-- `fiat_id_GostR3410_2001_CryptoPro_C_ParamSet_to_montgomery`, lines 1637-2053. -/
def to_montgomery : CProg := ⟨[
  .set (.a 1), .set (.a 2), .set (.a 3), .set (.a 0), .mulx 64 (.x 4) (.c 0x807a394ede097652), .mulx 64 (.x 4) (.c 0x186304212849c07b),
  .mulx 64 (.x 4) (.c 0x1017bb39c2d346c5), .mulx 64 (.x 4) (.c 0x409973b4c427fcea), .adc 128 64 (.c 0) (.x 12) (.x 9),
  .adc 128 64 (.x 14) (.x 10) (.x 7), .adc 128 64 (.x 16) (.x 8) (.x 5), .mulx 64 (.x 11) (.c 0xdf6e6c2c727c176d),
  .mulx 64 (.x 19) (.c 0x9b9f605f5a858107), .mulx 64 (.x 19) (.c 0xab1ec85e6b41c8aa), .mulx 64 (.x 19) (.c 0xcf846e86789051d3),
  .mulx 64 (.x 19) (.c 0x7998f7b9022d759b), .adc 128 64 (.c 0) (.x 28) (.x 25), .adc 128 64 (.x 30) (.x 26) (.x 23),
  .adc 128 64 (.x 32) (.x 24) (.x 21), .adc 128 64 (.c 0) (.x 11) (.x 27), .adc 128 64 (.x 36) (.x 13) (.x 29),
  .adc 128 64 (.x 38) (.x 15) (.x 31), .adc 128 64 (.x 40) (.x 17) (.x 33),
  .adc 128 64 (.x 42) (.add 64 (.x 18) (.x 6)) (.add 64 (.x 34) (.x 22)), .mulx 64 (.x 1) (.c 0x807a394ede097652),
  .mulx 64 (.x 1) (.c 0x186304212849c07b), .mulx 64 (.x 1) (.c 0x1017bb39c2d346c5), .mulx 64 (.x 1) (.c 0x409973b4c427fcea),
  .adc 128 64 (.c 0) (.x 52) (.x 49), .adc 128 64 (.x 54) (.x 50) (.x 47), .adc 128 64 (.x 56) (.x 48) (.x 45),
  .adc 128 64 (.c 0) (.x 37) (.x 51), .adc 128 64 (.x 60) (.x 39) (.x 53), .adc 128 64 (.x 62) (.x 41) (.x 55),
  .adc 128 64 (.x 64) (.x 43) (.x 57), .mulx 64 (.x 59) (.c 0xdf6e6c2c727c176d), .mulx 64 (.x 67) (.c 0x9b9f605f5a858107),
  .mulx 64 (.x 67) (.c 0xab1ec85e6b41c8aa), .mulx 64 (.x 67) (.c 0xcf846e86789051d3), .mulx 64 (.x 67) (.c 0x7998f7b9022d759b),
  .adc 128 64 (.c 0) (.x 76) (.x 73), .adc 128 64 (.x 78) (.x 74) (.x 71), .adc 128 64 (.x 80) (.x 72) (.x 69),
  .adc 128 64 (.c 0) (.x 59) (.x 75), .adc 128 64 (.x 84) (.x 61) (.x 77), .adc 128 64 (.x 86) (.x 63) (.x 79),
  .adc 128 64 (.x 88) (.x 65) (.x 81),
  .adc 128 64 (.x 90) (.add 64 (.add 64 (.x 66) (.x 44)) (.add 64 (.x 58) (.x 46))) (.add 64 (.x 82) (.x 70)),
  .mulx 64 (.x 2) (.c 0x807a394ede097652), .mulx 64 (.x 2) (.c 0x186304212849c07b), .mulx 64 (.x 2) (.c 0x1017bb39c2d346c5),
  .mulx 64 (.x 2) (.c 0x409973b4c427fcea), .adc 128 64 (.c 0) (.x 100) (.x 97), .adc 128 64 (.x 102) (.x 98) (.x 95),
  .adc 128 64 (.x 104) (.x 96) (.x 93), .adc 128 64 (.c 0) (.x 85) (.x 99), .adc 128 64 (.x 108) (.x 87) (.x 101),
  .adc 128 64 (.x 110) (.x 89) (.x 103), .adc 128 64 (.x 112) (.x 91) (.x 105), .mulx 64 (.x 107) (.c 0xdf6e6c2c727c176d),
  .mulx 64 (.x 115) (.c 0x9b9f605f5a858107), .mulx 64 (.x 115) (.c 0xab1ec85e6b41c8aa), .mulx 64 (.x 115) (.c 0xcf846e86789051d3),
  .mulx 64 (.x 115) (.c 0x7998f7b9022d759b), .adc 128 64 (.c 0) (.x 124) (.x 121), .adc 128 64 (.x 126) (.x 122) (.x 119),
  .adc 128 64 (.x 128) (.x 120) (.x 117), .adc 128 64 (.c 0) (.x 107) (.x 123), .adc 128 64 (.x 132) (.x 109) (.x 125),
  .adc 128 64 (.x 134) (.x 111) (.x 127), .adc 128 64 (.x 136) (.x 113) (.x 129),
  .adc 128 64 (.x 138) (.add 64 (.add 64 (.x 114) (.x 92)) (.add 64 (.x 106) (.x 94))) (.add 64 (.x 130) (.x 118)),
  .mulx 64 (.x 3) (.c 0x807a394ede097652), .mulx 64 (.x 3) (.c 0x186304212849c07b), .mulx 64 (.x 3) (.c 0x1017bb39c2d346c5),
  .mulx 64 (.x 3) (.c 0x409973b4c427fcea), .adc 128 64 (.c 0) (.x 148) (.x 145), .adc 128 64 (.x 150) (.x 146) (.x 143),
  .adc 128 64 (.x 152) (.x 144) (.x 141), .adc 128 64 (.c 0) (.x 133) (.x 147), .adc 128 64 (.x 156) (.x 135) (.x 149),
  .adc 128 64 (.x 158) (.x 137) (.x 151), .adc 128 64 (.x 160) (.x 139) (.x 153), .mulx 64 (.x 155) (.c 0xdf6e6c2c727c176d),
  .mulx 64 (.x 163) (.c 0x9b9f605f5a858107), .mulx 64 (.x 163) (.c 0xab1ec85e6b41c8aa), .mulx 64 (.x 163) (.c 0xcf846e86789051d3),
  .mulx 64 (.x 163) (.c 0x7998f7b9022d759b), .adc 128 64 (.c 0) (.x 172) (.x 169), .adc 128 64 (.x 174) (.x 170) (.x 167),
  .adc 128 64 (.x 176) (.x 168) (.x 165), .adc 128 64 (.c 0) (.x 155) (.x 171), .adc 128 64 (.x 180) (.x 157) (.x 173),
  .adc 128 64 (.x 182) (.x 159) (.x 175), .adc 128 64 (.x 184) (.x 161) (.x 177),
  .adc 128 64 (.x 186) (.add 64 (.add 64 (.x 162) (.x 140)) (.add 64 (.x 154) (.x 142))) (.add 64 (.x 178) (.x 166)),
  .sbb 128 64 (.c 0) (.x 181) (.c 0x7998f7b9022d759b), .sbb 128 64 (.x 190) (.x 183) (.c 0xcf846e86789051d3),
  .sbb 128 64 (.x 192) (.x 185) (.c 0xab1ec85e6b41c8aa), .sbb 128 64 (.x 194) (.x 187) (.c 0x9b9f605f5a858107),
  .sbb 128 64 (.x 196) (.x 188) (.c 0), .cmov 64 (.x 198) (.x 189) (.x 181), .cmov 64 (.x 198) (.x 191) (.x 183),
  .cmov 64 (.x 198) (.x 193) (.x 185), .cmov 64 (.x 198) (.x 195) (.x 187)], [199, 200, 201, 202]⟩

/-- `fiat_id_GostR3410_2001_CryptoPro_C_ParamSet_from_bytes`, lines 2288-2414. -/
def from_bytes : CProg := ⟨[
  .set (.shl 64 (.a 31) 56), .set (.shl 64 (.a 30) 48), .set (.shl 64 (.a 29) 40), .set (.shl 64 (.a 28) 32), .set (.shl 64 (.a 27) 24),
  .set (.shl 64 (.a 26) 16), .set (.shl 64 (.a 25) 8), .set (.a 24), .set (.shl 64 (.a 23) 56), .set (.shl 64 (.a 22) 48),
  .set (.shl 64 (.a 21) 40), .set (.shl 64 (.a 20) 32), .set (.shl 64 (.a 19) 24), .set (.shl 64 (.a 18) 16), .set (.shl 64 (.a 17) 8),
  .set (.a 16), .set (.shl 64 (.a 15) 56), .set (.shl 64 (.a 14) 48), .set (.shl 64 (.a 13) 40), .set (.shl 64 (.a 12) 32),
  .set (.shl 64 (.a 11) 24), .set (.shl 64 (.a 10) 16), .set (.shl 64 (.a 9) 8), .set (.a 8), .set (.shl 64 (.a 7) 56),
  .set (.shl 64 (.a 6) 48), .set (.shl 64 (.a 5) 40), .set (.shl 64 (.a 4) 32), .set (.shl 64 (.a 3) 24), .set (.shl 64 (.a 2) 16),
  .set (.shl 64 (.a 1) 8), .set (.a 0), .set (.add 64 (.x 31) (.x 32)), .set (.add 64 (.x 30) (.x 33)), .set (.add 64 (.x 29) (.x 34)),
  .set (.add 64 (.x 28) (.x 35)), .set (.add 64 (.x 27) (.x 36)), .set (.add 64 (.x 26) (.x 37)), .set (.add 64 (.x 25) (.x 38)),
  .set (.add 64 (.x 23) (.x 24)), .set (.add 64 (.x 22) (.x 40)), .set (.add 64 (.x 21) (.x 41)), .set (.add 64 (.x 20) (.x 42)),
  .set (.add 64 (.x 19) (.x 43)), .set (.add 64 (.x 18) (.x 44)), .set (.add 64 (.x 17) (.x 45)), .set (.add 64 (.x 15) (.x 16)),
  .set (.add 64 (.x 14) (.x 47)), .set (.add 64 (.x 13) (.x 48)), .set (.add 64 (.x 12) (.x 49)), .set (.add 64 (.x 11) (.x 50)),
  .set (.add 64 (.x 10) (.x 51)), .set (.add 64 (.x 9) (.x 52)), .set (.add 64 (.x 7) (.x 8)), .set (.add 64 (.x 6) (.x 54)),
  .set (.add 64 (.x 5) (.x 55)), .set (.add 64 (.x 4) (.x 56)), .set (.add 64 (.x 3) (.x 57)), .set (.add 64 (.x 2) (.x 58)),
  .set (.add 64 (.x 1) (.x 59))], [39, 46, 53, 60]⟩

/-- `fiat_id_GostR3410_2001_CryptoPro_C_ParamSet_to_bytes`, lines 2119-2273. -/
def to_bytes : CProg := ⟨[
  .set (.a 3), .set (.a 2), .set (.a 1), .set (.a 0), .set (.cast 8 (.and (.x 4) (.c 0xff))), .set (.shr (.x 4) 8),
  .set (.cast 8 (.and (.x 6) (.c 0xff))), .set (.shr (.x 6) 8), .set (.cast 8 (.and (.x 8) (.c 0xff))), .set (.shr (.x 8) 8),
  .set (.cast 8 (.and (.x 10) (.c 0xff))), .set (.shr (.x 10) 8), .set (.cast 8 (.and (.x 12) (.c 0xff))), .set (.shr (.x 12) 8),
  .set (.cast 8 (.and (.x 14) (.c 0xff))), .set (.shr (.x 14) 8), .set (.cast 8 (.and (.x 16) (.c 0xff))), .set (.cast 8 (.shr (.x 16) 8)),
  .set (.cast 8 (.and (.x 3) (.c 0xff))), .set (.shr (.x 3) 8), .set (.cast 8 (.and (.x 20) (.c 0xff))), .set (.shr (.x 20) 8),
  .set (.cast 8 (.and (.x 22) (.c 0xff))), .set (.shr (.x 22) 8), .set (.cast 8 (.and (.x 24) (.c 0xff))), .set (.shr (.x 24) 8),
  .set (.cast 8 (.and (.x 26) (.c 0xff))), .set (.shr (.x 26) 8), .set (.cast 8 (.and (.x 28) (.c 0xff))), .set (.shr (.x 28) 8),
  .set (.cast 8 (.and (.x 30) (.c 0xff))), .set (.cast 8 (.shr (.x 30) 8)), .set (.cast 8 (.and (.x 2) (.c 0xff))), .set (.shr (.x 2) 8),
  .set (.cast 8 (.and (.x 34) (.c 0xff))), .set (.shr (.x 34) 8), .set (.cast 8 (.and (.x 36) (.c 0xff))), .set (.shr (.x 36) 8),
  .set (.cast 8 (.and (.x 38) (.c 0xff))), .set (.shr (.x 38) 8), .set (.cast 8 (.and (.x 40) (.c 0xff))), .set (.shr (.x 40) 8),
  .set (.cast 8 (.and (.x 42) (.c 0xff))), .set (.shr (.x 42) 8), .set (.cast 8 (.and (.x 44) (.c 0xff))), .set (.cast 8 (.shr (.x 44) 8)),
  .set (.cast 8 (.and (.x 1) (.c 0xff))), .set (.shr (.x 1) 8), .set (.cast 8 (.and (.x 48) (.c 0xff))), .set (.shr (.x 48) 8),
  .set (.cast 8 (.and (.x 50) (.c 0xff))), .set (.shr (.x 50) 8), .set (.cast 8 (.and (.x 52) (.c 0xff))), .set (.shr (.x 52) 8),
  .set (.cast 8 (.and (.x 54) (.c 0xff))), .set (.shr (.x 54) 8), .set (.cast 8 (.and (.x 56) (.c 0xff))), .set (.shr (.x 56) 8),
  .set (.cast 8 (.and (.x 58) (.c 0xff))), .set (.cast 8 (.shr (.x 58) 8))], [5, 7, 9, 11, 13, 15, 17, 18, 19, 21, 23, 25, 27, 29, 31, 32, 33, 35, 37, 39, 41, 43, 45, 46, 47, 49, 51, 53, 55, 57, 59, 60]⟩

/-- `fiat_id_GostR3410_2001_CryptoPro_C_ParamSet_inv`, lines 2424-2577; the variables are 0 = t1, 0 = output, 1 = acc, 2 = t3, 3 = t5, 4 = t7, 5 = t9, 6 = t11, 7 = t13, 8 = t15, 9 = t17, 10 = t19, 11 = t21, 12 = t23, 13 = t25, 14 = t27, 15 = t29, 16 = t31. -/
def inv : List InvStep := [.sq 1 0 1, .mul 2 0 1, .mul 3 2 1, .mul 4 3 1, .mul 5 4 1, .mul 6 5 1, .mul 7 6 1, .mul 8 7 1, .mul 9 8 1, .mul 10 9 1,
  .mul 11 10 1, .mul 12 11 1, .mul 13 12 1, .mul 14 13 1, .mul 15 14 1, .mul 16 15 1, .sq 1 5 1, .sq 1 1 4, .mul 1 1 12, .sq 1 1 5,
  .mul 1 1 4, .sq 1 1 5, .mul 1 1 14, .sq 1 1 7, .mul 1 1 0, .sq 1 1 5, .mul 1 1 8, .sq 1 1 5, .mul 1 1 11, .sq 1 1 5,
  .mul 1 1 11, .sq 1 1 8, .mul 1 1 6, .sq 1 1 7, .mul 1 1 0, .sq 1 1 6, .mul 1 1 0, .sq 1 1 5, .mul 1 1 15, .sq 1 1 5,
  .mul 1 1 6, .sq 1 1 7, .mul 1 1 8, .sq 1 1 6, .mul 1 1 13, .sq 1 1 5, .mul 1 1 0, .sq 1 1 5, .mul 1 1 8, .sq 1 1 6,
  .mul 1 1 7, .sq 1 1 5, .mul 1 1 7, .sq 1 1 6, .mul 1 1 0, .sq 1 1 5, .mul 1 1 13, .sq 1 1 8, .mul 1 1 11, .sq 1 1 5,
  .mul 1 1 6, .sq 1 1 7, .mul 1 1 16, .sq 1 1 5, .mul 1 1 0, .sq 1 1 5, .mul 1 1 2, .sq 1 1 6, .mul 1 1 15, .sq 1 1 6,
  .mul 1 1 2, .sq 1 1 6, .mul 1 1 8, .sq 1 1 7, .mul 1 1 5, .sq 1 1 8, .mul 1 1 3, .sq 1 1 6, .mul 1 1 4, .sq 1 1 6,
  .mul 1 1 10, .sq 1 1 5, .mul 1 1 8, .sq 1 1 7, .mul 1 1 13, .sq 1 1 5, .mul 1 1 9, .sq 1 1 5, .mul 1 1 15, .sq 1 1 5,
  .mul 1 1 15, .sq 1 1 5, .mul 1 1 13, .sq 1 1 7, .mul 1 1 0, .sq 1 1 7, .mul 1 1 6, .sq 1 1 6, .mul 1 1 12, .sq 1 1 5,
  .mul 1 1 6, .sq 1 1 7, .mul 0 1 13]

/-- The constants, lines: `const_one` 2581-2583, `const_b` 2585-2587; the file has no others. -/
def consts : FiatConsts where
  one := [0x86670846fdd28a65, 0x307b9179876fae2c, 0x54e137a194be3755, 0x64609fa0a57a7ef8]
  a := [0, 0, 0, 0]
  b := [0x4be8a4e93bda2acf, 0x79cc0e3e90d382dd, 0x3ba4c8b01d9cc79b, 0x5cc73b5a966609e9]
  b3 := [0, 0, 0, 0]
  d := [0, 0, 0, 0]
  S := [0, 0, 0, 0]
  T := [0, 0, 0, 0]

/-- The functions of the file. -/
def file : FiatMont where
  mul := mul
  square := square
  add := add
  sub := sub
  opp := opp
  from_montgomery := from_montgomery
  to_montgomery := to_montgomery
  from_bytes := from_bytes
  to_bytes := to_bytes
  inv := inv
  limbs := 4
  consts := consts

/-- `lut_cmb`, lines 2590-4372. -/
def lut_data : List (List (AffW (List Nat))) := [
  [⟨[0, 0, 0, 0], [0xd082e00700254f12, 0xc5ba8184eb1f1421, 0x4ec9e7d0f010780d, 0x7846b5b72794c8d5]⟩,
   ⟨[0x870fb0417225a595, 0x6cafae705fd57f04, 0xfec1c2ac2e7db9ba, 0x9230823e127a5862], [0xf6cfdb6de4464836, 0x3d79631b9a945ac0, 0xa1fcf2df3d0c880d, 0x17c83e500ee6a611]⟩,
   ⟨[0x3c79c11ae42734fd, 0x1614b2beac4040c3, 0xdd1437252c3a23a5, 0x1a02da838af4f7cd], [0x23d588d6e7d6991a, 0x5f332676d2b3e364, 0x353826809134ba88, 0x8eca826d27090e5]⟩,
   ⟨[0x231f8dc826761106, 0x7363050e3d78b14b, 0xc3b9a1b8c05c4381, 0x29727635b8acd9ac], [0xdd416ae92ed54e6c, 0x546084350b48a87c, 0x2c8deea497093d22, 0x87d2924c0d716baf]⟩,
   ⟨[0x43281d30619206d6, 0x4a8ffc8768744e44, 0xb1011a3d708208d5, 0x2fe86e7ba035b0b9], [0x82f43088a3762860, 0x67b5a303b33595d4, 0x262f16ebb477becd, 0x1d38d4a723e2816a]⟩,
   ⟨[0x91bba3c0ad83c032, 0x7dbc2eb6234f2ff3, 0xe2c00c156d18a737, 0x71d1ae8bccf6dc2d], [0x6183816a2db77239, 0xc545a5120e228c41, 0x3b96d6bc0f49a679, 0x9831d683e49e39c2]⟩,
   ⟨[0xeeaa17a920da13d9, 0xee3130fb8abecade, 0xbfb2ce6aa6e3d089, 0x22bcdceee627a07c], [0x86d7a50c955a1d9e, 0xcd60a425e4e00b9e, 0x5407a6f8615b9e91, 0x7f17b1714f1ca93d]⟩,
   ⟨[0xbc351de00db59f2c, 0x1470e6a19cdaf8af, 0x461ed28960d3b27a, 0x122c8f4b49c7f789], [0xab56e614069fc8ce, 0x9836b010c34e487c, 0x9ee067033fe009eb, 0x88c8dc64aa019563]⟩,
   ⟨[0xd0b4a99663ddbb1f, 0x483286e51d154696, 0xf0586db89f0d6f4e, 0x38167987980446c8], [0x86a2abace4166b55, 0x4e7b4f96a8366c64, 0x20cf2108ed997d8e, 0x20ea98441d01c009]⟩,
   ⟨[0x28b520eb89ce05a, 0xef41147d4faad420, 0xb280ccd3121a2a0a, 0x4c677c8386e8f591], [0xb42f67b2a390aa99, 0xc4ef553b19f8a01a, 0x867611396979027f, 0x6f17766382c202be]⟩,
   ⟨[0xbef6b99627c5c7cc, 0xb2d34f8b10799db8, 0x132e1a3d48ad9b1e, 0x2971bfede68b9907], [0x312f6d31c6b743b5, 0xcf123317a718e0a8, 0xcf1e5266fd58637c, 0x56ba8362e046167c]⟩,
   ⟨[0xd680969d0e910d7f, 0x634fb3c28a4689f9, 0xa79a56df09fdd299, 0x9065269e89411c3d], [0x5d22254e82c6076c, 0xde7d78f081fea171, 0xe136696410bcda87, 0x98b58f5a97638b85]⟩,
   ⟨[0xa532ded4fb5edf3f, 0x604e5631833a7e2f, 0x7c4051d33a09c74e, 0x51d1108aedfbeb4b], [0x9ae61f9e4df1ab4d, 0xfd4966f3163db1a5, 0xf6c44e557075ad6d, 0x670d0d6f4af24611]⟩,
   ⟨[0xd99925ffd369d301, 0xc17e97677665bcf4, 0xb5a908f1cb5a2128, 0x1981791d9c726c9f], [0xc4249418e0861f4e, 0x2a63399fee045d5e, 0x246958fda1b974ff, 0x668016a20fc6f7a0]⟩,
   ⟨[0xeb7018adede07c08, 0xdf3c12592e33d1d9, 0xee0913dadc24e3de, 0x1c632d5b35eb6b0d], [0xc69396dd2c56e1b2, 0x1f0b034a837ce8f, 0x7842b98db6882e32, 0x8fac92309e61fca6]⟩,
   ⟨[0x1dbb7d998a782cfe, 0xeb945b49c9322be7, 0xdccb4e6ee208123b, 0x1c7c265cfc024524], [0xad000d8a6102bc63, 0x7d7f3c7b82575943, 0x8d2f08810d547a95, 0x7012377ad94ffa6d]⟩],
  [⟨[0xe3f78de51eb6cbf7, 0xf4e08a6172fa65db, 0x670b0e06502a247e, 0x7a45d73e9877e492], [0x5fd754ad3dd0cdbc, 0xa5c2b15e0125ab1f, 0xc503836fe614b7a9, 0x5548c4242c50dcfe]⟩,
   ⟨[0xcee7be65b9b38743, 0xd5e4171594be028e, 0x8ec3ca3b5c45f7d, 0x1acfac17fb51261a], [0x45098d93a9c04381, 0x717fc0dca5b45dc8, 0xf352a9c2eabee4e5, 0x1964af20f311b457]⟩,
   ⟨[0x8c2298080802a755, 0x46f0a7ca6140cda7, 0xf0eeb7aebc62603b, 0x8432e1524bf4b451], [0x3c31982563967f94, 0xf04eacb6a042ae13, 0xd7cb2dbc650a6adb, 0x38a36ee378c9e166]⟩,
   ⟨[0x3527a5c5d3ee8657, 0xbaa0de97101645f9, 0xc59c9803ce9d6a48, 0x43d12449f8f39fdf], [0x65b3ab988df7a72b, 0xd225af8eafda9048, 0x88c368b8338a3694, 0x4a5a3c24fbc813f1]⟩,
   ⟨[0xcbcb725a9e2118b5, 0x113f36c5caa54794, 0x5900990e4a0a2267, 0x4e329eb10a9c1f11], [0xf47f4077cd8918a7, 0x18a3c0713877b404, 0xcdef4fe3efeb2b6b, 0x360982dbde4d0540]⟩,
   ⟨[0x42ab64f2d5f8daca, 0x604a9676ee88523d, 0xd430ccabaefd1283, 0x3da9d0e554465f7c], [0x5ec145df41a4216b, 0x7c8f2c51f7e7fbd9, 0xa2e58a23bd483d26, 0x4739f7f9e4a908c8]⟩,
   ⟨[0x37ddf87279370382, 0x9d26a55f12c8e90e, 0xfc1fa6cde8eb0ca4, 0x826a29e5c29dc4f9], [0x15ecb621aa29f814, 0x4c8a81289df1dff7, 0xbb22301966b549bb, 0x6cb21acbb81a2863]⟩,
   ⟨[0xdd31acc211da6928, 0xf98867b0a903d58f, 0xad283697d3679348, 0x67bfeff9301c3571], [0xb745cae6780bbbce, 0x1a9c661862f2ec5d, 0xf9895684a1475beb, 0x93e5ace64731a11d]⟩,
   ⟨[0xf6e94607539483e, 0x5728e6dd9ef4ef16, 0xe1da86e1062e946e, 0x272ebc47f2e07759], [0xe5e688e3909a578f, 0x9f25d6d17cfd1b7d, 0xc582260fade1e2a4, 0x2f50f74ea050071e]⟩,
   ⟨[0xe0a8fe3f2df4d40d, 0xb126e4ef07791f88, 0x69759db42a88d242, 0x52592a3bc9c1981c], [0xd0f4172872f649a1, 0x9ff19b2b0750ebab, 0xefc047f9e0d7d222, 0x81491ca12e8140af]⟩,
   ⟨[0x2da40ff1675f821b, 0x2c91a2879e2e0502, 0x993ecff4077d81fe, 0x3aba2f2c71cc3dae], [0xed007670168413db, 0xc07d61b5afbd4e82, 0xf078262e6bbada24, 0xe0edc629e6413cc]⟩,
   ⟨[0x6cd0451db7d099f9, 0x8fb218e6f8b12c83, 0x4d8c3b26e55ee1e4, 0x949649064a6fcd90], [0x9abb96854beaca48, 0x6a749487868efec7, 0x46bb9b42c8d2932c, 0x82384321de007bac]⟩,
   ⟨[0xdbecb743a942db71, 0x21b5211521a6bc46, 0xe49b689424c17d78, 0x737fd3f189a08e17], [0xf833e404c36e4e57, 0x512c114a01e17ce6, 0x65a23d7350d75050, 0x838ca746f2f2d438]⟩,
   ⟨[0x28f9220ca20632b7, 0x72d8c347642358d6, 0xab15fe1be89caa6f, 0x2a09b1436e16374a], [0x4ced0986b983cfe8, 0xd9b067b697b84e88, 0x926fc5f5c2350f8f, 0x31d7735884e2078f]⟩,
   ⟨[0xa7815ce77ff17ba1, 0xbe80bb6ca26bba1b, 0x66dae535f86df104, 0x72739199ab1b9c09], [0x8e93f3c854056e67, 0xdc5e3855ebf23595, 0x70d1033c78123000, 0x50874350f22dd2bd]⟩,
   ⟨[0x533f213bc2700468, 0x31e6aa9c11bea732, 0xcb5e184e4491dc82, 0x8a68049a5bd63975], [0x1724ac47f86a41d1, 0xdf9a0ca3eca0da11, 0xe5e1489c71f0ea19, 0xe20661ac9dc7bf2]⟩],
  [⟨[0x5eb4e319f86d9da8, 0x3cbf130ee0a46703, 0x166d52da00a4ab17, 0x27a80547b7030861], [0xa7601086399c32ba, 0x571e4e4bc2f0a5e5, 0x72d12f6b39bed44d, 0x8fdcce3d1af8f25f]⟩,
   ⟨[0x281f7af97dfeb40d, 0xcce33b9d7f767d5, 0x3e8bf3f48818c1e6, 0x6d909d0d4ba4647a], [0x91d77ba0fac574d1, 0xd259266168ca7fec, 0xc4c7d6b5281f269c, 0x7a41cd78da42cddd]⟩,
   ⟨[0xbc8e0d27a3b8f255, 0xf5e2a8b11c3e5190, 0x8c38862bd609f668, 0x4e31c18e0631d50f], [0x9013eddbf13e0ccd, 0x83b04e6841efdaf7, 0x15ec4bb8dc82597f, 0x5059515056117705]⟩,
   ⟨[0xd25f244d1e0e0161, 0x6c975d7b1a437fba, 0x305db2df95f2ad8c, 0x17d6e0053b9cc742], [0x6a849f76e60bc3c3, 0x35523e08bf8c3790, 0xf18b5335239140e2, 0x5e8570557ca5ff40]⟩,
   ⟨[0xb48f07a4a4250e95, 0x68735aec7f17667, 0x30f8d31394771b24, 0x598ea397a495a064], [0xbf19252968b76855, 0x897e3cc6c7c0d2d6, 0xa2a4948f64ec9649, 0x1027891aae7c8598]⟩,
   ⟨[0x442e6cb04585685, 0x9ba61da82a2d258, 0x7c5400b10ae5466d, 0xa0b71b0c2133893], [0x4e3d98ad5ef6e93, 0x177ea5f8f332bdf2, 0xe7cf3f71c3fae583, 0x40c451338ae0cfd7]⟩,
   ⟨[0x6be94fc39b82e738, 0x212fb8048bc262e2, 0xe17f6a7ab22e21ff, 0x22b7bdab15e960bb], [0xe154c945771350c2, 0x6505b8eb882db07b, 0x149a0a16c7e3abd3, 0x78f78abf81c30aae]⟩,
   ⟨[0x6ed81415c954bc0a, 0x316e801270e55349, 0xec02323b50399c09, 0x963ba97b8559c3a9], [0x39fce50e037ec345, 0x422a082dd5bf03fb, 0x59ed39e418dcc77e, 0x4cfc3f11a40aa978]⟩,
   ⟨[0x85a5692255d7c9b6, 0x5bc590e2b451111b, 0x3bcb23158782c71b, 0x1f3456c4632246a9], [0xea577ad99cfbbe19, 0x51bee4035cce939, 0xdc3008991a0c589c, 0x14877eced2095619]⟩,
   ⟨[0xb64d0ec695024c5e, 0xb0597195b94cdf74, 0x3b97b51316844010, 0x48799881ccbabc63], [0xe3119aed9819075, 0xa5dca9c1eb0299fd, 0x8063d7884a404d13, 0x974d2a1a8044ebe2]⟩,
   ⟨[0xb6589045b8e14640, 0xfad60a435507b9be, 0x9d540c1c56ff32bc, 0x47ecc24f74265a69], [0xc829f18db3e64c9, 0xf7c0c6d772e87b2b, 0xcb3fc51216b616ce, 0x549b9227b94f69b1]⟩,
   ⟨[0xb151dee9db235273, 0x2fd9496f6d65606c, 0x6a5e172dd62b5b0d, 0x181e605dea0ae249], [0x66d7eb098911490a, 0x85e174a32e70def2, 0x2da133544ef8cfa9, 0x1b87fe623e69bd22]⟩,
   ⟨[0x2df420ca2bb09564, 0x1ac26f767acee4d4, 0x50c68e6f2bc7ef7a, 0x4730d654b445b2fe], [0x90c040d98b57d38d, 0x28793db533ca2c77, 0x22d2b573ac6a4be8, 0x68c0dbddb72e7e01]⟩,
   ⟨[0xdf70bcdc09e2d3ff, 0xb6e599709f20f624, 0x5e04fde76de3119e, 0x1c9b43ffd5705a5d], [0x7c23a517681270b0, 0xdd7fc8339303bf40, 0x3028e496458ee80a, 0xc72006352590eef]⟩,
   ⟨[0x27b297102850a5ae, 0xd1e6fbbaaa3e0397, 0xcfb44044df8fcbd6, 0x7cd86272c52b90fd], [0xb0e7fa93eba52025, 0x6416630304084ef3, 0xd7c7dcbe43840178, 0x8bc7ff7722fb81a2]⟩,
   ⟨[0xabdc5206dafce699, 0x522a913783c5f3a3, 0xbaa936370e666e5c, 0xfd813dad2d33b62], [0x833919085d417354, 0xe5aade1da6b9b447, 0xbde90a3cd68321b1, 0x43ff95140411531b]⟩],
  [⟨[0xd61dee6439648345, 0xf8b3fa1c7fcb5b5e, 0xdd531ce124c29c71, 0x7a23608bffb825fe], [0x8d607b82f0de896d, 0x6e49733006eddafe, 0x8b49eff0c935e754, 0x90d54646ee08bdbf]⟩,
   ⟨[0xf44fbb169044fd39, 0xa72128c4dfb38141, 0x8467f68801954cc0, 0x741c23eeb560b5c5], [0xa7f422019765cf34, 0xb26c97bf8a2ab61a, 0xaa948763cbd45af3, 0x74c993c2e21479f5]⟩,
   ⟨[0xd968ce1abfa717a5, 0x45c1103d48e92615, 0x4ccebe85dd98207d, 0x8a75df6ee65e5fe6], [0x9e582c40418c47c5, 0x2e9ee003a450009b, 0x7c079613dd60d3d2, 0x80a78c4a9935d8ca]⟩,
   ⟨[0xf6cded58d3c9b903, 0x4f27927def455e7a, 0xf9dbbb9e833bb3c1, 0x4107cfbf6ba3770a], [0x61871175520fcb57, 0xea3a307b47a12c8e, 0x940ddee8c24e9e75, 0x8ae8f22cf33541bb]⟩,
   ⟨[0xe4c898703973dc0b, 0xcc3dd1ac55dfaaf0, 0xb63d596b27372efe, 0x1b92a19245a33718], [0xeabebee00607319, 0x69b7355e7c3e35ee, 0xf7354e352233c454, 0x1e2baada1e722c0a]⟩,
   ⟨[0xd0e47fe23b9fe86d, 0x878f403fdaa1c7bc, 0x5447ad5490f5ded7, 0x4e8a997b1e58b03b], [0x9ad0e4812e926fa8, 0x871efb9e8d0ef3aa, 0xadd7dd147e714df6, 0x9a30245a2308ee02]⟩,
   ⟨[0x44838b15904f0d11, 0x6177587a2a2a70ff, 0x402938502c2f7943, 0x8f85119167581701], [0x564383d1842e6434, 0x251af59daf2c0078, 0x8a81772d3354a264, 0x9aafa350dfd2d0ea]⟩,
   ⟨[0x4739793235461cad, 0xf86bd4362c5bffa, 0x5f166bc07785490d, 0x7dccc9882bd61b3e], [0x44c3299a9394375b, 0xc5f2803405a34bd, 0x3ad60f1d4237e728, 0x6e7e06d072ec2562]⟩,
   ⟨[0x44ad84713c5840a6, 0x40c3ce2b4752bc62, 0x94b14c21ec3fd75f, 0x65e0e6af2629c0c0], [0xa3fe2f5555936454, 0x252ad743780e25e5, 0x22f9951bff4e107a, 0x1b8a7dde554cea49]⟩,
   ⟨[0xbbdcc2c089f1c6fa, 0x548fef29c360a51d, 0x94dad451290ec92, 0x792f6fb9af55bf30], [0x37ef4abe707fbf4e, 0xf43ab0dfc4b6bd0, 0x850015b72d6ee5d9, 0x9273f3535c1fd65]⟩,
   ⟨[0xcecf1b90a6c3209b, 0xfb4bc864abd433c0, 0x38246aaa3eeef8ba, 0x4bc7904e9ed13f88], [0xa61c369a8e783066, 0x496fb8314d1c832c, 0x1907687a03ad64d5, 0x49516ea583425766]⟩,
   ⟨[0x8108b704b1714e53, 0xb458cb4b82e39be7, 0xfcbd51cc097049de, 0x415f4079722e8cba], [0xcdb06f5e342df9c6, 0x64885cd11281ac74, 0x932a05e45366673d, 0x7333520be83ad23d]⟩,
   ⟨[0xdaa0a1efc54b523c, 0xa3e80053b3c261c8, 0x352cc612558fcfa5, 0x1b9b755d85852b14], [0x19ee2cb6a1b541ff, 0x2b531ce2d5786b4f, 0xef5ea6df08c3e15b, 0x82161b0487111129]⟩,
   ⟨[0x5ab533a5fceabaed, 0x4c2147a54a4d8e44, 0xd8eee795da02d43d, 0x8cb648dfa15c1cd0], [0x4869fb6ca788ddde, 0xf9554d1477c03759, 0x4d25b41a96187db9, 0x662fbab33fe0b3f3]⟩,
   ⟨[0xd3af4d09a58a5b2e, 0x3c5dd2985ce88dbe, 0x89dda42e7426c2a4, 0x2d832b0749095424], [0x24efcc0362aa84cf, 0x348c19dee86923d7, 0x453e928635db5cb1, 0x3f48eeb8db21cf3]⟩,
   ⟨[0xbcf9600ff4035856, 0xe77cec83af820e18, 0xc87d43c17f2fbcc1, 0x574c4cae6290b18d], [0x8bd8ae45e56e1efe, 0xb1efd68475d6fcc9, 0x9829f227a361e753, 0x9a50b4255211b784]⟩],
  [⟨[0x26f1959036396f78, 0x350d1a769ad1982c, 0x33bdb4ab947f352e, 0x6ca38b05ffe1e1e1], [0x55364c26f2a8ca0, 0xaf15075d2969ca7e, 0x2916d58fc3b9cb70, 0x18d94a8bd7325693]⟩,
   ⟨[0x87c41809f36eb789, 0x8c3517f9a7436f54, 0xe7c02e1d3d785160, 0x5bafe72e418c7abf], [0xa00a8e76cd9b27c2, 0x667918087da06823, 0x342a03d920ec00b4, 0x44502a7e6122589a]⟩,
   ⟨[0x3a492f735bdae972, 0x5184d076126a07de, 0xae49313cb56a38f0, 0x66ccc24e9ec47e0a], [0xae84941bc03cf3e1, 0x771afc575a73440b, 0xabf93dc8c433e43c, 0x974ee822243c6828]⟩,
   ⟨[0x468d7fdba7a5f66c, 0xbbb2c482b18defcc, 0x188b8cacfa2e7dea, 0x7894bc93be0200b9], [0xa31813386b84750e, 0x8b14bdb237356096, 0xa9200fe7d62f4813, 0x8df664a36f7627ce]⟩,
   ⟨[0x39bf14dddd996cf1, 0xd00b3bf5f7f42d26, 0xf1af5a20017718a3, 0x34a1e94babcae05d], [0xad75d1b5c635d333, 0x97e5bd3987210a5a, 0x11684ca6a0327bf4, 0x25c511179b8f0a46]⟩,
   ⟨[0x7e5cd79fa935a9b9, 0x15dc70c2a22dcd16, 0x5cda47e678a420f4, 0x37e0364eea631104], [0xe7c469565e47b630, 0x7bd4c4a7e42c4dcb, 0xa76b87a71c91117e, 0x2aa043ddada4b5e1]⟩,
   ⟨[0x6bb06b5a875ded57, 0x89452b3bfead7b14, 0xcbd5ca8a6e39e1f, 0x2dc5917c3bfa7a3d], [0x6395d5b8f840b6e8, 0xaec9342fed8589ee, 0x8332a1b877979e67, 0x29b55822c59f97db]⟩,
   ⟨[0xfd145ff77d65a8f4, 0x8fff7ee0119c9afc, 0x100d0e9afcd6214, 0x98de55e5a3b988b3], [0xbaccb2e00151bf2, 0x2b422d0966091583, 0xc4d15e1693c66a3b, 0x1c107559727de9e6]⟩,
   ⟨[0xc019c7d73cb76edf, 0x6456dd91151f5e14, 0x29e95b6657cc7078, 0x9193f4d9e9bdbcec], [0x375837b04806f8cb, 0x52d5528aaa954620, 0xe71f9f601b9d6d34, 0x910e4fa1df95759c]⟩,
   ⟨[0x8d31b2eefcadb5ea, 0x814ff77a63c7498, 0x236569c05e3d927e, 0x7f669dad95bbb9d9], [0x29158c9a305b0347, 0x99b9b7e752d468eb, 0x6c4cabc3b4342443, 0x125afbea0a803ed4]⟩,
   ⟨[0x850a150b101faa4e, 0xb586bcda11ecdabc, 0x9692ef834dad2264, 0x951716ed2b67f5e], [0xa2295f20924dd16d, 0xd8327275d0ce88cd, 0x45f8dd0cc683ada3, 0x4a798b3388c26024]⟩,
   ⟨[0x225395cfcaf71198, 0xee223712ca3f67cf, 0x972b019981280061, 0xcb20e7a280ecc12], [0x6f04da870f54717, 0x5288425e410b9712, 0x6c29a51474cefb4a, 0x4218ecca849e2fd6]⟩,
   ⟨[0xd85663a3b33574b6, 0x7469cfb1faf7d3a2, 0x9c587ec43cfa8876, 0x5dae46aedb24ed63], [0x66c8da33c413e494, 0xb8b256b665942568, 0xf09178ea7a4caad, 0x577d4adcafebc90b]⟩,
   ⟨[0x49009ba692d6c3b4, 0xe9cf4915b884faac, 0xc12377d36f3dbe23, 0x2f6e0e86ea6b680c], [0x5df2cd5ae6c5e24d, 0xaae7e145ee608dd3, 0x5357cff28a7ed956, 0x8377126c3912dba4]⟩,
   ⟨[0x6e83a6c6f83bc3f6, 0x3633e1e4c0cc09c6, 0xc2a268bbc4b73a5, 0x688369d3125688eb], [0x64ee03e173e75809, 0x21773ee98e110c46, 0xf0bc6be9a6a648b1, 0x399121837e0041e7]⟩,
   ⟨[0xcc09774a26f5716e, 0x1cb17f9fdfb59e9, 0xa88d1269ae8938b4, 0x99a40d17d13047c9], [0xe469c9846fc672a3, 0xda6534b65638b928, 0xc56eab20cde40c83, 0x2c1582b1bd93af10]⟩],
  [⟨[0xe4c19851a3f45c37, 0xca0feff2c7d78fe9, 0x27b41d89a7e444b, 0x1f1b242f15d38cbb], [0x1c6c132cf1f50ab9, 0x2a02a3a45dfe7530, 0x2b1eb8e26e29159f, 0x5f3f4ab72eede876]⟩,
   ⟨[0x362ce0130f2df95c, 0x82e4e19226480bfa, 0x9aac9a966beff080, 0x5a1636f68ee2b59c], [0x600e0339fa049ccb, 0x56680f80f2f57163, 0x2c395cc17b4240a7, 0x32edfe4a9c86bb64]⟩,
   ⟨[0x8d9842ab711aef69, 0x7a1c2429890831f0, 0x924478df54cda99a, 0x791a1d45e25a02e2], [0x1433f569170f4c21, 0x9f42c8c1ca5f8bd8, 0x377740f7067b3201, 0x75145fff2ece5d81]⟩,
   ⟨[0xcbfe782a39638f43, 0xb0c0ec09e07553d2, 0x8d1c41f7115c673a, 0x8510551aeb39e385], [0x92000181ba275803, 0x8af63f4a27b9a42a, 0xd50ecf0f52297029, 0x1dca33a566883c56]⟩,
   ⟨[0xb2c44933c51df9d9, 0xca6f9fb0e66d80ae, 0x78cd2eeb82839ba4, 0x8ff8bcc8f7afbcf3], [0x5ad00c704164959b, 0xad901c71e83ed8d5, 0x56ffc0a92b52650d, 0x689b171780126a8]⟩,
   ⟨[0x2e902a395eac1dd8, 0x7681eaba7cac283f, 0x3608cd878525b7c, 0x9665b805eb95540], [0xf09f9805306ee831, 0xfb00b1c6e41d453a, 0xd8bb95597c93e727, 0x3b74fee72ce63fd8]⟩,
   ⟨[0x73f48b330a22daba, 0x797de0fbc8fc3e20, 0x69c1bee29e79222d, 0x3052f67a1df4c549], [0xfe9128a9ed78b6fb, 0xd9460cff29ccf94f, 0x53737484c1fd1daa, 0x83adcd011edaeeb2]⟩,
   ⟨[0x189ec9aa2ba4195a, 0x61345757c522be92, 0x35bab72a39efb05d, 0x82b27322ae0ac461], [0xfebf0f8cc07f4382, 0x1ca2b3d7dad2ed8e, 0x4800a0370a27f89c, 0x77d1b2fc9815d971]⟩,
   ⟨[0xf9f46089ca0fc66a, 0x5bc406de8c23e4e1, 0x1d7f3ba98dbf6dd5, 0x685b9111679d5587], [0x93554084b85be0d0, 0xb081e9ca7b9eb16c, 0x58c428dc60f0d0b0, 0x12442c1a30b3c6d9]⟩,
   ⟨[0x147b843c567226be, 0x2b2bffab429a8ffa, 0x7a4678ebcd435c2f, 0x200e85133c0b887a], [0x9d457aad90605cdd, 0x6736a242157f29a5, 0x779b0d25549fca4d, 0x57477ee917fdb4d9]⟩,
   ⟨[0xd9b15fd1ecf06cdd, 0xecf75fc0c1cc2cfc, 0x273867c3a56b39e5, 0x72f3ed4579340b7d], [0xf31c9e4c55b6c9b9, 0xed96826e0448fe57, 0xe2df54ad8bb7a02f, 0x945e7b6bd79d71cc]⟩,
   ⟨[0x32b6ce429270e878, 0x980c8f6ed6eebeb9, 0xc5717c8555808237, 0x4469d0a0cca3f298], [0x2b9dd7e91a18c0e8, 0xe9d124016a0ec412, 0xf889de9831f44b32, 0x692ee1e678854a7f]⟩,
   ⟨[0xf2360597adeeca22, 0x94623ebc99a4c198, 0x5a0d49c4e4169d20, 0x7be2c5bbbf0384f0], [0x42db0d408c537851, 0x198a09a465c50782, 0x72f80bb745ad7ee0, 0x4f83164b11fced06]⟩,
   ⟨[0x54e5b07c95712af0, 0x95e7f5d91e893387, 0x383bc5aec61d7766, 0x9f626ed681c28dd], [0xd32b726df97e3c9, 0x2ac622387c7c4786, 0xecea0c6ad3f5ad40, 0xd26633ea870a132]⟩,
   ⟨[0x40a05a14c3d42d26, 0x6577ca1f3bde0e3, 0x3daa258418b73fb, 0x205e02e60efdeb86], [0xf5479e4d99f90d56, 0x4e699bf3368cb6e3, 0x534f674362e4a879, 0x18473603a9d78191]⟩,
   ⟨[0xa23d79cf5c1ed4f9, 0xfade1cf5f2248b01, 0xa3d528276f4d2164, 0x1f211c0310b731e5], [0xb415884d97229e2, 0xcabb7d8980fcc283, 0xdb9bc75298ef388a, 0x50af2a4a93e80262]⟩],
  [⟨[0xd11e80f1d57dd821, 0x11cae463dda2ab29, 0x21cafd16e628f315, 0x296a84e97df70cd4], [0x9ecf75136e9ef995, 0xae87525706e28855, 0x78e1b7e95ded383c, 0x6c5d8ecc5e940f7f]⟩,
   ⟨[0xcbd3acb9998ee9a3, 0x990cdff6d0dcf584, 0xfb4346cc7ce5dda, 0x5edeef9b355e268f], [0xacd8b4a2c215036d, 0x70d3699591c7486b, 0x72d5243d52c6694b, 0x54163b48e5f8b99c]⟩,
   ⟨[0xd2aea2ff1d76a94a, 0xc5b4fbf1379f780b, 0x700042f7b33ac708, 0x7da790bf8183e0ca], [0x95681fe6eba72fa8, 0x1f0a390ee22e254e, 0x465a58f8bf07a8a5, 0x840ea2e7fb1fce40]⟩,
   ⟨[0xd955c5b544048484, 0x7107d5956935c5e4, 0xfc6574448a0fce44, 0x97df2b4d2800e517], [0xb1bb3282c482414, 0x152614cc4e48cdbe, 0x48051fb642ede4e0, 0x91125b933dbffe52]⟩,
   ⟨[0xa2f526c7cf898f54, 0x8788ca1283080857, 0x2f4427234562f7b0, 0x837772abc044560c], [0x51ad2f7131bcb2ea, 0xf1d33fcafc5c03d, 0xdbfe541f7bd352a4, 0x8b44139964b8343d]⟩,
   ⟨[0xfeb96b8c44dcd145, 0xeeb3007ceff22d0d, 0xaf64dfc1252a8c8f, 0x5d9b0a05d131e0c5], [0x28c943efabfed144, 0xdfbf730cb6a2273d, 0x6cc5be44e2a1bfbd, 0x55fac03309030fcd]⟩,
   ⟨[0xfaa58543728f39ec, 0x9b2f10ba40b37b15, 0x96505c7f7254a419, 0x4f4ace5879c7ff9], [0xc0b4b576bc5fda53, 0x12549929f7abcd3c, 0xf5631e313fec34, 0x89ea4459798c7cfb]⟩,
   ⟨[0x671137b50e2020c1, 0x77727861a4dc66c3, 0x8ce05ed181492a26, 0x42bea541a0c3f612], [0x6d39e3d1b0e461eb, 0x459a8e1309fa806f, 0xe2a185c1466cb93b, 0x17d131cee21ecb34]⟩,
   ⟨[0x2141e262387a15bf, 0x675b5e7c6be61c42, 0xeec1bdd4f1cf93ef, 0x6acf383823bab1f9], [0xa2f84e23b0b39c86, 0xe955dbbce244e0e3, 0xe0155980b7a8102a, 0x1e117dc8b23012fa]⟩,
   ⟨[0xc92a36aa6eb36280, 0x5aed3a1d5e906d78, 0x8d336221ae4e430a, 0x3f184f1dd3aa50ad], [0xd14810ec916d9741, 0x2900169f3322d9b3, 0xaff1a06004728254, 0x89c4c67326f60b5f]⟩,
   ⟨[0x5216e0aeb7f0d157, 0x3b8d2226c9f38aad, 0x283e3e3fbb34aa79, 0x94da80fa565cab83], [0xddb51943e6ed4a46, 0xf3affa9a7cdd5fe6, 0xab493ccb648a84f, 0x128356b6f15ee45f]⟩,
   ⟨[0xd2ad34f4bd0f02c4, 0x3dc9b6d1719bcf1e, 0x11edb8f112eb5ae8, 0x33ac71d871180f90], [0xae988feb59621d7, 0x32042b528f348211, 0x7e6787c4eb0cebd3, 0x8c4d254926b8a526]⟩,
   ⟨[0xa3b461544d40ed72, 0x3a096546f6cf3972, 0x9c7bc931b3e46d8c, 0x85b77bad90486c75], [0x95b706e56ebd35e0, 0xc1e18243101e098e, 0xf17c23fff01c17e1, 0x3223527285ec224e]⟩,
   ⟨[0xe816235dfd24fa16, 0x5306cbc30b3aebd7, 0xdef60a9a8be25cb7, 0x4b889a0f512999c2], [0xab86a7f867b29fd9, 0xb81c532db5461bcb, 0x810e9a0cd34d9819, 0x1e3530093092515d]⟩,
   ⟨[0x4682633921fb0bd9, 0x9cce9a43003bae50, 0xcd2216c32eb45b4a, 0x13598548c7e0f2c3], [0x8b0bfd7254611984, 0x705cb52589c0b05a, 0xd9073d87ce880dd8, 0x1ea534cd003dcaeb]⟩,
   ⟨[0xc7aac256c58b4413, 0x301109d6e8054f96, 0xa1f44d29c7e7860, 0x55d122bb96f15424], [0x9a63098f1c14a8a9, 0x8e01a9dc4221cdfb, 0x11c91fcf357b360a, 0x70c47aea036a3cf4]⟩],
  [⟨[0xc0457c4f036a843d, 0x6e3e0801f1f593cb, 0x1aadf2d88c53873b, 0x5cec5c7b0d140c8d], [0x4341a9ab328002e4, 0x11f22331c410d034, 0xfcf69ef5db6a39d, 0x3dd32a53b84fda1f]⟩,
   ⟨[0x19e52339af8c811a, 0xc8b8380092d46c4f, 0x891c4185ca8463a3, 0x5b51651f98f3ff1b], [0x3d1496070fb39dca, 0x39eccde2b1051394, 0x3633de271a14522b, 0x5fe551147c59a9a5]⟩,
   ⟨[0x68c8e0c62f0b507f, 0xdabc8eef05b62c5e, 0x297c943ae6165c1e, 0x337c6b947d7ca6d6], [0x66f98fe4d6066191, 0x745bfeba58945da9, 0x600447873b29a546, 0x2815651ee2d4edf2]⟩,
   ⟨[0x54a3be7463661218, 0x89c5636415e79415, 0xe03c6963405e4932, 0x86e101ea9a619956], [0x47baf2f3400dc92b, 0x5c44512c291e4059, 0xd7f84b8eec6d7bf9, 0x6cf4254025ab8d79]⟩,
   ⟨[0xd6e1b75db885dafc, 0x7a33ce4b6128014e, 0x80df9948ea9ff260, 0x99e0a11cd2b5872b], [0x960bdc3de2435510, 0x4b0ecc5314f7a99c, 0xe815db8b5ac6170b, 0x3095615617d5f2dd]⟩,
   ⟨[0xa035e3ce57166fce, 0x71ad409540a75b80, 0x639c4ea7db7d0bfb, 0x7a90be97b12dbe6b], [0x91aa30f75f86a60, 0x67c0f795509aeefc, 0xf028c12a331629c5, 0x90d26b1c8a1f7478]⟩,
   ⟨[0x6f01554eb6ac2ad5, 0x9dd0576ebc9a48d6, 0xab37201397ae2605, 0x1525d8b5bb83852b], [0xd50680c3e46e4c61, 0x29fbba5cecb8f06f, 0x60a48ab4b16637a3, 0x8bb47967cd1490d3]⟩,
   ⟨[0xa35a01874b7c7ea6, 0xfe01521ab4d6409a, 0x57cece628fde1e30, 0x1a9a9b2df4f51d55], [0xd33556be221ac58, 0xa4a1a34152508ad, 0x1fd61da10144aa33, 0x4804be6aedc7c5f8]⟩,
   ⟨[0x71ec8155b363a84, 0x359c2a9ffe11ed05, 0xfdf80c9b8bbf9bd, 0x928e51a4103accbe], [0xd152b6e7d5e8a222, 0x6368e3a8cbe022c9, 0x2e5055de3128b659, 0x51e23651d21f1062]⟩,
   ⟨[0x5ce999d734834bf7, 0xe386394c3dc831e9, 0x6dbd5eca7fe48564, 0x804bc07f556841a5], [0x2a8b616c229a9175, 0xaeeb533aa1b3ef97, 0x9d858f9d6f145037, 0x247ffab07f6a8ebb]⟩,
   ⟨[0xe616e779099eb4f3, 0x4f360d2ef1b1926c, 0x28ee1f9117055397, 0x9994d7ff844afcf3], [0x8824a94912cbd801, 0xa3afed4d6a4484dd, 0xcb16cd673b5e36a5, 0x5490c30dbc3bbea9]⟩,
   ⟨[0xea43ca5ad7601122, 0x9cf2a15bd248eb72, 0x4ce8ab75b71d18d0, 0x2576c5b1041a19a5], [0xde20fd028cc1496e, 0xc9fe5b0c0be51831, 0x9dc17e323a53abbc, 0x94e24dd9f4c806fa]⟩,
   ⟨[0x2a9cf5f10df1a4b3, 0xe019675415063c08, 0xce9cf2c6ccf88f77, 0x51acc7b5efe91c6c], [0xc2302efa799fe2e, 0x5ee756a469c0d117, 0x7e907ec2f4eab1a1, 0x19eef95bd98022dd]⟩,
   ⟨[0xb170d483a8e7ffa5, 0x2052600a39180fac, 0x8ead52d4a68af290, 0x1b88cfeff9e3641], [0x3d9077f765bc2d0c, 0x2af9cf673abcdb1c, 0xea104e747295dada, 0x7df23470eb1e5d6e]⟩,
   ⟨[0xf54d98d8e53f40b, 0xbfc22e9baf360481, 0x309973b6e132666b, 0x1f40d11f25e783e0], [0x8eebc9d7f00ac3eb, 0xbd725d822f9adcc7, 0x4776781066efddcc, 0x60b0b1004eccaf67]⟩,
   ⟨[0x498e2074b98c7e96, 0xbebf518308bf31a9, 0xdd4aad3894dbe7, 0x66c047a4429878f6], [0x16f2cb336d0f1ab1, 0x5fa2f18158669acb, 0xfa4b2f49486f1be7, 0x1ecaaf6b5698f41b]⟩],
  [⟨[0x2999c2124dcc455e, 0x83897e49bef617b8, 0x6b49ce265a218e0f, 0x49a5c9eb88ef7ea7], [0xf0eda5fff63ec82c, 0x736d933dead471cd, 0x10e4431ddf8071c4, 0x8c59c10738e1523c]⟩,
   ⟨[0x569fb74e5a54a4ab, 0x72788868f3384c14, 0xbc840717107b417f, 0x6682c1077e13210c], [0xb3359fc277b20150, 0xeb923e66a9e03222, 0x490c39fca10cf332, 0x69099c2d49ba035d]⟩,
   ⟨[0x6498672003cb2c6e, 0x994054a1328b22ba, 0x4155c6b96f0542da, 0x216cf760a3b93ffb], [0x744861845c2ad753, 0xe517984ea0cd3660, 0x6530bc863d7da8a1, 0x4328cf92e46ca79]⟩,
   ⟨[0x4100aded4798cd35, 0xc832796d635baecd, 0x7ef1ea955b80e18c, 0x6889a91b426b1aa9], [0xc40a0a870927c6f8, 0xd60cfd1c2b86ed45, 0x98731dffd57350a1, 0x1c52eae91de4341f]⟩,
   ⟨[0xc287e33b23a40faa, 0xb96d9f517a633bdc, 0xf6a5b779e6d0f326, 0x10203fe1f619de4b], [0x11fb53ec4f18bf8, 0xaebb82f6bca32ca0, 0x6bf8ed5f881818d, 0x3a6a3e3518247e6a]⟩,
   ⟨[0x3bf2e96e00625dc1, 0xd81ad1565a288f80, 0x4c3269eb7ce9b13, 0x3e18eafc2f9e2713], [0x20f0e05d9d0bc74a, 0xacdb4b75d8140790, 0x12918a7ef1b5b265, 0x22a70af96896342e]⟩,
   ⟨[0x326a28a29c4b6b08, 0x21302f37a17d3d57, 0x181378e7ce36f438, 0x42b07ebafed12de1], [0x81ddd200468ad4c, 0x32822ec364df34ae, 0xe9f8d7c204b2192d, 0x6abc7220918666f8]⟩,
   ⟨[0x9333070104af3956, 0xeeb7aa8e872bd30d, 0xfc96d106d0e67494, 0x516028cf3a918dfb], [0xfaf0b6f7fb27b6ec, 0xfad73ad515da78d, 0x5f136068d8cf1934, 0xa526e04b6052802]⟩,
   ⟨[0x20df0debe4685212, 0x71d4bac1a41b293f, 0xbcc32a2f2fa8bbac, 0x32a8723af30cc343], [0x71e6daafef95acfe, 0x27d158f69f445394, 0x2140f78de186b246, 0x4caf98c3cb1c83ad]⟩,
   ⟨[0x94e264fcb6f63aa9, 0xf4637b024d0fe485, 0xa4bc0a03069ccb4e, 0x99a81e379e25e817], [0xe3b804a78f4d37bb, 0x57f272a5e38e654c, 0xd1852c05928f65, 0x3031b7134345dd06]⟩,
   ⟨[0x6e42af1157536140, 0xdc5b7cdc005a403f, 0xe6ee185e26527417, 0x1003d0137c685bcf], [0xc2206bf6192979e6, 0xd1c370db6fe38214, 0x78d105b792f3c044, 0x2f0df6b8bfdf8dfa]⟩,
   ⟨[0xb02fca3844d04c4a, 0x956a2f7ca44566c6, 0x60672df39f1f09c6, 0x6459a9492160c362], [0xdae5434108714451, 0x48b77a0dbffd7cf6, 0x615adbfe3edbc8d4, 0x3338e55735b67d2f]⟩,
   ⟨[0x601d49d1dd24a0f0, 0x60a48db748ef27b9, 0x97f2212c97a8bac6, 0x376b0292155ab524], [0xa25881ba62e2a961, 0xeb74cc802b8c56f7, 0xbe5c5dd4da57c41a, 0x53d0d0372d16afa0]⟩,
   ⟨[0xe47c9eabca291206, 0x25dadb6442d5c667, 0x8c154cb6d886993e, 0x11dec39c806b932f], [0x51a4dcf313d4b4e5, 0xaa1dad6d9d1d822a, 0x2bb2e14dceef2e29, 0x429c13c7b2343be3]⟩,
   ⟨[0x4e8e953f297f709d, 0x23183a3d262d862a, 0xe164a10dea12d93f, 0x386c2873fe703920], [0xd59e1582e5c51c7e, 0xa8c93b5b020f6a2e, 0x51518bd0160cd058, 0x3337801ab1d38ac7]⟩,
   ⟨[0x6e2515332f5d9e25, 0x88e76135b0d6b0db, 0x5c1978329e6762d1, 0x1232677384e620ac], [0x3b88df270e2694dd, 0x30fed9e330a23caa, 0xe12dd93ea23df142, 0x6778f512ea77c07]⟩],
  [⟨[0x5d5be00e49e5f6b4, 0x2f47e7c7721ef9dc, 0x338f7b007eafc098, 0xf5f06e3af8c2475], [0x2a4b845c63122b22, 0xed44006089a4ce9a, 0xc9eeb6409a86d9bc, 0x12c3e0f32f39b439]⟩,
   ⟨[0xb444b88b17766f6c, 0xf9b100e6a41fd692, 0x81eafcd15c149b30, 0x37dd6f6e1d521a1e], [0x14dbe8c3389dcd6e, 0xcd24d6550dcbc7fc, 0x5f8d48ee00f9102, 0x403954e6509d18d4]⟩,
   ⟨[0xa04fdddfe4fe16ec, 0xb9e7fa7390e15c0c, 0x7d6a7206c77fab6b, 0x3ffdccd13e221f12], [0x120c05b147b5bb7f, 0xfa3614c05b7e2b96, 0xf3a4f07f4a6ac6e0, 0x324bf48c8ad4f23]⟩,
   ⟨[0x508a037055df2f18, 0x1c6c91eab872f209, 0xdc3f6c5a8e12f437, 0x65f5058fc91afd75], [0xc43613d5a859a1d, 0x83a2610e5bf96a6b, 0x1a98aa4c1496aead, 0x3ab1ce5ee6caa901]⟩,
   ⟨[0x9420abfeffb3e411, 0xce60976031404e74, 0x3d4c23c502c49837, 0x6b79fb14d0868a3c], [0xb4eee8db6b5861ea, 0x495e2b469d948195, 0x2bb0bd941ce15ec9, 0x6ce79f80ded25955]⟩,
   ⟨[0xa6b98c1d5820df65, 0xe8284737909356b5, 0x38e8609a091340e1, 0x98ec077b10666012], [0xfb243b1ebf075dae, 0x32312baca270fe31, 0x214511200caa5f8e, 0x8f60118f2a515015]⟩,
   ⟨[0x4f211c9ecbdeb88e, 0xf6d3cc3ab6d680fd, 0xe193829d8bf4b4a7, 0x3223ef4e2d620371], [0xc3e35420c0e5245a, 0xd3f4f894b4ade2ea, 0x464fcb6cf2ce985e, 0x79cf596d7b987fa7]⟩,
   ⟨[0x730748c0c0016ff, 0xd02115c5a2949069, 0xaa6f794d40e9c7f9, 0x9514fa7b79149c37], [0x6e2f27785a46bce0, 0xf55d46c60837acd5, 0xf965c4681e4223e6, 0xbff0a9185d90a07]⟩,
   ⟨[0x9ed903581923c8af, 0xc425b633a470ae00, 0xf9f4b1621c50fdad, 0x999d072a8ca2bd5], [0xcb122fbdaf74d4c3, 0x372c13f02c283752, 0x9f42a90382138b19, 0x573a2cee3eb8cb95]⟩,
   ⟨[0x6c3a6be33ac2e191, 0x4149e0eb1b222db2, 0x5ba91005a4aacc55, 0x176bd33d1bfadbd0], [0x4aeaf14ea8da0fea, 0xb12401f9a7ff8e1c, 0xf1ef39ae0f192414, 0x95d433d3416743c1]⟩,
   ⟨[0x29ecf54d9aa0c238, 0x3762f1d78fca6419, 0x761d786a64d3aaa9, 0x7a8a677ddaec7bf4], [0xc2829ead324676f4, 0x4e504a474d0b291e, 0x360ce7fef8c4f384, 0x33a577b578cda37d]⟩,
   ⟨[0x1bbfc128333103fd, 0x3d36045ce45c9dbe, 0xa8d53f5a15c9013d, 0x99d62f8aa33fdcfd], [0x73e539610a81f581, 0xd01ad20ed00bc0d9, 0x59701f4d1f6d9b73, 0xf4ebfbce098e536]⟩,
   ⟨[0xbdb9368a91e3c062, 0xcd66a0b19b17aae5, 0xb6636dd7b4537e05, 0x37d94b8e73b119ce], [0xa5f8e90fc7428ff9, 0xe7e5b2b7f8ea9f03, 0xb7f20fb85b3506da, 0xf4ab6d5e494ffda]⟩,
   ⟨[0x3acee3bd85365933, 0x9d5223d3bf510114, 0xe0d7d9a7a08d01b0, 0x28fd329ab2f1f61f], [0x3e16a2e2a5909dd3, 0x284a8708b4fecb35, 0x190f7b3a73d5bfba, 0x7e07982e92ee4bbe]⟩,
   ⟨[0xa30a4c2244945687, 0x657c0f2ed688a301, 0x9b558d4abbb3e65a, 0x8044d57ea6e57844], [0xf202e50ee3957e21, 0x4957e651ce62fcc9, 0xf7b9eba4c4ece0b8, 0x29532cec61167229]⟩,
   ⟨[0xe9dc8ea63eef3d71, 0xebf76bd43e8ec117, 0x48ceb78d2ea072b9, 0x82ecdfc473efc32d], [0x51b02cb3e2c89e7d, 0xe9d0740cf4d9100f, 0xbb556efe8a5e3f48, 0x864e52da1d01b44e]⟩],
  [⟨[0x5a75e0bd14ea6dc5, 0x9f2aa76532efed7, 0xe6dae0a983ce5a18, 0xf9bcb7ceb4e78d], [0x128fb51c71f79bf3, 0x78c7978880d5dbc3, 0x2752f02c9b816b9e, 0x88cfba0ceb7622e2]⟩,
   ⟨[0x845ab940268432a3, 0xa8d0231b2f94f6d3, 0xbdfb3f91fec02130, 0x7a61ae45f62419f], [0xd1c951df192ebf1a, 0x22cdcff5fa232e34, 0xdfdf121b3a7581dd, 0x9865eca2710403a5]⟩,
   ⟨[0x609f4527f8180bab, 0x93ab107250a6d914, 0x299d5013e2eee3bd, 0x36efce5b42959c14], [0x49cda60d1045ffcb, 0xa8b2492e45723371, 0xcb75789bf243fdbb, 0x8e1079d7871d500d]⟩,
   ⟨[0x69852694db14298e, 0xbaa92a9541a56b6d, 0xc73718483dbfdba4, 0x94b3155c947747f8], [0x97bcdd197552426b, 0x4fb3e76d32682121, 0x875aa0f78bc15fca, 0x4065bcdff1fd2315]⟩,
   ⟨[0x2d1c0519b7f1ed04, 0xed9a1bb7ea2535e1, 0xe4728cd6abae813e, 0x2cd7d44721a771d0], [0x88e2a78559b9e964, 0x2677fbd76f9b5374, 0x3967d6c52645b626, 0x8843f7df5a1c315b]⟩,
   ⟨[0x673cd273c7055a4e, 0x52ac45cee827873, 0xc26b9214ce1981f3, 0x3c39c13c2b8eef59], [0xdd9e1b9b0b276d47, 0x6729a5347287f9a1, 0x43e1471c061dad53, 0x6082fad9118b56c8]⟩,
   ⟨[0x9c3872aaf99186d6, 0x1d9e8db675ac99bf, 0x6fa7a0ffe338dbd3, 0x1edf44ecd1fef2f9], [0xbaf9d33a1f9114bf, 0x89af08e53007b6a5, 0xaa04b1698436d917, 0x8381e76a6afcf5e0]⟩,
   ⟨[0xc51848a4c1d799ba, 0x6c3d43a97f40b34b, 0xe8dae074a5cb7b95, 0x5375b1eebb5f8aec], [0x461290ee507099e6, 0xb95934aa3bad89ad, 0x9a6e5c22701a4d9c, 0x2ca791445e1389f6]⟩,
   ⟨[0xbf82f7860e5108fc, 0x3620ccc4644d06de, 0xb65de8538e5c4753, 0x6dab72419fedfd16], [0x4cecac87546dcba4, 0xa7bbe65d3e2d0684, 0x92aa490da1e4ffa, 0x78f448be41ad32af]⟩,
   ⟨[0x321580fe4a33f071, 0xbea845d15ee5e685, 0xc73caece47ac8acf, 0xe15e55da9f65f05], [0x5fc47420a59506e7, 0x501417ff01dbd2dd, 0x8ef23280fb1205a6, 0x1aa26168e0f43ae8]⟩,
   ⟨[0xd41f73b18149eb2a, 0xc297af04ad95d531, 0x2017176f749e415d, 0x5af89c738357ce9a], [0x301f7c7908a0ff9c, 0xc2999b598695c57, 0x856799576e4d8ff5, 0x2cc0ff3e6f493b1c]⟩,
   ⟨[0xfe90f9044af481f5, 0x562c78b31bc4919, 0xaa44aa5670e4f140, 0x1b61deb4a175159a], [0x85315de1a7a7e648, 0x4bc1f51d6c012b33, 0x40cb5de3060cdee6, 0x969f919632a1e138]⟩,
   ⟨[0x3b317508e05f23b5, 0x7b1a93ae512d1156, 0x3a283415cb58ec19, 0x193a53a18e27cad9], [0xcf6bbeba03de1ba8, 0xfa5544ca47a02393, 0x8b3aac1a8627f5eb, 0x2fad2ec62eaf195]⟩,
   ⟨[0x4f8d8ada259ccf0f, 0xe4e6786b562991d7, 0xa1c63473597c3fd3, 0x1f5b9017acab6f16], [0x95b201bd592d437a, 0x54432a75ed14f859, 0x67ef73fb0b551ac1, 0xa48f0437f1ab9ca]⟩,
   ⟨[0xecee508e4a35445c, 0x80be9f07b3ea6f9b, 0xd914b25687e4b78e, 0x97f79cc9f89b8e4b], [0x6a5b4f2bc359fb12, 0x54e6e37a99cf6ffa, 0x1133c4b2f7c66ca8, 0x6f679b280345866b]⟩,
   ⟨[0x6f7a144e77cdf, 0xd8077f9f42033333, 0x414ece521eaf35f, 0x1211576b5623803c], [0xedadd215140309a7, 0xc349c6575ebae3bb, 0xbd40427c821de06b, 0x8949aca33f5d2f97]⟩],
  [⟨[0xac1f87e6022e3d44, 0xdfc17bedb39f6b10, 0xeaae416807119c4a, 0x8b3b40bcdbd47d36], [0x6683a561861b7b59, 0xf9bffb1713a6c76d, 0xe4e72ea4a30a05ac, 0x77c219e8ba0d2ad6]⟩,
   ⟨[0x5019824e66be6944, 0x811acebe7b131070, 0x9730dcf03ba34677, 0x5b9c5cf57bc9cfc8], [0x1cbd950fb283c8cc, 0xf66dbdda3973a325, 0x4ec5ebc26fa60257, 0xc01d57736ff26b3]⟩,
   ⟨[0xbb2219547ce2be74, 0x23e44e0e841e6c0c, 0xe760d33d77c3824e, 0x5b656fbe7eb3ce34], [0xec50e509c5f3d66e, 0x5326c2b8496ef8ba, 0x3f9485f63d4b20d4, 0x11b74a8551c21b0e]⟩,
   ⟨[0xc3eaeb0425e30336, 0xa9d6c70fa6e3637f, 0xf818c37e86f77f68, 0x786ed3c2c60df35a], [0xaca70ea0d56d705a, 0xce61608c7bf4ef10, 0x49ad1cd81722c179, 0x1b84fbe9687f3222]⟩,
   ⟨[0x8a0f4bf135ee0ba9, 0x42ad284603952a08, 0x1e0e1e3b3b60b4dd, 0xdc1a947f5dcad76], [0x54beca41f496e03, 0x8f02fdab3ae6e6f6, 0x8851cff49b71c9f5, 0x6bd7271ca7441f87]⟩,
   ⟨[0xb019e3469eb6a2c3, 0x2b719034931e7550, 0x2b2cbebd40698f1f, 0x375db5914f1fc587], [0x9843166676a79a4, 0x91848967b416d657, 0xb49ea7219fed6b27, 0x1fac5650d080c8aa]⟩,
   ⟨[0x205cd58858c4c2aa, 0xbeee26f817f572ee, 0xe744ab674cb4de3a, 0x37e34e18cbe989bd], [0x95d9118b767d31b5, 0x9a34dbec83e7c03e, 0xcafdbd1ab8f70dd3, 0x1e68a6813909bb51]⟩,
   ⟨[0xfe0a5dff9fd96aba, 0xbbfb1fdfd99b68de, 0x5e232a4fe3f522be, 0x768c2c54a6428d33], [0xe9cfedf9dbf1a575, 0x841721f24b83f9ab, 0xfad9650a80a85361, 0x3158921104979759]⟩,
   ⟨[0x1cf9f4b8efbf2099, 0x63d5499bf571408b, 0x89c119fcec3e74a6, 0x525dddf698e4dcd], [0x43fcdde47333a38c, 0x2150ead480a912de, 0x4b3bd2230a19cc55, 0x3553eb4e238ac64c]⟩,
   ⟨[0x3a259f52fec2371f, 0x8b03c50544863d3e, 0x1053e2d686bb6522, 0x400ce699f7086cbe], [0x695b1ea003ed78de, 0xae6d0916500e1b, 0x9f29b08914b01815, 0x269692b4c218d892]⟩,
   ⟨[0x8660280df0d44e79, 0x69d2968537c0f38f, 0x664b8146b9e24ad8, 0x277cb4dd1e695452], [0xb1a02d4edfbf05eb, 0x3b3493084a1426c7, 0x13b7961222204fe7, 0x4f80867bcb5cd9f]⟩,
   ⟨[0x37bdbcaee0852cbc, 0x2a6d7a23be22764c, 0x4e0d43ac25afd9ff, 0x1f6c9e14d16dd9eb], [0xe37e3ab3b4b0f47a, 0x9e046fb6c476c3a, 0xb8f649d9b75fa2dc, 0x7962a8c4fab1ac41]⟩,
   ⟨[0xe41470f6a1314a, 0x176380c3e4388464, 0xdb3405cd9b8a2b4d, 0x6299a1a67de02abc], [0x9f6b9de77bbe7bfa, 0x59f16f549d3098dd, 0xfec29c8d3b5767fe, 0x67711bc064955759]⟩,
   ⟨[0x34444ea3b1b07b5d, 0xb1d973b491fa2b4a, 0xebebefb183403a0e, 0x56d520988e8a8ec6], [0x11c93529a7e82d55, 0x9230ae03d525c399, 0x74e1cbb28db46c82, 0x4c3383cc40be5e15]⟩,
   ⟨[0x33a52e73cdad72f3, 0x1d2cca33b9e77759, 0x26717716549406f5, 0x70ded57f5b3db3e8], [0xba38f81343c85a67, 0x956f2dd735422bb3, 0x52d9fa9907486f18, 0x655791bf75d1d2c4]⟩,
   ⟨[0xf434a9601fc9e0b3, 0x42a7b891bede92ad, 0x5a182d8a55a8009, 0x3404e08d38531612], [0x2b5b2766f07d76e3, 0x94b1a98d1d77b90c, 0xa86c0ec84b18bb9f, 0x6532770f526a81e3]⟩],
  [⟨[0x4429a4e861cfe04a, 0xee8673862c9ca012, 0x237a3040c32d1969, 0x400ad5990ae2dfae], [0x1603d10a213c0a18, 0x6eb8042d2b1e2a57, 0x4c9c1696c7caf556, 0x79be04a7e0c1a5a3]⟩,
   ⟨[0x161781e33fcb8b14, 0x1383e3b8b1384c3c, 0x5129ea19b566626c, 0x8a1f86e4551de02a], [0x9c648cceaedbe04c, 0xd4278acfb200132, 0x466d452ac1e2d4a3, 0x832b0e6eb21b6e38]⟩,
   ⟨[0x20101d7ced1d76c7, 0xc3282661c110d85e, 0xb8026ce4ffca2dd7, 0x73b4eba58ba48211], [0xab94fe21d8554e2c, 0x319e2fd781b2a181, 0x2c824dc537e8d3e2, 0x97cd457a09fca0ab]⟩,
   ⟨[0x8e4b5fbdc50116cb, 0x3d20cececa631a93, 0x5f80606c545575d8, 0x45ed55def91c7908], [0x91870a927cc1083c, 0xa3828e06d360ff5c, 0xfc9dfcdc84003d42, 0x733c887fac4667f]⟩,
   ⟨[0x6f1f771acc2fc31b, 0xda9351a1902e8176, 0xfb9395afce3ff045, 0x17c28ca213820dab], [0xa1f596bca684e6fa, 0x89228cc7dad3995a, 0x5dbfd421c02e458b, 0x58c25045a2122afe]⟩,
   ⟨[0x2906450f018eadb0, 0x88a7a2369030c84e, 0x492ba7a333308084, 0x321388b95605f371], [0x5f934c94626ae19a, 0xe2bd6c6701c7ccd9, 0xb07757b1ec0bbd52, 0x1e980338f9edd2ac]⟩,
   ⟨[0x5a5370748831457c, 0xe0e22fb47e7b9a9, 0x7be70594a225a259, 0x433db05530946816], [0x852ea9f9e2f2c3cb, 0xdc4e8e3a2d243848, 0x10f34ab81e887770, 0x29795d2cc89fc71b]⟩,
   ⟨[0xe046b04bcfec2c6f, 0xa1d3b5a02ca8256e, 0x93f7fdfae87f767f, 0x2df5693e35fa3837], [0x71d9638c97884587, 0x175ea91f39e115ec, 0x14e16c31f41a27fc, 0x8b2682eaeb2f5913]⟩,
   ⟨[0x2bcc6853798c7f28, 0x2f985a59dd7d3615, 0xa66519e141d2257a, 0x18731d74021f719b], [0x7210472c360e9c20, 0x4fb48411329a9b35, 0xb33b6cb587d62ca5, 0x86226d9efd0d7703]⟩,
   ⟨[0xdd133f8bf67cb77c, 0x381e4d62f6abee80, 0x3236f0057df85ae5, 0x88ebb3864610bb0e], [0x895aa5398db908d8, 0x848142e6104c4633, 0x467ee770b8012b2e, 0x193cbaed1b9210ee]⟩,
   ⟨[0x737cd32bc1f44fc1, 0xcdf82b1c522b6209, 0x8f4bb70e0017f2a, 0x1565bcef64738f26], [0xd2910b9684dcf67, 0x4ed1734bc6f3eb81, 0xcbea79b6da1d6bc8, 0x470ce36ee6a41d6]⟩,
   ⟨[0xecfd5c66ba05af3c, 0x421d5540eb9bfaa8, 0xfc0e5af2526cff85, 0x7e17f1e653dc49a6], [0x69bb1dfb1faeb0a2, 0xdc95661ab3785ed4, 0x1f1d7395676d7cd0, 0x2c16bb9689c6412f]⟩,
   ⟨[0x2335f20eee414ca6, 0x56e0ddb2fef5e042, 0x942d4e35d9de2966, 0x80e92b8ccf63d583], [0x158be1b65d492c76, 0xff096960c4f822d9, 0xc00fc7305af79379, 0x7c49b0350d34e12]⟩,
   ⟨[0x64678b2ec34836c8, 0xcc280dcb615ff066, 0x86c3c7479131ec98, 0x35b008cc2d151fad], [0x22c18852f8133fdc, 0x183be4dc2fe8809d, 0x86589814cf98d56d, 0x52d8074d2f6e0de4]⟩,
   ⟨[0x33ff9f41c9274aa6, 0xac30acb4ca854af1, 0x87a7be53fbc994b7, 0x6e7e8b2adbcd717b], [0x3065a732cd494ab6, 0x6f977b8760fd7f57, 0x4c216eb4b74bad54, 0x674f00f5f6061f7a]⟩,
   ⟨[0xa8c224813164afbb, 0x4c9e2f1d72a7ac55, 0xe3dac3e379defe94, 0x193a1e0bbb9d953f], [0x8852020c7e0957ee, 0xf7fd181eb62f8ef7, 0xde7eddee26b8860, 0x53a05575fd1b00de]⟩],
  [⟨[0xe5d63e1b63e0c8fc, 0x6849b530c684016a, 0x4e89cb43009318ad, 0x1cdc5918ef571911], [0xa6596c03f389eaf3, 0x9282c1b3e88975f9, 0xd07a2aef0d53d3f2, 0x3da515d52b3b602c]⟩,
   ⟨[0xe42857818a5436ea, 0x47e305636d65626, 0x16b568e16489a0, 0x4460319675a0209c], [0x2be99a51bcc19754, 0xe02eafd05acfcdef, 0xb0a1e300aecacabb, 0xf39cbdeac1860d9]⟩,
   ⟨[0x50da53722099f08e, 0xaa6aaad1ca4817b1, 0xa4ddc5ff57d73192, 0x46043ac7682d453], [0xc8eb178828cf3f48, 0x3967a02fdca184d4, 0xce68b7986221941, 0x27bdca48fd3a197a]⟩,
   ⟨[0xd774e33c563d7a91, 0x1c309dae07ae1c92, 0xdaba89b457dbe6a8, 0x90c62517e5820fa4], [0x23c6460511371109, 0x1176ae7e15605666, 0xd71e9755df040dcb, 0x5312a5b362ed515c]⟩,
   ⟨[0xb7aa3a117a5fb9e0, 0xa769bc7218e2cb32, 0x9d551b9b6b73e050, 0xce51df0db067cbc], [0xbf90d54a0e06be, 0xfec6e7b37ee820e7, 0xdfbac0833334937a, 0x46884935ce14cf46]⟩,
   ⟨[0xc3f31eaf902ef3a9, 0xf3b6e6fa5ccdf002, 0x5a9b532188cdde0f, 0xd99e43e8691fed], [0x8e786f52cfe02c8b, 0x587aa5374dd36f8e, 0xbca91cac425cc228, 0x80aa8aa9bfa9c36b]⟩,
   ⟨[0xad4a2ad09b20505a, 0x6d70802916739066, 0x729001f389f73b52, 0x774803478073a428], [0x1ab38f07e84db3b4, 0xe643d756a6655769, 0x5631359b46c19856, 0x82530a3201c3dcd1]⟩,
   ⟨[0x9250ec262dddb968, 0x63d99cbf8d82a03e, 0x4fbfe78441349b60, 0x6977dd07a15bf2b7], [0x771917c668513c32, 0x26035188f0064f7, 0x45a5742951d78637, 0x56bf57cc87293790]⟩,
   ⟨[0xbac94e24032e6426, 0x7d54ae34c2531b26, 0x4d6ef608cd688082, 0x736e7acff5aa4bee], [0x41d5bf6c6afb84e2, 0x40e12da56e976e09, 0xcbf32fcb2235f7b9, 0x285ddf46a21bc0e0]⟩,
   ⟨[0x66c6a76ece751632, 0xbd457d0e32a61a1d, 0xfa12a7c878191c57, 0x30ed98b06611b5e], [0x199f7756f4972ffd, 0x298d98e69c8aab09, 0x2186054cc5b02158, 0x736ce4cb9b1147a]⟩,
   ⟨[0x33e4a4ca19bfa57d, 0xf02f6d32aa70c35d, 0x9ea10b633cc082fd, 0x86104e8ed00e82a8], [0xacba5e7387797e25, 0x24dd98a8eb85a796, 0x2748827c58ac480, 0x5b4480c76a932d80]⟩,
   ⟨[0xf9e210fb1992b174, 0x3cfa6ef1be22636e, 0xa46f202b3bdfa2bd, 0x8c83b3da441b96d2], [0x3bb2ed8b8aa39ab4, 0x4db63b239ce53fb2, 0x24ac8a9846dc2104, 0x997bc4a768e20d1b]⟩,
   ⟨[0x4cdf8757d1c0d629, 0xba155719a64b6058, 0x82fd0da3be3fb0b1, 0x12f5069403e34cb1], [0x8993ee3802e7dfeb, 0x2fc240c63d7a758e, 0x75cb6f62aff7cc7b, 0x2d73f74d71b02a5b]⟩,
   ⟨[0xb7b920a550ada69, 0x87d29f08d2f1d5c2, 0x6e36ef9ceea99a38, 0x624874c179d7626a], [0x9fca1b2e17f026e0, 0xbdbe18e5a3a79c2e, 0x1506de6a6e1b0c6d, 0x860ccd71ad2a2c5f]⟩,
   ⟨[0xa15cb028715ef9, 0x71f337d8b1c0ed6d, 0xbd7e6892f998251e, 0x4c5ab31108e0a4e9], [0xdfd51293567342fb, 0xf202fcd15ae3193b, 0xe317c933af59a5a2, 0x300fe0835055de2a]⟩,
   ⟨[0x279a071ac58e7ae9, 0xced1f2f44c718a8b, 0x3a8c0d1a5fe7f6e5, 0x789c9b04bb40da93], [0xbb7ea922bf2a0b9b, 0x5dd7a04a3a484413, 0x3e1f49fbc5912f93, 0x4d8c07a561ecab05]⟩],
  [⟨[0x7d3510079706d4cf, 0x3e2b3d2eb9babb1f, 0xc73745bfa2e423ea, 0xab3940af59601a0], [0x8881507a2a895c4f, 0xf27f6f4068652263, 0xcfd9181488a416be, 0x13459bc31b4f51f6]⟩,
   ⟨[0x6d830e0c01c7c38a, 0xba912bd4e27da48a, 0x3828f4334ab8b5a6, 0x3f858e6ce35e88da], [0x137f2e3a6e1c033c, 0xfc7c89537e670398, 0x6ff761cef5c3d4db, 0x53a02906eed1029b]⟩,
   ⟨[0x5c597ba656779c20, 0x366688cc43a87346, 0x19f6da4aa55acf91, 0x280ed592182dec58], [0xa1f3a7aa1d3ebdd, 0xd92b60780c9f474a, 0x38d0335e19ae00dd, 0x94a5772a97f33f7]⟩,
   ⟨[0x26a9029312d2694, 0x95408516ab5b34b8, 0x9ffa9ab1ded270ea, 0x1f9ddc52493e5935], [0xac7f94c117244394, 0x18fc29c40f28c9df, 0xede29238bd817bd9, 0x20dbf9af8e2a7e40]⟩,
   ⟨[0x9365d97648ca5c, 0xb168191e2bf27488, 0x2481bfaae3b91112, 0x744c505b3d6db830], [0x21426d8f3c464704, 0x283f59efdaf85a61, 0x278b5f8ef2716102, 0x95b80d820fe7e7ec]⟩,
   ⟨[0xd15ada08f327664d, 0xf26e3232fe904af8, 0x2763dba6f99471c6, 0x4bc9713915f30827], [0x8523812e5f154bf9, 0x839059fde17f8f9, 0xea151382bc16678d, 0x68d01e627890c4ef]⟩,
   ⟨[0x37fac9fa9487556b, 0xb4df5c53fb4dc83d, 0x1ef42d8c92969151, 0x6c0a9d188b0ed349], [0x63e91049946f31ed, 0x51e91dc6653f600b, 0xd7a582b153a29196, 0x452f4ad31e1d843]⟩,
   ⟨[0x1224169d0de8e344, 0xf4ab4e7f329d30f, 0x12662965b525b6a4, 0x3142b612255f14b8], [0xef6148b9bbf468a1, 0x3fc413b4144f8dff, 0xa453d0759bf55b34, 0x857ec76386eba319]⟩,
   ⟨[0x7fc22e26c16c1002, 0x2e34975eb0b186c3, 0xe11e36422fc79f85, 0x30fe5c0e9f981b5f], [0x73bd0fa631816247, 0x40fe16616906af0a, 0x8d7109a3787bc7ee, 0x294520546fb9a590]⟩,
   ⟨[0x24654b9b4dfaaf93, 0x91cdea8b9a450d29, 0xee55420be4874748, 0x1fac14c6d03064c], [0x8a4ebde2d93bd5be, 0xcb2df30749ef18a9, 0x36e6ac641a7b7f36, 0x301954234ac1cb8d]⟩,
   ⟨[0xd9970b1e34f5b3ff, 0x3cfefc50587a9c5c, 0x8ec1c5de7cce631e, 0x92c93e2b52465ab8], [0x104df30257017ca, 0xf4e5e7798d8db4ce, 0xe12a39ddfdc267f0, 0x683deafe27c73fda]⟩,
   ⟨[0xd0840e81bbc70623, 0x3a93c164d23568e, 0xc52ff3d611a71bff, 0x3c11fce0875248e], [0xbc6f184b6c4ae445, 0xf52cc71f7698ee98, 0x4663193eeea25223, 0x86cd1ab3031c68dc]⟩,
   ⟨[0x221c94eb21e04c02, 0xe96bb7b37b980f70, 0x60a7289724dc2bd1, 0x8c8e019f5621f475], [0xae47b2f75cfa457a, 0x31b2f9e1f395c533, 0x7eeb5ddc82e75849, 0x4863a6a32a241e52]⟩,
   ⟨[0x806ac7f4914976ef, 0x5019261eca42b875, 0x44f5c03d6ef2d82f, 0x24959f00690f2aca], [0x4bde211581f0bbb6, 0x1eb2c001f701a2d, 0x39f8910274fb05c, 0x57068f24c625ebcd]⟩,
   ⟨[0xb21b8c9367ff2575, 0xc7826c600c60b449, 0xd4d69a9fa98671bb, 0x95249276f5a2ab0c], [0x8f7007f02d1976da, 0x846f2a92c011d54c, 0xfdbf81dffa2076b1, 0x3349224f5583b46c]⟩,
   ⟨[0x624967467c854b4a, 0xf92bae1d798b1395, 0x2ebe18e3d2f65638, 0x472ff6e58a068f49], [0x64bb0f33da2030c2, 0x72c0d0c966f6c000, 0xea837ee53194615e, 0x1b7b4849fa9a7903]⟩],
  [⟨[0x27ab780ccf9a0727, 0xd457a7bc9d7486cb, 0xfc57c335fe9f1a59, 0x269d8959d1d9f161], [0x6a32331b81605d5, 0x236963536f050be0, 0xf9350879413e1c0d, 0x170195485761a8df]⟩,
   ⟨[0x583d3d3f6765c6a2, 0x68bba6f9be9df3af, 0x7011e59485358b53, 0x3b2142e353a08874], [0x4ab6137e6f5c8641, 0x4955890e4fe9bceb, 0xe2f732ba4d14da01, 0x8cb285fcbebd63d4]⟩,
   ⟨[0x5099551b6c74a0aa, 0xf04eb8f8bc2c8a61, 0xe169f49285983435, 0x764062a15b808c9e], [0x8c59a43f65b994fb, 0x2fb148b76068e685, 0x899d4fc554108a9f, 0x469ea3e5b4d40fe]⟩,
   ⟨[0x15b613ea62a76aa8, 0x7e8e7d562fe2f179, 0x53160f65be98edc2, 0x258da04e9810dc27], [0x4fee19d0030d9c31, 0xfc2c57f8c29e300f, 0x71f97c44458ae, 0xaa2b911709727e1]⟩,
   ⟨[0x443f8b23a61166f8, 0x3e8f6278d685fcf1, 0xc930c1d1447433c6, 0x1245a867aed7d6eb], [0xc35986ddfa89945a, 0x89ce110926b0afee, 0x9c6a87cd17103d18, 0x811b2242ce338978]⟩,
   ⟨[0xc074af660c293255, 0x982c23a95aeac2e1, 0xdb14de0cd39ac56c, 0x20263f3f47ebb839], [0x183ea578d10588df, 0xb4d88efb1eb69c36, 0xa79a1b4ddbf3bee7, 0x650fc466e8159e0d]⟩,
   ⟨[0x9e6ee797f80d5744, 0xdfc3ebf5825949bd, 0x1083ec797ec9bd65, 0x62a45c5eb753499c], [0x9c135f802b6f42cf, 0xe39b0ba5c4b49041, 0x4d8385138d3b2d06, 0x696034dcd070754b]⟩,
   ⟨[0x6313d73b8e3bdd1, 0xc7bec420e6968872, 0x740dd6d33a04b7f0, 0x98f2d0b72465bed2], [0x9f2984604043dbad, 0x82d6991a01b5961f, 0xaae7df9d54dfab8a, 0x5701e3351a07dd22]⟩,
   ⟨[0x5695a08efca398a2, 0xd29ebc1f0d76e8cf, 0x5ab17abf24004edb, 0x20c7761b0cc7a144], [0x6caee036285ea93c, 0xf9756e89f2b8bf23, 0x3cea1c76b1ab91b7, 0x5d86860e3fb4f3b8]⟩,
   ⟨[0x835b023bfdc7dbc5, 0xf05c0676eeedfd73, 0xf8325d64e52bfb27, 0x919d008db5032cff], [0xef27862c4b130537, 0x616df1545ce404dc, 0x182ba57e451ed033, 0x2efec0c7bd01f864]⟩,
   ⟨[0xdc84684545f3af3c, 0x2d2ba0cd92a47b31, 0x9c806c7de1afe6ee, 0x28fe43ff4c6a4fea], [0x2e028cd16c76c0f4, 0xc6fa5ad12aefbdda, 0xc8b5339bf63f1a35, 0x30c780a704523f02]⟩,
   ⟨[0x3d2dca55d7e4f0ce, 0x8eef918926616811, 0xb106642f3c0e5892, 0x4a96538589db033e], [0x5a1cbeb6b3c2dd37, 0x5290c737156eac75, 0x57afd98ae32e40c7, 0x4a16164b3571868]⟩,
   ⟨[0x9ab8a3e91a673e1b, 0xc707abba0fc23483, 0x936c17839e0ea0bd, 0x1e4c2e7cf71f6f1d], [0x37904f636fb0926c, 0x9ec76df7c51feea5, 0x2c60f7d64d103dac, 0x7b451e0bf9dc2cc6]⟩,
   ⟨[0xd4f8526cb2a5f07f, 0x41303d42b0f4ae09, 0xac79523f0c182fdc, 0x8d6a75c8aa0c5d6d], [0x4dd7fc953cdce3f0, 0x4ddb39105be6da0f, 0xe34961f916f7e27d, 0xc5cb76f5b3544eb]⟩,
   ⟨[0x324c95b5252c354c, 0x4648d87e8cc2c3bc, 0x6ddfdecd82bc8c80, 0x8c64cadec069996e], [0x4e282e9640ed44ab, 0x70a1206779334507, 0x65ce5d385ab8902b, 0x56fe68f27c949d96]⟩,
   ⟨[0x1d55c87ecf9530ae, 0xd1cf73ffc147c2d5, 0x826031cdc1f44403, 0x3a06528f5eef5bfb], [0xf220eaf35f84a7b1, 0xbc99c905350ebade, 0x686a706e810a101c, 0x95e527131d92eaea]⟩],
  [⟨[0xaac634b3514d47c2, 0xd0c189b858b83b33, 0x633d59e358ca9a2f, 0x65965ce0838acc80], [0xbb03f7ea9b512f6e, 0xb2f38b849ef17a82, 0xe8382e37e16a7a95, 0x28644efe4d9ef607]⟩,
   ⟨[0x46f9115e040a515b, 0x4c7dbcfffa59cd3e, 0xb4ce22b871bb543e, 0x58d935d8948f80ba], [0x33dc1d5b03683c8b, 0x25e6113a2d071d87, 0x44f962f8a7d59351, 0x6b818ddbbcf66b43]⟩,
   ⟨[0x363a63c7378c1098, 0xbeb2a7b6ac5c0c9e, 0x3f620d3f4361c8d4, 0x68ead01a4e3d9686], [0x4361308545db7208, 0x865a6dde13b35d33, 0x4eaa166368df09f5, 0x5fdca83fbf02aa12]⟩,
   ⟨[0xc240feaabfefb3cb, 0x78e757d20ec6694f, 0xa11a82df2413d6a2, 0x7bd656eedbb7a220], [0x68c608736eb899a4, 0xaffb9f1c318c72e8, 0xf16a443c9fb7619d, 0x2fc317e342c6e4d6]⟩,
   ⟨[0xab56a87373f57a93, 0xe9ba24e2308f5224, 0x10281b911992077, 0x2cbca7fe593ead1a], [0xb400388a2a1d8318, 0xd470abda3c61a0af, 0xf910272194bd2fac, 0x222365d10fac703c]⟩,
   ⟨[0x5c9021c49c2d1b2b, 0xb349db18caf0b562, 0x6daf741291412cc3, 0x44e5e3e5cf6584d3], [0x1d1f4244e4c17b19, 0x4c663ee63787a38a, 0xa3261e22313a8581, 0x3ae1e1db7a82c05a]⟩,
   ⟨[0x31aa2b293cd6a155, 0xeb9527e3d078b12, 0x6785aba2214ff1e2, 0x74974f84f111d572], [0x2199a753078c684b, 0xa0f1de234b13a004, 0x3965ae1975bebcbc, 0x22a8d7ee24562aa7]⟩,
   ⟨[0x591965fbf268ade, 0xf621b3649ee48f0e, 0xad981a95a3a3848, 0x1316675c9ecd72b7], [0x21a5ceb7f37c87e0, 0xef864cf368d1aafb, 0x5f340413d3c9a54f, 0xc5de1e6e00fd564]⟩,
   ⟨[0x439b2c0cb415d72c, 0x106ae2e063442e62, 0x8a9428c64a79e93b, 0x67fe6d6ecc2df510], [0x407158bc655013b3, 0x3aaeac1c2bc7e7cc, 0x399db6efee8ec1f4, 0x1f7d0d17ecff6657]⟩,
   ⟨[0x3039d18cb86639e, 0x586039099cdc3408, 0x52421109f1804b9e, 0x95502857ed126b9f], [0xc91842d9451b0539, 0x2b5b11ebe60aae3b, 0xdb50f9ea44cb5a14, 0x4b5c982489e80a6e]⟩,
   ⟨[0x8ef3a1e569fc9f1a, 0xa4eab6f47cca576a, 0x955e1c89fbf1cd65, 0x3e3acf6ef8ce13db], [0x1fdb619058f31fc9, 0x10db71b393b0d0d5, 0x900961439154b285, 0x37eee1781c49eff3]⟩,
   ⟨[0x609de502bc198066, 0x75c863140722ef6, 0x121acc9fff0fa57d, 0x31e79ac5ec7db1a0], [0x736eb95df16fae79, 0xff963917815a14cb, 0xc6003e5d23af0bc3, 0xd1b035099afcaaa]⟩,
   ⟨[0x8a1b6c971f0df59d, 0x7df81a7259c9ca8d, 0x74257f8e9602e8be, 0x2ffbad39a441657a], [0xb1b090db048050a6, 0xd6144221741e7392, 0x63826973eca1e2d6, 0x28ee60b8d287de2f]⟩,
   ⟨[0x815042955dee86ce, 0xfaccb61d73c03937, 0x9898f773299b96af, 0x51552297488f95cd], [0x6170618c54f5e182, 0x9c11d666c2798401, 0x88225f4b3eaf3dde, 0x20841538087f1185]⟩,
   ⟨[0x42bceffe14fa59ec, 0xc41cfcda7d023f1e, 0xd7e4fde77163e802, 0x54f4c7982e145bce], [0xe4ea68c9f9162235, 0x4f7eac6f458dec24, 0x70100d2d845c6ad1, 0x67ac34cff1ea21b2]⟩,
   ⟨[0x2bd49bdfac21c728, 0x2d009b45eda966df, 0xd4476be4a9b9167, 0x340bd3be95d2acd2], [0xf8baca2db040ff50, 0x307bea0db91d47c1, 0x2efdc81bb6b3a1e4, 0x3b2cd7d91595d6e2]⟩],
  [⟨[0x56254ae732a5a002, 0xe48a475c448b0a9f, 0x3b2df6df14edbba9, 0x911be369f5e4cc81], [0x57d065c677cbb387, 0x7c1e0142527575fd, 0x2ca91eef243b5c33, 0x7e54af425c4700cc]⟩,
   ⟨[0xef5ecae55eedf97f, 0x2d79312ac0d821ac, 0xd3817042a9edbe8f, 0x7a3d537ead924b1d], [0xd9923a20b26ffc3b, 0x651d22015b81ec12, 0xbdf7205a54c37ff0, 0x5562d2588c0d2e79]⟩,
   ⟨[0xe5bc2e1cfb4842f8, 0xcfe9782425b464c8, 0xd902a11a2fea9ed3, 0x2fc360ed8d3dd0a4], [0xec4e57fc9e5f7ae1, 0xf0f1fd9f79b8af6c, 0x803f3ed6a9a283d0, 0x5f13000fadeea78e]⟩,
   ⟨[0x3ebbbd161838b470, 0x934ba22ab2781680, 0xc9ed04fcc7210cd4, 0x716004a14615f186], [0xe7b36c21e894bbc3, 0x3f739857570aa9a8, 0x1707fbee3063902b, 0x44fcb774155c9824]⟩,
   ⟨[0x30ecd772cdd8cedb, 0x67bb36fdca09bcd3, 0xd5ad0faa9bc43b7b, 0x3962e5566a130895], [0x579282537f7a565a, 0xde9d779255b911ee, 0xd5dbfdde6984f326, 0x7cdf5e159fb51246]⟩,
   ⟨[0xd7fc427a89d24763, 0x50e627c9ad874362, 0x17a8f83b2069873a, 0x186952d7db698bd1], [0x6c007eed38a2822c, 0x5f1870910c207073, 0xd0023b6308d245d2, 0x7a32c2a134544316]⟩,
   ⟨[0x8b99183a8c2635ec, 0xa00a94766f12b137, 0x9b5e2f57823da313, 0xf7cb4af47b3ceb1], [0xc993af7e67266d24, 0x8b60295eeba985b8, 0x9aa596cbe41a6f69, 0x4d6cf5df4b68507a]⟩,
   ⟨[0x3b8a3cbc6921defe, 0xb96d53900ed7b717, 0x6761e86a7de65e54, 0x964460d6701cc1e4], [0x5c0a221326c82309, 0xf95f547220328c60, 0xb519b476fb49e3b5, 0x89d0ab6ee373756]⟩,
   ⟨[0x947dfcf0dc952768, 0xd8b5c61c3ab613aa, 0x146e83259a457da4, 0x37e2f6d3f476945e], [0x5702a4413851a6f6, 0xb476560e8d67ef9c, 0xaba23f67f9d2ad96, 0x3ce30a4edfbbb806]⟩,
   ⟨[0x64695640e5baa662, 0x2a18979a0aaf3988, 0x605578ffde0ed212, 0x52e604d530f2c13c], [0x2e9e2d83894ab3b9, 0x98b1faa4bc33041, 0x1cf66060863aa3c, 0x7334879bd2951a60]⟩,
   ⟨[0xb080105cc51704f1, 0x1a5869b8eaee29c4, 0xad6aef335fdd2fd3, 0x83e677c449c2b183], [0x757a4efddfa8b8f4, 0xfc8e7650e42f2c87, 0xd4a61a3e9c963d98, 0x3750289a45bc9044]⟩,
   ⟨[0x40a0620e40b1c72c, 0xaee56ec7b2e44573, 0xe4e6ea3d60532553, 0x5ba50e80a0eb6014], [0x846429784378cc2f, 0xe322d1692a1c5fb4, 0x5000c9b16b91f82d, 0x32380cb87aa49f2d]⟩,
   ⟨[0xa2f936ae18c4bd2, 0x7aea56aac3db9aa5, 0x3a984e935ddf30cb, 0x36133d20904181c6], [0xa9a65593f62dfbf5, 0xb4ac06fd6808b883, 0x986797047a2fedbb, 0x20e9e8e197880a72]⟩,
   ⟨[0x403a1ed1ceb26fae, 0xad13cd873cd622c9, 0xc1e03929cf45c32d, 0x4b50e4a9c3be1a53], [0xcf10f3afd0d7afe3, 0x6a29b1731494a9b4, 0xb9dc9849d13b0495, 0x4c50794e9c05b110]⟩,
   ⟨[0xc3c97ded1427f71d, 0xc3cfb754966ecf33, 0x48e30fe11fbf30cd, 0x71c96e1c1e4b0998], [0x878d6305b92c4bf7, 0x14477130ccb5e4a1, 0x7c210767e3c00a19, 0x5546dbd5ab3cdbf0]⟩,
   ⟨[0xadec875870857571, 0xa52587ce70d07ec, 0xe6ceaf9ec731b9bc, 0x1d0fde3f47143479], [0x2f3be2cfc5b410cb, 0x576004be4e64fd9b, 0x3f339517629820c, 0x7bd3296446a450e2]⟩],
  [⟨[0xd492d6b746ced42d, 0xc068d02d1f0092e3, 0x8ecbad8d8a822a, 0x6b32686971045647], [0xfee3237f523cba58, 0x77b7f509c29059f, 0x42c308b3e72fbe6f, 0x3dd79d838e34148b]⟩,
   ⟨[0x3ed9df47cac24455, 0x7c8a7b31d8546306, 0x4cc432952aa02202, 0x5e8b4ea38598e028], [0x8a882f3f812b8070, 0x984be5881dd374c0, 0x6fda815916e133cf, 0x34fb92fa899920d0]⟩,
   ⟨[0x3be0416fda0b8d0e, 0x2cc846db88c053d0, 0xc04c3a42b1a3a621, 0x35bc55508a9d9115], [0x7f8c9fe37fa72afe, 0x488fa0b4d1e914fd, 0x8f5c2d6384f79359, 0x2be80429fbc94785]⟩,
   ⟨[0x391794e06f67799a, 0xd9bf08ae0677a067, 0x716d5062df61563c, 0xecb234af590f3a3], [0xa5b91448fea22392, 0xfaa294877e76fb8b, 0x3cc3a02a4b6cb375, 0x5c0b3b639022167a]⟩,
   ⟨[0xc5689cf34c576430, 0xf7b7b230c585f5a5, 0xb8daadfbe4bfcee7, 0x7b7d8a959cf4242f], [0xc1755f9b398feef6, 0x9b31cd4d5cc5c36e, 0x4d87ab9cf4c6b793, 0x673fd5b2f595efa8]⟩,
   ⟨[0xa3836484e05e6b19, 0x90c14cffca7e6fb, 0xb7a27042fc717dbc, 0x56cd4af138647882], [0xc2b56b50a43c453e, 0xcd5e768982e7aed, 0xd5abadf758474a8b, 0x68188a3899f500ac]⟩,
   ⟨[0x683ac3e83b1f7ba, 0x6a4fc30c680568e9, 0x735f5e487f6256cf, 0x1240752d048db831], [0x98b78a67868b8ad7, 0x9e32f2c1822eba7d, 0xeae28b1e8f37580f, 0xd204ce0c72eda86]⟩,
   ⟨[0x5e4eaa1c77e8c68c, 0x282adfe9859a127b, 0xc75ab7c14904910, 0x1794516a6e751062], [0x8d99d8913de4a32a, 0x957aa80754ef2bf0, 0xbf20a9e00b109ecd, 0x7732f2b3a72268d3]⟩,
   ⟨[0xadb52e4348752f76, 0x1e9f4b1d6f7cce8, 0x22702da02e4bd9b5, 0x1bcc9c60b40bf9ab], [0xab7746379f53b2b1, 0x9c5741518cb316d0, 0x231d5c45becbebed, 0xbd2d5e7f0458638]⟩,
   ⟨[0xd2f5e0b54b946132, 0x200a8a30155aa2c8, 0x15473fd456a62ce7, 0x30ea71bb6689367], [0xd561432b0e315f29, 0x4155022e149e3a9e, 0xc77ef7e115841273, 0x890d9c8d52ba265a]⟩,
   ⟨[0xb72b5a6a5e62451a, 0xfda85c175c61a183, 0xa4275361b7f36eb3, 0x53adfaf394f4148d], [0x281d47f96a8467ae, 0x416a64b58474d3ad, 0x710d0e7aec99480e, 0x2693a878819253ff]⟩,
   ⟨[0x4be769041a2fe406, 0xb6feed1d343f5b10, 0x36695c52d705e35c, 0x7df6fa416bd3859f], [0x7b9b11f5c00e77ea, 0xc90411b8ca80f838, 0x8a9faef02908c694, 0x5f65aaaff5b39b0]⟩,
   ⟨[0x823a0776d7f59cc5, 0xb9ebe15ec410dfd1, 0xc2374b5810a7fa3f, 0x1b912c84311660f2], [0x486a2607d5a175e6, 0x9b17d14d72b74eb7, 0x1069d5c41039ca77, 0x214605b33fee08bb]⟩,
   ⟨[0xc25a7379f9d14e8d, 0x9d5fafda577d330e, 0xb9a0217da4a9cef0, 0x95afc7f708252731], [0x14e53e9e8fc51680, 0xaea2428a8ac4e21, 0x6bc5e42c11cb2361, 0x3b205e45dcb52215]⟩,
   ⟨[0x8edd4718c916cde4, 0xbb08f27ad70d7130, 0x289a33c0ed9162cb, 0x97cefa45fb69185b], [0x44da25788b7797ee, 0x579b17f7148e9a75, 0x73ec1c23913c09ae, 0x3fab86a40baaa67d]⟩,
   ⟨[0x28e76c232df7be6d, 0x526844500a844d, 0xb86fbb143cc748c2, 0x6d89bb8aeb5f6ac5], [0xf66159df2327808c, 0x606f055329c5006c, 0xdaa1107f844b6ca4, 0x95d7686c63a8946c]⟩],
  [⟨[0x71438cea07f7dcf5, 0xb3f59afa0a1ccd55, 0x5a4396270e0071b4, 0x8694e3fae93d5b8e], [0x21713a387d6550b0, 0x893bd9f706cfcd5b, 0xc3d2679ce7513fce, 0x418ae7c82c451ef3]⟩,
   ⟨[0xadfaff380b85e2a9, 0x6124e6272e244653, 0xf2c465af375d1ee7, 0x5b2302d676e58455], [0x32938a0d7479f387, 0xf9a16a0daaab22a5, 0x65af0e252ad65cae, 0x2b5668668431ea40]⟩,
   ⟨[0xca3acc11dbcdafab, 0xbbb5dbfbb7f218b, 0xd69e091adb0abbe2, 0x8affce950b0b7b09], [0xa5e6c81c7ec52c7, 0xabd60595896707cd, 0x4ce86506101e0f80, 0x9629a6c04ed01b2e]⟩,
   ⟨[0x1d740eace15d82f4, 0x42f9801890a5d149, 0x1b8c8dc0903d6d28, 0x7be2b91605bbdff7], [0xfbacf878d8e41d96, 0x42e98bfbbe26eb56, 0x9ea73555f6de1eb1, 0x5325dddecf79a9ee]⟩,
   ⟨[0x44be62c348e6a22f, 0xd0a3c0ad8db35276, 0xb4c99306136fe9ba, 0xf2987d7a44e491f], [0xa0965f74ccc77c2b, 0xe01ad644fe110072, 0x79528b9cc16b5e1e, 0x45aeeff3f929be4d]⟩,
   ⟨[0x46e95df67f4da458, 0x554c50c1a7ad579b, 0xf64f00a14316dba1, 0x16c9851346d487bd], [0xecb197612c048a1b, 0x997af3985373e5e6, 0x50e832d2fdf23b20, 0x1b358e0f7ef7e097]⟩,
   ⟨[0x7c6728aeacbc759c, 0x187588fba156a466, 0xc2e550ed928f97bd, 0x8b595a3aaae1c05a], [0xe36871e1d77c1125, 0x11e129780dbbd882, 0x3ef8268a5e77fb7e, 0x7baea9ba6b33c00c]⟩,
   ⟨[0x7c8512365925e5fe, 0xced70ae5d8e1597b, 0x7a28be1a6dcd112f, 0x1eb192683b8eaf6f], [0x7e6f1cf28aa902b9, 0x3dd9d59ca5a761d9, 0x8ef70bb448d9f52e, 0x96629c1acdee9658]⟩,
   ⟨[0xca215eacb367c5b3, 0x36b22774a796338a, 0x71f9a61a26ebcdfe, 0x1b40580a35119bd3], [0x77169ef1431c78bd, 0x8197975e337022d5, 0x451127991d9a4742, 0x382750d619b6db07]⟩,
   ⟨[0x740405ee9786ae0b, 0xf7f37c0f3aba0481, 0x904fc60c51892307, 0x8405df2ae891d639], [0x53d19ac5d9b432f8, 0xe8f1730f066cd97c, 0xc8740fef0e95804b, 0x12ee433cec242811]⟩,
   ⟨[0x6af4b9b16153f4d4, 0x9cd8cd0cf84f0145, 0x6cabd4fcdceb0f06, 0x36bf1460d134dce], [0xcdeb18187effacab, 0xb57a416252c987e7, 0xdd5104ebc647e82f, 0x389aa556f51b5270]⟩,
   ⟨[0xc450caea60108876, 0xf36b5b6af48601a1, 0x257950d109128863, 0x7a592427a9f6a1b9], [0xbf1ff2b0ed12de33, 0x4d542ac8e2141101, 0x998523c4e170f9cf, 0x629385cefcec0e2f]⟩,
   ⟨[0x951494edb2677c49, 0xf1ae7138f9b648e8, 0x28b8749e63cff359, 0x5ac4ec4c9a73272f], [0xc25abb8721723271, 0x488ec9108b441afd, 0x75183481b1df775, 0x4662bbdaf1eb2fb4]⟩,
   ⟨[0xae836f746df9f64a, 0xf3cd6c9da185abe6, 0xafa897a8c29a1c1a, 0x4bafbb6911b2d6ac], [0x8040f9a3b6d971c7, 0x3b8920b700763eaf, 0x7a1655da52e848b7, 0x3bc8b55703fa84d]⟩,
   ⟨[0xe6348c651f934416, 0xdbe59c03f82bbc4a, 0x51aead09ead60547, 0x43a35c34f20111e], [0xaa18326ec574f0a, 0x7e90d70fcadf79d, 0x3979d4ce201cd68b, 0x7fbf2c632c2734b1]⟩,
   ⟨[0x2e4513732656af49, 0xca86207da432de06, 0xc5f9262d12f20637, 0x7dd9ccdc26c0c745], [0x99276bdca785ed89, 0x34b307a7374cfbe2, 0x916e9b061e8ee0c5, 0x4e8eb3c788a85c6a]⟩],
  [⟨[0x6f2433ef107f1ce0, 0x121de13146d23aef, 0x7ac50be820db44de, 0x1e500a2bf6f41a1c], [0x8e5bafcc27b0004c, 0x8538a5eddb555c04, 0xaec8a7ce4ed544, 0x7c7301cc73b2da91]⟩,
   ⟨[0x3e7e1e5c63284e3a, 0x145814001422d8ea, 0x5fe151bf7aaabd1d, 0x6716691f1533b371], [0xa592d53e22a8b7df, 0x66991aff51c97935, 0x8b10603dde5429b6, 0x2f6c6551f146b]⟩,
   ⟨[0xf641cbcb777a334c, 0xb45b21e1eefbca44, 0x7c2fcd6532f6e263, 0x5a21d80feed8901], [0x2471b4865506cf47, 0xffac1f77c9e62de, 0xc4d321df869d3bdc, 0x9ac035099512d0ca]⟩,
   ⟨[0x5a26e8f5352e0353, 0x965cf602bf6abbac, 0xdd8c4818e911c628, 0x132ca2d8dc2d04a0], [0x7641cfce6c865c91, 0xdb5ab8f38e9965ef, 0x30030bcdde0b7e90, 0x7bf444532320d3f1]⟩,
   ⟨[0xc006fa6dd8a99dad, 0xc042f163b45e64a1, 0xb91c9ca474f4dbb1, 0x23bd5a29be221e4e], [0x6b0591d73d1ecf78, 0x9e0acf38aa5b771c, 0xc970f263796d4aa3, 0x370375027b5dd349]⟩,
   ⟨[0xe11decdafbc52541, 0xa49b8d39e7fe53a5, 0x3a08e9bb104a1f6e, 0x95444a15e0192bfb], [0xef75b0621a97b875, 0x9fc8ae5eea5fc457, 0x3a09fd1b47f73089, 0x96750ece24516ab]⟩,
   ⟨[0xaa1800464a350c95, 0xa72f2b6758ea4195, 0xe0647945fd9a4f25, 0x4cf4136d22737e2d], [0xee2532ceefb2a96d, 0xb39db1176c2f1471, 0xf7c6242b19935bdb, 0x98ca48d47a820092]⟩,
   ⟨[0xe9c1ad0ac3c938b0, 0xf7cc05c4ccdf3bc6, 0x3c21752b363a9cc6, 0x47996b875916bd59], [0x1ef895d98d17468, 0x9182f8825818f5d8, 0xcbd212a3e35e4be7, 0x894e7f395ea16e55]⟩,
   ⟨[0xac674aee7c8fdd7e, 0xa23fa827edb0fe30, 0x642be06f745b3230, 0x7654c79bcb40941c], [0x4640c0c5d6a9e988, 0xa98af66111a4eecb, 0xe1e827e3325d730e, 0x2342d8807d8a02de]⟩,
   ⟨[0xe4101595715db87e, 0x462718ab3c44a43a, 0xf414cbc7efcbc0f7, 0x2a64db21e5999ab3], [0xdad841e19da91e84, 0x5a28f6495f5c1cdd, 0x2f8c9dcab8b41bda, 0x259dc791029c3697]⟩,
   ⟨[0xd56f4ef45296ba38, 0x4a853ba102ec3100, 0xb0ed5f21c8ae4c47, 0x53d0da0c61df268e], [0xb6771dcb6dc06eb6, 0x30b07595bb0c457f, 0xc2fd08f3f174690d, 0x77000d6a87a5dc8e]⟩,
   ⟨[0x90ddaa616e1369ad, 0x3dd15ee7b6a5f225, 0x51aa9c427aeb0dc, 0x18712dbbe5372729], [0x13b3f9dfa23aff5a, 0x34388ced703fbff9, 0xf390d6717d60129, 0x3f0ca25e4dae9863]⟩,
   ⟨[0x6e0f5594903385dc, 0x47483889f8a815a9, 0x42af320c23b70b1c, 0x4a27ca271a1aea03], [0xfaac21c866af6f9d, 0x20849d90c9fbfd3e, 0x793f889fee0a541c, 0x2555fc32ada5d18f]⟩,
   ⟨[0x3f38f58cba2bd509, 0x319a5f0d048f864b, 0xc4632f37d5900b1e, 0x3faf2615f8519441], [0x6a4aa25dfe194d77, 0xb5a6464ad681409b, 0x1a9326edb957523a, 0x7690ea4f27098b5b]⟩,
   ⟨[0x5530e91110f3fde3, 0x9a40101f810e7853, 0x152704fc8f011c4e, 0x5b1702e4129b455f], [0x46a130bae60f4d30, 0xa3d5741462bbe8b5, 0xa26238da3cfaefe3, 0x4e6141133175078e]⟩,
   ⟨[0x27bccdff992ee109, 0x79f88647fb45c6c3, 0x7fd5d73ac73f2829, 0x7ebe8e4e65a44cf1], [0xb9ec0b9437414b2c, 0x846ad1d136ded49d, 0x72ae106062f2fe87, 0x7f5af329c032eedd]⟩],
  [⟨[0x6c80b058c7a645a5, 0xf86341d2729066ac, 0xe4f366bd33fb5ce8, 0x6b79d63fc23a4751], [0xfaa0f994ec3f8686, 0x156a6e8ea9ba8f5e, 0xa46ca7d59f2fae57, 0x84cb21966efe66f2]⟩,
   ⟨[0xf9c1decbed25185c, 0x6dc43f21b1fcfc82, 0x4a840262a954087b, 0x602308090a38f667], [0xbd3450061d9672b5, 0xe0ff804bf83361ef, 0x9ddc6ce1ef8e1598, 0x4419f705fbd9bd0e]⟩,
   ⟨[0xf171ede43426122a, 0xef6a1ae220a3963e, 0xd25ab7a2031647d0, 0xfd7ec20cb4ca4e3], [0xc103969cb7d3a295, 0x4957509e34dbaba8, 0x8456df6360bc0760, 0x2af2033d63b49a9]⟩,
   ⟨[0x271966a00378e444, 0x673f057d5d15a0b7, 0xa55c44f9a0efe59e, 0x2f602f87376119a6], [0xa14907428981502, 0xda0067748741d4f2, 0x8f982c81133f8479, 0x1ecaf17af944319a]⟩,
   ⟨[0x281a234ea37f4fc2, 0xafd847b2fd34fc11, 0x2cc08394683e11a, 0x71215da93f65b844], [0xf9f41383efe32ac9, 0x4ac3d91d1361fe53, 0x3c9fbab1cc2e948, 0x9a9a4b9143379a4f]⟩,
   ⟨[0x8d37a10851bed5ac, 0x75d91890998e1c19, 0xe6c76b095d244730, 0x127147164cd555ff], [0xf2dce85a29ddc669, 0x8914d13a8d622348, 0x9fe6b578dae035e8, 0x21ecb251f41eef19]⟩,
   ⟨[0xeaff38627999064d, 0xb72babef96383204, 0x8e6c9e676bcccb43, 0x320a7d787fd71298], [0x4081e38ab438a302, 0xa15cba7120e132d, 0x6d9123e1ec2e0939, 0x692d699ce0d6fec5]⟩,
   ⟨[0xb639adaec8d5d361, 0xa8f742ccc60a078d, 0xe8d2cf929d740f0f, 0x6e8eeef94dce6a87], [0x54e194886a2e5164, 0x4372c6cf2430e4b9, 0xd58ea91b1c5b13b3, 0x796dcc45bb9f2911]⟩,
   ⟨[0xd8d4faf0cbb267f9, 0xc2770dbe703f4011, 0x13739f020d651402, 0x7de4e51e72d2b3f1], [0xb10f966e1fe00c7e, 0x5e9a15018f42b5f8, 0x6afb1ad0d00437a3, 0x267d15361473d5ae]⟩,
   ⟨[0x1173b5db4cae118f, 0xc3a2eafdca749ee6, 0x64f738e64ed4fff4, 0x47ddecb6b07860b6], [0xf5d627fcbd47a901, 0x6493bc28856c6903, 0x90280e4bea63b675, 0x211c04a2c4148666]⟩,
   ⟨[0xa5f0c276524bc38, 0x4b9d95fbbb3cbdb9, 0x5394adc220507c82, 0x4c0c9167b4dbe448], [0xac3e87ce303a5b11, 0xd31fb9c53251f4df, 0x86c281dfe43ce799, 0x84e644d729fe09e4]⟩,
   ⟨[0x6d7b61dc43166c20, 0x54d6c035bd34f981, 0xb166769dc991096d, 0x51a47e3a3a4cf05c], [0x57cf9eff14f5e7f1, 0xed3d4e9de39fda0d, 0xdf0176ecbaa7e93b, 0x6b2fea1470935b9f]⟩,
   ⟨[0x19f9d59e709b70ae, 0xd850ca3270472149, 0x292cadd929ee6104, 0x870f7c998fd499f2], [0x200ecb1c415c6ffd, 0xeea6107d35cb841b, 0x1cb06f8af95dd333, 0x245712fde498aa7b]⟩,
   ⟨[0x101665eaed4fbd78, 0xc6dde1bb0e32d1b4, 0x3e79185e40150a9c, 0x49e2ae6b7def3607], [0xccc9b0f6308b7f59, 0xb267008fce922087, 0x46cf7f07cf2aaba6, 0x5a74c8a09954091f]⟩,
   ⟨[0x8f2871955240b5a0, 0x7ac7720f1845373d, 0xcf276b594e592274, 0x6bebc284694c30b8], [0xda0113d6677b16cd, 0xa221344645c9fa76, 0x2deaf2ed66964adb, 0x1977a8b3bc062240]⟩,
   ⟨[0xeea2912680303dfd, 0x3e4a33ace95bf6a1, 0x6bfe2d5d15de0457, 0x407bf7e3ad0976d1], [0x4c1f61f306b415b, 0xc86a75d25f790d5f, 0x7b799edeb7eae07b, 0x9155a9a0b4a66839]⟩],
  [⟨[0x9745c6bb0dce586b, 0x554c8313be77b502, 0xf0f842a9a93962cf, 0x40862273aaa141bc], [0x926ffa4abd62237b, 0xd4f1e4a17b942f48, 0x3a841eb7075684fd, 0x21f6eb39dd1807e1]⟩,
   ⟨[0x155dfd66beda4365, 0xdd575c8327f33bf9, 0x5907b08d3dff83a1, 0x7e325357d6788d63], [0xf90bf447bac74ed7, 0x2de6c957eda226cd, 0x678323021ca44607, 0x22ecbc1f56011c38]⟩,
   ⟨[0xf01279a9b663a46c, 0x7d74c5f7e3aab83, 0xf20940b68c0da43e, 0x57c6a735368ad991], [0x1e9b3665007e059, 0xfc38fc999614d480, 0x4a3aaa18ff7da757, 0x4481b669b0ce1b03]⟩,
   ⟨[0x9caa37a0b4a807ff, 0xbdedeb49f9b269f3, 0xc5b76e57cb607ac3, 0x8aefe669a322f48], [0x6919e40dd9261469, 0x1f0ada81849718fa, 0xcd251b549d81628e, 0x6519c3c65505f9e1]⟩,
   ⟨[0x277591dc2f81c037, 0xd63ad35a76e0d41e, 0x682662b56ec063d3, 0x8210978b6762a0db], [0x5085f68fe164b90, 0x50026adc3d6fd0d1, 0x38cc9fa7b01a3791, 0x1e286652b376f83e]⟩,
   ⟨[0x8dffda1609759892, 0xe011dddb9ac2ce5d, 0xddc7670fbd71426b, 0x9722a23b19742f7c], [0x2ea99893dc4767d3, 0xcb68d6c211125bae, 0xac76953e307ed3b9, 0xedd0c17c366e9a2]⟩,
   ⟨[0x88b3dec9484b5272, 0xc848ea190380294, 0xde187e83a01ac92c, 0x2a8801827a5d4d65], [0xd3c22c2bb3c3c7bb, 0xc485ce02de7ece33, 0xf22138c4a437071a, 0x23a55c890716da53]⟩,
   ⟨[0x9533c4a3f6fe058e, 0x28753f87748e4a4f, 0x7814c50aea404c70, 0x908d1c81e91b5ef3], [0xd827d3ce04094766, 0x7ae2fd260ce5c727, 0x16ac86fcdad2bdd, 0x37c088b07a77c252]⟩,
   ⟨[0xabf4c1ef18a35cd3, 0x1f721491698a5a01, 0x79284a121a9e9a1f, 0x457ff704d50df40], [0x1d235814ec46ed07, 0xbd013752ae5e97c8, 0xe085c88d9b100d4, 0x8afa070a8858f9f3]⟩,
   ⟨[0xf548be3698d6a59, 0x5d7818a5bf2d0d94, 0x8e150df1d80e620d, 0x4c3a5e64f857f167], [0x837d9a9861bd9152, 0x242ce5898d10687f, 0x9863ea4cb6b52bb7, 0x23665b46b7dd35ff]⟩,
   ⟨[0x3aa5432a73942aaf, 0xb0185db40cee83a9, 0x145372eea83b907b, 0x609f1ad9bb6d341a], [0x28c2b37a864c92ee, 0xdd847239d4cc1158, 0xe5bd4fd28f2eaf0a, 0x4f43bc0d24950ab]⟩,
   ⟨[0x11defced88da3f20, 0xca4ce370a407c4a2, 0xea70bedf2f8c5cfc, 0x8ac147d8214b7f7], [0xecad0f77e260aa96, 0xa868ac63b56c30f7, 0xf0acde5a396f4815, 0x302f75b9acde6cd8]⟩,
   ⟨[0x2125d07dc5d14866, 0xfe563de44ae3212d, 0xfe787cbee9caa2b, 0x7d9b56a253802482], [0x128b4d378040d1a7, 0x5737129930aca2f4, 0x5c443e357623d14a, 0x6436d3285fdb6310]⟩,
   ⟨[0x531486a4a8557b64, 0x3fab4f219c5de310, 0xd872282e260468d0, 0x4cd45682542cba4], [0xaca0975a555b6e0c, 0xee8c43b28b85132f, 0xc768808bb9dece9d, 0x59edec60431af98c]⟩,
   ⟨[0xc365e13331992e22, 0xb96c5fa00dc3a4c8, 0xdeb1c1daa65761b0, 0x457676eef4acab4c], [0xa0f95894e674ffaf, 0xfd099172d65cdab7, 0x9383c2f854da58a2, 0xa4f4c110f24a07b]⟩,
   ⟨[0x9d7a80b3e380abf3, 0xf0c6ac5a9e469f9f, 0xc87d57276bd0a324, 0x28138e377692b063], [0xe18c1f7dd67862ca, 0x4b6b723e1e07f928, 0xaafe3fb0bbcf4125, 0x254003223b3ae714]⟩],
  [⟨[0xb89a2dca63c295d8, 0x5cc03c6585041aa1, 0xfa9b4c5cc6514781, 0x578031a0d92388ff], [0xb0d5ae0af92c2d77, 0x945a677e793d588a, 0x3722de4434a190e0, 0x6ea90db80c2b9975]⟩,
   ⟨[0xe987aa8584ba4f9b, 0xb2a77b9c0ab43be6, 0xc4ad2af6474d8841, 0x4ed7a82b5d4fa590], [0x9f39335e9977ac2b, 0x3ccd406d52e87607, 0x9d18cb3f71456060, 0xfe4d8886a45d7d0]⟩,
   ⟨[0xaea8a911f42d501a, 0x303e25d588f66fba, 0x54213f2961740b85, 0x5bc13a30c0b4d835], [0x569ab9b84758ea28, 0xe2e49b28b796a794, 0x17787125320d54e2, 0x5a6a8edec54b4465]⟩,
   ⟨[0xc76c73d9870619dd, 0xf541440e84fe1078, 0x2082fe363b26a3dc, 0x3b896b29cc329b14], [0xb45028a9cafcdc20, 0xa1b77c6f9c56757e, 0xde50d86584802e47, 0x7dfbc0e8ba0892b0]⟩,
   ⟨[0xebc505a947e702bb, 0x2329a41cdacfacfe, 0xea11560351ddce2f, 0x95bbc8072e9d855a], [0x454c6b88cfd33e9f, 0x993cf6de4ffbb24a, 0xa8e22ff89b2144cd, 0x741066ee84943294]⟩,
   ⟨[0x2cee0cfff067e5b2, 0x1c1fd5a3ca95f1c5, 0xa0eb8e7dc07b97f1, 0xf2a5d777457415e], [0xdff92c5845d06291, 0x709ea0ac48ababe8, 0xb3058feb2fdc92f0, 0x55e9f86e5e5b169e]⟩,
   ⟨[0xee5df132ebf6af2b, 0xc30dc3f1f642a206, 0xd7d8ec3e02c60cb6, 0x7c98946b3178f1bf], [0x816c2aa1a68799eb, 0x507fd5e92430f06b, 0x21fff1cb9ebd4b7, 0x44365e68aecfea4]⟩,
   ⟨[0xdc5f5ea621339693, 0x5bfd267690a448ad, 0xf712ba95a12a9d77, 0x7104735abd8a6b5b], [0xd2ed8304a763bb99, 0x7af040f011b91a05, 0xc545e8aeb61f3789, 0x582e9eedbb386760]⟩,
   ⟨[0xfce5877cc099185, 0xe148bb5cd681e67, 0xe9f9013eecb24ece, 0x90654b2a386485], [0x11ba700b0520bae8, 0xfc93be31d8e53123, 0x7dd7cb36e37948ee, 0x8689ae8f3fc23444]⟩,
   ⟨[0x2060f7deaac6616b, 0x372952c5deab3cc7, 0x715c4d27c2424acd, 0x58468560308a009], [0x887bbd550b8b34e8, 0x949acbd1b688c987, 0x3e774d49784c4c0e, 0x7aea2d11b0f5f545]⟩,
   ⟨[0x5335ba6be831e509, 0x8fc4b4af739f332e, 0xb050246295993eaf, 0x7da49f36a7ceb88b], [0x3be0b74b029d0c8f, 0xbc07f18055611a8b, 0xc168cf416583f53f, 0x4256e8d2c34adbc1]⟩,
   ⟨[0x313afc75ce2fcd89, 0xea27fda4d3da44f2, 0x9fabea799063b0dc, 0x2df7d966b3418884], [0x4329fd2480af2ebd, 0x36f27ff79f095d30, 0x88ffb18fcc84c068, 0x976427a87b0a9906]⟩,
   ⟨[0xcff828ccfac21087, 0x6b6d348456863cb5, 0x14163a70c30879f3, 0x30e2a6338ca6fd5d], [0xc7fcead628a58783, 0x945f7b09eefa1eaa, 0x98a503db5cc66267, 0x83ee750e3780061b]⟩,
   ⟨[0x7061409ab8477d6b, 0xe47c779d2b7b54fa, 0x42f5edf5f293166c, 0x73c3ac1b115d830f], [0xc30d346e4dee0980, 0xee0d9a29a62f0d09, 0xbbe8dc9eabcb7dae, 0x4f0e78c068b78925]⟩,
   ⟨[0x25a0d4ffb4b14003, 0xa4c3ac55b8ab649c, 0x7d7ede7227f9fdf5, 0x507ec83fbc2a46d4], [0x344577d9faafc26f, 0x77cbb7833eb30156, 0x3a846ffd1d5c9367, 0x5f0d280c9df9f7be]⟩,
   ⟨[0xcc8eac0a77df7f9f, 0x195bc6fff33a62d4, 0x18a33ffa524d78fe, 0x10e589746603f9c0], [0x31af4b460cda2c3f, 0xddbf00c8ade169c3, 0xa169c3e371a7bc38, 0x3fc352ffa64b342e]⟩],
  [⟨[0x58848315ee73c673, 0x67d2f7c08adb897e, 0xe8cd786df0658115, 0x23d515aac54d2ab], [0xede61d867559911, 0xbc12b1063c2b78b5, 0xb5661a289e4707d8, 0x93fb4096adc095a4]⟩,
   ⟨[0xeeb3810f33d5fa08, 0x8d8fc35433f4caaf, 0xed87051629eb08a3, 0x89fd91cad1d31ebc], [0xd2f1f832ede2494b, 0xcfee1d77fa8eea95, 0x13603c4a3b0f005c, 0x6df97f85d9ef68f4]⟩,
   ⟨[0x578fbc0a55410512, 0x1fa404f2dec79eee, 0x201fe21592b60820, 0x9a9b3ce80a56193a], [0x8a5eccb910b49800, 0xa7373aebbfdb1d8e, 0x8996befa4944b5df, 0x3102d3c07b44246c]⟩,
   ⟨[0xd4a853b7449c09be, 0x1f7080a451ddb7fe, 0x8a9de52ce1c27fc1, 0x6585b54f0c58b99d], [0x8eeb0601b5a4ab53, 0x977d658d48c73ac6, 0xd5da09033d9bd223, 0x881a5838be115965]⟩,
   ⟨[0x8eb70b77eb3fc303, 0xed1c4def98bdb841, 0x13e6be06997de9e4, 0x4a94c0a19334d46d], [0x184c17c80f867daf, 0x4a65802633a64148, 0xd177f0090ae3d4aa, 0x8134ac8f98ed12c0]⟩,
   ⟨[0x7a308a007a58ddec, 0x74a15c5ffdf92df2, 0x210d260e21b4e345, 0x6446715bc651e31e], [0xb1af1f8410b905b6, 0xef6cd0f2a62d366f, 0x77e47b01d1f6b7e3, 0xf38b2802b95bd12]⟩,
   ⟨[0x52da30e18cccdae6, 0x9f3d6636bd86a13a, 0xadfa00c5f4ea6151, 0x6b93bfa01ec37639], [0x443f0023f8fe22fc, 0xcb7848a4a81feacc, 0xce5e650a517e9e61, 0x5842db7da1968e3d]⟩,
   ⟨[0x61ddc69498c06f78, 0x680fede97985b1a2, 0x214cd2b8fb53a327, 0x98eac0b3e425132b], [0x5eedd76d33e5766d, 0x5b280618540000a3, 0x915d55cb65c894ae, 0x7b088a36d20d9523]⟩,
   ⟨[0x51a47312c28da278, 0xe315cba4efe64521, 0x3ef70a1849d8d0ff, 0x990cb92cabd48c5], [0x22ed6302a7c2fc76, 0xb50370ea2cb98186, 0xdea88c65f3f2ba8b, 0x906245109fedeea]⟩,
   ⟨[0x742f9a2edac0f222, 0xe2a8842b95c88a8e, 0x80c057659d817b14, 0x7ed0521a982d49ae], [0x47e49d4907b10f7, 0x8a3e23a7de8ad4cd, 0xebe8c13feb5292b1, 0x48a6209a7eb70bd]⟩,
   ⟨[0xb51665a09aa34851, 0x4dd5ac1b7c4afcee, 0xdee7ab25a21937, 0x88e2681e80faf232], [0x79ecd66ab5411ee2, 0x6008ce3f370bf53, 0xcfb1850ec9bbb64c, 0x5fbacb277149b14e]⟩,
   ⟨[0xa1f0ee079938aa0c, 0x6945e2ba74cce9c4, 0x16689fce46a98bea, 0x8d71f405cf67df91], [0x71e4cac869621150, 0x518fa20089b380d8, 0x3b3b85f153f9e660, 0x2643303c6d9b022]⟩,
   ⟨[0xe8c478ec07660c3e, 0xa906c3a1ef41f1da, 0xe918f16046699b71, 0x2b8a0b0ee5be7b36], [0xc663f0ec889f50a0, 0x7413264bf9214f81, 0x2e9fa9a0421a9087, 0x85c59b7c83546dcd]⟩,
   ⟨[0xb4a6cf398d920a29, 0xc857af481b3956a1, 0x519c7371dd794b23, 0x478462208efbf8f9], [0x184c25e5617e4c6c, 0x218fcc23d2e51a5e, 0xb421971928fa0ffc, 0x6c0bcd71781a61d9]⟩,
   ⟨[0x440d6ddfdc7b5568, 0x64c7cc310dbbec7c, 0x63d16d4ea2dc0cba, 0x7bd9e0cc4504be2c], [0x9c8828952de780a8, 0x7c6685c2ef2b2486, 0xf1fb09e9957fa7d8, 0x20c6b5a546a77a98]⟩,
   ⟨[0x60c7757333c0f0c1, 0x40c93227cadda5fe, 0xa48ebaa29dd41d5f, 0x4aafbf3cea9fd5ad], [0x7eb61836c5a287ba, 0x1d6a1ba2b31ba25e, 0x60507257ad186e52, 0x7fec8eb02bab7451]⟩],
  [⟨[0x500e2fdbb8da5ffe, 0x6ae2d4ea8cdd1b39, 0x38d120251a5840cd, 0x8d3b20cbc214d26d], [0xef6bb36cc041e874, 0x67660393450f2218, 0x1e1b7782a892bdfd, 0x2d69514c8d962e62]⟩,
   ⟨[0x9edf5f789631b095, 0xac7dd68745bf8f20, 0x257cce28e3262ebc, 0x5d32efcbe0e480a6], [0xed48e34c6fbb99e8, 0x50b1d58c23fde9b7, 0xc5164c2a6b6927c8, 0x8a0bc6068906b705]⟩,
   ⟨[0x3fa3c7c92f747da8, 0x2e8d2c2e14938e08, 0x155a8a5bb6a1c720, 0x6b4d8c9eb3133fd0], [0x79ac7f1ce131c1d, 0x9cf419af815b7d2b, 0x569eb7bae60b6245, 0x3c79e609a3dd94e]⟩,
   ⟨[0x328f5296b9ce9502, 0xca44adbde45c3576, 0x669879526194ae2c, 0x5875f8efbf9b8c49], [0x525a4d53da51cab8, 0x91a592dd9dc268b2, 0xd7ea7958e1e3c168, 0xd1e20e0a999ed30]⟩,
   ⟨[0x55da34e5fe8ad270, 0xb041289561ec55f6, 0xd45670f534569c9, 0x5a7e6764e23f69fb], [0xbb6bbec9a8b28676, 0x4f924558093b0d1d, 0xd4e4bf120c29d841, 0x67d2b4c8578a237a]⟩,
   ⟨[0xbdf32d663ef2d73, 0x7248dd2d4ae4303c, 0xbb61bab56ce1e92a, 0x126166e91d7b9a6c], [0x4ce7086a11cebc3c, 0xe7acb25e1c71426f, 0xbfb65edc432cc4af, 0x3bca5202cb018cf7]⟩,
   ⟨[0xacf034f276430a87, 0xbfdf19b3534c42ed, 0x5654fe67946cb1a, 0xdb07e7980f17880], [0xe6e93101fdcf8bc9, 0xf3198b87f798a8cd, 0xc05444efc9683420, 0x56e9aa68915d1bf1]⟩,
   ⟨[0xf27b298b34000b11, 0x70ed8c95f4196e50, 0xf3e16608233c8764, 0x5b97655a41881557], [0x5bf11c1a128c195b, 0xffb64333372c286d, 0x84d3ef77c83bb31, 0x8ecf6c01745b7d75]⟩,
   ⟨[0x3d6052b9c6f4ff82, 0x9305fe456607892f, 0x232fd87e5879425f, 0x4caedf73d6f47350], [0x889243d2032fc50d, 0xa6af69d70c9c11ac, 0x43b5429d802e8e06, 0x38f1dea8d70fc802]⟩,
   ⟨[0x54f24344c9595c08, 0x95a2e8fb0240aab3, 0x7a5109dc3544985, 0x96f44213b5d30899], [0x3fab192aa347497, 0x47ffd3dec9cfc073, 0x283ad765d2c1d57f, 0x1fdffbac62dc271a]⟩,
   ⟨[0x2355c62995f80ca6, 0x90ae1dbbcd8d880a, 0x563cc122c54117e0, 0x1ef4991b813d7481], [0x8a310d77cce9aede, 0xa401faef9318642e, 0xc1712a67cf9afdcb, 0x8d97374cbe499de5]⟩,
   ⟨[0x7437aa3b55a0bc07, 0x4946d0f726dd81, 0x33d41d1b0f341860, 0x2a009eb517840f0d], [0x158f59aeaa0dcdcf, 0xf686ef2deab42135, 0xff6b8e827a80c670, 0x38646963a04df944]⟩,
   ⟨[0x6bb2705e4b987e90, 0x2f5e2c4dd3c36316, 0x41b38905e5a9ecec, 0x2c6ba68155bf8d1a], [0x1121b3b23c92b20b, 0x6de41b12904305d5, 0xa0496cf4d569eac4, 0x5c64a06c11e5cf90]⟩,
   ⟨[0xa65f12abe28783df, 0x2a891b0f37322285, 0xd6ff46049811c4eb, 0x7c960ed5a8505ac0], [0xe86893772fca110d, 0x71aae29260fd893e, 0x8ade53177505671d, 0x721a07a58c508791]⟩,
   ⟨[0xc1ae9a50e5ecca8c, 0x7528aef507eb4329, 0x8f0d0e03d1297d88, 0x27c7bf76244bbc0c], [0x96eeda7cc7e7e9bb, 0xc9749bf7f96c99b3, 0x44c852d2467b4d43, 0x1691d71d937fa21d]⟩,
   ⟨[0x8cac092ff8058a68, 0x6b892bcfdae38445, 0x82cbece597d76059, 0x5aeb66463518f9e2], [0xa39c710c392080b4, 0x575dc5f41502de54, 0xa465dd5e3a3d2b4d, 0x281aae47638eaf45]⟩],
  [⟨[0xbe40c92be955a145, 0xd464d6bc324234b5, 0xe8084747b09d4af8, 0x939c70bf5268d6c3], [0x9c9c9d25d1ddbb48, 0x30d9ea7f790b5b42, 0x367fd79b4e3914b4, 0x27615f29826ee4d7]⟩,
   ⟨[0x9bb6f1650a41246, 0xc72bff7ae5459a13, 0xfc15846ff09b2f7, 0x6d90406209cb693a], [0x98a132f8f40fc67d, 0xc8b6573bdf37cbfa, 0xc9cf994899d7fc36, 0xdd66abaa7235ddb]⟩,
   ⟨[0x180b525f96048bd, 0xeb566786544f1e70, 0x8babbf9b8ef4373c, 0x509ba431d9e49178], [0xf961a6f565a4a201, 0xb6621df98d44ed2d, 0xeadd3c0cd7b4d744, 0x75d27e990eaab110]⟩,
   ⟨[0xeac7ac7685df5695, 0x2c26274da7540a3, 0xdec1bbc4c659b610, 0x54483c1b3ac61eeb], [0x8b91209a217e0283, 0x939fbdaf3a17ddfe, 0xa82c66d65bf98726, 0x2ba82fa0915aac76]⟩,
   ⟨[0x99b324c1af4542e8, 0x16ebc66fc0f225e0, 0xeae6956327fef57b, 0x2996fe3c961b03fa], [0x835212e4f967a68, 0xaaabd99f44352dc, 0x1874255f4b3a6b8d, 0x45f5d8b26d10b369]⟩,
   ⟨[0x603dd497f7b7644b, 0x369be6762d1386aa, 0x8c1b76314c9fa94, 0x734921d9384af696], [0xa1b5af5bd76e8eeb, 0xb0eae7a342f990e8, 0x59e7c515069ed81d, 0x2d1b5e62b5a50610]⟩,
   ⟨[0xdc32281085995bd3, 0x35a47b05873e7a09, 0xcdfe9bba70de932, 0x49b899dd62fbc89], [0xf6baa860652291db, 0x58123b259af7478f, 0xa05ccbc247b9f204, 0x8a0b479d82d999a7]⟩,
   ⟨[0xa72b9b522d0f619a, 0xe73b66f75919c420, 0x92319c86d21cfefe, 0x58eefc71f1635f0e], [0xdc481783da909290, 0x144e7a9866316584, 0xbd7e657f45e1e3c8, 0x5c9fcd1cbd93938c]⟩,
   ⟨[0x2339e2fa436c1ab3, 0x69c22269c26768aa, 0x94dfcaf440fcbd90, 0x56235739c41d4f61], [0x6e50d4db718468d3, 0xdea80730cadcec6c, 0x924ff97e63dc3c43, 0x1b6528256752ea6a]⟩,
   ⟨[0xac2bdcddf07be4bb, 0xb46d8e968db0a32d, 0xdd661c68b618488d, 0x8ed22d4b75e1e4bf], [0x5dd2e5df3c177d80, 0x5049c01282803711, 0xfb243b3f73e0ba27, 0xc756ba08c7810d5]⟩,
   ⟨[0xfc58f0bd6f16fbca, 0xa855bb8ca5e33b36, 0xb9239eb499d08247, 0x27abc78d49caf40d], [0x88be1595a1285278, 0x9d5aee5b60f16638, 0x3f3815291fce4327, 0x17206899f19caa04]⟩,
   ⟨[0x586163489e047f55, 0xd6098a5e991fc4c, 0x47760f9899a33914, 0x70c8f5d45608c80e], [0x405f119106036dbe, 0xbf62589580cc0a27, 0xfb8a0330389fa7bf, 0x22b0b9461fa0cbb4]⟩,
   ⟨[0x84ae19811b1e2acd, 0xfa23c20563961891, 0xcf4c685e742c1653, 0x55bfc7444d303078], [0xeb131cbbba03aae4, 0xf338c0db2c5b9eab, 0xc1006396b7495209, 0xfd928cff7e6a4e6]⟩,
   ⟨[0xa6bac9948633ab84, 0xc165bf5a75364642, 0xb70beb478c57070d, 0x838158a0d416322e], [0x501d2bfdd4957751, 0xf1cddf32c23aa730, 0xf64558a85458f1c6, 0x51b6dde306e1209c]⟩,
   ⟨[0x712c186cc31d6be, 0x91c4064a33cd1d3f, 0xcadae5b0c7c91f53, 0x52aa408fdeb2a2ee], [0x58675cc202719d5, 0x444f99f51d087d07, 0x4db587e89d7a8af4, 0x389376f5da17095a]⟩,
   ⟨[0x8262d37048fed385, 0x3b1fb4661ae92689, 0xda6f570f24242cf4, 0x532fc9e0deac5e9], [0x5e8fb74020c5bd7b, 0x5ae99925002624b3, 0xad44a4d57afadc15, 0x6aecbc80df409330]⟩]]

/-- `lut_cmb[j][k]`. -/
def lut_cmb (j k : Nat) : AffW (List Nat) := (lut_data.getD j []).getD k ⟨[], []⟩

end Gost.Ecp_CryptoPro_C
