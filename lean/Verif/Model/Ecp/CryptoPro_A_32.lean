import Verif.Model.FiatField

/-!
# The functions, constants and table of `/repo/ecp_id_GostR3410_2001_CryptoPro_A_ParamSet.c`

32 bit version of the file (`__SIZEOF_INT128__` is not defined).  Generated by `tools/mkfiat.py`, statement by statement;
see `Verif/Model/Fiat.lean` for the meaning.  All line numbers refer to this file.
-/

namespace Gost.Ecp_CryptoPro_A_32

set_option maxRecDepth 100000

/-- `fiat_id_GostR3410_2001_CryptoPro_A_ParamSet_carry_mul`, lines 4000-4390. -/
def carry_mul : CProg := ⟨[
  .set (.mul 64 (.c 0x269) (.mul 64 (.a 10) (.b 10))), .set (.mul 64 (.c 0x269) (.mul 64 (.a 10) (.b 9))),
  .set (.mul 64 (.c 0x269) (.mul 64 (.mul 64 (.a 10) (.b 8)) (.c 2))), .set (.mul 64 (.c 0x269) (.mul 64 (.a 10) (.b 7))),
  .set (.mul 64 (.c 0x269) (.mul 64 (.a 10) (.b 6))), .set (.mul 64 (.c 0x269) (.mul 64 (.a 10) (.b 5))),
  .set (.mul 64 (.c 0x269) (.mul 64 (.mul 64 (.a 10) (.b 4)) (.c 2))), .set (.mul 64 (.c 0x269) (.mul 64 (.a 10) (.b 3))),
  .set (.mul 64 (.c 0x269) (.mul 64 (.a 10) (.b 2))), .set (.mul 64 (.c 0x269) (.mul 64 (.mul 64 (.a 10) (.b 1)) (.c 2))),
  .set (.mul 64 (.c 0x269) (.mul 64 (.a 9) (.b 10))), .set (.mul 64 (.c 0x269) (.mul 64 (.mul 64 (.a 9) (.b 9)) (.c 2))),
  .set (.mul 64 (.c 0x269) (.mul 64 (.mul 64 (.a 9) (.b 8)) (.c 2))), .set (.mul 64 (.c 0x269) (.mul 64 (.a 9) (.b 7))),
  .set (.mul 64 (.c 0x269) (.mul 64 (.a 9) (.b 6))), .set (.mul 64 (.c 0x269) (.mul 64 (.mul 64 (.a 9) (.b 5)) (.c 2))),
  .set (.mul 64 (.c 0x269) (.mul 64 (.mul 64 (.a 9) (.b 4)) (.c 2))), .set (.mul 64 (.c 0x269) (.mul 64 (.a 9) (.b 3))),
  .set (.mul 64 (.c 0x269) (.mul 64 (.mul 64 (.a 9) (.b 2)) (.c 2))), .set (.mul 64 (.c 0x269) (.mul 64 (.mul 64 (.a 8) (.b 10)) (.c 2))),
  .set (.mul 64 (.c 0x269) (.mul 64 (.mul 64 (.a 8) (.b 9)) (.c 2))), .set (.mul 64 (.c 0x269) (.mul 64 (.mul 64 (.a 8) (.b 8)) (.c 2))),
  .set (.mul 64 (.c 0x269) (.mul 64 (.a 8) (.b 7))), .set (.mul 64 (.c 0x269) (.mul 64 (.mul 64 (.a 8) (.b 6)) (.c 2))),
  .set (.mul 64 (.c 0x269) (.mul 64 (.mul 64 (.a 8) (.b 5)) (.c 2))), .set (.mul 64 (.c 0x269) (.mul 64 (.mul 64 (.a 8) (.b 4)) (.c 2))),
  .set (.mul 64 (.c 0x269) (.mul 64 (.mul 64 (.a 8) (.b 3)) (.c 2))), .set (.mul 64 (.c 0x269) (.mul 64 (.a 7) (.b 10))),
  .set (.mul 64 (.c 0x269) (.mul 64 (.a 7) (.b 9))), .set (.mul 64 (.c 0x269) (.mul 64 (.a 7) (.b 8))),
  .set (.mul 64 (.c 0x269) (.mul 64 (.a 7) (.b 7))), .set (.mul 64 (.c 0x269) (.mul 64 (.a 7) (.b 6))),
  .set (.mul 64 (.c 0x269) (.mul 64 (.a 7) (.b 5))), .set (.mul 64 (.c 0x269) (.mul 64 (.mul 64 (.a 7) (.b 4)) (.c 2))),
  .set (.mul 64 (.c 0x269) (.mul 64 (.a 6) (.b 10))), .set (.mul 64 (.c 0x269) (.mul 64 (.a 6) (.b 9))),
  .set (.mul 64 (.c 0x269) (.mul 64 (.mul 64 (.a 6) (.b 8)) (.c 2))), .set (.mul 64 (.c 0x269) (.mul 64 (.a 6) (.b 7))),
  .set (.mul 64 (.c 0x269) (.mul 64 (.a 6) (.b 6))), .set (.mul 64 (.c 0x269) (.mul 64 (.mul 64 (.a 6) (.b 5)) (.c 2))),
  .set (.mul 64 (.c 0x269) (.mul 64 (.a 5) (.b 10))), .set (.mul 64 (.c 0x269) (.mul 64 (.mul 64 (.a 5) (.b 9)) (.c 2))),
  .set (.mul 64 (.c 0x269) (.mul 64 (.mul 64 (.a 5) (.b 8)) (.c 2))), .set (.mul 64 (.c 0x269) (.mul 64 (.a 5) (.b 7))),
  .set (.mul 64 (.c 0x269) (.mul 64 (.mul 64 (.a 5) (.b 6)) (.c 2))), .set (.mul 64 (.c 0x269) (.mul 64 (.mul 64 (.a 4) (.b 10)) (.c 2))),
  .set (.mul 64 (.c 0x269) (.mul 64 (.mul 64 (.a 4) (.b 9)) (.c 2))), .set (.mul 64 (.c 0x269) (.mul 64 (.mul 64 (.a 4) (.b 8)) (.c 2))),
  .set (.mul 64 (.c 0x269) (.mul 64 (.mul 64 (.a 4) (.b 7)) (.c 2))), .set (.mul 64 (.c 0x269) (.mul 64 (.a 3) (.b 10))),
  .set (.mul 64 (.c 0x269) (.mul 64 (.a 3) (.b 9))), .set (.mul 64 (.c 0x269) (.mul 64 (.mul 64 (.a 3) (.b 8)) (.c 2))),
  .set (.mul 64 (.c 0x269) (.mul 64 (.a 2) (.b 10))), .set (.mul 64 (.c 0x269) (.mul 64 (.mul 64 (.a 2) (.b 9)) (.c 2))),
  .set (.mul 64 (.c 0x269) (.mul 64 (.mul 64 (.a 1) (.b 10)) (.c 2))), .set (.mul 64 (.a 10) (.b 0)),
  .set (.mul 64 (.a 9) (.mul 32 (.b 1) (.c 2))), .set (.mul 64 (.a 9) (.b 0)), .set (.mul 64 (.a 8) (.mul 32 (.b 2) (.c 2))),
  .set (.mul 64 (.a 8) (.mul 32 (.b 1) (.c 2))), .set (.mul 64 (.a 8) (.b 0)), .set (.mul 64 (.a 7) (.b 3)), .set (.mul 64 (.a 7) (.b 2)),
  .set (.mul 64 (.a 7) (.b 1)), .set (.mul 64 (.a 7) (.b 0)), .set (.mul 64 (.a 6) (.mul 32 (.b 4) (.c 2))), .set (.mul 64 (.a 6) (.b 3)),
  .set (.mul 64 (.a 6) (.b 2)), .set (.mul 64 (.a 6) (.mul 32 (.b 1) (.c 2))), .set (.mul 64 (.a 6) (.b 0)),
  .set (.mul 64 (.a 5) (.mul 32 (.b 5) (.c 2))), .set (.mul 64 (.a 5) (.mul 32 (.b 4) (.c 2))), .set (.mul 64 (.a 5) (.b 3)),
  .set (.mul 64 (.a 5) (.mul 32 (.b 2) (.c 2))), .set (.mul 64 (.a 5) (.mul 32 (.b 1) (.c 2))), .set (.mul 64 (.a 5) (.b 0)),
  .set (.mul 64 (.a 4) (.mul 32 (.b 6) (.c 2))), .set (.mul 64 (.a 4) (.mul 32 (.b 5) (.c 2))),
  .set (.mul 64 (.a 4) (.mul 32 (.b 4) (.c 2))), .set (.mul 64 (.a 4) (.mul 32 (.b 3) (.c 2))),
  .set (.mul 64 (.a 4) (.mul 32 (.b 2) (.c 2))), .set (.mul 64 (.a 4) (.mul 32 (.b 1) (.c 2))), .set (.mul 64 (.a 4) (.b 0)),
  .set (.mul 64 (.a 3) (.b 7)), .set (.mul 64 (.a 3) (.b 6)), .set (.mul 64 (.a 3) (.b 5)), .set (.mul 64 (.a 3) (.mul 32 (.b 4) (.c 2))),
  .set (.mul 64 (.a 3) (.b 3)), .set (.mul 64 (.a 3) (.b 2)), .set (.mul 64 (.a 3) (.b 1)), .set (.mul 64 (.a 3) (.b 0)),
  .set (.mul 64 (.a 2) (.mul 32 (.b 8) (.c 2))), .set (.mul 64 (.a 2) (.b 7)), .set (.mul 64 (.a 2) (.b 6)),
  .set (.mul 64 (.a 2) (.mul 32 (.b 5) (.c 2))), .set (.mul 64 (.a 2) (.mul 32 (.b 4) (.c 2))), .set (.mul 64 (.a 2) (.b 3)),
  .set (.mul 64 (.a 2) (.b 2)), .set (.mul 64 (.a 2) (.mul 32 (.b 1) (.c 2))), .set (.mul 64 (.a 2) (.b 0)),
  .set (.mul 64 (.a 1) (.mul 32 (.b 9) (.c 2))), .set (.mul 64 (.a 1) (.mul 32 (.b 8) (.c 2))), .set (.mul 64 (.a 1) (.b 7)),
  .set (.mul 64 (.a 1) (.mul 32 (.b 6) (.c 2))), .set (.mul 64 (.a 1) (.mul 32 (.b 5) (.c 2))),
  .set (.mul 64 (.a 1) (.mul 32 (.b 4) (.c 2))), .set (.mul 64 (.a 1) (.b 3)), .set (.mul 64 (.a 1) (.mul 32 (.b 2) (.c 2))),
  .set (.mul 64 (.a 1) (.mul 32 (.b 1) (.c 2))), .set (.mul 64 (.a 1) (.b 0)), .set (.mul 64 (.a 0) (.b 10)), .set (.mul 64 (.a 0) (.b 9)),
  .set (.mul 64 (.a 0) (.b 8)), .set (.mul 64 (.a 0) (.b 7)), .set (.mul 64 (.a 0) (.b 6)), .set (.mul 64 (.a 0) (.b 5)),
  .set (.mul 64 (.a 0) (.b 4)), .set (.mul 64 (.a 0) (.b 3)), .set (.mul 64 (.a 0) (.b 2)), .set (.mul 64 (.a 0) (.b 1)),
  .set (.mul 64 (.a 0) (.b 0)),
  .set (.add 64 (.x 121) (.add 64 (.x 55) (.add 64 (.x 54) (.add 64 (.x 52) (.add 64 (.x 49) (.add 64 (.x 45) (.add 64 (.x 40) (.add 64 (.x 34) (.add 64 (.x 27) (.add 64 (.x 19) (.x 10))))))))))),
  .set (.shr (.x 122) 24), .set (.cast 32 (.and (.x 122) (.c 0xffffff))),
  .set (.add 64 (.x 111) (.add 64 (.x 101) (.add 64 (.x 92) (.add 64 (.x 84) (.add 64 (.x 77) (.add 64 (.x 71) (.add 64 (.x 66) (.add 64 (.x 62) (.add 64 (.x 59) (.add 64 (.x 57) (.x 56))))))))))),
  .set (.add 64 (.x 112) (.add 64 (.x 102) (.add 64 (.x 93) (.add 64 (.x 85) (.add 64 (.x 78) (.add 64 (.x 72) (.add 64 (.x 67) (.add 64 (.x 63) (.add 64 (.x 60) (.add 64 (.x 58) (.x 1))))))))))),
  .set (.add 64 (.x 113) (.add 64 (.x 103) (.add 64 (.x 94) (.add 64 (.x 86) (.add 64 (.x 79) (.add 64 (.x 73) (.add 64 (.x 68) (.add 64 (.x 64) (.add 64 (.x 61) (.add 64 (.x 11) (.x 2))))))))))),
  .set (.add 64 (.x 114) (.add 64 (.x 104) (.add 64 (.x 95) (.add 64 (.x 87) (.add 64 (.x 80) (.add 64 (.x 74) (.add 64 (.x 69) (.add 64 (.x 65) (.add 64 (.x 20) (.add 64 (.x 12) (.x 3))))))))))),
  .set (.add 64 (.x 115) (.add 64 (.x 105) (.add 64 (.x 96) (.add 64 (.x 88) (.add 64 (.x 81) (.add 64 (.x 75) (.add 64 (.x 70) (.add 64 (.x 28) (.add 64 (.x 21) (.add 64 (.x 13) (.x 4))))))))))),
  .set (.add 64 (.x 116) (.add 64 (.x 106) (.add 64 (.x 97) (.add 64 (.x 89) (.add 64 (.x 82) (.add 64 (.x 76) (.add 64 (.x 35) (.add 64 (.x 29) (.add 64 (.x 22) (.add 64 (.x 14) (.x 5))))))))))),
  .set (.add 64 (.x 117) (.add 64 (.x 107) (.add 64 (.x 98) (.add 64 (.x 90) (.add 64 (.x 83) (.add 64 (.x 41) (.add 64 (.x 36) (.add 64 (.x 30) (.add 64 (.x 23) (.add 64 (.x 15) (.x 6))))))))))),
  .set (.add 64 (.x 118) (.add 64 (.x 108) (.add 64 (.x 99) (.add 64 (.x 91) (.add 64 (.x 46) (.add 64 (.x 42) (.add 64 (.x 37) (.add 64 (.x 31) (.add 64 (.x 24) (.add 64 (.x 16) (.x 7))))))))))),
  .set (.add 64 (.x 119) (.add 64 (.x 109) (.add 64 (.x 100) (.add 64 (.x 50) (.add 64 (.x 47) (.add 64 (.x 43) (.add 64 (.x 38) (.add 64 (.x 32) (.add 64 (.x 25) (.add 64 (.x 17) (.x 8))))))))))),
  .set (.add 64 (.x 120) (.add 64 (.x 110) (.add 64 (.x 53) (.add 64 (.x 51) (.add 64 (.x 48) (.add 64 (.x 44) (.add 64 (.x 39) (.add 64 (.x 33) (.add 64 (.x 26) (.add 64 (.x 18) (.x 9))))))))))),
  .set (.add 64 (.x 123) (.x 134)), .set (.shr (.x 135) 23), .set (.cast 32 (.and (.x 135) (.c 0x7fffff))),
  .set (.add 64 (.x 136) (.x 133)), .set (.shr (.x 138) 23), .set (.cast 32 (.and (.x 138) (.c 0x7fffff))),
  .set (.add 64 (.x 139) (.x 132)), .set (.shr (.x 141) 24), .set (.cast 32 (.and (.x 141) (.c 0xffffff))),
  .set (.add 64 (.x 142) (.x 131)), .set (.shr (.x 144) 23), .set (.cast 32 (.and (.x 144) (.c 0x7fffff))),
  .set (.add 64 (.x 145) (.x 130)), .set (.shr (.x 147) 23), .set (.cast 32 (.and (.x 147) (.c 0x7fffff))),
  .set (.add 64 (.x 148) (.x 129)), .set (.shr (.x 150) 23), .set (.cast 32 (.and (.x 150) (.c 0x7fffff))),
  .set (.add 64 (.x 151) (.x 128)), .set (.shr (.x 153) 24), .set (.cast 32 (.and (.x 153) (.c 0xffffff))),
  .set (.add 64 (.x 154) (.x 127)), .set (.shr (.x 156) 23), .set (.cast 32 (.and (.x 156) (.c 0x7fffff))),
  .set (.add 64 (.x 157) (.x 126)), .set (.shr (.x 159) 23), .set (.cast 32 (.and (.x 159) (.c 0x7fffff))),
  .set (.add 64 (.x 160) (.x 125)), .set (.cast 32 (.shr (.x 162) 23)), .set (.cast 32 (.and (.x 162) (.c 0x7fffff))),
  .set (.mul 64 (.c 0x269) (.x 163)), .set (.add 64 (.x 124) (.x 165)), .set (.cast 32 (.shr (.x 166) 24)),
  .set (.cast 32 (.and (.x 166) (.c 0xffffff))), .set (.add 32 (.x 167) (.x 137)), .set (.cast 8 (.shr (.x 169) 23)),
  .set (.and (.x 169) (.c 0x7fffff)), .set (.add 32 (.x 170) (.x 140))], [168, 171, 172, 143, 146, 149, 152, 155, 158, 161, 164]⟩

/-- `fiat_id_GostR3410_2001_CryptoPro_A_ParamSet_carry_square`, lines 4402-4689. -/
def carry_square : CProg := ⟨[
  .set (.mul 64 (.a 10) (.c 0x269)), .set (.mul 64 (.x 1) (.c 2)), .set (.mul 32 (.a 10) (.c 2)), .set (.mul 64 (.a 9) (.c 0x269)),
  .set (.mul 64 (.x 4) (.c 2)), .set (.mul 32 (.a 9) (.c 2)), .set (.mul 64 (.a 8) (.c 0x269)), .set (.mul 64 (.x 7) (.c 2)),
  .set (.mul 32 (.a 8) (.c 2)), .set (.mul 64 (.a 7) (.c 0x269)), .set (.mul 64 (.x 10) (.c 2)), .set (.mul 32 (.a 7) (.c 2)),
  .set (.mul 64 (.a 6) (.c 0x269)), .set (.mul 64 (.x 13) (.c 2)), .set (.mul 32 (.a 6) (.c 2)), .set (.mul 32 (.a 5) (.c 2)),
  .set (.mul 32 (.a 4) (.c 2)), .set (.mul 32 (.a 3) (.c 2)), .set (.mul 32 (.a 2) (.c 2)), .set (.mul 32 (.a 1) (.c 2)),
  .set (.mul 64 (.a 10) (.x 1)), .set (.mul 64 (.a 9) (.x 2)), .set (.mul 64 (.a 9) (.mul 64 (.x 4) (.c 2))),
  .set (.mul 64 (.a 8) (.mul 64 (.x 2) (.c 2))), .set (.mul 64 (.a 8) (.mul 64 (.x 5) (.c 2))),
  .set (.mul 64 (.a 8) (.mul 64 (.x 7) (.c 2))), .set (.mul 64 (.a 7) (.x 2)), .set (.mul 64 (.a 7) (.x 5)), .set (.mul 64 (.a 7) (.x 8)),
  .set (.mul 64 (.a 7) (.x 10)), .set (.mul 64 (.a 6) (.x 2)), .set (.mul 64 (.a 6) (.x 5)), .set (.mul 64 (.a 6) (.mul 64 (.x 8) (.c 2))),
  .set (.mul 64 (.a 6) (.x 11)), .set (.mul 64 (.a 6) (.x 13)), .set (.mul 64 (.a 5) (.x 2)), .set (.mul 64 (.a 5) (.mul 64 (.x 5) (.c 2))),
  .set (.mul 64 (.a 5) (.mul 64 (.x 8) (.c 2))), .set (.mul 64 (.a 5) (.x 11)), .set (.mul 64 (.a 5) (.mul 64 (.x 14) (.c 2))),
  .set (.mul 64 (.a 5) (.mul 32 (.a 5) (.c 2))), .set (.mul 64 (.a 4) (.mul 64 (.x 2) (.c 2))),
  .set (.mul 64 (.a 4) (.mul 64 (.x 5) (.c 2))), .set (.mul 64 (.a 4) (.mul 64 (.x 8) (.c 2))),
  .set (.mul 64 (.a 4) (.mul 64 (.x 11) (.c 2))), .set (.mul 64 (.a 4) (.mul 32 (.x 15) (.c 2))),
  .set (.mul 64 (.a 4) (.mul 32 (.x 16) (.c 2))), .set (.mul 64 (.a 4) (.mul 32 (.a 4) (.c 2))), .set (.mul 64 (.a 3) (.x 2)),
  .set (.mul 64 (.a 3) (.x 5)), .set (.mul 64 (.a 3) (.mul 64 (.x 8) (.c 2))), .set (.mul 64 (.a 3) (.x 12)), .set (.mul 64 (.a 3) (.x 15)),
  .set (.mul 64 (.a 3) (.x 16)), .set (.mul 64 (.a 3) (.mul 32 (.x 17) (.c 2))), .set (.mul 64 (.a 3) (.a 3)), .set (.mul 64 (.a 2) (.x 2)),
  .set (.mul 64 (.a 2) (.mul 64 (.x 5) (.c 2))), .set (.mul 64 (.a 2) (.mul 32 (.x 9) (.c 2))), .set (.mul 64 (.a 2) (.x 12)),
  .set (.mul 64 (.a 2) (.x 15)), .set (.mul 64 (.a 2) (.mul 32 (.x 16) (.c 2))), .set (.mul 64 (.a 2) (.mul 32 (.x 17) (.c 2))),
  .set (.mul 64 (.a 2) (.x 18)), .set (.mul 64 (.a 2) (.a 2)), .set (.mul 64 (.a 1) (.mul 64 (.x 2) (.c 2))),
  .set (.mul 64 (.a 1) (.mul 32 (.x 6) (.c 2))), .set (.mul 64 (.a 1) (.mul 32 (.x 9) (.c 2))), .set (.mul 64 (.a 1) (.x 12)),
  .set (.mul 64 (.a 1) (.mul 32 (.x 15) (.c 2))), .set (.mul 64 (.a 1) (.mul 32 (.x 16) (.c 2))),
  .set (.mul 64 (.a 1) (.mul 32 (.x 17) (.c 2))), .set (.mul 64 (.a 1) (.x 18)), .set (.mul 64 (.a 1) (.mul 32 (.x 19) (.c 2))),
  .set (.mul 64 (.a 1) (.mul 32 (.a 1) (.c 2))), .set (.mul 64 (.a 0) (.x 3)), .set (.mul 64 (.a 0) (.x 6)), .set (.mul 64 (.a 0) (.x 9)),
  .set (.mul 64 (.a 0) (.x 12)), .set (.mul 64 (.a 0) (.x 15)), .set (.mul 64 (.a 0) (.x 16)), .set (.mul 64 (.a 0) (.x 17)),
  .set (.mul 64 (.a 0) (.x 18)), .set (.mul 64 (.a 0) (.x 19)), .set (.mul 64 (.a 0) (.x 20)), .set (.mul 64 (.a 0) (.a 0)),
  .set (.add 64 (.x 86) (.add 64 (.x 66) (.add 64 (.x 58) (.add 64 (.x 51) (.add 64 (.x 45) (.x 40)))))), .set (.shr (.x 87) 24),
  .set (.cast 32 (.and (.x 87) (.c 0xffffff))),
  .set (.add 64 (.x 76) (.add 64 (.x 67) (.add 64 (.x 59) (.add 64 (.x 52) (.add 64 (.x 46) (.x 41)))))),
  .set (.add 64 (.x 77) (.add 64 (.x 68) (.add 64 (.x 60) (.add 64 (.x 53) (.add 64 (.x 47) (.x 21)))))),
  .set (.add 64 (.x 78) (.add 64 (.x 69) (.add 64 (.x 61) (.add 64 (.x 54) (.add 64 (.x 48) (.x 22)))))),
  .set (.add 64 (.x 79) (.add 64 (.x 70) (.add 64 (.x 62) (.add 64 (.x 55) (.add 64 (.x 24) (.x 23)))))),
  .set (.add 64 (.x 80) (.add 64 (.x 71) (.add 64 (.x 63) (.add 64 (.x 56) (.add 64 (.x 27) (.x 25)))))),
  .set (.add 64 (.x 81) (.add 64 (.x 72) (.add 64 (.x 64) (.add 64 (.x 31) (.add 64 (.x 28) (.x 26)))))),
  .set (.add 64 (.x 82) (.add 64 (.x 73) (.add 64 (.x 65) (.add 64 (.x 36) (.add 64 (.x 32) (.x 29)))))),
  .set (.add 64 (.x 83) (.add 64 (.x 74) (.add 64 (.x 42) (.add 64 (.x 37) (.add 64 (.x 33) (.x 30)))))),
  .set (.add 64 (.x 84) (.add 64 (.x 75) (.add 64 (.x 49) (.add 64 (.x 43) (.add 64 (.x 38) (.x 34)))))),
  .set (.add 64 (.x 85) (.add 64 (.x 57) (.add 64 (.x 50) (.add 64 (.x 44) (.add 64 (.x 39) (.x 35)))))), .set (.add 64 (.x 88) (.x 99)),
  .set (.shr (.x 100) 23), .set (.cast 32 (.and (.x 100) (.c 0x7fffff))), .set (.add 64 (.x 101) (.x 98)), .set (.shr (.x 103) 23),
  .set (.cast 32 (.and (.x 103) (.c 0x7fffff))), .set (.add 64 (.x 104) (.x 97)), .set (.shr (.x 106) 24),
  .set (.cast 32 (.and (.x 106) (.c 0xffffff))), .set (.add 64 (.x 107) (.x 96)), .set (.shr (.x 109) 23),
  .set (.cast 32 (.and (.x 109) (.c 0x7fffff))), .set (.add 64 (.x 110) (.x 95)), .set (.shr (.x 112) 23),
  .set (.cast 32 (.and (.x 112) (.c 0x7fffff))), .set (.add 64 (.x 113) (.x 94)), .set (.shr (.x 115) 23),
  .set (.cast 32 (.and (.x 115) (.c 0x7fffff))), .set (.add 64 (.x 116) (.x 93)), .set (.shr (.x 118) 24),
  .set (.cast 32 (.and (.x 118) (.c 0xffffff))), .set (.add 64 (.x 119) (.x 92)), .set (.shr (.x 121) 23),
  .set (.cast 32 (.and (.x 121) (.c 0x7fffff))), .set (.add 64 (.x 122) (.x 91)), .set (.shr (.x 124) 23),
  .set (.cast 32 (.and (.x 124) (.c 0x7fffff))), .set (.add 64 (.x 125) (.x 90)), .set (.cast 32 (.shr (.x 127) 23)),
  .set (.cast 32 (.and (.x 127) (.c 0x7fffff))), .set (.mul 64 (.c 0x269) (.x 128)), .set (.add 64 (.x 89) (.x 130)),
  .set (.cast 32 (.shr (.x 131) 24)), .set (.cast 32 (.and (.x 131) (.c 0xffffff))), .set (.add 32 (.x 132) (.x 102)),
  .set (.cast 8 (.shr (.x 134) 23)), .set (.and (.x 134) (.c 0x7fffff)), .set (.add 32 (.x 135) (.x 105))], [133, 136, 137, 108, 111, 114, 117, 120, 123, 126, 129]⟩

/-- `fiat_id_GostR3410_2001_CryptoPro_A_ParamSet_carry`, lines 4701-4764. -/
def carry : CProg := ⟨[
  .set (.a 0), .set (.add 32 (.shr (.x 1) 24) (.a 1)), .set (.add 32 (.shr (.x 2) 23) (.a 2)), .set (.add 32 (.shr (.x 3) 23) (.a 3)),
  .set (.add 32 (.shr (.x 4) 24) (.a 4)), .set (.add 32 (.shr (.x 5) 23) (.a 5)), .set (.add 32 (.shr (.x 6) 23) (.a 6)),
  .set (.add 32 (.shr (.x 7) 23) (.a 7)), .set (.add 32 (.shr (.x 8) 24) (.a 8)), .set (.add 32 (.shr (.x 9) 23) (.a 9)),
  .set (.add 32 (.shr (.x 10) 23) (.a 10)), .set (.add 32 (.and (.x 1) (.c 0xffffff)) (.mul 32 (.c 0x269) (.shr (.x 11) 23))),
  .set (.add 32 (.cast 8 (.shr (.x 12) 24)) (.and (.x 2) (.c 0x7fffff))), .set (.and (.x 12) (.c 0xffffff)),
  .set (.and (.x 13) (.c 0x7fffff)), .set (.add 32 (.cast 8 (.shr (.x 13) 23)) (.and (.x 3) (.c 0x7fffff))),
  .set (.and (.x 4) (.c 0xffffff)), .set (.and (.x 5) (.c 0x7fffff)), .set (.and (.x 6) (.c 0x7fffff)), .set (.and (.x 7) (.c 0x7fffff)),
  .set (.and (.x 8) (.c 0xffffff)), .set (.and (.x 9) (.c 0x7fffff)), .set (.and (.x 10) (.c 0x7fffff)), .set (.and (.x 11) (.c 0x7fffff))], [14, 15, 16, 17, 18, 19, 20, 21, 22, 23, 24]⟩

/-- `fiat_id_GostR3410_2001_CryptoPro_A_ParamSet_add`, lines 4777-4812. -/
def add : CProg := ⟨[
  .set (.add 32 (.a 0) (.b 0)), .set (.add 32 (.a 1) (.b 1)), .set (.add 32 (.a 2) (.b 2)), .set (.add 32 (.a 3) (.b 3)),
  .set (.add 32 (.a 4) (.b 4)), .set (.add 32 (.a 5) (.b 5)), .set (.add 32 (.a 6) (.b 6)), .set (.add 32 (.a 7) (.b 7)),
  .set (.add 32 (.a 8) (.b 8)), .set (.add 32 (.a 9) (.b 9)), .set (.add 32 (.a 10) (.b 10))], [1, 2, 3, 4, 5, 6, 7, 8, 9, 10, 11]⟩

/-- `fiat_id_GostR3410_2001_CryptoPro_A_ParamSet_sub`, lines 4825-4860. -/
def sub : CProg := ⟨[
  .set (.sub 32 (.add 32 (.c 0x1fffb2e) (.a 0)) (.b 0)), .set (.sub 32 (.add 32 (.c 0xfffffe) (.a 1)) (.b 1)),
  .set (.sub 32 (.add 32 (.c 0xfffffe) (.a 2)) (.b 2)), .set (.sub 32 (.add 32 (.c 0x1fffffe) (.a 3)) (.b 3)),
  .set (.sub 32 (.add 32 (.c 0xfffffe) (.a 4)) (.b 4)), .set (.sub 32 (.add 32 (.c 0xfffffe) (.a 5)) (.b 5)),
  .set (.sub 32 (.add 32 (.c 0xfffffe) (.a 6)) (.b 6)), .set (.sub 32 (.add 32 (.c 0x1fffffe) (.a 7)) (.b 7)),
  .set (.sub 32 (.add 32 (.c 0xfffffe) (.a 8)) (.b 8)), .set (.sub 32 (.add 32 (.c 0xfffffe) (.a 9)) (.b 9)),
  .set (.sub 32 (.add 32 (.c 0xfffffe) (.a 10)) (.b 10))], [1, 2, 3, 4, 5, 6, 7, 8, 9, 10, 11]⟩

/-- `fiat_id_GostR3410_2001_CryptoPro_A_ParamSet_opp`, lines 4872-4907. -/
def opp : CProg := ⟨[
  .set (.sub 32 (.c 0x1fffb2e) (.a 0)), .set (.sub 32 (.c 0xfffffe) (.a 1)), .set (.sub 32 (.c 0xfffffe) (.a 2)),
  .set (.sub 32 (.c 0x1fffffe) (.a 3)), .set (.sub 32 (.c 0xfffffe) (.a 4)), .set (.sub 32 (.c 0xfffffe) (.a 5)),
  .set (.sub 32 (.c 0xfffffe) (.a 6)), .set (.sub 32 (.c 0x1fffffe) (.a 7)), .set (.sub 32 (.c 0xfffffe) (.a 8)),
  .set (.sub 32 (.c 0xfffffe) (.a 9)), .set (.sub 32 (.c 0xfffffe) (.a 10))], [1, 2, 3, 4, 5, 6, 7, 8, 9, 10, 11]⟩

/-- `fiat_id_GostR3410_2001_CryptoPro_A_ParamSet_from_bytes`, lines 5273-5446. -/
def from_bytes : CProg := ⟨[
  .set (.shl 32 (.a 31) 15), .set (.shl 32 (.a 30) 7), .set (.shl 32 (.a 29) 22), .set (.shl 32 (.a 28) 14), .set (.shl 32 (.a 27) 6),
  .set (.shl 32 (.a 26) 21), .set (.shl 32 (.a 25) 13), .set (.shl 32 (.a 24) 5), .set (.shl 32 (.a 23) 21), .set (.shl 32 (.a 22) 13),
  .set (.shl 32 (.a 21) 5), .set (.shl 32 (.a 20) 20), .set (.shl 32 (.a 19) 12), .set (.shl 32 (.a 18) 4), .set (.shl 32 (.a 17) 19),
  .set (.shl 32 (.a 16) 11), .set (.shl 32 (.a 15) 3), .set (.shl 32 (.a 14) 18), .set (.shl 32 (.a 13) 10), .set (.shl 32 (.a 12) 2),
  .set (.shl 32 (.a 11) 18), .set (.shl 32 (.a 10) 10), .set (.shl 32 (.a 9) 2), .set (.shl 32 (.a 8) 17), .set (.shl 32 (.a 7) 9),
  .set (.mul 32 (.a 6) (.c 2)), .set (.shl 32 (.a 5) 16), .set (.shl 32 (.a 4) 8), .set (.a 3), .set (.shl 32 (.a 2) 16),
  .set (.shl 32 (.a 1) 8), .set (.a 0), .set (.add 32 (.x 31) (.x 32)), .set (.add 32 (.x 30) (.x 33)), .set (.add 32 (.x 28) (.x 29)),
  .set (.add 32 (.x 27) (.x 35)), .set (.and (.x 36) (.c 0x7fffff)), .set (.cast 8 (.shr (.x 36) 23)), .set (.add 32 (.x 26) (.x 38)),
  .set (.add 32 (.x 25) (.x 39)), .set (.add 32 (.x 24) (.x 40)), .set (.and (.x 41) (.c 0x7fffff)), .set (.cast 8 (.shr (.x 41) 23)),
  .set (.add 32 (.x 23) (.x 43)), .set (.add 32 (.x 22) (.x 44)), .set (.add 32 (.x 21) (.x 45)), .set (.and (.x 46) (.c 0xffffff)),
  .set (.cast 8 (.shr (.x 46) 24)), .set (.add 32 (.x 20) (.x 48)), .set (.add 32 (.x 19) (.x 49)), .set (.add 32 (.x 18) (.x 50)),
  .set (.and (.x 51) (.c 0x7fffff)), .set (.cast 8 (.shr (.x 51) 23)), .set (.add 32 (.x 17) (.x 53)), .set (.add 32 (.x 16) (.x 54)),
  .set (.add 32 (.x 15) (.x 55)), .set (.and (.x 56) (.c 0x7fffff)), .set (.cast 8 (.shr (.x 56) 23)), .set (.add 32 (.x 14) (.x 58)),
  .set (.add 32 (.x 13) (.x 59)), .set (.add 32 (.x 12) (.x 60)), .set (.and (.x 61) (.c 0x7fffff)), .set (.cast 8 (.shr (.x 61) 23)),
  .set (.add 32 (.x 11) (.x 63)), .set (.add 32 (.x 10) (.x 64)), .set (.add 32 (.x 9) (.x 65)), .set (.and (.x 66) (.c 0xffffff)),
  .set (.cast 8 (.shr (.x 66) 24)), .set (.add 32 (.x 8) (.x 68)), .set (.add 32 (.x 7) (.x 69)), .set (.add 32 (.x 6) (.x 70)),
  .set (.and (.x 71) (.c 0x7fffff)), .set (.cast 8 (.shr (.x 71) 23)), .set (.add 32 (.x 5) (.x 73)), .set (.add 32 (.x 4) (.x 74)),
  .set (.add 32 (.x 3) (.x 75)), .set (.and (.x 76) (.c 0x7fffff)), .set (.cast 8 (.shr (.x 76) 23)), .set (.add 32 (.x 2) (.x 78)),
  .set (.add 32 (.x 1) (.x 79))], [34, 37, 42, 47, 52, 57, 62, 67, 72, 77, 80]⟩

/-- `fiat_id_GostR3410_2001_CryptoPro_A_ParamSet_to_bytes`, lines 4980-5261. -/
def to_bytes : CProg := ⟨[
  .sbb 32 24 (.c 0) (.a 0) (.c 0xfffd97), .sbb 32 23 (.x 2) (.a 1) (.c 0x7fffff), .sbb 32 23 (.x 4) (.a 2) (.c 0x7fffff),
  .sbb 32 24 (.x 6) (.a 3) (.c 0xffffff), .sbb 32 23 (.x 8) (.a 4) (.c 0x7fffff), .sbb 32 23 (.x 10) (.a 5) (.c 0x7fffff),
  .sbb 32 23 (.x 12) (.a 6) (.c 0x7fffff), .sbb 32 24 (.x 14) (.a 7) (.c 0xffffff), .sbb 32 23 (.x 16) (.a 8) (.c 0x7fffff),
  .sbb 32 23 (.x 18) (.a 9) (.c 0x7fffff), .sbb 32 23 (.x 20) (.a 10) (.c 0x7fffff), .cmov 32 (.x 22) (.c 0) (.c 0xffffffff),
  .adc 32 24 (.c 0) (.x 1) (.and (.x 23) (.c 0xfffd97)), .adc 32 23 (.x 25) (.x 3) (.and (.x 23) (.c 0x7fffff)),
  .adc 32 23 (.x 27) (.x 5) (.and (.x 23) (.c 0x7fffff)), .adc 32 24 (.x 29) (.x 7) (.and (.x 23) (.c 0xffffff)),
  .adc 32 23 (.x 31) (.x 9) (.and (.x 23) (.c 0x7fffff)), .adc 32 23 (.x 33) (.x 11) (.and (.x 23) (.c 0x7fffff)),
  .adc 32 23 (.x 35) (.x 13) (.and (.x 23) (.c 0x7fffff)), .adc 32 24 (.x 37) (.x 15) (.and (.x 23) (.c 0xffffff)),
  .adc 32 23 (.x 39) (.x 17) (.and (.x 23) (.c 0x7fffff)), .adc 32 23 (.x 41) (.x 19) (.and (.x 23) (.c 0x7fffff)),
  .adc 32 23 (.x 43) (.x 21) (.and (.x 23) (.c 0x7fffff)), .set (.mul 32 (.x 44) (.c 2)), .set (.shl 32 (.x 42) 2),
  .set (.shl 32 (.x 40) 3), .set (.shl 32 (.x 38) 3), .set (.shl 32 (.x 36) 4), .set (.shl 32 (.x 34) 5), .set (.shl 32 (.x 32) 6),
  .set (.shl 32 (.x 30) 6), .set (.shl 32 (.x 28) 7), .set (.cast 8 (.and (.x 24) (.c 0xff))), .set (.shr (.x 24) 8),
  .set (.cast 8 (.and (.x 56) (.c 0xff))), .set (.cast 8 (.shr (.x 56) 8)), .set (.cast 8 (.and (.x 26) (.c 0xff))), .set (.shr (.x 26) 8),
  .set (.cast 8 (.and (.x 60) (.c 0xff))), .set (.cast 8 (.shr (.x 60) 8)), .set (.add 32 (.x 54) (.x 62)),
  .set (.cast 8 (.and (.x 63) (.c 0xff))), .set (.shr (.x 63) 8), .set (.cast 8 (.and (.x 65) (.c 0xff))), .set (.shr (.x 65) 8),
  .set (.cast 8 (.and (.x 67) (.c 0xff))), .set (.cast 8 (.shr (.x 67) 8)), .set (.add 32 (.x 53) (.x 69)),
  .set (.cast 8 (.and (.x 70) (.c 0xff))), .set (.shr (.x 70) 8), .set (.cast 8 (.and (.x 72) (.c 0xff))), .set (.shr (.x 72) 8),
  .set (.cast 8 (.and (.x 74) (.c 0xff))), .set (.cast 8 (.shr (.x 74) 8)), .set (.add 32 (.x 52) (.x 76)),
  .set (.cast 8 (.and (.x 77) (.c 0xff))), .set (.shr (.x 77) 8), .set (.cast 8 (.and (.x 79) (.c 0xff))), .set (.shr (.x 79) 8),
  .set (.cast 8 (.and (.x 81) (.c 0xff))), .set (.cast 8 (.shr (.x 81) 8)), .set (.add 32 (.x 51) (.x 83)),
  .set (.cast 8 (.and (.x 84) (.c 0xff))), .set (.shr (.x 84) 8), .set (.cast 8 (.and (.x 86) (.c 0xff))), .set (.shr (.x 86) 8),
  .set (.cast 8 (.and (.x 88) (.c 0xff))), .set (.cast 8 (.shr (.x 88) 8)), .set (.add 32 (.x 50) (.x 90)),
  .set (.cast 8 (.and (.x 91) (.c 0xff))), .set (.shr (.x 91) 8), .set (.cast 8 (.and (.x 93) (.c 0xff))), .set (.shr (.x 93) 8),
  .set (.cast 8 (.and (.x 95) (.c 0xff))), .set (.cast 8 (.shr (.x 95) 8)), .set (.add 32 (.x 49) (.x 97)),
  .set (.cast 8 (.and (.x 98) (.c 0xff))), .set (.shr (.x 98) 8), .set (.cast 8 (.and (.x 100) (.c 0xff))), .set (.shr (.x 100) 8),
  .set (.cast 8 (.and (.x 102) (.c 0xff))), .set (.cast 8 (.shr (.x 102) 8)), .set (.add 32 (.x 48) (.x 104)),
  .set (.cast 8 (.and (.x 105) (.c 0xff))), .set (.shr (.x 105) 8), .set (.cast 8 (.and (.x 107) (.c 0xff))), .set (.shr (.x 107) 8),
  .set (.cast 8 (.and (.x 109) (.c 0xff))), .set (.cast 8 (.shr (.x 109) 8)), .set (.add 32 (.x 47) (.x 111)),
  .set (.cast 8 (.and (.x 112) (.c 0xff))), .set (.shr (.x 112) 8), .set (.cast 8 (.and (.x 114) (.c 0xff))), .set (.shr (.x 114) 8),
  .set (.cast 8 (.and (.x 116) (.c 0xff))), .set (.cast 8 (.shr (.x 116) 8)), .set (.add 32 (.x 46) (.x 118)),
  .set (.cast 8 (.and (.x 119) (.c 0xff))), .set (.shr (.x 119) 8), .set (.cast 8 (.and (.x 121) (.c 0xff))),
  .set (.cast 8 (.shr (.x 121) 8))], [55, 57, 58, 59, 61, 64, 66, 68, 71, 73, 75, 78, 80, 82, 85, 87, 89, 92, 94, 96, 99, 101, 103, 106, 108, 110, 113, 115, 117, 120, 122, 123]⟩

/-- `fiat_id_GostR3410_2001_CryptoPro_A_ParamSet_inv`, lines 5456-5511; the variables are 0 = t1, 0 = output, 1 = acc, 2 = t2, 3 = t4, 4 = t8, 5 = t16, 6 = t32, 7 = t64, 8 = t80, 9 = t82, 10 = t164, 11 = t246. -/
def inv : List InvStep := [.sq 1 0 1, .mul 2 1 0, .sq 1 2 1, .sq 1 1 1, .mul 3 1 2, .sq 1 3 1, .sq 1 1 3, .mul 4 1 3, .sq 1 4 1, .sq 1 1 7,
  .mul 5 1 4, .sq 1 5 1, .sq 1 1 15, .mul 6 1 5, .sq 1 6 1, .sq 1 1 31, .mul 7 1 6, .sq 1 7 1, .sq 1 1 15, .mul 8 1 5,
  .sq 1 8 1, .sq 1 1 1, .mul 9 1 2, .sq 1 9 1, .sq 1 1 81, .mul 10 1 9, .sq 1 10 1, .sq 1 1 81, .mul 11 1 9, .sq 1 11 1,
  .sq 1 1 2, .mul 1 1 2, .sq 1 1 3, .mul 1 1 0, .sq 1 1 2, .mul 1 1 0, .sq 1 1 2, .mul 0 1 0]

/-- The constants, lines: `const_one` 5515-5519, `const_b` 5521-5525; the file has no others. -/
def consts : FiatConsts where
  one := [1, 0, 0, 0, 0, 0, 0, 0, 0, 0, 0]
  a := [0, 0, 0, 0, 0, 0, 0, 0, 0, 0, 0]
  b := [0xa6, 0, 0, 0, 0, 0, 0, 0, 0, 0, 0]
  b3 := [0, 0, 0, 0, 0, 0, 0, 0, 0, 0, 0]
  d := [0, 0, 0, 0, 0, 0, 0, 0, 0, 0, 0]
  S := [0, 0, 0, 0, 0, 0, 0, 0, 0, 0, 0]
  T := [0, 0, 0, 0, 0, 0, 0, 0, 0, 0, 0]

/-- The functions of the file. -/
def file : FiatSol where
  carry_mul := carry_mul
  carry_square := carry_square
  carry := carry
  add := add
  sub := sub
  opp := opp
  from_bytes := from_bytes
  to_bytes := to_bytes
  inv := inv
  limbs := 11
  consts := consts

/-- `lut_cmb`, lines 5528-7998. -/
def lut_data : List (List (AffW (List Nat))) := [
  [⟨[1, 0, 0, 0, 0, 0, 0, 0, 0, 0, 0], [0x9f1e14, 0x499c9e, 0x624559, 0x7c8f8e, 0x253cb7, 0x5bb1a9, 0x2453f2, 0xfbea0b, 0x139b44, 0x1c7826, 0x46c8f2]⟩,
   ⟨[0xe38d2c, 0x638e38, 0x471c71, 0x8e38e3, 0xe38e3, 0x1c71c7, 0x38e38e, 0x71c71c, 0x71c71c, 0x638e38, 0x471c71], [0x788a51, 0x17796b, 0x5090c2, 0xe1da3, 0x1ea532, 0x6c1093, 0x507a6c, 0x9b375e, 0x76083a, 0x72a688, 0x3b5e68]⟩,
   ⟨[0x72c029, 0x1c3871, 0x6de040, 0xe6d223, 0x35ad09, 0x78d2c5, 0x4b6782, 0x6d32d1, 0x1d2c78, 0xf861e, 0x483b00], [0x8d7cc0, 0x23b06, 0x30ec69, 0xff4ded, 0x2ee231, 0x6412c7, 0x5af3f6, 0x435452, 0x4e9c3, 0x6b9475, 0x484b93]⟩,
   ⟨[0x196ee1, 0x6a01e4, 0x652f51, 0x416fd6, 0x5ebcd2, 0x71846f, 0x36fa23, 0xd73ebd, 0x180c14, 0x653358, 0x17eec8], [0x125fb, 0x410c4d, 0x74c481, 0x2a7cfc, 0x65ac08, 0xf3bd1, 0x4a5388, 0xb7149e, 0x85c10, 0x54c612, 0xe3fa5]⟩,
   ⟨[0x5ecda3, 0x246227, 0x16e04f, 0x5c37f, 0x442c63, 0x1d5b95, 0x57520f, 0x792514, 0x3fb8fa, 0x37b8d0, 0x5b7cb0], [0x5ed26a, 0x28ad39, 0x4e2d06, 0xbdc2a3, 0x52be72, 0x2f9991, 0x19c7fc, 0x209bd7, 0x7bf20c, 0x5196b4, 0x69dfb4]⟩,
   ⟨[0x834086, 0x2f3d1a, 0x7690a4, 0xb28d88, 0x22b907, 0x25f98c, 0x23f3a1, 0xe2e9f9, 0x3a0364, 0x613ce7, 0x31ee39], [0xc2ff84, 0x3f08bb, 0x16b10a, 0x1d9e58, 0x1aa31a, 0x16b57c, 0x2724af, 0x1cedb4, 0xf8812, 0x14c068, 0x64070b]⟩,
   ⟨[0xbbcccd, 0x2e8f3c, 0x54b6ac, 0xfd3bbe, 0x13312f, 0x6a114e, 0xf7610, 0xa85a6c, 0x73d230, 0x1ae5a6, 0x28c30c], [0xc26cb2, 0x6bbd29, 0x24f433, 0xbe725e, 0x1ecbee, 0x646d3c, 0x15c789, 0xb07720, 0x30d220, 0x45843e, 0x1eadea]⟩,
   ⟨[0x7c58e2, 0x52800f, 0x2f9f17, 0x83f230, 0x4207aa, 0x4b8493, 0x33495b, 0x1061bd, 0x57d115, 0x5f83ca, 0x51583f], [0xb12811, 0x705e55, 0x48a034, 0xc9201a, 0x60e5df, 0x6c7fe0, 0x500b66, 0xa91fbd, 0x1cff16, 0x66c372, 0x2b561]⟩,
   ⟨[0x39a634, 0x50548c, 0x5cfe7b, 0x723488, 0x6cdbf9, 0x6d4a7e, 0x107bd7, 0xd87870, 0x6fff35, 0x47470d, 0x1d44ad], [0x51071c, 0xfaca, 0x4ab290, 0xd72da0, 0xe946d, 0x154920, 0xde920, 0x2ccc50, 0x78ff60, 0x76a2f6, 0x418509]⟩,
   ⟨[0xef5595, 0x116786, 0x615ec8, 0x727c29, 0x21d6bf, 0x727880, 0x25c9c9, 0x31b0b0, 0x2cace7, 0x3c8e5c, 0x2c31d8], [0x328440, 0x485469, 0x6ae670, 0x6ee53f, 0x299c43, 0x5ad41, 0xd8c3f, 0x72a91, 0x67d0e1, 0x4b76e9, 0x74b00d]⟩,
   ⟨[0x41497, 0x1e11c9, 0x1a4504, 0x2a7919, 0x74b21, 0x4fa67f, 0x4dc6b, 0xf2c95c, 0x39bdcc, 0x7a64ec, 0x5f3e5d], [0x9c53ec, 0x69bde1, 0x7e0626, 0x42ed13, 0x62afb2, 0x31e908, 0x3c5398, 0x6be167, 0x2399e, 0x210e43, 0x1779f]⟩,
   ⟨[0xc84a66, 0x444b2f, 0x108cc, 0x36eef4, 0x681f17, 0x165962, 0x4c1dbc, 0x3afd47, 0x3b7ce0, 0x37ad5f, 0x4c55a7], [0xc53cd0, 0x2e065e, 0x2b7d3, 0xa10201, 0x174a99, 0x365939, 0x1f2d54, 0x806c0, 0x39185c, 0x1c4b, 0x415674]⟩,
   ⟨[0x8b07c5, 0x7d1002, 0x12ae3e, 0x2c420c, 0x470873, 0x339263, 0x6c2c6c, 0x2d1bb6, 0x72a553, 0x306bce, 0x7f4c6], [0xb6438d, 0x7278a9, 0x76463f, 0xd03f8a, 0x332938, 0x1c7585, 0x874cf, 0xcedf11, 0x432aa3, 0x59deab, 0x5c130a]⟩,
   ⟨[0xb53e9c, 0x6388b4, 0x428f8, 0x8a18a, 0xeb210, 0x3361e6, 0x6528b, 0xa1ad62, 0x5bd8bc, 0xd44e3, 0x18cee3], [0xec3379, 0x2b9ad0, 0x3d2cc1, 0xa04547, 0x600394, 0x240ec9, 0xcf8e5, 0xde5ca1, 0x107147, 0x3b518c, 0x60976d]⟩,
   ⟨[0x685c39, 0x577eb1, 0x2aa0ad, 0xe3b804, 0x3082f3, 0x2c92ac, 0x207c69, 0x658635, 0x670da3, 0x6a6a4, 0x2af849], [0x5760a, 0x6e3a33, 0x629dca, 0xd8388a, 0x7c1f0e, 0x121173, 0x2a0106, 0x607836, 0x71eb45, 0x749724, 0x722a37]⟩,
   ⟨[0xdb7020, 0x5f6fec, 0x1c894, 0xd0f9d5, 0x45fd0a, 0x2c8167, 0x995e9, 0xc5f645, 0x2318f0, 0x77f38b, 0x580e22], [0x3c5516, 0x35df1, 0x592bc6, 0xa625dd, 0x2295a0, 0x60337a, 0x21824b, 0xc51ab1, 0x14c123, 0x7703f3, 0x2945a3]⟩],
  [⟨[0x15a14b, 0x2339f9, 0x5304ab, 0x75ccee, 0x194dc5, 0x4a8a9e, 0x46d1d2, 0x75c952, 0x7ed8b2, 0x58732, 0x45d9a3], [0xe6be0f, 0x5d23f0, 0x5d9ff5, 0xc7e802, 0x10c909, 0x207ed0, 0x66f794, 0xd9afe4, 0x7da500, 0x7b21ff, 0x58d1d8]⟩,
   ⟨[0x7dd1b7, 0xa4c87, 0x5506f4, 0xd63219, 0x657a0a, 0x7f79a5, 0x3ca588, 0xff7b22, 0x2e92ea, 0x30699f, 0x28801d], [0x171de8, 0x74aa40, 0x776396, 0xb6039, 0x477a52, 0x552fc4, 0x4cb63d, 0x1f4555, 0x762774, 0x404fd4, 0x1f0e12]⟩,
   ⟨[0x2131c9, 0x6a9cfb, 0x23c4ec, 0xe6d39f, 0x185e55, 0x32f173, 0x5e6019, 0xa7e72e, 0x6d091c, 0x2967fd, 0x2b5d44], [0xc01ba9, 0x24c542, 0x765b4d, 0x61291a, 0x20b694, 0x12b204, 0x6c029a, 0x880c16, 0x87d31, 0x13494a, 0x5ac30]⟩,
   ⟨[0x248e22, 0x1d20e0, 0x7970a3, 0x8d530e, 0x69d972, 0x36b6b2, 0x23944a, 0x9283d0, 0x413b7a, 0x26da72, 0x61243f], [0x8fab34, 0x5f4af0, 0x19759f, 0x41583f, 0x723d0d, 0x49ef5d, 0x37ed96, 0xd94167, 0x25c5f0, 0x54670b, 0x645850]⟩,
   ⟨[0x78486c, 0x68a7c1, 0x4e518a, 0xb42004, 0x57227c, 0x378db2, 0x6ec201, 0x6e95d7, 0x3784db, 0x913ec, 0x68f117], [0x89ea5b, 0x279a8, 0x1fe8cd, 0xbdcfef, 0x29cfb8, 0x609772, 0x1d36d2, 0xbc3d3d, 0x1d2878, 0x1a10e1, 0x10462]⟩,
   ⟨[0xb52308, 0x4a1df4, 0x79cb16, 0xdc0e0e, 0x3932df, 0x5103e4, 0x29ada5, 0x7319a2, 0x426ff0, 0x588a4e, 0x3f78ad], [0xf1b775, 0x6e5a5c, 0x219fcb, 0x8ca19, 0x1d9bba, 0x75f3b0, 0x78e9ed, 0x9e41, 0x3356b2, 0x2c0425, 0x3baece]⟩,
   ⟨[0xfd3bb1, 0x535e55, 0x9a346, 0xa8e2f4, 0x6f6486, 0x71d282, 0x3a985d, 0xa34d18, 0x606b28, 0x9aec, 0x2beebf], [0x3780dd, 0x647ea6, 0x47b1f7, 0x598c39, 0x3bfde6, 0x6c0b48, 0x121eb8, 0x85dbf8, 0x6f9773, 0x1528fb, 0x3a0c5]⟩,
   ⟨[0x94b350, 0x522db1, 0x58d9c, 0x8a9662, 0x2e184d, 0x7814b1, 0x36d84, 0x594040, 0x716935, 0x18deee, 0x1e2219], [0x6f259, 0x772e6a, 0x246188, 0x1ec5e7, 0x2939f4, 0xff055, 0x1978f0, 0x3f6daf, 0xa7bbd, 0x1a6faf, 0x510c0c]⟩,
   ⟨[0x48904f, 0x7224ff, 0x65baa9, 0xd3551, 0x4da721, 0x39a0b4, 0x2be76f, 0x9b9e20, 0x2504dd, 0x6944bd, 0x24daa1], [0x542f7c, 0x1d4977, 0x1576a4, 0x6672bc, 0x7dbd1, 0x220087, 0x44ac5f, 0xe1daad, 0x221046, 0x42a0f3, 0x52c47e]⟩,
   ⟨[0xaa4ec9, 0xc5256, 0x1d2108, 0x7e3c18, 0x57cd05, 0x6a2ddb, 0x70d402, 0x46f4c8, 0x70c39d, 0x2bcde, 0x386c4a], [0x596d94, 0x7774ae, 0x33d8a2, 0xb48b39, 0x55b5db, 0x4a739e, 0x601af6, 0x17c86b, 0x33581b, 0x13a82f, 0x2f7045]⟩,
   ⟨[0xea0cb5, 0x4f13ce, 0x6f865f, 0xc4aaf7, 0x456660, 0x600b98, 0x79c3ab, 0x27d7d2, 0x26486e, 0x8feaf, 0x2f5742], [0xb8102b, 0x60fd3d, 0x2d073f, 0x39e77d, 0x2dc294, 0x151ab7, 0x1413cf, 0x3aaf36, 0x34a2d1, 0x2844e0, 0x1190ce]⟩,
   ⟨[0xed50bf, 0x3d775d, 0x533d3c, 0x4b2ddc, 0x762eb4, 0x60b90f, 0x3045da, 0x95c306, 0x44062c, 0x4db392, 0x658071], [0x30ae7b, 0x7ae99b, 0x6cd461, 0xcdbc52, 0x7e2103, 0x19ac77, 0x5d4d8d, 0xbfc271, 0x37f336, 0x60edfb, 0x247dd6]⟩,
   ⟨[0x16baed, 0x616d44, 0x4bf21b, 0x96d55e, 0x125fc, 0x65ea64, 0x6b4ba0, 0x58d872, 0x47273b, 0x413b44, 0x7c3b0a], [0x53bb34, 0x73f0d7, 0xe175f, 0x1c2578, 0x7d3b2f, 0x12c2c4, 0x706d71, 0xc9bc8d, 0x499e9a, 0x531428, 0x4a5c64]⟩,
   ⟨[0x37863b, 0x79ba1d, 0x1cf74c, 0x22eb4f, 0x39a1fa, 0x5afecb, 0x1ff42, 0x9ebf05, 0x3094c5, 0x3da3f3, 0x648da8], [0x706e8b, 0x116614, 0x662488, 0x20e858, 0x3042e0, 0x5598a9, 0x51a013, 0x96f0cf, 0x26d7c9, 0x1297cb, 0x325815]⟩,
   ⟨[0xa6a2f2, 0x431f85, 0x6a358e, 0xd9bd37, 0x3ddaf8, 0xff3e4, 0x56803f, 0x50fb50, 0x68cd30, 0x242aa9, 0x5d281d], [0x7c121, 0x6e657d, 0x3fe75, 0xb805f3, 0x4c976d, 0x5039ab, 0x11443e, 0xf0a01c, 0x648859, 0x5f1033, 0x7b4c48]⟩,
   ⟨[0x793170, 0x6dbf68, 0x7d1f25, 0xf0d9b4, 0x59cb0c, 0x2baa82, 0x516caa, 0x55ba64, 0x14ba02, 0x6986e0, 0x5d492d], [0x25053f, 0x643229, 0x72934c, 0xff2efa, 0x75bd10, 0xee1b5, 0x75a5e1, 0x8b7b93, 0x1d5824, 0x2f28ab, 0x762ff8]⟩],
  [⟨[0x46367e, 0x56a682, 0x430eb2, 0x25f7a6, 0x62de86, 0x33fef2, 0x156e4e, 0x2bfc59, 0x38721, 0x3be4d8, 0xc9a8], [0xe2541c, 0x60b185, 0x124c99, 0x7614c4, 0x4c9bb5, 0x1a2b53, 0x55ab66, 0xb34939, 0x755795, 0x4ae42a, 0x37ee9e]⟩,
   ⟨[0x418b8a, 0x53a329, 0x67f6c0, 0x1b5f25, 0x4f5799, 0x79a7ba, 0x1e9ca, 0x589410, 0x348000, 0x7c467f, 0x68cc15], [0xbfd773, 0xb128f, 0x35e63d, 0xc836c1, 0x17bdfe, 0x6cfd71, 0x373b9c, 0x57eaf9, 0x2a01cd, 0x74d14f, 0x721c85]⟩,
   ⟨[0x56bc62, 0xd23a6, 0x78fe76, 0x19a73d, 0x91b6b, 0x5c60b, 0x65104b, 0x65a4b3, 0x5d0c5a, 0x2e8db5, 0x718081], [0xef69d9, 0x6c1fdd, 0x65a57d, 0xbc2b7b, 0x6db6eb, 0x1afd11, 0x605819, 0x8e9270, 0x5c23f4, 0x5067eb, 0x598190]⟩,
   ⟨[0xef9f96, 0x510c22, 0x1e5eed, 0x3b03e5, 0x5c6020, 0x3c2bb6, 0x35fd52, 0xa6a7f3, 0x128b7, 0x1e45e8, 0x49efaa], [0x6e0992, 0x18ea4e, 0x4761, 0xcfe527, 0x39b16f, 0x17bae9, 0x57dc05, 0x982f6b, 0x1d3209, 0x19fc51, 0xf4184]⟩,
   ⟨[0x1ebca4, 0x1ecddd, 0x9ced1, 0x785bd4, 0x5f74d6, 0x589b35, 0x26267c, 0x3a1a20, 0x148ba6, 0x78bfb, 0x57564d], [0x8fb356, 0x195cbb, 0x3a2d22, 0x15dec8, 0x287f6a, 0x7c4179, 0x78b244, 0x13ae9, 0x4fd9d1, 0x5916fd, 0x7aab2b]⟩,
   ⟨[0x5ae235, 0x4a7074, 0x6d38a5, 0xa5b778, 0x192a8e, 0x292200, 0x536809, 0xc5fa0a, 0x7335a7, 0x7a9b01, 0x6b8f21], [0xfc9d22, 0x5462cc, 0x11e27e, 0xa16304, 0x2252c2, 0x65957, 0xfb44c, 0x507e75, 0x4c7390, 0x2880f2, 0x11f9dc]⟩,
   ⟨[0x8982f2, 0x5e0f01, 0x191a83, 0xb79dfb, 0x14f23a, 0x5bffb9, 0x679dca, 0xfdeba3, 0x7a5c5d, 0x317f01, 0x5f996], [0x2f393c, 0x57ea31, 0x41f969, 0x60eb85, 0x18762f, 0x34ff1a, 0x6e4f64, 0xe85223, 0x721bd5, 0x5695d8, 0x735fc8]⟩,
   ⟨[0xff37d, 0x1ee6d5, 0x59b657, 0x59218d, 0x5d7413, 0x16dc74, 0x245ce2, 0x9176fc, 0x140786, 0x123e16, 0x14c417], [0x8c5660, 0x4ab42b, 0x6f788d, 0x4c5639, 0x527c63, 0x76ad8c, 0xe1cd3, 0x905b46, 0x362085, 0x5bca4, 0x5143c9]⟩,
   ⟨[0x3cb83, 0x303cf6, 0x4a9ea9, 0x45e684, 0x510a34, 0x7bda22, 0x4947e0, 0x4ae474, 0x566e6, 0x1c9aa5, 0x2791d8], [0x8d0bf2, 0x42016f, 0x669d0c, 0x9942a6, 0x694f9b, 0x7da32e, 0x5be0ed, 0xcb0de0, 0x6a8967, 0xac39b, 0x3b3e68]⟩,
   ⟨[0x60d714, 0x4f6454, 0x61d11, 0xc2aa2d, 0x1269d9, 0x45b4eb, 0x452ba7, 0x1c10d3, 0x468d4a, 0x2efcca, 0x6de69e], [0xccb9aa, 0x5e4aad, 0x34ab4f, 0x451715, 0x742a4d, 0x54f77e, 0xe11c5, 0x848202, 0x6f4690, 0x429db2, 0x63397]⟩,
   ⟨[0xe679a9, 0x630f0, 0x54132f, 0x28e457, 0x530d92, 0x2d81be, 0x6d4da3, 0xdd8f12, 0x5aef2b, 0x681d79, 0x4f4e27], [0x452cc5, 0x6066a9, 0x586f19, 0xdca842, 0x3f3915, 0x7f124c, 0x5a982f, 0x232890, 0x6759d7, 0x5451f1, 0x1ebd44]⟩,
   ⟨[0xfa4a07, 0x30b22d, 0x241069, 0xde41e0, 0x4ce4d7, 0x2d9d3c, 0x1677ba, 0x980ed6, 0x31c47b, 0x2ed227, 0x159ad5], [0x89c1f3, 0x64afba, 0x29e45b, 0x32ad8, 0x2ab7fa, 0x667a12, 0x57acd4, 0x6c9b6d, 0x407d38, 0x420bb2, 0x26f2da]⟩,
   ⟨[0xc85447, 0x186902, 0x714c9c, 0x3e0e1b, 0x79a719, 0x3e4ded, 0x59e9d8, 0xc3ac22, 0x101db8, 0x79ec05, 0x308946], [0x20bfe2, 0x1b1c97, 0x2068fa, 0x318e8, 0x3fa490, 0x71c4a0, 0xd2962, 0x6d6a13, 0xb208c, 0x16c4b8, 0x2fb1eb]⟩,
   ⟨[0xfddd3, 0xbe560, 0x5f6f50, 0xcbd86e, 0x5f789c, 0x796635, 0x73572e, 0x7ef213, 0x3c20f1, 0x9d905, 0x506cba], [0x53488d, 0x5470bc, 0x356dbf, 0xb92c0a, 0x576d7c, 0x258d40, 0xec04b, 0x629848, 0x6efe8c, 0x2f0536, 0x5f0ed9]⟩,
   ⟨[0x941aab, 0x16408a, 0x38b7b4, 0xd17ad3, 0x20287, 0x3c98c7, 0x7107b0, 0xa47bf6, 0x76d73b, 0xe9dca, 0x2d0380], [0x3e14db, 0x68545f, 0x293201, 0x41e644, 0x37cc59, 0x64bf44, 0x4ab432, 0x222d96, 0x2a1a68, 0xca73b, 0x759d]⟩,
   ⟨[0xb27ee6, 0x392fab, 0x6d1511, 0xde9390, 0x53dbf3, 0x3f6eed, 0x1782d6, 0x2a6166, 0x4f448d, 0x4d0f3a, 0x7007c7], [0xdfe6f7, 0x32099e, 0x729e1f, 0x9f5d6f, 0x3a3d25, 0x4dd691, 0x20ffb0, 0xccde9d, 0x75d916, 0x545c21, 0x240e6d]⟩],
  [⟨[0x34e1e6, 0x3047d2, 0x6e4485, 0x7d8c36, 0x756414, 0x967cd, 0x4ec80f, 0xc63288, 0x73e0fa, 0x7182ff, 0x263dce], [0x462779, 0x1b3a99, 0x37dbba, 0xd2fc96, 0x64bb40, 0x7363a7, 0x32772a, 0xd91e04, 0x1007f8, 0xaf4ec, 0x193e0f]⟩,
   ⟨[0xfde1b6, 0x642789, 0x1a22b, 0x53d392, 0x4f3462, 0x7001c5, 0x3757d1, 0x2ff687, 0x2ad0c5, 0x61905e, 0x32e050], [0x586cc6, 0x29644b, 0x1dcce2, 0x242ad5, 0x3a4d19, 0x7edfa6, 0x220a76, 0xdd8bd2, 0x3afb95, 0x6523b5, 0x16d460]⟩,
   ⟨[0x3b3ebd, 0x59ff35, 0x646dfd, 0x1c652b, 0x572e18, 0x7156d0, 0x3125aa, 0x58c8a8, 0x383efa, 0x270c8a, 0x71dd1], [0xe57097, 0x52391e, 0x58a14d, 0x71fabe, 0x14ddad, 0x583150, 0x6e7a1d, 0x33f6c1, 0x490296, 0x414de6, 0x7218af]⟩,
   ⟨[0xf33c1f, 0x125893, 0x4fe3d7, 0xc4a16e, 0x66739e, 0x44b06c, 0x4329b, 0x40b952, 0x3ab3b6, 0x4b9045, 0x70efc5], [0x4a33d, 0x60b5f6, 0x1c92d2, 0x87e4ce, 0x7927e4, 0x687feb, 0x68424f, 0x6e7721, 0x2cb0fb, 0x3e8d7d, 0x66eea]⟩,
   ⟨[0x893929, 0x749590, 0x2975, 0x359738, 0x27b81c, 0x7cca27, 0x424a06, 0x8eaf50, 0x15a2bc, 0x191eec, 0x5255a], [0xf0f1da, 0x1f6dc, 0x1636c8, 0x12664, 0x26261d, 0x5d425d, 0x4530c6, 0x5c3d03, 0x5543de, 0x1b43e1, 0x1f7279]⟩,
   ⟨[0x73f26a, 0x68dae8, 0x721622, 0x2abfc5, 0x1aea78, 0x1c317d, 0x57a2ce, 0xd75b07, 0x11544b, 0x6677f4, 0x4fe8d9], [0xbd1939, 0x5fa352, 0x4e35f8, 0x2b9d5e, 0x236e36, 0x171f6f, 0x1c64c0, 0x59974c, 0x1a9517, 0xa0d86, 0x2c5844]⟩,
   ⟨[0x8028d2, 0x5696da, 0x134460, 0xfff1ca, 0x3e17c7, 0x771795, 0x3731a0, 0x4ffefa, 0x559d72, 0x69cd38, 0x15f09e], [0xc4c3ad, 0x74750b, 0x1d026c, 0x553063, 0x193906, 0x134c7, 0x49b4a1, 0x49d063, 0x3bf10d, 0x67632d, 0x300024]⟩,
   ⟨[0xd77453, 0x3d07c0, 0x19849d, 0xd631d5, 0x652bef, 0x7e6cde, 0xd87c3, 0x4951a8, 0x7525cd, 0x71b08e, 0x289648], [0xfd0ece, 0xbb7d1, 0x2c9248, 0x4c6fab, 0x372a68, 0xef891, 0x20b4a1, 0xa10a5, 0x6c334e, 0x1cccb1, 0x379ebc]⟩,
   ⟨[0xd635c8, 0x5da0cd, 0xca1cf, 0x9075fe, 0x1864d7, 0x375091, 0x219fb8, 0x7a85a, 0x6f3e1f, 0x391318, 0x247b2a], [0x2d9fb, 0x7fd052, 0x2c2377, 0xa71137, 0x21ad82, 0x3db97f, 0x7e1b6e, 0xc0c7ae, 0x742a7a, 0x24de99, 0x4e9051]⟩,
   ⟨[0xdadbae, 0x202b8d, 0x632043, 0x41281c, 0x1ebd2e, 0x7221a9, 0x6395e7, 0x9a072, 0x6e872d, 0x6a1915, 0x538853], [0x71c4b, 0x7a19e1, 0x7c2689, 0x7fc063, 0x1c8283, 0x67ded1, 0x667a3f, 0xaf7018, 0x38d342, 0x616d4, 0x23b78b]⟩,
   ⟨[0x2693d0, 0x78f96c, 0x571654, 0x14b152, 0xb8f3a, 0x4480f8, 0x4aa85e, 0xa2071c, 0x5bf5e5, 0x3df984, 0x290208], [0x574625, 0x4e5f90, 0x24bee7, 0x18c1aa, 0xe42ce, 0x353c8a, 0x40f203, 0x898f9a, 0x3fbfd0, 0x43c31b, 0x4e5e2e]⟩,
   ⟨[0x67d25a, 0x31f139, 0x5bd832, 0x58fc46, 0x2312e5, 0x722f75, 0x300a46, 0xcd2f3, 0x70a1f2, 0x1bbf1b, 0x5dad68], [0x27f5d0, 0xa7235, 0x550e6d, 0x7e271c, 0x3f1a3c, 0x3f545a, 0xf465a, 0x6e0289, 0x8e2b8, 0x5661, 0x7de299]⟩,
   ⟨[0x548202, 0x281b46, 0x4c8632, 0x8fde33, 0x254e52, 0x768f00, 0x1c3ad6, 0x2d85c6, 0x187542, 0x5f5a9e, 0x79b908], [0xc7c809, 0x1fe799, 0x42af63, 0x4ee64e, 0x1273ee, 0x609bf2, 0x22bbf9, 0x22de3e, 0x591e73, 0x4fc701, 0x7e865]⟩,
   ⟨[0x98b574, 0x3dc53f, 0x19a4e6, 0xcbd70f, 0x47b9d0, 0x5579c6, 0x354f41, 0xd2dc50, 0x329b79, 0x24242a, 0x66fba2], [0x85fc08, 0x49aba0, 0x2cd57, 0x51c421, 0x115db3, 0x66d6d5, 0x303b94, 0xa604bb, 0x685047, 0x3158df, 0x7ed9bf]⟩,
   ⟨[0x2afa23, 0x40ecf5, 0x4af2b2, 0x326e4c, 0x57d312, 0x6c5108, 0x39f6d7, 0x36f6ba, 0x5598c8, 0x3cb53c, 0x34aa18], [0xcf42ab, 0x7a1089, 0x798d02, 0xea386d, 0x11472e, 0x5332e0, 0x38b97b, 0xad3634, 0x8c5eb, 0x5bed65, 0x1b9bd]⟩,
   ⟨[0x761113, 0x18f0e8, 0x3fcfc0, 0x15bef5, 0x2aea52, 0x396a8e, 0x4c295c, 0x1baedf, 0x30d39, 0x5a7e8d, 0x2a1b12], [0x5ce5e2, 0x4cfe4b, 0x30a399, 0x40ea7a, 0x7f164f, 0x4db6d5, 0x686a3b, 0xdba200, 0x296140, 0x4d478a, 0x6ad41c]⟩],
  [⟨[0xb89e8e, 0x2a572e, 0x5b3e1f, 0xe54dd0, 0x162459, 0x27e7ed, 0x5b4cc3, 0xdb4f26, 0x7be5f3, 0x7c9929, 0x555f44], [0xcfd61d, 0x52d610, 0x60404c, 0x3743f5, 0x55514, 0x267d5, 0x6087d4, 0x8c2531, 0x51466e, 0x3c7cca, 0x5c334a]⟩,
   ⟨[0xe24828, 0x1f7423, 0x7d8091, 0x316505, 0x79c9bb, 0x7f35d0, 0x152c91, 0xe33d9c, 0x52c723, 0x58776c, 0x1fedfd], [0x4e1b6, 0x6ee7e1, 0x72c66f, 0xb26d30, 0x6fb6ae, 0x20b88a, 0x9f8ca, 0xbcd95a, 0x1944e3, 0x7072f6, 0x5a26a1]⟩,
   ⟨[0xf21e4a, 0x39de0d, 0x2c0b04, 0x42b820, 0x260ce6, 0x469276, 0xefd81, 0x53e1e3, 0x11d541, 0x3278ed, 0x24190e], [0x9c86a2, 0x4cf336, 0x666b88, 0xb34ad6, 0x12660f, 0x4603dc, 0x1c4603, 0xb51a55, 0x32e05, 0x761758, 0x2462a8]⟩,
   ⟨[0xa8c3d3, 0x42bda6, 0x73898b, 0x9f00ce, 0x6c9105, 0x77cdb6, 0x2cce5b, 0x17c55e, 0x274a09, 0x61058b, 0x25f3e2], [0xc3db3, 0x6143bb, 0x30ef0f, 0xe06efa, 0x5b5205, 0x2928c1, 0x11bd1, 0x4bd906, 0x3ea381, 0x5b8bdd, 0x141cf4]⟩,
   ⟨[0xb9f037, 0xeb500, 0x231f4e, 0x9e6670, 0x22155c, 0x5cd76f, 0x777013, 0x1e0c79, 0x4ffbc6, 0x22246a, 0x411134], [0xd2a8d9, 0x19d3d6, 0x2d8c16, 0xbfc55d, 0x409145, 0xa3cb7, 0x705773, 0x18e32, 0x2a408a, 0x2439b, 0x585c81]⟩,
   ⟨[0x1b067a, 0x3501b0, 0x6ff5d5, 0x266911, 0x573d9e, 0x4ce3ae, 0x7bd3a7, 0x4986d0, 0x36391a, 0x4e3053, 0x7a996a], [0x371080, 0x37e042, 0x2dcb8f, 0xa79f2a, 0xc73db, 0x7b8926, 0x4bca76, 0xf1d149, 0x59029b, 0x57f067, 0x6743f9]⟩,
   ⟨[0x939bae, 0x3b8fb7, 0x2ac961, 0x7d0a3c, 0x112565, 0x15ea2e, 0x5f39d5, 0x8ab56c, 0xe21e3, 0x700e40, 0x394dcd], [0x3a2295, 0x27730, 0x48c762, 0x9954a7, 0x7e32db, 0x43302e, 0x740102, 0x1190e7, 0x27d7b2, 0x5cee50, 0x7a578d]⟩,
   ⟨[0x8bba28, 0x4a0fd7, 0x7ac31d, 0x37176e, 0x76a050, 0x40ab46, 0x5f95f7, 0xbe19a, 0x98d24, 0x5a9458, 0xa1117], [0xe7ee0c, 0x242c41, 0x23cbf4, 0x1c57a1, 0x3ac093, 0x8aed2, 0x30388d, 0xec955f, 0x714125, 0x2ceb59, 0x43a695]⟩,
   ⟨[0x78c305, 0x68d7a0, 0x78f31c, 0x2557f3, 0x154bcd, 0xfd4ba, 0x49870f, 0xfd3d6c, 0x4a74e9, 0x73a1ea, 0x712628], [0x97a50e, 0x3814d7, 0x1533ae, 0xdc57ff, 0x38cc54, 0x23f786, 0x75eac5, 0x53bc5a, 0xd1025, 0x352ff8, 0x7baa67]⟩,
   ⟨[0x4b5256, 0x74bdb3, 0x3a77bb, 0x596c90, 0x5f0076, 0x682016, 0xd8938, 0xea0e74, 0x385c25, 0x1d6446, 0x7f967c], [0xf7351c, 0x5b1299, 0x77959f, 0x21d3b9, 0x6df80f, 0x4da025, 0x515ccc, 0x9fb790, 0x63ff3, 0x76d77a, 0x625098]⟩,
   ⟨[0x7f1e6e, 0x3af4f, 0x147bdb, 0x70598d, 0x26d23f, 0x4a29cd, 0x7d8afd, 0x842d17, 0x27d785, 0x3d4f02, 0x1b48f1], [0x1dd7e4, 0x48ea30, 0x31e587, 0xda778d, 0x28302, 0x2b20f, 0x2ca85d, 0x9940a5, 0x50706a, 0x27c655, 0x65e5f7]⟩,
   ⟨[0x339162, 0x747568, 0x2de761, 0xabf96a, 0x4ed981, 0x68131a, 0x7755d1, 0xa26f42, 0x52444, 0x5b629, 0x374df9], [0xcf14e5, 0x2b073, 0x2fcf27, 0x9f2568, 0xc77f1, 0x4f9c85, 0x564ae1, 0x84e7b1, 0x2f9f7c, 0x79f6ba, 0x50141f]⟩,
   ⟨[0x5ddb32, 0x6eea5f, 0x1a6dbd, 0x37896c, 0x5312eb, 0x224556, 0x5b967c, 0xe31403, 0x210fec, 0x39ab6e, 0x56a5eb], [0x20a6e2, 0x4202d4, 0x49c90d, 0xeaf4cb, 0x2618c6, 0x7417cb, 0x662261, 0x19a617, 0x33b387, 0x48bfff, 0x4f79a1]⟩,
   ⟨[0x58277b, 0x1f5bdd, 0x4376ca, 0xf548fc, 0x326e00, 0x1b763d, 0xfd0c0, 0x77da31, 0x187e89, 0x79fc29, 0x7a4af6], [0x6fe0e1, 0x669eb7, 0x2bef48, 0xf75c67, 0x5f6d0f, 0xa2cd9, 0x6e41e5, 0x3f37b9, 0x2d2442, 0x36829d, 0x65da14]⟩,
   ⟨[0x4326a2, 0x40cbd8, 0x652915, 0xf2b54, 0x16c330, 0x43f920, 0x30af01, 0x8c5d38, 0xdedbf, 0x496f1b, 0x35ce15], [0x5cd536, 0x3476a, 0x1458e4, 0x66184b, 0x1373e4, 0x2362b2, 0x47adda, 0xcfde00, 0x294acc, 0x5b07f4, 0x3aaa59]⟩,
   ⟨[0x351dce, 0x531f74, 0x70fe9b, 0x55d5ff, 0x91f6c, 0x4713c4, 0x43d715, 0x133a66, 0x274ddb, 0x1421ff, 0x154461], [0x2ee3c1, 0x1bd275, 0x205ca7, 0x8985bf, 0x65f85e, 0x342c28, 0x24e23d, 0x4b7b25, 0x2ae72e, 0x4a5d4d, 0x296425]⟩],
  [⟨[0x3bb6fe, 0x6e95ca, 0x7c12db, 0xc2b2e1, 0x78cf5b, 0x8d9aa, 0x545b0c, 0x966933, 0x5e90bf, 0x127a50, 0x21e6d5], [0x9bb07d, 0x3ce9c9, 0x575061, 0x9d607c, 0x2c0630, 0x4cf2f4, 0x7c5067, 0x7db3ff, 0x78833c, 0x381d12, 0x5c6cd7]⟩,
   ⟨[0x8392c8, 0x3ba804, 0x437aeb, 0xaa5a0, 0x428295, 0x22cf84, 0x583ab2, 0xe78c0a, 0x76bfd, 0x340af2, 0x2c576a], [0x6e6de1, 0x18aaf8, 0x3b09ea, 0x461a4f, 0x652c71, 0x773d62, 0x7f33a, 0xfb0128, 0x23226a, 0x5272be, 0x77a80c]⟩,
   ⟨[0x243a23, 0x59ee8d, 0x5abc02, 0xa76f1c, 0x5303b8, 0x2878bc, 0xdc6d0, 0x2f5739, 0x4328d8, 0x6619b0, 0x582761], [0x5dd89c, 0x40af03, 0x664609, 0x64ded7, 0x321f34, 0x479994, 0x2a3457, 0x81039c, 0x1fb033, 0x3e4d77, 0x381514]⟩,
   ⟨[0x47a6cb, 0x158718, 0x209322, 0xe170db, 0x240a83, 0x4cd315, 0x28e399, 0x5ae653, 0x66b28, 0x1bbe06, 0x2c404c], [0x6a93d6, 0x12df82, 0x6b54f4, 0x62344, 0x3fc9ed, 0x7ddb29, 0x101680, 0x369c91, 0x74aa99, 0x205d4f, 0xe516b]⟩,
   ⟨[0x32c66d, 0x5546a7, 0x6bb8de, 0x8576d8, 0x412063, 0x644d0c, 0x693a63, 0x4429a2, 0x2afb3c, 0x5ab6a4, 0x61829f], [0x743208, 0x77b5bb, 0x60700c, 0x3878d7, 0x43ea8e, 0x6c990, 0x1ad279, 0x37199c, 0x1602ac, 0x6e6867, 0x200a7]⟩,
   ⟨[0x5c9b6, 0x70ba76, 0x32093c, 0xd7302e, 0x3dc75f, 0x32241e, 0x20e178, 0x9db55a, 0x105792, 0x223ef7, 0x4dbd3], [0x6731cf, 0x4dccdf, 0x6c712b, 0x2963ca, 0x33c6eb, 0x2918cb, 0x42143a, 0x8d3632, 0x47755a, 0x258338, 0x497444]⟩,
   ⟨[0xacb58a, 0x3e23d, 0x35ff81, 0x8936ea, 0x6a5cf4, 0x24ffc8, 0x61c56b, 0xe421b, 0x5c7741, 0x6a1ff8, 0x6599dd], [0xe19fa2, 0x129bd5, 0x106b22, 0x7d7780, 0x7f0877, 0x41300e, 0x4e679a, 0xebe8aa, 0x1c3277, 0x6e99f9, 0x427db9]⟩,
   ⟨[0x184dfd, 0x147505, 0x40edb6, 0x96e71f, 0x96d68, 0x7288b9, 0x39fae7, 0x9e3b19, 0x59525f, 0x42a224, 0x32e991], [0x4d3074, 0x55d970, 0x4ff6c8, 0x15270d, 0x7770df, 0x42c9fb, 0x5ca513, 0x7d00c3, 0x30a146, 0x5d74bb, 0x7a9637]⟩,
   ⟨[0x3db0dd, 0x11adc8, 0x612266, 0x2f2c19, 0x2df82d, 0x28b03e, 0x6c2e98, 0xffa685, 0x38f8d0, 0x3b9283, 0x7d2975], [0x7d306e, 0x7f5e20, 0x47a55d, 0xf980ff, 0x1331a2, 0x7d74a9, 0x5fee08, 0x6a7c2a, 0x7c37bb, 0x43d3b4, 0x6f3cfd]⟩,
   ⟨[0xec696, 0x5185a9, 0xbe2c, 0x9f985a, 0x4e2379, 0x5ce286, 0x5f05df, 0x86a2d2, 0x72a145, 0x2b10e0, 0x4c8ee4], [0xe985b8, 0x2a46b5, 0x2fbbbf, 0xc296a5, 0x35dca7, 0x646900, 0x3c51b5, 0x211ea2, 0xb20b3, 0x5e0254, 0xa4fe9]⟩,
   ⟨[0x86a4e4, 0x394fc7, 0x62ad1e, 0x70c064, 0xd4375, 0x69383e, 0x6dcb72, 0x68e22c, 0x65f231, 0x5483d, 0x5c9926], [0x27c9ba, 0x4616bf, 0x793172, 0xe307ef, 0x1c58e0, 0x75518f, 0x704d77, 0x96d516, 0x514c7, 0x4550f6, 0x2f839]⟩,
   ⟨[0x3eb3cb, 0xb54e8, 0xbb0b6, 0x473cb, 0x7a4d1b, 0x1a1e96, 0x676b16, 0x2a64ab, 0x465b, 0x30baf8, 0x32a6ec], [0x7b903f, 0x594a72, 0x5679c7, 0x1348e, 0x49acd, 0x76157b, 0x823e7, 0x956aac, 0x564c9c, 0x6b7d47, 0x184705]⟩,
   ⟨[0x582997, 0x42c43a, 0x1b2a5f, 0xc58d80, 0x27426, 0x767f7f, 0x29fe8f, 0x11d5e8, 0x5f6eda, 0x4e2e7a, 0x6da644], [0x5f3e5d, 0x7eb9df, 0x744fff, 0x11e773, 0x365a41, 0x69dce3, 0x5910e9, 0xa8dac2, 0x76022d, 0x6b2e17, 0x2b174e]⟩,
   ⟨[0x2d1de7, 0x5918af, 0x7117b7, 0xffa278, 0x5ec3e5, 0x5d5abd, 0x409aa7, 0xb36478, 0x4932c5, 0x12cd34, 0x481c3a], [0xfda782, 0xb2886, 0x335c25, 0x2cba0c, 0x31d46b, 0x6d4278, 0x222f32, 0x407069, 0x3013, 0x13825f, 0x1f8b6c]⟩,
   ⟨[0x51e4f5, 0x5e9dc2, 0x258809, 0x371d8c, 0x2faee6, 0x4405c, 0x203011, 0xc2897b, 0x45b72f, 0x627d76, 0x6aecbb], [0xd0f404, 0x3cf81a, 0x2f9f4d, 0xc34800, 0x1e0d5a, 0x4cf2b9, 0x58028d, 0x2fe88d, 0x3bcdd1, 0x5ca483, 0x6c66b1]⟩,
   ⟨[0x12b2f8, 0x2eb0a2, 0x12bbfe, 0x455276, 0x47b04a, 0x7f71b8, 0x55bf51, 0x912939, 0x5dd2fd, 0x1e65e5, 0x44827b], [0x749338, 0x69b9a0, 0x24e76a, 0x8505b7, 0x48f45e, 0x4ccff6, 0x518f1e, 0x6abd7, 0xc7b19, 0x7cf1c0, 0x1618e7]⟩],
  [⟨[0x2a6b0, 0x68a84d, 0x4254d, 0x73936f, 0x264aa9, 0x2ae177, 0x5104de, 0x7cf18f, 0x6d9c04, 0x7431af, 0x711ab], [0x8d5496, 0x3ea309, 0x4f5ce, 0xbde7bb, 0x7de3a5, 0x18e586, 0x4c3db2, 0x34ef2f, 0x310ed6, 0x5f5025, 0x33f193]⟩,
   ⟨[0x478d87, 0x86b6b, 0x46eb29, 0xe16d0c, 0x1bda98, 0x2ed05b, 0x3789d1, 0xcc467c, 0x178bd9, 0x5b5c2e, 0x414c09], [0xfe52ff, 0x390639, 0x6ffae6, 0x28e37b, 0x1fb01b, 0x16f3d8, 0x3ee18e, 0x599a77, 0x4c13de, 0x4b6328, 0x283192]⟩,
   ⟨[0xe1ab70, 0x4b3c06, 0x203aa9, 0x521440, 0x527b5e, 0x288a81, 0x28ce1c, 0x28059f, 0x4c148a, 0x46ecee, 0x578c8d], [0xdbd2ff, 0x6c80c1, 0x7661a2, 0x11094f, 0x1afacc, 0x775abb, 0x3cfca0, 0x30ff6, 0x527900, 0x15f70f, 0x546d98]⟩,
   ⟨[0xe757a2, 0x5bc39a, 0x4ffc7d, 0xf82eb5, 0x6c5ad3, 0x78023c, 0x684cb8, 0xcb7ae8, 0x5f6095, 0x75b447, 0x1ff6e4], [0x36fa0, 0xc4b4e, 0x21ca4e, 0x46ea53, 0x44a218, 0x10a3c3, 0x2b3dfe, 0x65108e, 0x66153c, 0x1afca, 0x78aab5]⟩,
   ⟨[0xa3a297, 0x1f022d, 0x48b127, 0x84727b, 0x40b276, 0x723454, 0x27403d, 0x702090, 0x3ae544, 0x185c8, 0x396b7e], [0x54f823, 0x23afde, 0x701ad, 0xe2ae90, 0x2362a8, 0x443b0d, 0x539ca7, 0x487f9b, 0x13dfd4, 0x60a0c9, 0x3ed6d3]⟩,
   ⟨[0x41afa6, 0x33b2ab, 0xe144f, 0x6c2256, 0x6faf7b, 0x5ac228, 0x32a572, 0x7f38e2, 0x6d725e, 0x2bec51, 0x2d43d7], [0x83a39e, 0x1c7564, 0x8d7ac, 0x18a604, 0x74c8eb, 0x63ab5d, 0x2ccd7d, 0x47e981, 0x21750f, 0x1135d9, 0x4db0fb]⟩,
   ⟨[0x64ba6c, 0x7b1bdb, 0x7cd33c, 0x810753, 0x26fb53, 0x77ac90, 0x5e560, 0x4bcb24, 0x5ba503, 0x16bd12, 0x312bdc], [0x72b4cc, 0x14a560, 0x7f39a, 0xa2186, 0x14704e, 0x31aa4b, 0x743487, 0xbf00ce, 0x2ddb5e, 0x490bb0, 0x69dac1]⟩,
   ⟨[0x9eec7f, 0x6df14c, 0x23f579, 0x511b11, 0x30486b, 0x653474, 0x6f453d, 0x104bbb, 0x1de9b0, 0x353041, 0x3312fc], [0xa89852, 0x125365, 0x584ead, 0xada70a, 0x2fbf4c, 0x2fea71, 0x3e0469, 0x1abcc3, 0x759b9, 0x440460, 0xbc673]⟩,
   ⟨[0x94762e, 0x288488, 0x6e9757, 0x4ac426, 0x211bf1, 0x1d3a08, 0x1eafc, 0x8d5aeb, 0x735e25, 0x3d07a5, 0x4f79a8], [0x8de0d, 0xf22ec, 0x265780, 0xef5221, 0x285666, 0x31a918, 0x150fbe, 0xa00dc4, 0x4a3ca8, 0x792a0b, 0xeefd5]⟩,
   ⟨[0xc878d8, 0x5c1f80, 0x796f30, 0x5e40fd, 0x6c91b9, 0x7b8eb5, 0x763e21, 0x8e4b3f, 0x59cb82, 0x33cf8b, 0x117c19], [0x697dd3, 0x2c5d30, 0x6317a0, 0xfb399c, 0x679834, 0x265aa0, 0x7ecfa2, 0x4dfbef, 0x38ae2b, 0x66cf5a, 0x1e2f38]⟩,
   ⟨[0x6ec447, 0x636db3, 0x504563, 0x59f3d2, 0x71d652, 0x6de38, 0x478020, 0xd483f9, 0xaed5c, 0x787862, 0x2dacf3], [0xc6c4f7, 0x33c908, 0xfee1a, 0xaa7333, 0x1faf9a, 0xff2f1, 0x5b0306, 0xfbe44f, 0x30ac0d, 0x5c62a5, 0x611050]⟩,
   ⟨[0x4c0908, 0x68f3d, 0x6c33da, 0xb80a7, 0x25b068, 0x7fb25b, 0x4c55a2, 0x8bbcf8, 0x6d143, 0x6225d, 0x23f7ad], [0x80deaf, 0x53b869, 0x14a009, 0x76059b, 0x3133c4, 0x7b5c31, 0x6bd859, 0xb43aa4, 0x74ea87, 0x59cb83, 0x8b4b9]⟩,
   ⟨[0x839775, 0x66dd9c, 0xd8d68, 0xd7f11b, 0x3adc9e, 0x257179, 0x5c5090, 0x81b436, 0x6c5187, 0x5a0a00, 0x6e778b], [0xe9c0bd, 0x1b7784, 0x7db934, 0xc972dd, 0x1314a2, 0x6af18, 0x6f7a8a, 0xf39c4e, 0x6e8942, 0x56e09b, 0x786bb0]⟩,
   ⟨[0x306294, 0x35755d, 0x5a1ec5, 0x667cae, 0x7cce97, 0x240c1f, 0x24f74a, 0x52075f, 0x3907dd, 0x19f30d, 0x621ce6], [0x45bdb1, 0x633018, 0x65c160, 0x289740, 0x1e2f22, 0x592daf, 0x23922d, 0x4df348, 0x129446, 0x7248b4, 0x39074b]⟩,
   ⟨[0xaa4bc7, 0x5726ae, 0x3e5213, 0x67290d, 0x63681b, 0x6e5545, 0x195ccd, 0x8b3541, 0x2f83e1, 0x56641a, 0x2eb12a], [0x6782ed, 0x320ada, 0x76d1a5, 0x1573a2, 0x2e18bc, 0x2e3320, 0x653e07, 0xc666dd, 0x604156, 0x7a5e4b, 0x69541f]⟩,
   ⟨[0x224872, 0x5d167d, 0x10ff0c, 0x71c46, 0x548e96, 0x3d16e1, 0x68ba5d, 0x355f33, 0x6c2f4f, 0x44af9, 0x7213bd], [0x1a0254, 0x2afca6, 0x41daae, 0xd08e4a, 0x6d9245, 0xc8a06, 0x3d8084, 0x494bd0, 0xed04a, 0x3bf0a5, 0xf164d]⟩],
  [⟨[0x459019, 0x55760b, 0x58fb7d, 0xa2ba8c, 0x4b4e88, 0xe6ee4, 0x59f945, 0x1789f2, 0x7101fd, 0x4f8dd3, 0x38462a], [0xabd7b1, 0x3d4ec1, 0x382d69, 0x6ba54f, 0x518a2d, 0x1f4a7a, 0x2c19f0, 0xccad3e, 0x3aa2cc, 0x69d63b, 0x156e38]⟩,
   ⟨[0x61cf6a, 0xd2f2d, 0x6c04, 0xc0a71a, 0x51d1dc, 0x25c398, 0xc6829, 0x44f736, 0x74ba1d, 0xf86e2, 0x86cd1], [0xd6c080, 0x45977f, 0x21ec6b, 0xf8eb91, 0x66e69f, 0x3b59c5, 0x1990fa, 0xb03645, 0x9151d, 0x781faf, 0x52eac1]⟩,
   ⟨[0x5ce371, 0x339a2b, 0x20ccde, 0x867507, 0x33d597, 0x7923eb, 0xc7943, 0x3719df, 0x423883, 0x24af84, 0x679f03], [0x8b9d31, 0x4b0315, 0x409d6e, 0x9267d2, 0x30117a, 0x2d54f0, 0x6c6ff7, 0x4bf6a4, 0x75cbeb, 0x3beeb1, 0xb67f0]⟩,
   ⟨[0x687f73, 0x403ae2, 0x405a67, 0x316ca7, 0x2999e7, 0x1fe769, 0x26b91b, 0x1d6ca9, 0x4befcd, 0x4a822c, 0x1cfafb], [0xa8ee8b, 0xacc89, 0x43b4ad, 0xf1da75, 0x11792b, 0x2580d8, 0xb787, 0xc9b58f, 0x4f3c97, 0x769dfc, 0xf1398]⟩,
   ⟨[0xf0e827, 0x71ca92, 0x5324ec, 0x9729f1, 0x55f994, 0x3eff, 0x17cb89, 0x72853d, 0x339b97, 0x171ca7, 0x6b675f], [0x3d0d62, 0x7daa7d, 0x6a9620, 0xf5cfea, 0x32e5b, 0x563173, 0x6f73f8, 0x7ccba2, 0x4141e7, 0x27173b, 0x3348a7]⟩,
   ⟨[0xf522e3, 0x6f8cdc, 0x9fccc, 0xbe430, 0x303da6, 0x6833b6, 0x557fc0, 0x82cfc0, 0x521aa8, 0x3ca041, 0x1afa64], [0x304313, 0x4ed8c2, 0x18190f, 0x9b395b, 0x40816b, 0x7c8c36, 0x6509bf, 0x2e0bc9, 0x22b46b, 0x2ab43c, 0x283cd2]⟩,
   ⟨[0xb7f74, 0x2ac244, 0x521fc5, 0x4260d1, 0x17c7d, 0x8cf38, 0x6722e9, 0xad1e83, 0x39112c, 0x2c7b44, 0x27c0ff], [0x9e60b3, 0x54b3f3, 0x6a4023, 0xe894e, 0xd8133, 0x684145, 0x375199, 0xc86dc, 0x6b4831, 0x148d6a, 0x5d0790]⟩,
   ⟨[0x6fc7f9, 0x2d0fb1, 0x71895e, 0x7c322d, 0x22df86, 0x329f1a, 0x4aad46, 0xa69b3a, 0x58c8b6, 0x4fec36, 0x1023ef], [0x670612, 0x68aab3, 0x5c3162, 0x2c5521, 0x1c3176, 0x42667a, 0x1631ee, 0xb31014, 0x670b11, 0x24384b, 0x1a4a2c]⟩,
   ⟨[0x9994ee, 0x6fe440, 0x4f4279, 0x6a6d12, 0x439b57, 0x7e025a, 0x2d8836, 0x42c271, 0x11969f, 0x56f588, 0x5dd046], [0xf4202a, 0x1b4ff6, 0xf4f77, 0x2d36f2, 0x7aa72b, 0x191711, 0x7b653c, 0xf06065, 0x1bc81d, 0x34be67, 0x6faa43]⟩,
   ⟨[0x501dae, 0x2494e4, 0x64d2eb, 0x8f0ce3, 0x45a611, 0x64260a, 0x75e097, 0xf9238a, 0x3654e9, 0x5020ca, 0x72482c], [0xaf93e8, 0x5900b4, 0x4202a6, 0xbee149, 0x6d7724, 0x71b0a1, 0x405291, 0x3ad02b, 0x5c2036, 0x79be42, 0xba73d]⟩,
   ⟨[0xb4074b, 0x4b525b, 0xd26f5, 0xddc04b, 0x5c3d10, 0x395397, 0x380563, 0x8c1f77, 0xfa839, 0x493852, 0xed70c], [0xd5040f, 0x42882c, 0x1c223, 0x47d313, 0x552dbd, 0x29f273, 0x5d6bc9, 0xbcdd77, 0x42d701, 0x3fe205, 0x3debb5]⟩,
   ⟨[0xbbcf14, 0x4ffb15, 0x557302, 0x897907, 0x886e7, 0x556a12, 0x24bffc, 0x466c4a, 0x6d05e2, 0x732afc, 0x7196cd], [0x377955, 0x49f69, 0x4a73af, 0x628b4d, 0x7f38f0, 0x7a500c, 0x6d3f0, 0x4a0f78, 0x1c6f18, 0x7e08f6, 0x8b8e3]⟩,
   ⟨[0xf0f157, 0x6e3ee, 0x636cd6, 0x1fcaae, 0x65300, 0x30b114, 0x303eff, 0x10cbd8, 0x2326c5, 0x7e166c, 0x190c79], [0x6d97e1, 0x306b6d, 0x7bd9cd, 0x922461, 0x312872, 0x15de6c, 0x595605, 0x37f071, 0x165965, 0x6eba47, 0x43ec85]⟩,
   ⟨[0x4cc6b4, 0x6d0740, 0x5e7f6c, 0x5df159, 0x2e1429, 0x1f4eb5, 0x543d5b, 0xe4c2b2, 0x58f8f4, 0x3e2b7e, 0x3fa76], [0x245c81, 0x4a0442, 0x3db05, 0xdb5088, 0x64fd7c, 0x4c3547, 0x34c017, 0xed3600, 0x2a72eb, 0x48d594, 0x114c4c]⟩,
   ⟨[0x12cf1a, 0x6e0086, 0x549899, 0xc50d1b, 0x48ceb3, 0x6765ab, 0x61b7c5, 0x9f1cd0, 0x9f99f, 0x40a0a7, 0x4b6425], [0x9d7477, 0x79b86, 0x6b9474, 0x6a4288, 0x6586c3, 0x53f72, 0x1b756b, 0x302538, 0x464295, 0x41cef6, 0x157a3]⟩,
   ⟨[0xc4eb0d, 0x59e444, 0x1b0a36, 0x9dad3b, 0x5bf245, 0x72c6c4, 0x285e98, 0x7a4b77, 0x693e04, 0xa8ac7, 0xbe084], [0x929eb4, 0x4aef0, 0x477054, 0x8fac95, 0x2630b3, 0x39bc23, 0x199060, 0x17b14e, 0x6f142e, 0x3060d5, 0x21edba]⟩],
  [⟨[0xd13256, 0x3f96e6, 0x35573f, 0xa11c34, 0x55362d, 0x19411a, 0x5f05e2, 0x1a9048, 0x3dea90, 0xb7d0a, 0x4b4171], [0xfac1a, 0x23647e, 0x70b3d3, 0x805801, 0x790fc6, 0x4c4182, 0x21453d, 0xbff08, 0x18947b, 0x28cb8e, 0x6eb4b]⟩,
   ⟨[0xbe097d, 0x6fa126, 0x1bb0aa, 0x857af3, 0x14e432, 0x678f70, 0x3fe4f6, 0x37969a, 0x4c29a5, 0x19e68d, 0x727d26], [0x30f457, 0x77aefb, 0x1b45a0, 0xf569ca, 0x4cf892, 0x3cd573, 0x20564d, 0x911635, 0xb9ccc, 0x43c0c2, 0x5abf88]⟩,
   ⟨[0x55e82e, 0x62b538, 0x71afaf, 0xdd7d6c, 0x2444db, 0x609bda, 0x7e8fe1, 0x47fb13, 0x5aa88a, 0x632113, 0xe21bf], [0xe4ae88, 0x549503, 0x6d0459, 0x7be5c, 0x3d3d1f, 0x105f67, 0x70d576, 0x8e68e3, 0x66b27f, 0xf81a1, 0x102f63]⟩,
   ⟨[0x813696, 0x1896a4, 0x7c71b5, 0x8f5bba, 0x3bf0d4, 0x2b5a1f, 0x688fce, 0xdc932f, 0x178f0b, 0x532936, 0x3dc4e4], [0xff3364, 0x987d, 0x50b87, 0xdd7b60, 0x4c9ac5, 0x50ac9, 0x305fca, 0xfebb2b, 0x4ccd89, 0x45d609, 0x383954]⟩,
   ⟨[0xc5f8c7, 0x59c15, 0x5d6652, 0x395738, 0x33e177, 0x114250, 0x50f27a, 0x575ef9, 0x3ec09d, 0x587a84, 0x66f8f9], [0x84dcf0, 0x53ac30, 0x6b3de9, 0x6d8108, 0x5e091b, 0x74fbf5, 0x79c383, 0x91fde9, 0x59cdf0, 0x63d52a, 0x374429]⟩,
   ⟨[0xac9b9f, 0x49f51, 0x3b74b2, 0xc116da, 0x7c29a7, 0x70299b, 0x5e9acc, 0x3167b, 0x2bf1be, 0x4d9f3f, 0x4ee7a0], [0x917c14, 0x3ebf02, 0x420f7, 0x98b80d, 0x316402, 0x299c9e, 0x788c59, 0x4ca51a, 0x32e98d, 0x523f2b, 0x25fe7c]⟩,
   ⟨[0xd24fb4, 0xfa78f, 0x75eb38, 0xe1423c, 0x2f6852, 0x54e6aa, 0x3b4eba, 0x916685, 0x987ea, 0x7e5cae, 0x1aef85], [0xbebdcb, 0x62c59d, 0x7ec199, 0x4abaeb, 0x26e8bc, 0x45113c, 0x926f3, 0x6ec500, 0x1e9d22, 0x29bee0, 0x43dee]⟩,
   ⟨[0x409462, 0x1cb8cd, 0x1f8eff, 0x97aa77, 0x3b581e, 0x7159cb, 0x6e4adc, 0x37066b, 0x2d6f60, 0x6dec62, 0x3829d7], [0x174a3e, 0x48a317, 0x2691c2, 0x4d7514, 0x4893b0, 0x6c7bdc, 0x7270a6, 0x1cd34c, 0x76f518, 0x4c90e7, 0x5f393c]⟩,
   ⟨[0x99a837, 0x58e783, 0x16d7d7, 0xab0113, 0x7bf6c9, 0x5ffc67, 0xfa10d, 0x805e8, 0x627967, 0x6d7987, 0x64d848], [0x1fe2e3, 0x3499ed, 0x7f453, 0x6ea4b, 0x6c77a1, 0x131f20, 0x28b0d4, 0x301339, 0x10a30b, 0x78f588, 0x56fff0]⟩,
   ⟨[0xc31bb5, 0x440bea, 0x6f3a2d, 0x85fd9f, 0x488063, 0x37200f, 0x199136, 0x37cd50, 0x8d83e, 0x7a26bf, 0xf7f08], [0xa878f2, 0x2b8b71, 0x5c80d4, 0x147855, 0x649415, 0x445b94, 0x38df88, 0xd5f5b6, 0x4ffa47, 0x295ac4, 0x41ea46]⟩,
   ⟨[0x7eb48e, 0x12787, 0x646010, 0xd4b80d, 0x19653c, 0x2a25d0, 0x7425a7, 0x10550f, 0x1d6d43, 0x494525, 0x3dd845], [0x97b9cf, 0x389128, 0x63ab07, 0xffb646, 0x49a92, 0x3b30f9, 0x4092ba, 0x5bb91c, 0x45be82, 0x1d89d6, 0x6d769]⟩,
   ⟨[0xa9c944, 0x1e9fde, 0x5084b, 0x37b0ab, 0x7df90a, 0x2bfe80, 0x14a4bd, 0x99723a, 0x62fdc9, 0x450631, 0x56c69d], [0x6e31bc, 0x223a2c, 0x426db3, 0xb65794, 0x4ef40f, 0x37e688, 0x6eda79, 0x4a47e5, 0x7b715c, 0x39db43, 0x2e56f6]⟩,
   ⟨[0x178ee8, 0x1f6068, 0x2959e2, 0x7567a4, 0x2acb5c, 0x45b5ee, 0x71a9d8, 0x3e517a, 0x6040cd, 0x36ce20, 0x5d54b], [0xf4423f, 0x17e6e5, 0x4bbf02, 0xdf4dde, 0x683fee, 0x773399, 0x6f6378, 0x5109b9, 0x7f1264, 0x1500b6, 0x23e4d2]⟩,
   ⟨[0x9d0de5, 0x40eac6, 0x628047, 0xcc7720, 0x5595b3, 0x342909, 0x6815d, 0x7eaf87, 0x743c32, 0xd28f3, 0x13c70b], [0x7de7b7, 0x7a74cf, 0x1c3fc, 0x660203, 0x709164, 0x73a917, 0x7491a0, 0xa50585, 0x632019, 0x5493d0, 0x73cf34]⟩,
   ⟨[0xfdf621, 0xbb4a9, 0x6cd94f, 0xbc87f4, 0xa8610, 0x573cfa, 0x79cf0, 0xde2d6b, 0x2db8e4, 0xc2b46, 0x4b624e], [0xade692, 0xd62b4, 0x4f204f, 0x1e7763, 0x66bf28, 0x11a4df, 0x5a54fd, 0x2663a8, 0x28e3ba, 0x5f9ddd, 0x7c882c]⟩,
   ⟨[0x112390, 0x423b09, 0x52630b, 0x47d4ba, 0x2c3042, 0xc6f6f, 0x58a3e8, 0x742857, 0x7610bb, 0x75d1b9, 0x255756], [0xfdf0d5, 0x6197b7, 0x72ca11, 0xdf93d8, 0x202449, 0x6e01fa, 0x27c172, 0x55a82d, 0x66e3de, 0x6a6ae7, 0x1a25fd]⟩],
  [⟨[0x661c25, 0x28e38, 0x6ad36b, 0xf0dccf, 0x32b052, 0x32c71c, 0x211a09, 0x98a311, 0x826e3, 0x21933b, 0x1245d9], [0xbe5f68, 0x3d2384, 0x578bd, 0xf8e413, 0x4061a5, 0xff2f1, 0x132ebc, 0xe1bdf, 0x3265a0, 0x52091e, 0x11ffcc]⟩,
   ⟨[0xb211e9, 0x495db, 0x9cb82, 0x10bdf3, 0x4d6e95, 0x6de15a, 0x3f2b0e, 0xf8b166, 0x569192, 0x4ec0d5, 0x54ef20], [0x5200c4, 0x391a11, 0x7e47d8, 0x24674d, 0x10fc4e, 0x25192e, 0x5d1c48, 0x983f2b, 0x568b3d, 0x11fcc9, 0x322423]⟩,
   ⟨[0x46a583, 0x6d46ec, 0x9ef4f, 0x8a2373, 0x6760e4, 0x3ae52c, 0x6d3fe9, 0xcff4aa, 0x2a1967, 0x6c501c, 0x2450e4], [0x477329, 0x2ff478, 0x79a10f, 0x2240f4, 0x2a6335, 0x1da909, 0x4df841, 0xb8ed8e, 0x67037e, 0x6baef5, 0x142beb]⟩,
   ⟨[0x76391e, 0x1fa456, 0x24e1d6, 0xa4bbb7, 0x6733a5, 0x1c3afd, 0x70a4c3, 0x195be7, 0x6e2e3b, 0x7153cf, 0x19a09a], [0x153bb1, 0x4a58a8, 0x708ee5, 0xcdffd9, 0x482ec4, 0x65d09a, 0x820c4, 0xccb628, 0x4f2ad3, 0x4a6c74, 0x1936eb]⟩,
   ⟨[0x89a595, 0x226302, 0x74a6f3, 0xa33f36, 0x7c9032, 0x67db9b, 0x1eb7f, 0xf3f17e, 0x5ada9d, 0x7218e4, 0xc8aa9], [0xc7f8b4, 0x762b7e, 0x7b3451, 0x73575c, 0x2013d6, 0x638e89, 0x244ad5, 0x9b033e, 0x226644, 0x1e7eb2, 0x54fc0e]⟩,
   ⟨[0x920fa0, 0x7a9f5e, 0x27dd8d, 0xdc2927, 0x2c9e2d, 0x41e6f3, 0xa2c15, 0xb02047, 0x6ce1aa, 0x28537f, 0x44a79], [0xd1b513, 0x3a87fe, 0x414d56, 0x394df6, 0x675f9f, 0x6536db, 0x8f83a, 0xaf6b36, 0x42bf63, 0x1324f1, 0x69e23f]⟩,
   ⟨[0x126519, 0x2072d6, 0x4f3495, 0x801841, 0x34fa6f, 0x4a41fc, 0xc3620, 0x9f3555, 0x50b1bb, 0x7148f3, 0x3bc5f3], [0x5e3bb, 0x91662, 0x480f10, 0x526739, 0x5371e1, 0x63f1fc, 0x4d071e, 0x91714c, 0x23f077, 0x692954, 0x30e9a8]⟩,
   ⟨[0xc73ee8, 0x2829dc, 0x69d5a7, 0x75ee6f, 0xf85a6, 0x45f30f, 0x407ea5, 0xf70774, 0x45482d, 0x13ae44, 0x547ff8], [0xf7f25a, 0x2b2910, 0x4b44ea, 0xdde34b, 0x3285a3, 0x558e05, 0x468dc2, 0x411298, 0x509ef8, 0x7f842c, 0x7609fd]⟩,
   ⟨[0x5f2d5, 0x2e2ec3, 0x49f536, 0x5aef1b, 0x1ece26, 0x32d05a, 0x17585a, 0xdb0102, 0x7fa137, 0x56ffcc, 0x943c5], [0xa42c24, 0x48a53e, 0x1397bc, 0x9e2e56, 0x307f5d, 0x1b73e3, 0x3f6900, 0x122d6a, 0x769ebf, 0x16a45c, 0x77a9e1]⟩,
   ⟨[0x65f9cf, 0x4ac108, 0x67432f, 0x2df4d6, 0x4dcf5e, 0x3baec7, 0x557847, 0x52362a, 0x3955ff, 0x2d7043, 0x4ca5dc], [0x7a93d2, 0x36376b, 0x3a5a14, 0x2555d, 0x469862, 0x7bdbe1, 0x3081c9, 0x9c449c, 0x47e01c, 0x485605, 0x31010e]⟩,
   ⟨[0x9eb768, 0x5f172b, 0x68912f, 0x3400ee, 0x40f25e, 0x255b9d, 0x30fc1d, 0x6b60a7, 0x652d66, 0x4ee313, 0x46178a], [0x7bd0f4, 0x5d4ecb, 0x458ac2, 0x370a5b, 0x45f7b0, 0x46cd90, 0x7969e2, 0x7a733e, 0x42a4f0, 0x118c36, 0x389ccc]⟩,
   ⟨[0xc27f78, 0x532f03, 0x7e9878, 0x9b0a2a, 0x34b652, 0x28506e, 0x6e5fc8, 0xefae69, 0x34d96, 0x6780f0, 0x2ca851], [0x4910f2, 0x144032, 0x441eeb, 0x7f4ccd, 0x18f7ca, 0x5c2f72, 0x7741e6, 0xdeb207, 0x60639, 0x517fdd, 0x4332fa]⟩,
   ⟨[0xd5681d, 0x664abf, 0x246fcc, 0x3a300a, 0x6f7a1d, 0x4926ca, 0x15b100, 0x1eb359, 0x4a94f0, 0x6716c, 0x107d89], [0x1231ec, 0x2b9fee, 0x406e9e, 0x8f6901, 0x3b5ede, 0x43cd20, 0x704693, 0x887628, 0x4fa46e, 0x58b580, 0x313aa5]⟩,
   ⟨[0x34cbfc, 0x70e13a, 0x1631db, 0xc5d9f6, 0x1d00d8, 0x1359b4, 0x3a435c, 0x31919e, 0x65e412, 0x3b76a2, 0xec08], [0x16f36e, 0x7a9bfe, 0x17cef7, 0x5b0d1b, 0x62cac, 0x5de55e, 0x7a8f81, 0x7661fa, 0x7adb68, 0x64a4d8, 0x392c5d]⟩,
   ⟨[0x74f552, 0x4a7096, 0xd3ec7, 0x1a8192, 0x3e550a, 0x6c7b5b, 0x454715, 0xf31192, 0x658b1, 0x611f71, 0x7fc5bb], [0x562488, 0xd96d1, 0x523ea9, 0x75587f, 0x1e1936, 0x7d2745, 0x12ec03, 0xba0fee, 0x2c5241, 0x1d4b8a, 0x2562ec]⟩,
   ⟨[0xc4f8b3, 0x7d2d04, 0x30b04e, 0x3424a6, 0x4124e9, 0x528c55, 0x349b79, 0x98b5c0, 0x25b021, 0x60681c, 0x387899], [0x90c1ff, 0x5232b8, 0x4f63c3, 0xe38a8e, 0x3e60ae, 0x1130c4, 0x4bf3a0, 0xe168a5, 0x61555, 0xc2b98, 0x5fa4e4]⟩],
  [⟨[0xe21ca1, 0xc87fb, 0x2dd3d7, 0x537514, 0x509919, 0x10447, 0x25e6a6, 0x6b441d, 0x5e97aa, 0x660203, 0x58fbfa], [0x6c47e6, 0x31b2bd, 0x7bba31, 0xb0ad4b, 0x787301, 0x2b01eb, 0x1e2e68, 0x5811ec, 0x6d2b81, 0x700e9c, 0x457d9]⟩,
   ⟨[0x5357e1, 0x57ac0e, 0xdb286, 0xeee3d1, 0x77ed80, 0xe6d08, 0xe2936, 0x4aba0f, 0x5f2976, 0x7cc785, 0x3ae110], [0x945699, 0x2637ee, 0x27992c, 0xbd9cd8, 0x70f927, 0x393e4, 0x6f8b67, 0x61aaec, 0x6328e7, 0x5b3fd0, 0x268f9a]⟩,
   ⟨[0xf7a85c, 0x3f3302, 0x26f852, 0x1c40e9, 0x1e2517, 0x5a3bf, 0x5700ce, 0x561812, 0x3c7e74, 0x66b1b5, 0x7b9c2], [0x124e6a, 0x7c15ba, 0x241638, 0x5a50ed, 0x2a5582, 0x74d879, 0x68f177, 0x66ca1d, 0x58d9cb, 0x6724e5, 0x246c5e]⟩,
   ⟨[0x4d0432, 0xb0784, 0x482f19, 0xea947d, 0x2c2664, 0xc8da3, 0x2f7290, 0x1b3bbf, 0x602c23, 0x2d7127, 0x76ebd4], [0x371d4d, 0x3a8832, 0xd8bb0, 0x67d63, 0x3498c7, 0x72bf20, 0x64f598, 0xb95ce3, 0x587a7d, 0x55ffcb, 0x51077a]⟩,
   ⟨[0x9c7745, 0x7f8e19, 0x83af5, 0xdb23a3, 0x747602, 0x5f6e8d, 0x678701, 0x974612, 0x56dfdd, 0x2fe8db, 0x306683], [0x89ffa4, 0x121679, 0x79120c, 0xbedc4, 0x29b7e4, 0x496c88, 0x760536, 0xc8db5d, 0x130589, 0x1de527, 0x4e350b]⟩,
   ⟨[0x47cc2d, 0x3f02af, 0x7a859e, 0xe23690, 0x649380, 0x58d4fe, 0x593197, 0x3c24f, 0x16f98f, 0x3046cd, 0x5ce122], [0x50d389, 0x7e53, 0x4b3fcc, 0xab3d0, 0x103bdd, 0x2f2450, 0x34780f, 0xc242e0, 0x269889, 0x3e5acb, 0x76919b]⟩,
   ⟨[0xbb75c, 0x40dd3f, 0x28965d, 0xd08696, 0x6f3945, 0x756f6b, 0x37271, 0x1c20dd, 0x37bed6, 0x80f61, 0x274cfc], [0x1c1cfe, 0x4d42dd, 0x3fa1f1, 0xcbe07f, 0x277815, 0x1262dc, 0x477dde, 0x48f59b, 0x65a5a3, 0x5fdc99, 0x64ff50]⟩,
   ⟨[0xd66c07, 0x74289b, 0x5e8814, 0xb92793, 0x57f706, 0x59075d, 0x508b5e, 0x9a2426, 0x7f10bb, 0xafd3f, 0x7801cb], [0x51b22e, 0x279999, 0x1782d, 0xdc4c85, 0x2439ce, 0x55aa49, 0x708e58, 0x3ea14, 0x463ed7, 0x717b6e, 0x34176a]⟩,
   ⟨[0x585b7c, 0x38ae8b, 0x6c127e, 0x3d794c, 0x1195f4, 0x5de000, 0x771a5, 0xc99cf0, 0x765dc, 0x2a789, 0x48fd2], [0x482fc7, 0x275057, 0x95b7b, 0x78b02b, 0xb1596, 0x73b9fe, 0x45d41c, 0x2919f9, 0x56f856, 0x1d4916, 0x7db0ce]⟩,
   ⟨[0x1d7fc7, 0x6bed2d, 0xb2844, 0x3f5459, 0x7ca010, 0x24d59f, 0x7f0e34, 0x3eb935, 0x6fdf55, 0x37c092, 0x4207cb], [0xe92e4a, 0x744046, 0x384bf8, 0x27733a, 0x71fb22, 0x53af65, 0x2794c6, 0xc79da2, 0x4a9c1b, 0x1a9309, 0x103ecf]⟩,
   ⟨[0xacd3f, 0xe6e24, 0x58b8ae, 0x3a4430, 0xa06b4, 0x2de854, 0x44e3e2, 0x867e3, 0x7ff01b, 0x244016, 0x12b1d], [0xb5f186, 0x752f4d, 0x358b6b, 0x3f9113, 0x1cee85, 0x229c2d, 0x4da05c, 0x85a9a9, 0xd46d9, 0x7e5eda, 0x269074]⟩,
   ⟨[0xa53fde, 0x58a7fa, 0x32b2f, 0xe52cc5, 0x4f77ce, 0x74a88b, 0x2f23cf, 0xf073cd, 0x591a19, 0x51a537, 0x7443be], [0x8576cc, 0x6f139c, 0x6b127f, 0xefc187, 0x244143, 0x38c6ec, 0x1fa2ac, 0x1bf011, 0x5d8ae1, 0x783bee, 0xb5335]⟩,
   ⟨[0x9cb9cb, 0x5cb329, 0x6729a8, 0x119f0e, 0x2e37b0, 0x289ad8, 0x29e70a, 0xd2872d, 0x39c662, 0x182d4, 0x5ede9], [0x9c3957, 0x5811a1, 0x2c3d0f, 0x134bf7, 0x484f36, 0x2ac30, 0x425f9b, 0x955a54, 0x7b6b36, 0x327b25, 0x7376db]⟩,
   ⟨[0xf420a8, 0x1348cb, 0x6949ea, 0x4c3b60, 0x6cecf6, 0xefc9, 0x740c4a, 0x271cf1, 0x1cc0d8, 0x17be4, 0x5c726], [0xf3f8a6, 0x727d92, 0x63161f, 0xc70ef9, 0x15855f, 0x7f8036, 0x3eda, 0x1a5c7b, 0x772841, 0x2a862b, 0x68f5ac]⟩,
   ⟨[0x372511, 0x437344, 0x3e7956, 0xc1f67, 0x3eb8b3, 0x557961, 0x22832b, 0xf188a2, 0x7e2427, 0x147cab, 0x45d0a9], [0x29cabf, 0x5c33df, 0x26d73, 0xaaf04c, 0x57db62, 0x25990b, 0x6db6ec, 0x3549e6, 0x1deeaf, 0x2254ac, 0x58bbd5]⟩,
   ⟨[0xb77a44, 0x3f2f46, 0x64da4, 0x839511, 0x58488b, 0xb772d, 0x7f4634, 0x8743ec, 0x50ba38, 0x3ce592, 0x62440c], [0x6c928c, 0xb1540, 0x339658, 0x5bec51, 0x5b1535, 0x7a2111, 0x2a0968, 0xef790d, 0x7468e6, 0x3b62, 0x2c8a13]⟩],
  [⟨[0x1aee99, 0x20a5a1, 0x32d7f4, 0x3df131, 0x1e1996, 0x5b7438, 0x5718ac, 0xe5d6f0, 0x67fe3a, 0x43bedc, 0x24bb69], [0xa31e2e, 0x47ee95, 0x464dfe, 0x42f2b4, 0x1fcd82, 0x2d6ab2, 0x4bdfc2, 0x844674, 0x3d4411, 0x432b86, 0x2532bf]⟩,
   ⟨[0x5f12f9, 0x62861d, 0x2efaab, 0xfa0463, 0x315d4d, 0x61e65a, 0x5db18d, 0x9390f, 0x59e60a, 0x65e1af, 0x624db7], [0x83e30f, 0x64cf13, 0x72556f, 0x3ca70c, 0x7d9c2b, 0x139172, 0x2113a1, 0xfc55db, 0x698ec, 0x1e14a5, 0x76c609]⟩,
   ⟨[0x95662a, 0x36ac63, 0x2500ea, 0x4622ab, 0x77d68e, 0x37f839, 0x7758f5, 0xd42942, 0x3db22a, 0x622a98, 0xdfa70], [0xec12bf, 0x27b94b, 0x50e295, 0xebca4d, 0x276449, 0x47fca4, 0x37ed85, 0x71515e, 0x66da3a, 0x39095e, 0x5b2b97]⟩,
   ⟨[0x11bc89, 0x7d50e8, 0x11bf1f, 0xa2a84a, 0x12d4fe, 0x8d675, 0x2c2672, 0x7645b3, 0x6d691, 0x374435, 0x35ad63], [0x3e773, 0x6aec1f, 0x5376e6, 0xd6a2f2, 0x1a136, 0x74ee78, 0x61bc5, 0xd92c45, 0x397cd0, 0x25c26e, 0x59374c]⟩,
   ⟨[0xa09501, 0x5c78c0, 0x5fde74, 0x106048, 0x7ea30e, 0x646924, 0x445b79, 0xed086, 0x64e0ac, 0x7d8cba, 0x4d380e], [0x8e2f04, 0x2e1444, 0x7faf4f, 0x780729, 0x3330f9, 0x589e5, 0x6f0a62, 0xb0b9c, 0x13ddd0, 0x78f6, 0x1cc544]⟩,
   ⟨[0x5823a8, 0x410483, 0x7e6356, 0x414323, 0x224e12, 0x5fcd9c, 0x737c09, 0x697ebd, 0x2148d0, 0x2b1d29, 0xc5045], [0x10c3fe, 0x16e066, 0x2938c4, 0x3adaea, 0x7415b5, 0x151775, 0x32acc0, 0x930bfe, 0x35e23e, 0x72ca6d, 0x4e4b15]⟩,
   ⟨[0xf00f70, 0xbabbd, 0x60773f, 0x7cdf42, 0x71bd8f, 0x4451ab, 0x715eb4, 0xe2e49e, 0x241448, 0xad80d, 0x1cd906], [0xbcbd12, 0x5d595e, 0x23ed7a, 0x71c310, 0x67765e, 0x657097, 0x722381, 0xde8456, 0x282f96, 0x144c0e, 0x177ca7]⟩,
   ⟨[0xf71055, 0x6456b1, 0x6700e1, 0x8b98f5, 0x52adcd, 0x5744f1, 0x7b204b, 0xa3506e, 0x63be42, 0x7e5ffd, 0x255c05], [0x88fa6c, 0x508bf3, 0x6f89d3, 0xe448c5, 0x339951, 0x3285f7, 0x50f779, 0xbb3742, 0x6c5145, 0xe4cc6, 0x725ef1]⟩,
   ⟨[0x46ae2b, 0x7d776d, 0x3bce35, 0xa61fce, 0xd70e8, 0x6292b6, 0x688218, 0xbe2745, 0x94e58, 0x9b42b, 0x68c161], [0x3c69e3, 0x2bb404, 0x192f8e, 0x6c3642, 0x17d4d5, 0x120d15, 0x150ec2, 0x894ed0, 0x708435, 0xf4581, 0x77e852]⟩,
   ⟨[0xe96c40, 0x3bae3, 0x39a069, 0xcf1197, 0x6c0440, 0x493531, 0x5cca20, 0x51f91, 0x447c85, 0x549a26, 0x21d2dd], [0x3e55c, 0x4c16ac, 0x5a14f7, 0x1edd65, 0x5e2de4, 0x655ddd, 0x244fd3, 0x15e737, 0x59980c, 0x764cca, 0x44b0fc]⟩,
   ⟨[0xf3bfb, 0x7f6c0e, 0x49e58a, 0xacf249, 0x257c58, 0x3a18f3, 0x16a0e2, 0x7f0b1a, 0x2626b9, 0x2adddb, 0x666faa], [0x951f40, 0x5ad6ed, 0x5a13dc, 0x2957f5, 0x3c908, 0x2ed9f8, 0x38a2ef, 0x66d359, 0x36bb80, 0x485d4e, 0x2385bc]⟩,
   ⟨[0x6992bf, 0x7fbdbc, 0x4f0c3a, 0xa97852, 0x3652c9, 0x566c64, 0x10ea10, 0x3dbbc8, 0x73c6fc, 0x16bb4f, 0x7d9107], [0x9a6f04, 0x1b25d, 0x69d11f, 0xf781a6, 0x17833c, 0x650ea3, 0x26de8e, 0xf206b1, 0x381f8f, 0x3e0885, 0x3ec7b2]⟩,
   ⟨[0x6cc730, 0x3fb03b, 0x3a12b4, 0x1e86b8, 0x4ddc8f, 0x13f1f5, 0x5aa6c4, 0x6d4113, 0x2b4497, 0x637931, 0x7e14da], [0x82428a, 0x781839, 0x6d3ee0, 0x556d45, 0x4cba3d, 0x1a817c, 0x79618, 0x9ad974, 0x39acc, 0x66941e, 0x17e43e]⟩,
   ⟨[0x1e17bf, 0x3a82e9, 0x715860, 0x66ad72, 0x704aa0, 0x610943, 0x6d6665, 0x98ea35, 0x6adbd9, 0x686ccc, 0x1d3ba6], [0x9ee4f6, 0x6d56d7, 0x3df3ff, 0x6d335a, 0x136056, 0x7862d7, 0x14dff, 0x69526c, 0x4239b5, 0x225d2b, 0x34f5f0]⟩,
   ⟨[0xcdeba0, 0x343287, 0x356e22, 0x620aeb, 0x79884f, 0x5ed81f, 0x266e56, 0xdfc04d, 0x251f00, 0xb1056, 0x3312ca], [0x93459d, 0x27551, 0x5c7ca5, 0x5793a0, 0x444b26, 0x2e17c0, 0x65465e, 0xde0cfb, 0x246a04, 0x58a1e7, 0x2e6ed]⟩,
   ⟨[0xd9bccb, 0x731cb2, 0x54e269, 0x298e40, 0x38bd8a, 0x1ef4e1, 0x536780, 0x8fc99c, 0x70fba5, 0x23fe5a, 0x3086a6], [0x5f65d4, 0x18b097, 0xd107, 0xa7f701, 0x6d932a, 0x645c66, 0x31d996, 0x21f472, 0x3e05e2, 0x566358, 0x20aa4b]⟩],
  [⟨[0x36494, 0x2c1376, 0x3827f0, 0x602697, 0x7fbae0, 0x23c27c, 0x77fd3b, 0xd682ce, 0x127c, 0x1800d0, 0x434faa], [0x97ce18, 0x6c7e53, 0x2407fe, 0xe59769, 0x49091c, 0x5990c5, 0xa8116, 0x6ef1da, 0x50be84, 0x409e8e, 0x32e15]⟩,
   ⟨[0x8ba0cb, 0x24c765, 0x25c9b4, 0xbeb81d, 0x5f5936, 0x398905, 0x19abff, 0xd2850e, 0x17e744, 0x6ed216, 0x5b3a87], [0xd9750, 0x5a6dcd, 0x23ac02, 0x193fd3, 0x311a37, 0x18b521, 0x41715f, 0xb7bee0, 0x4a2676, 0x9d393, 0x51fd17]⟩,
   ⟨[0xba8cd3, 0x1c0a4f, 0x7ff7a6, 0x61749e, 0x12f613, 0x1f7746, 0x18b9b4, 0x55f5a2, 0x39e0c6, 0x2c981c, 0x252009], [0x3b1f03, 0x24b0f4, 0x2d9c8d, 0x5b3bc2, 0x13d8d6, 0x1ae9c3, 0x365b85, 0x47917c, 0x3a827d, 0x6ac519, 0x42ef23]⟩,
   ⟨[0x58227a, 0xc7436, 0xa3ce3, 0xac1b52, 0x26b67, 0x2d123, 0x1ffb2e, 0xdf0227, 0x3158e6, 0x619fe2, 0x3bdf03], [0xb4a505, 0x38dd5f, 0x129dc1, 0x35123f, 0x18810b, 0x23eca8, 0xf60a9, 0x67e897, 0x2b00b6, 0x35e5a1, 0x50d661]⟩,
   ⟨[0x6d68fc, 0xb651d, 0x3e52a8, 0x5acd99, 0x216d3e, 0x4c0891, 0x621922, 0x58b412, 0x7f124c, 0x597e66, 0xfab72], [0xfaf9a7, 0x74624d, 0x5ae3a4, 0xa54bee, 0x4eb36, 0xdc858, 0x30603, 0xa8e0b4, 0x232fa4, 0x13d254, 0x20b631]⟩,
   ⟨[0x3e9997, 0x50a360, 0x4bad00, 0xab737c, 0x7e4ee9, 0x73acdf, 0x7c4d6e, 0xa39d1c, 0x42570d, 0x33830b, 0x8e1d4], [0x583d12, 0x5ea888, 0x26bed7, 0xc1b988, 0x39e362, 0x7b873e, 0x5c3583, 0xeb9ba2, 0x638b35, 0x148d21, 0x1b932b]⟩,
   ⟨[0x2b37c3, 0x2f929b, 0x2ccc0b, 0x24809e, 0x4ff9d5, 0x99837, 0x64a89f, 0xc0c429, 0x7035b1, 0x261985, 0x331ebf], [0x132a81, 0x604dfd, 0x3ef4a, 0xfecb3d, 0x8a863, 0x7ff6c4, 0x1f6df0, 0xbd475a, 0x4fc4e2, 0x61e60c, 0x3c7003]⟩,
   ⟨[0xd82392, 0x774cfb, 0x11493f, 0x7d13d1, 0x5a8e0, 0x36ad5d, 0x231bed, 0x6c009e, 0x599c2e, 0x2294d8, 0x77c42b], [0x44379a, 0x456f09, 0x385653, 0xefe8ac, 0x4c24e0, 0x37da15, 0x2b9f25, 0xe34d0c, 0x566c76, 0x30810a, 0x782a2f]⟩,
   ⟨[0x2ae6a8, 0x49620, 0x144b79, 0xedd792, 0x7d310c, 0x752d40, 0xce8a0, 0x440aab, 0x7a9135, 0x324da4, 0x22ca7], [0x1e7545, 0x5e29f4, 0x39d31b, 0x60119f, 0x521746, 0x334bcb, 0x6f2a29, 0xf2d35c, 0x622340, 0x4e3832, 0xb1869]⟩,
   ⟨[0x35f98e, 0x54dcdc, 0x537a8, 0xea6a6e, 0x247b34, 0x29bd4f, 0x61ae41, 0x9b51ac, 0x16a791, 0x55445e, 0x4f050e], [0xdc4cb, 0x1ae73a, 0x4bd8b2, 0xe459a8, 0x40af9c, 0x73f418, 0x4b87c6, 0x74aa9f, 0x2f4063, 0x7ac805, 0x16c70f]⟩,
   ⟨[0x62eab1, 0x54ebad, 0x1f2558, 0xf0079a, 0x7d23a9, 0x5bf1f5, 0x4e2647, 0xa0f501, 0x278fbd, 0x25f639, 0x441a71], [0xf8a724, 0x34dad4, 0x4c22c9, 0xb48ab8, 0x356cf, 0x596fde, 0x317cf9, 0x3f2657, 0x381653, 0x50040e, 0x55a4a1]⟩,
   ⟨[0xede34b, 0x56b7cd, 0x2ef4b0, 0xe81239, 0x533d1b, 0x62e46c, 0x5a9c1b, 0x56141c, 0x3e618f, 0x75fb2a, 0x1440ce], [0xced2b3, 0x63fd4a, 0x487e7b, 0x8bfd17, 0x612fe8, 0x18078e, 0x1a43e6, 0xca1fde, 0x4d5027, 0x686ba9, 0x5c5f64]⟩,
   ⟨[0x6b794b, 0x3e8078, 0x725dfb, 0x3e642, 0x3284d3, 0x6eefc1, 0x1a1987, 0x16e28c, 0x113f3c, 0x3e8399, 0x287a14], [0xbdaf78, 0x13f588, 0x3e90c4, 0xd74064, 0x42b810, 0x5f4a46, 0x543784, 0xdb74c5, 0x459cd7, 0x7531f3, 0x55b5a4]⟩,
   ⟨[0x1a34e7, 0x2aeec8, 0x323d42, 0xeabd9e, 0x718f6, 0x1bd5b, 0xc39bc, 0xb62821, 0x561e9a, 0x1fbabe, 0x311dcd], [0xbeeae4, 0x3e6854, 0x2ae46e, 0xe57dcb, 0x4f1d7e, 0x61fdf3, 0x262088, 0x6ba852, 0x4fbf3f, 0x19b907, 0x5993aa]⟩,
   ⟨[0x2f3f67, 0xa5a43, 0x6ced05, 0x42972a, 0x27b1d7, 0x2e72ae, 0x56b1cb, 0xc6c042, 0x1aa312, 0x23387a, 0x3c0940], [0xf0c8dc, 0xd1a71, 0x38280, 0x98ab5b, 0xaa672, 0x542d, 0x5924a7, 0x9c972a, 0x18581c, 0x446e5a, 0x2ef656]⟩,
   ⟨[0x5f254d, 0x2ca014, 0x274390, 0x5f1c09, 0x2a9a4c, 0x7503a3, 0x71f4b9, 0x667201, 0x24873c, 0x1fe8db, 0x265a01], [0x80223d, 0x339c4, 0x5b64c0, 0xa79eed, 0x59c957, 0x5e2d2e, 0x34ac78, 0x2bafee, 0x778f99, 0x4d908c, 0x1c71c6]⟩],
  [⟨[0x7525d6, 0x78dfd0, 0x1ac075, 0xf76fa4, 0x219f6a, 0x23f7cb, 0x236512, 0x8e5237, 0x768b95, 0x1f359e, 0x7bc8ce], [0x2b44fc, 0x6a2beb, 0x5919fe, 0x4d26d0, 0x12e603, 0x35f223, 0x45e5be, 0x7a242e, 0x52f654, 0x463cc4, 0x7d62c2]⟩,
   ⟨[0x725350, 0x55207f, 0x19b576, 0x77fb10, 0x3db655, 0x60fcda, 0x7593db, 0x1e1420, 0x148d4c, 0x257261, 0x12b622], [0x68cf96, 0x3f92ae, 0x548833, 0x1efe5d, 0x5e4445, 0x4c80ea, 0x24d667, 0x9cef0b, 0x7834de, 0x246306, 0x32bc94]⟩,
   ⟨[0xd15dfb, 0x5373de, 0x23474d, 0xb4f94c, 0x6de5ae, 0x2f13f2, 0x8c966, 0xd9c843, 0x6152d1, 0x3ab7f0, 0x542cfc], [0xecdc3f, 0x57d935, 0x3fd00c, 0x29a8c0, 0x15c42a, 0x24d14e, 0x3c9ca5, 0x8e67d4, 0x30ed8b, 0x77755c, 0x490705]⟩,
   ⟨[0xa0236c, 0x239926, 0x860d0, 0xc90cd5, 0x3f7701, 0x6a3b4e, 0x38fddb, 0x92e0e2, 0x64faa4, 0x54a42a, 0x664e83], [0xbae781, 0x11625d, 0x3ff2be, 0xb48675, 0x33d5a4, 0x46e677, 0x5c79ec, 0x3efc01, 0x687df, 0x3f98e6, 0x57654a]⟩,
   ⟨[0x7c9d05, 0x6e343c, 0x6ca1d5, 0x45cd0, 0x464424, 0x5d6bb6, 0x5d7662, 0x795a8b, 0x678f1, 0x42eaf9, 0x76f6db], [0xa709d2, 0xcf913, 0x392fd7, 0xc45b5f, 0x6d4bfe, 0x7f5bbb, 0x7c0a94, 0xc8f23e, 0x22b535, 0x2ab090, 0x2e9b77]⟩,
   ⟨[0x1791a0, 0x75d057, 0x7d4eea, 0x3876fe, 0x21cf5e, 0xe949e, 0x54dd38, 0xa4d9b8, 0x5c64bf, 0x12aa75, 0x427813], [0xa2f134, 0x57ee9e, 0x6685a2, 0xc39e70, 0x5c02ee, 0x28e089, 0x16d61b, 0x91565c, 0x7fe441, 0x441bc2, 0x4fb186]⟩,
   ⟨[0x9f9253, 0x44feb, 0x6a66a4, 0xe8981d, 0x51448b, 0x5ba13c, 0x5581cf, 0xe8dd5b, 0x78c1b6, 0x3ca471, 0x8e7a6], [0x5393e2, 0x4204d4, 0x211a2a, 0xb3d008, 0x1cfaf3, 0x68c84, 0x504638, 0xdc6fbe, 0x605f56, 0x7ce2a4, 0x17ac9d]⟩,
   ⟨[0xe75974, 0x72e0a3, 0x6950e5, 0x7c5a29, 0x512aa, 0x2a144f, 0x1214fa, 0xb04bde, 0xcc72a, 0x2dd6c9, 0x200feb], [0x7358ca, 0x39ce66, 0x3e83, 0xb9546a, 0x460d56, 0x1a5a98, 0x12e16f, 0xce362b, 0x6563ad, 0xc7cfb, 0x164a2]⟩,
   ⟨[0xa74c0c, 0x29f428, 0x37267e, 0xc65194, 0x43c78f, 0x69b993, 0x3aa947, 0x88bc88, 0xb40a1, 0x3e35d0, 0x1b4097], [0x286354, 0x75d2bc, 0x5d7f2f, 0xbd4f51, 0x6a5900, 0x308202, 0xe81d9, 0x453b04, 0x6b1e9a, 0x63911f, 0xfd0d6]⟩,
   ⟨[0x6efe04, 0x47d6e6, 0x20ea2, 0x43b88f, 0x6a837a, 0x11db56, 0x4c3742, 0x803c38, 0x1a9540, 0x1a1f6e, 0x2d2188], [0x9722f0, 0x79fad8, 0x6d15c3, 0x7c9007, 0x23e12a, 0x9e88f, 0x38d49a, 0xb87971, 0x54ea95, 0x3bed25, 0x3c9370]⟩,
   ⟨[0x730aad, 0x74b69e, 0x18a010, 0xacf869, 0x202d91, 0x618fe7, 0x3783b, 0x322502, 0x4702ac, 0x75b517, 0x36900b], [0x3fb20a, 0x437022, 0x3d242b, 0xfee4f4, 0x276d11, 0x40a87c, 0x61f26a, 0xf66a5b, 0x76128d, 0x2ad91a, 0x7d1259]⟩,
   ⟨[0x7628c3, 0x73e024, 0x23855f, 0x4b1fbd, 0x684558, 0x5cb959, 0x5ed77a, 0x8234d5, 0x1df835, 0x194398, 0x209ba1], [0x632779, 0x194050, 0x6e13f1, 0x8fa4bc, 0x464026, 0x13b9ed, 0x3dcb10, 0xbd9ee5, 0x757ca6, 0x7a0f71, 0xb4460]⟩,
   ⟨[0x12d2c5, 0x5f26f3, 0x3fda58, 0x9f0d33, 0x1a9fc7, 0x412b7c, 0x5bd541, 0x275539, 0x26899f, 0x62067d, 0x4abe07], [0x9290ff, 0x8f902, 0x5b3174, 0xbd00f1, 0x6f6cfa, 0x703b6c, 0x4b306d, 0x331ac1, 0x703e76, 0x4712ad, 0xc81f8]⟩,
   ⟨[0xfe693d, 0xf4508, 0x2fcf8, 0xe0954b, 0x40f5d, 0x5c00e7, 0x700b3a, 0x420cf9, 0x2b08a6, 0x160e5f, 0x1712ce], [0xa1dbed, 0x787a0a, 0xbcd4c, 0x62d939, 0x6b28ac, 0x164809, 0x7f6fe7, 0x5d1f67, 0x557447, 0x62c3e0, 0x476fd0]⟩,
   ⟨[0xb36fbf, 0x3d80aa, 0x214159, 0xe99663, 0x58cdaa, 0x14c3f2, 0x3d868e, 0x35b474, 0x1d1436, 0x48e40, 0x6aaf0d], [0xd0e8d0, 0x5bdf3c, 0x258cc0, 0x828f97, 0x12e7a5, 0x4baf68, 0x4e71c5, 0x2a2699, 0x6a772a, 0x17160a, 0x40bdb6]⟩,
   ⟨[0x2bcd28, 0x6ccc00, 0x4c1cf7, 0x1ba30a, 0x6097cd, 0x5d0b45, 0x2c9dcf, 0xc3cd03, 0x489b87, 0x7c9642, 0x5a0a68], [0xd7c516, 0x54fd9c, 0x1f2677, 0x4f48d5, 0xb6c13, 0x78d063, 0x5298ba, 0xb8780e, 0x220af4, 0x76896, 0x27744]⟩],
  [⟨[0x259121, 0x780b29, 0x39769, 0xeb5e49, 0x50b31, 0x92c3, 0x4a18d1, 0xbee193, 0x21482f, 0x18c2e7, 0x18f417], [0x3b3193, 0x535e04, 0x500d71, 0x36e3e0, 0x6ff0a5, 0x7ea7be, 0x407708, 0x630180, 0x7bf646, 0x576b67, 0x7ce956]⟩,
   ⟨[0x171587, 0x655cc1, 0x488679, 0xce4ca9, 0x41352, 0x7263f6, 0x10add3, 0x76cb5, 0x3eb667, 0x6c507d, 0x79534e], [0x1f5c5d, 0x303618, 0x7dbd5, 0xdb229, 0x7da0b0, 0x423931, 0x47cea2, 0x78d1cb, 0x147094, 0x7b2327, 0x417208]⟩,
   ⟨[0x9dfeff, 0x33c1ff, 0x3d13cc, 0x22efef, 0x7fe948, 0x5eefb8, 0x1ad2b7, 0xe96c81, 0x26bbfc, 0x2585ee, 0x745c59], [0x9dcd65, 0x21489a, 0x4480, 0x60657, 0x3701dd, 0x5d19b3, 0x75e1c0, 0x3892e0, 0x64f9de, 0x35dc27, 0x22c79f]⟩,
   ⟨[0x58c6f2, 0x752404, 0x6c8922, 0xe6c036, 0x4204ff, 0x2ed321, 0x3d0bb2, 0x6d9d7a, 0x6e5e62, 0x4f1c35, 0x7ef78d], [0x9190f7, 0x5fba14, 0x4879e5, 0xa6e235, 0x5dd8f6, 0x554643, 0x90e18, 0x611285, 0x1aea18, 0x72b543, 0x2593ac]⟩,
   ⟨[0x59c268, 0x12165b, 0x159ff5, 0x3f5872, 0x4905ed, 0x1bf4b6, 0x355284, 0xd00a03, 0x1b4a76, 0x31b3a5, 0x5dde8f], [0x61678d, 0xf2a71, 0x1fdd6e, 0x76a915, 0x582b74, 0xda16f, 0x345f20, 0x634760, 0x51ed40, 0x6a3d97, 0x190b8f]⟩,
   ⟨[0xeecab3, 0x2f2403, 0x636cba, 0xa54baf, 0x7d99ba, 0x7fb3d, 0x3c3eac, 0xef42b, 0x198349, 0x2e9959, 0xf2f86], [0xb9d5f6, 0x463217, 0x74fac, 0x1183b8, 0x2c896f, 0x55f891, 0x105639, 0x72df59, 0xd9b72, 0x7d9093, 0x4eaa60]⟩,
   ⟨[0x9f9703, 0x1b0826, 0x76fa46, 0x826948, 0x4d4814, 0x50b57c, 0x5c41cc, 0xa88628, 0x5d3bcd, 0x1c7176, 0x554d0a], [0xb63c62, 0x561a3e, 0x57e7d3, 0xf1d376, 0x2e45ac, 0x5d7f33, 0x698c00, 0xf7c938, 0x36eefa, 0x5c1fac, 0x5d1b2e]⟩,
   ⟨[0xf53650, 0x69380c, 0x12c364, 0x32e8a7, 0x515f1e, 0x1f9182, 0x68dee7, 0xccf589, 0x76ee01, 0x29df93, 0x787773], [0xb3ddf7, 0x53b71c, 0x6f8fd, 0xdff4ab, 0x6b924, 0x7e2a66, 0x4a7d4b, 0xaf1a4a, 0x57f48b, 0x44541b, 0x49ad77]⟩,
   ⟨[0x5f6754, 0x7b1268, 0xca1f5, 0x4de64, 0x4fd873, 0x3036c4, 0x41b763, 0xfce495, 0x200179, 0x5f6bda, 0x68ed61], [0xc95fce, 0x477fe, 0x580f29, 0xbb42ed, 0x750145, 0xdc207, 0x2bec56, 0xeb7195, 0x1693a1, 0x3eb07d, 0x135b86]⟩,
   ⟨[0x66889b, 0x17a14a, 0x2df300, 0x2bbab9, 0x15e56c, 0x2eb2ba, 0x1d111b, 0xba9054, 0x69e112, 0x7a15d8, 0x436dd2], [0xe27b51, 0x73dee8, 0x7a67dc, 0x55beaf, 0x4fde98, 0x1ccac5, 0x57571d, 0xb71dd1, 0x5ec9c2, 0x698b19, 0x572baf]⟩,
   ⟨[0xfe2f09, 0x4ccd1b, 0x5b6c69, 0xce2291, 0x36c67a, 0x1aa26f, 0x482976, 0x346c9, 0x71fa32, 0x6aaa17, 0x66681d], [0x6dedee, 0x5a67b7, 0x66e9d5, 0xf07923, 0x767a82, 0x60641f, 0x5c4851, 0x77dbeb, 0x6550c4, 0x5c811b, 0x204a6c]⟩,
   ⟨[0xf41270, 0x7228a8, 0x23fe22, 0x87e9e0, 0x1016e1, 0x2ea90d, 0x3bee12, 0x2da75, 0x486c8c, 0xffbe4, 0x161df5], [0x73031b, 0x68c340, 0x5c0685, 0x27f000, 0x28653f, 0x5d1d2f, 0x3f0628, 0x66005a, 0x5ad814, 0x1bcf2, 0x32cee0]⟩,
   ⟨[0xadb2e0, 0x483dbe, 0x626b68, 0x4fb784, 0x350f94, 0x357148, 0x7f0b6d, 0x29332b, 0x3ad1f4, 0x1f3681, 0x71d76b], [0x26baf9, 0x473d14, 0x21b2c, 0x941016, 0x4f652a, 0x7d3a99, 0x4abbad, 0x87a405, 0x547b1, 0x59e149, 0x541e49]⟩,
   ⟨[0x694346, 0x42316d, 0x758401, 0xd76375, 0x5ecfae, 0x680b14, 0x26ea25, 0x70619, 0x58d41c, 0x48db6a, 0x62542], [0x3de6a0, 0x3469e5, 0x302b64, 0xcd8bf2, 0x45419e, 0x1e9aaf, 0x3efc2c, 0xe12629, 0x60f16e, 0x48a125, 0x2969d8]⟩,
   ⟨[0xc271bd, 0x53be38, 0x373a9b, 0xab74e5, 0x676622, 0x5f7345, 0x7a6084, 0x95988c, 0x55bb90, 0x411396, 0xe67bf], [0xcf58ac, 0x60bb94, 0x46bfad, 0x3c68e3, 0x748102, 0x647558, 0x5b14f7, 0x494da5, 0x2ab3b3, 0x65ba0f, 0x5c011d]⟩,
   ⟨[0xd13fd0, 0x51781b, 0x28eaa9, 0x38e655, 0x624813, 0x476802, 0x73dd34, 0x19666a, 0x479419, 0x2d06c2, 0x52a1af], [0x3684d7, 0x3ee24a, 0x5496af, 0x4899ac, 0x5fc959, 0x7950d6, 0x180144, 0xdf7129, 0x14aff7, 0x7d7ba5, 0x7347ea]⟩],
  [⟨[0x978880, 0x5e66d, 0x3d5998, 0x8f2d63, 0x3e9896, 0x2dcc8d, 0x789105, 0x786fac, 0x6486c, 0x4debb7, 0x7c6948], [0x1922f1, 0x3d924d, 0x5e5fb, 0xcef8a3, 0x4ebf60, 0x39779, 0x1d5ad8, 0xaead3b, 0x3178d9, 0x11af88, 0x4858f6]⟩,
   ⟨[0x17ea11, 0x2925a4, 0x22ebc5, 0x8c6f13, 0x68235b, 0x7668e, 0x789c73, 0x63577f, 0x19c095, 0x54c609, 0x228b12], [0xb423b7, 0x7b3e73, 0x6f374, 0x32c99a, 0x33919b, 0x4480af, 0x7cf2dc, 0xdf4c55, 0x194f69, 0x2fa8a, 0x273c64]⟩,
   ⟨[0xb22d03, 0x4609d0, 0xe534b, 0xb53a66, 0x13a238, 0x35df0d, 0x2227e6, 0x925830, 0x4b0d8e, 0x45dd96, 0x489148], [0xa0967e, 0x2ae5bc, 0x796cfa, 0xcd72af, 0x5b6940, 0x12bba, 0x5fc6ef, 0xdcd6ca, 0xd4575, 0x3a665e, 0x4d067c]⟩,
   ⟨[0x1aecd9, 0x273f6f, 0x25f83b, 0xffd158, 0x133fe6, 0x1f91cb, 0x7c28c3, 0x2b2923, 0x28d2b0, 0x267588, 0x5bed5f], [0xee613b, 0x2d41ff, 0x611238, 0x37c033, 0xa5923, 0x40aa8e, 0x226f22, 0xacb580, 0x332b6f, 0x573dbd, 0x58d53]⟩,
   ⟨[0xb6527, 0x633b9b, 0x15ca8a, 0xcaf1f7, 0x14febc, 0x404b31, 0x5de86f, 0xe40657, 0x40ee16, 0x6745a5, 0x1cc28b], [0xd0a46d, 0x52fccc, 0x5b6fe6, 0x9f4694, 0x3ee682, 0x135f2d, 0x6b1f49, 0x903c8f, 0x66f07a, 0x67d510, 0x6fbaca]⟩,
   ⟨[0x996ed6, 0x5d39e4, 0x1a204f, 0x48c691, 0x4edca1, 0x326ea, 0x5897f6, 0x5dafaa, 0x7ce893, 0x1521a8, 0x720ec4], [0xb2d745, 0x44d634, 0x645385, 0xfcf90e, 0x5705ff, 0x194811, 0x465d27, 0xda9d7a, 0x183fee, 0x33d943, 0x3fd6a9]⟩,
   ⟨[0x667e0f, 0x755ad8, 0x555f7b, 0xc2071c, 0x3aa31c, 0x27748c, 0x65d71f, 0xb8551f, 0x5831c5, 0x7409, 0x19ae44], [0xc46447, 0x28055b, 0xaaebc, 0x811e2c, 0xa161d, 0x5417d2, 0x532d53, 0x195f30, 0x7add3b, 0x79dfd4, 0x4c7dea]⟩,
   ⟨[0xaa87c8, 0xaa2a3, 0x21bffe, 0x7eec07, 0x165806, 0x1d2b43, 0x7d76f2, 0xd7f740, 0x3cd969, 0x4efcfc, 0x4b057e], [0x812859, 0x262f51, 0x5521d1, 0xa51059, 0x374c25, 0x6ada14, 0x76b74a, 0x6f1b1a, 0x5eaf40, 0x24da86, 0x7f9103]⟩,
   ⟨[0x9a47a8, 0x24bd4e, 0x47520, 0x94eb12, 0x9c313, 0x2ca8a1, 0x2e7050, 0xd0760d, 0x7b653f, 0x135449, 0x79dbc7], [0x7d4bfd, 0x6cbd61, 0x1af365, 0x41a9e7, 0xea23b, 0x496e3, 0x7d8894, 0xd7926c, 0x48d1e6, 0x21ba7d, 0x76d264]⟩,
   ⟨[0x4d6735, 0x349533, 0x26b4b7, 0x938c63, 0x259d23, 0x327f58, 0x972e6, 0xdfcd69, 0x4a4323, 0x7fe26c, 0x1f308c], [0xb5ca15, 0x13066f, 0x554ed3, 0x92a76e, 0x767c40, 0x1bd5a, 0x7f0ec1, 0x4e5bcb, 0x33c8bc, 0x384042, 0x28daf3]⟩,
   ⟨[0xbb2865, 0x74d6a2, 0x7d552b, 0x5e0eaf, 0x7bd504, 0x79341f, 0x64542f, 0x445dd5, 0x289614, 0x9e5ff, 0x2f0d16], [0x118de4, 0x61dd1f, 0x4282ee, 0x5df2ac, 0x4951df, 0x7c84e0, 0x6f8826, 0x545f9d, 0x50cdee, 0x3414c7, 0x228e14]⟩,
   ⟨[0x21fb0d, 0x54d257, 0x71f975, 0xfb2766, 0x49536e, 0x6245e8, 0x90378, 0xa7124c, 0x7cd78c, 0x163c62, 0x1c1d00], [0x41a6d3, 0x7cea65, 0x384b4b, 0xc28e24, 0x73484a, 0x457bd5, 0x258e54, 0x868651, 0xb50a9, 0x71a4e3, 0x405353]⟩,
   ⟨[0x7327cf, 0x5d8779, 0x3387af, 0x892854, 0x6e7126, 0x4c6531, 0x2d3f16, 0xd279, 0x5a56f1, 0x126bc, 0x5f03f2], [0x24065f, 0x28a2bf, 0x690907, 0xe63938, 0x6a92a2, 0x12fa15, 0x2e3667, 0x301625, 0x68dff5, 0x7c18f7, 0x57c821]⟩,
   ⟨[0xf6fb17, 0x117a2c, 0x702920, 0xd8e8dc, 0x583cf5, 0x581272, 0x14fa49, 0xbb02a, 0xbfad2, 0xd7af5, 0x3c597e], [0xdc1695, 0x7bdd76, 0x6df467, 0x7f6b18, 0x14f2f0, 0x7c500f, 0x8d022, 0x1fbd4, 0x4da576, 0x414183, 0x86206]⟩,
   ⟨[0x71e1bb, 0xf9619, 0x26d84f, 0x9f1c46, 0x5b79c0, 0x7aeec3, 0x1874eb, 0x81978e, 0x293406, 0x1d4fc, 0x615b35], [0x182d40, 0x42a332, 0x17c797, 0xb3e39f, 0x429fc1, 0x75cdcc, 0x17a29b, 0xb485c4, 0x578e3, 0x267997, 0x22b736]⟩,
   ⟨[0x5b3f31, 0x208743, 0x5ce60c, 0xa70ddc, 0x739fa, 0x5a8096, 0x4765e, 0x60fd2, 0x317203, 0x78a3f6, 0x13a216], [0xf7310f, 0x6787a8, 0x4ca7f1, 0x58a285, 0x63a5f2, 0x2d9d33, 0xae58c, 0x21a049, 0x5e164e, 0x53abf4, 0x12dd24]⟩],
  [⟨[0xbac990, 0xdab38, 0x717bba, 0xac779d, 0x1dca52, 0x300c2e, 0x2a2255, 0x5a0e8e, 0x15ab31, 0x313d50, 0x3e1b41], [0x528772, 0x3d56ab, 0x717bb2, 0x87e006, 0x42af5a, 0x57ee11, 0x2ac11c, 0xb30a1d, 0x62af80, 0x24671, 0x138392]⟩,
   ⟨[0x55ef18, 0x290769, 0xc06cc, 0x640fb7, 0x32aa7d, 0x37ce38, 0x559db0, 0x9e8d04, 0x1be9a9, 0x43cd9a, 0x616e9e], [0xa62590, 0x44d2e5, 0x438f19, 0x7c024d, 0x387e23, 0x12f97d, 0x593049, 0xbbe9f5, 0x2eb4c3, 0x492c4b, 0xbd31c]⟩,
   ⟨[0x4436a6, 0x2f9836, 0x3a1719, 0x13e3d0, 0x1ce66, 0x75d201, 0x70741c, 0x3d4468, 0x6001b2, 0x621cb4, 0x4c9a82], [0x35d65d, 0x71bb2d, 0x27a173, 0xb478e4, 0x3f0595, 0x2a36c0, 0x3f12ec, 0xb45d13, 0x7f8b60, 0x36d006, 0x5f7eae]⟩,
   ⟨[0x57123b, 0x100af5, 0x6392ad, 0xb520a8, 0x2b4722, 0xbe83, 0x671127, 0xde2dd, 0x464f89, 0x4ede64, 0x281953], [0x6e6d3, 0x2aa368, 0x4082ca, 0x403695, 0x6e19d7, 0x3560d6, 0xfd064, 0xe717ef, 0xa17bf, 0xff54a, 0x18d167]⟩,
   ⟨[0xaf932f, 0x26788d, 0x1c3d62, 0x921966, 0x210e68, 0x4e43e2, 0x624fd4, 0x7dd4cb, 0x1a32dc, 0x3f5f83, 0x139108], [0xbe0a12, 0x560b9e, 0x2c4c1a, 0x7d3f45, 0x713917, 0x56ee5f, 0x506607, 0x6c8156, 0x2c0601, 0x45b886, 0x6d6abd]⟩,
   ⟨[0xbe997b, 0x40c819, 0x47f984, 0xc09966, 0x1ffe5, 0x4210a5, 0x75dc7f, 0xe1bfae, 0x41df17, 0xdfa6a, 0x55903d], [0xcf7c69, 0x7788bb, 0x6a117e, 0x3e1ac5, 0x4bbcc5, 0x6902aa, 0x76bacd, 0xec4da9, 0x3047aa, 0x7f78bd, 0x40cd6]⟩,
   ⟨[0xb34afc, 0x4f2803, 0x307b77, 0xf3b150, 0x71a656, 0x6d60f0, 0x320731, 0x606ecd, 0x66a1e7, 0x6d5efc, 0x6dca0e], [0x4b7a84, 0x2d8fca, 0x68eacd, 0xb3d326, 0x21f003, 0x1274f2, 0x411750, 0xd7d4e4, 0x261a79, 0x6d0235, 0x5bb44f]⟩,
   ⟨[0x8ce9aa, 0x56fff3, 0x7f6688, 0xa20e30, 0x1357d8, 0x3f97d1, 0x6c63ef, 0x5d64bb, 0x6175f3, 0x28fe8a, 0x26291], [0xa2f107, 0x6d1807, 0x4ad5aa, 0x63693b, 0x4ceadf, 0x439b15, 0x6bb209, 0x1e66a5, 0x502cc1, 0x30d183, 0x351d45]⟩,
   ⟨[0x460dba, 0xd5151, 0x5a7efa, 0xab4f71, 0x286506, 0x4ac749, 0x70181c, 0x2d47b1, 0x2c7634, 0x68c60e, 0x41e76e], [0xdbe186, 0x486815, 0x458f1b, 0x13062c, 0x35b25d, 0x67bfa5, 0x49bfff, 0xf9d3f, 0x72f711, 0x6e8339, 0x2ed76d]⟩,
   ⟨[0xdd873d, 0x68e0ae, 0x116017, 0x86b448, 0x586d70, 0x2dc600, 0x7dc061, 0x14aa5, 0x5e774, 0x64b836, 0x212a13], [0xd59ff3, 0x1f2261, 0x7eb978, 0x9ddaf1, 0x69d7f, 0x74317b, 0x8e97d, 0x15669, 0x7e18e6, 0x28f0f0, 0x24d9db]⟩,
   ⟨[0x89c78a, 0x47cae9, 0x647445, 0xe0ffd5, 0x50854e, 0x398c0b, 0x484454, 0xd147cc, 0x9414c, 0x49b209, 0x4216ee], [0x2c47b9, 0x23a77, 0x7769b8, 0xf0b4a1, 0x443dc, 0x7c6a84, 0x7f36d0, 0xd9584, 0x9d192, 0x5324d9, 0x8cde7]⟩,
   ⟨[0xebcf74, 0x450c29, 0x6ef4ce, 0xe76fba, 0x781f10, 0x435c4, 0x43da1e, 0x6bff5b, 0x26cdb4, 0x47ca9, 0x34672b], [0xfe244b, 0x3776f7, 0x200f9d, 0x55d105, 0x398428, 0x159c77, 0x4b172a, 0x3c3dc, 0xc6478, 0x360e42, 0x4ccfcc]⟩,
   ⟨[0xa6089e, 0x52c74f, 0x3028ce, 0xda6be7, 0x159b0d, 0x25f04, 0x7f3b51, 0xebc9a6, 0x410f2f, 0x1e2c8f, 0x44cd45], [0xfe529a, 0x5742fe, 0x6446cb, 0x4a884, 0x55474a, 0x3fe0ae, 0x6671d0, 0x497d2b, 0x55c10a, 0x48f2cc, 0x6c3d3d]⟩,
   ⟨[0xb5061a, 0x75965b, 0x4759af, 0x74ed86, 0x68eecf, 0x6a53ab, 0xb476c, 0xaa39ae, 0x242f10, 0x16e0fd, 0x310c8e], [0xfab3fe, 0x412ca0, 0x334ab3, 0x40e7a6, 0x6f4791, 0x24b661, 0x713f0, 0x35b195, 0x551a61, 0x4bc5dd, 0x1112b3]⟩,
   ⟨[0xeedfda, 0x43ef08, 0x7213cc, 0x55ff1f, 0xaf305, 0x52fa27, 0x277e8c, 0x875a0b, 0x2c9f3e, 0x58985, 0x68c97c], [0xf30fc3, 0x670e75, 0x6b3b6a, 0xaf87db, 0x5c464a, 0x24a624, 0x7558e2, 0x937730, 0x5f3e2c, 0x4cf5b9, 0x5ea094]⟩,
   ⟨[0xd3cc63, 0xe5711, 0x1dc16d, 0x4a13fd, 0x4fe8d5, 0x302514, 0x6f576b, 0x7ac1dd, 0x40c7ea, 0x2175bc, 0x7e7325], [0x2b1252, 0x3d7d6a, 0x1cf79f, 0x2d0a89, 0x81836, 0x521da, 0x71b27f, 0x9f8d74, 0x109461, 0x29855d, 0x47654d]⟩],
  [⟨[0x49f59d, 0x3d9378, 0x531a27, 0xd81b1d, 0x7a0818, 0x283f4b, 0x69aa59, 0xfbcf88, 0x194f29, 0x683fce, 0x555bae], [0x6d73ce, 0x50a230, 0x16ac25, 0x7fe177, 0x79a4a7, 0x240036, 0x78060e, 0xb4028c, 0x650d07, 0x74c9ed, 0x1bc10]⟩,
   ⟨[0xd581b9, 0xa2bb8, 0x1a6502, 0x48f62d, 0x259f0c, 0x594632, 0x3d1e9f, 0x1bbab7, 0x4ef7a0, 0x21eeb3, 0x23620c], [0x3a641c, 0x58b33a, 0x4729ce, 0x600724, 0x5e4c80, 0x6f5fc3, 0x1cb9c0, 0xd4c679, 0x67e0de, 0x7918c5, 0x446e3c]⟩,
   ⟨[0xfcf7b6, 0x2a4017, 0x770419, 0x9eba8c, 0xc0745, 0x56dac, 0x6be2ae, 0xd5418b, 0x59bcae, 0x5eb51a, 0xa7cff], [0x146cd4, 0x5f21a7, 0x732219, 0x708b02, 0x59ff76, 0x223de6, 0x68d0ea, 0x95440b, 0x4ac2be, 0x44cd99, 0x418b1f]⟩,
   ⟨[0x7826e7, 0x302147, 0x4239fe, 0x12f403, 0x66a878, 0xbb8b3, 0x657754, 0x956fd7, 0x2abb73, 0x4b585e, 0x1d0d54], [0xd8482a, 0x490f0d, 0x587e9a, 0x633fc6, 0x47a327, 0x2fe955, 0x2c1a30, 0x299544, 0x12a81a, 0x1b2908, 0x6a4721]⟩,
   ⟨[0x10e70c, 0x1f9118, 0x7a2e42, 0xad234c, 0x67a2b5, 0x45b66b, 0x775a55, 0xce1819, 0x36b0b3, 0x9bd41, 0x357cce], [0x17f79e, 0x31f0ef, 0x297396, 0x9b34c2, 0x3763ba, 0x7cd667, 0x27859a, 0x65b432, 0x4ffa96, 0x2d2331, 0x5046ae]⟩,
   ⟨[0x6316b9, 0x321283, 0x13534d, 0xa66c71, 0x41d154, 0x3bf498, 0x21f82f, 0x29db77, 0x4a36e0, 0x263ff9, 0x703088], [0xdc79c4, 0x37b8e9, 0x4453ed, 0xa2c845, 0x64d04e, 0x3404e0, 0x75e149, 0x8ff0ef, 0x3532a0, 0x4b7bf9, 0x51b403]⟩,
   ⟨[0xd0b765, 0x6d30b8, 0xea988, 0xc14682, 0x54ef11, 0x64f84d, 0x56c161, 0x8df7c5, 0x504962, 0x486862, 0x72a82d], [0x77fa35, 0x14bc95, 0x20003c, 0x4f613a, 0x56e698, 0x605ff1, 0x53bee6, 0x3d3088, 0x566658, 0x72c01c, 0x128dda]⟩,
   ⟨[0xb5b469, 0x265f62, 0x740d01, 0x2737ce, 0x16b851, 0xb913e, 0x365599, 0xced53e, 0x31be6, 0x7b5b7, 0x2826d2], [0x7ce72c, 0x35f7ae, 0x122292, 0xf0bcf2, 0x583d09, 0x865fb, 0x4255e4, 0xc0e15d, 0x14e9d6, 0x65a407, 0x113864]⟩,
   ⟨[0xd0fa32, 0x731256, 0x8677b, 0x58bd3, 0x11cf96, 0x1e2ef5, 0x725ab8, 0x5a8080, 0x6aeb60, 0x6fe8cf, 0x7f2f4f], [0xc3108a, 0x760ffa, 0x5f4e31, 0x71d122, 0x17dec0, 0x4bca9e, 0x140af5, 0xcb9ce3, 0x14bfc1, 0x64da23, 0xc63a5]⟩,
   ⟨[0x66efdb, 0x2864de, 0x7211ba, 0xd9eaa4, 0x593664, 0x37c3a8, 0x6de16a, 0xd849c3, 0x331ed5, 0x5c0ae8, 0x41d7e1], [0x8ce7e3, 0x4df2a8, 0x39c4b2, 0x1a054e, 0x651cf9, 0x1b953c, 0x3ff29c, 0x7bf5b4, 0x322902, 0x942ac, 0x152316]⟩,
   ⟨[0xdfbf1a, 0x5dd706, 0x665070, 0x4ea28b, 0x253e73, 0x5df0ec, 0x175c48, 0xd7a1a4, 0x793351, 0x29bf8, 0x434300], [0xcb3a82, 0x6de550, 0x41dc49, 0x82b72d, 0xdc7e4, 0x61bb06, 0x26a846, 0xcc5702, 0x5e2cdd, 0x7063ca, 0x3c8621]⟩,
   ⟨[0x181e78, 0x77b355, 0x418907, 0xd9a8f6, 0x72ded2, 0x4e3e02, 0x4e03ad, 0xf3b5a8, 0x50f28e, 0x6cf224, 0x24c9c3], [0x850a90, 0x623deb, 0x24f9a6, 0xd6dfa0, 0x48d930, 0x16fd61, 0x20f2bd, 0x6daca1, 0x3ae220, 0x446d52, 0x49678d]⟩,
   ⟨[0xf04b0c, 0x586e6c, 0x9da9e, 0xaca51e, 0x779415, 0x693107, 0x727567, 0xd0f4c5, 0x2c7c2d, 0x6a4dc6, 0x7be95f], [0x19999c, 0x7f0aef, 0x7c8778, 0x2d0089, 0x4cd9c4, 0x56522d, 0x396e96, 0x7abc11, 0x33e16f, 0x5e515a, 0x5e9dd0]⟩,
   ⟨[0x1f0474, 0x4d7c5a, 0x7b2a69, 0xc61380, 0x7415c0, 0x1c95a8, 0x338442, 0x5479b1, 0x59192b, 0x29e0cf, 0x6fa0a0], [0x4f6e5a, 0x7da4ec, 0x2e8e89, 0xabdc5b, 0x40143a, 0x766fba, 0x7a98d8, 0x63da1d, 0x6373be, 0x2952a0, 0x68b7fe]⟩,
   ⟨[0x3c913f, 0x2c389, 0x1bb9c3, 0x40d559, 0x543b6f, 0x5e27bb, 0x51477d, 0x18de74, 0x617eb9, 0x410dfe, 0x1e172f], [0x83ee97, 0x79c4b1, 0x70d016, 0x9399ba, 0x32c96a, 0x667a8e, 0x3d5f84, 0x608421, 0x6e6662, 0x8b758, 0x1d9639]⟩,
   ⟨[0xa6524d, 0x74cff4, 0x26d563, 0xa1f297, 0x3fa9de, 0x73ea40, 0xe3ce4, 0x492223, 0x638a0b, 0x47888b, 0x50a52b], [0x21a754, 0x6812d, 0x59dfac, 0xb33a1f, 0x7b6001, 0x45ba94, 0x187867, 0xd3b5c2, 0x7f2118, 0x91632, 0x1ce749]⟩],
  [⟨[0xc5b684, 0x3b82d3, 0x7bb04f, 0x6cd54f, 0x17cb99, 0x5c4905, 0x13115, 0x11fe8, 0x274533, 0x283f47, 0x2c4f1c], [0x251a27, 0x7b5c49, 0x3d9d4c, 0xe97fbf, 0x1f3dd9, 0x49fa49, 0x6c76a8, 0x9effdd, 0x70fd77, 0x197d68, 0x43d69e]⟩,
   ⟨[0xf54825, 0x4e704b, 0x5b81c6, 0xf6c679, 0x4a0326, 0x993ed, 0x223f94, 0x5cace3, 0x79c440, 0x1bf3ab, 0x4f0a3d], [0x94c40c, 0x4ac81f, 0x7ff007, 0xe4da23, 0x12c360, 0x679697, 0x91a3d, 0x6bb95a, 0x5ff46c, 0x3d9d5f, 0x6c42a5]⟩,
   ⟨[0x8c8ccf, 0x7fc2e6, 0x63d1f2, 0x73b8a7, 0x4cfd1d, 0xa0d59, 0x67d4c7, 0xf46f06, 0x44a4e, 0x7884e7, 0x11bd78], [0xe46006, 0x593d9c, 0x600552, 0x9be40c, 0x6f055f, 0x50000f, 0x7caef7, 0x487980, 0x18c50f, 0x2c8819, 0x1c9df4]⟩,
   ⟨[0x142486, 0x11204b, 0x546138, 0xa0f3fd, 0x7c7277, 0x62f53e, 0x405474, 0xe13911, 0x73ffc0, 0x3f1ce2, 0x4e8ec0], [0xcea3a2, 0x6acfea, 0x644863, 0x6c5ada, 0x59b648, 0x5ee6f5, 0x6b9451, 0xc22c63, 0x250d0a, 0x40c2e2, 0x633b20]⟩,
   ⟨[0xdf8d9, 0x6fde02, 0x7bc761, 0xdd1647, 0x3946f5, 0x4f8b89, 0x21bd28, 0xd13f8d, 0x26f183, 0x3caffb, 0x526839], [0x2d8549, 0x51c848, 0x65daab, 0xf4931b, 0x1db7b7, 0x6b5984, 0x2d8c2, 0x399e59, 0x348b00, 0x2c9bac, 0x561d0]⟩,
   ⟨[0x2e9251, 0x730381, 0x158d1c, 0xeaa590, 0x555783, 0x3a7a13, 0x7834c8, 0xacbd10, 0x6c9902, 0x23c1f1, 0x1b3699], [0x96ffd5, 0x7117ac, 0x24b6b, 0x8d0146, 0xe4dc9, 0x191916, 0xfc5a6, 0xfe7250, 0x198308, 0x1fac2, 0x24da1c]⟩,
   ⟨[0x8a2315, 0x7e110a, 0x5e7bf4, 0x7beaf8, 0x3605ed, 0x1f3af3, 0x7876e7, 0x46e4e3, 0x6ec7a7, 0x74a230, 0x7ef25d], [0xf6e54, 0x1ad49c, 0x52b335, 0xfe212a, 0x3a9cf2, 0x318045, 0x58f544, 0x65b525, 0x3d646b, 0x4da78a, 0x552661]⟩,
   ⟨[0x3f6e66, 0x7e10ba, 0x341d94, 0x4ab8a0, 0x4ed33d, 0x2e5c25, 0x109a3b, 0x1454fd, 0x7c8d6a, 0x7942ba, 0x2b4544], [0xbe14e9, 0x446f85, 0x75aa4c, 0xbefbb7, 0x354e79, 0x41906f, 0x40ac0f, 0xc8d73f, 0x1f31bc, 0x662285, 0x27e73b]⟩,
   ⟨[0x5b910e, 0x37df0, 0x6463a9, 0xe6b081, 0x2d0a9d, 0x2ed8be, 0x60e9ca, 0xdc8968, 0x17563e, 0x350d14, 0x6db2d5], [0x8e171c, 0xeb1aa, 0xe3aea, 0xdcd35e, 0x24d5b2, 0x78e926, 0x6e5a44, 0x9e3934, 0x43d3d7, 0xf2ece, 0x506fb6]⟩,
   ⟨[0xb8e76e, 0x3e9fbc, 0x6624fa, 0x338e5, 0x22cdaf, 0x1658aa, 0x4edff5, 0x5c5cc6, 0x74872e, 0x6ff1f, 0x3d71f4], [0xe59640, 0x6b6980, 0x52c2cc, 0xcb86fd, 0x212d1d, 0x4c97c7, 0x605c17, 0xaae9d8, 0x5073cd, 0x361947, 0xe77d9]⟩,
   ⟨[0x16387d, 0x49b942, 0x1b3fa6, 0xea0088, 0x418d2d, 0x3d0233, 0x11f489, 0x1facb0, 0x29cf4, 0x39194, 0x483410], [0xf9a7ec, 0x1832c2, 0x459839, 0x4d00cf, 0x3f4b21, 0x5fc44a, 0xca90a, 0x24985d, 0xd9596, 0x4a9a33, 0x7d3439]⟩,
   ⟨[0x44caba, 0x589fc6, 0x575df8, 0x8ac944, 0x47e0cd, 0x567f3, 0x6783a3, 0x81a081, 0x720557, 0x2cc917, 0x6bafd4], [0x2ef38, 0x89c79, 0x39c854, 0xa4bcbe, 0x969f1, 0x452e91, 0x645379, 0x546133, 0x1f829a, 0x6a9523, 0x6a5cf6]⟩,
   ⟨[0x41529b, 0x5cb920, 0x5e7a02, 0xc8a1a2, 0x1f9327, 0x4174c9, 0x7e2f98, 0x452989, 0x4cd5a3, 0x7fb826, 0x73bceb], [0x2f5cbc, 0x7cbcd0, 0x130359, 0xb09201, 0x18efd9, 0x202c9e, 0x6a4c0f, 0xdf08a6, 0xf65c7, 0x6e8ba1, 0x57c201]⟩,
   ⟨[0xf2d278, 0x7bca3e, 0x73a8, 0xab869f, 0x14fc27, 0x682826, 0x7b8f76, 0xe02fc4, 0x4ddad8, 0x51d300, 0x5d3332], [0xa06cf9, 0x490fec, 0x272aac, 0x9f4648, 0x71c8fb, 0x566093, 0x78852d, 0xe7db13, 0x4e79fe, 0x12f1f6, 0x56f872]⟩,
   ⟨[0xb0f1bd, 0x1b52b2, 0x7edae0, 0xb65682, 0x433c6a, 0x5bde7, 0x1ee949, 0x515f90, 0x20a67a, 0x4ebc14, 0x236f70], [0xfa1d8c, 0x6d40ab, 0x30dc7d, 0x56a7e9, 0x19e584, 0x92219, 0x5a6d72, 0xee7eae, 0x79a1e5, 0x6d6145, 0x55f0c]⟩,
   ⟨[0xc54cab, 0x14b3c9, 0x5b9541, 0xfa0f3c, 0x4cfcd2, 0x596010, 0x55bcc4, 0x1502ae, 0x70cb46, 0x3b6582, 0x729ad7], [0xae8a66, 0x22b51, 0x608650, 0xcc908a, 0x76c532, 0x41e1ea, 0x7f34bc, 0x289c8, 0x717892, 0x465f29, 0x3c38c2]⟩]]

/-- `lut_cmb[j][k]`. -/
def lut_cmb (j k : Nat) : AffW (List Nat) := (lut_data.getD j []).getD k ⟨[], []⟩

end Gost.Ecp_CryptoPro_A_32
