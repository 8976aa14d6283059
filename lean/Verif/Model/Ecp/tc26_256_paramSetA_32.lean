import Verif.Model.FiatField

/-!
# The functions, constants and table of `/repo/ecp_id_tc26_gost_3410_2012_256_paramSetA.c`

32 bit version of the file (`__SIZEOF_INT128__` is not defined).  Generated by `tools/mkfiat.py`, statement by statement;
see `Verif/Model/Fiat.lean` for the meaning.  All line numbers refer to this file.
-/

namespace Gost.Ecp_tc26_256_paramSetA_32

set_option maxRecDepth 100000

/-- `fiat_id_tc26_gost_3410_2012_256_paramSetA_carry_mul`, lines 4202-4592. -/
def carry_mul : CProg := ⟨[
  .set (.mul 64 (.c 0x269) (.mul 64 (.a 10) (.b 10))), .set (.mul 64 (.c 0x269) (.mul 64 (.a 10) (.b 9))),
  .set (.mul 64 (.c 0x269) (.mul 64 (.mul 64 (.a 10) (.b 8)) (.c 2))), .set (.mul 64 (.c 0x269) (.mul 64 (.a 10) (.b 7))),
  .set (.mul 64 (.c 0x269) (.mul 64 (.a 10) (.b 6))), .set (.mul 64 (.c 0x269) (.mul 64 (.a 10) (.b 5))),
  .set (.mul 64 (.c 0x269) (.mul 64 (.mul 64 (.a 10) (.b 4)) (.c 2))), .set (.mul 64 (.c 0x269) (.mul 64 (.a 10) (.b 3))),
  .set (.mul 64 (.c 0x269) (.mul 64 (.a 10) (.b 2))), .set (.mul 64 (.c 0x269) (.mul 64 (.mul 64 (.a 10) (.b 1)) (.c 2))),
  .set (.mul 64 (.c 0x269) (.mul 64 (.a 9) (.b 10))), .set (.mul 64 (.c 0x269) (.mul 64 (.mul 64 (.a 9) (.b 9)) (.c 2))),
  .set (.mul 64 (.c 0x269) (.mul 64 (.mul 64 (.a 9) (.b 8)) (.c 2))), .set (.mul 64 (.c 0x269) (.mul 64 (.a 9) (.b 7))),
  .set (.mul 64 (.c 0x269) (.mul 64 (.a 9) (.b 6))), .set (.mul 64 (.c 0x269) (.mul 64 (.mul 64 (.a 9) (.b 5)) (.c 2))),
  .set (.mul 64 (.c 0x269) (.mul 64 (.mul 64 (.a 9) (.b 4)) (.c 2))), .set (.mul 64 (.c 0x269) (.mul 64 (.a 9) (.b 3))),
  .set (.mul 64 (.c 0x269) (.mul 64 (.mul 64 (.a 9) (.b 2)) (.c 2))), .set (.mul 64 (.c 0x269) (.mul 64 (.mul 64 (.a 8) (.b 10)) (.c 2))),
  .set (.mul 64 (.c 0x269) (.mul 64 (.mul 64 (.a 8) (.b 9)) (.c 2))), .set (.mul 64 (.c 0x269) (.mul 64 (.mul 64 (.a 8) (.b 8)) (.c 2))),
  .set (.mul 64 (.c 0x269) (.mul 64 (.a 8) (.b 7))), .set (.mul 64 (.c 0x269) (.mul 64 (.mul 64 (.a 8) (.b 6)) (.c 2))),
  .set (.mul 64 (.c 0x269) (.mul 64 (.mul 64 (.a 8) (.b 5)) (.c 2))), .set (.mul 64 (.c 0x269) (.mul 64 (.mul 64 (.a 8) (.b 4)) (.c 2))),
  .set (.mul 64 (.c 0x269) (.mul 64 (.mul 64 (.a 8) (.b 3)) (.c 2))), .set (.mul 64 (.c 0x269) (.mul 64 (.a 7) (.b 10))),
  .set (.mul 64 (.c 0x269) (.mul 64 (.a 7) (.b 9))), .set (.mul 64 (.c 0x269) (.mul 64 (.a 7) (.b 8))),
  .set (.mul 64 (.c 0x269) (.mul 64 (.a 7) (.b 7))), .set (.mul 64 (.c 0x269) (.mul 64 (.a 7) (.b 6))),
  .set (.mul 64 (.c 0x269) (.mul 64 (.a 7) (.b 5))), .set (.mul 64 (.c 0x269) (.mul 64 (.mul 64 (.a 7) (.b 4)) (.c 2))),
  .set (.mul 64 (.c 0x269) (.mul 64 (.a 6) (.b 10))), .set (.mul 64 (.c 0x269) (.mul 64 (.a 6) (.b 9))),
  .set (.mul 64 (.c 0x269) (.mul 64 (.mul 64 (.a 6) (.b 8)) (.c 2))), .set (.mul 64 (.c 0x269) (.mul 64 (.a 6) (.b 7))),
  .set (.mul 64 (.c 0x269) (.mul 64 (.a 6) (.b 6))), .set (.mul 64 (.c 0x269) (.mul 64 (.mul 64 (.a 6) (.b 5)) (.c 2))),
  .set (.mul 64 (.c 0x269) (.mul 64 (.a 5) (.b 10))), .set (.mul 64 (.c 0x269) (.mul 64 (.mul 64 (.a 5) (.b 9)) (.c 2))),
  .set (.mul 64 (.c 0x269) (.mul 64 (.mul 64 (.a 5) (.b 8)) (.c 2))), .set (.mul 64 (.c 0x269) (.mul 64 (.a 5) (.b 7))),
  .set (.mul 64 (.c 0x269) (.mul 64 (.mul 64 (.a 5) (.b 6)) (.c 2))), .set (.mul 64 (.c 0x269) (.mul 64 (.mul 64 (.a 4) (.b 10)) (.c 2))),
  .set (.mul 64 (.c 0x269) (.mul 64 (.mul 64 (.a 4) (.b 9)) (.c 2))), .set (.mul 64 (.c 0x269) (.mul 64 (.mul 64 (.a 4) (.b 8)) (.c 2))),
  .set (.mul 64 (.c 0x269) (.mul 64 (.mul 64 (.a 4) (.b 7)) (.c 2))), .set (.mul 64 (.c 0x269) (.mul 64 (.a 3) (.b 10))),
  .set (.mul 64 (.c 0x269) (.mul 64 (.a 3) (.b 9))), .set (.mul 64 (.c 0x269) (.mul 64 (.mul 64 (.a 3) (.b 8)) (.c 2))),
  .set (.mul 64 (.c 0x269) (.mul 64 (.a 2) (.b 10))), .set (.mul 64 (.c 0x269) (.mul 64 (.mul 64 (.a 2) (.b 9)) (.c 2))),
  .set (.mul 64 (.c 0x269) (.mul 64 (.mul 64 (.a 1) (.b 10)) (.c 2))), .set (.mul 64 (.a 10) (.b 0)),
  .set (.mul 64 (.a 9) (.mul 32 (.b 1) (.c 2))), .set (.mul 64 (.a 9) (.b 0)), .set (.mul 64 (.a 8) (.mul 32 (.b 2) (.c 2))),
  .set (.mul 64 (.a 8) (.mul 32 (.b 1) (.c 2))), .set (.mul 64 (.a 8) (.b 0)), .set (.mul 64 (.a 7) (.b 3)), .set (.mul 64 (.a 7) (.b 2)),
  .set (.mul 64 (.a 7) (.b 1)), .set (.mul 64 (.a 7) (.b 0)), .set (.mul 64 (.a 6) (.mul 32 (.b 4) (.c 2))), .set (.mul 64 (.a 6) (.b 3)),
  .set (.mul 64 (.a 6) (.b 2)), .set (.mul 64 (.a 6) (.mul 32 (.b 1) (.c 2))), .set (.mul 64 (.a 6) (.b 0)),
  .set (.mul 64 (.a 5) (.mul 32 (.b 5) (.c 2))), .set (.mul 64 (.a 5) (.mul 32 (.b 4) (.c 2))), .set (.mul 64 (.a 5) (.b 3)),
  .set (.mul 64 (.a 5) (.mul 32 (.b 2) (.c 2))), .set (.mul 64 (.a 5) (.mul 32 (.b 1) (.c 2))), .set (.mul 64 (.a 5) (.b 0)),
  .set (.mul 64 (.a 4) (.mul 32 (.b 6) (.c 2))), .set (.mul 64 (.a 4) (.mul 32 (.b 5) (.c 2))),
  .set (.mul 64 (.a 4) (.mul 32 (.b 4) (.c 2))), .set (.mul 64 (.a 4) (.mul 32 (.b 3) (.c 2))),
  .set (.mul 64 (.a 4) (.mul 32 (.b 2) (.c 2))), .set (.mul 64 (.a 4) (.mul 32 (.b 1) (.c 2))), .set (.mul 64 (.a 4) (.b 0)),
  .set (.mul 64 (.a 3) (.b 7)), .set (.mul 64 (.a 3) (.b 6)), .set (.mul 64 (.a 3) (.b 5)), .set (.mul 64 (.a 3) (.mul 32 (.b 4) (.c 2))),
  .set (.mul 64 (.a 3) (.b 3)), .set (.mul 64 (.a 3) (.b 2)), .set (.mul 64 (.a 3) (.b 1)), .set (.mul 64 (.a 3) (.b 0)),
  .set (.mul 64 (.a 2) (.mul 32 (.b 8) (.c 2))), .set (.mul 64 (.a 2) (.b 7)), .set (.mul 64 (.a 2) (.b 6)),
  .set (.mul 64 (.a 2) (.mul 32 (.b 5) (.c 2))), .set (.mul 64 (.a 2) (.mul 32 (.b 4) (.c 2))), .set (.mul 64 (.a 2) (.b 3)),
  .set (.mul 64 (.a 2) (.b 2)), .set (.mul 64 (.a 2) (.mul 32 (.b 1) (.c 2))), .set (.mul 64 (.a 2) (.b 0)),
  .set (.mul 64 (.a 1) (.mul 32 (.b 9) (.c 2))), .set (.mul 64 (.a 1) (.mul 32 (.b 8) (.c 2))), .set (.mul 64 (.a 1) (.b 7)),
  .set (.mul 64 (.a 1) (.mul 32 (.b 6) (.c 2))), .set (.mul 64 (.a 1) (.mul 32 (.b 5) (.c 2))),
  .set (.mul 64 (.a 1) (.mul 32 (.b 4) (.c 2))), .set (.mul 64 (.a 1) (.b 3)), .set (.mul 64 (.a 1) (.mul 32 (.b 2) (.c 2))),
  .set (.mul 64 (.a 1) (.mul 32 (.b 1) (.c 2))), .set (.mul 64 (.a 1) (.b 0)), .set (.mul 64 (.a 0) (.b 10)), .set (.mul 64 (.a 0) (.b 9)),
  .set (.mul 64 (.a 0) (.b 8)), .set (.mul 64 (.a 0) (.b 7)), .set (.mul 64 (.a 0) (.b 6)), .set (.mul 64 (.a 0) (.b 5)),
  .set (.mul 64 (.a 0) (.b 4)), .set (.mul 64 (.a 0) (.b 3)), .set (.mul 64 (.a 0) (.b 2)), .set (.mul 64 (.a 0) (.b 1)),
  .set (.mul 64 (.a 0) (.b 0)),
  .set (.add 64 (.x 121) (.add 64 (.x 55) (.add 64 (.x 54) (.add 64 (.x 52) (.add 64 (.x 49) (.add 64 (.x 45) (.add 64 (.x 40) (.add 64 (.x 34) (.add 64 (.x 27) (.add 64 (.x 19) (.x 10))))))))))),
  .set (.shr (.x 122) 24), .set (.cast 32 (.and (.x 122) (.c 0xffffff))),
  .set (.add 64 (.x 111) (.add 64 (.x 101) (.add 64 (.x 92) (.add 64 (.x 84) (.add 64 (.x 77) (.add 64 (.x 71) (.add 64 (.x 66) (.add 64 (.x 62) (.add 64 (.x 59) (.add 64 (.x 57) (.x 56))))))))))),
  .set (.add 64 (.x 112) (.add 64 (.x 102) (.add 64 (.x 93) (.add 64 (.x 85) (.add 64 (.x 78) (.add 64 (.x 72) (.add 64 (.x 67) (.add 64 (.x 63) (.add 64 (.x 60) (.add 64 (.x 58) (.x 1))))))))))),
  .set (.add 64 (.x 113) (.add 64 (.x 103) (.add 64 (.x 94) (.add 64 (.x 86) (.add 64 (.x 79) (.add 64 (.x 73) (.add 64 (.x 68) (.add 64 (.x 64) (.add 64 (.x 61) (.add 64 (.x 11) (.x 2))))))))))),
  .set (.add 64 (.x 114) (.add 64 (.x 104) (.add 64 (.x 95) (.add 64 (.x 87) (.add 64 (.x 80) (.add 64 (.x 74) (.add 64 (.x 69) (.add 64 (.x 65) (.add 64 (.x 20) (.add 64 (.x 12) (.x 3))))))))))),
  .set (.add 64 (.x 115) (.add 64 (.x 105) (.add 64 (.x 96) (.add 64 (.x 88) (.add 64 (.x 81) (.add 64 (.x 75) (.add 64 (.x 70) (.add 64 (.x 28) (.add 64 (.x 21) (.add 64 (.x 13) (.x 4))))))))))),
  .set (.add 64 (.x 116) (.add 64 (.x 106) (.add 64 (.x 97) (.add 64 (.x 89) (.add 64 (.x 82) (.add 64 (.x 76) (.add 64 (.x 35) (.add 64 (.x 29) (.add 64 (.x 22) (.add 64 (.x 14) (.x 5))))))))))),
  .set (.add 64 (.x 117) (.add 64 (.x 107) (.add 64 (.x 98) (.add 64 (.x 90) (.add 64 (.x 83) (.add 64 (.x 41) (.add 64 (.x 36) (.add 64 (.x 30) (.add 64 (.x 23) (.add 64 (.x 15) (.x 6))))))))))),
  .set (.add 64 (.x 118) (.add 64 (.x 108) (.add 64 (.x 99) (.add 64 (.x 91) (.add 64 (.x 46) (.add 64 (.x 42) (.add 64 (.x 37) (.add 64 (.x 31) (.add 64 (.x 24) (.add 64 (.x 16) (.x 7))))))))))),
  .set (.add 64 (.x 119) (.add 64 (.x 109) (.add 64 (.x 100) (.add 64 (.x 50) (.add 64 (.x 47) (.add 64 (.x 43) (.add 64 (.x 38) (.add 64 (.x 32) (.add 64 (.x 25) (.add 64 (.x 17) (.x 8))))))))))),
  .set (.add 64 (.x 120) (.add 64 (.x 110) (.add 64 (.x 53) (.add 64 (.x 51) (.add 64 (.x 48) (.add 64 (.x 44) (.add 64 (.x 39) (.add 64 (.x 33) (.add 64 (.x 26) (.add 64 (.x 18) (.x 9))))))))))),
  .set (.add 64 (.x 123) (.x 134)), .set (.shr (.x 135) 23), .set (.cast 32 (.and (.x 135) (.c 0x7fffff))),
  .set (.add 64 (.x 136) (.x 133)), .set (.shr (.x 138) 23), .set (.cast 32 (.and (.x 138) (.c 0x7fffff))),
  .set (.add 64 (.x 139) (.x 132)), .set (.shr (.x 141) 24), .set (.cast 32 (.and (.x 141) (.c 0xffffff))),
  .set (.add 64 (.x 142) (.x 131)), .set (.shr (.x 144) 23), .set (.cast 32 (.and (.x 144) (.c 0x7fffff))),
  .set (.add 64 (.x 145) (.x 130)), .set (.shr (.x 147) 23), .set (.cast 32 (.and (.x 147) (.c 0x7fffff))),
  .set (.add 64 (.x 148) (.x 129)), .set (.shr (.x 150) 23), .set (.cast 32 (.and (.x 150) (.c 0x7fffff))),
  .set (.add 64 (.x 151) (.x 128)), .set (.shr (.x 153) 24), .set (.cast 32 (.and (.x 153) (.c 0xffffff))),
  .set (.add 64 (.x 154) (.x 127)), .set (.shr (.x 156) 23), .set (.cast 32 (.and (.x 156) (.c 0x7fffff))),
  .set (.add 64 (.x 157) (.x 126)), .set (.shr (.x 159) 23), .set (.cast 32 (.and (.x 159) (.c 0x7fffff))),
  .set (.add 64 (.x 160) (.x 125)), .set (.cast 32 (.shr (.x 162) 23)), .set (.cast 32 (.and (.x 162) (.c 0x7fffff))),
  .set (.mul 64 (.c 0x269) (.x 163)), .set (.add 64 (.x 124) (.x 165)), .set (.cast 32 (.shr (.x 166) 24)),
  .set (.cast 32 (.and (.x 166) (.c 0xffffff))), .set (.add 32 (.x 167) (.x 137)), .set (.cast 8 (.shr (.x 169) 23)),
  .set (.and (.x 169) (.c 0x7fffff)), .set (.add 32 (.x 170) (.x 140))], [168, 171, 172, 143, 146, 149, 152, 155, 158, 161, 164]⟩

/-- `fiat_id_tc26_gost_3410_2012_256_paramSetA_carry_square`, lines 4604-4891. -/
def carry_square : CProg := ⟨[
  .set (.mul 64 (.a 10) (.c 0x269)), .set (.mul 64 (.x 1) (.c 2)), .set (.mul 32 (.a 10) (.c 2)), .set (.mul 64 (.a 9) (.c 0x269)),
  .set (.mul 64 (.x 4) (.c 2)), .set (.mul 32 (.a 9) (.c 2)), .set (.mul 64 (.a 8) (.c 0x269)), .set (.mul 64 (.x 7) (.c 2)),
  .set (.mul 32 (.a 8) (.c 2)), .set (.mul 64 (.a 7) (.c 0x269)), .set (.mul 64 (.x 10) (.c 2)), .set (.mul 32 (.a 7) (.c 2)),
  .set (.mul 64 (.a 6) (.c 0x269)), .set (.mul 64 (.x 13) (.c 2)), .set (.mul 32 (.a 6) (.c 2)), .set (.mul 32 (.a 5) (.c 2)),
  .set (.mul 32 (.a 4) (.c 2)), .set (.mul 32 (.a 3) (.c 2)), .set (.mul 32 (.a 2) (.c 2)), .set (.mul 32 (.a 1) (.c 2)),
  .set (.mul 64 (.a 10) (.x 1)), .set (.mul 64 (.a 9) (.x 2)), .set (.mul 64 (.a 9) (.mul 64 (.x 4) (.c 2))),
  .set (.mul 64 (.a 8) (.mul 64 (.x 2) (.c 2))), .set (.mul 64 (.a 8) (.mul 64 (.x 5) (.c 2))),
  .set (.mul 64 (.a 8) (.mul 64 (.x 7) (.c 2))), .set (.mul 64 (.a 7) (.x 2)), .set (.mul 64 (.a 7) (.x 5)), .set (.mul 64 (.a 7) (.x 8)),
  .set (.mul 64 (.a 7) (.x 10)), .set (.mul 64 (.a 6) (.x 2)), .set (.mul 64 (.a 6) (.x 5)), .set (.mul 64 (.a 6) (.mul 64 (.x 8) (.c 2))),
  .set (.mul 64 (.a 6) (.x 11)), .set (.mul 64 (.a 6) (.x 13)), .set (.mul 64 (.a 5) (.x 2)), .set (.mul 64 (.a 5) (.mul 64 (.x 5) (.c 2))),
  .set (.mul 64 (.a 5) (.mul 64 (.x 8) (.c 2))), .set (.mul 64 (.a 5) (.x 11)), .set (.mul 64 (.a 5) (.mul 64 (.x 14) (.c 2))),
  .set (.mul 64 (.a 5) (.mul 32 (.a 5) (.c 2))), .set (.mul 64 (.a 4) (.mul 64 (.x 2) (.c 2))),
  .set (.mul 64 (.a 4) (.mul 64 (.x 5) (.c 2))), .set (.mul 64 (.a 4) (.mul 64 (.x 8) (.c 2))),
  .set (.mul 64 (.a 4) (.mul 64 (.x 11) (.c 2))), .set (.mul 64 (.a 4) (.mul 32 (.x 15) (.c 2))),
  .set (.mul 64 (.a 4) (.mul 32 (.x 16) (.c 2))), .set (.mul 64 (.a 4) (.mul 32 (.a 4) (.c 2))), .set (.mul 64 (.a 3) (.x 2)),
  .set (.mul 64 (.a 3) (.x 5)), .set (.mul 64 (.a 3) (.mul 64 (.x 8) (.c 2))), .set (.mul 64 (.a 3) (.x 12)), .set (.mul 64 (.a 3) (.x 15)),
  .set (.mul 64 (.a 3) (.x 16)), .set (.mul 64 (.a 3) (.mul 32 (.x 17) (.c 2))), .set (.mul 64 (.a 3) (.a 3)), .set (.mul 64 (.a 2) (.x 2)),
  .set (.mul 64 (.a 2) (.mul 64 (.x 5) (.c 2))), .set (.mul 64 (.a 2) (.mul 32 (.x 9) (.c 2))), .set (.mul 64 (.a 2) (.x 12)),
  .set (.mul 64 (.a 2) (.x 15)), .set (.mul 64 (.a 2) (.mul 32 (.x 16) (.c 2))), .set (.mul 64 (.a 2) (.mul 32 (.x 17) (.c 2))),
  .set (.mul 64 (.a 2) (.x 18)), .set (.mul 64 (.a 2) (.a 2)), .set (.mul 64 (.a 1) (.mul 64 (.x 2) (.c 2))),
  .set (.mul 64 (.a 1) (.mul 32 (.x 6) (.c 2))), .set (.mul 64 (.a 1) (.mul 32 (.x 9) (.c 2))), .set (.mul 64 (.a 1) (.x 12)),
  .set (.mul 64 (.a 1) (.mul 32 (.x 15) (.c 2))), .set (.mul 64 (.a 1) (.mul 32 (.x 16) (.c 2))),
  .set (.mul 64 (.a 1) (.mul 32 (.x 17) (.c 2))), .set (.mul 64 (.a 1) (.x 18)), .set (.mul 64 (.a 1) (.mul 32 (.x 19) (.c 2))),
  .set (.mul 64 (.a 1) (.mul 32 (.a 1) (.c 2))), .set (.mul 64 (.a 0) (.x 3)), .set (.mul 64 (.a 0) (.x 6)), .set (.mul 64 (.a 0) (.x 9)),
  .set (.mul 64 (.a 0) (.x 12)), .set (.mul 64 (.a 0) (.x 15)), .set (.mul 64 (.a 0) (.x 16)), .set (.mul 64 (.a 0) (.x 17)),
  .set (.mul 64 (.a 0) (.x 18)), .set (.mul 64 (.a 0) (.x 19)), .set (.mul 64 (.a 0) (.x 20)), .set (.mul 64 (.a 0) (.a 0)),
  .set (.add 64 (.x 86) (.add 64 (.x 66) (.add 64 (.x 58) (.add 64 (.x 51) (.add 64 (.x 45) (.x 40)))))), .set (.shr (.x 87) 24),
  .set (.cast 32 (.and (.x 87) (.c 0xffffff))),
  .set (.add 64 (.x 76) (.add 64 (.x 67) (.add 64 (.x 59) (.add 64 (.x 52) (.add 64 (.x 46) (.x 41)))))),
  .set (.add 64 (.x 77) (.add 64 (.x 68) (.add 64 (.x 60) (.add 64 (.x 53) (.add 64 (.x 47) (.x 21)))))),
  .set (.add 64 (.x 78) (.add 64 (.x 69) (.add 64 (.x 61) (.add 64 (.x 54) (.add 64 (.x 48) (.x 22)))))),
  .set (.add 64 (.x 79) (.add 64 (.x 70) (.add 64 (.x 62) (.add 64 (.x 55) (.add 64 (.x 24) (.x 23)))))),
  .set (.add 64 (.x 80) (.add 64 (.x 71) (.add 64 (.x 63) (.add 64 (.x 56) (.add 64 (.x 27) (.x 25)))))),
  .set (.add 64 (.x 81) (.add 64 (.x 72) (.add 64 (.x 64) (.add 64 (.x 31) (.add 64 (.x 28) (.x 26)))))),
  .set (.add 64 (.x 82) (.add 64 (.x 73) (.add 64 (.x 65) (.add 64 (.x 36) (.add 64 (.x 32) (.x 29)))))),
  .set (.add 64 (.x 83) (.add 64 (.x 74) (.add 64 (.x 42) (.add 64 (.x 37) (.add 64 (.x 33) (.x 30)))))),
  .set (.add 64 (.x 84) (.add 64 (.x 75) (.add 64 (.x 49) (.add 64 (.x 43) (.add 64 (.x 38) (.x 34)))))),
  .set (.add 64 (.x 85) (.add 64 (.x 57) (.add 64 (.x 50) (.add 64 (.x 44) (.add 64 (.x 39) (.x 35)))))), .set (.add 64 (.x 88) (.x 99)),
  .set (.shr (.x 100) 23), .set (.cast 32 (.and (.x 100) (.c 0x7fffff))), .set (.add 64 (.x 101) (.x 98)), .set (.shr (.x 103) 23),
  .set (.cast 32 (.and (.x 103) (.c 0x7fffff))), .set (.add 64 (.x 104) (.x 97)), .set (.shr (.x 106) 24),
  .set (.cast 32 (.and (.x 106) (.c 0xffffff))), .set (.add 64 (.x 107) (.x 96)), .set (.shr (.x 109) 23),
  .set (.cast 32 (.and (.x 109) (.c 0x7fffff))), .set (.add 64 (.x 110) (.x 95)), .set (.shr (.x 112) 23),
  .set (.cast 32 (.and (.x 112) (.c 0x7fffff))), .set (.add 64 (.x 113) (.x 94)), .set (.shr (.x 115) 23),
  .set (.cast 32 (.and (.x 115) (.c 0x7fffff))), .set (.add 64 (.x 116) (.x 93)), .set (.shr (.x 118) 24),
  .set (.cast 32 (.and (.x 118) (.c 0xffffff))), .set (.add 64 (.x 119) (.x 92)), .set (.shr (.x 121) 23),
  .set (.cast 32 (.and (.x 121) (.c 0x7fffff))), .set (.add 64 (.x 122) (.x 91)), .set (.shr (.x 124) 23),
  .set (.cast 32 (.and (.x 124) (.c 0x7fffff))), .set (.add 64 (.x 125) (.x 90)), .set (.cast 32 (.shr (.x 127) 23)),
  .set (.cast 32 (.and (.x 127) (.c 0x7fffff))), .set (.mul 64 (.c 0x269) (.x 128)), .set (.add 64 (.x 89) (.x 130)),
  .set (.cast 32 (.shr (.x 131) 24)), .set (.cast 32 (.and (.x 131) (.c 0xffffff))), .set (.add 32 (.x 132) (.x 102)),
  .set (.cast 8 (.shr (.x 134) 23)), .set (.and (.x 134) (.c 0x7fffff)), .set (.add 32 (.x 135) (.x 105))], [133, 136, 137, 108, 111, 114, 117, 120, 123, 126, 129]⟩

/-- `fiat_id_tc26_gost_3410_2012_256_paramSetA_carry`, lines 4903-4966. -/
def carry : CProg := ⟨[
  .set (.a 0), .set (.add 32 (.shr (.x 1) 24) (.a 1)), .set (.add 32 (.shr (.x 2) 23) (.a 2)), .set (.add 32 (.shr (.x 3) 23) (.a 3)),
  .set (.add 32 (.shr (.x 4) 24) (.a 4)), .set (.add 32 (.shr (.x 5) 23) (.a 5)), .set (.add 32 (.shr (.x 6) 23) (.a 6)),
  .set (.add 32 (.shr (.x 7) 23) (.a 7)), .set (.add 32 (.shr (.x 8) 24) (.a 8)), .set (.add 32 (.shr (.x 9) 23) (.a 9)),
  .set (.add 32 (.shr (.x 10) 23) (.a 10)), .set (.add 32 (.and (.x 1) (.c 0xffffff)) (.mul 32 (.c 0x269) (.shr (.x 11) 23))),
  .set (.add 32 (.cast 8 (.shr (.x 12) 24)) (.and (.x 2) (.c 0x7fffff))), .set (.and (.x 12) (.c 0xffffff)),
  .set (.and (.x 13) (.c 0x7fffff)), .set (.add 32 (.cast 8 (.shr (.x 13) 23)) (.and (.x 3) (.c 0x7fffff))),
  .set (.and (.x 4) (.c 0xffffff)), .set (.and (.x 5) (.c 0x7fffff)), .set (.and (.x 6) (.c 0x7fffff)), .set (.and (.x 7) (.c 0x7fffff)),
  .set (.and (.x 8) (.c 0xffffff)), .set (.and (.x 9) (.c 0x7fffff)), .set (.and (.x 10) (.c 0x7fffff)), .set (.and (.x 11) (.c 0x7fffff))], [14, 15, 16, 17, 18, 19, 20, 21, 22, 23, 24]⟩

/-- `fiat_id_tc26_gost_3410_2012_256_paramSetA_add`, lines 4979-5014. -/
def add : CProg := ⟨[
  .set (.add 32 (.a 0) (.b 0)), .set (.add 32 (.a 1) (.b 1)), .set (.add 32 (.a 2) (.b 2)), .set (.add 32 (.a 3) (.b 3)),
  .set (.add 32 (.a 4) (.b 4)), .set (.add 32 (.a 5) (.b 5)), .set (.add 32 (.a 6) (.b 6)), .set (.add 32 (.a 7) (.b 7)),
  .set (.add 32 (.a 8) (.b 8)), .set (.add 32 (.a 9) (.b 9)), .set (.add 32 (.a 10) (.b 10))], [1, 2, 3, 4, 5, 6, 7, 8, 9, 10, 11]⟩

/-- `fiat_id_tc26_gost_3410_2012_256_paramSetA_sub`, lines 5027-5062. -/
def sub : CProg := ⟨[
  .set (.sub 32 (.add 32 (.c 0x1fffb2e) (.a 0)) (.b 0)), .set (.sub 32 (.add 32 (.c 0xfffffe) (.a 1)) (.b 1)),
  .set (.sub 32 (.add 32 (.c 0xfffffe) (.a 2)) (.b 2)), .set (.sub 32 (.add 32 (.c 0x1fffffe) (.a 3)) (.b 3)),
  .set (.sub 32 (.add 32 (.c 0xfffffe) (.a 4)) (.b 4)), .set (.sub 32 (.add 32 (.c 0xfffffe) (.a 5)) (.b 5)),
  .set (.sub 32 (.add 32 (.c 0xfffffe) (.a 6)) (.b 6)), .set (.sub 32 (.add 32 (.c 0x1fffffe) (.a 7)) (.b 7)),
  .set (.sub 32 (.add 32 (.c 0xfffffe) (.a 8)) (.b 8)), .set (.sub 32 (.add 32 (.c 0xfffffe) (.a 9)) (.b 9)),
  .set (.sub 32 (.add 32 (.c 0xfffffe) (.a 10)) (.b 10))], [1, 2, 3, 4, 5, 6, 7, 8, 9, 10, 11]⟩

/-- `fiat_id_tc26_gost_3410_2012_256_paramSetA_opp`, lines 5074-5109. -/
def opp : CProg := ⟨[
  .set (.sub 32 (.c 0x1fffb2e) (.a 0)), .set (.sub 32 (.c 0xfffffe) (.a 1)), .set (.sub 32 (.c 0xfffffe) (.a 2)),
  .set (.sub 32 (.c 0x1fffffe) (.a 3)), .set (.sub 32 (.c 0xfffffe) (.a 4)), .set (.sub 32 (.c 0xfffffe) (.a 5)),
  .set (.sub 32 (.c 0xfffffe) (.a 6)), .set (.sub 32 (.c 0x1fffffe) (.a 7)), .set (.sub 32 (.c 0xfffffe) (.a 8)),
  .set (.sub 32 (.c 0xfffffe) (.a 9)), .set (.sub 32 (.c 0xfffffe) (.a 10))], [1, 2, 3, 4, 5, 6, 7, 8, 9, 10, 11]⟩

/-- `fiat_id_tc26_gost_3410_2012_256_paramSetA_from_bytes`, lines 5475-5648. -/
def from_bytes : CProg := ⟨[
  .set (.shl 32 (.a 31) 15), .set (.shl 32 (.a 30) 7), .set (.shl 32 (.a 29) 22), .set (.shl 32 (.a 28) 14), .set (.shl 32 (.a 27) 6),
  .set (.shl 32 (.a 26) 21), .set (.shl 32 (.a 25) 13), .set (.shl 32 (.a 24) 5), .set (.shl 32 (.a 23) 21), .set (.shl 32 (.a 22) 13),
  .set (.shl 32 (.a 21) 5), .set (.shl 32 (.a 20) 20), .set (.shl 32 (.a 19) 12), .set (.shl 32 (.a 18) 4), .set (.shl 32 (.a 17) 19),
  .set (.shl 32 (.a 16) 11), .set (.shl 32 (.a 15) 3), .set (.shl 32 (.a 14) 18), .set (.shl 32 (.a 13) 10), .set (.shl 32 (.a 12) 2),
  .set (.shl 32 (.a 11) 18), .set (.shl 32 (.a 10) 10), .set (.shl 32 (.a 9) 2), .set (.shl 32 (.a 8) 17), .set (.shl 32 (.a 7) 9),
  .set (.mul 32 (.a 6) (.c 2)), .set (.shl 32 (.a 5) 16), .set (.shl 32 (.a 4) 8), .set (.a 3), .set (.shl 32 (.a 2) 16),
  .set (.shl 32 (.a 1) 8), .set (.a 0), .set (.add 32 (.x 31) (.x 32)), .set (.add 32 (.x 30) (.x 33)), .set (.add 32 (.x 28) (.x 29)),
  .set (.add 32 (.x 27) (.x 35)), .set (.and (.x 36) (.c 0x7fffff)), .set (.cast 8 (.shr (.x 36) 23)), .set (.add 32 (.x 26) (.x 38)),
  .set (.add 32 (.x 25) (.x 39)), .set (.add 32 (.x 24) (.x 40)), .set (.and (.x 41) (.c 0x7fffff)), .set (.cast 8 (.shr (.x 41) 23)),
  .set (.add 32 (.x 23) (.x 43)), .set (.add 32 (.x 22) (.x 44)), .set (.add 32 (.x 21) (.x 45)), .set (.and (.x 46) (.c 0xffffff)),
  .set (.cast 8 (.shr (.x 46) 24)), .set (.add 32 (.x 20) (.x 48)), .set (.add 32 (.x 19) (.x 49)), .set (.add 32 (.x 18) (.x 50)),
  .set (.and (.x 51) (.c 0x7fffff)), .set (.cast 8 (.shr (.x 51) 23)), .set (.add 32 (.x 17) (.x 53)), .set (.add 32 (.x 16) (.x 54)),
  .set (.add 32 (.x 15) (.x 55)), .set (.and (.x 56) (.c 0x7fffff)), .set (.cast 8 (.shr (.x 56) 23)), .set (.add 32 (.x 14) (.x 58)),
  .set (.add 32 (.x 13) (.x 59)), .set (.add 32 (.x 12) (.x 60)), .set (.and (.x 61) (.c 0x7fffff)), .set (.cast 8 (.shr (.x 61) 23)),
  .set (.add 32 (.x 11) (.x 63)), .set (.add 32 (.x 10) (.x 64)), .set (.add 32 (.x 9) (.x 65)), .set (.and (.x 66) (.c 0xffffff)),
  .set (.cast 8 (.shr (.x 66) 24)), .set (.add 32 (.x 8) (.x 68)), .set (.add 32 (.x 7) (.x 69)), .set (.add 32 (.x 6) (.x 70)),
  .set (.and (.x 71) (.c 0x7fffff)), .set (.cast 8 (.shr (.x 71) 23)), .set (.add 32 (.x 5) (.x 73)), .set (.add 32 (.x 4) (.x 74)),
  .set (.add 32 (.x 3) (.x 75)), .set (.and (.x 76) (.c 0x7fffff)), .set (.cast 8 (.shr (.x 76) 23)), .set (.add 32 (.x 2) (.x 78)),
  .set (.add 32 (.x 1) (.x 79))], [34, 37, 42, 47, 52, 57, 62, 67, 72, 77, 80]⟩

/-- `fiat_id_tc26_gost_3410_2012_256_paramSetA_to_bytes`, lines 5182-5463. -/
def to_bytes : CProg := ⟨[
  .sbb 32 24 (.c 0) (.a 0) (.c 0xfffd97), .sbb 32 23 (.x 2) (.a 1) (.c 0x7fffff), .sbb 32 23 (.x 4) (.a 2) (.c 0x7fffff),
  .sbb 32 24 (.x 6) (.a 3) (.c 0xffffff), .sbb 32 23 (.x 8) (.a 4) (.c 0x7fffff), .sbb 32 23 (.x 10) (.a 5) (.c 0x7fffff),
  .sbb 32 23 (.x 12) (.a 6) (.c 0x7fffff), .sbb 32 24 (.x 14) (.a 7) (.c 0xffffff), .sbb 32 23 (.x 16) (.a 8) (.c 0x7fffff),
  .sbb 32 23 (.x 18) (.a 9) (.c 0x7fffff), .sbb 32 23 (.x 20) (.a 10) (.c 0x7fffff), .cmov 32 (.x 22) (.c 0) (.c 0xffffffff),
  .adc 32 24 (.c 0) (.x 1) (.and (.x 23) (.c 0xfffd97)), .adc 32 23 (.x 25) (.x 3) (.and (.x 23) (.c 0x7fffff)),
  .adc 32 23 (.x 27) (.x 5) (.and (.x 23) (.c 0x7fffff)), .adc 32 24 (.x 29) (.x 7) (.and (.x 23) (.c 0xffffff)),
  .adc 32 23 (.x 31) (.x 9) (.and (.x 23) (.c 0x7fffff)), .adc 32 23 (.x 33) (.x 11) (.and (.x 23) (.c 0x7fffff)),
  .adc 32 23 (.x 35) (.x 13) (.and (.x 23) (.c 0x7fffff)), .adc 32 24 (.x 37) (.x 15) (.and (.x 23) (.c 0xffffff)),
  .adc 32 23 (.x 39) (.x 17) (.and (.x 23) (.c 0x7fffff)), .adc 32 23 (.x 41) (.x 19) (.and (.x 23) (.c 0x7fffff)),
  .adc 32 23 (.x 43) (.x 21) (.and (.x 23) (.c 0x7fffff)), .set (.mul 32 (.x 44) (.c 2)), .set (.shl 32 (.x 42) 2),
  .set (.shl 32 (.x 40) 3), .set (.shl 32 (.x 38) 3), .set (.shl 32 (.x 36) 4), .set (.shl 32 (.x 34) 5), .set (.shl 32 (.x 32) 6),
  .set (.shl 32 (.x 30) 6), .set (.shl 32 (.x 28) 7), .set (.cast 8 (.and (.x 24) (.c 0xff))), .set (.shr (.x 24) 8),
  .set (.cast 8 (.and (.x 56) (.c 0xff))), .set (.cast 8 (.shr (.x 56) 8)), .set (.cast 8 (.and (.x 26) (.c 0xff))), .set (.shr (.x 26) 8),
  .set (.cast 8 (.and (.x 60) (.c 0xff))), .set (.cast 8 (.shr (.x 60) 8)), .set (.add 32 (.x 54) (.x 62)),
  .set (.cast 8 (.and (.x 63) (.c 0xff))), .set (.shr (.x 63) 8), .set (.cast 8 (.and (.x 65) (.c 0xff))), .set (.shr (.x 65) 8),
  .set (.cast 8 (.and (.x 67) (.c 0xff))), .set (.cast 8 (.shr (.x 67) 8)), .set (.add 32 (.x 53) (.x 69)),
  .set (.cast 8 (.and (.x 70) (.c 0xff))), .set (.shr (.x 70) 8), .set (.cast 8 (.and (.x 72) (.c 0xff))), .set (.shr (.x 72) 8),
  .set (.cast 8 (.and (.x 74) (.c 0xff))), .set (.cast 8 (.shr (.x 74) 8)), .set (.add 32 (.x 52) (.x 76)),
  .set (.cast 8 (.and (.x 77) (.c 0xff))), .set (.shr (.x 77) 8), .set (.cast 8 (.and (.x 79) (.c 0xff))), .set (.shr (.x 79) 8),
  .set (.cast 8 (.and (.x 81) (.c 0xff))), .set (.cast 8 (.shr (.x 81) 8)), .set (.add 32 (.x 51) (.x 83)),
  .set (.cast 8 (.and (.x 84) (.c 0xff))), .set (.shr (.x 84) 8), .set (.cast 8 (.and (.x 86) (.c 0xff))), .set (.shr (.x 86) 8),
  .set (.cast 8 (.and (.x 88) (.c 0xff))), .set (.cast 8 (.shr (.x 88) 8)), .set (.add 32 (.x 50) (.x 90)),
  .set (.cast 8 (.and (.x 91) (.c 0xff))), .set (.shr (.x 91) 8), .set (.cast 8 (.and (.x 93) (.c 0xff))), .set (.shr (.x 93) 8),
  .set (.cast 8 (.and (.x 95) (.c 0xff))), .set (.cast 8 (.shr (.x 95) 8)), .set (.add 32 (.x 49) (.x 97)),
  .set (.cast 8 (.and (.x 98) (.c 0xff))), .set (.shr (.x 98) 8), .set (.cast 8 (.and (.x 100) (.c 0xff))), .set (.shr (.x 100) 8),
  .set (.cast 8 (.and (.x 102) (.c 0xff))), .set (.cast 8 (.shr (.x 102) 8)), .set (.add 32 (.x 48) (.x 104)),
  .set (.cast 8 (.and (.x 105) (.c 0xff))), .set (.shr (.x 105) 8), .set (.cast 8 (.and (.x 107) (.c 0xff))), .set (.shr (.x 107) 8),
  .set (.cast 8 (.and (.x 109) (.c 0xff))), .set (.cast 8 (.shr (.x 109) 8)), .set (.add 32 (.x 47) (.x 111)),
  .set (.cast 8 (.and (.x 112) (.c 0xff))), .set (.shr (.x 112) 8), .set (.cast 8 (.and (.x 114) (.c 0xff))), .set (.shr (.x 114) 8),
  .set (.cast 8 (.and (.x 116) (.c 0xff))), .set (.cast 8 (.shr (.x 116) 8)), .set (.add 32 (.x 46) (.x 118)),
  .set (.cast 8 (.and (.x 119) (.c 0xff))), .set (.shr (.x 119) 8), .set (.cast 8 (.and (.x 121) (.c 0xff))),
  .set (.cast 8 (.shr (.x 121) 8))], [55, 57, 58, 59, 61, 64, 66, 68, 71, 73, 75, 78, 80, 82, 85, 87, 89, 92, 94, 96, 99, 101, 103, 106, 108, 110, 113, 115, 117, 120, 122, 123]⟩

/-- `fiat_id_tc26_gost_3410_2012_256_paramSetA_inv`, lines 5658-5713; the variables are 0 = t1, 0 = output, 1 = acc, 2 = t2, 3 = t4, 4 = t8, 5 = t16, 6 = t32, 7 = t64, 8 = t80, 9 = t82, 10 = t164, 11 = t246. -/
def inv : List InvStep := [.sq 1 0 1, .mul 2 1 0, .sq 1 2 1, .sq 1 1 1, .mul 3 1 2, .sq 1 3 1, .sq 1 1 3, .mul 4 1 3, .sq 1 4 1, .sq 1 1 7,
  .mul 5 1 4, .sq 1 5 1, .sq 1 1 15, .mul 6 1 5, .sq 1 6 1, .sq 1 1 31, .mul 7 1 6, .sq 1 7 1, .sq 1 1 15, .mul 8 1 5,
  .sq 1 8 1, .sq 1 1 1, .mul 9 1 2, .sq 1 9 1, .sq 1 1 81, .mul 10 1 9, .sq 1 10 1, .sq 1 1 81, .mul 11 1 9, .sq 1 11 1,
  .sq 1 1 2, .mul 1 1 2, .sq 1 1 3, .mul 1 1 0, .sq 1 1 2, .mul 1 1 0, .sq 1 1 2, .mul 0 1 0]

/-- The constants, lines: `const_one` 5717-5721, `const_d` 5723-5727, `const_S` 5729-5733, `const_T` 5735-5739; the file has no others. -/
def consts : FiatConsts where
  one := [1, 0, 0, 0, 0, 0, 0, 0, 0, 0, 0]
  a := [0, 0, 0, 0, 0, 0, 0, 0, 0, 0, 0]
  b := [0, 0, 0, 0, 0, 0, 0, 0, 0, 0, 0]
  b3 := [0, 0, 0, 0, 0, 0, 0, 0, 0, 0, 0]
  d := [0xc7bffb, 0x432d6d, 0x6fca45, 0x5c026b, 0x77d8a2, 0x40995c, 0x4fad51, 0xf17873, 0x7f502a, 0x2df060, 0x302fb]
  S := [0x8e0ecd, 0x4f34a4, 0x40d6e, 0x68ff65, 0x6209d7, 0x4fd9a8, 0xc14ab, 0x43a1e3, 0x602bf5, 0x1483e7, 0x3f3f41]
  T := [0xa14aaa, 0x75dce7, 0x7d4c60, 0x64ab11, 0x13f970, 0x4ac43a, 0x4d478d, 0xd2e968, 0x3fe2b1, 0x1cfd65, 0x807f]

/-- The functions of the file. -/
def file : FiatSol where
  carry_mul := carry_mul
  carry_square := carry_square
  carry := carry
  add := add
  sub := sub
  opp := opp
  from_bytes := from_bytes
  to_bytes := to_bytes
  inv := inv
  limbs := 11
  consts := consts

/-- `lut_cmb`, lines 5742-8458. -/
def lut_data : List (List (AffE (List Nat))) := [
  [⟨[13, 0, 0, 0, 0, 0, 0, 0, 0, 0, 0], [0xa300e7, 0x2592db, 0x3f256, 0x1fc8ba, 0x3e36fa, 0x24e73f, 0x7ab076, 0x911871, 0x6b6690, 0xcaa91, 0x30650f], [0x47155f, 0x687527, 0x334e61, 0x9d3172, 0x28cab3, 0x5fbe39, 0x3af601, 0x5e3dc9, 0x743557, 0x24a967, 0x7521c4]⟩,
   ⟨[0x51134c, 0x63d934, 0x994f4, 0xe91b07, 0x439cfd, 0x55a4d9, 0x181579, 0x89f4e6, 0x5e989f, 0x2c52ec, 0x54e159], [0xdb5791, 0x525ddc, 0x6f7908, 0xaab332, 0x279fcd, 0x522145, 0x59cba7, 0xb33511, 0xc6593, 0x59cf0a, 0x16bdeb], [0xcbc030, 0x732788, 0x5a0df8, 0xc8799d, 0x19c571, 0x7f6ef, 0x729208, 0xd7466b, 0x4aca39, 0x56009d, 0x586898]⟩,
   ⟨[0x7058ad, 0x94e45, 0x420275, 0x5fd239, 0x444f1f, 0x299cbf, 0x2c9ada, 0x816030, 0x255119, 0x4fd8a, 0xf011d], [0xb22bcc, 0x380eb0, 0x75817f, 0xb68f07, 0x65dd81, 0x433816, 0x5064dd, 0xdf04cf, 0xa89f8, 0x61bac3, 0x2aee30], [0x831c0c, 0x6d5422, 0x5efce9, 0x4b9cd7, 0x3e61fb, 0x1487dd, 0x11779c, 0x36dfd0, 0x5a0784, 0x59323a, 0x2ba6dc]⟩,
   ⟨[0xb0b356, 0x66cd5d, 0x10afbc, 0x23e69, 0x7b3fa1, 0x3a3f07, 0x7b8f99, 0x415f9, 0x73141e, 0x72db3, 0x7b2887], [0xefdcbe, 0x61fdb8, 0x4a709f, 0x849cd0, 0x2a36fc, 0x3bb056, 0x356c38, 0x7a9084, 0xb6422, 0x130d7d, 0x1cd6f3], [0xaa7e64, 0x12d2be, 0x55120e, 0x938524, 0xc79b2, 0x58fe4b, 0x510fb7, 0xd0f8e2, 0x63f17f, 0x2d4711, 0x2725a4]⟩,
   ⟨[0x4c6781, 0x627f87, 0x489aa7, 0x2f770f, 0xd2620, 0x1e8468, 0x3f6d7e, 0xc5511d, 0x6cdb93, 0x6842d1, 0x4d7cf0], [0xd1ae96, 0x90d, 0x6c4db, 0xce5c55, 0x144e90, 0x4bed80, 0x4e53b7, 0x1fe39d, 0x42f35d, 0x4aeb11, 0x5f6dba], [0x499a0e, 0x7885a2, 0x30bdc, 0x1edfdb, 0x438b15, 0x72b2ee, 0x4ac01e, 0x3ec678, 0x5f2133, 0x11bd06, 0x2ea8e4]⟩,
   ⟨[0x226f30, 0x5e7b60, 0x9837f, 0x851533, 0x6efb9, 0x130938, 0x1063ce, 0x19c098, 0x605ac6, 0x4d2a8d, 0x240305], [0x6ae25f, 0xef2e0, 0x1f427e, 0xcd4540, 0x3c6996, 0x35e452, 0x5a6442, 0x7bc7a6, 0x3d0529, 0x21e8f3, 0x52a46e], [0x7f4e9d, 0xecc55, 0x37ee5a, 0x4addb7, 0x4da3f4, 0x5764c9, 0x1c40f1, 0xc1111e, 0xb0764, 0x7dd2e6, 0x1388a4]⟩,
   ⟨[0x95a16c, 0x8dd08, 0x5fc5c5, 0x81c743, 0xd180, 0xf8ee9, 0x3fef5, 0xcf52af, 0x7e4edc, 0x52dfac, 0x57c4fb], [0xe2b732, 0x5beba4, 0x1d1662, 0xfe39c5, 0x58807d, 0x4bbc55, 0x20454a, 0xa84e47, 0x34b9b8, 0x4b9bc7, 0x362b2b], [0xd51136, 0x5d2d8, 0xfecf5, 0x88aa07, 0x4bb57c, 0x3a4ad1, 0x1b78c1, 0x162747, 0x2dbfa9, 0x17b251, 0x431084]⟩,
   ⟨[0x3dc33c, 0x238321, 0x2858cb, 0x6e05b3, 0xf55fa, 0x2ba1c2, 0x7bbfd4, 0xa06a51, 0x3672af, 0x1a9b5b, 0x4f6d26], [0x9f55a3, 0xf6705, 0x4eda64, 0xd8fba8, 0x6e341d, 0x5fdc16, 0x3f8cd0, 0x31f5c1, 0x2eca27, 0x6e2e8e, 0x7650a0], [0x4c828b, 0x4d65dd, 0x23d49f, 0x998dda, 0x4e0332, 0x174414, 0x699e65, 0x8f8323, 0x2b8901, 0x12c259, 0x21cff4]⟩,
   ⟨[0x922362, 0x48a92f, 0x4d734d, 0xc47ee4, 0x113110, 0x157c19, 0x221251, 0x24872, 0x1e2816, 0x3df03d, 0x181b9c], [0x12fcf, 0x47eb3f, 0x6c2b35, 0xf85359, 0x32819b, 0x4e64b2, 0x600748, 0x944305, 0x1ed335, 0x5dcd46, 0x4fa013], [0x3393ab, 0x2d18cd, 0x2579e1, 0x79f6d2, 0x32785, 0x679042, 0x3532e2, 0xe10dce, 0x480e01, 0x426205, 0x53fd4d]⟩,
   ⟨[0xc6b0cb, 0x7c89a2, 0x78d667, 0xff9964, 0x6ee83c, 0x6e7bf5, 0x7599f3, 0x4d669f, 0x65012b, 0x5eba50, 0x304e71], [0xc53736, 0xb3e67, 0x126bee, 0x261df0, 0x5af18b, 0x5b38f7, 0x82ac, 0x17b3db, 0x7c32ba, 0x724f37, 0x1f8fd1], [0x80ccbf, 0x18d8b8, 0x6e22b9, 0x591c57, 0x11e0b1, 0x79970a, 0x70d898, 0xd9733f, 0x259708, 0x62101f, 0x306235]⟩,
   ⟨[0x2f49e9, 0x6e57bc, 0x94045, 0xcf8c2b, 0x10a5ca, 0x478e10, 0xa83ed, 0xeb329a, 0x54ee99, 0x112d75, 0x1a7633], [0x762a44, 0x7f7b5b, 0x6bf456, 0x680d50, 0x734ecc, 0x770776, 0x41b3f1, 0xdb7326, 0x7a5c18, 0x9a04c, 0x6f2281], [0x392e55, 0x180ef7, 0x539457, 0x27985e, 0x30ae2e, 0x6a2fa, 0x75fd5d, 0x23429d, 0x41cd65, 0x710776, 0x75b4d3]⟩,
   ⟨[0x297799, 0x50edac, 0x17e4e4, 0xb06306, 0x11957c, 0x454cdb, 0x37ce52, 0x35ef58, 0x3aacf3, 0x6b04d4, 0x1deeda], [0x58dedb, 0x55e31c, 0x564f2, 0x767021, 0xaa59a, 0x5e4355, 0x76b6f5, 0xe2300c, 0x65f80c, 0x4e48e3, 0x471f50], [0x57b4c9, 0x32102c, 0x4f162e, 0xaa70a0, 0x601fa8, 0x1946ed, 0x7f5192, 0x9cbf3b, 0x71aed7, 0xba7c1, 0x663bbd]⟩,
   ⟨[0xfc042f, 0x129354, 0x1ac8f7, 0x124bb3, 0x7de447, 0x7ca46, 0x5604ba, 0x981600, 0x14da63, 0x5067b, 0x53ae1a], [0x9bc0fd, 0x6f8b2c, 0x6ae987, 0x31f283, 0x1800b, 0x596a47, 0x67f6a5, 0x512023, 0x15ba88, 0x12951c, 0xc64fa], [0xed7c65, 0x8bd59, 0x636115, 0x76ba73, 0x7f05eb, 0x3e701, 0x148cdd, 0x8b64aa, 0x373c6d, 0x516a1e, 0x56623]⟩,
   ⟨[0xd0bb7, 0x7e8a54, 0x7474b6, 0x3d4755, 0x26cd61, 0x48139e, 0x5e0ec7, 0x169b5d, 0x42855a, 0x729e2f, 0x1f1939], [0xedf74c, 0x736130, 0x7835cd, 0x21fe28, 0x51653e, 0x690bc6, 0x70143d, 0x11b7f6, 0x2ecf93, 0x332d5b, 0x4e7e15], [0x61c3bc, 0x6f0a58, 0x2a9437, 0x273621, 0x4d6870, 0x4a0410, 0x1930ec, 0x473aea, 0x345b94, 0xd2f6f, 0x630991]⟩,
   ⟨[0x64f095, 0x5b811b, 0x34f150, 0x37fbc3, 0x431976, 0x1af585, 0x4a47d6, 0x364593, 0x265d55, 0x6955ec, 0x4b56e9], [0xd4d3ba, 0x3e639c, 0x7b6508, 0x7aafaa, 0x2dedd3, 0x6e90fb, 0x70ff1f, 0x5bd7f8, 0x15d774, 0x4e9774, 0x3f53f7], [0x4f4aa5, 0x24432d, 0x2d31ba, 0x5f3c7b, 0x221de3, 0x691a3b, 0x67e7f8, 0xb606c6, 0x5200e8, 0x708b99, 0x2f258f]⟩,
   ⟨[0x3a119f, 0x319d59, 0x71df1f, 0xee723b, 0x4a075c, 0xc0bd, 0x381eca, 0x9ec137, 0x14c177, 0x62c87b, 0x3f7471], [0xaa3c6c, 0x19b06d, 0x3a8845, 0x1b9e7b, 0x4749dd, 0x67a317, 0x555d63, 0x87596c, 0x4bf763, 0x5dcf2f, 0x725068], [0x5a930b, 0x3c325e, 0x528ac5, 0xfd1b98, 0x4ba241, 0x41edcf, 0x587205, 0xedf302, 0x1c093c, 0x62b2bf, 0x225709]⟩],
  [⟨[0xeaba3b, 0x192b0c, 0x6a78e0, 0x1251c4, 0x32ca32, 0x55dc60, 0x5bbc99, 0xf53480, 0x4ca164, 0x32c336, 0x4567e0], [0x9b52d6, 0x6b6695, 0x11e7d6, 0x2112b7, 0x7f870c, 0x2f5d93, 0x2b31c0, 0xd401f, 0x4b6c8, 0x23bee0, 0x86b9a], [0x1e8b93, 0x336732, 0x435024, 0xa9d624, 0x7896cb, 0x86124, 0x1f6441, 0xc216cd, 0x45b1da, 0x40884b, 0x15a99d]⟩,
   ⟨[0xe29666, 0x698c, 0x8566, 0xb29855, 0x69993b, 0x66533e, 0x130b35, 0x112187, 0x66567a, 0x6c6930, 0x25f72], [0xbc36f8, 0x75e071, 0x3f18ec, 0xfe4134, 0x7bf37, 0x15265c, 0x2d5ea8, 0x932f6f, 0x1004c, 0x28fbb8, 0x3cc88b], [0x25e5b3, 0x52fcaa, 0x72522f, 0x75b891, 0x71f699, 0x51f116, 0x78808a, 0x6a580c, 0xbdda3, 0x4cb31a, 0x56f6cd]⟩,
   ⟨[0x1af846, 0x16456f, 0x6cdb6e, 0x19b43d, 0x1bd7bb, 0x1e429f, 0x25e351, 0x2c034f, 0x53ecff, 0x2645d7, 0x6f455e], [0x161a5b, 0x5e3d52, 0x6167a5, 0x8bbc48, 0x29c44c, 0x9a976, 0x38c321, 0x390f40, 0x4a7861, 0x27e8a3, 0x55430c], [0x22b34e, 0x3fe536, 0x6d6bde, 0x38df8b, 0x7c2700, 0x413296, 0xc3c34, 0xf4a8b, 0x2223e1, 0x2b3c2, 0x30e676]⟩,
   ⟨[0x84b729, 0x726fc5, 0x414876, 0x3546f3, 0x261905, 0x5a04f6, 0x55b0c7, 0x6b360b, 0x12052b, 0x2b0046, 0x3d984c], [0xcbed46, 0x32683a, 0x4b3add, 0xb2cd41, 0x14ef94, 0x50e0bf, 0x3fc9b1, 0x2f30dc, 0x297ae9, 0x7bcd89, 0xb4620], [0x30b5b8, 0x67a579, 0x6eda23, 0x94fb0a, 0x661bcd, 0x40bf82, 0x58f099, 0x72bb0f, 0x485362, 0x539664, 0x6adf86]⟩,
   ⟨[0x24fdd7, 0x1186a8, 0x4ea183, 0x493dfc, 0x4f4e46, 0x50110d, 0x3294d6, 0xc5cef6, 0x53f4a9, 0x6a41f0, 0x280d45], [0x25dcb5, 0x352ab2, 0x3c9b57, 0xc5972c, 0x17c8a2, 0x26c17f, 0x4a2de0, 0x962319, 0x1dc0e8, 0x7bb781, 0x76d0b0], [0xc25c01, 0x6df306, 0x2e001f, 0xb2d044, 0x1c46ff, 0x28d794, 0x4cd7eb, 0xb2d81b, 0x719bf6, 0x5d73e6, 0x574ec]⟩,
   ⟨[0xed0d33, 0x5b58e6, 0x31614d, 0xc647fc, 0x3d23ac, 0x6c18fd, 0x6b9f51, 0xbd620e, 0xe3630, 0x2c338b, 0x55b898], [0x609f49, 0x6332d0, 0x32177f, 0x8adb01, 0x3c6a7, 0x20ea0a, 0x5d93d8, 0x53348a, 0x511faa, 0x125bd7, 0x1f9b23], [0x7c7fe4, 0x28b2b1, 0x7487d6, 0xd5fe, 0x7def82, 0x16e07e, 0x26b0ae, 0x3853c8, 0x2dcaa1, 0x685027, 0x1a2f47]⟩,
   ⟨[0x986197, 0x217581, 0x11b57, 0x1c3cc0, 0x48d2d2, 0xc0332, 0x2d89e5, 0x3490a4, 0x3458b1, 0x2b04fa, 0x3f7cf9], [0x4f002f, 0x2e83e7, 0x629717, 0x10444b, 0x5323a6, 0x3bf8d6, 0x2cfc62, 0x4f6988, 0x7305e7, 0x7ec041, 0x754449], [0xb16e11, 0x7607f5, 0x1923d5, 0xe8ae2b, 0x6722d4, 0x76783b, 0x37c778, 0x7f8754, 0x422a0e, 0x3d9f97, 0x16aeae]⟩,
   ⟨[0xd81066, 0x50c351, 0x716769, 0x6393e3, 0x1b4c15, 0x4b9a55, 0x588b55, 0x2ba83b, 0x9915, 0x5c055c, 0x48180], [0xcb303a, 0x458bff, 0x237470, 0xd66822, 0x9de8b, 0x5b28c2, 0x68cafe, 0x2f5a98, 0x4c4b2a, 0x31de00, 0x6e5755], [0x8869e8, 0x1f33b0, 0x1a2baa, 0x817706, 0x458c99, 0x302337, 0x39eae5, 0xd2e45d, 0x73447f, 0x24825c, 0x1b5e98]⟩,
   ⟨[0x814972, 0x38b443, 0x41992d, 0xee69db, 0x146157, 0xaaad8, 0x5444e7, 0xd17ab8, 0x4df7c1, 0x4d27a8, 0x54d67d], [0xa587f, 0x3ecda4, 0x2ca0af, 0x8438dd, 0x634b99, 0x3b5f19, 0x6a333d, 0x1b944f, 0x7e2e1f, 0x5c5f8a, 0x3ee1de], [0x1a8276, 0x6da949, 0x3abe66, 0xee9fd1, 0x4b05fc, 0x5e0261, 0x7eaa48, 0x10dd5b, 0x7cbe95, 0x118a02, 0x2173c]⟩,
   ⟨[0x3407c2, 0x3db992, 0x1f1a9e, 0xd5b577, 0x5468d1, 0x1331f0, 0x760900, 0x412c7b, 0x7d99ff, 0x3f157e, 0x22bb7c], [0x8ce31c, 0x7405ee, 0x4669c1, 0xb64348, 0x2a823a, 0x28f130, 0x6999e9, 0x6697a5, 0x546104, 0x28a64d, 0x531d1a], [0x9c76d2, 0x79f19d, 0x872f3, 0xf799b3, 0x407743, 0x3085e0, 0x2003f0, 0x396cb7, 0x2952af, 0x2d59fd, 0x3c184a]⟩,
   ⟨[0xe10fcd, 0x563d94, 0x36a862, 0xa8d743, 0x1faebc, 0x5a3817, 0x61b73b, 0xfe0a6a, 0x113ae2, 0x79a419, 0x433ec2], [0x94da0b, 0x53d54c, 0x5dc3c9, 0x377f6c, 0x7601e5, 0x54f416, 0x147411, 0x33e49d, 0x1316c3, 0x2d4674, 0x4dadca], [0xa27a08, 0x150dcb, 0x757d31, 0xecf538, 0x662566, 0x306294, 0x601c11, 0x35fecb, 0x452259, 0x1c2d33, 0x21363f]⟩,
   ⟨[0xc03231, 0x54a03f, 0x530e31, 0x8a8654, 0x445a8f, 0x57e307, 0x17bf37, 0x15a04, 0x2b01c, 0x1fb35f, 0x3ffa73], [0x2c08e7, 0x40d81c, 0x622b99, 0x48ff13, 0x665063, 0x4518af, 0x3ac182, 0xa28fd4, 0x2a6dae, 0x1b6dbd, 0x10acd4], [0x58c718, 0x16fc28, 0x41e2c6, 0x52886b, 0x7fde72, 0x289521, 0x173fe6, 0x72e6cc, 0x17ac30, 0x40a8e1, 0x5097bc]⟩,
   ⟨[0x5b9b1d, 0x50d0a3, 0x2dfe1b, 0xeaa92d, 0x277da6, 0x622641, 0x37663b, 0x4fd085, 0xc17ee, 0x6a97af, 0x7a47af], [0x6be9bf, 0x3285c2, 0x65c35c, 0x9c1c74, 0x5f5ece, 0x59af30, 0x2a2ea6, 0x53a7c7, 0x3a42c4, 0x7e6e33, 0x67f167], [0x2379c4, 0x784a42, 0x260570, 0xc001b9, 0x7733d1, 0x2610f4, 0x76810f, 0x93a496, 0x1dea0a, 0x2ca003, 0x6326ec]⟩,
   ⟨[0xbb2391, 0x743284, 0x2e155f, 0x35639b, 0x5bbf4f, 0x3e90b9, 0x767573, 0x321363, 0x254580, 0x29d549, 0x52b4eb], [0xc1b9a5, 0x4dde09, 0x6cbd8b, 0x5ba607, 0x3cc42a, 0x1d4e2e, 0x7acd96, 0xc921ce, 0x620d1, 0x16e31c, 0x6a2b72], [0x2a9792, 0xcfd3, 0x6a9ad2, 0xed29b3, 0x26da69, 0x2d2b73, 0x1b5e5d, 0xd5305c, 0x67dce0, 0x729b3, 0x70252]⟩,
   ⟨[0x7834cb, 0x1a305d, 0x199cf9, 0xee7f83, 0x48376d, 0x182568, 0x44c0b5, 0x7efbad, 0x6a5b89, 0x2ddec8, 0x2c5365], [0x14ddc8, 0x26ed23, 0x4f3cf1, 0x9c337c, 0x5ca1f6, 0x430d81, 0x1bf696, 0xd5544b, 0x1941e, 0x2720ab, 0x6ef64b], [0xaeb238, 0x2a16ec, 0x55fe48, 0x606de7, 0x34576a, 0x6ff01c, 0x9aa13, 0xd2d5ab, 0x3249a4, 0x4b05e9, 0x41bc86]⟩,
   ⟨[0xa9e5d5, 0x3cdbe3, 0x669075, 0x4d8e92, 0x50e701, 0x3eec92, 0x340906, 0x3a5231, 0x76d572, 0x1ca34b, 0x35d540], [0xfe52c3, 0x64659e, 0xfcf54, 0xddcf41, 0x7a7b36, 0x2aec73, 0x7550b1, 0x8e1cec, 0x2cad9c, 0x4ee133, 0x45b7d8], [0x9fc441, 0x2d1fbc, 0x3e7d16, 0xc8b352, 0x221849, 0x3ff5a0, 0x55a506, 0x7f88d0, 0x18db76, 0x672f49, 0x7d2f58]⟩],
  [⟨[0xc3cc62, 0x1788c8, 0x46ecbc, 0xf44a0d, 0x5d570f, 0x11c818, 0x5f4d7, 0xb7f489, 0x1ae92, 0x2ab1b0, 0x67910c], [0x33a3db, 0x768b12, 0x5d50de, 0xd31f34, 0x3455f7, 0x21bbe3, 0x20d657, 0x9aef49, 0x11194a, 0x7c4e1e, 0x5a07c9], [0x8f9ca3, 0x54ff76, 0x570c00, 0x6792d9, 0x64070f, 0x44f2a2, 0x6abefc, 0xdaac6e, 0x4f8cd9, 0x4dc91f, 0x49b2bb]⟩,
   ⟨[0x18cd54, 0x10be7f, 0x5f8d91, 0xbaf1cc, 0x50ab12, 0x2d251a, 0x4b47cc, 0x5bd1c5, 0x489594, 0x699114, 0x30c9fa], [0xd23d40, 0x5307a4, 0x7e98f3, 0xf08939, 0x69a75b, 0x1db79b, 0x566a53, 0x5af4d5, 0x237443, 0x1d42de, 0x5165d2], [0x873511, 0x525967, 0x56101d, 0xaa7060, 0x4c11b1, 0x29ca00, 0x1a34bc, 0x5ca8c2, 0x2f5f9a, 0x39efc2, 0x6871d9]⟩,
   ⟨[0x421e67, 0x75d00, 0x10583f, 0xb732c7, 0x37730b, 0x7028b8, 0x5c0247, 0x7cc11b, 0x7f99fe, 0x74ef6f, 0x49255a], [0x806a6b, 0x76a27f, 0x1a45f6, 0x1863fb, 0x36a2b2, 0x58e27, 0x7e3e52, 0x8fa71e, 0xf9591, 0xea645, 0x37e6c8], [0x4c164a, 0x15ae71, 0x228d86, 0x441d33, 0x507819, 0x442dbe, 0x457850, 0x59222c, 0x29495f, 0x7331a0, 0x7bae86]⟩,
   ⟨[0xfa5032, 0x242303, 0xa904b, 0x3bb53, 0x7553e7, 0x3ca0c5, 0x61b87d, 0x805e53, 0x49297c, 0x56196b, 0x4c6df6], [0x2c1092, 0x19ef62, 0x47f011, 0xc03a85, 0xb1a90, 0x1507e7, 0x4d6ebc, 0x794d29, 0x5c5416, 0x20f242, 0x576518], [0x34e914, 0x5daf45, 0x5be7a5, 0xfe38f3, 0x157770, 0x237f8c, 0x15bf21, 0x77cc24, 0x5067d4, 0x91c98, 0x7f54de]⟩,
   ⟨[0x770b21, 0x6194bb, 0x1a8987, 0x94013c, 0x619b7f, 0x83816, 0x7a8072, 0xf58256, 0x2ffa60, 0x7ac24e, 0x42cf75], [0x58474e, 0x7bff2f, 0x18145b, 0xf8e32b, 0x55de08, 0x2aa874, 0x44bca0, 0x38f7be, 0x27359b, 0x2747eb, 0x226230], [0xfa31a5, 0x190a96, 0x6536d0, 0xaca102, 0x36c0d0, 0x8f3d0, 0x49b490, 0x5cd6c9, 0xe1c66, 0x77c89c, 0x6a74ae]⟩,
   ⟨[0xee9825, 0xfbc15, 0xc0843, 0x6b793a, 0x4ed1c, 0x616ea7, 0xb6304, 0x166978, 0x24139d, 0x42f014, 0x3d4978], [0x29d5d7, 0x33f88c, 0x6e76ff, 0xa49e5f, 0x3d801a, 0x42ee48, 0xd2057, 0x1d9164, 0x1ab787, 0x4d338b, 0x262464], [0xd5b395, 0x7a77b2, 0x43d844, 0x6d5774, 0x267921, 0x374e41, 0x3b4c78, 0xe2ba6e, 0x656116, 0x43049c, 0x2023c8]⟩,
   ⟨[0x1715e4, 0x652b6a, 0x379760, 0x4db333, 0x619842, 0x656120, 0x26faec, 0xef2ad7, 0x149cb3, 0x55d95d, 0x497b11], [0xd4b7bf, 0x1098d0, 0x57e045, 0x304a0c, 0x7f8852, 0x564889, 0x7d4d67, 0xa2ca30, 0x51b0d9, 0x495a39, 0x17789d], [0x49ce9c, 0x1c79b9, 0xa676a, 0x43503c, 0x3c78ea, 0x779e15, 0x2487f8, 0x98b781, 0x2f1e05, 0xb58b5, 0x79ee99]⟩,
   ⟨[0x82e001, 0x2f7563, 0x5502b7, 0x99b452, 0x68bd3, 0x6837ed, 0x6c2dae, 0xedd476, 0x4b54c6, 0x2353e5, 0x36757b], [0x3d167, 0x2030d2, 0x72fa5a, 0x4e3d16, 0x1b78f0, 0x924e6, 0x1e86b4, 0x6cd648, 0x1d24c9, 0xcc288, 0x54b2d8], [0x2b443b, 0x135eb4, 0x6123f8, 0x795f4f, 0x161316, 0x5cc78f, 0x1879b2, 0xa11513, 0x75bc89, 0xe0f4c, 0x22eb79]⟩,
   ⟨[0x97abd7, 0x3bf415, 0x4b96fb, 0x86107e, 0x13751e, 0x6e3412, 0x75aeff, 0xcead7e, 0x4d03fa, 0x41c8e1, 0x586295], [0xbf974f, 0x3d6607, 0x3a2804, 0xe9cc65, 0x596911, 0x13f86a, 0x10e75, 0x67284c, 0x244a19, 0x71615, 0x2e2c66], [0x4963f7, 0x640576, 0x31c7ee, 0x1d786c, 0x257dec, 0x3cf6c5, 0x465e43, 0xb15edd, 0x478beb, 0x16c1b, 0x94307]⟩,
   ⟨[0xe85486, 0x77f915, 0x760d35, 0x2ef0ae, 0x37042c, 0x30c359, 0x346545, 0xdc7fe6, 0x30d4c5, 0x4aad41, 0xa60c0], [0xd6e8b3, 0xb7aa8, 0x23e0c5, 0x6a8ebf, 0x63d566, 0x2294c9, 0x49a4ae, 0x5a2c0a, 0x5086a5, 0x8808d, 0x5a919], [0x7a8eaf, 0x1e6353, 0x5c83d2, 0x714aae, 0x4f2f37, 0x249bf6, 0x6cdee8, 0x6f262d, 0x7e9c03, 0x4c7272, 0x5e6f1b]⟩,
   ⟨[0x11d440, 0x50d0e6, 0x20183d, 0xd0ed3e, 0x4642a3, 0x19f456, 0x68661a, 0x5c97b1, 0x1dfd20, 0x607cbe, 0x4eb1d7], [0x424218, 0x31cb2b, 0x16ee1e, 0xf0b2f5, 0x284ca3, 0xb886e, 0x56424f, 0x606535, 0x1a7dd3, 0x5e5d6d, 0x910a8], [0xe5a1e8, 0x62aa84, 0x72c780, 0xe14e12, 0x359d55, 0x388026, 0x1af8c7, 0x7c9658, 0x7cd573, 0x1db584, 0x5c3621]⟩,
   ⟨[0xe7bb1f, 0x2cd518, 0x41fe08, 0x717b78, 0x400988, 0x291794, 0x747c25, 0x7194a1, 0x40f7af, 0x7b6e73, 0x20eb45], [0x161f74, 0x299725, 0x25ad63, 0x4b6379, 0x76c32, 0x71515e, 0x32a4a1, 0xa7b602, 0x5c7951, 0x3975ba, 0x4ba951], [0x9eef2e, 0xb3835, 0x5e1c6b, 0x800ffb, 0x6bc9ca, 0x125f16, 0xf6d0d, 0x186a82, 0x479a35, 0x6739d, 0x4dcc17]⟩,
   ⟨[0x67a5f5, 0x7ca11d, 0x51b4ef, 0xe64083, 0x2b0147, 0x22b454, 0x50d922, 0x19cfe8, 0x416b41, 0x219410, 0x5c5995], [0x20ea67, 0x65b659, 0x11b640, 0xc05ab3, 0x15bd93, 0x3f4cb7, 0xcd5aa, 0x6203fa, 0x1fa8a5, 0x1e6f64, 0x6fb8e7], [0xb6fef4, 0x53f0ce, 0x6b1e51, 0x33476b, 0x419002, 0x6f619c, 0x5caf14, 0x1753e9, 0x38fc4f, 0x7f5e19, 0xf12d2]⟩,
   ⟨[0x9f6ebb, 0x4c08fe, 0x6e7c4e, 0xf1680d, 0x446c66, 0x350bf6, 0x6a96e3, 0x5aee9a, 0x6935bb, 0x73b4c5, 0x4ac140], [0xe5225c, 0x7b671b, 0x7606a0, 0x938508, 0x7625d7, 0x1e3b8f, 0x2eae28, 0x318f8c, 0x1cc7f0, 0x10b56d, 0x49c97c], [0xde3fdd, 0x8ca79, 0xa0585, 0x56e5a5, 0x3cf77e, 0x2c9dd5, 0x6d3d48, 0xb152eb, 0x1c6b5c, 0x755faf, 0x2b73e8]⟩,
   ⟨[0x4f175b, 0x74b90c, 0x7c4eb9, 0xcb92b7, 0x592ae2, 0x56e0f5, 0x7528e2, 0x893263, 0x6ad16, 0x70aa41, 0x62e83f], [0x58482, 0x171a5d, 0x47c331, 0xdf7758, 0x2b4a00, 0x1fcad8, 0x6a1943, 0xb73575, 0x171180, 0x5c1148, 0x12a36a], [0x8c51ae, 0x20ee14, 0x549f62, 0xcd3eb6, 0x48a700, 0x596b28, 0x2f99a4, 0x10422, 0x1769f4, 0x225e79, 0x67f6de]⟩,
   ⟨[0x9e9178, 0x5d43c, 0x12a802, 0x86a260, 0x63c91c, 0x63084e, 0x46b7e1, 0xa17b2d, 0x51323e, 0x46b359, 0x37634], [0xa3da8, 0x1949b0, 0x5e3b9, 0x2467f0, 0x4bcc28, 0x501570, 0x3d5412, 0xcd0573, 0x40eca4, 0x17c942, 0x1aace2], [0x427572, 0x2d0e76, 0x6fc301, 0x11516d, 0x3b6f32, 0x56d53f, 0x2e9447, 0x909115, 0x7dc768, 0x553f21, 0x3a0976]⟩],
  [⟨[0x18835d, 0x1fcf9f, 0x1ad610, 0x7d30ec, 0x6c910c, 0x3fb1a8, 0x1464a4, 0x27680c, 0x7e54db, 0x5edd4b, 0x5a8976], [0x37e1c3, 0x16bf14, 0x6aa36, 0x40a33e, 0x6dc0df, 0x242fa2, 0x274ea4, 0x84d9, 0x68a677, 0x4fe2af, 0x1d11b4], [0x3dc1c7, 0x792137, 0x2cb33f, 0x7a0801, 0x56e3, 0x339206, 0x3d0090, 0xf96044, 0x537fe0, 0x6358ef, 0x1ee2d0]⟩,
   ⟨[0x29cb03, 0xff813, 0x67660, 0xe00898, 0x83a1, 0x516e88, 0x543512, 0xefa310, 0x5ed95e, 0x48147d, 0x3958db], [0x84596c, 0x6bc632, 0x37eaf8, 0x148f47, 0x2de2d2, 0x7e4da4, 0x21a371, 0xbf0084, 0x3efbc7, 0x79976e, 0x4baefb], [0xda1c1, 0x310e2c, 0x30b00d, 0x7060d1, 0xf8a0e, 0x5b1ec0, 0x66c96d, 0x8bb679, 0x31f9db, 0x32c38d, 0x3c1f72]⟩,
   ⟨[0xbcfe19, 0x5b51f8, 0x37a870, 0x898a49, 0x7bd853, 0x64da75, 0x17497a, 0x21be3c, 0x26c48f, 0x35a56e, 0x79efc], [0x6aefde, 0x7113f8, 0x7013ea, 0x4a8f2e, 0x38d8c7, 0x3e2b86, 0x6499ee, 0xef9dd1, 0x541109, 0x7f4211, 0x2650ed], [0xe8730e, 0x7ef6e8, 0x53e89, 0xb164ec, 0x4cfeb8, 0x2674ce, 0x6fd69f, 0x862adc, 0x74a714, 0x4e95f1, 0x440342]⟩,
   ⟨[0x86a1d1, 0x9570f, 0x21e028, 0xd8ef33, 0x30d08a, 0x5ee53c, 0x5f27be, 0x315bef, 0x30a287, 0x395de5, 0x694daa], [0x4e499a, 0x24fc80, 0x45da5e, 0x4542de, 0x5a6e71, 0x13bb0d, 0xe551, 0x9bb0d, 0x710991, 0x116881, 0x75a138], [0x39eb19, 0x67187c, 0x636cc0, 0x94dcec, 0x1af3dd, 0x2b8639, 0x6554e7, 0xe605eb, 0x61639b, 0x77500a, 0x3193ed]⟩,
   ⟨[0x1e326, 0x352c31, 0x4a76ab, 0xd940b5, 0x6329c5, 0x1afe72, 0x5e4fe9, 0xf56d9b, 0x3e7db3, 0x54566, 0x4d0c77], [0xb344fc, 0x1f79b7, 0x50f482, 0x98d267, 0x1c2619, 0x6bbd65, 0x346286, 0x8cad0c, 0xfc617, 0x32b373, 0x7978e3], [0xc94333, 0x6b14a8, 0x1075c5, 0xbdd939, 0xee70, 0x188183, 0x7398e2, 0x9184a, 0x7df798, 0x57b14f, 0x21b6a8]⟩,
   ⟨[0xf232e3, 0x449c35, 0xcc2cd, 0x3bbfb, 0x6e022e, 0x5937f0, 0xd3400, 0xa3335b, 0x3797fa, 0x7e0c16, 0x68ab4a], [0x655243, 0x76ef0c, 0x7a5d62, 0x87b99b, 0x7f5266, 0x129263, 0x52b578, 0xcc7106, 0x4128a7, 0x74afc9, 0x1a0821], [0xfe7f, 0x58cc38, 0x4ace7a, 0x27824a, 0x71bb43, 0x4cd1c5, 0x1de8e5, 0xfd97f3, 0x4164e0, 0x542935, 0x15ee68]⟩,
   ⟨[0x56201e, 0x572a88, 0x5a66b9, 0xa30e5f, 0xe20e3, 0x898bf, 0x3cc5c7, 0x170bd, 0x3813ee, 0x79874, 0x6a5f45], [0xc07ae0, 0x680de0, 0x12d0d6, 0x641f64, 0xe6f53, 0xa48ac, 0x2ebabe, 0x17e4d0, 0x6b3042, 0x47391c, 0x3fc7b5], [0x8ae200, 0x651b7e, 0xf51c8, 0x34f2db, 0x418121, 0x52e806, 0x4b57a3, 0x801e3b, 0x6e2553, 0x17fe29, 0x371f5]⟩,
   ⟨[0xe0b571, 0x43b547, 0x15696b, 0x732af4, 0x7b6282, 0x7276fc, 0x489692, 0x536f42, 0x241953, 0x47679b, 0x17a0ad], [0x71332d, 0x10b6e, 0x7ee392, 0xa7b31c, 0x4921ed, 0xb32bd, 0x1187fe, 0x913f47, 0xb27ed, 0x43b431, 0x55085b], [0xe2c137, 0x1ad933, 0xd0367, 0x7e38f0, 0x3205c, 0x14599a, 0x1e8de6, 0x7a88fa, 0x77198a, 0x31a753, 0x2fe194]⟩,
   ⟨[0x682b6c, 0x652986, 0x1f417f, 0xde4f1b, 0xef1f1, 0x36e7f, 0x5ad789, 0xae8db4, 0x76b58d, 0x2e3942, 0x6f7b10], [0x9e5fa2, 0x8f3c7, 0x43bde, 0x52a794, 0x44679c, 0x7f28c0, 0x382ab6, 0x395191, 0x39b531, 0x36f81a, 0x795887], [0xf70354, 0x328b59, 0x3d01a3, 0xc9f394, 0x22f3ea, 0x6f350f, 0x58c2b3, 0x40634f, 0x320f7c, 0x6d4bee, 0x57ccc9]⟩,
   ⟨[0x93e9b9, 0x6bdc73, 0x45a4a0, 0x51a4d7, 0x5c415b, 0x66ba11, 0x5ae064, 0x5245be, 0x13be1, 0x6dd2f6, 0x6f9657], [0xe1468c, 0x4fd78, 0x5800dd, 0x91e526, 0x12067d, 0x481847, 0xa9b9d, 0xd7fb7d, 0x8af37, 0x598387, 0x53520a], [0x9411f0, 0x415cc6, 0x3cfab9, 0xbee1c6, 0x11f354, 0x540421, 0x5b7e1d, 0xaa9283, 0x107457, 0xdc4a7, 0x58459d]⟩,
   ⟨[0x531f14, 0x1009e3, 0x73b657, 0xdc0159, 0x665408, 0x8ff55, 0x7d3df9, 0x31f848, 0xb2149, 0x2e956e, 0x749370], [0x5eacba, 0x13c60c, 0x1b1dcf, 0xbe1671, 0x5c94cc, 0x437e24, 0x214684, 0x207638, 0x2a0d18, 0x1fe161, 0x1f585e], [0xff468a, 0x4d3fd3, 0xbbf50, 0x11d45, 0x1070e3, 0x438229, 0x59ab03, 0xaa329, 0x315647, 0xccf61, 0xf1485]⟩,
   ⟨[0x9129e3, 0x12693c, 0x4e8200, 0x27d67, 0x704244, 0x210cbe, 0x192f03, 0x5142de, 0x1a84fb, 0x3745c5, 0x64b88e], [0x4fd4a7, 0x39f707, 0x27f3ce, 0xc4924f, 0x4c1ac9, 0x5438cd, 0x29571a, 0x9a42d3, 0x437704, 0x466df8, 0x4cae5f], [0xcf7ed3, 0x327495, 0x23d857, 0x3adcc1, 0x783a07, 0x70c835, 0x63b436, 0xaf64fa, 0x43e2d6, 0x20be90, 0x1b98ed]⟩,
   ⟨[0xa4c93e, 0x4f4c24, 0x7f4777, 0x570e1, 0x3bf809, 0x1608a3, 0x73e59e, 0xb32cc7, 0x5501bf, 0x27c79, 0x793ff1], [0x19dca8, 0x1f6a93, 0x7fb9fe, 0x389b1a, 0x32a1fc, 0x1bd948, 0x661278, 0xc98d56, 0x5cdfb2, 0x4df065, 0x4da8b5], [0x8af82e, 0x49b701, 0x2a4058, 0x937d79, 0x3e1209, 0x6d0224, 0x654260, 0x89cd81, 0x31be9c, 0x7f915b, 0x545ceb]⟩,
   ⟨[0x606923, 0x535e19, 0x4b9720, 0x7cf3ac, 0x9fee2, 0x21e97c, 0x417b8d, 0x5c8dc, 0x278974, 0x220131, 0x1f1ea], [0x51751a, 0x22cffe, 0x65eae7, 0x2d66f, 0x1cfe5e, 0x4d158, 0x3519d9, 0xc3a426, 0x50617e, 0x3dfc62, 0xc1e82], [0x54e7f7, 0x3159a5, 0x536937, 0x743c99, 0x2c5b9e, 0x3e5bac, 0x713e45, 0x1c8cc3, 0x379cfc, 0x40ac92, 0x4fd6ba]⟩,
   ⟨[0x375ab1, 0x558a76, 0x127659, 0x2e36dd, 0x17a438, 0x37085e, 0x460f93, 0xdc21d1, 0x6d33e1, 0x4422eb, 0x3b5755], [0x3da9d4, 0x2248e9, 0x3eaec, 0xd43561, 0x1bf26d, 0x5c5f13, 0x626c12, 0xb918df, 0x65cade, 0x717357, 0x5bb6b5], [0x4024e3, 0x46b939, 0x4e46f3, 0x1511af, 0x776bd7, 0x320079, 0x7332f3, 0x7c852a, 0x7816d9, 0x68e65e, 0x45dbb4]⟩,
   ⟨[0xe0980a, 0x3cbfdb, 0x74f5aa, 0x1ea8dd, 0x2c4c50, 0x311d45, 0x39c948, 0x55988c, 0x5b5b63, 0x41f40e, 0x2c22d4], [0xae7440, 0x2acdc7, 0x78f4c2, 0x199902, 0x1399a7, 0x3dda20, 0x658152, 0x5f646b, 0x6ca0b4, 0x73af03, 0x52716], [0x7f80b6, 0x3b2f94, 0x373b83, 0xea1b50, 0x716c1c, 0x47a779, 0x6e478c, 0x9f1c86, 0x772ef9, 0x3c8bb5, 0x3308f]⟩],
  [⟨[0x3a0f8a, 0x239c42, 0x2c8997, 0xcb1312, 0xba3bf, 0x433e65, 0x4e93d, 0xbc78bf, 0x16315f, 0x7839da, 0x72f5d], [0x431b86, 0x52b0c9, 0x7b6b54, 0x4c666, 0x21961d, 0x630d09, 0x26b7f8, 0x4b5633, 0x36f916, 0x7d08e5, 0x9930c], [0x6b4f00, 0x1d54a4, 0x692da9, 0x98837b, 0x65006a, 0x704b4, 0x424ff9, 0xc25b4d, 0x5b6d40, 0x54c25f, 0x387f6a]⟩,
   ⟨[0x2f5512, 0x654e2d, 0x668342, 0xe2d4f5, 0x1fcde3, 0x396f10, 0x474238, 0x1dfa11, 0x536151, 0x60aa5e, 0x8ad4a], [0xe427f0, 0x5588b0, 0x2428a4, 0xdd098a, 0x2cae12, 0x5b6f7, 0x3677f, 0xb1209b, 0xb9b82, 0x7c5d85, 0x503bbe], [0x3f3ee8, 0x71495d, 0x4ca27c, 0x57a105, 0x38f4ed, 0x19ba2, 0x772d19, 0xc8a1f, 0x2f07eb, 0x9e4d0, 0x7af54e]⟩,
   ⟨[0x9ed4d4, 0x35f235, 0x3b3efe, 0xb5687b, 0x7499b6, 0x4aec1b, 0x11d9f3, 0xf934ca, 0x626585, 0x54a1, 0x78adc1], [0xf1d44, 0x67701, 0x2f00ab, 0x8f68d3, 0x1c1c3b, 0x49876f, 0x7c5e0c, 0x958c8a, 0x585f0e, 0x3980d2, 0x4c2741], [0x4f0fd3, 0x519e7, 0x455da2, 0xe4a2db, 0x6a399, 0x5f65be, 0x10c895, 0xe1e39c, 0xd2d62, 0x5489d3, 0x64f071]⟩,
   ⟨[0x75e904, 0x34221f, 0x6c3082, 0x1dff10, 0x7e367a, 0x44654c, 0x214821, 0x44a5b4, 0x65b709, 0x1d42ee, 0x1a97dc], [0xad26d, 0x30e580, 0x6f212b, 0x100ee6, 0xf70f2, 0x7ca3c6, 0x17ebc5, 0x311581, 0x2b7bb5, 0x283403, 0x1a581], [0x9043a2, 0x1b3a77, 0xfa816, 0x4b33bf, 0x5044af, 0x1584e4, 0x417440, 0x6e3d6, 0x723841, 0x7f1cf7, 0xa8a6d]⟩,
   ⟨[0x41a857, 0x34ae73, 0x4bb287, 0x86b914, 0x6e11bd, 0xf0fd1, 0x3523a3, 0x860736, 0x209e71, 0x21de0f, 0x1a4d6b], [0xf677d7, 0x48110c, 0x8f908, 0x9bd400, 0x6b94ac, 0x37b8c2, 0x49854f, 0x5c4d2f, 0x3ba675, 0x3c2448, 0x69dc9e], [0x25ee8, 0x384feb, 0x1c9da4, 0x5a77c, 0x2cebd8, 0x253110, 0x48f3cd, 0x45cf49, 0x4771cd, 0x3f1990, 0x4f6051]⟩,
   ⟨[0x3827c, 0x1f112d, 0x71973a, 0x99b096, 0xc34f8, 0x397a6a, 0x7f26ed, 0xad0cf1, 0x69feee, 0xbb893, 0x525ac4], [0x1de590, 0x63fbaf, 0x13d7eb, 0x42b275, 0x6a1e1b, 0x10aec1, 0x2c78d4, 0x28c9df, 0x45854b, 0x789e7, 0x74f], [0x8229bf, 0x69358b, 0x1825aa, 0x181405, 0x73c536, 0x63ceae, 0x15b3e7, 0x8aff3f, 0x10c89e, 0x1af589, 0x4e0053]⟩,
   ⟨[0x28b9c8, 0x34b521, 0x3323fb, 0xb663b0, 0x4daaa1, 0x2616c9, 0x32abeb, 0x40c353, 0x86b1d, 0x36a180, 0x3e458c], [0xdcf643, 0x2c1001, 0x52aa3f, 0x8e9839, 0x4a4e69, 0x1d0e16, 0x2fbb80, 0x43d67e, 0x478b72, 0xf9ca3, 0x3afc42], [0xdd581, 0x7f85ba, 0x436d63, 0x598f90, 0x14b661, 0x306562, 0x761e86, 0x6c8505, 0x568527, 0x6fda5a, 0x1adea0]⟩,
   ⟨[0x890618, 0xcd682, 0x7e36ff, 0x303f12, 0xb2a6d, 0x415241, 0x25e2c9, 0xf0e829, 0x3a20b1, 0x5bc247, 0x4ff913], [0xc77bf2, 0x4061a1, 0x7197c8, 0x31babd, 0x96046, 0x45e643, 0x6fc909, 0x88ea6, 0x70a7ca, 0x47b9d0, 0x50fc48], [0xff3b98, 0x78a423, 0x12cc47, 0xae776d, 0x21495e, 0x4a3d73, 0x391838, 0x1b0893, 0xae103, 0x5b7ac6, 0x58f1a9]⟩,
   ⟨[0xcafc7e, 0x6d3d15, 0x3c5e44, 0x246f10, 0x654846, 0x21c350, 0x29b782, 0xf3bd5, 0x4ba2e1, 0xa9813, 0x3dac06], [0x81bea5, 0x5af750, 0x231c43, 0x546577, 0x21d5b, 0x323115, 0x360ee5, 0xb7cc0, 0x42696d, 0x14f38b, 0x637448], [0xa10272, 0x71c42f, 0x5406fb, 0x728be, 0x3fce1d, 0x721cc4, 0x100233, 0x4a237d, 0x4691a1, 0x439b3e, 0x68bd1a]⟩,
   ⟨[0x71251b, 0x458b01, 0x1e79f8, 0xa77a06, 0x74587f, 0x4dc1c1, 0x3c2a50, 0x255231, 0x5c317c, 0x5f9187, 0x7cf5a9], [0x98fc2, 0x4404a1, 0x4d04aa, 0x464189, 0x61d090, 0x4e55a9, 0x7c50c, 0xbe825e, 0x47f09, 0xf7fec, 0x4e42d2], [0x355e39, 0x2eac10, 0x511d7e, 0xdf8195, 0x658d53, 0x7832a7, 0x688d4a, 0x630a34, 0x1bf382, 0x5ec16e, 0x7b68ad]⟩,
   ⟨[0x1e2363, 0x19180c, 0xdc491, 0x624c85, 0x4109e5, 0x6f6f9f, 0x4721e1, 0xd89b92, 0x2accc1, 0x61c123, 0x181505], [0x5efabb, 0x7d8985, 0x3c5bc1, 0x8f46c5, 0x12b4ed, 0x64759d, 0x58d2a9, 0xc25ca8, 0x4e6e93, 0x503bca, 0x512aaa], [0x9d1e14, 0x74e51e, 0x245cbe, 0x248fe2, 0x74bde8, 0x7c074e, 0x17a40e, 0xff34d1, 0x57c0a3, 0x61b3ec, 0x2677f7]⟩,
   ⟨[0xcbf754, 0x31ae3a, 0x333b8, 0xd4cf78, 0x3e4a56, 0x4e6254, 0x2fdbfa, 0x144b0a, 0x63fb6c, 0x1d4d6, 0x7a746b], [0x7361b9, 0x5e8b06, 0x44e134, 0xf4a847, 0x2329d4, 0x44a5b7, 0x44f475, 0xe61797, 0x57fb07, 0x51722, 0x241ecd], [0x22a500, 0x39a10a, 0x42d3d5, 0xb567d7, 0x69aa6d, 0x711215, 0x2ed8dd, 0xf158, 0x6238be, 0x5650c3, 0x3d21e8]⟩,
   ⟨[0x8b1c66, 0x19194c, 0x14bfe9, 0x748f3d, 0x3cce8f, 0x48a87c, 0x6a1307, 0x6c2b73, 0x2e37a4, 0x29162b, 0x27b4e0], [0xc21f63, 0x17955e, 0x78c143, 0xd5e54d, 0x472f3d, 0x4e389e, 0x5b4f76, 0x4d23ee, 0x532138, 0x573674, 0xcec4b], [0x3de334, 0x6224bd, 0xf9c6f, 0xa9395, 0x345eaf, 0x107910, 0x70f64a, 0xd236db, 0x27355d, 0x164a6c, 0x7d6d7b]⟩,
   ⟨[0x8036c4, 0x4a1b91, 0x471a92, 0x371cc, 0x56ddc0, 0x130fc6, 0x287ba8, 0xeae3e3, 0x6a7352, 0x4599e9, 0x382164], [0xb93f79, 0x1e39cd, 0x201f70, 0xef1a24, 0x530d3a, 0x5f0647, 0x8ee9, 0xad3ccb, 0x6c1b3c, 0x20b88e, 0x41c1b], [0x6caf3d, 0x4a21ac, 0x1cde34, 0x33dd65, 0x5353d1, 0x584597, 0x114182, 0x5cb2d9, 0x53a5c5, 0x71c2d4, 0x244902]⟩,
   ⟨[0xafa1e1, 0x64bd11, 0x14d188, 0x2d13d, 0xe36b8, 0x354548, 0x7bb62c, 0x78df50, 0x7e63c, 0x56614, 0x3d5281], [0x28dba4, 0x4b80d, 0x4f7ff8, 0x7aa928, 0x4abf1, 0x23d6ff, 0x24b312, 0x23b8a, 0x3b5eda, 0x5af149, 0x19fa7b], [0xff5820, 0x358792, 0x21a28c, 0xc51693, 0x98ee, 0x34266, 0x17723d, 0xc2ddf5, 0xe734, 0x6daef6, 0x71f7ad]⟩,
   ⟨[0x2e3ad1, 0x779201, 0x68289f, 0x3f10b0, 0x2706c6, 0x2565b5, 0x190c55, 0x33bd51, 0xe50f0, 0x500819, 0x7c9d08], [0xfa9d8b, 0x38da3f, 0x693ab6, 0xde9636, 0x5bb3ec, 0x65b8f5, 0x481e55, 0x61e2c9, 0x1643bf, 0x559100, 0x5f79e6], [0x2e392d, 0x1227d4, 0x293c7b, 0xf92994, 0x2faee0, 0x322623, 0x434fe2, 0x199f46, 0x5c180e, 0x5c3b89, 0x566d13]⟩],
  [⟨[0x4ec5d5, 0x19cd6, 0xbbd45, 0x2193ae, 0x3165c6, 0x3d8d74, 0x45059c, 0x8cf60c, 0x487d06, 0x5a9d09, 0x7fc6e0], [0x37b42a, 0x1a576, 0xa750d, 0x45b5dd, 0x6f0e25, 0x1f4abf, 0x56e0ba, 0x65543b, 0x564264, 0x5adf58, 0x69b6ed], [0x8533f, 0x673ed0, 0x53205e, 0x60eb8b, 0xc0216, 0x483015, 0x1974b0, 0x610e9b, 0x116e88, 0x1b41f9, 0x3650b6]⟩,
   ⟨[0x1e87c9, 0x485e07, 0x473783, 0x9e4755, 0x77aae3, 0x6cf828, 0x64bf5b, 0xdd1614, 0x1f3f82, 0xcdc74, 0x5a217d], [0x7e7dc9, 0x4c5775, 0x577e73, 0x54ac09, 0x692b30, 0x5074ae, 0x47fe74, 0x814e6d, 0x611400, 0x54cc45, 0x15e56a], [0x15bf7f, 0x720bb8, 0x128fa3, 0xeff525, 0x2c2b16, 0x32b7, 0x56fa97, 0x6f11ae, 0x21850d, 0x755623, 0x4f475]⟩,
   ⟨[0xdc22cc, 0x5ec978, 0x75efab, 0xa67308, 0x1e17a7, 0x471117, 0x3d0d24, 0x2b875, 0x5cd15c, 0x791ed0, 0x519998], [0x6dfc80, 0x3f2d4f, 0x325346, 0xcf12e4, 0xef0d1, 0x1d644b, 0x6a72bb, 0xe463a5, 0x393a41, 0x3cfab9, 0x45aedd], [0x8cf232, 0x355cf6, 0x18330b, 0xe357d6, 0x2e9f65, 0x192aa3, 0x50e31a, 0x542788, 0x5c03b4, 0x16a4c7, 0x4d85e7]⟩,
   ⟨[0x5e1b7c, 0x5396eb, 0x2953ac, 0x66f21b, 0x744eb, 0x2bb57e, 0x777ec0, 0xc0908, 0x63dfbf, 0x19d0e1, 0x53259a], [0x92aa9, 0x6d7967, 0x7a34e9, 0x88833b, 0x7c72df, 0x154b92, 0x4beab, 0x709c21, 0x1a33f0, 0x7a15c7, 0x7cb81a], [0x427117, 0x60010d, 0x2fb59e, 0x81df74, 0x1c3aff, 0x325e38, 0x3e9eb8, 0xafa8a7, 0x2a7623, 0x1940ec, 0x678a03]⟩,
   ⟨[0x89d0da, 0x5dd15d, 0x7f023, 0x84b837, 0x59a36b, 0x14c4f9, 0x5a10b9, 0xeea8e6, 0x32c712, 0x207104, 0x51cc16], [0x788203, 0x5bfacd, 0x34a954, 0xe0855b, 0x7f6bd9, 0x3eab3a, 0x61f2a3, 0x4bf5e9, 0x203a8b, 0x7b37c8, 0x403792], [0x91d84f, 0x6d1ba7, 0x36b343, 0x319941, 0xab9f0, 0x7a1dc1, 0x31981c, 0xf43266, 0x8bb75, 0x485daf, 0xa9d74]⟩,
   ⟨[0x243625, 0x5bb841, 0x525c95, 0xbc116b, 0x3839c3, 0x41eb1b, 0x221f6b, 0x4ec4af, 0x6d762b, 0x5c54fc, 0x7a1f82], [0xc26515, 0xed4c, 0x1e3b09, 0xbee59, 0x63b3c5, 0x275d84, 0x5756ac, 0xaf183d, 0x9020f, 0x6e34c7, 0x4dc0c8], [0x5b4eb0, 0x39ba12, 0xb792c, 0xd6b962, 0x3dfd9c, 0x4c2a8a, 0x22a010, 0x67afc9, 0x57241f, 0x3a2810, 0x5c0c2a]⟩,
   ⟨[0xf4d05, 0x1e1ba9, 0x3631a2, 0x2b29ce, 0x7696f1, 0x313416, 0x1eb6d3, 0x8d3460, 0x3364e8, 0x429ee, 0x7e4ff6], [0xb98c72, 0x43b1ea, 0x1a581f, 0x295970, 0x10f065, 0x39e01e, 0x2e33ba, 0x47df1a, 0x41422e, 0x5a3851, 0x3fa8ff], [0xa29b8e, 0x702100, 0x1dfdfb, 0x6ca23f, 0x4f967b, 0x417b94, 0x73dd0f, 0xd08db3, 0x1c4006, 0x3f92dd, 0xf2874]⟩,
   ⟨[0x8d5ac8, 0x31fe77, 0x1ee7b5, 0x17ddc8, 0x10f7eb, 0x78d778, 0x51cf94, 0x737a58, 0x2f2ca5, 0x314107, 0x3bd0e4], [0x708b31, 0x6e4ee5, 0x72b5a8, 0xb52995, 0x1b7b7d, 0x2853f5, 0x71f2d3, 0x90f660, 0x4e8bae, 0x2aeb93, 0x7fe004], [0x74b2e7, 0x36f8cc, 0x5a0b4f, 0x6ac18c, 0x23e1d0, 0x18985d, 0x44a4ea, 0xead750, 0x1739b5, 0x259016, 0x69ad16]⟩,
   ⟨[0x236c6c, 0x2bdcf8, 0x737342, 0xffe743, 0x67a4d9, 0x66d9c1, 0x681f98, 0x599ded, 0x57b074, 0x1b308c, 0x56660c], [0x8b1685, 0x27ea30, 0x33ca2d, 0x98682c, 0x3f67b0, 0xc48e9, 0x68a704, 0x1c6e9d, 0x123d06, 0x50a933, 0x53c6d2], [0x917431, 0x2f64fb, 0x755e9f, 0x5d5b9f, 0x6e0959, 0x68928, 0x509eb9, 0x9b4e5e, 0x998b, 0x8dad5, 0x166125]⟩,
   ⟨[0x74c2e, 0x652b12, 0x202f3c, 0x42ebc1, 0x500167, 0x5cda15, 0x1381da, 0xcc99f2, 0x5723ca, 0x1a8c3b, 0x3d5615], [0xf1a960, 0x7380f6, 0x7009e1, 0x2ef85b, 0x3b246b, 0x41405a, 0x1314cb, 0x9fdcd0, 0x77491f, 0x3266f0, 0x760d83], [0xc7818e, 0x7864c2, 0x244bd0, 0xf38b08, 0x688f96, 0x75c705, 0x278414, 0xb2bff0, 0x67126e, 0x7b7f7e, 0x78584]⟩,
   ⟨[0xfe7a46, 0x5584a0, 0x5cdd0d, 0x4cf5a8, 0x19cfa7, 0x87268, 0x7ff3f3, 0x87acfd, 0x17bd41, 0x4a35aa, 0x14c1bd], [0x5a4052, 0x32a135, 0x7056c3, 0x72f85c, 0x24a79d, 0x3d7320, 0x7f20d, 0xbea269, 0x32f584, 0x557016, 0x9fc2a], [0x6e58dd, 0x414d93, 0x1d725a, 0xa5ab22, 0xad82c, 0x613758, 0x773b55, 0xd581e2, 0x6342f0, 0x22fb1a, 0x28348d]⟩,
   ⟨[0x940ffc, 0x6cc86d, 0x33ce22, 0xa629fd, 0x32cfbe, 0x11788d, 0x27d4e5, 0x43ac5a, 0x3ceeda, 0x57aa, 0x614643], [0x312b0d, 0x3c3ac9, 0x126ee8, 0x3f24af, 0x6cc19, 0x656f4f, 0x4e91cf, 0x1ec679, 0x10294e, 0x23f5e9, 0x181e45], [0x8c28c0, 0x16213d, 0x10311c, 0x744f39, 0x6cea8c, 0x66fa80, 0x5e3fa5, 0x1d61eb, 0x1e0217, 0x2f43d5, 0x1eaa47]⟩,
   ⟨[0x854120, 0x5aa732, 0x608d63, 0x3180c7, 0x513cb6, 0x13362e, 0x492465, 0xa81d33, 0x38349b, 0x4c1b24, 0x61b37a], [0xb13b17, 0x3ac756, 0x4c7642, 0x67ac7f, 0x3f23fe, 0x58aa8a, 0xb0977, 0x1d605c, 0x713ad3, 0x60ba46, 0x41f85a], [0xe37216, 0x43a345, 0x223407, 0x256265, 0x11c42f, 0x138466, 0x4733cc, 0x3535ec, 0x1bc86, 0x3d1b86, 0x4ae885]⟩,
   ⟨[0xdc7159, 0x1767d1, 0x7ae0ab, 0x878a1, 0x4fb364, 0x33b0ef, 0x742cf7, 0xc6a756, 0x78f550, 0x711f81, 0x65a975], [0x439414, 0x15afcf, 0x7ee055, 0xdd71c8, 0x45f656, 0x624a54, 0x3005fc, 0xbc7324, 0x55842e, 0x165223, 0x37d7d6], [0x19f5f5, 0x20da89, 0x6c89e9, 0xf41904, 0x3d42d9, 0x55b010, 0x175aa4, 0xb1a716, 0x83aa, 0xa3eec, 0x170791]⟩,
   ⟨[0x4fe6cc, 0x27f794, 0x1dee50, 0x1d47c8, 0x482a07, 0x728f59, 0x2e9afb, 0x416429, 0x429086, 0x2a42b2, 0x4c02a], [0x4b5c0a, 0x35bdd6, 0x1fe687, 0x27af73, 0x1a6d1a, 0xfbb3c, 0x213872, 0xec16e6, 0x636f30, 0x415394, 0x12e98d], [0x8d471a, 0x69e551, 0x493b23, 0x6ed1b7, 0x47a3e8, 0x249ec8, 0x3d1ad9, 0x23243a, 0x78e657, 0x7ac870, 0x39ddde]⟩,
   ⟨[0x775995, 0x4a7a1c, 0x706ec4, 0x5f75e2, 0x23c9c5, 0x24bcc8, 0x7dc9ac, 0x1afd8f, 0x6b47b9, 0x4747ad, 0x7b084d], [0xa9b5c, 0x7354d6, 0x6ab188, 0xa35212, 0x3bdf54, 0x27ace, 0x2aef52, 0xc45137, 0x58980e, 0x50f4f0, 0x3e8eee], [0xeb4040, 0x618f66, 0x31be2f, 0xa1eab0, 0x38af5, 0x1ec6c, 0x7421a, 0x51b097, 0x43b013, 0x60ed3f, 0x36ac22]⟩],
  [⟨[0xa77dac, 0x1db3fd, 0x389f54, 0x564f6d, 0x63cf36, 0x1c46b6, 0x311686, 0xe982b7, 0x27d0f, 0x50362c, 0x1aea89], [0x2bc8a, 0x36e565, 0x342121, 0xed769d, 0x2a92c3, 0x325573, 0x18b0e6, 0xf11adf, 0x4b976b, 0x69633, 0x4ffc55], [0xfd2fc2, 0x401b07, 0x294102, 0x8ea5e0, 0x30664d, 0x142ec3, 0x3fe051, 0xf56d80, 0x39fee3, 0xaeb, 0x6d0c5f]⟩,
   ⟨[0xdd75d0, 0x44a3c3, 0x5a506d, 0xec37fd, 0x316ad7, 0xd14b, 0x204476, 0x51c697, 0x83305, 0x58d9b1, 0x70999f], [0xe5e93b, 0x6c0468, 0x9400e, 0x75f8ff, 0x35f1a4, 0x506173, 0x2364e5, 0x414d87, 0x8b606, 0x686394, 0x6aa160], [0x6bd2e2, 0x7a2b7f, 0x5f146b, 0x369239, 0x79c56, 0x62c62, 0x77b021, 0x3a29b7, 0x2867ff, 0x55bbb5, 0x5d042]⟩,
   ⟨[0xd8b383, 0x7dd79f, 0x789e04, 0xf01fc3, 0x9a138, 0x652ef9, 0x4b8f0, 0xcd2d9b, 0x2a8b21, 0x711cbb, 0x3f479b], [0x84baf3, 0x77832, 0x5c239a, 0x60f9f5, 0x157d11, 0x4b04c3, 0x398e89, 0xdfdb89, 0x4b12ee, 0x2b1159, 0x70a1b8], [0x34a6c, 0x4c89e9, 0x22db26, 0xc601c3, 0x32d1e3, 0x2503f8, 0x632e24, 0xea95ff, 0xfda31, 0x2551e5, 0x4f9cb2]⟩,
   ⟨[0x862af4, 0x210fbd, 0x1e6c80, 0x400c9b, 0xaa70b, 0x736a0a, 0x5a2c84, 0xc59bac, 0xbb281, 0x2cf44a, 0x61244e], [0x856415, 0x16b2c8, 0x735666, 0x1d23dd, 0x1134a9, 0x17a1d4, 0x26d1ce, 0xeecc13, 0x49b200, 0x153f17, 0x11ddae], [0x7750, 0x1134b0, 0x4bf17d, 0xd2423a, 0x3d2d7b, 0x85f31, 0x227cdf, 0x654cd2, 0x82ccf, 0x7c9ca4, 0x4c47bb]⟩,
   ⟨[0x362e13, 0x3a337c, 0x2bba20, 0x1856c, 0x2c1de, 0xe51a8, 0x457b9d, 0x57882e, 0x37807d, 0x15b24a, 0x1a74be], [0x3db4cb, 0x4a35fe, 0x3dbbab, 0x7e3023, 0x194fc7, 0x12b3c2, 0x776fbf, 0x1e11b7, 0x2db7aa, 0x1ded18, 0x69abf1], [0x5fe93d, 0xbdb4c, 0x250b7a, 0x8a93e9, 0x6f3cac, 0x3d972, 0x57b7d4, 0xd0fa5f, 0x51bcdf, 0x37a606, 0x46594a]⟩,
   ⟨[0xfd1f79, 0x305a30, 0xad2ae, 0xbff664, 0x2ce671, 0x6f9e53, 0x242322, 0xeb83c, 0xda108, 0x7b1505, 0x1bb588], [0xd17f2a, 0x5a272, 0x23c922, 0xf5bea6, 0x534fec, 0x201847, 0x57d139, 0x553ac8, 0x38d49d, 0xd9a41, 0x23fa44], [0xa4394c, 0x1c1150, 0xc4bc9, 0x13e6eb, 0x30fd03, 0x5496b5, 0x2200ce, 0x9477cb, 0x167fb8, 0x1c4d58, 0x4fd444]⟩,
   ⟨[0xd5eeec, 0x38e42a, 0x5a4364, 0x980627, 0x7f2577, 0x3612fd, 0x4e0e1f, 0x74d370, 0x528ea6, 0x18673, 0x4d7509], [0x29610f, 0x4535b8, 0x41762, 0x8ef8fd, 0x2aa59d, 0x83b18, 0x479122, 0x5a4922, 0x2ceca2, 0x256bf4, 0x43b7c3], [0xb47d51, 0x748fb4, 0x584310, 0xee3a6c, 0x5e556a, 0x52ba2b, 0x500fbb, 0xa9860a, 0x7a7128, 0xd1669, 0x2c17e0]⟩,
   ⟨[0x7b0b0, 0x5aedee, 0x76ed54, 0x274e51, 0x7bd17e, 0xbe439, 0xed5db, 0xd7925e, 0x3f2a50, 0x2f0773, 0x3546f9], [0x1b8bc5, 0x567960, 0x38fa10, 0xc2575c, 0x27332e, 0x3071d4, 0x78a9f6, 0xbcae5e, 0x760ff1, 0xe8ec0, 0x6ea98f], [0x676add, 0x4ed26f, 0x30b66c, 0xe96fb8, 0x55c569, 0x323fb1, 0x440986, 0xf3e007, 0x5f14fe, 0xe5fd2, 0x585d5a]⟩,
   ⟨[0x32d10f, 0x607846, 0x476a55, 0xfe8a15, 0x76749e, 0x385608, 0x29e6f6, 0x98ffac, 0x4086d0, 0x587f0c, 0x48deff], [0x8f82ea, 0x11ec5, 0x1caab9, 0xb6a781, 0x436c9, 0x5dde65, 0x2e38f8, 0x3a69f4, 0x3df1d2, 0x26f1e7, 0x3d5d6d], [0x7322dd, 0x1ffaf0, 0x12a21b, 0x3853ae, 0x1d98a, 0x748e, 0x667ae8, 0x2f7be9, 0x1686bf, 0x50052, 0x79765d]⟩,
   ⟨[0x267e76, 0xf5a32, 0x798cb2, 0x86e395, 0x5266, 0x25806b, 0x7ee459, 0x1ef2a7, 0x34fd1, 0x18c3f9, 0x2fcbe], [0x4c278b, 0x25c270, 0x642402, 0x24f47b, 0x6e96a1, 0x6b67fc, 0x446a7c, 0x9b9bab, 0x774c2a, 0x5b2890, 0x7534e], [0x979647, 0x3d9a12, 0x9c489, 0x2d6f0a, 0x7ed7e2, 0x4a5b1b, 0x5c265e, 0x6af72e, 0x3bfd06, 0x19ee72, 0x2bc98a]⟩,
   ⟨[0x36094f, 0x53d51e, 0x39da8e, 0xc24407, 0x754444, 0x541686, 0x38413c, 0x3d42d5, 0x2b576f, 0x25b7f0, 0x37ae8], [0xff6011, 0x739a4b, 0x2cfd0e, 0x34cbe5, 0x1c69c4, 0x183b00, 0x70a07f, 0x416b07, 0x1873b9, 0x4c82c4, 0x12af7c], [0x9dab06, 0x6525, 0x5f4ac2, 0x7b1cd, 0x25b80b, 0x6b0d4a, 0x17a0f3, 0x5371e3, 0x786ef8, 0x5f7c4f, 0x60ca6a]⟩,
   ⟨[0xd21942, 0x71b130, 0x10af58, 0x32f341, 0x73bd94, 0x5c17d, 0x52c1d1, 0xac355d, 0x7a20db, 0x41259a, 0x44ffab], [0x6e331f, 0x7c1495, 0x648a89, 0xc406a1, 0xf1eb7, 0x31e5fb, 0x6c8d65, 0xc6c865, 0x4b7df2, 0x79769e, 0x2083d4], [0x980997, 0x485e01, 0xfdd04, 0x404293, 0x1be19e, 0x79d78, 0x58eb9b, 0x5dbd87, 0x702a47, 0x39f856, 0xadfa8]⟩,
   ⟨[0x601c16, 0x6bad25, 0xb27d9, 0x3ce316, 0xbf903, 0x305942, 0x55aa45, 0x6c251c, 0x1c0764, 0x4db871, 0x6990d9], [0x35029c, 0x56f54c, 0x71aaa5, 0x3bb302, 0x511665, 0x4b1d6d, 0x792cce, 0x9d6482, 0x5f2322, 0x60fbfb, 0x3daeff], [0x5dff91, 0x7b3c15, 0x3c73c5, 0x99d915, 0x47af99, 0x5655e6, 0x1004a5, 0x1f3259, 0x50988b, 0x5d60e0, 0x2be896]⟩,
   ⟨[0x2b631c, 0x372c82, 0x2a7f2a, 0xe4a975, 0x6bb6b1, 0x16bc52, 0x473cd2, 0x630310, 0x16b945, 0x1291b, 0x59ef17], [0x837d4e, 0x3216d3, 0x4e0701, 0x823a76, 0x567125, 0x20e62f, 0x36f8e4, 0x91634b, 0xce9c9, 0x712df3, 0x3270fe], [0xc8bd36, 0x312227, 0x5851de, 0x989694, 0x3811ba, 0x49ddc1, 0x79916e, 0x905b34, 0x216cd3, 0x6e95d0, 0x75102e]⟩,
   ⟨[0xfe15b, 0x2132f9, 0x7302d9, 0x74464c, 0x6545fe, 0x25178a, 0x37772b, 0xf33555, 0x6628a7, 0x639c7d, 0x17af1b], [0x16001e, 0x346faa, 0x55cc08, 0x6a26ec, 0x272a70, 0x73b255, 0x66c9cc, 0xe05374, 0x31e05d, 0x7241e6, 0x64d29a], [0x904b8, 0xacc3e, 0x5c0bc8, 0x708fa3, 0x6420db, 0x9eb68, 0x7df36a, 0x4c79a, 0x688fb7, 0x1853dd, 0x391517]⟩,
   ⟨[0x45c93c, 0x1ada91, 0x5bef12, 0x652e9c, 0x109290, 0x351b47, 0x649b3c, 0x93b9ea, 0x31c49b, 0x6129d9, 0x18c36f], [0x39f849, 0x76ddfd, 0x4d8e8b, 0xcc9068, 0x257c98, 0x22e647, 0x10e3a5, 0x71627f, 0x4d6728, 0x1036c0, 0x293e1c], [0xa0883b, 0x47d948, 0x29727e, 0x7c052c, 0x64b122, 0x3228b8, 0x4b695, 0x850591, 0x86718, 0x35ae85, 0x1253d1]⟩],
  [⟨[0xb27045, 0x7c6ba4, 0xbba03, 0xd9b116, 0x7774e3, 0x42950e, 0x17a228, 0x2dd987, 0x78ffd1, 0x6cc9e6, 0x2d3c1b], [0xa56d1f, 0x2bb5f0, 0x5fb594, 0x9e3c8, 0x40549b, 0x8e785, 0x5e84b9, 0x3ae65, 0x476b1b, 0x4b6db7, 0x255fee], [0x1d2ac3, 0x53d8c2, 0x53abba, 0x62f195, 0x583dcf, 0x5c7cc7, 0x16b088, 0xe1fd84, 0x3bdf9c, 0x4b6242, 0x78cdd1]⟩,
   ⟨[0x72e704, 0x2a3e71, 0x16610f, 0x9b3715, 0x5fcb07, 0x5d8bcf, 0x320582, 0xa47f78, 0x5e225e, 0x168430, 0x4428ab], [0x4370e5, 0x5d2f9b, 0x189ef7, 0x99c20d, 0x54ecbc, 0x656294, 0x121dd8, 0x9b9829, 0x7e3e6a, 0x3a665f, 0x1efd05], [0x8dca62, 0x6b5ef8, 0x434d75, 0xfaa8b9, 0x11a045, 0x6e5d43, 0x4e67e5, 0x966939, 0x5a4abc, 0x2bc8b7, 0x1b23c1]⟩,
   ⟨[0x4e71f0, 0x91b67, 0x288d0f, 0x3dbf2b, 0x34cdf1, 0x5b1542, 0x7363b6, 0x5ce63b, 0x2fad4, 0x1e8fe4, 0x419934], [0x8f0055, 0x718f3d, 0x464487, 0xb1f62e, 0x1d1dd4, 0x5c579e, 0x761b7, 0xcadfa8, 0x5881b3, 0xcf2a5, 0x236b83], [0xedd83, 0x641c10, 0x77b165, 0x5dfade, 0x2c161, 0x4c0eab, 0x4f8fa8, 0x5182c2, 0x22ee1e, 0x2fc0d1, 0x72b941]⟩,
   ⟨[0xbe3284, 0x265e75, 0x54bbea, 0x9fea89, 0x6a5bc5, 0x468bf6, 0x61091e, 0x21d236, 0x770ddf, 0x44380d, 0x261b8d], [0x48b464, 0x7f870, 0x664579, 0xebb0d3, 0x34fb4e, 0x62bf86, 0x30a6e2, 0x141079, 0x4c4867, 0x21f669, 0x6c48ac], [0x1f1a30, 0x402ccf, 0x2ec836, 0x76e3d0, 0x45490a, 0x74b706, 0x5c524f, 0xa8a8b0, 0x1a4f8f, 0x192d28, 0x65c94e]⟩,
   ⟨[0x53602, 0x50eafd, 0x3dfe2b, 0xbad911, 0xbaa2c, 0x67d960, 0xd9f5e, 0xc75fb5, 0x61e525, 0x42df4c, 0x78bfd6], [0xddf860, 0x64b891, 0xaad9e, 0x55dad8, 0xcd34a, 0x7f4f89, 0x720d9b, 0xc777a, 0x5c019c, 0x7bf2c9, 0x2b11eb], [0x2c702b, 0x152b74, 0x2c06c6, 0xcac7b3, 0x651f98, 0x6bee21, 0x22fc91, 0xd0e1a2, 0xf1226, 0xcb76, 0xad2fb]⟩,
   ⟨[0x3b07a3, 0x5563eb, 0xf5875, 0x4e85ed, 0x4df848, 0x86603, 0x1fe9f6, 0x60b2a8, 0x796256, 0x146d3d, 0x7a622f], [0x659e8d, 0xf45e5, 0x79d2b9, 0xe3f2c8, 0x2fa0a9, 0x43f516, 0x64d221, 0x7af6f, 0x5da3b1, 0x750dd3, 0x3dc647], [0x3a7dca, 0x78f870, 0x59eccf, 0x721f6a, 0x73dde5, 0x52f61e, 0x5e03a9, 0x96290f, 0x7684cd, 0x63a740, 0x273750]⟩,
   ⟨[0x8abf8e, 0x4edc3d, 0x7bbd24, 0x37ea5e, 0x28d8c0, 0x1be0c2, 0x582236, 0x7a566e, 0x1f4783, 0x5f6db4, 0x18f286], [0x40caf8, 0x287c70, 0x2c9166, 0xc254f6, 0x5e2d68, 0x3b46fc, 0x4ea606, 0xd0b9c1, 0x228115, 0x72eea6, 0x471670], [0x20a1fa, 0x75c7d9, 0x5426ea, 0x46b2, 0x76ba0a, 0x50cea6, 0x2d133f, 0x5c8821, 0x406072, 0xa7f19, 0x1740f3]⟩,
   ⟨[0x90884a, 0x146bfd, 0x625fb2, 0xc92b84, 0x97a91, 0x5eacd5, 0x5f0661, 0x870ec3, 0x6d7279, 0x2ce3e6, 0x78f980], [0xa2b367, 0xef557, 0x4ebc90, 0x65b548, 0x4e46d1, 0x6d0ef0, 0x299e83, 0x16d017, 0x4a428a, 0x34582, 0x52ed77], [0x4e0b1e, 0xc37f8, 0x6c666a, 0x436bd9, 0x1fc7fe, 0xd390, 0x6900a5, 0x62d837, 0x6cd0e6, 0x557ad7, 0x2b57b6]⟩,
   ⟨[0x5f93d9, 0x21ec83, 0x57a32b, 0x1cd982, 0x8309f, 0x52b2e6, 0x2068f6, 0xcd4622, 0x5ec9a6, 0x2f2ccd, 0x56dce], [0x3e91e9, 0x2f289, 0x6bf91b, 0x6cbb4b, 0x145a1f, 0x7eca85, 0x4ae385, 0xbc0058, 0x7d219a, 0x406cb9, 0x1586b8], [0xee30f0, 0x94a1a, 0x6c4a5, 0x95bbbf, 0x33b602, 0x5c234e, 0x405945, 0x2f42b7, 0x60f012, 0x547d1, 0x331a12]⟩,
   ⟨[0xae8c48, 0x301b89, 0x30b3a1, 0x30af95, 0x455e58, 0x5d22f1, 0x72d976, 0x7ad824, 0x5d4b7, 0x3e29c4, 0x7d5c6c], [0x610488, 0x575f2e, 0x5ac7fe, 0x74b494, 0x6f1543, 0x29b2a, 0x2b9948, 0x57d800, 0x52921b, 0x117385, 0x1058c5], [0xea545b, 0x32e693, 0x4af898, 0xffe54c, 0x39ecd8, 0x93986, 0x4575d9, 0xcdb661, 0x7a392e, 0x1939c, 0x28d022]⟩,
   ⟨[0xda7b5b, 0x30ffbd, 0x548e82, 0xdd7d1e, 0x373e22, 0x60ea9c, 0x463822, 0x91df8b, 0x1801f8, 0x46d441, 0xc8688], [0xee0cc8, 0x699131, 0x427e3, 0xf43a07, 0x318e56, 0x415f0b, 0x65b06d, 0xc66deb, 0x69c98f, 0xb21d5, 0xb711d], [0xd0339c, 0x2e2e3b, 0x573739, 0x7f843c, 0x12f74d, 0x1934ca, 0x11ddd6, 0xdf048b, 0x4d7027, 0x5b0107, 0x69d6bf]⟩,
   ⟨[0xf44c75, 0x3f20fb, 0x11ce27, 0xf7e2a9, 0x6914f7, 0x20c3e4, 0x683aaf, 0x7de3a9, 0x1e6e79, 0x6f6af, 0x563c95], [0x4904b2, 0x517306, 0x49e4d2, 0x459886, 0x1e326b, 0x3af2a6, 0x4f40c8, 0x72bf1a, 0x692e44, 0x46ef04, 0x7235c7], [0x99c193, 0x32477b, 0x64c855, 0xf64b95, 0x6d6de1, 0x38972c, 0x2e92a5, 0xfb0d34, 0xa7fb, 0x436d2a, 0x2ae23c]⟩,
   ⟨[0x5b55ee, 0x269fc6, 0x31abd5, 0xaffae5, 0x7cf80, 0x3582ab, 0x4aa0da, 0x3b2950, 0x27722c, 0x6da175, 0x538d39], [0xe803aa, 0x78e9fa, 0x599f4, 0xc7d432, 0x482f43, 0x31edc5, 0x7e0348, 0x99ead8, 0x384f4d, 0x4dacd4, 0x46ad0d], [0xa97546, 0xfb21c, 0x15497c, 0x8e62d2, 0x505de5, 0xb95c5, 0x23edff, 0x264b13, 0x2bcd90, 0x627803, 0x36514f]⟩,
   ⟨[0x89e077, 0x36adda, 0x1647f5, 0x88678c, 0x2d4f15, 0x4ad6ca, 0x239ef, 0x784b5b, 0x3fa0b6, 0x1178a4, 0x506faf], [0xb41f08, 0x501231, 0x193b29, 0x837915, 0x52be13, 0x67a94c, 0x80e1a, 0xff39eb, 0x12e0b7, 0x4446b, 0x1fd9a4], [0xeaa0da, 0x2dd110, 0x768bf0, 0x174ee3, 0x6b40a2, 0x4308c1, 0x6a7d56, 0x80ef9c, 0x6c09df, 0x24e1d, 0x25ffc]⟩,
   ⟨[0x7cfbb3, 0x8b1dc, 0x221743, 0xe6686b, 0x152bce, 0x1317d6, 0x437ccd, 0x2fc802, 0x6681b5, 0x462383, 0x7a6155], [0xc0616e, 0x65b50f, 0x575631, 0x8ae62d, 0x1a3daf, 0x1cb629, 0x690a5, 0xe40af, 0x27b0f1, 0x30a43b, 0x3d750b], [0x6e7c1, 0x1f7e8d, 0x7ddeb5, 0x3e61d8, 0x52f00a, 0x7f477, 0x2fcf5, 0xe51dda, 0x710b09, 0x162a00, 0x70e436]⟩,
   ⟨[0x89b486, 0x508b10, 0x504cd3, 0x7cbef5, 0x401259, 0x16a84c, 0x5ddaf1, 0xca278e, 0x5227af, 0xa6d32, 0x25f71b], [0x9ce1f9, 0x535376, 0x38a997, 0x8fcf77, 0x1681be, 0x30bb0d, 0x79d5c2, 0xccb407, 0x115e29, 0x6bea8d, 0x77df80], [0x328f3, 0x62691b, 0x429269, 0xd14de5, 0x1b9543, 0x310721, 0x5a6271, 0x77ee6, 0x6695bc, 0x502870, 0x5376f2]⟩],
  [⟨[0xf38262, 0x203985, 0x29479b, 0x57d8a4, 0x2352df, 0x5a3de0, 0x38fc9d, 0x5e69ce, 0x7195c8, 0x7f3f0c, 0x75aa44], [0xa2b12a, 0x5ab91, 0x5801e, 0xbd3e26, 0x4a3566, 0x39622b, 0x196466, 0x3385df, 0x464f26, 0x348d32, 0x6b3d82], [0x65745b, 0x756984, 0x663b1, 0xf8fadd, 0x5d0dd6, 0x5a5e23, 0x21b9be, 0x9bbee7, 0x3310a0, 0x8941e, 0x6efbef]⟩,
   ⟨[0x8285af, 0x32d42c, 0x4a921f, 0x501992, 0x684dbf, 0x1a5365, 0x36abf8, 0x4599ab, 0x3153d1, 0x4357b7, 0x289208], [0xbf2760, 0xc24c0, 0x57e755, 0xfb090, 0x7f2fa3, 0x34386d, 0x4d0670, 0x7d5f67, 0x770e2c, 0x4f400f, 0x4ca31], [0xc5736b, 0x25de46, 0x184c66, 0x2454e1, 0x6c791a, 0x695e64, 0x5f1a3, 0xd89a22, 0x339085, 0x612026, 0x11e398]⟩,
   ⟨[0x580ed8, 0x351562, 0x3ac56c, 0x82a872, 0x9388, 0x59018d, 0x428e6f, 0x44580d, 0x397d38, 0x1413bf, 0x19acca], [0xebf493, 0x65b688, 0x475cb8, 0xc5271, 0x1fa36c, 0x2065f1, 0x1e357d, 0x2e3a47, 0x7d686d, 0x16a68a, 0x662c00], [0xbbb7e7, 0x118b8c, 0x257ea2, 0xeae0bf, 0x534b32, 0x2c3391, 0x5f91a4, 0x9cc53c, 0xd1f59, 0x44b89f, 0x4e2285]⟩,
   ⟨[0x27c85c, 0x34e4d0, 0x34ee41, 0xc14f, 0x466e36, 0x12ed82, 0x4ab2cc, 0xbb7b93, 0x13ee11, 0x71aadd, 0xe9430], [0x48606f, 0xe389d, 0x5b7915, 0xda42a8, 0x3e8287, 0x1d2af2, 0x44ca11, 0xc9b883, 0xb95fa, 0x571771, 0x2fd7f4], [0xdd2691, 0x71c20d, 0x544e37, 0x458c30, 0x5ed950, 0xa642e, 0x316b6, 0xf34871, 0x30b700, 0x7d4aa7, 0xe8f8f]⟩,
   ⟨[0xafdfd3, 0x23ab6d, 0x3a134b, 0x7521af, 0x2e2236, 0x146df2, 0x201697, 0x389a1, 0x48be72, 0x3fd0b3, 0x3ad399], [0x453802, 0x58f172, 0xbd847, 0x5fe8c6, 0x40628c, 0x4614b8, 0x4205d4, 0x259f68, 0x76f623, 0x678707, 0x57c6d8], [0xdb4a5b, 0x4a2766, 0x614411, 0x510ec4, 0x7473cf, 0x51cb0e, 0x14ec5f, 0x483e0, 0x1f7ae6, 0x78a5ec, 0x3fc5c6]⟩,
   ⟨[0xe73cf6, 0x365645, 0x26ee89, 0x6ac701, 0x7831f1, 0x393fc7, 0x3e80c, 0x8ecbe8, 0x27b4a8, 0x37554f, 0x6ad6bd], [0x1857e4, 0x657687, 0x36b228, 0x6a820e, 0x459485, 0x2aa7da, 0x31670e, 0x99f393, 0x23d587, 0xb8d51, 0x67f4be], [0x604b7f, 0x531996, 0xf3a4c, 0xefd0bb, 0x1d4914, 0x4c04b3, 0x3d908, 0xaa3218, 0x403685, 0x72eb6a, 0x2176b1]⟩,
   ⟨[0xdc72d5, 0x53c100, 0x6992e3, 0x532ca0, 0x4d3ad9, 0x16b1f6, 0x776f4b, 0x6ecd70, 0x4fc6e0, 0x766557, 0x19e21f], [0x2b1672, 0x3c3fdf, 0x324542, 0x7b582b, 0x2ad86, 0x528c4e, 0x3d3509, 0xd075ca, 0x783a6b, 0x32d6b0, 0x655b92], [0x67e0b1, 0x1d8e27, 0x2f0272, 0xbbeb09, 0x17c396, 0x5b451c, 0xadc03, 0xf50759, 0xde4c0, 0x6bad90, 0x15a7a2]⟩,
   ⟨[0x9da550, 0x4309ea, 0x6fdd59, 0xc427da, 0x454a59, 0x5b8e71, 0x341b12, 0x252cd4, 0x111ff0, 0x7e3827, 0x48f3dc], [0xbc3fd8, 0x513d87, 0x4f4bb, 0x40e743, 0x7cd878, 0x10c877, 0x5f89c4, 0xf5cb3e, 0x74c6fa, 0x6d3b3f, 0x27626c], [0x4fe9aa, 0x1a4c25, 0x5fc4b0, 0xc432af, 0x5e26e5, 0x3b434e, 0x27cff2, 0x43d716, 0x59b5a6, 0x333789, 0x11248b]⟩,
   ⟨[0xca0b46, 0x797c4c, 0x25673c, 0x4c5796, 0xf4352, 0x477e09, 0x7ce235, 0xb62ddb, 0x398769, 0x598708, 0x2aa80b], [0x6334cd, 0x7e78a, 0xb78b3, 0x945807, 0x5e6e86, 0x5554d4, 0xa6b65, 0x306d92, 0x5d12e8, 0x3deb11, 0x385db1], [0xa5e84, 0x6d3e68, 0x756665, 0x4a1477, 0x348b5c, 0x48952e, 0x2edcd0, 0x17a1f7, 0xd0b6a, 0x2cc6d4, 0x357331]⟩,
   ⟨[0x79d8a5, 0x7c1d32, 0x26f73e, 0xdc858c, 0x2cff0f, 0x7fa1d8, 0xaa161, 0x9e41a9, 0x9d873, 0x4c0e2c, 0x1db409], [0x18d65b, 0x22cd31, 0x390f42, 0xd8fca4, 0x6663c5, 0x19722c, 0x7f6b0a, 0xa630e3, 0x6e4a27, 0x21d1b6, 0x2aac94], [0x18c372, 0x54fa42, 0xefd69, 0x11780f, 0x1a67db, 0x6e5fa4, 0x414397, 0x7903cc, 0x6a8416, 0x7eaa7f, 0x2fe26b]⟩,
   ⟨[0xe4631a, 0x519a42, 0x4d5d8f, 0xc6e606, 0x53595, 0x4eb9d1, 0x5a269c, 0x3e8b00, 0x162354, 0x7e07b4, 0x3af53b], [0xb6eb19, 0x555d97, 0x633e65, 0x99187d, 0x227ae7, 0x1674b2, 0x5e8c81, 0x5b7df9, 0x55e4bb, 0x56a5e1, 0x19f876], [0xb4688b, 0x5f4304, 0xb39bd, 0x4e7f2b, 0x313a32, 0x7002f9, 0x31eb5f, 0xc85095, 0x425a62, 0x328356, 0x7ef956]⟩,
   ⟨[0xe0c2e0, 0x585fe0, 0x75ab74, 0x41e028, 0x6cae63, 0x3c54c9, 0x1036ea, 0x2b7f12, 0x144d5c, 0x7374db, 0x750f36], [0x61bb41, 0x36024e, 0x655a71, 0x4fc91a, 0x14b38e, 0x3d62db, 0x72a235, 0x3b2c40, 0x2c0290, 0x5feb15, 0x61089a], [0x85ece4, 0x332265, 0x42796c, 0xfd5f30, 0x4c81da, 0x7089, 0x6ea425, 0xb807c7, 0x459e0f, 0x181b93, 0xb0e1b]⟩,
   ⟨[0x9efe70, 0x4e468a, 0x77e5aa, 0x1467ef, 0x20c382, 0x55629a, 0x5ca999, 0xbefb9d, 0x5a686b, 0x10351c, 0x5963db], [0x1e85f3, 0x14333a, 0x6927c7, 0xf08f00, 0x634ad4, 0x22a5f2, 0x3b4641, 0xa28090, 0x3fc621, 0x2b49c0, 0x555df3], [0x7c3d87, 0x2efa77, 0x567ec8, 0xd46233, 0x590994, 0x45579d, 0x6388f, 0x4c41fa, 0x4c71dd, 0x7bf667, 0x57a3c7]⟩,
   ⟨[0x93682f, 0x73ef9, 0x19c616, 0xc17e8f, 0x2702cf, 0x5f528e, 0x19b458, 0x52a2e0, 0x425491, 0x18aed3, 0x6f6dae], [0x82401a, 0x4d0e66, 0x3a3362, 0x3d1a93, 0xe6bf3, 0x17967b, 0x117afb, 0x8cb04a, 0x2ca224, 0x67dcb, 0x56dea4], [0x5f1a62, 0x6af62d, 0xd1e62, 0xccee42, 0x512ec5, 0x2c191c, 0x65b2c8, 0x567d2b, 0x6a4bc8, 0x11359a, 0x3ab09b]⟩,
   ⟨[0x72355e, 0x290653, 0x453126, 0xda22da, 0x4311ea, 0xc95c7, 0x5da2d6, 0x48ee2e, 0x7ac207, 0x29bc84, 0xa0dfc], [0x4ef0ce, 0x747296, 0x818ab, 0xbe8543, 0x41f6f4, 0x448449, 0x153e5f, 0xaadd33, 0x35b84c, 0x69eae8, 0x217dbd], [0x2db2a4, 0x1158c1, 0x2f9514, 0x428ae0, 0x71d932, 0x2d6ce8, 0x2f0fa, 0x1eb77a, 0x41c021, 0x779647, 0xb4b0]⟩,
   ⟨[0x2bca29, 0xd6e00, 0x2a8d45, 0xe65f5f, 0x32b3e8, 0x1dda5d, 0x17aec6, 0xcce901, 0x2418b9, 0x3f180d, 0x754b21], [0x1e8828, 0x4de168, 0x365565, 0x3e7f08, 0x22ee0, 0x43c370, 0x66c1d6, 0x33e762, 0x21e80e, 0x22e1ce, 0x39049c], [0x1aeeab, 0x4e9952, 0x6cd381, 0x319f16, 0x4b6eed, 0xe8c3b, 0x33c702, 0x74a7b1, 0x55f862, 0x70547, 0x1ab4f3]⟩],
  [⟨[0x2ab480, 0x491f21, 0x7d1d9b, 0x17861d, 0x4e0965, 0x4f9835, 0x2889ab, 0x254b0e, 0x3f4ece, 0x645245, 0x3de09e], [0xbffa33, 0x1e566, 0x48223d, 0x81ac1b, 0x75facf, 0x288ca5, 0x319699, 0xe70935, 0x3afcdf, 0xd446c, 0x1ff61c], [0xcfc3ee, 0x53ec31, 0x556c71, 0xb61e4f, 0x19b811, 0xe942f, 0x6b460a, 0x28cecd, 0x53755c, 0x6a36ad, 0x74830b]⟩,
   ⟨[0x32b148, 0x574a20, 0x258660, 0xa32e9a, 0x666b0c, 0x50b448, 0x375197, 0x7c7568, 0x54c0ef, 0x3c6296, 0x451e25], [0x1f0527, 0x15c673, 0x2f100d, 0x51ad70, 0x120973, 0x2a4934, 0x340af5, 0xdb9742, 0x743fb7, 0x457edd, 0xceb92], [0xf5b12c, 0x53626f, 0x7f2969, 0xf9a729, 0x33c947, 0xf3ba, 0x207b91, 0x63f460, 0x12f8fd, 0xb32a2, 0x3e578a]⟩,
   ⟨[0xb1fe77, 0x298801, 0x11596, 0x1ac338, 0x1d0e96, 0x5e3714, 0x3de2f3, 0xaf9e64, 0x187ee5, 0x4f7e2c, 0x17c5d3], [0x71ba87, 0x241d87, 0x34f745, 0x4090c, 0xa1932, 0x42add3, 0x53459c, 0x7be02e, 0x3d62a3, 0x15988b, 0x6aad49], [0x367a73, 0x7f03c1, 0x2cae51, 0x29d218, 0x14e4a9, 0x54032d, 0x62f02d, 0xdcddad, 0x7ee1cd, 0x1d0b5c, 0x569fe0]⟩,
   ⟨[0xbcadf6, 0x75341c, 0x398e24, 0x3bf613, 0x1e10c, 0x65feac, 0x24d15c, 0x196783, 0x51862b, 0x6c2018, 0x2a0826], [0xf6ee57, 0x11cd5c, 0x1f7638, 0x5f98c2, 0x1f7049, 0x3964a1, 0x5657be, 0xdee9f7, 0x26beec, 0x319b9b, 0x345293], [0x6bdda7, 0x30b11f, 0x2600ea, 0x461976, 0x1593e9, 0x6f183c, 0x3abb5a, 0x18f1a8, 0x390978, 0x5156d, 0x75aed]⟩,
   ⟨[0x1bd2d5, 0x578b39, 0x7fe095, 0x46afa9, 0x2148e8, 0x17c3cd, 0x6ae351, 0x63f7ab, 0x50aa1e, 0x4184f5, 0x69223d], [0x86a15a, 0x33ad1f, 0x6a0376, 0xc44a80, 0x1de4da, 0x819b5, 0x275a25, 0x5ea5cd, 0x22aa1b, 0x4a1528, 0x41a71a], [0xf443d0, 0x7f9618, 0x5e374d, 0xc0032c, 0x5bc03c, 0x225f6a, 0x2f1161, 0x62cb7e, 0x527b02, 0x5aad7f, 0x585c83]⟩,
   ⟨[0xd110a1, 0x4b6af7, 0x84690, 0xf276ef, 0xf67b, 0x1870dc, 0x10fcb3, 0x392cfe, 0x2086d8, 0x7424af, 0x202355], [0x77c6c, 0x25e823, 0x6ef81b, 0x540f85, 0x2c8af2, 0x13c77b, 0x1c4d2f, 0x1021d9, 0x146f24, 0x3599f3, 0x4b4ccc], [0x4cd365, 0x179717, 0x39a122, 0xb62616, 0x7aee90, 0x29164e, 0x39438a, 0xcba485, 0x428dc8, 0x313356, 0x6e6a72]⟩,
   ⟨[0xcf5614, 0x163606, 0x2ca6ac, 0x6ea0b2, 0x6da8ee, 0x19bdf3, 0x6043af, 0x8aa760, 0x2e08f1, 0x37973a, 0x29b40d], [0x379a65, 0x52e429, 0x68686b, 0xc69c90, 0x4e9422, 0x366023, 0x2260f4, 0x5baf5b, 0x678a6, 0x460da, 0x4f4340], [0xe03b58, 0x7b260b, 0x5ba74c, 0xbd1a46, 0x9dc7b, 0x118343, 0x21428, 0xffed5, 0x72d7e6, 0x3dcfb6, 0x3ab926]⟩,
   ⟨[0x77649d, 0x5389b7, 0x4d6e76, 0x936f59, 0x463e7c, 0x6d778a, 0x9db6f, 0xa424f1, 0x52f5cc, 0x7e60de, 0x4279fb], [0xa7028f, 0x7ea950, 0x1efbd6, 0xbda79f, 0x7af7cc, 0x279c7c, 0x6c7303, 0xe939ac, 0x354019, 0x187cf7, 0x183d31], [0x42f626, 0x74ea5e, 0x538c9a, 0xaf163a, 0x4c692d, 0x23faa0, 0x775e16, 0x62dab8, 0x7d6702, 0x1b38c5, 0x1e3974]⟩,
   ⟨[0x4f9403, 0x748471, 0x211b76, 0x1efc08, 0x5b213f, 0x3e9002, 0x785b3c, 0xe45607, 0x3d477b, 0x282def, 0x504a42], [0xbf7fbb, 0xa066a, 0x679d4, 0xbb2351, 0x7d83ca, 0x612d60, 0x31501, 0xf4cab2, 0x2155c8, 0x3a8f2c, 0x169bc2], [0x357b5, 0x6b1266, 0x2bcbf3, 0xa64dff, 0x66d9de, 0x57385b, 0x5050ff, 0x6fc06f, 0x28e483, 0x51ef87, 0xcc48b]⟩,
   ⟨[0xed9e35, 0x23a04e, 0x24255c, 0x70038e, 0x46a52b, 0x4e9c3f, 0x6c8ba2, 0xd8ed9c, 0x6f6a03, 0x3098c4, 0x5d825f], [0x8fa640, 0xb9382, 0x11cd48, 0x34f5d, 0x59465f, 0x70da45, 0x649f15, 0x54ee9e, 0x3d37b0, 0x4361c8, 0x2cb478], [0x12d22e, 0x674682, 0x70c891, 0xfc49fe, 0x3af178, 0x77ef15, 0x7cf642, 0xe36298, 0x2fefef, 0x70adfb, 0x674e26]⟩,
   ⟨[0xe45f49, 0x42ab1c, 0x5b58ee, 0x9a5641, 0x4084d4, 0x776081, 0x4873ec, 0x91b439, 0x49547a, 0x61ef9f, 0x209c2c], [0xacb336, 0x2e07d, 0x6207cb, 0x44dae2, 0x17a196, 0x6b179d, 0x5cfadf, 0x81bd0, 0x2587d0, 0x5aa501, 0x27a6e9], [0x94228f, 0x636dc, 0x5a4102, 0x3e66b4, 0x11f6cd, 0x38e6fd, 0xb5086, 0x50e978, 0x5ae74c, 0x246161, 0x7e9879]⟩,
   ⟨[0x65cc5a, 0xbd258, 0x167fac, 0xe5d799, 0x2dcfc5, 0x45b74c, 0x57c88, 0x38384f, 0x3413fe, 0x625cff, 0x14ce5], [0x38e62f, 0x4b5ee4, 0x4adc3f, 0x62ff7c, 0x1110e4, 0x7c7151, 0x2f8915, 0x68f26b, 0x38a310, 0x2e8d53, 0x31786b], [0x4de3f1, 0x36913, 0x6704fb, 0x3944f4, 0x3e4ad6, 0x1a01ba, 0x2e0d68, 0x4a2407, 0x47ba89, 0x3808bf, 0x70e238]⟩,
   ⟨[0x1b2f70, 0x6f3bcd, 0x20c220, 0x971e3d, 0x67dc3e, 0x154916, 0x7ee08e, 0x9fb7e0, 0x164a27, 0xd51, 0x44a8c], [0x441852, 0x4183c7, 0xb05da, 0x765798, 0x2fe415, 0x78f9d1, 0x49fde6, 0xd85938, 0x404646, 0x5b14a2, 0x151434], [0x1eceb3, 0x723b7f, 0x73fb3c, 0x55508d, 0x2c2d2b, 0x40f43e, 0x1cbd6a, 0x15808, 0x13e380, 0x778472, 0x14758c]⟩,
   ⟨[0xd4475b, 0x404279, 0x6905b8, 0xf7fb57, 0x73bda7, 0x269082, 0x6b26ed, 0x27d833, 0x1e216f, 0x1360d4, 0x115751], [0xe38dd3, 0x54a13c, 0xebf81, 0x10f4e8, 0x39ab55, 0x31188e, 0x27d686, 0xc9a0df, 0x39bd06, 0x350b58, 0x7d7257], [0xa31782, 0xf1c0e, 0x2c8f03, 0xd72648, 0x39c85f, 0x4a1c54, 0xff85a, 0x26a90f, 0x2b4e8c, 0xa4d59, 0x50b904]⟩,
   ⟨[0x6238be, 0x175795, 0x538917, 0x7bd984, 0x292fc6, 0x80628, 0x1b5d25, 0xd80a64, 0x5b034b, 0x167e5d, 0x421184], [0xba4129, 0xfc466, 0x3f5ca0, 0xb0084a, 0x3b6970, 0x79c8bb, 0x6f3e63, 0xd86f54, 0x3a31f7, 0x382189, 0x5ceab5], [0x41a489, 0x4b3ef7, 0x591ec7, 0xf08aa6, 0x580111, 0x6b198, 0x31386e, 0xec23a3, 0x7f21fd, 0x5e25f3, 0x47ac14]⟩,
   ⟨[0xab4bf3, 0x70ed4e, 0x1dfaa3, 0x6f788d, 0x470ef, 0x5f6cc, 0x317fcc, 0x341719, 0xaf8e5, 0x265856, 0x4ea29a], [0xbd8ce2, 0x19149b, 0x10c6c2, 0xd9e127, 0x6b514e, 0x755f77, 0x4e4772, 0x398a6d, 0x32566c, 0x29f76, 0x50b40a], [0x8b1a27, 0x4ec0c5, 0x69ed34, 0x1088e0, 0x4cd905, 0x697e9e, 0xa4361, 0xa3e043, 0x58f3e3, 0x2d4e70, 0x6c75f0]⟩],
  [⟨[0x5ab8bd, 0x29d680, 0x6977b, 0x74f696, 0x48954, 0x28f214, 0x45a271, 0xdb9c5, 0x141e0b, 0x64eaf4, 0x16fa62], [0xdd9a68, 0x20101a, 0x6747c5, 0xc02a2d, 0x551617, 0x318d4b, 0x3d5380, 0x3b36ce, 0x42c7b9, 0x68c9ef, 0x786cd], [0x92daa3, 0x6f3072, 0x25bb51, 0x82e155, 0x2995e2, 0x86eac, 0x4295af, 0x15cf09, 0x217df, 0x25c6ff, 0x6a1ff6]⟩,
   ⟨[0x68992f, 0x37a443, 0x4e52b8, 0xeb4dd5, 0x732f40, 0x39e0fa, 0x35516b, 0xd1ff12, 0x7b9904, 0xd042, 0x61bea7], [0x6695e1, 0x79a990, 0x7d995e, 0x8ea8ce, 0x24e995, 0x9615c, 0x3cf6ce, 0x77f8e, 0x350417, 0x62cac6, 0x6858a], [0x22b953, 0x3b5df9, 0x4aedee, 0xceec5, 0x3887f6, 0x254bb, 0x1856bf, 0xb16f48, 0x226205, 0x1dde25, 0x6802a0]⟩,
   ⟨[0xd029fb, 0x24ff9c, 0x3692b5, 0x3d6298, 0x5113aa, 0x16bb74, 0x207b6f, 0xcfd145, 0x1a0c73, 0x3dd3f4, 0x4ac618], [0x7e0f78, 0x342407, 0x7bf737, 0x8c11e4, 0x1d19af, 0x23a2dd, 0x538e8d, 0x26531, 0x2a0077, 0x2fbd3b, 0xd23ee], [0x9b883d, 0xc8276, 0x6f819d, 0xfc2912, 0x382987, 0x7e7030, 0x3ef8e1, 0xe2007a, 0x8d395, 0x3f0615, 0x63c97]⟩,
   ⟨[0x156cde, 0x7ea553, 0x4022d6, 0xdfb476, 0xaa93d, 0x75aad5, 0x5ca989, 0xf4319e, 0x6f4102, 0x2ebd52, 0x4c0f6f], [0x2f3abe, 0x2c0332, 0xc7b65, 0xe76c78, 0x2aea4e, 0x419f87, 0x340b29, 0x39375f, 0x5747d0, 0x2fbd65, 0x56d9bf], [0xf9e607, 0x92305, 0x5a5130, 0xb7a777, 0x393b42, 0x2198a4, 0x44f3be, 0xb56c11, 0xc5006, 0x14f3d3, 0x204c61]⟩,
   ⟨[0xaa29be, 0x452fb8, 0xdf2b9, 0xf57aea, 0x309807, 0x39fb85, 0x505f6f, 0xc3979a, 0x37d4c6, 0x63a3a0, 0x41bb59], [0x979a22, 0x11a314, 0x4dcd17, 0x73157e, 0x7ea111, 0x5ca164, 0x7d14d4, 0xf4dd95, 0x65ea29, 0xa8618, 0x458e9c], [0x166f58, 0x3902f4, 0x5df4f1, 0xfd1412, 0x65a422, 0x5c9158, 0x7fa83f, 0x1b6003, 0x3e37a1, 0x558ca7, 0x5f8b80]⟩,
   ⟨[0x58d515, 0xe279b, 0x61a7dc, 0x30ff7e, 0x36ef25, 0x545909, 0x71356e, 0x9fa397, 0x6064cf, 0x23899b, 0x23c04a], [0x70b892, 0x3c225c, 0x641506, 0xbc6e0a, 0x67df77, 0x1c1328, 0x6fb16a, 0xddc3ef, 0xc0a82, 0x35bbbf, 0x18d630], [0xf762a4, 0x6436a9, 0x68efb4, 0xaaee79, 0x1fa040, 0x5be9b2, 0x68c25e, 0x69171c, 0x69727d, 0x4d3596, 0x7d2d07]⟩,
   ⟨[0xe0a6b1, 0x537bd4, 0x732e56, 0x54667, 0x504f91, 0x5bea24, 0x3816a4, 0x6cac1f, 0x94c1a, 0x7e0d77, 0x1f325b], [0x56c790, 0x696172, 0x4393f7, 0x7bc7d, 0x24008c, 0x632185, 0x39d510, 0x776c63, 0x5303c0, 0x488334, 0x4a46b9], [0xcab13c, 0x7b99b0, 0x716826, 0x90aadc, 0x3c39e0, 0x62ef5a, 0x220c12, 0x4d0b33, 0x4e1e9f, 0x9fa96, 0x553213]⟩,
   ⟨[0x250f6d, 0x7501a6, 0x3b682c, 0x44d730, 0x649a14, 0x32bfce, 0x66adb8, 0x34ed5b, 0x43d7b2, 0xffb9, 0x5a4861], [0x3b7613, 0x1d6fb, 0x3d0b17, 0x7e0dc7, 0x5bc5c1, 0x3bb331, 0x62230b, 0x61ecc7, 0x5ddb12, 0x2700a7, 0x258078], [0x5856c3, 0x46b785, 0x2ee0a7, 0x316f2c, 0x1a3aab, 0x69ef00, 0x2a746, 0x99ddea, 0x4753d7, 0x62170c, 0x4ca608]⟩,
   ⟨[0x96b8dd, 0x4957f8, 0x7298e2, 0x8a7b5f, 0x1a2bb, 0x4d7f56, 0x560362, 0x1642a5, 0x17f72e, 0x3b6605, 0x390b61], [0x15f82f, 0xe8511, 0x668d3b, 0xc4b091, 0x3c935d, 0x5d4f5f, 0x65aff6, 0xc88375, 0x488074, 0x260091, 0x32a589], [0xbcd3e4, 0x73bd2c, 0x537827, 0xc860a9, 0x23cb46, 0x4af7e7, 0x55a3fb, 0xd9298a, 0x2a1c35, 0x1d8443, 0x625170]⟩,
   ⟨[0xcc32c8, 0x25b8dd, 0x33759b, 0xb90e61, 0x53232d, 0x622cca, 0x3f2b2b, 0x12ce87, 0xfed16, 0x517920, 0x26e2bc], [0x33b8df, 0x6bd2b2, 0x2c06a6, 0x7b255f, 0x49e009, 0x109815, 0x41610e, 0x7aa99d, 0x4d2604, 0x1c2975, 0x419560], [0xf4c3f1, 0x358166, 0x47a4ef, 0xb32b54, 0x7f5298, 0x60c7dc, 0x4550b3, 0x381199, 0x4d1985, 0x3008ad, 0x1e997e]⟩,
   ⟨[0x80a2dd, 0x11a8a1, 0x763776, 0x37a4e8, 0x2defd0, 0x5cc3a3, 0x2cd3a, 0x3bde69, 0xd3c3b, 0x468707, 0x2c6250], [0xdc4853, 0x13ff85, 0x6f92a3, 0xe2dc5b, 0x2ba1bf, 0x69003c, 0x696b4a, 0x1fea22, 0x737e75, 0x2dda93, 0x682793], [0x792d5c, 0x756880, 0x16dedc, 0x132ff7, 0x28f65f, 0x687d6b, 0x42db10, 0xf60f17, 0x244567, 0x5ea7ee, 0x680ee7]⟩,
   ⟨[0x17ad54, 0x226170, 0x248f16, 0xe68159, 0x1f85b5, 0x5aec69, 0x207c21, 0x80bd65, 0x72c461, 0x826bf, 0x721cfe], [0x221394, 0xf6241, 0x312d0b, 0x7310be, 0x6d18ed, 0x9b7dc, 0x2adc6, 0x9d4b71, 0x652c01, 0x1193c0, 0x6cdfd9], [0x441b95, 0x5f316e, 0x55a1a, 0x8abfdb, 0x50b1c9, 0x219ee2, 0x3c70ae, 0x4c49ae, 0x791825, 0x4ea87d, 0x1c346c]⟩,
   ⟨[0x633e8b, 0xd64e6, 0x43ad57, 0x56000c, 0x22a710, 0x1cf6e7, 0x61c894, 0x29fcc0, 0x63a2a7, 0x2f042f, 0x6d9c7b], [0xc0114a, 0x54c9f, 0x14a30, 0x8750dc, 0x14f782, 0x5bddb7, 0x48ffa9, 0x6f51b9, 0xacd25, 0x1c791b, 0x6f027e], [0x59be30, 0x4c8aa, 0x1eefa6, 0x969a3f, 0x2541ff, 0x21eae, 0x2335ef, 0x7b34f0, 0x5812f4, 0x35961a, 0x18e93c]⟩,
   ⟨[0x3d4aca, 0x2344e6, 0x5ae7c9, 0xc22f17, 0x53f5f0, 0x37abd3, 0x64dd19, 0xa742a2, 0x762397, 0xe9eef, 0x47d34], [0xe9b3bb, 0x532d39, 0x4e866e, 0xf7d682, 0x2aca85, 0x552578, 0x33fa4b, 0x977782, 0x3d410e, 0x3548b, 0x54fc74], [0xc8bbff, 0x13f345, 0x58e472, 0x274591, 0x5597a6, 0x13e285, 0x57d3bb, 0x92d7c6, 0x500460, 0x488cb7, 0x6800fe]⟩,
   ⟨[0xaa79, 0x2c098b, 0x759a30, 0x2c7125, 0x199ddc, 0x75546e, 0x559a27, 0xdf24bf, 0x151f99, 0x3c4c5b, 0x2eaf89], [0xdc697b, 0x751fa8, 0x77c24f, 0x38c1a6, 0x13ebd3, 0x23a808, 0xb2621, 0xc685db, 0x581796, 0x57d263, 0x4e256], [0xe52262, 0x1d22bd, 0x6a26a0, 0x85e1ca, 0x3ec7b7, 0x2ffb62, 0x67736a, 0xef293f, 0x61c4fe, 0x730aa3, 0xeb2f6]⟩,
   ⟨[0x641095, 0x58d612, 0xaae18, 0x29dff3, 0x1553, 0x7f0860, 0xf0ed0, 0xa86e36, 0xdbf80, 0x31f7b2, 0x229559], [0x3d6ea7, 0x417eb0, 0x30eed3, 0x76b04c, 0x6404b7, 0x647e89, 0x38e725, 0x955982, 0x44f11a, 0x30eb34, 0x60a0e2], [0xffba33, 0x576743, 0x7b4196, 0x65fceb, 0x147f68, 0x753f2e, 0x2ce14e, 0x4cc9fa, 0x8d7b1, 0x4c33d1, 0x45eb11]⟩],
  [⟨[0x178112, 0x4144ef, 0x15e475, 0x280993, 0x3dfa25, 0x316893, 0x13a505, 0x2e8e8c, 0x1be3b1, 0x4a5354, 0x5737b1], [0x5ee99b, 0x738ec3, 0xeebf1, 0x6eaa11, 0x6ec5b6, 0x137dde, 0x77237c, 0xb7f2c7, 0x6d2a26, 0x5b944f, 0x77b72b], [0x288c6e, 0x5166d7, 0x48279b, 0x9e9476, 0x21c271, 0x71beb4, 0x4e74b9, 0xf2f6d4, 0x498ef2, 0x769444, 0x393f71]⟩,
   ⟨[0xcf7e6b, 0x1c84ee, 0x375656, 0x982b0d, 0x15275a, 0x37c644, 0x419783, 0xe2fd75, 0x5830c6, 0x3dddef, 0x1d4931], [0x6f71d9, 0x13f2a3, 0x7e4cc9, 0x48b895, 0x6e0b00, 0x535cf4, 0x4f83cb, 0xe80d3a, 0x2893b7, 0x39af63, 0x756654], [0x2dd089, 0x5b7963, 0x147eef, 0x8fe97d, 0x74de7f, 0x38f059, 0x424b8b, 0x510ff5, 0x2a9db5, 0x40775a, 0x23ec28]⟩,
   ⟨[0x4ffe86, 0x5a8445, 0x7b9be4, 0x3cb951, 0x3da9e0, 0xb053f, 0x68f80d, 0x8b792c, 0x6e5c50, 0x709425, 0x695574], [0x55360d, 0x304400, 0x7e3e9a, 0x42d95, 0x6a420d, 0xde570, 0x12f771, 0x7bf1d1, 0x5e64d1, 0x1011de, 0xfd8b3], [0x35ff69, 0x66f82f, 0x765895, 0xf5bc13, 0x559afc, 0x165b92, 0x1a82f9, 0x4b92a4, 0x6ff84f, 0xc3427, 0x62c571]⟩,
   ⟨[0x1b13d2, 0x1ab645, 0x7c40ce, 0x7ea6af, 0x411986, 0x393a3e, 0x3ce614, 0x6d6293, 0x3d6770, 0x3cbad3, 0x5f61b3], [0x7f1514, 0x563424, 0x333c42, 0x91b025, 0xac50c, 0x572275, 0x592815, 0x2db85e, 0x12adb7, 0x696d1d, 0x924e7], [0x8a69b5, 0x42a7c5, 0x7608db, 0xe7f3e0, 0x5993d5, 0x4961e, 0x76a481, 0xa7da96, 0x7e1606, 0x752f27, 0x6ea269]⟩,
   ⟨[0xe74931, 0x2b3168, 0x62191f, 0x7f0a08, 0x407602, 0x5e821f, 0x4b971a, 0x9faa40, 0x617415, 0x19af4c, 0xa1378], [0x1cf746, 0x698b21, 0x3af2b3, 0x18d41a, 0x32ea5, 0x6a2a53, 0x21b364, 0x4a1660, 0x524edd, 0x537b8f, 0x38be03], [0x6c56df, 0x42f0fb, 0xa9d1a, 0x7be0c1, 0x6a26f4, 0x34fd46, 0x5c512e, 0xf3b887, 0x741791, 0xb6109, 0x7ed098]⟩,
   ⟨[0x2f95c3, 0x75a30d, 0x4f8ea8, 0xd36ae9, 0x3b9f94, 0x50d27a, 0x47afff, 0xff1072, 0x6eba0d, 0x7147b6, 0x7c9c06], [0x7d647c, 0x491d36, 0x3d3169, 0xe48196, 0x5c2776, 0x71bb7a, 0xe3716, 0xeee6ba, 0x7a2fd6, 0x66eade, 0x6a3d3c], [0xd712d2, 0x30afb5, 0xb6de0, 0xca9b95, 0x3cb508, 0x2574c, 0x4f7664, 0x8bda7c, 0x52f4ae, 0x7c9c6d, 0x640826]⟩,
   ⟨[0xe39a36, 0x4e864a, 0x41824a, 0x14e9d0, 0x6b0dd5, 0x3f0191, 0x6b3aa8, 0xf82b6, 0x646713, 0x4411bf, 0x6ec066], [0x55a118, 0x1d8588, 0x98b01, 0x5b872b, 0x612d7, 0x15bb6c, 0x3ea8de, 0x492cbb, 0x2b390, 0x2f64c6, 0x309519], [0xbcd94c, 0x453ab, 0x4df45, 0xaf59e, 0x224611, 0x46cb1f, 0x37d384, 0x704c79, 0x4e9eae, 0x5f6c61, 0x33b91c]⟩,
   ⟨[0xc4eb7b, 0x1bb1ae, 0xdf746, 0x2f5c66, 0x386901, 0x4503d0, 0x243c4f, 0xf631a8, 0x72318c, 0x67781f, 0x62555b], [0x9df20b, 0x7957af, 0x48e896, 0x266c31, 0x606385, 0x182adb, 0xf2d0a, 0x47f1db, 0x612a5a, 0x585c22, 0x138da1], [0x2b00c5, 0x7c31f7, 0x27d051, 0x9836be, 0x5dd824, 0x3c85c8, 0x37b92, 0x5a36f0, 0x72882, 0x556f25, 0x5c74c4]⟩,
   ⟨[0x200cda, 0x142d7e, 0xc5f19, 0x33cb24, 0x62d137, 0x370c3b, 0x7c19e3, 0x2c37a4, 0x56c3b7, 0x12591e, 0x5c6251], [0xb8567f, 0x7942f3, 0x2971b5, 0x7509bb, 0x4489a3, 0x90d38, 0x49ba67, 0xa295d7, 0x6de00, 0x5529f0, 0x68d340], [0x8e1fee, 0x2badb8, 0x60b20c, 0xde49f8, 0x6ae06, 0x5bae81, 0x153fdc, 0x2dcc1b, 0xf1e26, 0x5870, 0x3cb27c]⟩,
   ⟨[0xba06d8, 0x28aba3, 0x4a0a47, 0xe951e, 0x609146, 0x213816, 0x5657d3, 0x404103, 0x41bee3, 0x1cc688, 0x3a758e], [0xf8bbe3, 0x641d00, 0x119dd5, 0x4610e6, 0x42b1f2, 0x65991, 0x400456, 0x31f869, 0x467ce5, 0x2aca8a, 0x4ae71f], [0xe75b70, 0x45c331, 0x2c67d3, 0x2bad62, 0x6d4c0d, 0x3e98e0, 0x25dd15, 0x1652be, 0x138d53, 0x4cc0b3, 0x2588d3]⟩,
   ⟨[0x15f134, 0x758619, 0x5aba25, 0x8ae40e, 0x678eb8, 0x1e6cd, 0x6265b1, 0xd3c52b, 0x2372c9, 0x8a5c9, 0x6acfa4], [0x9f8482, 0x45994c, 0x5989d0, 0x48ffcc, 0x242063, 0xa8dd0, 0x5a0f78, 0x518c7, 0x39d0fb, 0x116011, 0x74bbe1], [0x8817cf, 0x35f03b, 0x8e964, 0xdbb160, 0x17fb04, 0x6f931c, 0x24585a, 0x43e352, 0x5b3b89, 0x41a78e, 0x4ee10d]⟩,
   ⟨[0xb5b594, 0x238c49, 0x61a952, 0x547564, 0x17e9b6, 0x4a85c1, 0x92964, 0xe0030f, 0x2c024, 0x6fdec5, 0x3414a1], [0x5f899e, 0x317b47, 0x390fe7, 0x81fd30, 0x666c28, 0x310591, 0xa02ed, 0xc5e37f, 0x200bea, 0x4e58b8, 0x6090a], [0x9aed9f, 0x6353df, 0x4c8001, 0x684029, 0x278c84, 0x476efd, 0x2269bf, 0x61cff8, 0x6308bb, 0x38c1a8, 0xed4dd]⟩,
   ⟨[0x96cdc1, 0x4a93de, 0x17141a, 0xcae27, 0x633c72, 0x1dd494, 0x5d5019, 0x7b392a, 0x4e6770, 0x57cdfa, 0x70ed69], [0xa5aac7, 0x17f8ba, 0x12d3f8, 0xd2aef7, 0x203dab, 0x1a6e08, 0xf9d07, 0x3ceb53, 0x1f11a2, 0x146100, 0x2bf207], [0xae2a02, 0x3fef01, 0x95e8c, 0x1bc27f, 0x579c72, 0x7785a3, 0xcf4d0, 0xb77dc2, 0x771fcc, 0x6d028d, 0x72a687]⟩,
   ⟨[0xfb5f0c, 0x952f3, 0x11f5d5, 0x65371a, 0x6d7e88, 0x54191c, 0x76f7cf, 0x6b48dc, 0x6fd352, 0x4f1aa7, 0x7f5b13], [0x606e6e, 0x363808, 0x407081, 0x4fc3f, 0x448579, 0x5d29c4, 0x1a127d, 0x5b9eee, 0x653d8e, 0x28a4df, 0x628593], [0xac7820, 0x30a9d3, 0x71be3a, 0x5fb4e5, 0x2512ae, 0x6eae7d, 0x1d9b40, 0x5c1369, 0x786c22, 0x47afee, 0x784a75]⟩,
   ⟨[0x213ee3, 0x6f9827, 0x21482b, 0xe1390c, 0x560d0b, 0x50dd23, 0x64a528, 0xba7cff, 0x2d8c84, 0x16175a, 0x5016a4], [0x776c25, 0xcb993, 0x23be80, 0x5a52fe, 0x2d117a, 0x199cdb, 0x52eb5e, 0x8d6f49, 0x7d7649, 0x27048d, 0x1a9c36], [0x632283, 0x211dc7, 0x5dfa7c, 0xf9046b, 0x588cd6, 0x3faf32, 0x7f4aed, 0x575bc2, 0x7dbb8a, 0x5122f, 0x6253cc]⟩,
   ⟨[0xd1bd2, 0x1af81a, 0x37c285, 0xd871e6, 0x62340e, 0x71909a, 0xf0e01, 0x76262e, 0x7bf9c3, 0x7f40fc, 0xb2bc5], [0x2724d3, 0x504ee8, 0x609955, 0x75e11a, 0xcb36c, 0x56d4af, 0xe59e9, 0x3e6912, 0x789ad2, 0x575219, 0x7d7b6c], [0x72e3db, 0x50d327, 0xf9230, 0xafb63a, 0x8e760, 0x59eb9d, 0x3a4cc1, 0xc1ce75, 0x497ad2, 0x6bab27, 0x2b8174]⟩],
  [⟨[0xc72dc5, 0x771e4c, 0x7fe32b, 0x502045, 0x47bca, 0x5e99dd, 0x62584d, 0xc26155, 0x7641cf, 0x519072, 0x8a95b], [0xb1cb39, 0x965fd, 0x31e4af, 0x30360a, 0x1c457c, 0x3bb754, 0x5ceae2, 0xb7485, 0x211ee1, 0x5286e0, 0x797d03], [0x220d40, 0x4ca0ad, 0x21a77a, 0x364ce1, 0x6676a3, 0x38ee70, 0x1b66bf, 0xa09800, 0x714b36, 0x68f47c, 0xfbd61]⟩,
   ⟨[0xaada87, 0x1e516d, 0x1dddc1, 0x2496f0, 0x79d73b, 0x6e84ca, 0x1f77f, 0x4ed6a4, 0x4f9268, 0x2c2d9b, 0x452c79], [0x5c5fb5, 0x1401f9, 0x1619fe, 0x73a62f, 0x27a568, 0x410ca3, 0x7090b1, 0x88392f, 0x25f8c, 0x470fb6, 0x400202], [0xfb4af5, 0x4a6d33, 0x67b3d7, 0x6c233f, 0x6659a6, 0x3370f0, 0x71c750, 0x7cf562, 0x6b187a, 0x44ec7f, 0x780b9e]⟩,
   ⟨[0x7a1682, 0x775d09, 0xca759, 0x5178eb, 0x1128c9, 0x453cce, 0x2b94ed, 0xa6541e, 0x29a8c4, 0x29d1e3, 0x318cec], [0x2ea810, 0x2e2d2a, 0x760a1e, 0x768b26, 0x12c353, 0x7a143a, 0x7f1485, 0x2f5e05, 0x6543de, 0x5da47, 0x62d462], [0x56c417, 0x20f8e7, 0x21b1cb, 0xdebc01, 0x49f124, 0x63a3ef, 0x6b1efc, 0x5dd025, 0x579f7c, 0x5282e6, 0x3743a4]⟩,
   ⟨[0xd850c1, 0x4304dd, 0x31ca95, 0xaba381, 0x557845, 0x170b2a, 0x269f01, 0xf14562, 0x177e37, 0xaef5, 0x16e67a], [0x8429cd, 0x4f3f15, 0x310961, 0x18ec0, 0x17c520, 0x5a3c1e, 0x69b19, 0xbbc85d, 0x6a8255, 0x5a237, 0x671035], [0x397785, 0xb8de6, 0x34c5b, 0x335b11, 0x5c7862, 0x2482c8, 0x37a568, 0x679e39, 0x56810f, 0xe8f6, 0x3d1330]⟩,
   ⟨[0xfaf1cd, 0x60a8c5, 0x508b76, 0x4f108e, 0x54d331, 0x27a7e8, 0x346905, 0x450f84, 0x1d3e9c, 0xb0762, 0x32396], [0x4fad75, 0x13909, 0x279aa7, 0x661d96, 0x11c8f3, 0x4e1e02, 0x79b899, 0x219a22, 0x7d00f4, 0x73a047, 0x112302], [0xc06ee2, 0x3fe63f, 0x41bd79, 0x96c7c, 0x716a9d, 0x616e56, 0x3fa2bd, 0x6cc575, 0x77b6fa, 0x5d8484, 0x4ec884]⟩,
   ⟨[0xeede54, 0x60becb, 0x454f6a, 0x7ca867, 0x3128d5, 0x1a6257, 0x1c9d64, 0x47d7b2, 0x48d9d4, 0x387a36, 0x30150f], [0x869b40, 0x4423ab, 0x6a0c98, 0x4be18d, 0x680e9, 0x6f03c8, 0x35097a, 0x163a09, 0x36511, 0x2020c4, 0x32f125], [0x6499a6, 0x32dbab, 0x50f205, 0x127c8c, 0x71c444, 0x610493, 0x57b4b2, 0xb0b2ca, 0x34a155, 0x6d7797, 0x63e346]⟩,
   ⟨[0x30c824, 0x393557, 0x2aa53a, 0x232b1f, 0x7e74ff, 0x58171d, 0x328e4, 0x85ba6b, 0x13d154, 0x18258c, 0x6fa2b0], [0xc3fcc1, 0x6b3441, 0x5e8829, 0xb3314c, 0x4ecb2, 0x6b3c89, 0x3f2f04, 0x92c88b, 0x1ec53b, 0x31ea9c, 0xbdc2a], [0x63ffe8, 0xefb74, 0x15043f, 0x5f290a, 0x1da041, 0x60291c, 0x7c2769, 0xeb677a, 0x43b7a4, 0x33a181, 0x3f9d2d]⟩,
   ⟨[0x6cc3ef, 0x2f3089, 0x61b741, 0x7537d8, 0x717e80, 0xbd6bf, 0x3d6972, 0xbe0a56, 0x7c075b, 0x5c62f6, 0x3ca2df], [0x171808, 0x5a205b, 0x5ad96, 0x58d8e1, 0x423531, 0x5c11a5, 0x169496, 0x1ab66a, 0x2f6c8b, 0x668cfd, 0x6b0027], [0x528a82, 0x2b2713, 0x79de04, 0xef8cf9, 0x6263b9, 0x720507, 0x52404f, 0x3c93e8, 0x100a85, 0x6d3ffa, 0x3b14b0]⟩,
   ⟨[0xf84103, 0x2efed0, 0x4df3e6, 0x1a7373, 0x4c8064, 0x32caae, 0xe2e35, 0x99871, 0x43615c, 0x5d4d9b, 0x3a809b], [0x688b18, 0x3e6c8b, 0x7da089, 0x470987, 0x6e04d, 0x346f12, 0x54964b, 0x1c7fb1, 0x28f4af, 0x6aba8d, 0x7bead8], [0xa4db09, 0xf021a, 0xe3bf3, 0x347724, 0x1cd5e3, 0x570a82, 0x1a702f, 0xaf41f7, 0x5573e8, 0x7b6cc3, 0xe6b2f]⟩,
   ⟨[0xc4323e, 0x5e5a07, 0x6e0c89, 0x18d1e, 0x582ab5, 0x4e8211, 0x21ed53, 0x6b639d, 0x505ae2, 0x7df924, 0x2aa137], [0xc33279, 0x685341, 0x643c48, 0xacac38, 0x5ae420, 0x514a01, 0x6beb21, 0x3cc859, 0x17135d, 0x4ada1b, 0x7cf53b], [0x6149ff, 0x353234, 0xfe22, 0x1f09d7, 0x21f65, 0x49c3ad, 0x1c1a78, 0xe00dfb, 0x228a53, 0x5812bd, 0x407161]⟩,
   ⟨[0xac8719, 0x4b5c52, 0x1ad60a, 0x1b2fac, 0x4cd6b6, 0x2823c4, 0x3be7c2, 0x9bdccc, 0x566b2f, 0x205a09, 0x6c27ce], [0x53fc77, 0x3f8121, 0x73622f, 0x775975, 0x7fed73, 0x41c648, 0x462a53, 0xffbfd4, 0x11a7df, 0x3092b5, 0x261a53], [0x9aafb7, 0x13bce1, 0x4971f6, 0xedd1b3, 0x2525b4, 0x58d61a, 0x66e9d1, 0x9b73b8, 0x33c84a, 0x6cab6, 0x8eb2]⟩,
   ⟨[0x492c5d, 0x5cf97d, 0x7722c, 0x66f3b8, 0x306a7, 0x7d6927, 0x23f020, 0xbd1d41, 0x497c08, 0x5699ef, 0x369e3d], [0x25f79f, 0x5176a4, 0x3d2cda, 0xf5aac3, 0xa2ad0, 0x6d725f, 0xe7277, 0xb14cc5, 0x2d5fc8, 0x7f764f, 0x50ef13], [0x97e85b, 0x1c0cfd, 0x6027c7, 0x38732e, 0x3385dc, 0x6f67df, 0x38ef81, 0xf717c0, 0xb4878, 0x99cd4, 0x71787d]⟩,
   ⟨[0xeb7f2, 0x7f42b8, 0x70653e, 0x320a4f, 0x16bb51, 0x691d90, 0x138916, 0xd043de, 0x107f57, 0x1dcb80, 0x59f0bb], [0x5cd9b5, 0x2a2874, 0x600a5, 0x235734, 0x2313ef, 0x312dea, 0x29ca11, 0x973048, 0x4d4134, 0x3e99ac, 0x867b4], [0x2fa5a2, 0x413e42, 0x772166, 0x1c593a, 0x6949a2, 0x786ff6, 0x3bb2e2, 0x2bc314, 0x125cc6, 0x7b110c, 0x4e5352]⟩,
   ⟨[0xe38b2f, 0x549d88, 0x451b24, 0x237ab5, 0xdaf24, 0x28b85, 0x2439f, 0x7ff9b1, 0x4b3263, 0x7b2514, 0x130159], [0xcbedbe, 0x164e8e, 0x6d1617, 0x971e62, 0x14cec3, 0x654e4c, 0x3ee5fe, 0xd5db3c, 0x7e501, 0x59ead8, 0x33fef5], [0xf396a9, 0xe12cc, 0x66f113, 0x32a657, 0x558cea, 0x35397e, 0x72ba41, 0x1bac1f, 0x458ead, 0x176e4, 0x6d9827]⟩,
   ⟨[0x54accb, 0x6837a0, 0x5e0e17, 0x2d46a3, 0x1ec13b, 0x55ed3f, 0x4ad796, 0x9822fd, 0x6e60a8, 0x19c052, 0x47770e], [0x2d311b, 0x25bef8, 0x441b88, 0x175a1, 0x77c008, 0x7c334f, 0x3b3992, 0xca38f0, 0x2777d, 0x3c8b93, 0x28f8c6], [0x8e76e6, 0xa66b8, 0x49e5d6, 0xe8b276, 0x32543c, 0x27a563, 0xcf52, 0xdeddb7, 0x401370, 0xf47db, 0x502929]⟩,
   ⟨[0xaeccc3, 0x54c9ae, 0x2f21dc, 0x59d2b0, 0x33ced8, 0x4a2e1f, 0x19b7cf, 0x95a290, 0x70c5c6, 0x2eb87d, 0x7db934], [0x78836c, 0x3df99a, 0x5c291e, 0x534356, 0x247324, 0x2f5070, 0x3eeb8f, 0x3a920e, 0x2d28c, 0xff5fb, 0x7336aa], [0x1fa1a5, 0x212f13, 0x577134, 0x4ba237, 0x49a436, 0x7f6bb2, 0x722ac5, 0xc0532e, 0x7534d3, 0x1dcbe4, 0x726554]⟩],
  [⟨[0x9d7f04, 0x3e522b, 0x4e8173, 0x1c1588, 0x22e52f, 0x7a9393, 0x6f3f0a, 0x537ef6, 0x61c5ea, 0x1044a3, 0x5e8c14], [0xcc8aa4, 0xc72ed, 0xdf49, 0x798195, 0xc41b1, 0x5c0709, 0x63f579, 0x797385, 0x561750, 0x22408a, 0x33dff7], [0xe72d7c, 0x52e6a6, 0x677e30, 0xda67fb, 0x53230a, 0x7b8901, 0x45ac83, 0x10fefc, 0x6e69b3, 0x6008db, 0x6d7911]⟩,
   ⟨[0x4f7a12, 0x3fe9b9, 0x35897d, 0x92a16a, 0x2abb20, 0x3c1f4f, 0x170a77, 0x14d957, 0x3289dc, 0x5bece, 0x601138], [0x61eea8, 0x211689, 0x2eaef4, 0x2ee6e9, 0x42698f, 0x2c17bc, 0x153303, 0xea9b7, 0x335b95, 0x101f4e, 0x661849], [0xaea3d6, 0x406869, 0x375ee9, 0xd5e095, 0x510487, 0x425b84, 0x2933e8, 0x85ea0b, 0x36858a, 0x15643e, 0x291032]⟩,
   ⟨[0xb19259, 0x44d63d, 0xd8b2c, 0xf03f2a, 0x75dd51, 0x63574f, 0x597d0c, 0x4cc301, 0x8f143, 0x1955d2, 0xefe67], [0x12f590, 0x8204c, 0x7f0b91, 0x397caf, 0x617872, 0x2bcc89, 0x560bb9, 0x755598, 0x6eecb1, 0x4ba0c7, 0x1a34ab], [0x8528cc, 0x580bbc, 0x5b25d1, 0x7506dd, 0x7dc690, 0x7f96d8, 0x392289, 0xaef1ae, 0x63168d, 0x72be2c, 0x5157c5]⟩,
   ⟨[0x3a9fd2, 0x5b25be, 0x4f27f7, 0xbb4a51, 0x662c0, 0x41bbe0, 0x460962, 0x2ef651, 0x17689f, 0x71079, 0x1a5df], [0xf75df0, 0x49fc9f, 0x6a8f37, 0xc7015b, 0x1ee02f, 0x3a578b, 0x4f5b70, 0x46d34e, 0x36c503, 0x4a47a8, 0x1555fc], [0xc1a1c, 0x18a095, 0x4c6dd3, 0x622629, 0x1a4b4d, 0x1ec488, 0x7c4e62, 0xf0cbdb, 0x53f494, 0x25e122, 0x6fe5d9]⟩,
   ⟨[0x1d0b59, 0x2bc2eb, 0x6c247d, 0x17164c, 0x16c9e8, 0x3fe112, 0x523c8c, 0x500e55, 0x1ebd4a, 0x2663a4, 0x2ff15b], [0x9aecd9, 0x79901, 0x6a6241, 0x3d62b1, 0x6182f6, 0x1f7c9c, 0x30c6a5, 0xc1d9fd, 0xaf3ae, 0x7306c0, 0x7180e7], [0x72cce1, 0x2ef926, 0x33946b, 0xdd4125, 0x466f98, 0x5626fe, 0x4d69f2, 0x423c76, 0x65d10d, 0x2d6287, 0x2dd36e]⟩,
   ⟨[0x60c004, 0x2df8e2, 0x73334c, 0x8c39c6, 0x509b37, 0x7e8198, 0xf62e1, 0xdd92b1, 0x1998ec, 0x2cad76, 0x202123], [0x131346, 0x7a9ff0, 0x587e28, 0x5434ea, 0xc2ce8, 0x4b1b22, 0x45d4a2, 0x9f60d4, 0x57e546, 0x64d05f, 0x6eec72], [0x21f448, 0x10845a, 0x6b85e, 0xab9d0a, 0x42fe06, 0x33ee0e, 0x6ad2f2, 0x5c9579, 0x67dfc7, 0x3c1f3b, 0x699be9]⟩,
   ⟨[0xa66972, 0x5c9c52, 0x33f743, 0x2e4131, 0x18dab0, 0x451021, 0x4a7644, 0x280ce7, 0x54a55b, 0xd618, 0x6ea24], [0x836291, 0x5c23f3, 0x3ef835, 0x6b6300, 0x459ebc, 0x7c3224, 0x44102e, 0xe2d759, 0x58ba8f, 0x203aa3, 0x6f64db], [0xa80ae1, 0x2f426, 0x5f82df, 0x129b98, 0x16684f, 0x37c9f8, 0x798fde, 0x5c8f79, 0x7c718, 0x52b29a, 0x59cbe]⟩,
   ⟨[0x126a51, 0x2cb978, 0x423fcc, 0xb9cc4c, 0x2aa538, 0x395fbb, 0x327373, 0xc23ca5, 0x544d71, 0x455ce2, 0x77726f], [0xe72c58, 0x56c6c9, 0x3d49ed, 0xc8f1d2, 0x4a8fa5, 0x6f3c45, 0x69ab18, 0xd5ce81, 0xa718f, 0x4420f7, 0x2b7f53], [0x809d3c, 0x5957a2, 0x6a3fb7, 0xfc7710, 0x2f2cc5, 0x68d0e3, 0x17780d, 0xb2b1f6, 0x1c4fde, 0x72d97a, 0x3e98ab]⟩,
   ⟨[0x276a10, 0x64190e, 0x243b5, 0xee59ae, 0x16fc7f, 0x36935e, 0x58a7f7, 0x6aaa88, 0x36ed90, 0x779372, 0x30dc06], [0x208159, 0x170255, 0x695df5, 0x411e22, 0x477c68, 0x32102f, 0x1b026a, 0x38ca4d, 0x235ec5, 0x78c8b9, 0x651c9f], [0x67d2a4, 0x446632, 0x3d1074, 0x32ac4, 0x61127f, 0x4b798, 0x3c2d, 0xf00c4b, 0x603764, 0x74558d, 0x375bf7]⟩,
   ⟨[0xb4ce41, 0x7fbbc3, 0x750477, 0xda8800, 0xb20cd, 0x2fde44, 0x1448f, 0x1b1ee5, 0x3b0fdc, 0x600d6a, 0x42807b], [0x5c7646, 0x4f6d9a, 0x47b855, 0x3d2ceb, 0x7b2b58, 0x32b9da, 0x118c1e, 0x6da898, 0x432bb2, 0x14a742, 0x214f42], [0x63536b, 0x73edc7, 0x608dc1, 0x757bda, 0x73293a, 0x510b0d, 0x1c8a86, 0x406f0a, 0x30daa7, 0xf6f80, 0x7a1d7]⟩,
   ⟨[0xa8e90b, 0x7407db, 0x440bf0, 0x7198c8, 0x1a09f8, 0x916b3, 0x61a7d6, 0xa714be, 0x39589d, 0x11d76d, 0x323b2d], [0xe19a5c, 0x141b92, 0x409b73, 0x6f090b, 0x7e0865, 0x4b7da7, 0x6ebe5e, 0xce6360, 0x3fe520, 0x5c6efa, 0x2904a1], [0x7bf307, 0x95790, 0x9fce8, 0x1a0547, 0x1c1e57, 0x7c07ee, 0x405ee9, 0x4047e0, 0x6de98e, 0x4e2a25, 0x66f1f0]⟩,
   ⟨[0xc266c9, 0x78a6a6, 0x5ae507, 0x29d74, 0x25040, 0x4030ce, 0x6d0a48, 0x76b699, 0x1e465b, 0x82e1, 0x69b738], [0xbd1302, 0x3ca015, 0x107897, 0xfa47be, 0x49e714, 0xb1555, 0x53443d, 0xee9331, 0x514330, 0x39a875, 0x50473], [0xb3d5e2, 0x2e59a5, 0x444307, 0x1495aa, 0x7e4455, 0x1e0a82, 0x2ab250, 0x3e1a5a, 0xdb2a8, 0x10a30c, 0x32799b]⟩,
   ⟨[0x2dfb8b, 0x56dbfb, 0x67d9e7, 0x7e49df, 0xd0a8b, 0x1d2692, 0x6d4621, 0xd98598, 0x34d873, 0x21cbb4, 0x75ebf4], [0x757e5c, 0x1f41ce, 0x2e6367, 0x180064, 0x4febfe, 0x4f8e5, 0x1fb594, 0x7471a5, 0x60ae8e, 0x7b789e, 0x72fbc1], [0x28861, 0x76cf2e, 0x757bc9, 0xe1a580, 0x355683, 0x2a8fe7, 0x542152, 0x561514, 0x725460, 0x7285a9, 0x4b1809]⟩,
   ⟨[0x355837, 0x2dda4c, 0x3dd1ac, 0x5cc538, 0x647cbc, 0x72db88, 0x7f7c75, 0x2ae840, 0x62a1a, 0x518336, 0x791c9d], [0x7ca0e, 0x2ea83d, 0x794d8f, 0x74f12e, 0x573d80, 0x334bad, 0x7061c7, 0xec3eb0, 0x4aff19, 0x7b77c6, 0x2c2cd6], [0x332c81, 0x5aec4b, 0x2d4025, 0x3c9, 0x329780, 0x45f540, 0x4b3238, 0xa2b784, 0x1953ea, 0x256030, 0x398a20]⟩,
   ⟨[0xec4a0, 0x641937, 0x6b364e, 0xda64e5, 0x1dc048, 0x2583f4, 0x26d1d9, 0xeda8af, 0x47d78b, 0x2eefe4, 0x2cc316], [0x81cbb1, 0x6e1c62, 0x2facab, 0xa6588f, 0x250981, 0x61708f, 0x74479e, 0x3f3b34, 0x140c2c, 0x2ebbc2, 0x227aaf], [0xdb9fc3, 0x53114a, 0x52eca2, 0x3dc40a, 0x7dc659, 0xd3562, 0x2c373c, 0xfaf2d6, 0x2b7888, 0x56effe, 0x162cf7]⟩,
   ⟨[0xa14eac, 0x5d7c37, 0x2c818a, 0x8fb8cd, 0x62e148, 0x4c3163, 0x53d48d, 0x5823ea, 0x2d1d27, 0x57b1e, 0x2c3dda], [0x53a948, 0x4c6ef1, 0x2d74b8, 0x1219e4, 0x71c013, 0x262046, 0x421adf, 0xbfb901, 0x1e79c9, 0x35b45b, 0x41ac61], [0x2c184d, 0x47d074, 0x34003a, 0x5dccfb, 0x524d8f, 0x59fb03, 0x34304b, 0xeacd9b, 0x2761fa, 0x3c9c64, 0x4b14dd]⟩]]

/-- `lut_cmb[j][k]`. -/
def lut_cmb (j k : Nat) : AffE (List Nat) := (lut_data.getD j []).getD k ⟨[], [], []⟩

end Gost.Ecp_tc26_256_paramSetA_32
