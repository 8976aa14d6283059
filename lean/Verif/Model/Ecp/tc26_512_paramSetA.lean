import Verif.Model.FiatField

/-!
# The functions, constants and table of `/repo/ecp_id_tc26_gost_3410_2012_512_paramSetA.c`

64 bit version of the file (`__SIZEOF_INT128__` is defined).  Generated by `tools/mkfiat.py`, statement by statement;
see `Verif/Model/Fiat.lean` for the meaning.  All line numbers refer to this file.
-/

namespace Gost.Ecp_tc26_512_paramSetA

set_option maxRecDepth 100000

/-- `fiat_id_tc26_gost_3410_2012_512_paramSetA_carry_mul`, lines 273-754. -/
def carry_mul : CProg := ⟨[
  .set (.mul 128 (.c 0x239) (.mul 128 (.a 9) (.b 9))), .set (.mul 128 (.c 0x239) (.mul 128 (.a 9) (.b 8))),
  .set (.mul 128 (.c 0x239) (.mul 128 (.a 9) (.b 7))), .set (.mul 128 (.c 0x239) (.mul 128 (.mul 128 (.a 9) (.b 6)) (.c 2))),
  .set (.mul 128 (.c 0x239) (.mul 128 (.a 9) (.b 5))), .set (.mul 128 (.c 0x239) (.mul 128 (.a 9) (.b 4))),
  .set (.mul 128 (.c 0x239) (.mul 128 (.a 9) (.b 3))), .set (.mul 128 (.c 0x239) (.mul 128 (.a 9) (.b 2))),
  .set (.mul 128 (.c 0x239) (.mul 128 (.mul 128 (.a 9) (.b 1)) (.c 2))), .set (.mul 128 (.c 0x239) (.mul 128 (.a 8) (.b 9))),
  .set (.mul 128 (.c 0x239) (.mul 128 (.a 8) (.b 8))), .set (.mul 128 (.c 0x239) (.mul 128 (.mul 128 (.a 8) (.b 7)) (.c 2))),
  .set (.mul 128 (.c 0x239) (.mul 128 (.mul 128 (.a 8) (.b 6)) (.c 2))), .set (.mul 128 (.c 0x239) (.mul 128 (.a 8) (.b 5))),
  .set (.mul 128 (.c 0x239) (.mul 128 (.a 8) (.b 4))), .set (.mul 128 (.c 0x239) (.mul 128 (.a 8) (.b 3))),
  .set (.mul 128 (.c 0x239) (.mul 128 (.mul 128 (.a 8) (.b 2)) (.c 2))), .set (.mul 128 (.c 0x239) (.mul 128 (.a 7) (.b 9))),
  .set (.mul 128 (.c 0x239) (.mul 128 (.mul 128 (.a 7) (.b 8)) (.c 2))),
  .set (.mul 128 (.c 0x239) (.mul 128 (.mul 128 (.a 7) (.b 7)) (.c 2))),
  .set (.mul 128 (.c 0x239) (.mul 128 (.mul 128 (.a 7) (.b 6)) (.c 2))), .set (.mul 128 (.c 0x239) (.mul 128 (.a 7) (.b 5))),
  .set (.mul 128 (.c 0x239) (.mul 128 (.a 7) (.b 4))), .set (.mul 128 (.c 0x239) (.mul 128 (.mul 128 (.a 7) (.b 3)) (.c 2))),
  .set (.mul 128 (.c 0x239) (.mul 128 (.mul 128 (.a 6) (.b 9)) (.c 2))),
  .set (.mul 128 (.c 0x239) (.mul 128 (.mul 128 (.a 6) (.b 8)) (.c 2))),
  .set (.mul 128 (.c 0x239) (.mul 128 (.mul 128 (.a 6) (.b 7)) (.c 2))),
  .set (.mul 128 (.c 0x239) (.mul 128 (.mul 128 (.a 6) (.b 6)) (.c 2))), .set (.mul 128 (.c 0x239) (.mul 128 (.a 6) (.b 5))),
  .set (.mul 128 (.c 0x239) (.mul 128 (.mul 128 (.a 6) (.b 4)) (.c 2))), .set (.mul 128 (.c 0x239) (.mul 128 (.a 5) (.b 9))),
  .set (.mul 128 (.c 0x239) (.mul 128 (.a 5) (.b 8))), .set (.mul 128 (.c 0x239) (.mul 128 (.a 5) (.b 7))),
  .set (.mul 128 (.c 0x239) (.mul 128 (.a 5) (.b 6))), .set (.mul 128 (.c 0x239) (.mul 128 (.a 5) (.b 5))),
  .set (.mul 128 (.c 0x239) (.mul 128 (.a 4) (.b 9))), .set (.mul 128 (.c 0x239) (.mul 128 (.a 4) (.b 8))),
  .set (.mul 128 (.c 0x239) (.mul 128 (.a 4) (.b 7))), .set (.mul 128 (.c 0x239) (.mul 128 (.mul 128 (.a 4) (.b 6)) (.c 2))),
  .set (.mul 128 (.c 0x239) (.mul 128 (.a 3) (.b 9))), .set (.mul 128 (.c 0x239) (.mul 128 (.a 3) (.b 8))),
  .set (.mul 128 (.c 0x239) (.mul 128 (.mul 128 (.a 3) (.b 7)) (.c 2))), .set (.mul 128 (.c 0x239) (.mul 128 (.a 2) (.b 9))),
  .set (.mul 128 (.c 0x239) (.mul 128 (.mul 128 (.a 2) (.b 8)) (.c 2))),
  .set (.mul 128 (.c 0x239) (.mul 128 (.mul 128 (.a 1) (.b 9)) (.c 2))), .set (.mul 128 (.a 9) (.b 0)),
  .set (.mul 128 (.a 8) (.mul 64 (.b 1) (.c 2))), .set (.mul 128 (.a 8) (.b 0)), .set (.mul 128 (.a 7) (.mul 64 (.b 2) (.c 2))),
  .set (.mul 128 (.a 7) (.mul 64 (.b 1) (.c 2))), .set (.mul 128 (.a 7) (.b 0)), .set (.mul 128 (.a 6) (.mul 64 (.b 3) (.c 2))),
  .set (.mul 128 (.a 6) (.mul 64 (.b 2) (.c 2))), .set (.mul 128 (.a 6) (.mul 64 (.b 1) (.c 2))), .set (.mul 128 (.a 6) (.b 0)),
  .set (.mul 128 (.a 5) (.b 4)), .set (.mul 128 (.a 5) (.b 3)), .set (.mul 128 (.a 5) (.b 2)), .set (.mul 128 (.a 5) (.b 1)),
  .set (.mul 128 (.a 5) (.b 0)), .set (.mul 128 (.a 4) (.b 5)), .set (.mul 128 (.a 4) (.b 4)), .set (.mul 128 (.a 4) (.b 3)),
  .set (.mul 128 (.a 4) (.b 2)), .set (.mul 128 (.a 4) (.mul 64 (.b 1) (.c 2))), .set (.mul 128 (.a 4) (.b 0)),
  .set (.mul 128 (.a 3) (.mul 64 (.b 6) (.c 2))), .set (.mul 128 (.a 3) (.b 5)), .set (.mul 128 (.a 3) (.b 4)),
  .set (.mul 128 (.a 3) (.b 3)), .set (.mul 128 (.a 3) (.mul 64 (.b 2) (.c 2))), .set (.mul 128 (.a 3) (.mul 64 (.b 1) (.c 2))),
  .set (.mul 128 (.a 3) (.b 0)), .set (.mul 128 (.a 2) (.mul 64 (.b 7) (.c 2))), .set (.mul 128 (.a 2) (.mul 64 (.b 6) (.c 2))),
  .set (.mul 128 (.a 2) (.b 5)), .set (.mul 128 (.a 2) (.b 4)), .set (.mul 128 (.a 2) (.mul 64 (.b 3) (.c 2))),
  .set (.mul 128 (.a 2) (.mul 64 (.b 2) (.c 2))), .set (.mul 128 (.a 2) (.mul 64 (.b 1) (.c 2))), .set (.mul 128 (.a 2) (.b 0)),
  .set (.mul 128 (.a 1) (.mul 64 (.b 8) (.c 2))), .set (.mul 128 (.a 1) (.mul 64 (.b 7) (.c 2))),
  .set (.mul 128 (.a 1) (.mul 64 (.b 6) (.c 2))), .set (.mul 128 (.a 1) (.b 5)), .set (.mul 128 (.a 1) (.mul 64 (.b 4) (.c 2))),
  .set (.mul 128 (.a 1) (.mul 64 (.b 3) (.c 2))), .set (.mul 128 (.a 1) (.mul 64 (.b 2) (.c 2))),
  .set (.mul 128 (.a 1) (.mul 64 (.b 1) (.c 2))), .set (.mul 128 (.a 1) (.b 0)), .set (.mul 128 (.a 0) (.b 9)),
  .set (.mul 128 (.a 0) (.b 8)), .set (.mul 128 (.a 0) (.b 7)), .set (.mul 128 (.a 0) (.b 6)), .set (.mul 128 (.a 0) (.b 5)),
  .set (.mul 128 (.a 0) (.b 4)), .set (.mul 128 (.a 0) (.b 3)), .set (.mul 128 (.a 0) (.b 2)), .set (.mul 128 (.a 0) (.b 1)),
  .set (.mul 128 (.a 0) (.b 0)),
  .set (.add 128 (.x 100) (.add 128 (.x 45) (.add 128 (.x 44) (.add 128 (.x 42) (.add 128 (.x 39) (.add 128 (.x 35) (.add 128 (.x 30) (.add 128 (.x 24) (.add 128 (.x 17) (.x 9)))))))))),
  .set (.shr (.x 101) 52), .set (.cast 64 (.and (.x 101) (.c 0xfffffffffffff))),
  .set (.add 128 (.x 91) (.add 128 (.x 82) (.add 128 (.x 74) (.add 128 (.x 67) (.add 128 (.x 61) (.add 128 (.x 56) (.add 128 (.x 52) (.add 128 (.x 49) (.add 128 (.x 47) (.x 46)))))))))),
  .set (.add 128 (.x 92) (.add 128 (.x 83) (.add 128 (.x 75) (.add 128 (.x 68) (.add 128 (.x 62) (.add 128 (.x 57) (.add 128 (.x 53) (.add 128 (.x 50) (.add 128 (.x 48) (.x 1)))))))))),
  .set (.add 128 (.x 93) (.add 128 (.x 84) (.add 128 (.x 76) (.add 128 (.x 69) (.add 128 (.x 63) (.add 128 (.x 58) (.add 128 (.x 54) (.add 128 (.x 51) (.add 128 (.x 10) (.x 2)))))))))),
  .set (.add 128 (.x 94) (.add 128 (.x 85) (.add 128 (.x 77) (.add 128 (.x 70) (.add 128 (.x 64) (.add 128 (.x 59) (.add 128 (.x 55) (.add 128 (.x 18) (.add 128 (.x 11) (.x 3)))))))))),
  .set (.add 128 (.x 95) (.add 128 (.x 86) (.add 128 (.x 78) (.add 128 (.x 71) (.add 128 (.x 65) (.add 128 (.x 60) (.add 128 (.x 25) (.add 128 (.x 19) (.add 128 (.x 12) (.x 4)))))))))),
  .set (.add 128 (.x 96) (.add 128 (.x 87) (.add 128 (.x 79) (.add 128 (.x 72) (.add 128 (.x 66) (.add 128 (.x 31) (.add 128 (.x 26) (.add 128 (.x 20) (.add 128 (.x 13) (.x 5)))))))))),
  .set (.add 128 (.x 97) (.add 128 (.x 88) (.add 128 (.x 80) (.add 128 (.x 73) (.add 128 (.x 36) (.add 128 (.x 32) (.add 128 (.x 27) (.add 128 (.x 21) (.add 128 (.x 14) (.x 6)))))))))),
  .set (.add 128 (.x 98) (.add 128 (.x 89) (.add 128 (.x 81) (.add 128 (.x 40) (.add 128 (.x 37) (.add 128 (.x 33) (.add 128 (.x 28) (.add 128 (.x 22) (.add 128 (.x 15) (.x 7)))))))))),
  .set (.add 128 (.x 99) (.add 128 (.x 90) (.add 128 (.x 43) (.add 128 (.x 41) (.add 128 (.x 38) (.add 128 (.x 34) (.add 128 (.x 29) (.add 128 (.x 23) (.add 128 (.x 16) (.x 8)))))))))),
  .set (.add 128 (.x 102) (.x 112)), .set (.shr (.x 113) 51), .set (.cast 64 (.and (.x 113) (.c 0x7ffffffffffff))),
  .set (.add 128 (.x 114) (.x 111)), .set (.shr (.x 116) 51), .set (.cast 64 (.and (.x 116) (.c 0x7ffffffffffff))),
  .set (.add 128 (.x 117) (.x 110)), .set (.shr (.x 119) 51), .set (.cast 64 (.and (.x 119) (.c 0x7ffffffffffff))),
  .set (.add 128 (.x 120) (.x 109)), .set (.shr (.x 122) 51), .set (.cast 64 (.and (.x 122) (.c 0x7ffffffffffff))),
  .set (.add 128 (.x 123) (.x 108)), .set (.shr (.x 125) 52), .set (.cast 64 (.and (.x 125) (.c 0xfffffffffffff))),
  .set (.add 128 (.x 126) (.x 107)), .set (.shr (.x 128) 51), .set (.cast 64 (.and (.x 128) (.c 0x7ffffffffffff))),
  .set (.add 128 (.x 129) (.x 106)), .set (.shr (.x 131) 51), .set (.cast 64 (.and (.x 131) (.c 0x7ffffffffffff))),
  .set (.add 128 (.x 132) (.x 105)), .set (.cast 64 (.shr (.x 134) 51)), .set (.cast 64 (.and (.x 134) (.c 0x7ffffffffffff))),
  .set (.add 128 (.x 135) (.x 104)), .set (.cast 64 (.shr (.x 137) 51)), .set (.cast 64 (.and (.x 137) (.c 0x7ffffffffffff))),
  .set (.mul 128 (.c 0x239) (.x 138)), .set (.add 128 (.x 103) (.x 140)), .set (.cast 64 (.shr (.x 141) 52)),
  .set (.cast 64 (.and (.x 141) (.c 0xfffffffffffff))), .set (.add 64 (.x 142) (.x 115)), .set (.cast 8 (.shr (.x 144) 51)),
  .set (.and (.x 144) (.c 0x7ffffffffffff)), .set (.add 64 (.x 145) (.x 118))], [143, 146, 147, 121, 124, 127, 130, 133, 136, 139]⟩

/-- `fiat_id_tc26_gost_3410_2012_512_paramSetA_carry_square`, lines 766-1044. -/
def carry_square : CProg := ⟨[
  .set (.mul 64 (.a 9) (.c 0x239)), .set (.mul 64 (.x 1) (.c 2)), .set (.mul 64 (.a 9) (.c 2)), .set (.mul 64 (.a 8) (.c 0x239)),
  .set (.mul 64 (.x 4) (.c 2)), .set (.mul 64 (.a 8) (.c 2)), .set (.mul 64 (.a 7) (.c 0x239)), .set (.mul 64 (.x 7) (.c 2)),
  .set (.mul 64 (.a 7) (.c 2)), .set (.mul 64 (.a 6) (.c 0x239)), .set (.mul 64 (.x 10) (.c 2)), .set (.mul 64 (.a 6) (.c 2)),
  .set (.mul 64 (.a 5) (.c 0x239)), .set (.mul 64 (.a 5) (.c 2)), .set (.mul 64 (.a 4) (.c 2)), .set (.mul 64 (.a 3) (.c 2)),
  .set (.mul 64 (.a 2) (.c 2)), .set (.mul 64 (.a 1) (.c 2)), .set (.mul 128 (.a 9) (.x 1)), .set (.mul 128 (.a 8) (.x 2)),
  .set (.mul 128 (.a 8) (.x 4)), .set (.mul 128 (.a 7) (.x 2)), .set (.mul 128 (.a 7) (.mul 64 (.x 5) (.c 2))),
  .set (.mul 128 (.a 7) (.mul 64 (.x 7) (.c 2))), .set (.mul 128 (.a 6) (.mul 64 (.x 2) (.c 2))),
  .set (.mul 128 (.a 6) (.mul 64 (.x 5) (.c 2))), .set (.mul 128 (.a 6) (.mul 64 (.x 8) (.c 2))),
  .set (.mul 128 (.a 6) (.mul 64 (.x 10) (.c 2))), .set (.mul 128 (.a 5) (.x 2)), .set (.mul 128 (.a 5) (.x 5)),
  .set (.mul 128 (.a 5) (.x 8)), .set (.mul 128 (.a 5) (.x 11)), .set (.mul 128 (.a 5) (.x 13)), .set (.mul 128 (.a 4) (.x 2)),
  .set (.mul 128 (.a 4) (.x 5)), .set (.mul 128 (.a 4) (.x 8)), .set (.mul 128 (.a 4) (.mul 64 (.x 11) (.c 2))),
  .set (.mul 128 (.a 4) (.x 14)), .set (.mul 128 (.a 4) (.a 4)), .set (.mul 128 (.a 3) (.x 2)), .set (.mul 128 (.a 3) (.x 5)),
  .set (.mul 128 (.a 3) (.mul 64 (.x 8) (.c 2))), .set (.mul 128 (.a 3) (.mul 64 (.x 12) (.c 2))), .set (.mul 128 (.a 3) (.x 14)),
  .set (.mul 128 (.a 3) (.x 15)), .set (.mul 128 (.a 3) (.a 3)), .set (.mul 128 (.a 2) (.x 2)),
  .set (.mul 128 (.a 2) (.mul 64 (.x 5) (.c 2))), .set (.mul 128 (.a 2) (.mul 64 (.x 9) (.c 2))),
  .set (.mul 128 (.a 2) (.mul 64 (.x 12) (.c 2))), .set (.mul 128 (.a 2) (.x 14)), .set (.mul 128 (.a 2) (.x 15)),
  .set (.mul 128 (.a 2) (.mul 64 (.x 16) (.c 2))), .set (.mul 128 (.a 2) (.mul 64 (.a 2) (.c 2))),
  .set (.mul 128 (.a 1) (.mul 64 (.x 2) (.c 2))), .set (.mul 128 (.a 1) (.mul 64 (.x 6) (.c 2))),
  .set (.mul 128 (.a 1) (.mul 64 (.x 9) (.c 2))), .set (.mul 128 (.a 1) (.mul 64 (.x 12) (.c 2))), .set (.mul 128 (.a 1) (.x 14)),
  .set (.mul 128 (.a 1) (.mul 64 (.x 15) (.c 2))), .set (.mul 128 (.a 1) (.mul 64 (.x 16) (.c 2))),
  .set (.mul 128 (.a 1) (.mul 64 (.x 17) (.c 2))), .set (.mul 128 (.a 1) (.mul 64 (.a 1) (.c 2))), .set (.mul 128 (.a 0) (.x 3)),
  .set (.mul 128 (.a 0) (.x 6)), .set (.mul 128 (.a 0) (.x 9)), .set (.mul 128 (.a 0) (.x 12)), .set (.mul 128 (.a 0) (.x 14)),
  .set (.mul 128 (.a 0) (.x 15)), .set (.mul 128 (.a 0) (.x 16)), .set (.mul 128 (.a 0) (.x 17)), .set (.mul 128 (.a 0) (.x 18)),
  .set (.mul 128 (.a 0) (.a 0)),
  .set (.add 128 (.x 73) (.add 128 (.x 55) (.add 128 (.x 48) (.add 128 (.x 42) (.add 128 (.x 37) (.x 33)))))), .set (.shr (.x 74) 52),
  .set (.cast 64 (.and (.x 74) (.c 0xfffffffffffff))),
  .set (.add 128 (.x 64) (.add 128 (.x 56) (.add 128 (.x 49) (.add 128 (.x 43) (.x 38))))),
  .set (.add 128 (.x 65) (.add 128 (.x 57) (.add 128 (.x 50) (.add 128 (.x 44) (.add 128 (.x 39) (.x 19)))))),
  .set (.add 128 (.x 66) (.add 128 (.x 58) (.add 128 (.x 51) (.add 128 (.x 45) (.x 20))))),
  .set (.add 128 (.x 67) (.add 128 (.x 59) (.add 128 (.x 52) (.add 128 (.x 46) (.add 128 (.x 22) (.x 21)))))),
  .set (.add 128 (.x 68) (.add 128 (.x 60) (.add 128 (.x 53) (.add 128 (.x 25) (.x 23))))),
  .set (.add 128 (.x 69) (.add 128 (.x 61) (.add 128 (.x 54) (.add 128 (.x 29) (.add 128 (.x 26) (.x 24)))))),
  .set (.add 128 (.x 70) (.add 128 (.x 62) (.add 128 (.x 34) (.add 128 (.x 30) (.x 27))))),
  .set (.add 128 (.x 71) (.add 128 (.x 63) (.add 128 (.x 40) (.add 128 (.x 35) (.add 128 (.x 31) (.x 28)))))),
  .set (.add 128 (.x 72) (.add 128 (.x 47) (.add 128 (.x 41) (.add 128 (.x 36) (.x 32))))), .set (.add 128 (.x 75) (.x 85)),
  .set (.shr (.x 86) 51), .set (.cast 64 (.and (.x 86) (.c 0x7ffffffffffff))), .set (.add 128 (.x 87) (.x 84)), .set (.shr (.x 89) 51),
  .set (.cast 64 (.and (.x 89) (.c 0x7ffffffffffff))), .set (.add 128 (.x 90) (.x 83)), .set (.shr (.x 92) 51),
  .set (.cast 64 (.and (.x 92) (.c 0x7ffffffffffff))), .set (.add 128 (.x 93) (.x 82)), .set (.shr (.x 95) 51),
  .set (.cast 64 (.and (.x 95) (.c 0x7ffffffffffff))), .set (.add 128 (.x 96) (.x 81)), .set (.shr (.x 98) 52),
  .set (.cast 64 (.and (.x 98) (.c 0xfffffffffffff))), .set (.add 128 (.x 99) (.x 80)), .set (.shr (.x 101) 51),
  .set (.cast 64 (.and (.x 101) (.c 0x7ffffffffffff))), .set (.add 128 (.x 102) (.x 79)), .set (.shr (.x 104) 51),
  .set (.cast 64 (.and (.x 104) (.c 0x7ffffffffffff))), .set (.add 128 (.x 105) (.x 78)), .set (.cast 64 (.shr (.x 107) 51)),
  .set (.cast 64 (.and (.x 107) (.c 0x7ffffffffffff))), .set (.add 128 (.x 108) (.x 77)), .set (.cast 64 (.shr (.x 110) 51)),
  .set (.cast 64 (.and (.x 110) (.c 0x7ffffffffffff))), .set (.mul 128 (.c 0x239) (.x 111)), .set (.add 128 (.x 76) (.x 113)),
  .set (.cast 64 (.shr (.x 114) 52)), .set (.cast 64 (.and (.x 114) (.c 0xfffffffffffff))), .set (.add 64 (.x 115) (.x 88)),
  .set (.cast 8 (.shr (.x 117) 51)), .set (.and (.x 117) (.c 0x7ffffffffffff)), .set (.add 64 (.x 118) (.x 91))], [116, 119, 120, 94, 97, 100, 103, 106, 109, 112]⟩

/-- `fiat_id_tc26_gost_3410_2012_512_paramSetA_carry`, lines 1056-1114. -/
def carry : CProg := ⟨[
  .set (.a 0), .set (.add 64 (.shr (.x 1) 52) (.a 1)), .set (.add 64 (.shr (.x 2) 51) (.a 2)), .set (.add 64 (.shr (.x 3) 51) (.a 3)),
  .set (.add 64 (.shr (.x 4) 51) (.a 4)), .set (.add 64 (.shr (.x 5) 51) (.a 5)), .set (.add 64 (.shr (.x 6) 52) (.a 6)),
  .set (.add 64 (.shr (.x 7) 51) (.a 7)), .set (.add 64 (.shr (.x 8) 51) (.a 8)), .set (.add 64 (.shr (.x 9) 51) (.a 9)),
  .set (.add 64 (.and (.x 1) (.c 0xfffffffffffff)) (.mul 64 (.c 0x239) (.shr (.x 10) 51))),
  .set (.add 64 (.cast 8 (.shr (.x 11) 52)) (.and (.x 2) (.c 0x7ffffffffffff))), .set (.and (.x 11) (.c 0xfffffffffffff)),
  .set (.and (.x 12) (.c 0x7ffffffffffff)), .set (.add 64 (.cast 8 (.shr (.x 12) 51)) (.and (.x 3) (.c 0x7ffffffffffff))),
  .set (.and (.x 4) (.c 0x7ffffffffffff)), .set (.and (.x 5) (.c 0x7ffffffffffff)), .set (.and (.x 6) (.c 0xfffffffffffff)),
  .set (.and (.x 7) (.c 0x7ffffffffffff)), .set (.and (.x 8) (.c 0x7ffffffffffff)), .set (.and (.x 9) (.c 0x7ffffffffffff)),
  .set (.and (.x 10) (.c 0x7ffffffffffff))], [13, 14, 15, 16, 17, 18, 19, 20, 21, 22]⟩

/-- `fiat_id_tc26_gost_3410_2012_512_paramSetA_add`, lines 1127-1159. -/
def add : CProg := ⟨[
  .set (.add 64 (.a 0) (.b 0)), .set (.add 64 (.a 1) (.b 1)), .set (.add 64 (.a 2) (.b 2)), .set (.add 64 (.a 3) (.b 3)),
  .set (.add 64 (.a 4) (.b 4)), .set (.add 64 (.a 5) (.b 5)), .set (.add 64 (.a 6) (.b 6)), .set (.add 64 (.a 7) (.b 7)),
  .set (.add 64 (.a 8) (.b 8)), .set (.add 64 (.a 9) (.b 9))], [1, 2, 3, 4, 5, 6, 7, 8, 9, 10]⟩

/-- `fiat_id_tc26_gost_3410_2012_512_paramSetA_sub`, lines 1172-1204. -/
def sub : CProg := ⟨[
  .set (.sub 64 (.add 64 (.c 0x1ffffffffffb8e) (.a 0)) (.b 0)), .set (.sub 64 (.add 64 (.c 0xffffffffffffe) (.a 1)) (.b 1)),
  .set (.sub 64 (.add 64 (.c 0xffffffffffffe) (.a 2)) (.b 2)), .set (.sub 64 (.add 64 (.c 0xffffffffffffe) (.a 3)) (.b 3)),
  .set (.sub 64 (.add 64 (.c 0xffffffffffffe) (.a 4)) (.b 4)), .set (.sub 64 (.add 64 (.c 0x1ffffffffffffe) (.a 5)) (.b 5)),
  .set (.sub 64 (.add 64 (.c 0xffffffffffffe) (.a 6)) (.b 6)), .set (.sub 64 (.add 64 (.c 0xffffffffffffe) (.a 7)) (.b 7)),
  .set (.sub 64 (.add 64 (.c 0xffffffffffffe) (.a 8)) (.b 8)), .set (.sub 64 (.add 64 (.c 0xffffffffffffe) (.a 9)) (.b 9))], [1, 2, 3, 4, 5, 6, 7, 8, 9, 10]⟩

/-- `fiat_id_tc26_gost_3410_2012_512_paramSetA_opp`, lines 1216-1248. -/
def opp : CProg := ⟨[
  .set (.sub 64 (.c 0x1ffffffffffb8e) (.a 0)), .set (.sub 64 (.c 0xffffffffffffe) (.a 1)), .set (.sub 64 (.c 0xffffffffffffe) (.a 2)),
  .set (.sub 64 (.c 0xffffffffffffe) (.a 3)), .set (.sub 64 (.c 0xffffffffffffe) (.a 4)), .set (.sub 64 (.c 0x1ffffffffffffe) (.a 5)),
  .set (.sub 64 (.c 0xffffffffffffe) (.a 6)), .set (.sub 64 (.c 0xffffffffffffe) (.a 7)), .set (.sub 64 (.c 0xffffffffffffe) (.a 8)),
  .set (.sub 64 (.c 0xffffffffffffe) (.a 9))], [1, 2, 3, 4, 5, 6, 7, 8, 9, 10]⟩

/-- `fiat_id_tc26_gost_3410_2012_512_paramSetA_from_bytes`, lines 1758-2054. -/
def from_bytes : CProg := ⟨[
  .set (.shl 64 (.a 63) 43), .set (.shl 64 (.a 62) 35), .set (.shl 64 (.a 61) 27), .set (.shl 64 (.a 60) 19), .set (.shl 64 (.a 59) 11),
  .set (.shl 64 (.a 58) 3), .set (.shl 64 (.a 57) 46), .set (.shl 64 (.a 56) 38), .set (.shl 64 (.a 55) 30), .set (.shl 64 (.a 54) 22),
  .set (.shl 64 (.a 53) 14), .set (.shl 64 (.a 52) 6), .set (.shl 64 (.a 51) 49), .set (.shl 64 (.a 50) 41), .set (.shl 64 (.a 49) 33),
  .set (.shl 64 (.a 48) 25), .set (.shl 64 (.a 47) 17), .set (.shl 64 (.a 46) 9), .set (.mul 64 (.a 45) (.c 2)), .set (.shl 64 (.a 44) 44),
  .set (.shl 64 (.a 43) 36), .set (.shl 64 (.a 42) 28), .set (.shl 64 (.a 41) 20), .set (.shl 64 (.a 40) 12), .set (.shl 64 (.a 39) 4),
  .set (.shl 64 (.a 38) 48), .set (.shl 64 (.a 37) 40), .set (.shl 64 (.a 36) 32), .set (.shl 64 (.a 35) 24), .set (.shl 64 (.a 34) 16),
  .set (.shl 64 (.a 33) 8), .set (.a 32), .set (.shl 64 (.a 31) 43), .set (.shl 64 (.a 30) 35), .set (.shl 64 (.a 29) 27),
  .set (.shl 64 (.a 28) 19), .set (.shl 64 (.a 27) 11), .set (.shl 64 (.a 26) 3), .set (.shl 64 (.a 25) 46), .set (.shl 64 (.a 24) 38),
  .set (.shl 64 (.a 23) 30), .set (.shl 64 (.a 22) 22), .set (.shl 64 (.a 21) 14), .set (.shl 64 (.a 20) 6), .set (.shl 64 (.a 19) 49),
  .set (.shl 64 (.a 18) 41), .set (.shl 64 (.a 17) 33), .set (.shl 64 (.a 16) 25), .set (.shl 64 (.a 15) 17), .set (.shl 64 (.a 14) 9),
  .set (.mul 64 (.a 13) (.c 2)), .set (.shl 64 (.a 12) 44), .set (.shl 64 (.a 11) 36), .set (.shl 64 (.a 10) 28), .set (.shl 64 (.a 9) 20),
  .set (.shl 64 (.a 8) 12), .set (.shl 64 (.a 7) 4), .set (.shl 64 (.a 6) 48), .set (.shl 64 (.a 5) 40), .set (.shl 64 (.a 4) 32),
  .set (.shl 64 (.a 3) 24), .set (.shl 64 (.a 2) 16), .set (.shl 64 (.a 1) 8), .set (.a 0), .set (.add 64 (.x 63) (.x 64)),
  .set (.add 64 (.x 62) (.x 65)), .set (.add 64 (.x 61) (.x 66)), .set (.add 64 (.x 60) (.x 67)), .set (.add 64 (.x 59) (.x 68)),
  .set (.add 64 (.x 58) (.x 69)), .set (.and (.x 70) (.c 0xfffffffffffff)), .set (.cast 8 (.shr (.x 70) 52)),
  .set (.add 64 (.x 57) (.x 72)), .set (.add 64 (.x 56) (.x 73)), .set (.add 64 (.x 55) (.x 74)), .set (.add 64 (.x 54) (.x 75)),
  .set (.add 64 (.x 53) (.x 76)), .set (.add 64 (.x 52) (.x 77)), .set (.and (.x 78) (.c 0x7ffffffffffff)),
  .set (.cast 8 (.shr (.x 78) 51)), .set (.add 64 (.x 51) (.x 80)), .set (.add 64 (.x 50) (.x 81)), .set (.add 64 (.x 49) (.x 82)),
  .set (.add 64 (.x 48) (.x 83)), .set (.add 64 (.x 47) (.x 84)), .set (.add 64 (.x 46) (.x 85)), .set (.add 64 (.x 45) (.x 86)),
  .set (.and (.x 87) (.c 0x7ffffffffffff)), .set (.cast 8 (.shr (.x 87) 51)), .set (.add 64 (.x 44) (.x 89)),
  .set (.add 64 (.x 43) (.x 90)), .set (.add 64 (.x 42) (.x 91)), .set (.add 64 (.x 41) (.x 92)), .set (.add 64 (.x 40) (.x 93)),
  .set (.add 64 (.x 39) (.x 94)), .set (.and (.x 95) (.c 0x7ffffffffffff)), .set (.cast 8 (.shr (.x 95) 51)),
  .set (.add 64 (.x 38) (.x 97)), .set (.add 64 (.x 37) (.x 98)), .set (.add 64 (.x 36) (.x 99)), .set (.add 64 (.x 35) (.x 100)),
  .set (.add 64 (.x 34) (.x 101)), .set (.add 64 (.x 33) (.x 102)), .set (.add 64 (.x 31) (.x 32)), .set (.add 64 (.x 30) (.x 104)),
  .set (.add 64 (.x 29) (.x 105)), .set (.add 64 (.x 28) (.x 106)), .set (.add 64 (.x 27) (.x 107)), .set (.add 64 (.x 26) (.x 108)),
  .set (.and (.x 109) (.c 0xfffffffffffff)), .set (.cast 8 (.shr (.x 109) 52)), .set (.add 64 (.x 25) (.x 111)),
  .set (.add 64 (.x 24) (.x 112)), .set (.add 64 (.x 23) (.x 113)), .set (.add 64 (.x 22) (.x 114)), .set (.add 64 (.x 21) (.x 115)),
  .set (.add 64 (.x 20) (.x 116)), .set (.and (.x 117) (.c 0x7ffffffffffff)), .set (.cast 8 (.shr (.x 117) 51)),
  .set (.add 64 (.x 19) (.x 119)), .set (.add 64 (.x 18) (.x 120)), .set (.add 64 (.x 17) (.x 121)), .set (.add 64 (.x 16) (.x 122)),
  .set (.add 64 (.x 15) (.x 123)), .set (.add 64 (.x 14) (.x 124)), .set (.add 64 (.x 13) (.x 125)),
  .set (.and (.x 126) (.c 0x7ffffffffffff)), .set (.cast 8 (.shr (.x 126) 51)), .set (.add 64 (.x 12) (.x 128)),
  .set (.add 64 (.x 11) (.x 129)), .set (.add 64 (.x 10) (.x 130)), .set (.add 64 (.x 9) (.x 131)), .set (.add 64 (.x 8) (.x 132)),
  .set (.add 64 (.x 7) (.x 133)), .set (.and (.x 134) (.c 0x7ffffffffffff)), .set (.cast 8 (.shr (.x 134) 51)),
  .set (.add 64 (.x 6) (.x 136)), .set (.add 64 (.x 5) (.x 137)), .set (.add 64 (.x 4) (.x 138)), .set (.add 64 (.x 3) (.x 139)),
  .set (.add 64 (.x 2) (.x 140)), .set (.add 64 (.x 1) (.x 141))], [71, 79, 88, 96, 103, 110, 118, 127, 135, 142]⟩

/-- `fiat_id_tc26_gost_3410_2012_512_paramSetA_to_bytes`, lines 1317-1746. -/
def to_bytes : CProg := ⟨[
  .sbb 64 52 (.c 0) (.a 0) (.c 0xffffffffffdc7), .sbb 64 51 (.x 2) (.a 1) (.c 0x7ffffffffffff),
  .sbb 64 51 (.x 4) (.a 2) (.c 0x7ffffffffffff), .sbb 64 51 (.x 6) (.a 3) (.c 0x7ffffffffffff),
  .sbb 64 51 (.x 8) (.a 4) (.c 0x7ffffffffffff), .sbb 64 52 (.x 10) (.a 5) (.c 0xfffffffffffff),
  .sbb 64 51 (.x 12) (.a 6) (.c 0x7ffffffffffff), .sbb 64 51 (.x 14) (.a 7) (.c 0x7ffffffffffff),
  .sbb 64 51 (.x 16) (.a 8) (.c 0x7ffffffffffff), .sbb 64 51 (.x 18) (.a 9) (.c 0x7ffffffffffff),
  .cmov 64 (.x 20) (.c 0) (.c 0xffffffffffffffff), .adc 64 52 (.c 0) (.x 1) (.and (.x 21) (.c 0xffffffffffdc7)),
  .adc 64 51 (.x 23) (.x 3) (.and (.x 21) (.c 0x7ffffffffffff)), .adc 64 51 (.x 25) (.x 5) (.and (.x 21) (.c 0x7ffffffffffff)),
  .adc 64 51 (.x 27) (.x 7) (.and (.x 21) (.c 0x7ffffffffffff)), .adc 64 51 (.x 29) (.x 9) (.and (.x 21) (.c 0x7ffffffffffff)),
  .adc 64 52 (.x 31) (.x 11) (.and (.x 21) (.c 0xfffffffffffff)), .adc 64 51 (.x 33) (.x 13) (.and (.x 21) (.c 0x7ffffffffffff)),
  .adc 64 51 (.x 35) (.x 15) (.and (.x 21) (.c 0x7ffffffffffff)), .adc 64 51 (.x 37) (.x 17) (.and (.x 21) (.c 0x7ffffffffffff)),
  .adc 64 51 (.x 39) (.x 19) (.and (.x 21) (.c 0x7ffffffffffff)), .set (.shl 64 (.x 40) 5), .set (.shl 64 (.x 38) 2),
  .set (.shl 64 (.x 36) 7), .set (.shl 64 (.x 34) 4), .set (.shl 64 (.x 30) 5), .set (.shl 64 (.x 28) 2), .set (.shl 64 (.x 26) 7),
  .set (.shl 64 (.x 24) 4), .set (.cast 8 (.and (.x 22) (.c 0xff))), .set (.shr (.x 22) 8), .set (.cast 8 (.and (.x 51) (.c 0xff))),
  .set (.shr (.x 51) 8), .set (.cast 8 (.and (.x 53) (.c 0xff))), .set (.shr (.x 53) 8), .set (.cast 8 (.and (.x 55) (.c 0xff))),
  .set (.shr (.x 55) 8), .set (.cast 8 (.and (.x 57) (.c 0xff))), .set (.shr (.x 57) 8), .set (.cast 8 (.and (.x 59) (.c 0xff))),
  .set (.cast 8 (.shr (.x 59) 8)), .set (.add 64 (.x 49) (.x 61)), .set (.cast 8 (.and (.x 62) (.c 0xff))), .set (.shr (.x 62) 8),
  .set (.cast 8 (.and (.x 64) (.c 0xff))), .set (.shr (.x 64) 8), .set (.cast 8 (.and (.x 66) (.c 0xff))), .set (.shr (.x 66) 8),
  .set (.cast 8 (.and (.x 68) (.c 0xff))), .set (.shr (.x 68) 8), .set (.cast 8 (.and (.x 70) (.c 0xff))), .set (.shr (.x 70) 8),
  .set (.cast 8 (.and (.x 72) (.c 0xff))), .set (.cast 8 (.shr (.x 72) 8)), .set (.add 64 (.x 48) (.x 74)),
  .set (.cast 8 (.and (.x 75) (.c 0xff))), .set (.shr (.x 75) 8), .set (.cast 8 (.and (.x 77) (.c 0xff))), .set (.shr (.x 77) 8),
  .set (.cast 8 (.and (.x 79) (.c 0xff))), .set (.shr (.x 79) 8), .set (.cast 8 (.and (.x 81) (.c 0xff))), .set (.shr (.x 81) 8),
  .set (.cast 8 (.and (.x 83) (.c 0xff))), .set (.shr (.x 83) 8), .set (.cast 8 (.and (.x 85) (.c 0xff))), .set (.shr (.x 85) 8),
  .set (.cast 8 (.and (.x 87) (.c 0xff))), .set (.cast 8 (.shr (.x 87) 8)), .set (.add 64 (.x 47) (.x 89)),
  .set (.cast 8 (.and (.x 90) (.c 0xff))), .set (.shr (.x 90) 8), .set (.cast 8 (.and (.x 92) (.c 0xff))), .set (.shr (.x 92) 8),
  .set (.cast 8 (.and (.x 94) (.c 0xff))), .set (.shr (.x 94) 8), .set (.cast 8 (.and (.x 96) (.c 0xff))), .set (.shr (.x 96) 8),
  .set (.cast 8 (.and (.x 98) (.c 0xff))), .set (.shr (.x 98) 8), .set (.cast 8 (.and (.x 100) (.c 0xff))),
  .set (.cast 8 (.shr (.x 100) 8)), .set (.add 64 (.x 46) (.x 102)), .set (.cast 8 (.and (.x 103) (.c 0xff))), .set (.shr (.x 103) 8),
  .set (.cast 8 (.and (.x 105) (.c 0xff))), .set (.shr (.x 105) 8), .set (.cast 8 (.and (.x 107) (.c 0xff))), .set (.shr (.x 107) 8),
  .set (.cast 8 (.and (.x 109) (.c 0xff))), .set (.shr (.x 109) 8), .set (.cast 8 (.and (.x 111) (.c 0xff))), .set (.shr (.x 111) 8),
  .set (.cast 8 (.and (.x 113) (.c 0xff))), .set (.cast 8 (.shr (.x 113) 8)), .set (.cast 8 (.and (.x 32) (.c 0xff))),
  .set (.shr (.x 32) 8), .set (.cast 8 (.and (.x 117) (.c 0xff))), .set (.shr (.x 117) 8), .set (.cast 8 (.and (.x 119) (.c 0xff))),
  .set (.shr (.x 119) 8), .set (.cast 8 (.and (.x 121) (.c 0xff))), .set (.shr (.x 121) 8), .set (.cast 8 (.and (.x 123) (.c 0xff))),
  .set (.shr (.x 123) 8), .set (.cast 8 (.and (.x 125) (.c 0xff))), .set (.cast 8 (.shr (.x 125) 8)), .set (.add 64 (.x 45) (.x 127)),
  .set (.cast 8 (.and (.x 128) (.c 0xff))), .set (.shr (.x 128) 8), .set (.cast 8 (.and (.x 130) (.c 0xff))), .set (.shr (.x 130) 8),
  .set (.cast 8 (.and (.x 132) (.c 0xff))), .set (.shr (.x 132) 8), .set (.cast 8 (.and (.x 134) (.c 0xff))), .set (.shr (.x 134) 8),
  .set (.cast 8 (.and (.x 136) (.c 0xff))), .set (.shr (.x 136) 8), .set (.cast 8 (.and (.x 138) (.c 0xff))),
  .set (.cast 8 (.shr (.x 138) 8)), .set (.add 64 (.x 44) (.x 140)), .set (.cast 8 (.and (.x 141) (.c 0xff))), .set (.shr (.x 141) 8),
  .set (.cast 8 (.and (.x 143) (.c 0xff))), .set (.shr (.x 143) 8), .set (.cast 8 (.and (.x 145) (.c 0xff))), .set (.shr (.x 145) 8),
  .set (.cast 8 (.and (.x 147) (.c 0xff))), .set (.shr (.x 147) 8), .set (.cast 8 (.and (.x 149) (.c 0xff))), .set (.shr (.x 149) 8),
  .set (.cast 8 (.and (.x 151) (.c 0xff))), .set (.shr (.x 151) 8), .set (.cast 8 (.and (.x 153) (.c 0xff))),
  .set (.cast 8 (.shr (.x 153) 8)), .set (.add 64 (.x 43) (.x 155)), .set (.cast 8 (.and (.x 156) (.c 0xff))), .set (.shr (.x 156) 8),
  .set (.cast 8 (.and (.x 158) (.c 0xff))), .set (.shr (.x 158) 8), .set (.cast 8 (.and (.x 160) (.c 0xff))), .set (.shr (.x 160) 8),
  .set (.cast 8 (.and (.x 162) (.c 0xff))), .set (.shr (.x 162) 8), .set (.cast 8 (.and (.x 164) (.c 0xff))), .set (.shr (.x 164) 8),
  .set (.cast 8 (.and (.x 166) (.c 0xff))), .set (.cast 8 (.shr (.x 166) 8)), .set (.add 64 (.x 42) (.x 168)),
  .set (.cast 8 (.and (.x 169) (.c 0xff))), .set (.shr (.x 169) 8), .set (.cast 8 (.and (.x 171) (.c 0xff))), .set (.shr (.x 171) 8),
  .set (.cast 8 (.and (.x 173) (.c 0xff))), .set (.shr (.x 173) 8), .set (.cast 8 (.and (.x 175) (.c 0xff))), .set (.shr (.x 175) 8),
  .set (.cast 8 (.and (.x 177) (.c 0xff))), .set (.shr (.x 177) 8), .set (.cast 8 (.and (.x 179) (.c 0xff))),
  .set (.cast 8 (.shr (.x 179) 8))], [50, 52, 54, 56, 58, 60, 63, 65, 67, 69, 71, 73, 76, 78, 80, 82, 84, 86, 88, 91, 93, 95, 97, 99, 101, 104, 106, 108, 110, 112, 114, 115, 116, 118, 120, 122, 124, 126, 129, 131, 133, 135, 137, 139, 142, 144, 146, 148, 150, 152, 154, 157, 159, 161, 163, 165, 167, 170, 172, 174, 176, 178, 180, 181]⟩

/-- `fiat_id_tc26_gost_3410_2012_512_paramSetA_inv`, lines 2064-2123; the variables are 0 = t1, 0 = output, 1 = acc, 2 = t2, 3 = t3, 4 = t6, 5 = t12, 6 = t24, 7 = t48, 8 = t96, 9 = t102, 10 = t198, 11 = t200, 12 = t400, 13 = t502. -/
def inv : List InvStep := [.sq 1 0 1, .mul 2 1 0, .sq 1 2 1, .mul 3 1 0, .sq 1 3 1, .sq 1 1 2, .mul 4 1 3, .sq 1 4 1, .sq 1 1 5, .mul 5 1 4,
  .sq 1 5 1, .sq 1 1 11, .mul 6 1 5, .sq 1 6 1, .sq 1 1 23, .mul 7 1 6, .sq 1 7 1, .sq 1 1 47, .mul 8 1 7, .sq 1 8 1,
  .sq 1 1 5, .mul 9 1 4, .sq 1 9 1, .sq 1 1 95, .mul 10 1 8, .sq 1 10 1, .sq 1 1 1, .mul 11 1 2, .sq 1 11 1, .sq 1 1 199,
  .mul 12 1 11, .sq 1 12 1, .sq 1 1 101, .mul 13 1 9, .sq 1 13 1, .sq 1 1 3, .mul 1 1 3, .sq 1 1 4, .mul 1 1 0, .sq 1 1 2,
  .mul 0 1 0]

/-- The constants, lines: `const_one` 2127-2132, `const_b` 2134-2139; the file has no others. -/
def consts : FiatConsts where
  one := [1, 0, 0, 0, 0, 0, 0, 0, 0, 0]
  a := [0, 0, 0, 0, 0, 0, 0, 0, 0, 0]
  b := [0x190785a71c760, 0x54ebee4761503, 0x1b521bb0c5df3, 0x1d8532d15d004, 0x771e584879869, 0xd081cfd0b6265, 0x74761cb0e879b, 0x4cfe3b469704a, 0x1b7706f42cad9, 0x7461282ef6fe4]
  b3 := [0, 0, 0, 0, 0, 0, 0, 0, 0, 0]
  d := [0, 0, 0, 0, 0, 0, 0, 0, 0, 0]
  S := [0, 0, 0, 0, 0, 0, 0, 0, 0, 0]
  T := [0, 0, 0, 0, 0, 0, 0, 0, 0, 0]

/-- The functions of the file. -/
def file : FiatSol where
  carry_mul := carry_mul
  carry_square := carry_square
  carry := carry
  add := add
  sub := sub
  opp := opp
  from_bytes := from_bytes
  to_bytes := to_bytes
  inv := inv
  limbs := 10
  consts := consts

/-- `lut_cmb`, lines 2142-4086. -/
def lut_data : List (List (AffW (List Nat))) := [
  [⟨[3, 0, 0, 0, 0, 0, 0, 0, 0, 0], [0x589cb5215f2a4, 0x5fc235f5b889a, 0x47483d30051fc, 0x5ba4f5d79a943, 0x6f8b135f27e81, 0x64fdcbefa921, 0x13acf1abc1778, 0x4a8a1cd9cbc39, 0x2b8e986e205b8, 0x3a81e7f43d41b]⟩,
   ⟨[0x134687ccb87c3, 0x3a10544e8416e, 0x61120f5d8ab9f, 0x4d75d92cbd5ec, 0x21e94205a696e, 0x291d5f488fba5, 0x4c096168a1174, 0x34acff09b62ad, 0x19fad4e4d776d, 0x50ff8d5938951], [0xcd7ec518d90d6, 0x711a4fb6c7125, 0x298dba98c6cde, 0x5bbab3eb0bfa, 0x8e9d7bf33e26, 0x19e3f333f7eb3, 0x48d7f84fbfa38, 0x76b7309883c74, 0xdfcc0dd3c626, 0x1e5ae220bf623]⟩,
   ⟨[0xaea0ce47f1e5f, 0x6da872dc7d9e3, 0x4026e133cb612, 0x1d4c81cbdd5c9, 0x116a46100fb10, 0xc71645b8c9ffb, 0x6afe06f1c1484, 0xb6ff2ff4e6c1, 0xa642376d824e, 0x2b4540e895c56], [0xbb3b92706cbc6, 0x5700de178e056, 0x197807544bffa, 0x706f69dd298a6, 0x205a8622a4e8b, 0x109a43ed36596, 0x49ab5b2bd5c17, 0x515cf2c048d7f, 0x651fd0ecdf273, 0x3c6b66dabd057]⟩,
   ⟨[0xabfc1b7d256e0, 0x22dfadd1d6e68, 0x33eec39057d08, 0x75ec5cd3b3afe, 0x73336be8a8f9, 0x528c313659874, 0x45d76d6402e5, 0x7b1f5060389e6, 0x5d713a16a99f2, 0x3c394b1ed6cb5], [0xa8c1a38755e5a, 0x5ca589c9447e1, 0x2d738ba7d236e, 0x5e7db74c629b, 0x62e362468963, 0xebfcb8ee6af9e, 0x193ea82e68f84, 0x3caa0e7efc3a, 0x54937bc67c142, 0x432f67fab85c5]⟩,
   ⟨[0xc34cee53642a2, 0x48ba44e987aef, 0x7cfba481ac93a, 0x252c52e6724e2, 0x69c1386dde181, 0x3fe183213c47a, 0x6c13a8dc37861, 0x4546ea0f50627, 0x7b6c23c692349, 0x4307d8079e6f2], [0x812879d2e3c8e, 0x191c73044fe47, 0x77218289340d5, 0x5da711bbbff71, 0x1c57405b59e36, 0xc7f1b91c21105, 0x66e23ef3a609, 0x12eb6d5c73d15, 0x20c3294080ed7, 0x33abc6bde0fd2]⟩,
   ⟨[0x2ee1e7135c5b, 0x147440718098f, 0x742216a0ad24c, 0x209fae0414762, 0x7523caca53442, 0x2240addeced0b, 0x23970f6f47640, 0x799a6033ca82e, 0x13f8d7ebd8951, 0x3167f9b05b77b], [0x84059554ecf79, 0x5753c6736ff73, 0x619a371c7ba90, 0x7a6287324180, 0x37396508e43b1, 0xb92328505dd45, 0x55c92400c6ee2, 0x2654406a9f655, 0x3af03185f59df, 0xc9632a02e2de]⟩,
   ⟨[0x82288639f2ebd, 0x4e3be5a9f335c, 0x475b64cdf3d5, 0x3ad875b443ce, 0x5a22cf276d7d8, 0x59a094cc2e917, 0x2caa724baebc5, 0x1cb230407f535, 0x43a679d215417, 0x32069427b390f], [0x5aae7ccdea72, 0x227e312ebd77b, 0x6c48359c093ad, 0x66ae122001431, 0x2a7685789d1a1, 0xdddc9b1721593, 0x2eb3a73075bae, 0x10d483a062d6e, 0x414e1a10675c2, 0x3fc179bb802a2]⟩,
   ⟨[0xfa7d670e14d45, 0x5b60822c15c07, 0x6e1c8dc8b953d, 0x3aa1f0c09e3c3, 0x4c494e672ede4, 0x61eb986e7c9b9, 0x3edbb8c82ecc2, 0x7b7e098625de1, 0x1652c34790e48, 0x181e9c44fb652], [0x26b7bfcb41422, 0x4420662645444, 0x5427fa987ff52, 0x5b9040df26326, 0x334deec131b7c, 0x9976a9aeb37c6, 0x5de6bda0ee26f, 0x46cd4b8da22bf, 0x1a9277ed46eda, 0x48fe9c8ea98f0]⟩,
   ⟨[0x69292a4f09ae6, 0x59eeec0228fdc, 0x2e6a2eb99e1c1, 0x28b36b1cb7edc, 0x7c4d51aeabb6e, 0x40fa7c5f982ac, 0xa163afab5a89, 0x436dc36654d6f, 0x6e7e4efbdba76, 0x469d46d1aec82], [0x3f3770683cf55, 0x7581899afcaa5, 0x21bb9291ec382, 0x725c1812f5867, 0x10d68ef013ea6, 0xd8ad6cceedd36, 0x4145477456e2a, 0x350f4cccdd3ed, 0x6d247f4fcccbc, 0x2c35ad24695cc]⟩,
   ⟨[0x563e3bb2c9a3, 0x4731f28271c7e, 0x6474aee84e9a, 0x79618ba66931e, 0x5deec306df549, 0xa49f4075b243e, 0x72f449585855d, 0x31c0cc652ef1, 0x3ddaa420f12a, 0x27047a35d3c45], [0x8d45aea9f97de, 0x31b40d05861ea, 0x22df5ac218686, 0x237062cc05b46, 0x511b267dd6ba7, 0x818297550a398, 0x702fe7a56cb70, 0x53c7d673599de, 0x3ed45d15b6c15, 0x1806f568245b9]⟩,
   ⟨[0x9351072db2170, 0x33196a2cef459, 0x6744e6383fcef, 0x5c51252a32d28, 0x5fa2110cc455, 0x4b8063421a324, 0x7d30325e5137d, 0x2afa7f320e835, 0x11a9719c3d5ed, 0x6dfed78d57c93], [0xcd2b1c06c89e0, 0x5887be69bef0, 0x23a5834eee4f0, 0x64984fa6ccd98, 0x6fb77fdf3397, 0x1ebebce68907a, 0x6784c0935bed2, 0x50ff3f3dff454, 0x4036c327922ed, 0x8de3f2c6a92e]⟩,
   ⟨[0x6e03b0a49fc14, 0x2d86c93a83ee0, 0x4a7f892c15148, 0x2fc12a44e72b1, 0xf1222db270ec, 0x5c305d53f498f, 0x5c15989bd840c, 0x5fd28651837a4, 0x1f44fe46c7f06, 0x25b96cdafe605], [0x9fdd223f15c01, 0x7578682cc2965, 0x6222b764ee30d, 0x2695a8c2ddc09, 0x3eed3043e0b4d, 0xdf4ba29380423, 0x799ce51dcfee3, 0x1dc423c4607a6, 0x353f2e08f2f67, 0x2de3bcb26fb64]⟩,
   ⟨[0x121c2dff5c5f8, 0x2c6372966e3bb, 0x40edcbb6fae3d, 0x45e8590c45b65, 0x57f2556a1008a, 0xd2c63669622c2, 0x53762bbda6a4d, 0x638814a3c0c15, 0x6306a8c676fec, 0x39fea5b5f2932], [0x45b18cc6f6bd4, 0x572570661cf49, 0x3db3e7e6325c0, 0xd4366ac3c833, 0xba40102d6c2b, 0xd88cd5627bdaa, 0x1a191f2bd95d8, 0x7b490eb1f6e2e, 0x1854754c42c14, 0x4f9b402bcf150]⟩,
   ⟨[0x62710ffd6e4c3, 0x75f168936c9e7, 0x5ebcc23dece92, 0x6a533fc0618a4, 0x6276d8296dcc, 0xc6fdbe7ddd556, 0x5f77bf0f1421b, 0x21327fbb8be4c, 0x39f51e09d0f1b, 0x36b0dc0560bd1], [0x90f866ea9c581, 0x1bb6c84e218af, 0x16801e510d5d1, 0x48969111ef218, 0x32f01f97e8eac, 0x846529fda255f, 0x3e0da43e7bc5, 0x5377e9ad3a533, 0x54f1c41b443cc, 0x1e2c9c182a7b8]⟩,
   ⟨[0x6822bbec85a6f, 0x37ff627207c7d, 0x99e1edb38619, 0x24eabaaef4727, 0x1634583c11813, 0x5bf27eb8fc0b2, 0x2c5e6d68aed81, 0x51011e59fefc1, 0x5bde68e16008b, 0x1cdb6ac4a926], [0xf9c8354532f1f, 0x3b7d13f24d465, 0x1ee14fafb642c, 0x3086537c154f6, 0x498fb21a3549b, 0xd5f9768c501af, 0x7358bd9264583, 0x20604de0c73bc, 0x4c1efb4d90397, 0x316fd7fd552fa]⟩,
   ⟨[0xdf775325b2bef, 0x7c981bdb56b5b, 0x30415fef5d1eb, 0x66427fb342115, 0x39f275dceb907, 0xfc52cb944765d, 0x63ba40acc8623, 0x217b5022687a4, 0x3782ee74343f6, 0x6e344af9791bc], [0x6a094a3d00c90, 0xa8c2af5a4ed6, 0x2593eb8606459, 0x6bb706b63f1a3, 0x1ac9abd940e22, 0xa8afeab077be2, 0x53c3e6de9695, 0x35197b6c50b68, 0x5f05ed56144c6, 0x5d16c6b2f7a7d]⟩],
  [⟨[0x9697efb5343b1, 0x30f79cee2f4d7, 0x7c57239c2bfff, 0x5e177e6306573, 0x58aecab18b5e4, 0xc2d8b42da873f, 0x67cec60f40d7c, 0x1cd069631374b, 0x53bf89f276a0a, 0x211bc2f82abcc], [0xf42f918beccb0, 0x50bccfb9278c6, 0x521f422be023a, 0x247e206708dff, 0x603f8eafa08e8, 0x1c8fa49e8e7a9, 0xed2f247fa8f2, 0x54f2bd90fc41f, 0x613e3f3a0e141, 0x58f502829c1a3]⟩,
   ⟨[0xfa958a02414ea, 0x5694d8b531753, 0x2596b7f70e2d2, 0x6f58c437031e9, 0x5e52b9ab2fc87, 0x47681ffad52a2, 0x54cfd109661e6, 0x2642e41e026f7, 0x15a4c0b3e2c49, 0x12dbab3d25c66], [0xf66d444f2c6a3, 0x465abd7fbd63e, 0x346682e14f62c, 0x7d1bfdc2bdd7c, 0x14b50150cdd7d, 0xf1bad6f065607, 0x1b669f08e4917, 0x7147465d09fd0, 0x2e2e3df8c1ce5, 0x3e168c6a9219b]⟩,
   ⟨[0x26e66f048e71c, 0x21da6ddb4379f, 0x6a446fcd70668, 0xed5a782862e2, 0x600db452aea1a, 0x70e2b0ee96b31, 0x272bcda0e468b, 0x6754f74551e8e, 0x30b2901255489, 0x18ba394d8f24b], [0xef5dab92ad60c, 0x7a4e353682e4c, 0x4d92b14f64543, 0x6fb1c445c4562, 0x5f0c73553832, 0xf219585c811fa, 0x2373528ce90c, 0x5aefe0f86ffd6, 0x65686ef3dfa1, 0x4bcfcbabbe76f]⟩,
   ⟨[0xa04e942db5726, 0x4e0a8e957d2eb, 0x42171e8c74b0, 0x2cd5d9c992a32, 0x21775a666df3b, 0x9b1719fce5afd, 0x70479a5510650, 0x76ca597f5197e, 0x2ff8004dc7298, 0x427fba3f2118f], [0xb2b7f0f1bc525, 0x4f49fdaf0e9f8, 0x119e1f8b31d5c, 0x2c2e70f7717a, 0x547eb13e64f24, 0x61c10285cb68b, 0x27f33f80ac82b, 0x7a73f720acd1, 0xfa4783e28ea8, 0x5e1b01569fe4a]⟩,
   ⟨[0xc8833182eec18, 0x5188ee3ccbd7d, 0x145800fa7d3b9, 0x15f410c821bf2, 0x6d6985d22bb97, 0xace8a202eeb11, 0xd3bc5ffcbc, 0x5a94de37c5b1e, 0x6a3e90ae676a0, 0x3dc3e9b9dea03], [0xaddb18897a653, 0x28bb1348e369a, 0xe0ef15d097a0, 0x369538a36a67c, 0x4f11787ecb811, 0xdab579dc3f6e7, 0x51eedc98205e1, 0x296b14c5b057c, 0x6a6b518d5a499, 0x4b973fbcad781]⟩,
   ⟨[0x92403168f568c, 0x50c76745944da, 0x45586ddaa3849, 0x2424f7a393ae3, 0x3613fcf452dae, 0x483477f08760d, 0x6de9c9c30a9f7, 0x6de3dc9e26b78, 0x72e8a269f2328, 0x1a0904e3e62b3], [0xf53cf7a63b520, 0x16e19e79779d7, 0x3ba73148bc41b, 0xa0b9cb876955, 0x2c3678483c9e4, 0x1717604f49f0c, 0x6da52ae47d9a6, 0x18a068dead248, 0xa45f44d54d0b, 0x201738c7d6750]⟩,
   ⟨[0xbfd50b6c0ed05, 0x3b59b6181691d, 0x36e5595022312, 0x6371166f016c4, 0xd2463d93685c, 0xfb99cec22230, 0x662b7ca84328b, 0x5b058f277aa90, 0x744c6285e6be8, 0x44924b43a399c], [0x9fe2ef5756858, 0x2609fac19675c, 0x1edb73c43a527, 0x18040218709b5, 0x38e60561a169c, 0x716a3de9c2728, 0x1312cd53738ab, 0x3a5eadf12479, 0x4f1c4c30a626a, 0x17077f028932b]⟩,
   ⟨[0x5e4b52dde7879, 0xdd824234af86, 0x7e33f8d4e4720, 0x7de0000448cda, 0x33984e740002a, 0xc47e6a3586ea2, 0x44d0958ebe073, 0x1246801b8077, 0x2f9fc5aa5757f, 0x1a2dce0976101], [0x660a83163c88f, 0x537d8b7f6309c, 0x8dd86923d2de, 0x1edcb48974621, 0x6c01f610f051, 0x8c9e7599c4a9d, 0x36ea13e261953, 0x3ed8bc32c0f96, 0x755a3b7b81967, 0x13de89a6b4d9d]⟩,
   ⟨[0xca6e0eb363c7f, 0x5f55ce82062cb, 0x54c8a253358d0, 0x2c5d656290ff8, 0x57f5b9325f1da, 0x1fef7c4623421, 0x751b35dc509cc, 0xd577e46356bc, 0x1ae1750b963e0, 0x101926ad538c7], [0xadb8b609bbdff, 0x71752c179ed60, 0x1f4f46d3cda68, 0x6ab70b8479b34, 0x25f7ed7dee309, 0xddc2d9609a612, 0x4e68baf1e467f, 0x40f9b19d3cbe2, 0x37e8c1ec0c6a4, 0x3125691c2193b]⟩,
   ⟨[0x67da2bd46c9ea, 0x26b6cab294387, 0x1d6166d7c9065, 0x62bf47248bd53, 0x2e90a5dd8639a, 0x3936168470e19, 0x528f76d8af696, 0x6ed2117c0f595, 0x53a94b0075896, 0x29ea83f539a1e], [0x2028a9bd76b91, 0x4fd251aa0e6f2, 0x5ac8cc0d23eff, 0x128939573b39c, 0x672b16ea38ae5, 0x4d9266e6063f1, 0x59e6a8535ce8, 0x599ecb0ef8dd, 0x7013d35e8201f, 0x2c65b4b7cfed7]⟩,
   ⟨[0x8f58a1e3612ad, 0x3a9fb96edb71f, 0x1f18d41c781fc, 0x18367ebb23895, 0x5d1fcd3be526a, 0xa42281101e568, 0x5babb0531bafa, 0xa5f2a706f2d0, 0x4127b930a594, 0xeb497cc34685], [0x73b79a1945681, 0x752ea80f8ac71, 0x6302573ac640b, 0x78867625480e5, 0x7079395b2c6ef, 0xc10ff5dd268d7, 0x57909d9f5e805, 0x3a161ee637f23, 0x76aa86d84ad92, 0x1ef085de6c3ac]⟩,
   ⟨[0xc311c4599bca4, 0x71d198ca022ea, 0x7bcca6c1ea7a9, 0x5a91f6ce54b62, 0x40f2f68adfde8, 0x6da7f20dc869c, 0x59dd3ee431c99, 0x714d6993f24a2, 0x7c5152642d91f, 0x2f4e11f2cc27f], [0xa8aca2fd26cfd, 0x2eb39c4ac80be, 0x5bfad35fc99f2, 0x2bfab444638f8, 0x355f04d6d03c9, 0xeb7d307bb548e, 0x45256fdc37cff, 0x455eacb7cd74c, 0x5f5bc0a0265a1, 0x4e4b55474c1fb]⟩,
   ⟨[0x405c3b4cbba99, 0x3a2cfd9ba8ce7, 0x4d38f33ba729f, 0x58368002b41a8, 0x1eb778063fafa, 0xcb2d95428c0, 0x7a5f40e6f6248, 0x66402e02185e2, 0x2874ae640e9ba, 0x25092ef1270c6], [0x4f5a43b7ea260, 0x24fc17540a356, 0x1076b47f9f931, 0x2fb78183398a6, 0x229276794feca, 0x1b56fd26ac511, 0x13652fda2807d, 0xad7ac8af8820, 0x59580d670358c, 0x7b37ab910db85]⟩,
   ⟨[0xe7aafaa81120d, 0x1efcc9131c28f, 0xf04662f79a92, 0x18481a743283f, 0x3227ccc1b0051, 0x889f9debdbbb6, 0x26e53c8db36f4, 0x40e757fc7ccb6, 0x796c1e48af493, 0x5cd8e286c308f], [0xfeef26280024c, 0x8656ce73f334, 0x47f19b4ccb60, 0x3e09fd007de6a, 0x6dfdc10446128, 0x1c5059ddf7fb5, 0xc6d4835dec52, 0x1ecdef9fa549e, 0x4a50331a27bb, 0x7445c7a2f53c4]⟩,
   ⟨[0x919f3ec9ccc4f, 0x5f2f6cf149577, 0x60c560f67551a, 0x7e358e045685b, 0x70ccbf13484cf, 0xc37725a783fcf, 0x54ab9e7ee7b1e, 0x3333bab51e43a, 0x17dc7bc018d7, 0x3ca4bcfa7dd5], [0x3e1a7a3069435, 0x480eff4e48bc7, 0x62115bd5d5e69, 0x7096dd6c931ad, 0x2608249cb7a58, 0x8a26364c8096a, 0x3c1f2d4a059e3, 0x10e330e128864, 0x3b581fc1de5c7, 0x588dbeaeeb225]⟩,
   ⟨[0x3ac2924b671d6, 0x27d78b698a45a, 0x15c6ff89b42e6, 0x480ff26ec1381, 0xcc4426aaa245, 0xfb55d009ef0bb, 0x298cbbb4ade83, 0x718b823375bd8, 0x7751b44e5f80f, 0x59a1e5d2a4a5c], [0xcb0ee2657342c, 0x55c4b6d401505, 0x56e99ce0e1574, 0x2f6cb06ead80, 0x476059c9e6eb0, 0xc60bc1d3204d4, 0x50dc61142023b, 0x726c34a8a210f, 0x5c72290ce928b, 0x4dfa0ceb1b72d]⟩],
  [⟨[0x247f93f2bdd27, 0x7c93034c92904, 0x27dad72e4b40b, 0x14e25e82abbd1, 0x60e4f42a6c475, 0xdc708d6d66ccb, 0x36db87a4b6343, 0x3c58123691eaf, 0x4dad470664927, 0x6a82e32f9c5e6], [0x2a35edd030037, 0x219f0d4ae2250, 0x3a7450131a667, 0x61472e2c5cad3, 0xbdf65be7af81, 0x7f887a21c419e, 0x48915425e3c2e, 0x46299a3659ce9, 0x44fd643c6825f, 0x41408ee3f7ee7]⟩,
   ⟨[0x1d71dc21eab28, 0x65a53d38f953d, 0x32deb59d8023c, 0x4054571aecbaf, 0x6227c20adc1b1, 0x4052b60ed5e09, 0x7d536170ce49b, 0x133f69c75d93c, 0x631a47e596690, 0x7be94b2bcfa10], [0xd3d75c6edbd10, 0x2f0c1700cf75c, 0x880bd06ac9f8, 0x7f4de75015506, 0x4f7d9218e4531, 0x525d094b57596, 0x303ba4adc93be, 0x781a6dde92bb0, 0x145a33fb664a, 0x3075364e801ea]⟩,
   ⟨[0xb5c724b664a37, 0x2503e28109c51, 0x25b829904e428, 0x69506db016812, 0x4a750c8a64e1b, 0xb87db220a7c57, 0x31efd957f4d41, 0x49a333d86b06, 0x1d8eaeb6440b9, 0x276c32b4ce41c], [0x8857c83ef71e8, 0x5e721b3ab9d6b, 0x17eacb90e5f00, 0x5c3e831c481c5, 0x7c0b8197e5462, 0xdbdc919f92aa9, 0x2200849e9caee, 0x4be6c719c5906, 0x4e280855b1920, 0x5c5b91db6d1ea]⟩,
   ⟨[0x424b6e394cf88, 0x3c2c97c04ac74, 0x63adb5e77144a, 0x5d883ff8e6b47, 0x4f87d0a1cc558, 0xbb8a228cf7739, 0x4b3a03fa0d71f, 0x753d34ababb8e, 0x562ab4c8cb943, 0x1cebf9bbc430c], [0x7223cbd30a33e, 0x7335c7215c6c3, 0x603e2856d2862, 0x2a848e65b42a0, 0x4218f69174e09, 0x5ffa3227a0a23, 0x5b5868c2514b, 0x4938afadad730, 0x7660f9a69e6de, 0x65102d85e579b]⟩,
   ⟨[0xd8adce1ed036c, 0x75b271ea827e2, 0x76b7f6030d0b9, 0x1cf9a9998a24d, 0x3eaaa8d599e8c, 0x926867bcb228b, 0x5c256ff24300f, 0x2d2c9ddd6690e, 0x318ec38cfd857, 0x40f4d05884680], [0xba16121f40ea5, 0x3e1a3c8625ed4, 0x3a030ed90adcb, 0x51906502c4e1e, 0x56353d129bb9b, 0x97e025b071b0b, 0x7fefddbe2c9b0, 0x5b33fc31e9599, 0x4b5e596c70338, 0x1c9b00b315dc4]⟩,
   ⟨[0x607dbc162717d, 0xd1169f3006da, 0xdd28c7a17f77, 0x575b9a5be6190, 0x1608a9002e304, 0x8355da341f5e9, 0x6f9c8170ee63c, 0x14428c0115e5d, 0x23a2e2e57272f, 0x688c75933f079], [0xff6a2cdb10a3c, 0x11bfaec3923d3, 0x42ed75727e176, 0x14fa777dc3a6c, 0x160bde1742549, 0xab16c591470c7, 0x28d130b66a9e4, 0x47e950b4f11c5, 0x135717ca7a661, 0x654b545b4e06f]⟩,
   ⟨[0x21c7f20682330, 0x6e09ba4dd4e28, 0x5ed0838cedfb5, 0x46faad6213185, 0x42f098929c355, 0x2587008e96e6d, 0x705a22499c027, 0xd8b3b0087a17, 0x3a94a483422c6, 0x3d967c7d3d6fd], [0x9965db7927e5d, 0x5ab719c5cae45, 0x33ccd1f896812, 0x1ae9a7a4ba5d3, 0x72043806db7cf, 0x8763b930b883a, 0x2e90170b740e5, 0x58f5c1631e156, 0xc3d179b466c2, 0x5e600d05faa9d]⟩,
   ⟨[0x1bdea3d7e7c27, 0xd69b04e78772, 0x6fd1a96ff1c3d, 0x704c7bcd74c67, 0x6587d24d60d0b, 0x9a72fb4edbdf3, 0x5f66f2fc11a22, 0x5c07a5c028cb3, 0x427dc53252fd7, 0xc0fe0d5e259], [0x15c9dce11a938, 0x2f708542ba021, 0x6dab5ec8723b2, 0x3151dbc6dbea3, 0x309c003eea187, 0x986e93a4ad727, 0x5a27640eb41ad, 0x64b4b969ce91a, 0x58ad60a48ba18, 0x7de07e6483d46]⟩,
   ⟨[0x1c747ec0357a9, 0x53cbe4fdf72ae, 0x1fb453499f9e9, 0x4c4167c9b02fd, 0x127dcadd50eb4, 0x805fb4e216ae0, 0x29faa52099b86, 0x47c3f68455806, 0x1b9fa50f58dbc, 0x3bd919aff02a8], [0xe4a059af4846, 0x7e18df861a61a, 0x6c2588ce7246d, 0x662d80def8736, 0x67c77b3ebb3cb, 0xdb319339b4754, 0x2f3dafe1d02ad, 0x1ab8e0ceda23a, 0x839e55ff286d, 0x427e6a937b04c]⟩,
   ⟨[0x9cd5e8f10490a, 0x770dee503609f, 0x2f4d1f9822af0, 0x209d7d6c6d432, 0x577ee861ad61e, 0xd96564bc24bf1, 0x7205d262b6dbf, 0x3c7e6251a1a93, 0x13fc13a41d60e, 0x213f2333b026a], [0x8e0f9a2f3f058, 0x52d3e4e010b53, 0x48fb0f03593bf, 0x7400230a674d3, 0x7d42de3498d1b, 0x88d98507324a9, 0x6febd72d5e2ae, 0x23587543de864, 0x6101b209db09c, 0x7176d895a251a]⟩,
   ⟨[0x5b6a111c3f2a8, 0x287d5a1a25472, 0x4c3c87f77626a, 0x7eafb9945bb03, 0xb01ec3bd3fd6, 0x3cfa14713c9f7, 0x55dc5c2b54df9, 0x40cb8f2fd4f74, 0x2b2c21aad7697, 0x6a800c6f15de5], [0x87ebac501c1cd, 0x4b94a8b9744a9, 0x71ea1c4951821, 0x2f01b39ce1a3c, 0x5d4d68c89745d, 0xcdc8d00e9f950, 0x4c2450a80d882, 0x2b0d6f20496f6, 0xe2b53712bc8e, 0x4fb508f36e069]⟩,
   ⟨[0x9905b853d75dd, 0x2202313a58a10, 0x47f9faa6a8086, 0x6997cd94c68db, 0x53560df08ce67, 0x58b243f1c8213, 0x23330f3eac431, 0x29615bf1fdc4b, 0xe02ffe4339ab, 0x6701924c686ec], [0x28b574c85d822, 0x23bdbc197a77d, 0xca80105f893d, 0x4a4b3f8ba0a40, 0x6606848556101, 0x2691001720525, 0x492966ded5935, 0x4330b122df4b0, 0x3f277bb31c2ec, 0x415c4c2a49a50]⟩,
   ⟨[0x67b9fed7e7ea9, 0xc6210735c315, 0x15c61be12c57, 0x31a65953d8e09, 0xc16e4265e92a, 0x38511318f2f8f, 0x6d2553216eb6c, 0x14c8a2ac5a158, 0x155d5d24c02f3, 0x28479c9aca656], [0x7f082d316a5de, 0x3727a88716e25, 0x759e99508c576, 0x268f8e924ce60, 0x6584b44f67e86, 0x10fc03061696c, 0x111f962eada3c, 0x287220d2e4a6f, 0x3db8a5947f03e, 0x63c396a142480]⟩,
   ⟨[0x8d64ddd35262c, 0xe4419beedcbc, 0x2644c710fd7df, 0x2b9fd57d1eda6, 0x1b443d6794ee2, 0x66e8a571ba2f0, 0x2a7dda194ff52, 0xf1f9b9eb114e, 0x2d0c71939af7d, 0x7b1cf36555692], [0xe6fc6e690e6c9, 0x25fe13962d085, 0x57ef392b58263, 0x601f80d88963, 0xf77167facf40, 0x5c1eb1f4af8d3, 0x4e45ca91a75a3, 0x7a538af4d39ab, 0x2fc7ef186bf83, 0x2bb96633b032f]⟩,
   ⟨[0xa511387235d97, 0xc5aebd7cd669, 0x1e2b79b37fc76, 0x633a0ed45a1b2, 0x2a485310156d, 0xcf71c1e86a953, 0x380a9470bde9b, 0x6c3a16cd16c98, 0x3fd675030bd33, 0x5733732e1e8bd], [0x5dc87e99b96e0, 0x61eeb65283a4a, 0x66868ad05a9f6, 0x3149fa1801e6c, 0x9d644b39dfc5, 0x88aa6a5735e82, 0x329d82b26f648, 0x38bf5ba7c68ad, 0xc5080b2df90f, 0x38d1f9ac2eafd]⟩,
   ⟨[0xdb14bda7c7b66, 0xc49b073976fe, 0x594f284ffa26e, 0x82cf489f3922, 0x52c957bf245f7, 0x6e308a2ab1201, 0x99b40aca95a7, 0x2815b6839730d, 0xb4295fda8783, 0x56f95752de2de], [0xf056fec9e88ea, 0x7747f406f4246, 0x125f62e04125c, 0x286a0e4919620, 0x691348ccde24c, 0x10e5ed700b6, 0xb69d2c21f3c6, 0x73767577f6f02, 0x5344da12140fd, 0x63ac1ffd1b34e]⟩],
  [⟨[0x73dcfa4cc1f6e, 0x58b4c7ed3a6b, 0x44fc7bbbb4d1c, 0x73aa6dd4cd996, 0x603ce62f0768c, 0xddf011f0b6ab3, 0x3e05089170d90, 0x5874dcc299be8, 0x1472869b59056, 0x509ddd9b76ffe], [0xef415076c2f66, 0x11e95b1cd79be, 0x72b66656ecb77, 0xc32231a4fa37, 0x78b2d3568104, 0x71892dbcb8007, 0x3a0d60762137, 0x1972e82fd7568, 0x3b928b40f35c4, 0x8d70a3ef6199]⟩,
   ⟨[0xafc3506c0703f, 0x624fb1c5785c2, 0xaabc82587858, 0x4c835073adcf9, 0x687a3e10bebec, 0x594aae6a6ae1a, 0x65326690f40a8, 0xfaaf35dcea85, 0xf2d71ee73779, 0x66971f9cf6697], [0x438c3ae869675, 0x58f4a97ccecee, 0x38c0da4eab715, 0x2eff5ec967da5, 0x4ec8c45f8a0b7, 0x1a00e90f5cdf1, 0x8dea644831e0, 0x344fdfcb694a6, 0x1645897f09a36, 0x3cd2366934f24]⟩,
   ⟨[0x3a9cbc10e78a2, 0x5680c903ee3aa, 0x6148c4134d494, 0xb708ab89ab5e, 0x4077f94e08257, 0x6e5183d078408, 0x100c1d80d49ce, 0x77e3b5b1fd1e9, 0x1d5173866042b, 0x2ec241dbe6604], [0xd707611b80741, 0x4edc429b806, 0x25b85b91e12d5, 0x5a874efd18ee2, 0x679d292e2e5e8, 0x7c4e1cf9d2493, 0x7fec8151f6c5, 0x7077c6ce7bcbd, 0x4e603d2d1c045, 0x120dc52fc4c28]⟩,
   ⟨[0x24cab433f1ee9, 0x29390b5399ac6, 0xa140735e1061, 0x6209faaabdaeb, 0x313939b1e27f8, 0x71218ce90c274, 0x4d454ca99b52, 0x244dc876ee217, 0x7b9aedff13e10, 0x7c60093fd8081], [0xda5dea4caf297, 0x68c8666e24b9c, 0x2429bb8cb157c, 0x75fa673a5eda2, 0x374a3ead4deaa, 0xbda91fd4d7b4c, 0x219669647b2df, 0x3edaffbb15ef4, 0x24cf5bc63ef28, 0x27124899c9a4b]⟩,
   ⟨[0x40b019b1261d0, 0xb4f4f45584ea, 0x10867c36fe3b7, 0x1b956efc67d1c, 0x60551212213fd, 0x45b1ac4d20479, 0x31e79405f14e6, 0x54f01e909a81e, 0x1536d9de39db, 0xb62d820d6fe3], [0x3f4243cf34066, 0x24f7957e1d750, 0x80b613a16a90, 0x4ffbb7d0412aa, 0x48aadb4617eeb, 0x5590404bf6350, 0x5fb0dec254dd3, 0x6e456239d68dc, 0x6aa0bac97fbc4, 0x7c0f318810c9e]⟩,
   ⟨[0x95c2255eb8676, 0x2eebee04e7bd1, 0x47162e07d3e1b, 0x19cbb802d7d2f, 0x4d5bca1f2fe81, 0x636275f6e3cd0, 0x74c1065ae748, 0xed33d724610, 0x382aae71c671f, 0x50f862e56fe82], [0xf0c6fe0519997, 0x4af7a837fad03, 0x29e2dcfc7d836, 0xd7429d3f9bc8, 0x2062ed538b7fe, 0x48d96cedb79f1, 0x35e77c26028a3, 0x2bebc515c0c05, 0x1137ec9dbe5ea, 0x4ef0306f592b4]⟩,
   ⟨[0x45cffcc0fa82b, 0x147cd2a7bcef8, 0x4a7df37a543f3, 0xe83c08c7db26, 0x433c19a259924, 0x60a2cc17c1b7, 0x48887c01708a7, 0x4f7b43946a5b5, 0x318da056d31f, 0x5816fa3e55b23], [0x28f1b6be8edbd, 0x2faeddf5dd2e3, 0x4f7e40ba33e35, 0x65c3b855fc053, 0x1874ef8c8d7c7, 0x9ee69935eb5bd, 0x5209285bdcd9b, 0x65cd4ad193a52, 0x7af07028efad4, 0x3d64202012d6b]⟩,
   ⟨[0xb9243b209436a, 0x4a9127bf30a58, 0x6e0e94a1e2713, 0x4376ead2b248d, 0x767eea5e05823, 0x9bf8f74216c3f, 0x24b8202c21037, 0x13b0257209206, 0x2f0b8a9c57e63, 0x1559540a76aa1], [0x66af801f7dd9e, 0x75afd2b0fb2aa, 0x55cb5fd0a01a3, 0x139a9a848804f, 0x4db6f2563f825, 0x1293e77720431, 0x5d00e9e6814e5, 0x33a3b82ebae98, 0x32c37e6c66cbb, 0x690013dadc456]⟩,
   ⟨[0x272465b8b5d7d, 0x720db646ed253, 0x2ab65b7565858, 0x14ad6b607866e, 0x598494cc47b43, 0x1ae0d244024, 0x29e1de544546d, 0x2d87a26ee67ab, 0x2767b394a967d, 0x5dd104aa8f32a], [0x68115cf22cdac, 0x6e7da3be129a8, 0x37a31451a8758, 0x39cb3690f9258, 0x69351bf30a237, 0x943cb31f201c2, 0x56d93fde091b5, 0x7a6dafb6fe56c, 0x76ebd371ac14c, 0x22219b02515d5]⟩,
   ⟨[0x7126658d45f84, 0x5f94089210333, 0xdf0b1374230f, 0xc22084a59475, 0x5b56056bef979, 0x3b18c16d005d1, 0x9a3d6108a669, 0x2b5446c86171d, 0x3c25e4502353f, 0x2af979ddd05a1], [0xce57ea911389c, 0x60cbcb1000cd6, 0x2aef497970566, 0x3002606f34647, 0x5bac30de7c37e, 0xace8ddca7f508, 0x4c49914338529, 0x201f520b0aa42, 0x3aceb18ee94d1, 0x43292408a3327]⟩,
   ⟨[0x71cfcf4149893, 0x2ff24b716f1cf, 0x2e9dd42d79e81, 0x5f2e12a9d3787, 0xb67abbdd6226, 0xe14ad866f075e, 0xdf8c5452e7ed, 0x179d614e61b47, 0x5f5e532d764c5, 0x134c30ca43904], [0x8a3d8e0e5028b, 0x2ad02ff65db2d, 0x24b54f477366, 0x4df76000bebd4, 0x1babebbc5b492, 0x293a99b9a4e9e, 0x6da8ec81880df, 0x4d62443f19541, 0x7788bc32d12b7, 0x53d73a62f6a5d]⟩,
   ⟨[0x8d1269bfe5e8b, 0xfe4c7cbd9622, 0x3cf67b2f4acff, 0x6a8a24518f03d, 0x347dae1827ad4, 0xf291acccde5c5, 0xc9c96024dbc2, 0x6e1493787400f, 0x4557c49c13b5e, 0x1bbd5022e461f], [0x29ef080397d2a, 0x7d3aefb96a5da, 0x5ce903fc41243, 0x7acf27a77be2f, 0x69367c2bb5b2d, 0xea380a0f28ec9, 0x4d091094729f5, 0x568ed1c33baf, 0x6ffc9fec1754c, 0x79af250e87c71]⟩,
   ⟨[0x1b7181a9fe1e7, 0x4bf3195c7079a, 0x4c65a8623bd7, 0x293d8ec50869e, 0x61ecdc77a17c7, 0x24a53fbcef78c, 0x6de143ab5a0ec, 0x4f508e8ad0226, 0x6db9363078a38, 0x2687048d33591], [0x2320e24e6a1c, 0x313a5a33b1564, 0x32a7b146533bc, 0x71698e42dc91d, 0x13fc72b6e6862, 0x192b68047991b, 0x77cb246d0cf66, 0x19bf6e968e141, 0x22befb71228a7, 0x7a8be0f3ab802]⟩,
   ⟨[0x4add37a15baf2, 0x2ba4932a7035a, 0x7f27f93062c33, 0x1e46147e6199f, 0x4849455cb21c9, 0xdf6c55755f760, 0x62c25d51f8005, 0x18d552106ae65, 0x36d4a8e15a67d, 0x2eae18e596e61], [0xa03842db9836a, 0x48f98cefb00d3, 0x5190809adf2ba, 0x2dfb56f0a20d0, 0x27970faa41846, 0xa481d0ad15c42, 0x613f431f58db3, 0x7b1df30c2753, 0x724a12a33fe21, 0x61257c4c8d5d9]⟩,
   ⟨[0x6b38283640bfc, 0x71a8876d2d39b, 0xf57ff4b7c4d2, 0x48165c6651fa6, 0x261cab432e4d9, 0x3a33a1024655b, 0x16a80fb002efe, 0x7f53959dc0bf4, 0x327b19c41762a, 0x3aeb118550bd1], [0x194446473faa4, 0x56252c5e6d79b, 0x385407b1e32be, 0x4f62d3ba2c380, 0x6709fc90e66d9, 0xbf2efec69e52a, 0x25e53d4588cb4, 0x767af079a8486, 0x6b1b2bcf33774, 0x54711d18a6446]⟩,
   ⟨[0x2f65d12a437f5, 0x4c193bb16bb5c, 0x44cb11429b380, 0x575b1d96c4371, 0x4792169d089cc, 0xa44e79cfc086d, 0x7f7a9aa829c6c, 0xe51ad40e415b, 0x3741299ae5ab0, 0x34773ad27f4c8], [0x1088846755e86, 0x7c43cee739306, 0x6dfb006fc973d, 0x75d11abb97e3f, 0x6ce4ead9fd40a, 0x90de95e0b71b8, 0x677fb1ca2400f, 0x1d6a9eac1f91b, 0x4b5a0dea254e4, 0x31843db8aca4b]⟩],
  [⟨[0x40f0fee5191d7, 0x7ad757b218666, 0x25b684155af20, 0x29f4b5c485180, 0x7d8377347091f, 0xa22940af54a77, 0x3bdf6cb1b3734, 0x579d05f06e011, 0x32f87199b836f, 0x467cdc3e7620a], [0x99269e81caea9, 0x60fad5b89dd61, 0x5d82009e159c4, 0x543570882a388, 0x5742b11f41567, 0x5532cc1a04cf, 0x7e7d67ca82018, 0x30811921ed542, 0x33b0153c0a9d2, 0x27eede45d652]⟩,
   ⟨[0x54628b564dd25, 0x278e72161a60b, 0x2875070456f4d, 0xa471c5023ae6, 0x53142cc156044, 0xeb689710b36ee, 0x749fe221a7a5d, 0x5ce289b236184, 0x64a9332e96dfa, 0x19f74b7f23aa6], [0x47c80e1c6849, 0x32c0409eb2702, 0x5472d7a3265a6, 0x7486a002948b, 0x5b35d6dcd0117, 0xf09583142990e, 0x20994f45554ba, 0x2a8a2ed9245e6, 0x1fcb7f2469865, 0x3abdd4f76d182]⟩,
   ⟨[0x7ef170e5b61c6, 0x72fd9870da526, 0x52a5ce07fb8a2, 0x641090cda363a, 0x1f046cd11b1c9, 0xc5aca2b42de77, 0x3fa2d3d3a78d1, 0x22ee52a68ba15, 0x6ed9a8ffedb9e, 0x628597175cf09], [0x7233fad040661, 0x2dbf1724897c1, 0x58af887383ff2, 0x1a82f626a8ba1, 0x663b0e734d3ad, 0x41a94cebe29a8, 0xebe98973931d, 0x7653dabe4c434, 0x77f080ba025b1, 0x1349d8d6d5053]⟩,
   ⟨[0xbe1c7fb3ea365, 0xdec547480e21, 0x3063031574c24, 0x4a1a78e047579, 0x606500ab9a488, 0x27f5c522d4690, 0x1edd9ff35555f, 0x27fdc2b282190, 0x683ced2b98c75, 0x650923c157066], [0x92c9af39cbacb, 0x7d3858c2dd00b, 0x31e676bbb7275, 0x3aa2d98f4f933, 0x3dca9ce27a62b, 0xa07f50b9e690f, 0x51df1c1bcd4a, 0x3517b8ac99cfd, 0x6367c0179f6e0, 0x2ce5c968bcb6d]⟩,
   ⟨[0x200c339fa6063, 0x2d8c7e4167214, 0x43f59d8d68bbe, 0x20abf6635c5fa, 0x676fc3b2b32d8, 0xebe9fd818dfc0, 0x6d7a4486f3794, 0x684f5e2df04e3, 0x32590e104d8ca, 0x7f86f511deaf5], [0x34e941c93c058, 0x34819a8da6a22, 0x164ad4449303e, 0x42be59ca73b0d, 0x14b7f6ea0a455, 0x98c54814b4ed9, 0x4c74e9049a134, 0x1859c7c28787a, 0x2bf6fcc75d79d, 0x7a8e2129ceb51]⟩,
   ⟨[0x18e8a6d68977a, 0x202ba27c4f548, 0x765e7cecda47b, 0x363db05a69000, 0x5f96506beb7d3, 0x89c30791266ed, 0x77e5cab5c1f29, 0x6e87e942a7a13, 0x1fd90d57f757b, 0x7b1ff16e524cf], [0x5ea5bbea59591, 0x427e51d91ae1c, 0x70fc7f83a8541, 0x69e9d31a36625, 0x30c2ed2385f4c, 0x95e9cedc7ec18, 0x4df297d2ab731, 0x7fd32ee0b4c2f, 0x6423f55007b50, 0x582afceaf6692]⟩,
   ⟨[0x132229c4be432, 0x62bdaf1a965d, 0x2c1a7663c1e53, 0x38dae7dcfb8cc, 0x72695bb1282ed, 0x6ec32706e7f8f, 0x4fded61e285be, 0x3d1d5a48b6110, 0x552aceefd0f10, 0x11d10445a68e0], [0xcb3e30a36f50f, 0x4a7b7557e35ae, 0x66cfbf15b4d97, 0x508b08233b2e, 0x3f31fb5c7ae10, 0xe6621f3031e22, 0x482990f4ecdc4, 0x484d2aa8a0f24, 0x9d4cf9c0a36a, 0x1cc385c527853]⟩,
   ⟨[0xa4792a9eee2a9, 0x72fa6fdf2c7c6, 0x7c7826e4812be, 0x6f6d236cf8fd6, 0x73f81409d27af, 0x6499e587e37be, 0x1d910b9037dca, 0x76b6ba2c2dd1c, 0xc40f587e10e9, 0x3a0c39693b06a], [0xb22437df0a661, 0x740d926c3ca81, 0x4d6fc409922d3, 0x6c8b0a63ebe3b, 0x7a7e09c658e92, 0xee849f67956df, 0x9aced8e8fe8f, 0x1cd4640f2626a, 0x370ae99e0ef4, 0x81e0d1461be8]⟩,
   ⟨[0x73065330bab74, 0x1574e266a5243, 0x2d1f64cec7bbf, 0x5b4b35fd5f97f, 0x6e328070806b7, 0x194194f915c7a, 0x73d3745896020, 0x5e613bb39ae2a, 0x11d507abcade1, 0x2eaf0689489d1], [0x58d096bdb2ab, 0x69969f77f9cb1, 0x39b6125b8f829, 0x44a07aec2d0c6, 0x504b4f3946022, 0x80d0dfa735e99, 0x2bc6cce0171e5, 0x3d83527837207, 0x66cba871ac0f9, 0x24a295aaeba6a]⟩,
   ⟨[0xd2b933fa0da3a, 0x79892af905b11, 0x21863855aa63a, 0x52d86fec679d3, 0x791b1fde46ebe, 0xaf24dc2d97724, 0x430197793b4ef, 0x1355100b792d4, 0x67bc1c675d49f, 0x13f553362d7e5], [0x4977612bcb0eb, 0x3e50b8f31a3a8, 0x7cd4af5a9cb24, 0x2d3e56a2c0f66, 0x2d65c455cd2ef, 0x2086963c9c7d0, 0x145d5c4a9ffae, 0x619bac8505c4a, 0x27e3a7ae4a7a, 0xb67ad3689936]⟩,
   ⟨[0xcc7d3bf4762c0, 0x1f746edbe329e, 0x1df8b85050fa2, 0x3bd3b0f568385, 0x180bf161abac6, 0x215ce0594fa0, 0x47c0cb6a73218, 0xdbaea7bf27d7, 0x2f869f09063dd, 0x54d9ba9522e09], [0x2fe8d87a17ce0, 0x57e4ac584e74a, 0x2dac318271ef4, 0x2423f79d4deb2, 0x3e960755ccbc4, 0xd266a7438dbf6, 0x477e42da16918, 0x6b11a646b2b6a, 0x431429bd1f7b7, 0x6ed79801cf551]⟩,
   ⟨[0xc2f5ad403d304, 0xe16e8839a82, 0x6e1d15d839778, 0x5f5b10106bb12, 0x5c19d486dd5c6, 0x719c29c1e59df, 0x659479542b834, 0x7acde37b973be, 0x3482ad9321747, 0x505add6521552], [0xf913fc1522d09, 0x37bfd0d4abc49, 0x1fa1ddc7c8f2, 0x557253e6a7db6, 0x6e4f330384051, 0xeb36bc2271684, 0x6e60bc26e1f0f, 0x54a6e03b188fb, 0x3c21955e62b44, 0x29c4483ba7d4d]⟩,
   ⟨[0x670cc3896eba5, 0x259cfb18cbae2, 0x6699793cc03b7, 0x6e571d3ff8f29, 0x1eb92283238d, 0xf5de25a4c21f7, 0x21da151657372, 0x5351a570d55d1, 0x5e3c40430a85a, 0x1a3faeb0f9878], [0x41f28ca0920e8, 0x528aa3286f64, 0x550cd85825a5a, 0x6a07132346430, 0x6248b435552b3, 0xc51e8492a342a, 0x238b2e633eae5, 0x77eff4ff5e3af, 0x737fe3c5938dc, 0x3e7f342587f14]⟩,
   ⟨[0x469ea4f316a5, 0xcff01adfc8ec, 0x752dee0af6b42, 0xfbd7a1db547a, 0x71529f9cbfcb7, 0x2eef2c4e55de9, 0x68b08fc158b20, 0x5ba1440b0cd47, 0x770690268eb1c, 0x4fea766326eee], [0x7e31940932215, 0x6f953571e0d10, 0x325db7ca114c1, 0x3346f1bdb76ff, 0x4b2d608c398a0, 0x880c15a6358cd, 0x3a12da7dae1c, 0x12a98295624dc, 0x3f435f64da03f, 0x77e682761bd79]⟩,
   ⟨[0x725ebe3550e60, 0x9759e82357aa, 0x707477fac3456, 0x56fdc23023b2e, 0x51e1365b47e4d, 0xb5d849f58ca94, 0x685bf93742a36, 0x1a1bc548f6279, 0x344bb9de268d0, 0x5fdfb2bc3def5], [0x848afb0499c56, 0x10dc37abcfdea, 0x6c1811764ba4d, 0x2a308a7745fcc, 0x74cbb9e51fb1a, 0xac8d6f8659635, 0x154d1f4f69089, 0x28051b6633dbb, 0x3335687bf4293, 0x5ed908b0510a4]⟩,
   ⟨[0x4904c9668e6cd, 0x79071b2b92e94, 0x1e7ae6ff7af6a, 0x2127fe63573cd, 0xd3d1e41cdac6, 0x11204952e81ce, 0x271f8c2a453e2, 0x1b69f9248db24, 0x379d0353fb400, 0x1295bb193d08f], [0xe90da27ba514f, 0x3159cbe1f9c35, 0x5521cd6feb8f3, 0x5119f047f6eb1, 0x4d5d0948d614b, 0x6892ca0e25568, 0xfd25bbe0a6e7, 0x21564372435f1, 0x27d8b49cad04c, 0x7d5a2c89462d]⟩],
  [⟨[0xf514b71ebbdcc, 0x4035582f1b252, 0x2a1c7c414989a, 0x7743f23dc3274, 0x791e243ae6ef8, 0x9076c398d3fda, 0x55d23854865c6, 0x67630f1f7a188, 0x4fef4830113f0, 0x6ef4dc0128b39], [0xae1f76a7ab992, 0x3d7abb33c7671, 0x7a82d28545fe8, 0x34ab6dcb3d487, 0x7701ece7ee900, 0xe400e5bc2a1a4, 0x693eae58f5df2, 0x37bba5ed12db3, 0x5ed5b1e21c1b3, 0x641dc0d967e8b]⟩,
   ⟨[0x54c95bb0652b1, 0x46f4fed58813d, 0x50815ba4c242f, 0x3c70a5adb1cbd, 0x18471501c557f, 0x61b89e1db46f5, 0x30130047b6c15, 0x24e7e179f958e, 0x29b81afd116bd, 0x1f1c0e6f5b495], [0x23c05d2947309, 0x77ce6739da7a, 0x7175e6fc632c3, 0x79215145a49ee, 0x5582902e4aec2, 0x3d193bc0c12d2, 0x5ba6f099a5df0, 0x403f8ef0b4955, 0x642eb7c8a43a1, 0x5d32bcc2f8b89]⟩,
   ⟨[0x17eb1ee4cb1a1, 0x6638c230fe375, 0x23dcf4460c9f8, 0x2497719f0a400, 0x40836988b5191, 0x4916de1d1c20d, 0x1141194f546d7, 0x2179582aca27, 0x4dbc84c72f8e0, 0x23c1dfc8efd14], [0x70b7f76adaf26, 0x3c6ceb8b1da8a, 0x3fd11262fdae0, 0x2770d8c7e9fb3, 0x6d3bd713575d9, 0x7838c17f3658c, 0x77f30784494cf, 0x1ce5f8562296e, 0x5c03fbd4434bb, 0x1ff536cdde62e]⟩,
   ⟨[0x1172a96a1e7d6, 0x1098f9cba5bbc, 0x74f5479589bda, 0x3e78b80ce763c, 0x45042b492b949, 0x135b01953b25d, 0x564a958658405, 0x73391fc7a30cf, 0x51da995faf2ac, 0x8899d026cfe6], [0x2ef92641119a3, 0x7cfcd3d8e8348, 0x251d519aa1667, 0x7524c025888ad, 0x2847f5cb47f5c, 0xc637101a1799, 0x684496c314774, 0x5df9f71863b37, 0x3099895a2f373, 0x333ca2e94544]⟩,
   ⟨[0x70ccf02ecb2cc, 0x105ef4d0a506e, 0x7bf7a4de2ca0, 0x6dab36e4422de, 0x5261ad9d05df0, 0xc9fca9fcf1803, 0x77f743b9f8f4a, 0x54f8cfd871dbe, 0x8369a88f23e3, 0x4de24d800793e], [0x80d00bbd99113, 0x705e433c3d50a, 0xcc78397e7790, 0x33741085a403b, 0x6e31f0ae64239, 0x4b8ae3cc6defc, 0x7fc3c4d4bfa22, 0x5a85ff42ba85e, 0x5e2879d483f75, 0x111b21c595b57]⟩,
   ⟨[0xb69e54fb31425, 0x7670db77e68c9, 0x200548e67c390, 0x7e58e7da1316b, 0x65c0a1a2ec1e9, 0x566cc8a93baed, 0x34140ba9d29bd, 0x66d8bc0434ec9, 0x545f0a0be9d95, 0x5d43571d5259a], [0xcb66450379e4a, 0x2ea896e3d63c2, 0xa1cbc3c15620, 0x4f3a6795dce0b, 0x7a3f6dac83ac6, 0x5ec06f01b9bad, 0x6468a896619d3, 0x3c2faacc2c60b, 0x6858f9f24ff57, 0x11a6265d8a36e]⟩,
   ⟨[0x41c66e40f1a90, 0x4e4f0180e78ef, 0x3fb530ca47eaf, 0x7abb19e0a2fa0, 0x41abdd6cb403f, 0xdab4eee08ef52, 0x23fc4e743bc92, 0x5b913456a7476, 0x1c85ade3ac4f1, 0x4c1ea18c4581b], [0xac8c9f1f7f0a6, 0x7e11a1c557ed2, 0xe1e16cce15d8, 0x132838704418a, 0x2e6afa3b1e448, 0xd76ff3fbc3f61, 0x15097a2812475, 0xf295a5bc66cb, 0x2ff9986fd6334, 0x792181517f379]⟩,
   ⟨[0x593bfa181f4de, 0x76e78859cc727, 0x768cdcbcfb1d, 0x2b147828e8906, 0x4d189bbdfaf3e, 0xf4188f2de5620, 0x5541e2603d86e, 0x68b0163e24ef2, 0x732f7a222ec67, 0x30102005758d0], [0x965b8766cc610, 0x6ced5c6750ec9, 0x2510890a11a94, 0x50a335e380c21, 0x2d3aaa4b5abb1, 0xc3debf83fd12e, 0x42a5b613a963d, 0x48a5474d5b2cc, 0x6dbc324e377df, 0x4a450113cc47f]⟩,
   ⟨[0x82fd2d666ba94, 0x307b3c69374f1, 0x30e4dccada50b, 0x25121dd5af46e, 0x5dae113de717d, 0xf540f6a242af7, 0x1984b2dee5fe8, 0x751006703c07f, 0x3c4bed0c06c42, 0x6834e2cfeaf97], [0x79ef331f8be0c, 0x6c58fb2c0d852, 0x642c225b2131c, 0x3f1f2dd654af1, 0x3f6d400299a16, 0xa1d524b709913, 0x7f61d15fa8cd7, 0x7d279176192a, 0x4cb0573788091, 0x17b43566c1463]⟩,
   ⟨[0x7a50d58e645cd, 0x717bfefcefd32, 0x21533c2082002, 0xb6c97be84215, 0x3d9526234147f, 0x736afd37f86c3, 0x1446c15a309fc, 0x49f6a2e32732d, 0x5a7f6b6bd0310, 0x49050a86f7f6e], [0x478a084486f70, 0x4b485e454ffe6, 0x5134ac546d22, 0x45ec4a7c0db13, 0x3ab8cce7a0b15, 0x601a238f1b5b3, 0x63d63f830d881, 0xf2d0a86f5488, 0x77a07ab5a6307, 0x1a0e97fe656c5]⟩,
   ⟨[0x2b8e72c38fde6, 0x1650dde9f2e2e, 0x28ef99ceb5566, 0x41c64dda06d6a, 0x5cb89b26ad37, 0xa5f15a5f8af03, 0x25505f3937c0e, 0x159b4cd9043f4, 0x343c00f6ba0db, 0x47e9671ab1cfb], [0x7de9e2086ecd6, 0xa7b07155978a, 0x26c99dca72bc9, 0x4f4f2c6eb2ed1, 0x74c9ce7c64240, 0xa4d876b2764b2, 0x5394454615d25, 0x481776cce078b, 0x186a538247ab1, 0x333d9943b1146]⟩,
   ⟨[0x84973cedc2791, 0x2950f48f39eeb, 0xef6f70d1eff2, 0x4d3d6fd70feaf, 0x638ed86c3a27d, 0xf9b23d52daef5, 0x7dca2c6212a71, 0x3a72278c541d8, 0xd206d53e4f6b, 0x7cc2fd213c6d8], [0x9c9835f59129e, 0x7f4a22c2fb8ac, 0xeb9fbbdab0af, 0x397be0b58fc49, 0xd58a5d14aa83, 0xcbcdeef3c688f, 0x7f56d84202ae6, 0x1aacde92e0055, 0x6a0198a5dd4ef, 0x9072b8cfbb20]⟩,
   ⟨[0xf7fec5a5d3591, 0x3cc91186cc1d7, 0x539f22d56cb3, 0x14418785a7e75, 0x7dd55510142b3, 0x27c9298fbb5f7, 0x2e6839156f4f1, 0x6806e7af3bdd, 0x17feebfa3e11c, 0x5e3b668c8cf1e], [0x2e308db4d3abb, 0x2519214dbb309, 0x53f1d5795fb73, 0x6c5a6ba835de, 0x7282b5833ff0c, 0x7ca1c54f0b679, 0x67f8a25fbf269, 0x6a247708ab5b, 0x271fdd248bdc5, 0x1617d43fc96f]⟩,
   ⟨[0x530dc05a439d4, 0x2c89df13d212f, 0x6cd963d870ce, 0x70e6a17e094df, 0x5335d7b440052, 0x5d20a7fc5b6e6, 0x816c1bd2e991, 0x15bfd4d6a50b8, 0x611290ed60372, 0x252141fde02e6], [0xee270d2d5d91d, 0x64864d00df773, 0x2cdf8c5bdd29e, 0x4b4d19d843238, 0x1e7349df960fb, 0xab7e45a9b26db, 0x2d5282f6ee449, 0x4f9b215872cd1, 0x2f931edc40dd7, 0x4c76a77256a9f]⟩,
   ⟨[0x6a781358c169e, 0x93bab2a31f43, 0x2c0b13c7e6c0a, 0x35e6dbe645073, 0x27a3cf6b52bb2, 0x7090f7cd7f0b6, 0x49b2c3b592e30, 0x2359164a5eb6a, 0x4dc6c9a544458, 0x7423068d875b5], [0x59d79eba27f83, 0x5d19f0cbc111f, 0x753952eb35496, 0x62897b4108c18, 0x6d7f09d866e46, 0x5897e202402fa, 0x1d12e39d2981c, 0x4d1f9bd50fddc, 0x60754737fa4ec, 0x4b66c109681c2]⟩,
   ⟨[0x91eb3450a8b6f, 0x6e67784d11649, 0x52a0a75e83a4c, 0xc7ef54a33fab, 0x7e4b1f177ccac, 0xb1572c584c7b2, 0x3f88f3dde8af6, 0x55a76b8a9fec4, 0x4d726d797abf3, 0x63a37056b2c1], [0xbec5b8d4113b1, 0x4af1e78531e4f, 0x3a706b01ea69e, 0x114c7197a503e, 0x68d6405b730d6, 0x37f60fb050d8e, 0x2625fcdd6414d, 0xa66900d00c7b, 0x7aade957078f1, 0x708b1373bf752]⟩],
  [⟨[0xc3bab92c31ce5, 0x2134ecd1de22, 0x610e7706c8f42, 0x4d37d742251a7, 0x3f0ad3a1a8a28, 0x5b53175168302, 0x7812ca56b0662, 0x6dba3fecd0e65, 0x488903d3a2c5c, 0x356f226a3070c], [0xc6272379969a8, 0x30e999753799, 0x6fa2fd45cf73, 0x5b8b69287af76, 0x5213c07a81179, 0x8d822b335452d, 0x11e080d0121b, 0x337047aed499c, 0x5f3f0dae82068, 0x287d13edc6853]⟩,
   ⟨[0x890bae3cd0a60, 0x7cfcb31dc10e6, 0x42a0ad557a444, 0x5e3e8dedd318e, 0x4b768fb3b1b2d, 0xa74be0f89ca10, 0x3022817a331f0, 0x398531778d3ce, 0x3f92b536499ca, 0x39bbc19367c44], [0x3d17e79cf10da, 0x41c136308597c, 0x1c7cfcc962c3f, 0x5f7010bf5a11d, 0x18e8314ab3e4c, 0xb784160490f36, 0x2c72d731f23c, 0x59e1083ef050e, 0x29d7c307711f7, 0x28978eef174d0]⟩,
   ⟨[0xb2ede471ed48, 0x49ff7f87a8fde, 0x407dac8e66330, 0x17a99137dcd53, 0x413d5ba8a3e49, 0x69e2849ed7acf, 0x11a49582e3c16, 0x3ef82c8e245ed, 0x2209e0b7ea09e, 0x640b26788b817], [0xfb77ec4895293, 0x521ee12fec7c5, 0x6b87272f0f4be, 0x743571a70d3fa, 0x12a853508e676, 0xc8e90d720c744, 0x4e53325bf55d5, 0x22141d2fc04de, 0x2c08e37ccb8a9, 0x5b2ff2928ca19]⟩,
   ⟨[0x93112664e6955, 0x318fac599b3b0, 0x4e86ffa5dc372, 0x11cea6b7ed8b5, 0x32c5bb4d4b3e4, 0x12fab789556a8, 0x5fd6d51c50c39, 0x1f53b8df4eb2c, 0x3dc5a71df97a9, 0x202cbfd6a2695], [0xa8d3b3805ed4e, 0x6e97bf7b19a75, 0x20c8ef1a157a, 0xddad96ecc141, 0x634b69890e950, 0xbcfbda6464e18, 0x57a50ec40e5e7, 0x369c5c34e75a1, 0x1ddda57109d52, 0x109c8da359727]⟩,
   ⟨[0xdc858e40e2d09, 0x6583010e4fcf5, 0x5616e9fbecee8, 0x4cc7ec96ffca8, 0x5436edc94f6c0, 0x1bfb47ec04ec2, 0x353148f9b2046, 0x2e68773e2d458, 0x128904a0917e3, 0x7e5a730228042], [0x447defb88bb4f, 0x12d87179a012d, 0x2379dfc6577e4, 0x646eb1ba5867e, 0x4927a6707cb7f, 0xf2f4b5dd2c056, 0x148e5c0eb9590, 0x22e829ada8d2, 0x66c299b36127a, 0x208acae17ba18]⟩,
   ⟨[0x3fd0be2afda6a, 0x79a3a05afe09a, 0x24431b9238af6, 0x196cdceeabc5d, 0x5cd6ba856b384, 0x3376abb9c7d13, 0xe28403d233b1, 0x1e3e601f20b20, 0x553a7f33316d7, 0x77a41cf9d1895], [0x18114833694b4, 0x66ace25dec0ac, 0xad04607bbe, 0x1c2bbd9d88ed5, 0x207ef8cda325d, 0x8c36267211fb6, 0x4148abe972485, 0x32559c1c5bc5f, 0xd7cc34eb0616, 0x6cfebfc675164]⟩,
   ⟨[0x6391786a18b11, 0x72b22981c2bbc, 0x64b2dcdabb7b4, 0x307055034dd3a, 0x51c4cae5629b9, 0x7aaf27949f035, 0x2346889d53c01, 0x6f67e4a19ca62, 0x331666606352f, 0x5374df049c2ac], [0x2b2b3139457d6, 0x351a98e4d4eb2, 0x3dc00c4ebc1e7, 0x17ca9107b252f, 0x7d9a4523cfbeb, 0x37f677495611a, 0x32acdfb65fa6e, 0x5c03ebccac4, 0x44d67340f21a9, 0x6f83f5fed3656]⟩,
   ⟨[0xe79aa3546f16f, 0xa94af4903b11, 0x5bfbc2b88e83a, 0x1616214ca6d22, 0x2f33b14ac87d4, 0xdc3668ac17ec3, 0x3f9a5cd0fa18c, 0x12136a765687b, 0x477263fd5add5, 0x47574a89b0a9f], [0x86fd1f3ec5e19, 0x1a0517754f902, 0x3fbb71a4ef414, 0x60c166c23d6d5, 0x3cb4401a452c9, 0x84139b2a26f87, 0x194184853f0af, 0x725c3e883547a, 0x7311b46cfe9e, 0x6272c00057e36]⟩,
   ⟨[0x91526fafa38d9, 0x13c7b17beb483, 0x5fbc53cc1e78b, 0xc1040cbb5d8e, 0x3a0af18fc9ade, 0x7bc9b9b737a51, 0x58eaec3e9fed9, 0xd346cf710790, 0x3be2b75105fa1, 0x4d079255ce7b8], [0x6c7d92d0825d, 0x27a8c0386749e, 0x1c5b09d0fc792, 0x2c2b760a9c963, 0x1524437db7579, 0x1b37f4b60abd4, 0x7fe579406d534, 0x2739c0c35bd00, 0x51086e45fff04, 0x3f4c9935fe354]⟩,
   ⟨[0x4e5d268bd8a83, 0x377586fc26aa0, 0x30113a02cbc64, 0x692eb25ca12f0, 0x1a47e293f9d79, 0xdd2612d416aa9, 0x19fac853d7bdd, 0x1b9c4e8811ec, 0x164570c0aabcb, 0x2dbcaccc287e8], [0x27eadfbcea391, 0x406ba866fb97c, 0x250e70aa28457, 0xce5d6b77f502, 0x7e1fe982dc604, 0x77dc8cd9aede3, 0x6eecc4e8c56cc, 0x529e001d51c07, 0xd42cf53b5e54, 0x59f46f2041f90]⟩,
   ⟨[0xa993579c46a7c, 0x3fadb3c50214a, 0x7552587801072, 0x8e9ed9922e64, 0x1d65d1fe863b0, 0xb68b2d984977e, 0x26f8bcc4ef71e, 0x4580d2cf9c07c, 0x5f7db9f7c5608, 0x39723a14adb8f], [0x1fc8374852517, 0x4efcd85e78688, 0x5ba5c6e340e04, 0x2ad5541c4f7e0, 0x7afead74d7911, 0x772eea94a657c, 0x372bb0b3340c5, 0x2dffc3fe428c3, 0x7780b19634458, 0x396c2e8ad8e1b]⟩,
   ⟨[0xa0dc2aea8d665, 0x497c1a0eaab74, 0x34918630c5e96, 0x21960961a8492, 0x56059c4aca995, 0xfdde1d84a2bca, 0x3e28d6d947c37, 0x59fa17ea39cb1, 0x2b2b829872434, 0x1ad4daeaa9fe2], [0xf2e4853e5af32, 0x4693d39964bd6, 0x6a84b327ffe47, 0x2f3c1238e197a, 0x3790974398bdf, 0xff31f3581af07, 0x4c239726330ee, 0x2c366afc8a963, 0x5b30d24500cbf, 0x7d9c6b29592a1]⟩,
   ⟨[0xe71ddd57e8296, 0x346c03100ff87, 0x46a920c6c7ef3, 0x17883ae0679da, 0x7371362c409a2, 0x3f3fd0398532b, 0x47c47a292c97e, 0x3e20a94f0dab2, 0x615a39700e27a, 0x4dd4f52d80b70], [0xd8189c3e7ff9b, 0x6a323f12acce3, 0x218561cebe916, 0x582dffa5b6244, 0x17e86803253fe, 0xf6e066437e671, 0x3379d07b3571, 0x28e80792d0f88, 0x3adb5e00f7d48, 0x4490947b64cc1]⟩,
   ⟨[0x966ba117eb5a0, 0x3ead0f9635f78, 0x1127434d7f565, 0x166f7efe73a42, 0x6e1eb3ee2c95b, 0x2169a44add28f, 0x7d099f80f5e40, 0x1673eedc2717, 0x6d35ce7c87042, 0x1f1659fa895c4], [0xcda418afeea2, 0x22bb4cd3d78ea, 0x7ccb3c8415d6c, 0x72fad0144a08f, 0x6ad7bd312743a, 0x9717e7e313571, 0x30507c307b184, 0x37e8a184867ee, 0x5a0f950ed5715, 0x35fb26907aa86]⟩,
   ⟨[0x87069cfcd15c6, 0x5e74cae8dd69a, 0x77415248ec6cf, 0x39cfb19d98136, 0x4102ada4617f0, 0x91344a9950d43, 0x7f37faa893404, 0x894c6ed07059, 0x1cbd2d8c191ae, 0x5e7d0a8d6c1fb], [0xd8a6dcd86a648, 0x69dfb00fac67a, 0x55e4e4a8bf53e, 0x52c3f21f19f1a, 0x199681e75b076, 0xb461379aba50e, 0x27c35b013932e, 0x3e43d98dc3c8b, 0x5299d0d27c3ff, 0x501003fb5c76b]⟩,
   ⟨[0x2584d9f215747, 0x7be751ee9975b, 0x6739cffa040ab, 0x21f693ab51286, 0x4378f5b99ba03, 0x92021dcd03e29, 0x29c3d833529d1, 0x3218daa201c66, 0x68dd2830252b2, 0xc547881361fe], [0x4da1ddf2727c5, 0x141088c10f286, 0x33efa65c7ad64, 0x309e225c521f2, 0x165c50da477fd, 0x6a39d52ac02af, 0x583fdd7e42212, 0x49409ebff68e5, 0x3f0ac36d8b5f7, 0x7f9bfc22f82af]⟩],
  [⟨[0x2372dbc024334, 0x3ac04780c37e6, 0xb462b14e1199, 0x789ab88a9152c, 0x4669a83086007, 0x2875233e2bb95, 0x164d14e6dd133, 0x7834c96d7f2e1, 0x376af8a1fb72, 0x25e655dd42c55], [0xbc3f8d59bd4f8, 0x4295ae12759fe, 0x1710b8788649d, 0x63fb5252144e8, 0xfb67b48bfb15, 0xef2243c620b1a, 0x43471bab61989, 0x297865eb6854c, 0x41ec649b840b6, 0xdbb860fe03fd]⟩,
   ⟨[0xf3f668337995a, 0xd23f1a076787, 0x559b19c7d6f35, 0x1f5d63b1d816a, 0x4919133b61f8e, 0x31862225d9c14, 0x3c6604ea7ef2f, 0x62af2d864be9b, 0x4e75593316cb0, 0x6270c9215dee8], [0x79ddb43ae991a, 0xd9d288c5279d, 0x10a5ce9e2122d, 0x6627c1899977c, 0x4545c3f73568f, 0x41da4e722fdd7, 0x1d1ca3ba6c0e4, 0x154ddb8b11262, 0x76a8bbb916cba, 0x264f61ceb449c]⟩,
   ⟨[0xc03e88f01c0cf, 0x2de2458cbf5d8, 0x59ab57877e3a8, 0x22ba99e9ff36, 0x6e3d7f3651ba4, 0x91a76c49112c9, 0x33bff09f31d44, 0x37df6585eccb8, 0x31e08f635dfab, 0x61b6beea111bc], [0xec7c8aed31d53, 0x1c2d420733aed, 0x28a0a574ab6ac, 0xc07a2a7f50b8, 0x146fae597af65, 0xbfb422415d9a7, 0x3b3faf595d88b, 0x16fabfa94b1dd, 0x77bd9f4e1a511, 0x1ed87cb724465]⟩,
   ⟨[0x213f3a12fadcb, 0x73702a45bfcc2, 0x5344b6a0be9d, 0x5780b5541c989, 0x4689ea1e50219, 0x5b3c5ce5df752, 0x187b449599429, 0x4f3f92602410b, 0x8266c08fad01, 0x6449fdc76a08], [0x1290134e207cc, 0x5fc0bf00cd133, 0x5093e94846544, 0x1904d36a7e4e0, 0x6cfb29fcb4c43, 0x21a5e794ad08a, 0x49af3b74bd0ca, 0x3d12dd54a42e0, 0x20f8191fc6c17, 0x5271acf2bef13]⟩,
   ⟨[0x3973d23c5fc40, 0x22c79cf716759, 0x698e37c807e96, 0x61499d8a20942, 0x3ca6565d1591a, 0x376c82319132c, 0xab592c414d58, 0x78dcd766f3a9f, 0x235326903a314, 0x1c533cf655afb], [0x417abae4343ff, 0xcc1bebe8ba73, 0x35cfd9c4cd9eb, 0x525ddecfe78dd, 0x4018b732a3ea9, 0x4158841836b35, 0x13a9fc11821ab, 0x1a62e3e9f6760, 0x19d2f382bfc5a, 0x48b8c5ee1498a]⟩,
   ⟨[0x67bc07969e710, 0x56fe1647ff971, 0x56b9ec60e5571, 0x4ff5ff4d6d59d, 0x48349fdbc6f40, 0xeda3eda8889b, 0xc724742965c9, 0x4ca3a42627635, 0x47141b8d6f392, 0x3d2fedeaa1c29], [0x716c803508620, 0x4f95142a62bb6, 0x486fee8aa4ad7, 0x7aee5f2f7d145, 0x73a3d7b302eea, 0xc31b194b33cb5, 0x5e8f7e9db0f29, 0x26804a1976839, 0x224312a20168b, 0x4c6397afdc614]⟩,
   ⟨[0xb366a0560cd66, 0x5acd26e6e7d4b, 0x1a29126e560ef, 0x77d0a85f35263, 0x66bb4f7909a61, 0x89487a0f6ca2, 0x4201ac59ec89, 0x3517d862da268, 0x4e06334dcbfc2, 0x542129bf06edc], [0x9ac6ac40ecfad, 0x4a4a6435450f2, 0x3884dc2b01ce7, 0x33dfebb566e48, 0x578290964fdac, 0x23b7a353bc889, 0x5060a08b7ee8b, 0x7ab7a129febf9, 0x546502f940252, 0x1dbb0164f28ef]⟩,
   ⟨[0x18a4a75f64304, 0x46fff5757186a, 0x114066ed84642, 0x2551cc10c6d4d, 0x402facd10897c, 0x15c0e2dcc992b, 0x40e8f0ebf60ee, 0x60eb6563e9c6, 0x3b809a3126313, 0x17a66bdc55746], [0x9062ded579427, 0x44a5f128a6e10, 0x151dc6dcb8f89, 0x141a87b41f52e, 0xd7a6a002bd72, 0xe8b9c9303ac1f, 0x1834ad28690aa, 0x32adcc504a8b7, 0xa927b2b2e93b, 0x2a737885ee993]⟩,
   ⟨[0x6bcf992e8b9f6, 0x40a05e593a37a, 0x3a56755fa1a2f, 0x3c89364fae34e, 0x7e77dbc3d88c6, 0x2ed2a5fac8e6e, 0x5fafa89c46962, 0x4dbfa31641429, 0xdb79c8d1176f, 0x19941d0c3522a], [0x41a75e1c8e526, 0x4c6b783802833, 0x1b562bafecb1f, 0x3e09662d4b955, 0x36c04e510554c, 0xe4c0f87b4805f, 0x73b95c41a7c5a, 0x10377bd353b8c, 0xe2a301e84dd8, 0x4aa08670db7e8]⟩,
   ⟨[0x56a0d36e91a81, 0x7ae104eae22f7, 0x377c28f77e9a6, 0x77e662a50d752, 0x806a44dc69b2, 0x7c6e8fec3651e, 0x3b809ba19fdfe, 0x2b748e1af6b23, 0x13d51330f00a4, 0x54847211a69e], [0x12fb021d29481, 0x6fa2b27174477, 0x3c6438378319e, 0xffd2b056f1c6, 0x4d77e75145534, 0x20a7895d994a3, 0x3166e20d7eab2, 0x6b6d0cb136a52, 0x2b5c30551afc3, 0x68443d6142cd4]⟩,
   ⟨[0x408a9351dfb46, 0x6b998f97e7968, 0x5b54eb77bae87, 0x1d1547584b3f6, 0xdec5666f2759, 0x97223408d9f44, 0x4e4f55a177f66, 0x8514532470b, 0x856c14ae04b3, 0x61ca70f3895b4], [0x253c057f4bb69, 0x1163f0d6f162a, 0x16e781bffb4f3, 0x1f13813403f57, 0x720ec959be2a5, 0x4cad26fc8bc3, 0x4430e9fd18b54, 0x127bc205199cf, 0x6e3d5ccb5d82c, 0x2c08ffc17839e]⟩,
   ⟨[0x38fae0545ef38, 0x53e6bb230eb0f, 0x3612b0393816c, 0x73b82cb17aa32, 0x164306be664b8, 0x7decb1beab083, 0x3aba14ab6dfef, 0x6698c134b72cb, 0x48700868cefb6, 0x4dc5186706827], [0xd284ba53e67e8, 0x4f1d7f1cda504, 0x763e8aad17850, 0x3ee3c7d2b43ab, 0x5eddbd6d373c5, 0xf6b7396fd7f7f, 0x6367a99d09b8f, 0x1571a1cd21578, 0x7236b9994f1fa, 0x62aa7dcd740a8]⟩,
   ⟨[0x895a1fd8f0da1, 0x940d048284d5, 0x7059173020eb7, 0x34cbcc3643f29, 0x54d38dfc9a9c7, 0x4d0d54222865, 0x7ac3d3f2e7588, 0x4bd1d9a8cc40c, 0x4ba573c79363a, 0x3b77ea3c0f6ce], [0x4ea2fc4b8ba7c, 0x1addaedbd593b, 0x7b6ab6c9ffebe, 0x246c34d52441a, 0x664d1c2133d2a, 0x5a8fcc6f82245, 0x3c821241b7620, 0x7abb29f71ac83, 0x126e955fdd3a, 0x483ea750d326e]⟩,
   ⟨[0x3fd366eba1606, 0x2d9abaf3b8ec5, 0x11fb79452add0, 0x4d367d2541244, 0x14c5a74a4d2be, 0xbd9255862125b, 0x53c3cf655527e, 0x40aa6d6cb56e, 0x5f328c422c551, 0x635823c8498f1], [0xb8d2832d1e4f0, 0x2253cc89289e1, 0x4afe460b4cfa4, 0x47f33afb8fb72, 0x3147c7881ef17, 0xb142d32392ac5, 0x2db71d8f10037, 0x445cb1a7cd1ac, 0x5320c19ef8761, 0x6956661feb75c]⟩,
   ⟨[0x8a4f6e3e57dad, 0x52e3220306cd3, 0x16c04a243039f, 0x6f0bb18cacdcb, 0x61bcde864ec1, 0x29f6788292dc0, 0x22f1db885727, 0x58b87f88d42db, 0x67e1b4b34b7ce, 0x65db9e57b9f40], [0xdb97a65b73fbc, 0x5ddad4615047a, 0x3254ba8c48789, 0x7bddf93dda4bb, 0x2c0df753cf13c, 0xf1261ee450629, 0x1afb00bde3b73, 0x7ad40f78fd9b6, 0x275243d6431d9, 0x670bf2c9cc698]⟩,
   ⟨[0x9312a3ca8cbbc, 0xd499c81d0092, 0x1f9d05be7a579, 0x262c322c0431e, 0x78231853c844c, 0x46a359e9ea4f7, 0x490a7b54a0d2c, 0x5aae046c3e758, 0x59a6ff1c516dc, 0x5c2cec2165d95], [0x912bff9fc238b, 0x7febb522d20dd, 0x70a32c9786b85, 0x3419d9dcb4f51, 0x6464e7100b7d1, 0x1b5e3520c4ae3, 0x19b50c7d74fc7, 0x3ece80d56dedc, 0x31a0a04910717, 0x2dc124f80ea68]⟩],
  [⟨[0x7fc3e471a068b, 0x1f9c0bd1e7fda, 0x5b816710e054c, 0x641a4989ca761, 0x5868fbf10dbfa, 0xab68c9f619d52, 0x610cc30529bec, 0x627d1e7bb0abb, 0x312a648efc13f, 0x720db474c9967], [0x88a74ecfac532, 0xca6c465e54e3, 0x63bccc230ddca, 0x545133a54d8a3, 0x289a2a21d7dad, 0x64142fd2154c0, 0xae8de8498437, 0xfee6a05c9ca4, 0x5a712cadd4bd3, 0x73c7c0cb9dc7e]⟩,
   ⟨[0x14bc20d8fc866, 0x1b713c72b026c, 0x2bb1b00dd97b0, 0x3ddf6d5d77c14, 0x18d34dbe288, 0xb37e4be21cfc1, 0x42460abd75619, 0x48564ef06dbbe, 0x1d0f8f700cfdf, 0x50bf2e57ef201], [0xe7551324c838, 0x13e348dffe7ef, 0x5667611c90cf1, 0x54f8e74f0fe54, 0x46065cfec47e4, 0x20f5ca7131e31, 0x56bcd632bbd22, 0x4068611ae97fe, 0x342e9bf1ae60d, 0x59284ee40f315]⟩,
   ⟨[0x695c423b1830f, 0x61319340e99d, 0x56eecad0fdef4, 0x1851799b6af30, 0x574bfeec6cf78, 0x90695389cac68, 0x4ad41b7692d45, 0x67399705e0a02, 0x4d01c657bfe93, 0x7ae346f356e78], [0x5ed517d1ceca6, 0x4fa192e057f98, 0x28b4c280516a2, 0xf57015483b8b, 0x381a2b0925cba, 0x7ec4e45d3bca9, 0x5e6ae14d94280, 0x44aa8a233553a, 0x188ecfcf3fd6b, 0x56cd6831af6a1]⟩,
   ⟨[0xbad665fbba51d, 0x5ce5627119792, 0x13618effc45b, 0x59c97725250c5, 0x34d2a31c26543, 0xfc7d8b33901c2, 0x4049bb70b6e8c, 0x298e4ab70acb4, 0x24a67cab12d0f, 0x658dd54dd249], [0x18a1be3ceca73, 0x7cb9eb76f08c8, 0x1b277825030cd, 0x5ee5c3a83fb88, 0x520dd7c104236, 0xb4c8eac628f4, 0x67414680c3cbd, 0x634e9a20a30cc, 0x6fca2cd50a25e, 0x3207ec54ae849]⟩,
   ⟨[0xa7c2c9fa19751, 0x32eac1838c0ae, 0x704308b256ac4, 0x2462b6c4b26a1, 0x2e3d83a96467f, 0xfe8591432eb6a, 0x3fd27eaf7b31a, 0x58f724e26d47b, 0x76136f099e12e, 0x558f5cdcdeaa6], [0x6ed04f333b165, 0x634f9f9299870, 0x6e7943903d73c, 0x5689249d8e40, 0x43b4ac0439bf3, 0x553178fdf6d63, 0x439f7375523d2, 0x5f10cb0346b4a, 0x4e0ae314df84, 0x69471ab5dfada]⟩,
   ⟨[0xe9501e9fafe7, 0x1ed4a26197388, 0x5caa03225b2dc, 0x3498cf6071dd5, 0x2cf8d255a84e, 0xfa75c0885de81, 0x30965ce1a47cb, 0x11fb194a95bb0, 0x4800a95408a73, 0x2eea35fce3212], [0x87c5b9de51934, 0x36d95402d7411, 0x37fb02c63558b, 0x6a1232cbc6c08, 0x5c0e468414e24, 0x7f99c0ccf2d15, 0x94592332f465, 0x2ab96a524cf72, 0x7e87f1d99c378, 0x207dd0dd808e]⟩,
   ⟨[0xecd9ff97d4931, 0x1d4b8b850be44, 0x6c1f7d66bfb33, 0x286b0e020ce70, 0x57d2d930a9035, 0xf70cd43ef78d8, 0x5595a2e3fb21c, 0x2b23212c03281, 0x6be2a6ab3cefb, 0x7b13acf77f80e], [0xcb860bc601afd, 0x6acf4f99a1471, 0x6698a5886492b, 0x245bf72d02c00, 0x67720650a5eb3, 0xd9e8b3198d8be, 0x72728dea3f720, 0xb079df1df966, 0x764e77f92b823, 0x4721437dfb0d]⟩,
   ⟨[0x8c47e3e9972f3, 0x5f6800bf3f5ac, 0x40b8943ec9a82, 0x18c3de68795bc, 0x798acd9d5c188, 0x626a89dffb9c7, 0xa446a1e585ff, 0x3f9d6c0f2522, 0x45da3e3e5843e, 0x1df8788f4c149], [0x2d1ea1f1d567, 0x7d2ceb46d5cf9, 0xae8762edbe19, 0x4d34041c698a3, 0x2249a52fb7afb, 0x1aa28a184f6d0, 0x4aedc54ac0233, 0x1a52fa2fe3789, 0x684cdb10852c6, 0x6a488535fb8]⟩,
   ⟨[0xb69cd208922bd, 0x113c0a2cdc098, 0x34eb1527c9342, 0x2e33524a72273, 0x5d54f4b29d1bb, 0x935e2895d6b59, 0x2467ff51247e, 0x64a19be2b9b33, 0xca9b34b3cc48, 0x1c1179dc502af], [0x30dd196a35dec, 0x4f43012319797, 0x3ad2f85c0a8fe, 0x767b8c3625127, 0x7156d91446af4, 0xa52b80b684d9e, 0x493c29a3c9396, 0x60b66e8b18710, 0x73ce5c6e23f4e, 0xc0e9cf09dbea]⟩,
   ⟨[0xd847204e88e6a, 0x14392c2dbd5d4, 0x3647f5392d642, 0x5cd6b4397528, 0x3ca804be0e6e6, 0xafa2debf9bdf0, 0x3b70844f7f77a, 0x55fd54aed8423, 0x1e87463cb4e23, 0x1bcb9d95aa334], [0x8ad95903a42f5, 0x2b77c076b1514, 0x4ea8d39728a1, 0x6196d1eac34c, 0x21ad5cd908fb5, 0x9231e8fbdfa13, 0x6f53f72d12265, 0x4eeb89634bd92, 0x467e16722b0c0, 0x322b4828c8354]⟩,
   ⟨[0x749d2d2151628, 0x17db343621d73, 0x165cd9cf505c3, 0x6ef002b6f7508, 0x6a5b3f2ebd640, 0x88918a6f47361, 0x24a4cc1f89f3d, 0x2a883a0915acb, 0xb430e4311864, 0x2e5afd5631755], [0xe6600c23af414, 0x4a68a06127530, 0x119cf5dbeff9, 0x31bd59339ec9d, 0x7afb0a0652755, 0x4e54d473d5d91, 0x6663bbc911425, 0x60cd99f4a6814, 0x4d70e317492dc, 0x57c676f34207b]⟩,
   ⟨[0xfa45feb394f79, 0x2595780239750, 0x6daeafb6af370, 0x4f71be680332b, 0x7a2b88bec444f, 0x6d282845556d8, 0x3a48753c8feb2, 0x5314a5e71a50d, 0x64b67d3bedf37, 0x49bb87f9aa6e0], [0xf9e3c83d99f56, 0x2afd6da547b1c, 0x799eba75d7647, 0x17702967c6572, 0x36daa4c258b87, 0x5baa7744d42ce, 0x6706fa16409c8, 0x3833bd25e3852, 0x5b9b25e71d72c, 0x851a32ee02b9]⟩,
   ⟨[0x96c7f5422b60a, 0xa451dbbe6cc7, 0x4dfb70d71b03f, 0x47a85b6a73205, 0x552d4e655e4a4, 0x26f31f95a9399, 0x1c446539b5383, 0x544db6b46df8b, 0x3348add036467, 0xaa2d0d6935d7], [0x7d5b7a1e58219, 0x4617a5ab605ac, 0x6a6af7e81b995, 0x42ee78eacbee0, 0x49dd85014d117, 0x9591fd9314e76, 0x5db569f458eb8, 0x51d4f2503d183, 0x63fbb28ba6ad3, 0x6d3ac67cc821c]⟩,
   ⟨[0xdb3f243061d75, 0x6d73931e621f2, 0xb17170e27a4d, 0x4483b525b3b3, 0xcec6bf188345, 0x28c93f5247b6f, 0x4a6511a5def06, 0x76b62aeac63b1, 0x74a604ed95c71, 0x9efcc184826a], [0x8bac2b060443d, 0x344e9d3b2eea9, 0x20435d407dceb, 0x22e3643d85699, 0x1a1f508400e9c, 0xd7cc9b1ac0494, 0x4c1ad9e2eb052, 0x9fbd9b150459, 0x369468497704f, 0x3ff2ac90d8014]⟩,
   ⟨[0xf26b79e392352, 0x2b957bf938557, 0x715d0978bd2b2, 0x45531e667d86d, 0x38962fca00ede, 0xdc1791f176b3f, 0x743403651c9fa, 0x4abd020a84523, 0x6decb17845c69, 0x3df12469d37f5], [0xfa8419c8a9d27, 0x768869058ee8e, 0xd174a1cb1143, 0x70f67326b9037, 0x26979fa59e935, 0xf4aa12b6bc96f, 0x606751117a342, 0x47a115af10fb7, 0x6df7816619f79, 0x72158da5671bf]⟩,
   ⟨[0xecafe87cbb23d, 0x512a524d4d77c, 0x5ff1af3f9cdcc, 0x5a5222e7ccbca, 0x37f25d366c5d3, 0xdee9cd4a0bd44, 0x1ba906b38fe5f, 0x2479a4422043c, 0x7f85530950f05, 0x26843f9ca979a], [0xe6ebfb1d7d79a, 0x1962262421c26, 0x749c75e0896b7, 0x72656e0591fb4, 0x48c25570b4b5d, 0xc0f6689f57006, 0x106b77be98b19, 0x70fd9ada250c6, 0x4b2ac835ca2cf, 0x5fd38c57539d3]⟩],
  [⟨[0x78cf823118058, 0x84e70b90249e, 0x340e63640803e, 0x259f3ba46031b, 0x4025a533d8fb6, 0x21525975d8b46, 0x16415cb875bf3, 0x37d3c94cf88c2, 0x1303423d046c3, 0x64d6ca6cf50e4], [0x1c4f51365236c, 0x74c650114c6d7, 0x30b74eb231dbc, 0x108dde7a79f07, 0x5c84883daac53, 0xf4fffb87d65c4, 0x3a077d6424776, 0x74ef17a8ff930, 0x1c70531daacc1, 0x4fdab70943349]⟩,
   ⟨[0xd10852c9532b6, 0x43aac71dc676, 0x699b3f568856, 0x62aa64e24d6d0, 0xac30cb5e809d, 0x3df891fadf9d0, 0x2e8aefd6e009d, 0x763bb5c596056, 0x27648417ec3b3, 0x26fff568dbec6], [0x46866cd52c51b, 0x74ebd129daf5e, 0x7e8a44cb2d0ff, 0x1754af2e0c3e1, 0x75df74ccba4eb, 0x7015d1ac6f756, 0x7cc58cb459b84, 0x4431c9afc9478, 0x1496ef18e492e, 0x40f52b9782d09]⟩,
   ⟨[0x5432d2abfaefb, 0x219e9f74b6891, 0x772fbb5a56edd, 0x3f9b32b854a6e, 0xe23a82f7f4db, 0x79910f350ca56, 0x2f2cbd94634fd, 0x62de8463f621c, 0x18a84a27f47ac, 0x492918b0a6cfc], [0x917028abf0c6c, 0x5885bcb7ec09c, 0x7b7029f86047, 0x4e980e40cb14d, 0x2414620471caf, 0x638833f454be0, 0x7530e1d810e0c, 0x7bc1509e4c84, 0x234fe03106a25, 0x7b3c1744922ce]⟩,
   ⟨[0x1d6f26560d816, 0x761f53b7ded62, 0x3f63729c380a1, 0xd9aabeb1f8e4, 0x2fc799030e923, 0x90eb9e83fc112, 0x276a6c7b64189, 0x5c92c57117936, 0x3a76769f60ab1, 0x214c6bff3ab2], [0xf91fa223fb871, 0x72f8e905ba3a7, 0x54d9829b0e1c4, 0x41aadcd2f042, 0x6b33b8dbf5dac, 0x5e138ca79abdb, 0x7f91015fd64b0, 0x3e42d44b48d18, 0x3070f61fc98ce, 0x3ecfbc333b9a7]⟩,
   ⟨[0xa1c5f63f4003a, 0x73e65e07caef9, 0x7ee53e05454bd, 0x2832bb0cb8a80, 0x7f92b5f28c3c9, 0xb198cfa188fc6, 0x1b4972bd5ea15, 0x3371055bff265, 0x40289db496278, 0x37fb8aef99c7], [0x3e8ba240f2657, 0x507715e41f403, 0xac5e34f938b, 0x10ac246a10935, 0x35e92d9586cd7, 0xa927b7c112162, 0x1e320a6a23b35, 0x2aea76305fb4d, 0x27fc7b4e55e7b, 0x7f605fddb3012]⟩,
   ⟨[0x7b3bee04c4c80, 0x5ec1698f3e6d0, 0x58683e8514bf8, 0x3490978c1c15, 0x3fd63ad3797af, 0x78c4971cad19e, 0x6e7ec2a846823, 0x77586a76baadd, 0x22bf1ca7743e1, 0x719dbf8ce1e82], [0xe187887a1eb86, 0x6e15ce17f34fe, 0x165a9c070f6b8, 0x235be0b50b7a1, 0x701631632860, 0x1520cd1b97e69, 0x324d126195433, 0x695bd1fbd3083, 0x7d0e98f84e4e6, 0x76d0fd61be2c]⟩,
   ⟨[0x1c135c074f082, 0x1b1c98964c70e, 0x70f16f51c63de, 0x65c546121fd21, 0x6e0ea00711ac1, 0x19c4ed64ca43a, 0x7b5f5de4d83cd, 0x4a3289e196d3b, 0x379bd42718428, 0x28b586ad8ac43], [0x81cf90b74f2a0, 0x2d685fce339cf, 0x29bacf289048f, 0x31b11c9f022b9, 0x723747a599137, 0x8cae4a9c10e7, 0x252d22a179598, 0x462bf1945c2a5, 0x5e7bf4b6f8b7e, 0x4a5cc544e7a94]⟩,
   ⟨[0x2ce082c195df7, 0xb2902f1dd4f4, 0x2ebce1e8e6c3e, 0x3dbb93dd984fc, 0x294bcfa46d91a, 0xe47f5eb6c49f2, 0x27d01a275f685, 0x2a8ab31f7a7c5, 0x65dedcceb9fe, 0x7ee40d2f05d3f], [0xaa9f92e841f87, 0x25b8a866bcaa0, 0x456616ad0616e, 0x19c95cbf2929, 0x18b84e8563743, 0xd9bba3f123075, 0x3c88c52754f28, 0x2a84a28e16c62, 0x6c4cbf9bd1be, 0x14e2ed761883c]⟩,
   ⟨[0xdd43327a5ec62, 0x37a88c2ce8f10, 0x79fb7af273687, 0x5c217ae2f9294, 0x7b658e58e2d4d, 0x1b9f8e201bde2, 0x3af8b1c4f58c, 0x23f0302d4943, 0xf016949d42fe, 0x5da77793e30df], [0x9a4a03292a077, 0x5e38597159b13, 0x438cd4aa3b94b, 0x39e50fbba527d, 0x32e5cfa99121b, 0xce6179d42746b, 0x201fc90b2780e, 0x2129922687b60, 0x1410e58988022, 0x5e3f21ae57b91]⟩,
   ⟨[0xee44d178cca07, 0x2290775707084, 0x256e01d88b556, 0x1ef98ed0cee11, 0x3bd6824481f73, 0xbaafd1febd7ab, 0x6c5370ac07a93, 0x39ffed4b7c601, 0x39a6b4153d857, 0x77a6bc55e5234], [0x816aa9a09968b, 0x7bdb9c7f2eaf9, 0x32ace09e1cbdc, 0x522e8c19d3eeb, 0x3827a069b97bd, 0x6716f9981a71a, 0x554503b7ba012, 0x74637bf2e394, 0x615a2194548e8, 0x6c523a794b4]⟩,
   ⟨[0xa0b318735c445, 0x55c3bc1a59729, 0x355c87cf06a80, 0xabbb95628b32, 0x73a2d28549a3a, 0xcc8f16c0b5fb6, 0x5190fef2c780c, 0x485c8686725ff, 0x212610f06db7c, 0x186c78ed4f0ac], [0x51a0699abfb29, 0x4079d38322cb8, 0x4e0c463922ee4, 0x5ec25735a7f4c, 0x30acd8b3755d5, 0x4533c09f622e8, 0x65bd64578113c, 0x11679c79532b, 0x270c486d96f98, 0x64fcda161257d]⟩,
   ⟨[0xa95e15137a104, 0x184008df11135, 0x5609a6fcbd2e, 0x4edfe7bc6f8f9, 0x53ca3d1760e75, 0xea2fb5a31f0f3, 0x77abe20d50f91, 0x7c0e34b46f175, 0x7a94e7592db90, 0x249beaed5fc42], [0xf85af26a73a5a, 0x2b83d21f3c411, 0x69fd92dff608, 0x407178d3e9436, 0xd6c1a603c407, 0xc556cbd53bf39, 0x802c8abe0adc, 0x24a5e6f60b0da, 0x7db9843929da3, 0x1ff410e9d19c7]⟩,
   ⟨[0x94e812dbe8c32, 0x6d33ed80bcda2, 0x2d936bc7580c, 0x43d349744e6d4, 0x20a0deb1f77b4, 0x31b3519bbf1aa, 0x7a520ed4cef61, 0x43394e7a87e8, 0x40764584aeb95, 0x3155c9b8ccf57], [0xc17da9e28adf8, 0x3424bbff78b37, 0x3cc6a19ffc5ff, 0x2cb497a44c566, 0x22ddad26de223, 0xac080f18a0065, 0x575057c11015d, 0x78021729de91b, 0x5796ed9e76da3, 0x6fe4ab6e74734]⟩,
   ⟨[0x5f849d235cce0, 0x436e70a0d70e1, 0x35e68aa2bdd02, 0x3e7fe63874ea2, 0x26c88f7884563, 0xfcd9bae21d5b1, 0x5c69101494e3a, 0x37db907eee3a2, 0x64c59ae199a08, 0x39423ce12f5bb], [0xaaaf7eee09f7, 0x4c5314b2c4d75, 0x3ec74b3a6d36c, 0x620ca51245767, 0x44f419ae83224, 0x80a722e02a693, 0x7a360ebc5dbd9, 0x381727bcf6e58, 0x617b700f3adf6, 0xfa1a09f64950]⟩,
   ⟨[0x96f84c0bdff5b, 0x6e5b26c5065bb, 0x1952942e39562, 0x653e9892230ff, 0xf763c13e4999, 0x9f0784b215e56, 0x270d42201b3a3, 0x45740b9af7f09, 0x229b251b5d908, 0x657f560fda230], [0x31efd1b4b981b, 0x7b1f5b3f7b1ea, 0x170af323b8dc9, 0x55f77521b9f83, 0x3b381a7cccc0f, 0x86767112d35dd, 0xc15a5cc603cb, 0x26c0095fa28de, 0x5178c03d1d4cc, 0x6a499cd28196a]⟩,
   ⟨[0x9617a9eca8281, 0x2f03dc8fc403f, 0x5a200ab22733a, 0x402ba3a81d989, 0x6690a4daa9371, 0x1cc8f6d90cc2c, 0x293ac50b59125, 0x4d1a882b9d469, 0x14c4df2707168, 0x5a3c384944e0d], [0xb2cd4d51f74ff, 0x21eb289f478f1, 0x4bf9ca3a7ac0a, 0x3db4f626c2310, 0x5cbf13b00ccc4, 0x29073a697e0b9, 0x2c5d67fd6cd73, 0x5d10baa363615, 0x51a608ea619e, 0x4155a6b02d3fb]⟩],
  [⟨[0xb63be2e2471b6, 0x793f7c56b8c12, 0x3a61a28c6343, 0x73e8ef4e8b82c, 0x770a1a8474ce7, 0xb2231cecafdb4, 0x6e5a738d66f01, 0x2489688c31b78, 0x60068f8f76b83, 0x3d6f5d74a6f06], [0x2eedb0339bf8a, 0x6213ece2a8cbb, 0x6876ac31ec71d, 0x1adfe07733cdb, 0x192fe0b2619ce, 0xb3f7cb6d64f, 0x193dd7bc97d28, 0x5572f38c9e619, 0x117122583880c, 0x3f2e95f7ad5bd]⟩,
   ⟨[0x5c60618a27ab4, 0x41a118681eede, 0x264b9365ed5c1, 0x257e09a79b510, 0x7087b4dfa9b18, 0xbc4bd3f5b7665, 0x47988ecdaa2b4, 0x38d5a0d231327, 0x61eba028cb516, 0x34dfcb32d1c33], [0x7bf2b53e6f733, 0x7363f62fe6a5d, 0x9e88e9e4bbc7, 0x53137df685df0, 0xd26eefa89eb2, 0x60e84ecff317a, 0x562fc49406706, 0x4010fc39b719e, 0x59bf4ce26c533, 0x16b0a194ade86]⟩,
   ⟨[0x25d428cb55ab4, 0x349c469fb2c47, 0x11112758d3875, 0x5bbb75049add3, 0x13e42e4fc95bb, 0x63d2c733f5e50, 0x71ecb0db2e6cd, 0x47f5c9c428e03, 0xc8aca14009b2, 0xfeba85c091ed], [0x319368c78d149, 0xa97a3731c17e, 0x5734aa19a7bf7, 0x4110947fcd175, 0x27e988a2f1542, 0x1405032878e0a, 0x35baf2c56a5e2, 0x539ba8560a8c0, 0x6be84d2118da9, 0x5e0476aba3f5b]⟩,
   ⟨[0x3aa4cc1dd3f97, 0x63185fb6a0d5e, 0x7eae973fa7134, 0xd566eb4ba56e, 0x432a20daaf7bf, 0xc99d6d0de97d6, 0x40cd8d71b4231, 0x61dba01336d9f, 0x10dc031c5661d, 0x7dbfcc3c94ce7], [0x92dcf6d493bcc, 0x8741dfaf5d31, 0x2e2a67554df10, 0x5119b1e5ade23, 0x501601db80686, 0x16af164683aa7, 0x13250fb11aa12, 0x70a10dff37326, 0xf9d812ff4eab, 0x2035714dce83]⟩,
   ⟨[0x7ca219aed5320, 0xdc5d44c110a5, 0x211982529953c, 0x330be049f485c, 0x6b006a9948e28, 0xb04e018d4dc0, 0x215f49b9f8ff2, 0x79ce3a3d8e522, 0x6edc3ea4a4987, 0x6f9fd6811bc4f], [0xfef3cb3be843c, 0x5b9e17892ce3d, 0x5168aa844e7a9, 0x600b2314595d6, 0x477b0afd0f4f6, 0x53d8f4e812fcd, 0x49909798b2b0f, 0xb0bd698b1d5e, 0x9b704e143df, 0x43c8abb658e21]⟩,
   ⟨[0x9311b2d0959aa, 0x408c67ebe4373, 0x4708398c93d1c, 0x5ceeb3ba4df18, 0x59663d0c68975, 0xd6f23db87cd7a, 0x7fe452e537133, 0x67d1ff579e76, 0x678700e4625f3, 0x512b5a1bd51f9], [0xe28a401845c37, 0x5334538459412, 0x415eebee74bd9, 0x14afbbc227a22, 0x214a015e7d9e7, 0x139325a047952, 0x29504d6930eae, 0x5d1bca17818e8, 0x2dd22238f7a8e, 0x4f8349b5b0ed3]⟩,
   ⟨[0x34c0ae7ddf681, 0x7688311ab02d5, 0x2eb0e8a6e1f1d, 0x5ff8bcf6aaeb8, 0x2cad1e56904c4, 0xfa16935a53e47, 0x2881197dc9dd, 0x5c925aaaf6da8, 0x6034b84fe7d23, 0x5d6ae622f2e8e], [0x65068fcc0acd6, 0x70b371c8c2df, 0x3da0fcb5bfd98, 0x5b4f3426521a8, 0x689f815fc00fe, 0x2e666ceeba0e2, 0x1e39832c0990e, 0x574558f79940a, 0x76d485f8b12d9, 0x156f30cee05d5]⟩,
   ⟨[0x7d87afb920c3d, 0x2a9e23a083533, 0x1543e5ed3b5d9, 0xb974928cfc56, 0x2cf48f5fc7ee6, 0xce1c3c95c8368, 0x333fd6c3d7d3f, 0x44589e3099078, 0x1f34d2e96b01d, 0x17eac450f370e], [0x1b2713a497273, 0x30b002e865a54, 0x182d7c612d473, 0x26397a5c46946, 0x187cb68d83f11, 0x77adf60174a14, 0x2bc33b9bc9135, 0x36ad6be31c9f9, 0x1ac5d650b5d13, 0x3f43a72e4d5e3]⟩,
   ⟨[0xef6c11e20b6ea, 0x5905102070c81, 0x24652608509d4, 0x205b6d7fbb6a0, 0x32589fe0677bd, 0x85d8055c79f1f, 0x4e43893d83e7, 0x13edb219ca7d3, 0x7bf9b35859660, 0x5df7dcb816251], [0x1ef55471d4356, 0x540af79ad9a97, 0x60eb528ddf6d9, 0x328bcc97d7964, 0x706b99b540a23, 0x7753141d6bf4e, 0x256e51fde35b1, 0x5324363dcfded, 0x4e0fe9820f921, 0x368ecfa81c767]⟩,
   ⟨[0xae3882ac0f8f0, 0x23952c3bbed16, 0x2208b0ccb771b, 0x32499978c3d1e, 0xb08def9de24a, 0x14733b64362cb, 0x44ceb44fbcd29, 0x62081d15bfa79, 0x612ff02beffd5, 0x16207454bb815], [0xe140447f99d22, 0x4415b5ce2b9e2, 0x497fece7e53b5, 0x3bba75954c646, 0x75267384ad185, 0xbe077d1b86bb1, 0xa186ffae61f0, 0x7e20c811f4fae, 0x4f69ad42f56bf, 0x6f7b76aea2af]⟩,
   ⟨[0xbedec2a48d51f, 0x40c00234c90e7, 0x3bc8777ca6ecc, 0xd79570c70b74, 0x157d50e130d10, 0x3932a1f3a8446, 0x520c248ecb88c, 0x73a8ff16d17f0, 0x6b070cce2e887, 0x6f6d81df9ecd], [0x7c3e53178dac6, 0x802c2d20978a, 0x5cc0d9e0c57c8, 0xa2db47b4aa42, 0xd0c16deae477, 0x30aecb867c0d4, 0x6545ef5adabe6, 0x6207530ac956a, 0x4b667db2fbfc5, 0x7231a93c94578]⟩,
   ⟨[0x6ee7b285aaf99, 0x184c97496a4ca, 0xe820762561c8, 0x3069976ab441a, 0x2f2d34ab64e3a, 0x8da8798c4984c, 0x18e10ec261ed8, 0x5572cde59ef3b, 0x5243583492a31, 0x553ebd5bd4f76], [0x3cd44541889b, 0xa15fd3b46a03, 0x2445ddc01c49c, 0xff7ab524990d, 0x67dd44cef1bc4, 0x11a6a854e822e, 0x20922345d9089, 0x4f8be8b1c52c, 0x334ad5ea9b90d, 0x4e5fe9c90028a]⟩,
   ⟨[0x68c177996387, 0x19b13c995f39, 0x65bfeab3691e1, 0x3ceaa9ff90919, 0x70ce531adc5b6, 0xe2cebfdbb5331, 0xd202455f41d3, 0x671180605ff9d, 0x11ad81b928580, 0x28fc16864d6f0], [0xa61cd60daeb8d, 0x365700d8b7834, 0x57bc9fdf724ee, 0x1f7a1b9f925af, 0x7aa4aefca0359, 0x34a27f50833a0, 0xed7927dfb95d, 0x7b8f116040dea, 0x117f98382ac39, 0x20171f463d451]⟩,
   ⟨[0x59264a9f49c09, 0x44f0f00815067, 0x151e20e3ce2f3, 0x3cb10a0f261aa, 0x19dae7938aae9, 0xfa6c983fecf4d, 0xa4a7ca460046, 0x69cd684faa9a3, 0x5962fd31973ac, 0x1a315e3ce66b5], [0x1ee33900f6430, 0x64be92c2c1cdd, 0x11fca5905d7b7, 0x1664e4c15055d, 0x124f50846c1dd, 0x5a95b64c89dd6, 0x635c7b470a25b, 0x44199d92d72bc, 0x317d8cc4d6593, 0x4a1e8e879471e]⟩,
   ⟨[0x70f53d415523f, 0x8843ee85ff0c, 0x1e10c523bb14c, 0x4756e413f0932, 0x3de85a220df46, 0xe272251866340, 0x8c97549abe3d, 0x3998c7c359f9d, 0x18ec0c21fa45c, 0x7a6a308e8e50c], [0x2370a35276c0f, 0x2729b26dbea22, 0xd95854453918, 0xfebb57c7378f, 0x2e3f0d283969d, 0x875cc00175050, 0x50e7b3f62b00a, 0x6e1a11c5c2bea, 0x3461785dc962f, 0x6a29e20d62bd]⟩,
   ⟨[0x537c77dac5528, 0x8c1be92f83c6, 0x611d61f939cc5, 0x67a47050e3ce6, 0x6fc68ee4297a6, 0x76cc8299ac1f1, 0x798ef7f4f028f, 0x3d929f2a08907, 0x7f626db8181ae, 0x38c7518a169e3], [0x3c2c303ddcfae, 0x5a51351afa1eb, 0x33d8168a6178f, 0x2bae4b7bd921a, 0x79bb0e6c13360, 0x2fec8223e6e6a, 0x57eb3e02985a1, 0x6a5f6f23e337d, 0xb51ad9a8df7e, 0x7c85f9d74f60e]⟩],
  [⟨[0x373002424fc6b, 0x265a533b8cf47, 0x15ead4a0ae37c, 0x22eeea45aea56, 0x5ca0e0af3aae5, 0x216ad75d115b7, 0x2b2885e63bcc1, 0x1deb58fcea8c, 0x50d28722a0e55, 0x16c1c97050e66], [0xbacbcdeeafab6, 0x210a7858140de, 0x6e228e5ab34ee, 0x38068e28b5065, 0x2bdb4015d78e6, 0xe7df0e5a47c2c, 0x91791c6e0564, 0x47e8ba82005e7, 0x2e2976dd2714d, 0x29f182be6c8a5]⟩,
   ⟨[0xd83b94cb40d60, 0x182ee55a47ab2, 0x2a9a2a11f16c0, 0x50cc737555d01, 0x189a2da48966b, 0xa973ce36e61c1, 0x4af3a17e7233f, 0x45cb6428ed4f1, 0x1768287382675, 0xc6b22c10147c], [0x401db5a4c6a3e, 0x23ee16b73e10c, 0x2fea5c8440a34, 0x18e7129952281, 0x1a31c2f9c5948, 0x6685938af9bd8, 0x2f4c9f4721c11, 0x6d88254b2b220, 0x7bc40460348e, 0x1773137a2404b]⟩,
   ⟨[0xc6b4d1144d64a, 0x6d90e0e79b31d, 0x68da0056e18d5, 0x5340f7e02d070, 0x1d5df828f1380, 0x636f195dcdb2b, 0xe7e7e014119c, 0x7b435a9fbe2c0, 0x76eb85ea1efbb, 0x22aa0a0c698a1], [0xb9cb571ca9cf0, 0x4b86ce22a5e6d, 0x6e4462f85131b, 0x2f155e75a2eed, 0x63f764f24ac73, 0xffa94474def2e, 0x4a1b60f2e7a47, 0x63ee08d47164b, 0x5ecdc6b2a7e48, 0x71c6910c71824]⟩,
   ⟨[0x7813e229f97cb, 0x43ade3b460997, 0x5e8c96137590a, 0x484eec3127431, 0x3a512d58f34ec, 0xb47722d5ecc77, 0x76e35ae2c410d, 0x142a4f3860a59, 0x5ad2423e3e88d, 0x32a4a2c6376bd], [0x9db45fc2c575a, 0x7cf11e987b02f, 0x329ae7b16d79a, 0x6ba1fddba003f, 0x72f40c3d1d0e1, 0xa2168272deaeb, 0x40b3bc5e98be4, 0x5426244ed0d94, 0x610d19f336894, 0x1ec5b0cd24773]⟩,
   ⟨[0x126dc95ff47cb, 0x6d821c64139fd, 0x36d6653ea637c, 0x5a97f942dd0ff, 0x318724b076a, 0xed3c1f9bbe805, 0x2e76961d49fca, 0x759a40326e7d9, 0x2641eff076c29, 0x6ca5347a2017], [0x10765b5c69cbc, 0x1782241147dad, 0x104e6a5297609, 0x6495bfd0c4503, 0x6b9d0d10ca297, 0x34803a8f4a7b8, 0x69b1a0e7f94af, 0x76e9131740435, 0x79e1647538e00, 0x381fb07dcc831]⟩,
   ⟨[0x623e19a529b0, 0x2a1f34419a0ba, 0x7450bb7c4ceec, 0x724d0766e901a, 0x6fdcf27272efb, 0xe99e1e2856702, 0x6af1b534cf0e7, 0x24538a8f87630, 0x2dbff74b7f80d, 0x6689e4424a84f], [0xa25cfde9d7ddb, 0x25b06d5477447, 0x40103ef10f2a9, 0x589a19b6b3e8, 0x1001736ec3e24, 0xb77124673c96a, 0x53b0645c3104f, 0x66aee9346c15c, 0x336d117178f21, 0x4c8732602283a]⟩,
   ⟨[0xb072abbe3ba75, 0x15a08f89bdb09, 0x34f423f9e09e0, 0x1ef27a09841ef, 0x65b203436ff75, 0x18864d568b13f, 0x69449d057fb4c, 0x5868a6a3cd5, 0x7932d29bb522b, 0x1069bf48aa2b7], [0xee21fdcdde7c7, 0x6caf6e905c045, 0x31a72930255a6, 0x76fcf5f4a6f74, 0x1aa0517a0131, 0x40ddff2e11faf, 0x4a5512dff3f02, 0x55f08a9212cd2, 0x519761093f184, 0x27b6a1b2a1ef7]⟩,
   ⟨[0xea5c61b6dbc4e, 0x51a4dcc7d6792, 0x3357b7eaf7670, 0x554e802a50353, 0x72bf41e70b24f, 0x49e5c8da1177, 0x37c5cb7fd16ba, 0x3803f2eeef15d, 0x146d4b548675b, 0xe11a2717e6b2], [0xc794070988a0a, 0x2a32ef7bceeb5, 0x50c772349c586, 0xfa8c6654583d, 0x385e544f610df, 0xc27780562c065, 0x4d0e5952e5d7a, 0x22358d60920ae, 0x647d3bca69083, 0x663401832196f]⟩,
   ⟨[0x2e9b7160e3961, 0xcfdd2754f2c2, 0x737ed6627095b, 0x907eac442e04, 0x4bfddfd6d0e23, 0x9c97a7d587eef, 0x543f2822fafb5, 0x3fdf6af5d7a19, 0xfc963721698d, 0x179f21e6577fb], [0x25dabf637ce7b, 0xdef29aadac3d, 0x1737e91658123, 0x249402c7b4bc4, 0x1f964c1ba2b35, 0x6547130478601, 0x4a763bb9f26e, 0x2dee0532a3aba, 0xfb73209b3189, 0x323cb18309cbf]⟩,
   ⟨[0xf430885b15b6b, 0x75d059aec5a1e, 0x4453a277effce, 0x64f823d9e2950, 0x73827a14b9299, 0x1c133ba90b752, 0x2fe7db431eadf, 0x7321007818326, 0x71653a5874521, 0x797a5565f102d], [0x36cfd54eea72c, 0x808016da4e23, 0x3d2134b084dfe, 0x11b5581647a89, 0x52fad726d60bb, 0xdcfdb5420868a, 0x750548dd329ff, 0x19fe6da0749cc, 0x5b85fa39a2c1, 0x23ae3bbd89f61]⟩,
   ⟨[0xca8883c4ef58f, 0x6e759199f54fa, 0x55e8867f4288d, 0x225e439fe7035, 0x40ee9678bc4d1, 0xe0c8fec05a2e2, 0x586d8c13d487a, 0x8b4a7e530498, 0x1e781b4e18c6d, 0x17d763be7083c], [0xa451105cf54f0, 0x637bf27522c26, 0x6042ab901cb43, 0xf3a157d77cec, 0x40b5652e5d030, 0x3f395a2c01f02, 0x41b950fc573ca, 0x7ded4fddea439, 0x12cac59609158, 0xec63dc4f41d8]⟩,
   ⟨[0x27b04d23c68b, 0x525b4f2b59afc, 0x1473b3791b81e, 0x4234680c59597, 0x49b5b1e7b7404, 0xca846ee9b6288, 0x2f4d705212a30, 0x435199a6d217f, 0x2c022ff19ee1f, 0x3594f8f0758a9], [0x968170931c47a, 0x621ad96c9dede, 0x1f40db9806854, 0x6535786069f3a, 0x2baaf09744048, 0xce1a02746c6d1, 0x159007061aa2d, 0x679fca2d81fcd, 0x418ac9fb46b4d, 0x308be060423d1]⟩,
   ⟨[0xc4ac87af9ad9, 0xcdece641a609, 0x1e12cc58f8fcd, 0x510a219809940, 0x6da7cea8384f8, 0xab5f0694566e0, 0x1cc9ee803a140, 0xf9fbb28bdd1e, 0x7f4efeb56b1de, 0x277916c4688bf], [0xd23553900c111, 0x2646a893d2545, 0x3f85ded9f79e4, 0x3d6ebc7956c87, 0x42c8421e33668, 0xce0fcee92113, 0x62f37fb71d455, 0x2b5c2d8b8e0d9, 0x1f89a7b791f03, 0x26e0534aafc55]⟩,
   ⟨[0x2995d9382fb5b, 0x7c05714b2bdcd, 0x55efdffd811ca, 0xc43b6fa2e22f, 0x3930fe770f72d, 0x82f4073a9eb83, 0x28c90a8534165, 0x20c6d2c543eae, 0x3f98a8e8f71b7, 0x7b8fb4d43c48c], [0xc54f1da463909, 0x482ec99c805e1, 0x301f27ed477a1, 0x5ca99320599da, 0x3f84676223eb7, 0x1d5f50bc87ac, 0x6d360c6473c45, 0x78fe24eb5ef6d, 0x3e18e1d8c918f, 0xbaaa9526a788]⟩,
   ⟨[0x3cfac186fc15d, 0x4079422f8115b, 0x15745819f82e6, 0x3618bca6799cf, 0x147dcbeb05016, 0x8e01c4060f0ae, 0x6dd9c9abcadd5, 0x55c9418fa0c56, 0x4adeda517cf14, 0xa4aeb8d1a937], [0x4727d18c04c1d, 0x459feb8d4258f, 0x134bf4171d346, 0x686442480b1af, 0x739a7bbb7ab37, 0xf61bc7dc00473, 0x3746597b948ce, 0x125eab46f1d2b, 0x33f4805b72ae, 0x584748c0b9409]⟩,
   ⟨[0x92a49d3069003, 0x5840d8af17ed6, 0x174b6f581b1e5, 0x163189d301971, 0x18d239951ed, 0x9b7c92c641d5c, 0x289c88dd6e0a4, 0xce7ed79d24f4, 0x7f5a09563a4b9, 0x7a4a25f6b4d5c], [0x2966a02d81d0, 0x79c7ea96452d3, 0x7c34ab0aa795a, 0x50a1b57cc0e57, 0x7de8829195bcb, 0x6242a9b8d0ec5, 0x5dd50fad307d9, 0x1b700b637ca0b, 0x3455689ebe7c1, 0x2782c47d2932f]⟩]]

/-- `lut_cmb[j][k]`. -/
def lut_cmb (j k : Nat) : AffW (List Nat) := (lut_data.getD j []).getD k ⟨[], []⟩

end Gost.Ecp_tc26_512_paramSetA
