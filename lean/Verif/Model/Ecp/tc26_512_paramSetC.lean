import Verif.Model.FiatField

/-!
# The functions, constants and table of `/repo/ecp_id_tc26_gost_3410_2012_512_paramSetC.c`

64 bit version of the file (`__SIZEOF_INT128__` is defined).  Generated by `tools/mkfiat.py`, statement by statement;
see `Verif/Model/Fiat.lean` for the meaning.  All line numbers refer to this file.
-/

namespace Gost.Ecp_tc26_512_paramSetC

set_option maxRecDepth 100000

/-- `fiat_id_tc26_gost_3410_2012_512_paramSetC_carry_mul`, lines 275-756. -/
def carry_mul : CProg := ⟨[
  .set (.mul 128 (.c 0x239) (.mul 128 (.a 9) (.b 9))), .set (.mul 128 (.c 0x239) (.mul 128 (.a 9) (.b 8))),
  .set (.mul 128 (.c 0x239) (.mul 128 (.a 9) (.b 7))), .set (.mul 128 (.c 0x239) (.mul 128 (.mul 128 (.a 9) (.b 6)) (.c 2))),
  .set (.mul 128 (.c 0x239) (.mul 128 (.a 9) (.b 5))), .set (.mul 128 (.c 0x239) (.mul 128 (.a 9) (.b 4))),
  .set (.mul 128 (.c 0x239) (.mul 128 (.a 9) (.b 3))), .set (.mul 128 (.c 0x239) (.mul 128 (.a 9) (.b 2))),
  .set (.mul 128 (.c 0x239) (.mul 128 (.mul 128 (.a 9) (.b 1)) (.c 2))), .set (.mul 128 (.c 0x239) (.mul 128 (.a 8) (.b 9))),
  .set (.mul 128 (.c 0x239) (.mul 128 (.a 8) (.b 8))), .set (.mul 128 (.c 0x239) (.mul 128 (.mul 128 (.a 8) (.b 7)) (.c 2))),
  .set (.mul 128 (.c 0x239) (.mul 128 (.mul 128 (.a 8) (.b 6)) (.c 2))), .set (.mul 128 (.c 0x239) (.mul 128 (.a 8) (.b 5))),
  .set (.mul 128 (.c 0x239) (.mul 128 (.a 8) (.b 4))), .set (.mul 128 (.c 0x239) (.mul 128 (.a 8) (.b 3))),
  .set (.mul 128 (.c 0x239) (.mul 128 (.mul 128 (.a 8) (.b 2)) (.c 2))), .set (.mul 128 (.c 0x239) (.mul 128 (.a 7) (.b 9))),
  .set (.mul 128 (.c 0x239) (.mul 128 (.mul 128 (.a 7) (.b 8)) (.c 2))),
  .set (.mul 128 (.c 0x239) (.mul 128 (.mul 128 (.a 7) (.b 7)) (.c 2))),
  .set (.mul 128 (.c 0x239) (.mul 128 (.mul 128 (.a 7) (.b 6)) (.c 2))), .set (.mul 128 (.c 0x239) (.mul 128 (.a 7) (.b 5))),
  .set (.mul 128 (.c 0x239) (.mul 128 (.a 7) (.b 4))), .set (.mul 128 (.c 0x239) (.mul 128 (.mul 128 (.a 7) (.b 3)) (.c 2))),
  .set (.mul 128 (.c 0x239) (.mul 128 (.mul 128 (.a 6) (.b 9)) (.c 2))),
  .set (.mul 128 (.c 0x239) (.mul 128 (.mul 128 (.a 6) (.b 8)) (.c 2))),
  .set (.mul 128 (.c 0x239) (.mul 128 (.mul 128 (.a 6) (.b 7)) (.c 2))),
  .set (.mul 128 (.c 0x239) (.mul 128 (.mul 128 (.a 6) (.b 6)) (.c 2))), .set (.mul 128 (.c 0x239) (.mul 128 (.a 6) (.b 5))),
  .set (.mul 128 (.c 0x239) (.mul 128 (.mul 128 (.a 6) (.b 4)) (.c 2))), .set (.mul 128 (.c 0x239) (.mul 128 (.a 5) (.b 9))),
  .set (.mul 128 (.c 0x239) (.mul 128 (.a 5) (.b 8))), .set (.mul 128 (.c 0x239) (.mul 128 (.a 5) (.b 7))),
  .set (.mul 128 (.c 0x239) (.mul 128 (.a 5) (.b 6))), .set (.mul 128 (.c 0x239) (.mul 128 (.a 5) (.b 5))),
  .set (.mul 128 (.c 0x239) (.mul 128 (.a 4) (.b 9))), .set (.mul 128 (.c 0x239) (.mul 128 (.a 4) (.b 8))),
  .set (.mul 128 (.c 0x239) (.mul 128 (.a 4) (.b 7))), .set (.mul 128 (.c 0x239) (.mul 128 (.mul 128 (.a 4) (.b 6)) (.c 2))),
  .set (.mul 128 (.c 0x239) (.mul 128 (.a 3) (.b 9))), .set (.mul 128 (.c 0x239) (.mul 128 (.a 3) (.b 8))),
  .set (.mul 128 (.c 0x239) (.mul 128 (.mul 128 (.a 3) (.b 7)) (.c 2))), .set (.mul 128 (.c 0x239) (.mul 128 (.a 2) (.b 9))),
  .set (.mul 128 (.c 0x239) (.mul 128 (.mul 128 (.a 2) (.b 8)) (.c 2))),
  .set (.mul 128 (.c 0x239) (.mul 128 (.mul 128 (.a 1) (.b 9)) (.c 2))), .set (.mul 128 (.a 9) (.b 0)),
  .set (.mul 128 (.a 8) (.mul 64 (.b 1) (.c 2))), .set (.mul 128 (.a 8) (.b 0)), .set (.mul 128 (.a 7) (.mul 64 (.b 2) (.c 2))),
  .set (.mul 128 (.a 7) (.mul 64 (.b 1) (.c 2))), .set (.mul 128 (.a 7) (.b 0)), .set (.mul 128 (.a 6) (.mul 64 (.b 3) (.c 2))),
  .set (.mul 128 (.a 6) (.mul 64 (.b 2) (.c 2))), .set (.mul 128 (.a 6) (.mul 64 (.b 1) (.c 2))), .set (.mul 128 (.a 6) (.b 0)),
  .set (.mul 128 (.a 5) (.b 4)), .set (.mul 128 (.a 5) (.b 3)), .set (.mul 128 (.a 5) (.b 2)), .set (.mul 128 (.a 5) (.b 1)),
  .set (.mul 128 (.a 5) (.b 0)), .set (.mul 128 (.a 4) (.b 5)), .set (.mul 128 (.a 4) (.b 4)), .set (.mul 128 (.a 4) (.b 3)),
  .set (.mul 128 (.a 4) (.b 2)), .set (.mul 128 (.a 4) (.mul 64 (.b 1) (.c 2))), .set (.mul 128 (.a 4) (.b 0)),
  .set (.mul 128 (.a 3) (.mul 64 (.b 6) (.c 2))), .set (.mul 128 (.a 3) (.b 5)), .set (.mul 128 (.a 3) (.b 4)),
  .set (.mul 128 (.a 3) (.b 3)), .set (.mul 128 (.a 3) (.mul 64 (.b 2) (.c 2))), .set (.mul 128 (.a 3) (.mul 64 (.b 1) (.c 2))),
  .set (.mul 128 (.a 3) (.b 0)), .set (.mul 128 (.a 2) (.mul 64 (.b 7) (.c 2))), .set (.mul 128 (.a 2) (.mul 64 (.b 6) (.c 2))),
  .set (.mul 128 (.a 2) (.b 5)), .set (.mul 128 (.a 2) (.b 4)), .set (.mul 128 (.a 2) (.mul 64 (.b 3) (.c 2))),
  .set (.mul 128 (.a 2) (.mul 64 (.b 2) (.c 2))), .set (.mul 128 (.a 2) (.mul 64 (.b 1) (.c 2))), .set (.mul 128 (.a 2) (.b 0)),
  .set (.mul 128 (.a 1) (.mul 64 (.b 8) (.c 2))), .set (.mul 128 (.a 1) (.mul 64 (.b 7) (.c 2))),
  .set (.mul 128 (.a 1) (.mul 64 (.b 6) (.c 2))), .set (.mul 128 (.a 1) (.b 5)), .set (.mul 128 (.a 1) (.mul 64 (.b 4) (.c 2))),
  .set (.mul 128 (.a 1) (.mul 64 (.b 3) (.c 2))), .set (.mul 128 (.a 1) (.mul 64 (.b 2) (.c 2))),
  .set (.mul 128 (.a 1) (.mul 64 (.b 1) (.c 2))), .set (.mul 128 (.a 1) (.b 0)), .set (.mul 128 (.a 0) (.b 9)),
  .set (.mul 128 (.a 0) (.b 8)), .set (.mul 128 (.a 0) (.b 7)), .set (.mul 128 (.a 0) (.b 6)), .set (.mul 128 (.a 0) (.b 5)),
  .set (.mul 128 (.a 0) (.b 4)), .set (.mul 128 (.a 0) (.b 3)), .set (.mul 128 (.a 0) (.b 2)), .set (.mul 128 (.a 0) (.b 1)),
  .set (.mul 128 (.a 0) (.b 0)),
  .set (.add 128 (.x 100) (.add 128 (.x 45) (.add 128 (.x 44) (.add 128 (.x 42) (.add 128 (.x 39) (.add 128 (.x 35) (.add 128 (.x 30) (.add 128 (.x 24) (.add 128 (.x 17) (.x 9)))))))))),
  .set (.shr (.x 101) 52), .set (.cast 64 (.and (.x 101) (.c 0xfffffffffffff))),
  .set (.add 128 (.x 91) (.add 128 (.x 82) (.add 128 (.x 74) (.add 128 (.x 67) (.add 128 (.x 61) (.add 128 (.x 56) (.add 128 (.x 52) (.add 128 (.x 49) (.add 128 (.x 47) (.x 46)))))))))),
  .set (.add 128 (.x 92) (.add 128 (.x 83) (.add 128 (.x 75) (.add 128 (.x 68) (.add 128 (.x 62) (.add 128 (.x 57) (.add 128 (.x 53) (.add 128 (.x 50) (.add 128 (.x 48) (.x 1)))))))))),
  .set (.add 128 (.x 93) (.add 128 (.x 84) (.add 128 (.x 76) (.add 128 (.x 69) (.add 128 (.x 63) (.add 128 (.x 58) (.add 128 (.x 54) (.add 128 (.x 51) (.add 128 (.x 10) (.x 2)))))))))),
  .set (.add 128 (.x 94) (.add 128 (.x 85) (.add 128 (.x 77) (.add 128 (.x 70) (.add 128 (.x 64) (.add 128 (.x 59) (.add 128 (.x 55) (.add 128 (.x 18) (.add 128 (.x 11) (.x 3)))))))))),
  .set (.add 128 (.x 95) (.add 128 (.x 86) (.add 128 (.x 78) (.add 128 (.x 71) (.add 128 (.x 65) (.add 128 (.x 60) (.add 128 (.x 25) (.add 128 (.x 19) (.add 128 (.x 12) (.x 4)))))))))),
  .set (.add 128 (.x 96) (.add 128 (.x 87) (.add 128 (.x 79) (.add 128 (.x 72) (.add 128 (.x 66) (.add 128 (.x 31) (.add 128 (.x 26) (.add 128 (.x 20) (.add 128 (.x 13) (.x 5)))))))))),
  .set (.add 128 (.x 97) (.add 128 (.x 88) (.add 128 (.x 80) (.add 128 (.x 73) (.add 128 (.x 36) (.add 128 (.x 32) (.add 128 (.x 27) (.add 128 (.x 21) (.add 128 (.x 14) (.x 6)))))))))),
  .set (.add 128 (.x 98) (.add 128 (.x 89) (.add 128 (.x 81) (.add 128 (.x 40) (.add 128 (.x 37) (.add 128 (.x 33) (.add 128 (.x 28) (.add 128 (.x 22) (.add 128 (.x 15) (.x 7)))))))))),
  .set (.add 128 (.x 99) (.add 128 (.x 90) (.add 128 (.x 43) (.add 128 (.x 41) (.add 128 (.x 38) (.add 128 (.x 34) (.add 128 (.x 29) (.add 128 (.x 23) (.add 128 (.x 16) (.x 8)))))))))),
  .set (.add 128 (.x 102) (.x 112)), .set (.shr (.x 113) 51), .set (.cast 64 (.and (.x 113) (.c 0x7ffffffffffff))),
  .set (.add 128 (.x 114) (.x 111)), .set (.shr (.x 116) 51), .set (.cast 64 (.and (.x 116) (.c 0x7ffffffffffff))),
  .set (.add 128 (.x 117) (.x 110)), .set (.shr (.x 119) 51), .set (.cast 64 (.and (.x 119) (.c 0x7ffffffffffff))),
  .set (.add 128 (.x 120) (.x 109)), .set (.shr (.x 122) 51), .set (.cast 64 (.and (.x 122) (.c 0x7ffffffffffff))),
  .set (.add 128 (.x 123) (.x 108)), .set (.shr (.x 125) 52), .set (.cast 64 (.and (.x 125) (.c 0xfffffffffffff))),
  .set (.add 128 (.x 126) (.x 107)), .set (.shr (.x 128) 51), .set (.cast 64 (.and (.x 128) (.c 0x7ffffffffffff))),
  .set (.add 128 (.x 129) (.x 106)), .set (.shr (.x 131) 51), .set (.cast 64 (.and (.x 131) (.c 0x7ffffffffffff))),
  .set (.add 128 (.x 132) (.x 105)), .set (.cast 64 (.shr (.x 134) 51)), .set (.cast 64 (.and (.x 134) (.c 0x7ffffffffffff))),
  .set (.add 128 (.x 135) (.x 104)), .set (.cast 64 (.shr (.x 137) 51)), .set (.cast 64 (.and (.x 137) (.c 0x7ffffffffffff))),
  .set (.mul 128 (.c 0x239) (.x 138)), .set (.add 128 (.x 103) (.x 140)), .set (.cast 64 (.shr (.x 141) 52)),
  .set (.cast 64 (.and (.x 141) (.c 0xfffffffffffff))), .set (.add 64 (.x 142) (.x 115)), .set (.cast 8 (.shr (.x 144) 51)),
  .set (.and (.x 144) (.c 0x7ffffffffffff)), .set (.add 64 (.x 145) (.x 118))], [143, 146, 147, 121, 124, 127, 130, 133, 136, 139]⟩

/-- `fiat_id_tc26_gost_3410_2012_512_paramSetC_carry_square`, lines 768-1046. -/
def carry_square : CProg := ⟨[
  .set (.mul 64 (.a 9) (.c 0x239)), .set (.mul 64 (.x 1) (.c 2)), .set (.mul 64 (.a 9) (.c 2)), .set (.mul 64 (.a 8) (.c 0x239)),
  .set (.mul 64 (.x 4) (.c 2)), .set (.mul 64 (.a 8) (.c 2)), .set (.mul 64 (.a 7) (.c 0x239)), .set (.mul 64 (.x 7) (.c 2)),
  .set (.mul 64 (.a 7) (.c 2)), .set (.mul 64 (.a 6) (.c 0x239)), .set (.mul 64 (.x 10) (.c 2)), .set (.mul 64 (.a 6) (.c 2)),
  .set (.mul 64 (.a 5) (.c 0x239)), .set (.mul 64 (.a 5) (.c 2)), .set (.mul 64 (.a 4) (.c 2)), .set (.mul 64 (.a 3) (.c 2)),
  .set (.mul 64 (.a 2) (.c 2)), .set (.mul 64 (.a 1) (.c 2)), .set (.mul 128 (.a 9) (.x 1)), .set (.mul 128 (.a 8) (.x 2)),
  .set (.mul 128 (.a 8) (.x 4)), .set (.mul 128 (.a 7) (.x 2)), .set (.mul 128 (.a 7) (.mul 64 (.x 5) (.c 2))),
  .set (.mul 128 (.a 7) (.mul 64 (.x 7) (.c 2))), .set (.mul 128 (.a 6) (.mul 64 (.x 2) (.c 2))),
  .set (.mul 128 (.a 6) (.mul 64 (.x 5) (.c 2))), .set (.mul 128 (.a 6) (.mul 64 (.x 8) (.c 2))),
  .set (.mul 128 (.a 6) (.mul 64 (.x 10) (.c 2))), .set (.mul 128 (.a 5) (.x 2)), .set (.mul 128 (.a 5) (.x 5)),
  .set (.mul 128 (.a 5) (.x 8)), .set (.mul 128 (.a 5) (.x 11)), .set (.mul 128 (.a 5) (.x 13)), .set (.mul 128 (.a 4) (.x 2)),
  .set (.mul 128 (.a 4) (.x 5)), .set (.mul 128 (.a 4) (.x 8)), .set (.mul 128 (.a 4) (.mul 64 (.x 11) (.c 2))),
  .set (.mul 128 (.a 4) (.x 14)), .set (.mul 128 (.a 4) (.a 4)), .set (.mul 128 (.a 3) (.x 2)), .set (.mul 128 (.a 3) (.x 5)),
  .set (.mul 128 (.a 3) (.mul 64 (.x 8) (.c 2))), .set (.mul 128 (.a 3) (.mul 64 (.x 12) (.c 2))), .set (.mul 128 (.a 3) (.x 14)),
  .set (.mul 128 (.a 3) (.x 15)), .set (.mul 128 (.a 3) (.a 3)), .set (.mul 128 (.a 2) (.x 2)),
  .set (.mul 128 (.a 2) (.mul 64 (.x 5) (.c 2))), .set (.mul 128 (.a 2) (.mul 64 (.x 9) (.c 2))),
  .set (.mul 128 (.a 2) (.mul 64 (.x 12) (.c 2))), .set (.mul 128 (.a 2) (.x 14)), .set (.mul 128 (.a 2) (.x 15)),
  .set (.mul 128 (.a 2) (.mul 64 (.x 16) (.c 2))), .set (.mul 128 (.a 2) (.mul 64 (.a 2) (.c 2))),
  .set (.mul 128 (.a 1) (.mul 64 (.x 2) (.c 2))), .set (.mul 128 (.a 1) (.mul 64 (.x 6) (.c 2))),
  .set (.mul 128 (.a 1) (.mul 64 (.x 9) (.c 2))), .set (.mul 128 (.a 1) (.mul 64 (.x 12) (.c 2))), .set (.mul 128 (.a 1) (.x 14)),
  .set (.mul 128 (.a 1) (.mul 64 (.x 15) (.c 2))), .set (.mul 128 (.a 1) (.mul 64 (.x 16) (.c 2))),
  .set (.mul 128 (.a 1) (.mul 64 (.x 17) (.c 2))), .set (.mul 128 (.a 1) (.mul 64 (.a 1) (.c 2))), .set (.mul 128 (.a 0) (.x 3)),
  .set (.mul 128 (.a 0) (.x 6)), .set (.mul 128 (.a 0) (.x 9)), .set (.mul 128 (.a 0) (.x 12)), .set (.mul 128 (.a 0) (.x 14)),
  .set (.mul 128 (.a 0) (.x 15)), .set (.mul 128 (.a 0) (.x 16)), .set (.mul 128 (.a 0) (.x 17)), .set (.mul 128 (.a 0) (.x 18)),
  .set (.mul 128 (.a 0) (.a 0)),
  .set (.add 128 (.x 73) (.add 128 (.x 55) (.add 128 (.x 48) (.add 128 (.x 42) (.add 128 (.x 37) (.x 33)))))), .set (.shr (.x 74) 52),
  .set (.cast 64 (.and (.x 74) (.c 0xfffffffffffff))),
  .set (.add 128 (.x 64) (.add 128 (.x 56) (.add 128 (.x 49) (.add 128 (.x 43) (.x 38))))),
  .set (.add 128 (.x 65) (.add 128 (.x 57) (.add 128 (.x 50) (.add 128 (.x 44) (.add 128 (.x 39) (.x 19)))))),
  .set (.add 128 (.x 66) (.add 128 (.x 58) (.add 128 (.x 51) (.add 128 (.x 45) (.x 20))))),
  .set (.add 128 (.x 67) (.add 128 (.x 59) (.add 128 (.x 52) (.add 128 (.x 46) (.add 128 (.x 22) (.x 21)))))),
  .set (.add 128 (.x 68) (.add 128 (.x 60) (.add 128 (.x 53) (.add 128 (.x 25) (.x 23))))),
  .set (.add 128 (.x 69) (.add 128 (.x 61) (.add 128 (.x 54) (.add 128 (.x 29) (.add 128 (.x 26) (.x 24)))))),
  .set (.add 128 (.x 70) (.add 128 (.x 62) (.add 128 (.x 34) (.add 128 (.x 30) (.x 27))))),
  .set (.add 128 (.x 71) (.add 128 (.x 63) (.add 128 (.x 40) (.add 128 (.x 35) (.add 128 (.x 31) (.x 28)))))),
  .set (.add 128 (.x 72) (.add 128 (.x 47) (.add 128 (.x 41) (.add 128 (.x 36) (.x 32))))), .set (.add 128 (.x 75) (.x 85)),
  .set (.shr (.x 86) 51), .set (.cast 64 (.and (.x 86) (.c 0x7ffffffffffff))), .set (.add 128 (.x 87) (.x 84)), .set (.shr (.x 89) 51),
  .set (.cast 64 (.and (.x 89) (.c 0x7ffffffffffff))), .set (.add 128 (.x 90) (.x 83)), .set (.shr (.x 92) 51),
  .set (.cast 64 (.and (.x 92) (.c 0x7ffffffffffff))), .set (.add 128 (.x 93) (.x 82)), .set (.shr (.x 95) 51),
  .set (.cast 64 (.and (.x 95) (.c 0x7ffffffffffff))), .set (.add 128 (.x 96) (.x 81)), .set (.shr (.x 98) 52),
  .set (.cast 64 (.and (.x 98) (.c 0xfffffffffffff))), .set (.add 128 (.x 99) (.x 80)), .set (.shr (.x 101) 51),
  .set (.cast 64 (.and (.x 101) (.c 0x7ffffffffffff))), .set (.add 128 (.x 102) (.x 79)), .set (.shr (.x 104) 51),
  .set (.cast 64 (.and (.x 104) (.c 0x7ffffffffffff))), .set (.add 128 (.x 105) (.x 78)), .set (.cast 64 (.shr (.x 107) 51)),
  .set (.cast 64 (.and (.x 107) (.c 0x7ffffffffffff))), .set (.add 128 (.x 108) (.x 77)), .set (.cast 64 (.shr (.x 110) 51)),
  .set (.cast 64 (.and (.x 110) (.c 0x7ffffffffffff))), .set (.mul 128 (.c 0x239) (.x 111)), .set (.add 128 (.x 76) (.x 113)),
  .set (.cast 64 (.shr (.x 114) 52)), .set (.cast 64 (.and (.x 114) (.c 0xfffffffffffff))), .set (.add 64 (.x 115) (.x 88)),
  .set (.cast 8 (.shr (.x 117) 51)), .set (.and (.x 117) (.c 0x7ffffffffffff)), .set (.add 64 (.x 118) (.x 91))], [116, 119, 120, 94, 97, 100, 103, 106, 109, 112]⟩

/-- `fiat_id_tc26_gost_3410_2012_512_paramSetC_carry`, lines 1058-1116. -/
def carry : CProg := ⟨[
  .set (.a 0), .set (.add 64 (.shr (.x 1) 52) (.a 1)), .set (.add 64 (.shr (.x 2) 51) (.a 2)), .set (.add 64 (.shr (.x 3) 51) (.a 3)),
  .set (.add 64 (.shr (.x 4) 51) (.a 4)), .set (.add 64 (.shr (.x 5) 51) (.a 5)), .set (.add 64 (.shr (.x 6) 52) (.a 6)),
  .set (.add 64 (.shr (.x 7) 51) (.a 7)), .set (.add 64 (.shr (.x 8) 51) (.a 8)), .set (.add 64 (.shr (.x 9) 51) (.a 9)),
  .set (.add 64 (.and (.x 1) (.c 0xfffffffffffff)) (.mul 64 (.c 0x239) (.shr (.x 10) 51))),
  .set (.add 64 (.cast 8 (.shr (.x 11) 52)) (.and (.x 2) (.c 0x7ffffffffffff))), .set (.and (.x 11) (.c 0xfffffffffffff)),
  .set (.and (.x 12) (.c 0x7ffffffffffff)), .set (.add 64 (.cast 8 (.shr (.x 12) 51)) (.and (.x 3) (.c 0x7ffffffffffff))),
  .set (.and (.x 4) (.c 0x7ffffffffffff)), .set (.and (.x 5) (.c 0x7ffffffffffff)), .set (.and (.x 6) (.c 0xfffffffffffff)),
  .set (.and (.x 7) (.c 0x7ffffffffffff)), .set (.and (.x 8) (.c 0x7ffffffffffff)), .set (.and (.x 9) (.c 0x7ffffffffffff)),
  .set (.and (.x 10) (.c 0x7ffffffffffff))], [13, 14, 15, 16, 17, 18, 19, 20, 21, 22]⟩

/-- `fiat_id_tc26_gost_3410_2012_512_paramSetC_add`, lines 1129-1161. -/
def add : CProg := ⟨[
  .set (.add 64 (.a 0) (.b 0)), .set (.add 64 (.a 1) (.b 1)), .set (.add 64 (.a 2) (.b 2)), .set (.add 64 (.a 3) (.b 3)),
  .set (.add 64 (.a 4) (.b 4)), .set (.add 64 (.a 5) (.b 5)), .set (.add 64 (.a 6) (.b 6)), .set (.add 64 (.a 7) (.b 7)),
  .set (.add 64 (.a 8) (.b 8)), .set (.add 64 (.a 9) (.b 9))], [1, 2, 3, 4, 5, 6, 7, 8, 9, 10]⟩

/-- `fiat_id_tc26_gost_3410_2012_512_paramSetC_sub`, lines 1174-1206. -/
def sub : CProg := ⟨[
  .set (.sub 64 (.add 64 (.c 0x1ffffffffffb8e) (.a 0)) (.b 0)), .set (.sub 64 (.add 64 (.c 0xffffffffffffe) (.a 1)) (.b 1)),
  .set (.sub 64 (.add 64 (.c 0xffffffffffffe) (.a 2)) (.b 2)), .set (.sub 64 (.add 64 (.c 0xffffffffffffe) (.a 3)) (.b 3)),
  .set (.sub 64 (.add 64 (.c 0xffffffffffffe) (.a 4)) (.b 4)), .set (.sub 64 (.add 64 (.c 0x1ffffffffffffe) (.a 5)) (.b 5)),
  .set (.sub 64 (.add 64 (.c 0xffffffffffffe) (.a 6)) (.b 6)), .set (.sub 64 (.add 64 (.c 0xffffffffffffe) (.a 7)) (.b 7)),
  .set (.sub 64 (.add 64 (.c 0xffffffffffffe) (.a 8)) (.b 8)), .set (.sub 64 (.add 64 (.c 0xffffffffffffe) (.a 9)) (.b 9))], [1, 2, 3, 4, 5, 6, 7, 8, 9, 10]⟩

/-- `fiat_id_tc26_gost_3410_2012_512_paramSetC_opp`, lines 1218-1250. -/
def opp : CProg := ⟨[
  .set (.sub 64 (.c 0x1ffffffffffb8e) (.a 0)), .set (.sub 64 (.c 0xffffffffffffe) (.a 1)), .set (.sub 64 (.c 0xffffffffffffe) (.a 2)),
  .set (.sub 64 (.c 0xffffffffffffe) (.a 3)), .set (.sub 64 (.c 0xffffffffffffe) (.a 4)), .set (.sub 64 (.c 0x1ffffffffffffe) (.a 5)),
  .set (.sub 64 (.c 0xffffffffffffe) (.a 6)), .set (.sub 64 (.c 0xffffffffffffe) (.a 7)), .set (.sub 64 (.c 0xffffffffffffe) (.a 8)),
  .set (.sub 64 (.c 0xffffffffffffe) (.a 9))], [1, 2, 3, 4, 5, 6, 7, 8, 9, 10]⟩

/-- `fiat_id_tc26_gost_3410_2012_512_paramSetC_from_bytes`, lines 1760-2056. -/
def from_bytes : CProg := ⟨[
  .set (.shl 64 (.a 63) 43), .set (.shl 64 (.a 62) 35), .set (.shl 64 (.a 61) 27), .set (.shl 64 (.a 60) 19), .set (.shl 64 (.a 59) 11),
  .set (.shl 64 (.a 58) 3), .set (.shl 64 (.a 57) 46), .set (.shl 64 (.a 56) 38), .set (.shl 64 (.a 55) 30), .set (.shl 64 (.a 54) 22),
  .set (.shl 64 (.a 53) 14), .set (.shl 64 (.a 52) 6), .set (.shl 64 (.a 51) 49), .set (.shl 64 (.a 50) 41), .set (.shl 64 (.a 49) 33),
  .set (.shl 64 (.a 48) 25), .set (.shl 64 (.a 47) 17), .set (.shl 64 (.a 46) 9), .set (.mul 64 (.a 45) (.c 2)), .set (.shl 64 (.a 44) 44),
  .set (.shl 64 (.a 43) 36), .set (.shl 64 (.a 42) 28), .set (.shl 64 (.a 41) 20), .set (.shl 64 (.a 40) 12), .set (.shl 64 (.a 39) 4),
  .set (.shl 64 (.a 38) 48), .set (.shl 64 (.a 37) 40), .set (.shl 64 (.a 36) 32), .set (.shl 64 (.a 35) 24), .set (.shl 64 (.a 34) 16),
  .set (.shl 64 (.a 33) 8), .set (.a 32), .set (.shl 64 (.a 31) 43), .set (.shl 64 (.a 30) 35), .set (.shl 64 (.a 29) 27),
  .set (.shl 64 (.a 28) 19), .set (.shl 64 (.a 27) 11), .set (.shl 64 (.a 26) 3), .set (.shl 64 (.a 25) 46), .set (.shl 64 (.a 24) 38),
  .set (.shl 64 (.a 23) 30), .set (.shl 64 (.a 22) 22), .set (.shl 64 (.a 21) 14), .set (.shl 64 (.a 20) 6), .set (.shl 64 (.a 19) 49),
  .set (.shl 64 (.a 18) 41), .set (.shl 64 (.a 17) 33), .set (.shl 64 (.a 16) 25), .set (.shl 64 (.a 15) 17), .set (.shl 64 (.a 14) 9),
  .set (.mul 64 (.a 13) (.c 2)), .set (.shl 64 (.a 12) 44), .set (.shl 64 (.a 11) 36), .set (.shl 64 (.a 10) 28), .set (.shl 64 (.a 9) 20),
  .set (.shl 64 (.a 8) 12), .set (.shl 64 (.a 7) 4), .set (.shl 64 (.a 6) 48), .set (.shl 64 (.a 5) 40), .set (.shl 64 (.a 4) 32),
  .set (.shl 64 (.a 3) 24), .set (.shl 64 (.a 2) 16), .set (.shl 64 (.a 1) 8), .set (.a 0), .set (.add 64 (.x 63) (.x 64)),
  .set (.add 64 (.x 62) (.x 65)), .set (.add 64 (.x 61) (.x 66)), .set (.add 64 (.x 60) (.x 67)), .set (.add 64 (.x 59) (.x 68)),
  .set (.add 64 (.x 58) (.x 69)), .set (.and (.x 70) (.c 0xfffffffffffff)), .set (.cast 8 (.shr (.x 70) 52)),
  .set (.add 64 (.x 57) (.x 72)), .set (.add 64 (.x 56) (.x 73)), .set (.add 64 (.x 55) (.x 74)), .set (.add 64 (.x 54) (.x 75)),
  .set (.add 64 (.x 53) (.x 76)), .set (.add 64 (.x 52) (.x 77)), .set (.and (.x 78) (.c 0x7ffffffffffff)),
  .set (.cast 8 (.shr (.x 78) 51)), .set (.add 64 (.x 51) (.x 80)), .set (.add 64 (.x 50) (.x 81)), .set (.add 64 (.x 49) (.x 82)),
  .set (.add 64 (.x 48) (.x 83)), .set (.add 64 (.x 47) (.x 84)), .set (.add 64 (.x 46) (.x 85)), .set (.add 64 (.x 45) (.x 86)),
  .set (.and (.x 87) (.c 0x7ffffffffffff)), .set (.cast 8 (.shr (.x 87) 51)), .set (.add 64 (.x 44) (.x 89)),
  .set (.add 64 (.x 43) (.x 90)), .set (.add 64 (.x 42) (.x 91)), .set (.add 64 (.x 41) (.x 92)), .set (.add 64 (.x 40) (.x 93)),
  .set (.add 64 (.x 39) (.x 94)), .set (.and (.x 95) (.c 0x7ffffffffffff)), .set (.cast 8 (.shr (.x 95) 51)),
  .set (.add 64 (.x 38) (.x 97)), .set (.add 64 (.x 37) (.x 98)), .set (.add 64 (.x 36) (.x 99)), .set (.add 64 (.x 35) (.x 100)),
  .set (.add 64 (.x 34) (.x 101)), .set (.add 64 (.x 33) (.x 102)), .set (.add 64 (.x 31) (.x 32)), .set (.add 64 (.x 30) (.x 104)),
  .set (.add 64 (.x 29) (.x 105)), .set (.add 64 (.x 28) (.x 106)), .set (.add 64 (.x 27) (.x 107)), .set (.add 64 (.x 26) (.x 108)),
  .set (.and (.x 109) (.c 0xfffffffffffff)), .set (.cast 8 (.shr (.x 109) 52)), .set (.add 64 (.x 25) (.x 111)),
  .set (.add 64 (.x 24) (.x 112)), .set (.add 64 (.x 23) (.x 113)), .set (.add 64 (.x 22) (.x 114)), .set (.add 64 (.x 21) (.x 115)),
  .set (.add 64 (.x 20) (.x 116)), .set (.and (.x 117) (.c 0x7ffffffffffff)), .set (.cast 8 (.shr (.x 117) 51)),
  .set (.add 64 (.x 19) (.x 119)), .set (.add 64 (.x 18) (.x 120)), .set (.add 64 (.x 17) (.x 121)), .set (.add 64 (.x 16) (.x 122)),
  .set (.add 64 (.x 15) (.x 123)), .set (.add 64 (.x 14) (.x 124)), .set (.add 64 (.x 13) (.x 125)),
  .set (.and (.x 126) (.c 0x7ffffffffffff)), .set (.cast 8 (.shr (.x 126) 51)), .set (.add 64 (.x 12) (.x 128)),
  .set (.add 64 (.x 11) (.x 129)), .set (.add 64 (.x 10) (.x 130)), .set (.add 64 (.x 9) (.x 131)), .set (.add 64 (.x 8) (.x 132)),
  .set (.add 64 (.x 7) (.x 133)), .set (.and (.x 134) (.c 0x7ffffffffffff)), .set (.cast 8 (.shr (.x 134) 51)),
  .set (.add 64 (.x 6) (.x 136)), .set (.add 64 (.x 5) (.x 137)), .set (.add 64 (.x 4) (.x 138)), .set (.add 64 (.x 3) (.x 139)),
  .set (.add 64 (.x 2) (.x 140)), .set (.add 64 (.x 1) (.x 141))], [71, 79, 88, 96, 103, 110, 118, 127, 135, 142]⟩

/-- `fiat_id_tc26_gost_3410_2012_512_paramSetC_to_bytes`, lines 1319-1748. -/
def to_bytes : CProg := ⟨[
  .sbb 64 52 (.c 0) (.a 0) (.c 0xffffffffffdc7), .sbb 64 51 (.x 2) (.a 1) (.c 0x7ffffffffffff),
  .sbb 64 51 (.x 4) (.a 2) (.c 0x7ffffffffffff), .sbb 64 51 (.x 6) (.a 3) (.c 0x7ffffffffffff),
  .sbb 64 51 (.x 8) (.a 4) (.c 0x7ffffffffffff), .sbb 64 52 (.x 10) (.a 5) (.c 0xfffffffffffff),
  .sbb 64 51 (.x 12) (.a 6) (.c 0x7ffffffffffff), .sbb 64 51 (.x 14) (.a 7) (.c 0x7ffffffffffff),
  .sbb 64 51 (.x 16) (.a 8) (.c 0x7ffffffffffff), .sbb 64 51 (.x 18) (.a 9) (.c 0x7ffffffffffff),
  .cmov 64 (.x 20) (.c 0) (.c 0xffffffffffffffff), .adc 64 52 (.c 0) (.x 1) (.and (.x 21) (.c 0xffffffffffdc7)),
  .adc 64 51 (.x 23) (.x 3) (.and (.x 21) (.c 0x7ffffffffffff)), .adc 64 51 (.x 25) (.x 5) (.and (.x 21) (.c 0x7ffffffffffff)),
  .adc 64 51 (.x 27) (.x 7) (.and (.x 21) (.c 0x7ffffffffffff)), .adc 64 51 (.x 29) (.x 9) (.and (.x 21) (.c 0x7ffffffffffff)),
  .adc 64 52 (.x 31) (.x 11) (.and (.x 21) (.c 0xfffffffffffff)), .adc 64 51 (.x 33) (.x 13) (.and (.x 21) (.c 0x7ffffffffffff)),
  .adc 64 51 (.x 35) (.x 15) (.and (.x 21) (.c 0x7ffffffffffff)), .adc 64 51 (.x 37) (.x 17) (.and (.x 21) (.c 0x7ffffffffffff)),
  .adc 64 51 (.x 39) (.x 19) (.and (.x 21) (.c 0x7ffffffffffff)), .set (.shl 64 (.x 40) 5), .set (.shl 64 (.x 38) 2),
  .set (.shl 64 (.x 36) 7), .set (.shl 64 (.x 34) 4), .set (.shl 64 (.x 30) 5), .set (.shl 64 (.x 28) 2), .set (.shl 64 (.x 26) 7),
  .set (.shl 64 (.x 24) 4), .set (.cast 8 (.and (.x 22) (.c 0xff))), .set (.shr (.x 22) 8), .set (.cast 8 (.and (.x 51) (.c 0xff))),
  .set (.shr (.x 51) 8), .set (.cast 8 (.and (.x 53) (.c 0xff))), .set (.shr (.x 53) 8), .set (.cast 8 (.and (.x 55) (.c 0xff))),
  .set (.shr (.x 55) 8), .set (.cast 8 (.and (.x 57) (.c 0xff))), .set (.shr (.x 57) 8), .set (.cast 8 (.and (.x 59) (.c 0xff))),
  .set (.cast 8 (.shr (.x 59) 8)), .set (.add 64 (.x 49) (.x 61)), .set (.cast 8 (.and (.x 62) (.c 0xff))), .set (.shr (.x 62) 8),
  .set (.cast 8 (.and (.x 64) (.c 0xff))), .set (.shr (.x 64) 8), .set (.cast 8 (.and (.x 66) (.c 0xff))), .set (.shr (.x 66) 8),
  .set (.cast 8 (.and (.x 68) (.c 0xff))), .set (.shr (.x 68) 8), .set (.cast 8 (.and (.x 70) (.c 0xff))), .set (.shr (.x 70) 8),
  .set (.cast 8 (.and (.x 72) (.c 0xff))), .set (.cast 8 (.shr (.x 72) 8)), .set (.add 64 (.x 48) (.x 74)),
  .set (.cast 8 (.and (.x 75) (.c 0xff))), .set (.shr (.x 75) 8), .set (.cast 8 (.and (.x 77) (.c 0xff))), .set (.shr (.x 77) 8),
  .set (.cast 8 (.and (.x 79) (.c 0xff))), .set (.shr (.x 79) 8), .set (.cast 8 (.and (.x 81) (.c 0xff))), .set (.shr (.x 81) 8),
  .set (.cast 8 (.and (.x 83) (.c 0xff))), .set (.shr (.x 83) 8), .set (.cast 8 (.and (.x 85) (.c 0xff))), .set (.shr (.x 85) 8),
  .set (.cast 8 (.and (.x 87) (.c 0xff))), .set (.cast 8 (.shr (.x 87) 8)), .set (.add 64 (.x 47) (.x 89)),
  .set (.cast 8 (.and (.x 90) (.c 0xff))), .set (.shr (.x 90) 8), .set (.cast 8 (.and (.x 92) (.c 0xff))), .set (.shr (.x 92) 8),
  .set (.cast 8 (.and (.x 94) (.c 0xff))), .set (.shr (.x 94) 8), .set (.cast 8 (.and (.x 96) (.c 0xff))), .set (.shr (.x 96) 8),
  .set (.cast 8 (.and (.x 98) (.c 0xff))), .set (.shr (.x 98) 8), .set (.cast 8 (.and (.x 100) (.c 0xff))),
  .set (.cast 8 (.shr (.x 100) 8)), .set (.add 64 (.x 46) (.x 102)), .set (.cast 8 (.and (.x 103) (.c 0xff))), .set (.shr (.x 103) 8),
  .set (.cast 8 (.and (.x 105) (.c 0xff))), .set (.shr (.x 105) 8), .set (.cast 8 (.and (.x 107) (.c 0xff))), .set (.shr (.x 107) 8),
  .set (.cast 8 (.and (.x 109) (.c 0xff))), .set (.shr (.x 109) 8), .set (.cast 8 (.and (.x 111) (.c 0xff))), .set (.shr (.x 111) 8),
  .set (.cast 8 (.and (.x 113) (.c 0xff))), .set (.cast 8 (.shr (.x 113) 8)), .set (.cast 8 (.and (.x 32) (.c 0xff))),
  .set (.shr (.x 32) 8), .set (.cast 8 (.and (.x 117) (.c 0xff))), .set (.shr (.x 117) 8), .set (.cast 8 (.and (.x 119) (.c 0xff))),
  .set (.shr (.x 119) 8), .set (.cast 8 (.and (.x 121) (.c 0xff))), .set (.shr (.x 121) 8), .set (.cast 8 (.and (.x 123) (.c 0xff))),
  .set (.shr (.x 123) 8), .set (.cast 8 (.and (.x 125) (.c 0xff))), .set (.cast 8 (.shr (.x 125) 8)), .set (.add 64 (.x 45) (.x 127)),
  .set (.cast 8 (.and (.x 128) (.c 0xff))), .set (.shr (.x 128) 8), .set (.cast 8 (.and (.x 130) (.c 0xff))), .set (.shr (.x 130) 8),
  .set (.cast 8 (.and (.x 132) (.c 0xff))), .set (.shr (.x 132) 8), .set (.cast 8 (.and (.x 134) (.c 0xff))), .set (.shr (.x 134) 8),
  .set (.cast 8 (.and (.x 136) (.c 0xff))), .set (.shr (.x 136) 8), .set (.cast 8 (.and (.x 138) (.c 0xff))),
  .set (.cast 8 (.shr (.x 138) 8)), .set (.add 64 (.x 44) (.x 140)), .set (.cast 8 (.and (.x 141) (.c 0xff))), .set (.shr (.x 141) 8),
  .set (.cast 8 (.and (.x 143) (.c 0xff))), .set (.shr (.x 143) 8), .set (.cast 8 (.and (.x 145) (.c 0xff))), .set (.shr (.x 145) 8),
  .set (.cast 8 (.and (.x 147) (.c 0xff))), .set (.shr (.x 147) 8), .set (.cast 8 (.and (.x 149) (.c 0xff))), .set (.shr (.x 149) 8),
  .set (.cast 8 (.and (.x 151) (.c 0xff))), .set (.shr (.x 151) 8), .set (.cast 8 (.and (.x 153) (.c 0xff))),
  .set (.cast 8 (.shr (.x 153) 8)), .set (.add 64 (.x 43) (.x 155)), .set (.cast 8 (.and (.x 156) (.c 0xff))), .set (.shr (.x 156) 8),
  .set (.cast 8 (.and (.x 158) (.c 0xff))), .set (.shr (.x 158) 8), .set (.cast 8 (.and (.x 160) (.c 0xff))), .set (.shr (.x 160) 8),
  .set (.cast 8 (.and (.x 162) (.c 0xff))), .set (.shr (.x 162) 8), .set (.cast 8 (.and (.x 164) (.c 0xff))), .set (.shr (.x 164) 8),
  .set (.cast 8 (.and (.x 166) (.c 0xff))), .set (.cast 8 (.shr (.x 166) 8)), .set (.add 64 (.x 42) (.x 168)),
  .set (.cast 8 (.and (.x 169) (.c 0xff))), .set (.shr (.x 169) 8), .set (.cast 8 (.and (.x 171) (.c 0xff))), .set (.shr (.x 171) 8),
  .set (.cast 8 (.and (.x 173) (.c 0xff))), .set (.shr (.x 173) 8), .set (.cast 8 (.and (.x 175) (.c 0xff))), .set (.shr (.x 175) 8),
  .set (.cast 8 (.and (.x 177) (.c 0xff))), .set (.shr (.x 177) 8), .set (.cast 8 (.and (.x 179) (.c 0xff))),
  .set (.cast 8 (.shr (.x 179) 8))], [50, 52, 54, 56, 58, 60, 63, 65, 67, 69, 71, 73, 76, 78, 80, 82, 84, 86, 88, 91, 93, 95, 97, 99, 101, 104, 106, 108, 110, 112, 114, 115, 116, 118, 120, 122, 124, 126, 129, 131, 133, 135, 137, 139, 142, 144, 146, 148, 150, 152, 154, 157, 159, 161, 163, 165, 167, 170, 172, 174, 176, 178, 180, 181]⟩

/-- `fiat_id_tc26_gost_3410_2012_512_paramSetC_inv`, lines 2066-2125; the variables are 0 = t1, 0 = output, 1 = acc, 2 = t2, 3 = t3, 4 = t6, 5 = t12, 6 = t24, 7 = t48, 8 = t96, 9 = t102, 10 = t198, 11 = t200, 12 = t400, 13 = t502. -/
def inv : List InvStep := [.sq 1 0 1, .mul 2 1 0, .sq 1 2 1, .mul 3 1 0, .sq 1 3 1, .sq 1 1 2, .mul 4 1 3, .sq 1 4 1, .sq 1 1 5, .mul 5 1 4,
  .sq 1 5 1, .sq 1 1 11, .mul 6 1 5, .sq 1 6 1, .sq 1 1 23, .mul 7 1 6, .sq 1 7 1, .sq 1 1 47, .mul 8 1 7, .sq 1 8 1,
  .sq 1 1 5, .mul 9 1 4, .sq 1 9 1, .sq 1 1 95, .mul 10 1 8, .sq 1 10 1, .sq 1 1 1, .mul 11 1 2, .sq 1 11 1, .sq 1 1 199,
  .mul 12 1 11, .sq 1 12 1, .sq 1 1 101, .mul 13 1 9, .sq 1 13 1, .sq 1 1 3, .mul 1 1 3, .sq 1 1 4, .mul 1 1 0, .sq 1 1 2,
  .mul 0 1 0]

/-- The constants, lines: `const_one` 2129-2134, `const_d` 2136-2141, `const_S` 2143-2148, `const_T` 2150-2155; the file has no others. -/
def consts : FiatConsts where
  one := [1, 0, 0, 0, 0, 0, 0, 0, 0, 0]
  a := [0, 0, 0, 0, 0, 0, 0, 0, 0, 0]
  b := [0, 0, 0, 0, 0, 0, 0, 0, 0, 0]
  b3 := [0, 0, 0, 0, 0, 0, 0, 0, 0, 0]
  d := [0x2dbb33ee7550, 0x42bc2a22b4ca3, 0x73c6d3d23419f, 0x1acc138b390f9, 0x5359cf0528ae0, 0x8a0621050439c, 0x54198e31ebde2, 0x6b7fc9b56805a, 0x367c4e973cf37, 0x4f27aec600bec]
  S := [0x3f4913304621e, 0xf50f57752cd7, 0x430e4b0b72f98, 0x794cfb1d31bc1, 0x6b298c3eb5d47, 0x5d7e77bebef18, 0x2af99c7385087, 0x5200d92a5fe9, 0x7260ec5a30c32, 0xc36144e7fd04]
  T := [0x2b249ddfd1271, 0x4b1f5c5b1e21b, 0x28a1234db359a, 0x4775897342d4, 0x6339a280dc1d0, 0xc1abb02b80b44, 0x38aeed0851fa5, 0x273ff6f391564, 0x33bf626e8a289, 0x4d3147cbaaca7]

/-- The functions of the file. -/
def file : FiatSol where
  carry_mul := carry_mul
  carry_square := carry_square
  carry := carry
  add := add
  sub := sub
  opp := opp
  from_bytes := from_bytes
  to_bytes := to_bytes
  inv := inv
  limbs := 10
  consts := consts

/-- `lut_cmb`, lines 2158-4094. -/
def lut_data : List (List (AffE (List Nat))) := [
  [⟨[18, 0, 0, 0, 0, 0, 0, 0, 0, 0], [0x303ee73001a3d, 0x404b2baae7600, 0x72e65e120ac45, 0x27bafc1a31744, 0x116ea5b2867bc, 0x6117f7b386695, 0x501794368d9a5, 0x7403c541fbf61, 0x5785ae6564add, 0x234d7bce8fd8f], [0x646c41601e12e, 0x549120444c03, 0x14329d44c1ce3, 0x4b25b9d77a2d8, 0x39c7a68d74b3d, 0xd3af6a9f7367c, 0x21a86bd5f4da0, 0x2843dea3b74dd, 0x276643211439a, 0x7b72b4861d41a]⟩,
   ⟨[0xddc3263f14838, 0x1cbd1f17b2bcb, 0x2bafa22a82009, 0x5322387667a03, 0x55b751cb96a65, 0xa0dfd0340fde7, 0x5c48fb27c4503, 0x268cd738a33d9, 0x1b2d195dc6145, 0x6ea96db2eacc], [0xbbcd609e2ff0c, 0x5f4ae7e31e8d1, 0x360bd6e15cc1f, 0x409cf3a7414fb, 0x31ee2ad0268c7, 0x5cb4fb4d93fbb, 0x3cadf6924d45d, 0x1c5874e363854, 0x37efa0af03b97, 0x1148d12e29b3], [0xe0db54c224325, 0x10454c4b66e25, 0x648d062587b3b, 0x3d2ee25796057, 0x4bb47d7fde7c, 0x244db1e9d557b, 0x6be33d5802f21, 0x42132c57b6d1f, 0x3d487a5698542, 0x7c1540eb060d1]⟩,
   ⟨[0x79342fe30b9c8, 0x41a8c6ff7b725, 0x75cae2380d311, 0x38f8b24fd7bc3, 0x4844218778181, 0xc42d63d57509a, 0x535d988a70aaf, 0x1a3fd38c3746a, 0x1e914a2cba533, 0x4d2080711f2b0], [0x9f2ba98b41e21, 0x615ccdd4a12cf, 0x3ee0bb3543ca8, 0x15a62a2476e14, 0x61c939a6ecedd, 0xbe481a4c0c342, 0x795dec470d8c2, 0xabe2cb782e96, 0x7a7d6bf78d7ee, 0x4e3a1b9fc9045], [0xbaea9645e541e, 0x2d492585ba0c5, 0x114fe72026dc5, 0x53a929e20e410, 0x60e85cf97390e, 0x7d39adbd8478a, 0x2063c667c0601, 0x742c442708702, 0xa2426fb29578, 0x48cbfcae1f773]⟩,
   ⟨[0xa0bbfed323c86, 0x6f7539ea3736e, 0x5df9b59ea30bf, 0x5d9c303700ca0, 0x1ab39b96006a3, 0xd38fb4c2ce047, 0x4257f3b363f21, 0x18e0baf6472a8, 0x483acd523d9f5, 0x36faca6c25759], [0x231905c4cd0fd, 0x16ca0261fb96e, 0x31d0ecac833d3, 0x3e05643f857d5, 0x40f272fcc47d, 0x67e5354b2a5b5, 0xae3cf45e8b10, 0x599f3dd49b217, 0x626891d86b28e, 0x3e3f07489d3c0], [0xc646bfdf7f340, 0x1913cbd57d3ce, 0x4b9386b4b830, 0x7c9304b89b5d0, 0x7520ec2d81fb, 0xd50731e5f0df, 0x6129d0f7ad03d, 0x2fa03d5a61196, 0x1a9011556d653, 0x2a7d6f6c7bdb0]⟩,
   ⟨[0x61d011098a411, 0x260bcc6c7f863, 0xe1117cd19373, 0x4b68fe728dded, 0x2aa52acfb998d, 0x15ad84e849b1a, 0x2cbcdf89b3ea6, 0x67abd295869c6, 0xc524bc70ca4a, 0x4c62e5fe7557e], [0x7cfbec39a14e2, 0x626369976e030, 0x32365d9dee36f, 0x734ec026c36b6, 0x75f2357a20a57, 0x6c63528ed47f5, 0xe985e6f0fa99, 0x59351fe01e099, 0x2c483f70283a2, 0x4e1a30b241a78], [0x3579d4eb3f8b7, 0x127186d359c4a, 0x625fbda161934, 0x786de6f454c06, 0x32ba63340a9db, 0xcc026d945494, 0x79206668566b, 0x46e3529640a46, 0x533dfe4808d98, 0x1202aef1aa871]⟩,
   ⟨[0xd5a034c320711, 0x46d5dec9cbe0a, 0x2fd14714e2d8b, 0x71e0ce392b781, 0x6ee842039dcc6, 0x2afe7eefbe82e, 0x1706ca91ce495, 0x5b0f58587732f, 0x3ba85fded0a5b, 0x54cebb3898127], [0xa6c4c3c22d5dc, 0x3fd092008f2af, 0x678c1c38be060, 0x29494e571d7ed, 0x679b640bd621e, 0xe89487d97914b, 0x3b91c01a032cb, 0x5715afc07377b, 0x6ab64b7814da4, 0x5e7734e1241fa], [0xebc29d557afe2, 0x15ea9e492702c, 0x39b8ff4cb3e25, 0x5d3da87ad6898, 0x1b20f6958f437, 0xfe179ed072875, 0x3299fc0106d8a, 0x63ab8c98927f6, 0x4425ddeb4a8fe, 0x21fce1531e24e]⟩,
   ⟨[0x7745e07bbffef, 0x7125991a3183c, 0x288f58c85404b, 0x5f0e01f988465, 0x58a085ea50075, 0x6ab7768a5a2b, 0x43abf68337850, 0x75b86c98a35fb, 0x612842ea8b184, 0x109a8bb7ab3ed], [0x4f08d1a6ddac3, 0x5b2b420bfe682, 0x10dfaf256a129, 0x1b6cdadbeb8e5, 0x6f611f5281a54, 0xa1b472b862641, 0x335a2003b6703, 0x8ad4cad5f73b, 0x7a0ec3f0e578c, 0x23141f13e5fa2], [0x5188cbad97549, 0x1f6c5fc0f255b, 0x36a526cac9622, 0xbb287d684adb, 0x6f28bf1f5fa01, 0xd7d8997333372, 0x236ef8a6d2653, 0xc2bf98dacc6e, 0x2fa4352b452e0, 0x43fdc45864176]⟩,
   ⟨[0xea137f595ee0d, 0x179d93a5775a9, 0x1e0372e081e93, 0x3a69dad123cc1, 0x25a2c66de635d, 0x2eea6d51cd899, 0x3138b80ba676f, 0x411b2c78b4f07, 0x7aae1e0d50c65, 0x528f5bde8b6d3], [0xd742c7f0b19bd, 0x6dbf28c91828a, 0x76fe332464ca9, 0x1873dc4ebc9d9, 0x14016f9c485a4, 0xf894ad46eb122, 0x6ae2b805eb995, 0x4c6af846ddb3, 0x4c43621b2fa9d, 0x1c9c1089132c7], [0x7b12746972ba5, 0x10d7707eb91d0, 0x57125fef70465, 0x722135480eb9a, 0x439824482d29b, 0x19b590375a86b, 0x732235fa4483d, 0x35cd4c74ae3f3, 0x76a29c3a22075, 0x1e3d85b615311]⟩,
   ⟨[0x5ccc96bff3a5f, 0x1d6dcc8ace7ef, 0x1b8a8497c7e75, 0x1448ef2271b21, 0x469e763024da6, 0xc1e4859edb4e8, 0x22b32d11ea0b8, 0x7833f6716976e, 0x56e62e2cc647c, 0x60a6cc7e8f469], [0xa5d20ac5edf20, 0x6bd1cb9c662a5, 0x53f695ad3f0c, 0x3bb68b21bac80, 0x6fa23083e49c3, 0x960f58a7f49c4, 0x534df3026534a, 0x68c4d4e5afd06, 0x3c47e39095b9, 0x113ad9de11151], [0xad10baf7b6e7f, 0x5fbd2f1d1d0a6, 0x64e2bf5a74481, 0xc9ded412ab9, 0x6df76d2881747, 0xf68ade96efaee, 0x7cf2ee2dd3d95, 0x29109b2e5028b, 0x84c0c872e5af, 0x55ef1044ee901]⟩,
   ⟨[0x978cd0735fb2, 0xa3b4ec3a861f, 0x24123b8f06382, 0x76c7daa554f27, 0x1b6a5e18d2e6a, 0x947cc76ef8a46, 0x1ca1ca453479a, 0x72531851597a, 0x5962e72a5b9f, 0x35f4d1ae3ecef], [0x63950b57813f3, 0x3955052095b99, 0x910d0c16f997, 0x6561c81d19e24, 0x5bd32e2b1d2dc, 0xb1bcfbcc703f8, 0x44176746c4650, 0x25ecf08c32c2b, 0x34a09e20bb15c, 0x59e3ea6051146], [0x5697698d05e0f, 0x53b12113e48e9, 0x3ccfd3b3f2e28, 0x3b625f59d23b8, 0x5e36aca4e9712, 0x3cd4602a4eb25, 0x1f0a79e67888a, 0x1a3bb856644d1, 0x7bc8d45d9be80, 0x240c74d67c49f]⟩,
   ⟨[0xf4ab4ace9fbfb, 0x1323c2e448c11, 0x7e627cf56ebd6, 0xafd6ca7de511, 0x6dcc97293c201, 0x45898e21442a0, 0x4d8d6616961db, 0x120025dff12d0, 0x27486d92674f0, 0xe577fd8d1e8d], [0x8d1ff64347fd3, 0xb5503113ecb8, 0x6a04e1f0ad932, 0x5efdb668b751c, 0x7a75a308e95e9, 0xde0f991e7dce0, 0x1ac3243fb2d46, 0x7c4cd25a8cca1, 0x20f39c66c4fb0, 0x30ef201b6694c], [0xd02b23c415547, 0x585d53c64ff35, 0x3d4e05329f658, 0x3e78544910fe9, 0x145fa301f1487, 0x84d749e22b3ac, 0x5db00726e0f27, 0x49f8b12327e02, 0x66fa6fae6e30f, 0x148864ca7b024]⟩,
   ⟨[0x72db89831c22e, 0x212b7a78fbd12, 0x21eb595c4f6d8, 0x230b818d0625e, 0x432cebfbe8326, 0x5a4237390a4e7, 0x48bc4f80e39d8, 0x2c266eda08c65, 0x3003d1acfb73a, 0x3b25fb2316c33], [0x1309eb03ae17c, 0x6b7d21f1ac8ca, 0x30f22ad66cc64, 0x68cae1e8a8ae4, 0x36b8e12f02a1, 0x51a9a31790107, 0x2bc64d9c75bc2, 0x12e0a5e87c678, 0x5a6b78e7a5666, 0x7adc780a85627], [0x623c20a48f7fb, 0x68bd279754b54, 0x214146a030d28, 0xbcf5046be3de, 0x7f0b1c26980fd, 0xe951243cbb013, 0x3fedee8a79d6a, 0x37cd9ba1b93cc, 0x60fa57a12c244, 0x342025e288d46]⟩,
   ⟨[0x60f5be50d6219, 0x4f425f334521f, 0x84f4c30f8cb3, 0x4572caa850ab6, 0x7491416856bb1, 0xdd438508b179e, 0x5af1dad1e9061, 0x72ff71c440602, 0x640c33c87d2dd, 0x6ceed81188498], [0xefb091df854c6, 0x28a1d31c19fa0, 0x2a9a404668e0b, 0x727f82cc27acf, 0x126282cc527d7, 0x14fab2ce4ac32, 0x1fafc4c09b367, 0x252f0b2b54f3b, 0x7e8131baa6ff5, 0x517793281415b], [0xbdebeb66bdfe8, 0x2cc5e9e8b6103, 0x4b6b392825e5, 0x2c59b6082ca61, 0x540c66bbc2394, 0x3927defbbc62d, 0x1f26c16d6387c, 0x86ab5563fc8e, 0x64f3e8c626ebd, 0xc841caca38c0]⟩,
   ⟨[0xa508668f873e, 0x5fdc5913d7cf, 0x77cffbbdcf5a1, 0x3f77b2390b8d4, 0x5594711779416, 0x5ada86caf4491, 0x7f7c714c93e3d, 0x5186774e545d7, 0x2c4325416b617, 0x2eaf1d8b132cd], [0xaebd507e37692, 0x309a15eab0693, 0x5ff4c2a7a5d05, 0x218ccb516ca7f, 0x91c7c9915f63, 0x4c73f619e0b9, 0x18867bd8d792a, 0x77df8951e6f62, 0x2fca92bd5a710, 0x3de1f4cb64968], [0x7d8c68947865a, 0x35b85e8af7920, 0x138bc855475e9, 0x65b8343cf3c8e, 0x72c46c618d9b0, 0xdd020c6df0d12, 0x470f00a8faee1, 0x5daf00e2dc642, 0x63930e56aaf60, 0x286f9b967aac9]⟩,
   ⟨[0xdd90f276d31af, 0xea6d5dba194f, 0x430d033491006, 0x7f9fa0d60be75, 0x4b562950eea1a, 0xe6bcd0715d21e, 0x590f8e3023f7, 0x1d19fd03857ca, 0x620a7b51ed174, 0x1d40d3102b572], [0x32d705f8518c5, 0x368f16f69285, 0x31b1912c61da8, 0x6862322ce1f30, 0x10660b97d08cf, 0x35d64540a6d07, 0x4199885ee5bea, 0x28d3c28f71406, 0x98a7ed42e515, 0x33517091a8f], [0xbeead956feed8, 0x6d144b99b7e54, 0x6620fdb6dadbf, 0x65f15a8f5eca2, 0x24170192b151f, 0x6068b65f5278c, 0x6ab4cacc7bf25, 0x6680608a271d0, 0x25004c7539417, 0x727215a3b6bfa]⟩,
   ⟨[0xfaa227f4f5ad3, 0x48c30b1278d75, 0x4c2380f042c08, 0x6f4250a5404fa, 0xe5775c9d6ea4, 0xc434ed2579348, 0x43b279220c0b7, 0x11c3ab979af10, 0x593b8b6831c9a, 0xc951c87e440d], [0x9e652cbebe9ea, 0x2d471c31cc4a7, 0x1180c86178f58, 0x4a1cbee332a03, 0x4f056d32eec00, 0xe9d6f5a148cc7, 0x38f214f11933b, 0x6ab7f8df475b6, 0x16e32a36f4e7a, 0x2d0656419319], [0xfcd3f816a5978, 0x6041c99f186a9, 0x1d3d980efb038, 0x7e9fdea9be147, 0x32bce66e90b6d, 0x1b6674476f1bf, 0x51e25fef557ed, 0x29cde03d236f, 0x478bcdd0c953a, 0x4bebb6141c907]⟩],
  [⟨[0x9e2e990726798, 0x9676b8e190dc, 0x48c9965ea2a0c, 0x4ef181e315dd7, 0x3a6a0fe2b108, 0x4b4b789b5786e, 0x1839d83e4bc52, 0x3b9d09be4acfc, 0x603a800326917, 0x7c7926d46765a], [0xbde461c54bbe9, 0x30c12c7be3000, 0x68d49e4d38051, 0x2424dff63ee, 0x6748d0f817a7a, 0xdaaac34bf5895, 0x4bf755438f5f4, 0x31c0109a0a789, 0x257084478a82, 0xeadedc01c8b8], [0xba95d208fc8c9, 0x171fb35aeda7d, 0x2108b68cd61de, 0x32f4e1d4bc730, 0xffb462ab7826, 0xa3e9f4b3f7b0e, 0x1e70db7658f11, 0x28c2ef3eeb807, 0x753bd52ca29ce, 0x547e50673926a]⟩,
   ⟨[0xf9cabd5c6650f, 0x36740ac449dbc, 0x4759192ec241f, 0x381c0f9e7eab2, 0x63278e1545da8, 0x37a5b7e50ab6, 0x476fac0ff808e, 0x36e5576c1e063, 0x27a9d39b89a83, 0x6f1da42c4750f], [0xc0b93dc3c004, 0x35d0e6f5e38d1, 0x61a730762ca71, 0x3a620efd387be, 0x3e2ec3540ed15, 0xe424c214d117f, 0x3e1325b0bb449, 0x6fc7d1fc2fc7c, 0x73f72d066fb57, 0x4b2d6ec5c213b], [0xacb4fc84f8936, 0x757cbe4c50d6, 0x49e1c99c1e958, 0x7d86d6ff27a95, 0x29876c3ef1bd5, 0xa9e00a5cbe886, 0xbd4e512c515f, 0x5c75102170269, 0x7807e85a235da, 0x293a17091a760]⟩,
   ⟨[0x308924c47ea21, 0x7effeaf16e651, 0x7d78eef6b95c8, 0x480ebcbf733d4, 0x1f759131373d1, 0xf52daa6d26e12, 0x1aa1a394183a6, 0x31e24c017ebe3, 0x134a7eccb3dec, 0x1eaacfa806c01], [0xc8dc99e4d9e5, 0x499fcd94685f, 0x4fb45c9641579, 0x14ae4737e13f2, 0x5bac25108c107, 0x407f8f14c185f, 0x3281019a9ec49, 0x18c647189223f, 0x77667aef20006, 0x342d230f93d40], [0xc9265ef97099f, 0x2cb0a3b71869f, 0xdd18b78befab, 0x445c0e95393d6, 0x22c17960d9aeb, 0x55752e5a3e34f, 0x29b02a7513832, 0x115bb849be596, 0x70895a6fd0e07, 0x2e9c698b128a0]⟩,
   ⟨[0x460245ec561c, 0x759cfcdc4304b, 0x354f11dd3770, 0x34eca59b714c8, 0x6deb5cfbfe8aa, 0x9c83e53dd01e1, 0x681045b1b2b4b, 0x66b499d80354a, 0x7b09a32c5eb10, 0x7f5bfc7687e65], [0x7dbdd7509d7b6, 0x1ff07267c40f7, 0x20c1aac3c0409, 0x6148b211f9d4a, 0x7d9183357e99a, 0x5fb86106c8179, 0x61566f3217886, 0x64086d6797e68, 0xaae710b5d9a0, 0x3a7960d860c8c], [0xba0f7583190c4, 0x76fa655da6153, 0x6ad011ef06120, 0x1b9919f914745, 0x6933cc4a1f75e, 0x8b0c001d798b5, 0x3a7401c076c5f, 0x2a5e88685994e, 0x40e300eeb5f5b, 0x401fe079260ee]⟩,
   ⟨[0x659914ebdf906, 0x4ac87025b5364, 0x284a5cde167e, 0x3dce5e16b1561, 0x109507ce45c7b, 0xe774890c7761c, 0x5e1ced11c691a, 0xb979e77da4d4, 0x4ef607d7b0f58, 0x597cd44bfb28f], [0xa69885d31fd12, 0x77b176fc02779, 0x32c80e3987695, 0x75f209c1e30bb, 0x1009fd731aac0, 0xd3eb5362ea2cf, 0x1d6c33bb4f1ec, 0x5811cb2ecef96, 0x57d8c6c5ae4e1, 0x4b4ea22243336], [0xe6d776cdadb51, 0x59ccc0f8e0bb1, 0x788df3c7ad498, 0x142a89307c686, 0x16b22fb5e10e8, 0x4175ae2f3eb2b, 0x2b10b599de0cc, 0x1ebe2f56c5287, 0x1a33116e45edf, 0x4ae20b6aa13bb]⟩,
   ⟨[0xd4f1640e31025, 0x5369f3a71705, 0x6e57097b5b700, 0x287c31dda7eb0, 0x6bd941635599d, 0x958a013adb362, 0x797ec3af59a21, 0x532140c91be6e, 0x4936cf742d1b9, 0x6d291755b4c5f], [0xa926a8ee98b9, 0x46dff06b0ea14, 0x422ff6fd967cc, 0x779542c4521b1, 0x469beab421801, 0xe418e584bb6e2, 0x9ca813ef2f4e, 0x5f68592828df0, 0x656c0bbf9122, 0xccb05a025c71], [0xe98cf9aa86649, 0x4280c51ac4674, 0x69006da4abeb3, 0x46b1cdf4d42c3, 0x52325c9885550, 0x30d64afd848fd, 0x2c8acc81c6fc5, 0x47cb0d16becbb, 0x424989da2a6c5, 0x168c78a279267]⟩,
   ⟨[0xd255173b3974d, 0x78ab8051f9d89, 0x5d31e2bd6faf8, 0x7deceff2fed16, 0xa995ebb1af3c, 0xec88849f934dd, 0x3f4357d1349bf, 0x3003724ccad86, 0x5cc63a601a857, 0x343b88a410741], [0xb861ebec11da3, 0x2f7da0ce66b58, 0x4a05cfdd667ec, 0x618c4234e4317, 0x77e534de5e42d, 0xf510acbe2e35b, 0x4d176cc3f8974, 0x4199583f06449, 0x406979e0eb70, 0x695f16dd2b384], [0xb5f01887d972b, 0x591009b9788bd, 0x1cfb8c1e46165, 0x5b8112a6084a0, 0x49527793479c1, 0xb187275aff4a8, 0x49d80550875eb, 0x65b3359b96dbd, 0x1fb8879675983, 0x5debd62191d57]⟩,
   ⟨[0xd1ca24c4248eb, 0x5f680b9db4143, 0x332a16bfb989d, 0x753e5c1bd1dd6, 0x4fb5069a3dd11, 0xb36967d95cb7f, 0x7c1a743b83e84, 0xaee0a0745a8d, 0x6c7a9c91323b2, 0x528cd9463aafb], [0xc466d9ebe068d, 0x13a27797dc234, 0x18f27d8b96428, 0x24c1197d66bb, 0x30d29442eeac4, 0xd7f436d88c8d7, 0x41c67dd503e48, 0x71b77621f3c37, 0x1e384de527534, 0x4a3548d4230ef], [0x9d0f8d367877f, 0x144d7265e0804, 0x5645c59d64eae, 0x533eb925569b6, 0x4dfd1c43d5a74, 0xe0aa14014632b, 0x5693798bb1ac4, 0xb28be3e0068, 0x379aaa7eae112, 0x247f1c8cfd8e]⟩,
   ⟨[0xc15d58808355f, 0x3a9b54b4046d8, 0x3be1a6ab6a8d7, 0x699c7d04884c2, 0x55a19b13e30e6, 0xfba511c14c314, 0x7c4b1ab58948c, 0x14f0d999cb430, 0x7afcb455f6d0f, 0x13287261490be], [0xc39060a09a6a6, 0x68efaae7bea33, 0xf39708828339, 0x74458444bc73b, 0x4ebb9fe3a3451, 0x2963523524531, 0x2ba9b39dac86f, 0x296c0868a96ca, 0xe1fd8d0a7823, 0x10a911670fb07], [0xf856897f72f1e, 0xeee5678607c6, 0x517cd2197022f, 0x4bedf2b12db4d, 0x19c0af97a5d1d, 0x374facb3b50f7, 0x3917cbad403ff, 0x4c4704e757e6d, 0x29a25d20ad24f, 0x369770fc2a344]⟩,
   ⟨[0x8da57843c3422, 0x82aa03cf53e5, 0x7396268b0fa19, 0x148f2d5ecb6b4, 0xe4c3e6069c02, 0x8a317bacc7d91, 0x23fb0b882b0c6, 0x3470ccbb116c6, 0x1dd2c55d9fccd, 0x3d996e34873d8], [0x494440ecc3ab3, 0x2540e1e629cbc, 0x7355927aa0da6, 0x617ccfb6eb6c6, 0x45dcd2cd0b597, 0xa9351fef0bd26, 0xe241a46e98c5, 0x11aac255b8c6d, 0x77eb6092d7f54, 0x6c19945480ab], [0x8b1824e089690, 0x4658566f83b39, 0x7a1e24b6b0e67, 0x3546fe60dc8ca, 0x527c86cabeac9, 0x6138efab370bd, 0x367b7a18e4830, 0x5f41e7f74f931, 0x43cd498aee92b, 0x36640f17461cb]⟩,
   ⟨[0x14f84e18ca5ab, 0x581e482520be7, 0x6d3c0b43466d5, 0x717397c15f270, 0x2926aaae17414, 0xcee21a20bfdb7, 0x5627f8c434e1f, 0x7b06611540add, 0x17c0766ad8ff8, 0x1a6df1f7cfd76], [0x48f19c87b8ffd, 0x738685355df41, 0x62d4c85207b23, 0x4da81080542f4, 0x2595a163374de, 0x77df196f75779, 0x3cc24da342ded, 0x71c8601cd59a9, 0x575ed879c1606, 0x3c9a80845e0c4], [0xe4341ec68e990, 0x7db9731c2eae, 0x50b4ac8a0c069, 0x20f490d1b024d, 0x67c6e1654bba0, 0x3efde035bd6af, 0x3c25584a7d506, 0x591764cc32886, 0x6fc9cb331260f, 0x17e5d60885352]⟩,
   ⟨[0x731233c0bf910, 0x329e61db0c699, 0x7ba2ff701a4e9, 0x333ea1e17aef2, 0x4c20bb4e7b23, 0x36d578deb0b28, 0x1eb9e5dfb52e4, 0x4ca4959fa2735, 0x1d94e469ae705, 0x76c278152c2a0], [0x98e1bb8c2f143, 0x4d297a9e0c320, 0x76a7705b29809, 0x1c4ab1e7aa3fb, 0x7cec0d37488e9, 0xaf115eff64680, 0x120ef3cbb216, 0x54823751d4f6c, 0x2ac54f606c3d7, 0x1ebcefb260725], [0xb771e27a53f81, 0x6d54c547c8ec4, 0x11d3b796f70, 0x103e44c9cdce1, 0x4c7ba40d38fa7, 0x89a5ebd4841a3, 0x684c71d5aec65, 0x605eef1d5eab1, 0x67509eaf71ebe, 0x5963e232f38f6]⟩,
   ⟨[0xbcac8c9d8cb62, 0x201763a59294e, 0x19a01979c0ff2, 0x4d0e0410f78a4, 0x6eb9f8cac287a, 0xea0768460f44c, 0x5a455f94a712d, 0xbc93ebb5ffb3, 0x20c65bd0c37ed, 0x261bf4cec1574], [0xff07cb12ea13b, 0x20429e9b2b0f9, 0x4dfa80ea8ecd6, 0x73bbbd56cd402, 0x3919c06a06ca6, 0xa50dfca5441d8, 0x2b9a99a9b237d, 0x742a2e2d61162, 0x2ca00a4309b93, 0x905c120b4320], [0x61578eb35918b, 0x1446b3be9d4a0, 0x3d523bc8898b4, 0x64bbe9875db61, 0xd3a22e1bc0ba, 0x61badb8814627, 0x1e3cc67e1c334, 0x7d8bff80a52c8, 0x7c1a1b139325e, 0x699d472241937]⟩,
   ⟨[0x25e7d1eb3c74b, 0x7898aa108bc0e, 0x47515f8ed8cd4, 0x4d3b9580c495a, 0x7180b924b02dc, 0xf661e19f6359, 0x670bf44b39cc7, 0x7fe66b0398776, 0x7995a1e2ac824, 0x6d5dc46677210], [0xfaad726b55ea2, 0x79d5d2bee8a46, 0x26095ed36bee6, 0x6b2cd7c0a5eac, 0x7363aade3cbff, 0x8973fb787e167, 0x7c0f634cba455, 0xfa999e76881f, 0x324c512e8946b, 0x380d8788e7945], [0x8db1a6de4460c, 0x62893735bf9a0, 0x13ba32e02b7b, 0x73c9f80b4a895, 0x3c3f3c87aafb2, 0x827f36493e441, 0x292efac99e138, 0x22a4a4904138, 0x24529ecb28e37, 0x77421ee238c1b]⟩,
   ⟨[0xf7b9c6c9fca63, 0x34b8a0aafc9be, 0x5dae98db7e24f, 0x74c6ca22931e1, 0x2a4921c14d883, 0x6efa91fa1ce71, 0x3ce84355e0dce, 0x753c05dd0adc7, 0x17fab49be457e, 0x352750d53db1e], [0xc2f7461033645, 0x513c3544b8e3b, 0x52c0d08ecf672, 0x724a3d76b9645, 0x5ee3a414b8581, 0x1b06b1a55e453, 0x186401a4d8285, 0x38dd6e8c786ed, 0x2d70caf4ee8dd, 0x5d01b347c3a06], [0x1567ffd93f0d1, 0x309252f65bb4a, 0x5959b6ed014ab, 0x4b43212e34585, 0x438afacbe2355, 0x5ce8397224869, 0x5a2f2198160cd, 0x38ca3c93100ef, 0x5b4e108e763bd, 0x13ab825e9037b]⟩,
   ⟨[0x35b4d0f47a893, 0xf88590fd42e6, 0xd7368e95ac4c, 0x195f98944b691, 0x486ccf2b919ec, 0x4a59d1c2a3f33, 0x534076fd4de0f, 0x59369592a8078, 0x75849457601a8, 0x5bcfef89b98b3], [0x82471ab978ff4, 0x417a722d632a1, 0x119fffe762a0c, 0x154facac33a86, 0x629b146a09126, 0x77f98e5a9b02a, 0x7bfdf4c9b46f3, 0x6f3ce86da2075, 0x43496f1f7058b, 0x410c0161e3f69], [0x61c0ddd1d5193, 0x5d358d2c1c9e2, 0xf247bbcf087e, 0x75a43b2343359, 0x1269d6efc98d0, 0x9de5ff8c9c95c, 0x51605d13327e2, 0x33cb5838cf4a6, 0x3a16e2b08fe9e, 0x3650c080431e5]⟩],
  [⟨[0x49602e45d0a93, 0x59c589221a880, 0x6bfb336edcaf, 0x5ad45223ddd99, 0x57f8bfa84ac51, 0xab4970bf8f60a, 0x67f4fb7299a69, 0x6c45d1da5576a, 0x1df5059d6f745, 0x7522509a7e4c7], [0x754184c1eac3e, 0x1803402f7cd15, 0x4f73f4944a6cf, 0x46cec832a58f1, 0x5bf7c9110ec11, 0x6bee5d06c0c15, 0x4d8b8b8f00b0, 0x28c4d421bd379, 0x75078416e153c, 0x359b19c14f12f], [0x808ddf052f857, 0x19692911893c, 0x20f8ac2158528, 0x6bf85b2d465d0, 0xe4b967ae33bf, 0x6b2c044aa16cd, 0x5714242b5bb0f, 0x5d92812dafb73, 0x7ad2dcb20ecff, 0x77eec1d3fa208]⟩,
   ⟨[0x2119238646fd8, 0x5abc2f8af448b, 0x453259e95d8e5, 0x5b48782ebcaee, 0x38436f43cdfbf, 0x48d16e429ce28, 0x570d828600948, 0x3453855620095, 0x6ad331e478470, 0x651bfab5074bd], [0x5f4433bdb32d9, 0x105218d10de9d, 0x584efcc5c27e2, 0x13201f8f88c14, 0x5783ec5680875, 0x5599ce7f06e7d, 0x469d4a0f10d5a, 0x66493c7be869d, 0x282e244723da2, 0x3dda26211ef], [0x4777cf1747536, 0x4bd8e40f0aac6, 0x7330bcef012f6, 0x5b417b099d130, 0x8f04461bf63f, 0x2fab6c914dffc, 0x12387df5afeb9, 0x60b418608d67a, 0x28ba76c66cfd8, 0x46a5d5b19c944]⟩,
   ⟨[0xd23e16e7eb572, 0x46332fc8a601b, 0x65a48317134ce, 0x43b6d52860aed, 0x6eeb80466982a, 0x9e57fbd4942f2, 0x1b441b9b92d52, 0x3927622998150, 0x32063cfe0cc69, 0x1e7a8eaad8648], [0x9791dbc2f7ade, 0x5b5ae56f669e8, 0x4787844482c09, 0x233d0503de859, 0x2980f93db7782, 0xe89640104583d, 0x256749a55b356, 0x346fb5377e7c7, 0x5986d02625c7f, 0x6501a5be2b9ea], [0xdc86bcd571c18, 0x295273cb7094b, 0x2353ceea64824, 0xede9fdaef274, 0x6fc2fe16f8340, 0xe75263685ae89, 0x2a6b522548b24, 0x30b331a3cf122, 0x40aa1996d71af, 0x21da1e66c5828]⟩,
   ⟨[0x6237fe85d84b7, 0x5d493978aa748, 0x5606db28d11e0, 0x1404e7ee9a4a7, 0x9fccf95887, 0x1f35190486d07, 0x5abf1251a2823, 0x7d9f90e1b9546, 0x27d362bd3273, 0x1d3276ca5dbca], [0x5bce59854f4f2, 0x68a97823ba015, 0x69c7b6ba3a2b9, 0x391289e956a27, 0x6d77c747be4b3, 0x30591f7c41921, 0x2a1eb441bd53b, 0x14ccbba39d2cc, 0x2a9eaedc15cef, 0x175cd0b5e3dfd], [0x37ecc8ce85ae8, 0x2d2e68b37c995, 0x7756f4c412926, 0x64c1755fd279c, 0x5d142ca088513, 0x5c77113983f17, 0x667b020c82500, 0x303a898e3ac4f, 0x7e3c86d19c210, 0x4249657f2e122]⟩,
   ⟨[0x1d1c5e353e5ca, 0x2576eb624749b, 0x65cdb175f1c9e, 0x3a41b811e62ce, 0x518cfee6f53f7, 0x98b04a4ac2f13, 0x6ab7610983f96, 0x746a4d621967e, 0x350349ec927d2, 0x222970df1e1be], [0x8906eea836812, 0x3114905108f3f, 0x5c9663c445888, 0x1c71f712bd33b, 0x43d935a54a0da, 0x3646e9fdc729f, 0x7210c4951848f, 0x11fef8e510953, 0x346faa21a5b8c, 0x3ad57103dd51], [0x33864a36064d6, 0x29b9eafedc2a, 0x3be3deb0b5f9a, 0x3b506aa541679, 0x5b2a6b10327b0, 0x157232b715db2, 0x1ea48e7f6fcf8, 0x25e863ca33319, 0x5c8d3f568bf16, 0x4c5d907c3d1c8]⟩,
   ⟨[0x46ad26f23721e, 0x2c765bda314ce, 0x752858f9eb295, 0x513964d698e8f, 0x1c85381b9c98c, 0x7d077b6d8b14, 0x2650be441372d, 0x7c92ef836c485, 0xf996acd339f6, 0x7e8564fed0a69], [0xe29a25f3371cf, 0x8814c5a56ed5, 0x21d0dcd381d, 0x76a6088860540, 0x4219513890bb8, 0x9b16b9a0a067f, 0x47e7b85349c38, 0x74b3fe445ec78, 0x275d721e0622f, 0x2a2ec646ba867], [0xbbdd3a720c17f, 0x1b2c37ba0e3d1, 0x54714236d0cc2, 0x76964a35c7638, 0x25052b296a76, 0xc48304202ee65, 0x6ed1f7dcb85da, 0x2fa4317b61178, 0x6cee7698da4b8, 0x44b0ff2267f23]⟩,
   ⟨[0xd747a3e22e2b1, 0x3deda875d7cae, 0x6a21c6b5fe47d, 0x412bd22e4d137, 0x29da6d3b3667f, 0x48e20cb87439f, 0x325a27394f2c8, 0x428463e1d4fbf, 0x41b300ff04818, 0x1521958f0e161], [0x85db6b7e977c, 0x17ce01f10308d, 0xac1ca092a153, 0x415739eab8c46, 0xc8cdf9774c54, 0x51119a4d27cd6, 0x3979ef4cabd4e, 0x306e82de011fd, 0x130d235924305, 0x4bc668226fa1a], [0x35460c289fe8c, 0x77fc4b88d0a33, 0x34b3a2f12da46, 0x587252519a91, 0x67696ad8ca13f, 0x4b367ed30881b, 0x6ecdc69a04362, 0x62060141e8a58, 0x446717a1d4c41, 0x59c92f4144291]⟩,
   ⟨[0x90bcba13f3ffa, 0x459f76914a474, 0x77df9c1ab8451, 0x27f4173658de6, 0x752a654451bbd, 0x4389bf205f6a5, 0x2a0f6e2cac058, 0x759ddca3cf248, 0x1db6435de0b7b, 0x7a40e4ff1d274], [0xb40f9fea2df61, 0x187faf0a90648, 0x7f429f69e5c3c, 0x5e462dcd8f74d, 0x2fb868905f55, 0x6227264e559ac, 0x5dcc2acd4be01, 0x1754dd8d51be7, 0x254dbe11362d7, 0x67071a34dae0b], [0x52b353e84b78c, 0x564d48962ee3b, 0x566ce4ac9469e, 0x22969a603533f, 0x57cbf4f23da31, 0xf413fe6288e6f, 0x43a5e06d777d3, 0xd59724b433b0, 0x4ac5ff7a4f7f5, 0x7581748bfbcfe]⟩,
   ⟨[0x51789d3e212fa, 0xbceb94909b13, 0x28c362bbcb45e, 0x70ef351f3b7c0, 0x666ecdeb8047e, 0x78e439202364e, 0x7e77e6140b4a9, 0x482d5b04ddc11, 0x1764aefadc75a, 0x6b47820ed7e1b], [0xe69076d92441d, 0x7f96be0eca0a5, 0x5b603dee01a8e, 0x2d1b5aeab2f76, 0x7a711b7087718, 0x277d13cd92b5f, 0x3ae287a233d24, 0x666e9f9cc65a3, 0x676645ddc4bcf, 0x4c2fe8fe9d67b], [0x27d78672c6c00, 0x2479a6d9ca279, 0x72d4b69ee9eed, 0x115c466a0ff92, 0x40a74ed91de82, 0x7a983df62653, 0x3e0bd157bc637, 0x257cf02231b18, 0x21fb8d5b274bc, 0x63f5ed86af20b]⟩,
   ⟨[0x417cd2c573949, 0x5c0a0f0d85a83, 0x4bca59a389efa, 0x4bc9a8edbae72, 0x31da12b0ed484, 0x361f7e36f579e, 0x2f55eee1a1ab5, 0x1fe95a3cdab65, 0xbd0e2f996073, 0x69840c7aea37f], [0x8a8244c90aae5, 0x192938b5c4443, 0x62e8381b8da6e, 0x2a57b4398e87b, 0x1b401b603039d, 0xf8931b08e2459, 0x5fde03eb7e448, 0x42a4fff29be1, 0x5548f632ed26f, 0x7e01a00ddd53], [0x9c5f1271c360, 0x14712324edf39, 0x24af2050f1bb5, 0xfb6b43ad3c7b, 0x66f4aa55f0b74, 0xc69a365b54877, 0xd87de69ba1d3, 0x1f390592acb1, 0x2d3acdcbeec70, 0x6a6c9430f6dc5]⟩,
   ⟨[0x76182951b9fcd, 0x14da2a6ca4a38, 0x61c55c6bde562, 0x6eca43e5605f8, 0x6b6fff6ec841, 0x713c0144812b, 0x71f1d396eb0dd, 0x71210d066a6db, 0x737cf73ac235f, 0x56b844b68475], [0x8f1cead60a1d0, 0x444231bd8012, 0x445d6a0ed8b97, 0x2dd91f0eee5c0, 0x3766a3bf6b231, 0xf5c93d686296e, 0x233237f38dc42, 0x7525d1a3497ea, 0x1819b905d774a, 0x7ffb178f7ce0f], [0x641a17722c8f1, 0x79f1706850c02, 0x6060cbb0518eb, 0x2b66c8cb99f42, 0x66e8e928880e6, 0x1989cc847f22c, 0x3469eeff682ed, 0xd34a55978260, 0x44c59d525236b, 0x390050e10b720]⟩,
   ⟨[0x9cd2bd71f4db, 0x29f23bb9d8be1, 0xfb44276a7039, 0x5f4e44d6437e8, 0x4e5d5f5c4bb02, 0x662ea552904de, 0x72bfd95da12f6, 0x6e4a9cce5bbb7, 0x35d0be00d7a94, 0x1c01bce0cd7f9], [0xc0afd973dbcf3, 0x64ce4bd3b9aca, 0x7702f5fc560d5, 0x5e595ba3fba8c, 0x5b6bf254bf97d, 0x576aba05da74c, 0x10304eebab26, 0x15d19f5797872, 0x16d4017cfbf4a, 0x26f6161725aec], [0x87f397aeae324, 0x5fa83bb5e2d0c, 0x7223e58b05d25, 0x3870f05a9b0f5, 0x1a6ae5bf4d17d, 0xec0fec7c22b4d, 0x4123ea40b3d05, 0x6ab321bced2bf, 0x5eb8b088adf8c, 0x6d4d7b749d913]⟩,
   ⟨[0x4f5fa884da730, 0xaf25f411bd67, 0x3ba45d0584e3f, 0x2185580d7028a, 0x42c01189dcced, 0x8c6ae9b1abb6, 0x52e642e3c2b76, 0x7310740fb3824, 0x728038396164c, 0x699c02d4658c4], [0x79389c8fd6f3c, 0x334aef7344570, 0x242d78c5a1222, 0x3c2a690d38351, 0x1cf5ace9c51a0, 0x55b466f344a63, 0x7e983be7fdae4, 0x55cfa24140c02, 0x69cb7b9c5bd2, 0x6188710431607], [0x26f7b943a846d, 0x2d01ffcee4f40, 0x18950d46b06fd, 0x489c50b872a31, 0x6350b0d584129, 0x1f25cbb8b17e3, 0x2c5c45781f165, 0x5737448097914, 0x511d83b88dd30, 0x274954f75ef59]⟩,
   ⟨[0xecdbaa9d6b470, 0x4feaec5fc07c4, 0x6acfe89adef6, 0x1da4aad513147, 0x67d3af31ae9ed, 0xa4b232569b195, 0x4cf616e4681f8, 0x644769bd5a3d2, 0x25e58b311ac44, 0x52c8b011460f8], [0x45717702b786e, 0x14a10820591ed, 0x62d9363fa4ee1, 0x22163012006d4, 0x271b0d1cbdbe0, 0x26f3a015a99d4, 0x7c87580d2c201, 0x1bf98f86fc444, 0x138f3a6fa662a, 0x1a06e15120b69], [0x8025e88d639dd, 0xe347c30aa122, 0x2589d8ba62ac4, 0x2e11924750a60, 0x1fbee719bdb54, 0x4c0c9348c22b4, 0x57fd26f80cac8, 0x19b358ce6d1e3, 0x7a93d359d2c5, 0x77158fa133e83]⟩,
   ⟨[0xd7dafe61175ed, 0xe4504e665412, 0x5fb729ddee3ec, 0x47f270c83bc2, 0x5a73604df6148, 0xbd1e93dbd8bb5, 0xac824ead6b31, 0x5ff3e8ce9dcc5, 0x7cc6e8cffac1, 0x2affeffbb1a9a], [0x23316bb40df6e, 0x481b56a077501, 0x13e2a0b14557d, 0x595d27b53ff98, 0x3c19b9d245eb2, 0xfe22605bbbe16, 0x5bbc13becc9c3, 0x5555cc21b1639, 0x6c7e755f4fe0a, 0x4ced449c0043], [0xf212c1fcccafa, 0x65aa07d23a1f0, 0x653b0a8787b0d, 0x2764b66da9938, 0x1c729d799c70f, 0xb8104f70d5296, 0x2712da31ec0bf, 0x15c3c4923d483, 0x5652f2fb13cb3, 0x41664c0c8cdfc]⟩,
   ⟨[0x82999b7ac4de8, 0x58a2ceca252a7, 0x20c73280a45c0, 0x450da84ca8cd7, 0x7bf0e4090350d, 0xadf283c44352a, 0x3e4dcfc4cee6b, 0x763ca01b20c07, 0x74828372b938a, 0x22ec150908f6a], [0x2582469359e84, 0x228a33d25eec6, 0x6435073d85a7e, 0x227840f93d3f5, 0x262b1b8d3c804, 0x340d7d4b65a82, 0x3d2f31e1046e9, 0x4f093ef407ead, 0x739071c0cfcc, 0x26d2395b09e2c], [0xf54e820deb8d8, 0x587f5bbc119c5, 0x33cf484de2ce4, 0x72d6e48747c29, 0x1fc0c06af6484, 0x72c72c472f425, 0x6a997e7ac72b4, 0x615ba71bda74c, 0x194736b2bcbea, 0x53764e1cf34df]⟩],
  [⟨[0x869a43c294c54, 0x3cb29d7749693, 0x7c4909db7e1df, 0x5228eb2fbc6a3, 0x1416fc12d302e, 0x91471b10d8725, 0x1e08aa9dece88, 0x587a018ad629c, 0x6c4a4c27a1dca, 0x5c28ebd109bcd], [0xf17d6f444b156, 0x10614a6278d4d, 0x4e296ec65945, 0x764a3d99a6c4c, 0x3ac1ddf8c7862, 0xa1bdc47ebaf83, 0x575e7e4e6e02d, 0x346ff3fa7d4ef, 0x6490e0aa55f9e, 0x3de09135ea98d], [0x4b1218eed069b, 0x3a6c9ea9923a4, 0x1ec1877c85728, 0x300a0f14a71f6, 0x6ececc49016eb, 0x58eed82849105, 0x400ecd17e513e, 0x60825e3952e96, 0x565ae484d0f5d, 0x209ad7372bc07]⟩,
   ⟨[0x967088e9b527f, 0x2672cb51b0152, 0xa1b79baec761, 0x1174b982e833f, 0x24e0d77b79a0d, 0x47372bd137d72, 0xbd9098e4916f, 0x2ae2e6c280d68, 0x569ab6bdec767, 0x6eb14f61a266b], [0x468847fdde1a1, 0x7e47ffac321c1, 0x99e09961d0c8, 0x7f115deae525d, 0x694f77ef9636e, 0x40f8dde23159d, 0x6680e30aef9bb, 0x6b528cef988be, 0x518be82d6063b, 0x22b8c074b2105], [0x3a4c05b585761, 0x3528539a1dad4, 0x540826053f31f, 0x3ba075642b0c7, 0x368d07de9484a, 0xb3d3e8d9ba85e, 0x7550f9a53dd73, 0x41a194358cc9, 0x4f9f0386a50a1, 0x41d37dcfba507]⟩,
   ⟨[0x24ff20ed85567, 0x26acb40b58156, 0x2c9398f6dd650, 0x30160273b8447, 0x2e3773b782b9f, 0x7030f6938a06b, 0x4e62a1384f897, 0x225c672a35300, 0x5c1f66cad5b3a, 0x5832b4574c046], [0x6b08e0399855f, 0xe9671a6388f9, 0x6596fb4577230, 0x41255210f89bd, 0x58f5e2e72b2d8, 0x3dea57df34241, 0x21714f7980b29, 0x33241dda8b0e5, 0x502e01b9ef7be, 0x27166556f5433], [0x2068f4390f72b, 0x37fc7dd50f35, 0x3d7105b085171, 0x3f4a9d00e2d1b, 0x36ba34f00adb8, 0xbaa7fd102d0df, 0x6d540c7ab1fe3, 0x6d399320cd3fb, 0x969ecdca36e, 0x736a5f44c73e5]⟩,
   ⟨[0xa1ea8102bf7ea, 0x76681d903fe4e, 0x16827a8f7e29f, 0x41d34c09df5c, 0x3c9643e4ae7f0, 0xaa849ba118fec, 0x4f8b809ba8fd8, 0xd32d898d1e18, 0x57af4934dcd86, 0x564f85c2cddad], [0xe180c6892618b, 0x6ff7240030636, 0x366cd397f1774, 0x5728bdc33187b, 0xb3266f640dce, 0x128b8a25d3f67, 0x7708ee6e8bf9f, 0x46a93620b4a05, 0x7290d084b52ec, 0x739810783526b], [0xcc39b5ffaf5d7, 0x3c6202da25104, 0x62cc8759bdede, 0x36d29f17389af, 0x12c6a9c28c6c5, 0x9dce18e457ffc, 0x4ecce05180b2b, 0x596accf512291, 0x62945daa66e26, 0x50ad4823f6cfd]⟩,
   ⟨[0xa8cc651b80948, 0x1e1750ac465be, 0x187c1c7a67ac8, 0x6f89ce139f631, 0x36828ee424f47, 0xf2d70ae145d31, 0x4b3577a19593f, 0x1b7ea66a3f33d, 0x77fc34430fb8c, 0x7f27e8d488429], [0xf6cc160a3c9de, 0x192cef1a784e0, 0x55b5c5aeec896, 0x6d5903202d1d5, 0x44ee2b9f57100, 0x85703712819ca, 0x50908533b6653, 0x3454ed72a02d5, 0x70ac25f6383e3, 0x48eb15cd43a55], [0xa62a87fde7680, 0x1af035ce0a44a, 0x7f2c92a8d048e, 0xcee23583e470, 0x3b703640d1f1, 0x98b27784da23e, 0x3a7c34610e147, 0x73d1abe50b09e, 0x2938ffa96cab7, 0x3e1959ef246d8]⟩,
   ⟨[0x1869bb1b94c69, 0x51734c75d4111, 0xe8a85605af9, 0x47660f7146e01, 0x26cb57d10b81e, 0x6dc6e8e61eabf, 0x40bdbdda25575, 0x621970f444fb0, 0x5a68915e84863, 0x3fc0413b2b9db], [0x57ba222699263, 0x7645ee7373008, 0x1a2f8038b610d, 0x677556f7c8c70, 0x4ce4e5d52adba, 0xcae8af894c9eb, 0x289d1174ca2e9, 0x32825a0b38ad1, 0x2d70424509a50, 0x588c224908678], [0xec8195559b033, 0x4928cc1fabc5c, 0x7e050de738a9e, 0x3e981a0a1ef6a, 0x1fe76c501153, 0xcb9239b643220, 0x6875d72093e18, 0x25ca8156c881b, 0x48360bd70da5f, 0x12c76b37e5c67]⟩,
   ⟨[0xcadff54c5fc61, 0x3100c3f2c3ec2, 0x72d1ea82213e6, 0x7f17aa56c2e31, 0x6cbe667300217, 0xa75c32ac1d00c, 0x900399b302fc, 0x66d6bdee4b606, 0x5efa0e987ce1, 0x2c879f735e948], [0x2780923ad1294, 0x50a7906f38719, 0x4d2ce3806bcdb, 0x6d8f87c7b1f2d, 0x5bc54f9f117e6, 0xafce58a3ceadc, 0x26b8f094b4fb, 0x511d8d0a6a1c0, 0x26046f65ca5ce, 0x7b31882ab5612], [0x19f342df704e3, 0x53617515314c8, 0x622a658fc7975, 0x6453b59e91ef8, 0x42bfdc9994a46, 0x238c1575d2af0, 0x29cd2dc2ae52f, 0x479332c429ad4, 0x428fda62faffa, 0x7d90c15c992ef]⟩,
   ⟨[0xe4a20ced7fd14, 0x4c97ea9e0328b, 0x6e9445684babf, 0x151806f26ed39, 0x1160c77905467, 0xc6609dea0fc1a, 0x2a722284ad939, 0x3adbe879dbc4, 0x15ac0555fd701, 0x1f94bebdb96d9], [0x4aaf2301f16d2, 0x7f51734abb20b, 0x42c8a35243b42, 0x1b3820b36100f, 0x115444f5c6caf, 0xf3926d4333445, 0x587a6557c80d0, 0x665447a091344, 0x3f84bd9ce1bca, 0x7200779a07d57], [0xc61b46e3949cf, 0xd8e735ed00b6, 0x48a5e9f98cea3, 0x24c0d94f3c634, 0x538d79b7a6393, 0x21002b287137d, 0x799366e30c2e8, 0x6b1af8463e70d, 0x48cde10cb3e51, 0x17412d6535f95]⟩,
   ⟨[0xbaa4ccfec442d, 0x5ddc1184e8ba8, 0x7d1f6a8b018ea, 0x769a32fd77a23, 0x2355fbfee11a4, 0xd2bb5d9500de9, 0x351d470c5ea4e, 0x4bdbfbb0e40e5, 0x1a757e0de9dfa, 0x5dd504bab40e2], [0xd79053ef41593, 0xc6229ee33d5e, 0x4c4a2e362ed5d, 0x6d21696b79d70, 0x530ed2df8e89f, 0x33e8ad160078d, 0x188bb911588cc, 0x1659b61a4c110, 0xac04e00e10dc, 0x7baafba1435ef], [0xf5fc78edb6ae0, 0x53d7865fb725a, 0x6ed24f885e307, 0x5ce843771ef4f, 0x58d6256c79cc2, 0x10c8cbb613de9, 0x4d23eba7c20f7, 0x4aab81d2bd1a4, 0x7eaa3aab8a668, 0x3973523884c90]⟩,
   ⟨[0xd315bcc6a4ebe, 0x23ae21c0d026d, 0x74cc51e26a4a7, 0x4eabbced74e32, 0x6b0e906f48456, 0x1fd94bdf2bc16, 0x2b3738b72ae1b, 0x6dda66fc3e72b, 0xa0bae6ce73f8, 0x649acf7a899f4], [0xb963804f8d424, 0x6f39a9330d7c7, 0x4a7b044bbf992, 0x3b6acee3101ae, 0x380fd2850fbda, 0xa7e356e4721cb, 0x6d74381bb53bd, 0x77c758e87a472, 0x34ed47b90a5c1, 0x541b8694a1d57], [0x213f762157eaf, 0x3ddfe58f8609f, 0x51db2894e81bd, 0x217b6b6443ed1, 0x3c3fd6874d805, 0x9d6ac77e5e651, 0x585c8d73cf003, 0x1177f582f8b0d, 0x6139f224e35c7, 0x6b22bb7192b0]⟩,
   ⟨[0x5c1f05010c834, 0x3113280a7c18b, 0x402b6dbfa220a, 0x46eabcf726fb6, 0x175b743915725, 0xe4ce9a3461ccf, 0x1c5e283a38ded, 0x4d6c8a05331e5, 0x6d2583bcb0a6f, 0x3aaa41153fcc0], [0xa352f702ddc40, 0x7d7130b63ab8c, 0x17012d62d24ca, 0x36d6618341280, 0x42cd7a92424ec, 0x4455d81496370, 0x2c71773a15e7b, 0x319726f43a64e, 0x61ba3963ee4e5, 0x6ea9ad805a571], [0x1c51e5b6ae1bb, 0x940e67bdf3d8, 0x4303ce5522a77, 0x7682d028a84c6, 0x54d741bede444, 0x49041a3e00485, 0x61d64b9e535c8, 0x26b36e1180c79, 0x37dc2fb4bbdce, 0x3e50bd67df773]⟩,
   ⟨[0x9a8e363b551fc, 0x3c8f4b97600b8, 0x2ac4d3f80805a, 0x7f634f89272c9, 0x5018aad3c2f10, 0x839f5851bc891, 0x51eb91313038c, 0x8705a06cccc9, 0x55961d9c37e66, 0x65992b370fb1a], [0x33c42b482130, 0x1ed0534d30b9, 0x3ccb1b89fefca, 0x27e1b2b1e8762, 0x1b4d9c8c9a94e, 0xb112ba6074641, 0x1600271d8dc7a, 0x3d379bcab026b, 0x23990289f9bd, 0x34cb0141402b9], [0xfc8b21e970f5a, 0x645d4dafea6ba, 0x4ab31a4584708, 0x42a82d72c4005, 0x18a07c94bff8f, 0xb940457d4526f, 0x2b84ef0e2c65c, 0x15ede587f066a, 0x7b339ea0568ad, 0xc15683b4ed21]⟩,
   ⟨[0xc2a3bc5e45c10, 0x19dd27f647208, 0x1cc4d0e9788d9, 0x239d5295abff1, 0x6a78f80338d3, 0xd38f708f1447e, 0x5402fecd5f832, 0x3152b770f7d0, 0x727f40cc0fe28, 0x201310eedab24], [0x3a811fb4de1fa, 0x3f2dc5b4e9fc4, 0x71a6f274f0fce, 0x767549b19f783, 0x25b2a9bf40b8c, 0x419cb0d40b471, 0x160fcd458e327, 0x1aed850052b97, 0x655ab35dede29, 0x502a05e2f8319], [0x338a047d08030, 0x50a7982bb722b, 0x383e0216f4b3f, 0x4c7a4ed9b9e89, 0x4e87685dc7649, 0x6d484c7ebb3e3, 0x6de1bc9fdc618, 0x5bd6d2bb413a0, 0x49bd7be1be65, 0x16c04faa43bb8]⟩,
   ⟨[0x4480cb2786d2, 0x16a7099089f43, 0x4937243cd80db, 0x12750e73a6278, 0x626538be283b6, 0x40fa0e5894e03, 0x6bf9036149b73, 0x340a6643f7198, 0xfdf9e90ae71f, 0x2026c7ab86ea7], [0xd16effdc6c167, 0x79987485acafe, 0x44ecaa2b81cb1, 0x12e547660b8e8, 0x7b1be4f5084d6, 0x35ecd495c1561, 0x19428f31961ad, 0x3a909af294bac, 0x2ebaa89c6db55, 0x74d7085dec609], [0x12ac41ad9e34a, 0x2cd879d1c83f1, 0x1db74b741fc14, 0x66da29e07a4ec, 0xd7e37fefc54, 0xa26b97a5598ea, 0x615c93236e843, 0x382bc16fb3b6f, 0x25e0626e0106e, 0x5854d6d92cc47]⟩,
   ⟨[0xb6da23dc37dd7, 0x627d60888f4d0, 0x182e4c16cc439, 0x190a2aeaad64f, 0x58a080ed83fef, 0xc475b09289638, 0xa2b7cf8481f, 0x2b5319e8bc29, 0x7ff5582b8b07, 0x71cff2b7d8a99], [0x799b83f3b4462, 0x74abe8cf43df5, 0x21c8fa0636722, 0x57366be84d1cc, 0x4cd7bd66a8d7, 0x71899b3473ba8, 0x747b62595049, 0x6097b2d1993a, 0x4cc30eda24173, 0x27116e4563311], [0x4c7419a1e733d, 0x541ad1c0eebf, 0x1bab59cf44e81, 0x56ea6aa62aa42, 0x88cbebb0e2e1, 0x4d93fa0bf3d38, 0x1f22c909ee410, 0x6b1e6cac473b, 0x19e125e7b6046, 0x1cfb3d7b37e4e]⟩,
   ⟨[0x48754583a8735, 0x7c03868e916a6, 0x7b4dcb70752b4, 0x4ec5fba952102, 0x30f2c4a828172, 0x23232f926f234, 0x7257074636c00, 0x7bba1745b61d3, 0x4606e90a58313, 0x7e22e07de154b], [0x6c2e97c0dbc05, 0x54debdd212630, 0x2c65f92437420, 0x24da821327edc, 0x580b8b7ad4e87, 0x1cf81fe5285e9, 0x6dd81d32634a6, 0x3338a292d42a1, 0x25e961008bc1, 0x36d9c01ba5ab9], [0xdc6d75f088499, 0xa65c50f7e24f, 0x45f9dc37deef4, 0x7a85a69654899, 0x4f6026ddf5b58, 0x13ef829317a2a, 0x21c7a10a33027, 0x556bf6ab7f742, 0x1388625c5da4a, 0x515466d6aba32]⟩],
  [⟨[0x6aedbd4096564, 0x4fa8b9bd472a8, 0x518e920fabd7c, 0x35641c8964a33, 0x3b7f827a7deb4, 0x87747322ce9b7, 0x65af64e2636, 0x7e118d796640b, 0x22a725f5cdaf8, 0x6482af75091e7], [0x4d5f5fbaf23d8, 0x18961af8ef02d, 0x4410974a5c748, 0x3671ca4c34023, 0x198d894ef5fdf, 0x45c045a1a5da1, 0x6a2e629f4dbd, 0x5ef0cf4fec9bd, 0x2e56472c2285e, 0x81f06dcb9dcb], [0xe80ffcadcc17a, 0x5936ed4b05e0, 0x5e5192bd5ae9e, 0x4daf3465c58cf, 0x6378bb4faf5a0, 0xcd0db0e0b2ab7, 0x59295d7556578, 0x17b233f34baa3, 0x2571548cafbe4, 0x5236d086b5d11]⟩,
   ⟨[0xc6c8a8feaf23e, 0x15b3eacb47609, 0x1c051945f47ae, 0x3bb72e86d1518, 0x2f0317989531d, 0x734207ad0f517, 0x363f8254ffc55, 0x16dc567d3f213, 0x4c688524fc6d3, 0x156e27f2c4e00], [0x94738ad2d4e84, 0x308aecd530fe4, 0x3502eb6f601ca, 0xa8df04c92c06, 0x50eb08481c052, 0xaa7eb925117d8, 0x49599e1644bcd, 0x5c13296c44839, 0x500de14878bfc, 0x71ad4469cf9e7], [0xe2fb921857436, 0x43a88af65dd1c, 0x7ae448925ad60, 0x665712480cf54, 0x2182c680974a7, 0xa0e7328765d70, 0x268df8bd38233, 0x6919944c2a877, 0x7783f5ca85f2d, 0x739f3727c396a]⟩,
   ⟨[0xe191f38d6e32d, 0x3d053dfefe14d, 0x6103bf922921f, 0x2781ab0853980, 0x4d1652db90908, 0x5e1f759009bdd, 0x19a45c89003a3, 0x6a14c19dca07a, 0x5d837a9c8f3a6, 0xde43e792e061], [0x58271d24fd29, 0x68bab21f6cee4, 0x4478711e724e4, 0x6cef29ce967cc, 0x4b50277d6d492, 0x4164fbc658ca4, 0x5af1234a44c70, 0x3bd47313b580f, 0x6bc5d3649d3ec, 0x7638acc404b36], [0x25caf5d092528, 0x15409edaaf2e8, 0x58cb7b8a5b798, 0x7ca6671cf0f3c, 0x52c52122b9340, 0xdb0c96e176fb1, 0x55085b46d6018, 0x2fdd65eb673c5, 0xb19a0b489654, 0x2a275a7e071d2]⟩,
   ⟨[0x1a067462a7a3f, 0x7caa8eae4e2d4, 0x4dfdfc8ae5719, 0x7f8f8369f764c, 0x2a33657d7196b, 0xace1f520dca38, 0x15fa3a1f57752, 0x1065ef98fa0b, 0x4f22d7351ad00, 0xb4988c661b8f], [0xc5fdc9df374e1, 0x33d547a4d226b, 0x2da94fe5ad02c, 0x5207148bdd3c7, 0x1521f51ff31a6, 0x48b1f8084ad9f, 0x169d55c98c3b6, 0x16716681d2998, 0x76d65c8585d2d, 0x503c6f5cc1008], [0xce3789e67601e, 0xf38b3450df49, 0x3e6488733b404, 0x128dc95e3f8db, 0x3405a39a11293, 0xe8e6112b3a418, 0x46b9a7ffce45b, 0x5d9582699f55f, 0x509de86896ee8, 0x253344bd2d25a]⟩,
   ⟨[0xa74347ce9d01b, 0x44ca58d3d8f8a, 0x50f0d0d68b95b, 0x66cfa1182777d, 0xb0c791214c7b, 0x2416f6ece0445, 0x49f613047a77f, 0x70690c94185c7, 0x6e6203dead6c4, 0x30b26f58b9536], [0xa58fa609d2e01, 0x678958763572f, 0x767549d4eb411, 0x7809d91fe5a98, 0x13335b8563f17, 0x9523c3394e0da, 0x48a10a1b96912, 0x742ba8c558752, 0x9b3582d1efd9, 0x16eaf2c3e1bd3], [0xe2dc67d5e5a88, 0x598cf6f4ef704, 0x11c238e331841, 0x2e1ca17ed944c, 0x7fea87e3db53d, 0xb99fcc76bb95, 0xbbf95f7e3ab4, 0x445911cbce6f1, 0x62c0aee9e79df, 0x1abb8605e684d]⟩,
   ⟨[0x3871499b1866e, 0x26e19448c89a9, 0x7b6cb1356919, 0x7b5efc7773779, 0x71541cd774f9c, 0xd81b8dc56f51, 0x590bbf413b605, 0x312f6fcc71713, 0x40195aca7265c, 0x26c0f46908f3b], [0xc3cfc3518ab54, 0x2c5ff27fa6953, 0x9c03c91fece0, 0x63e758c4a409f, 0x47ed48dd883af, 0xd3b409a02dcb3, 0x710e2a1d5cbe9, 0x7dc251ba3e052, 0x45e9a29900763, 0xa7c951a4128d], [0xb48959a040e34, 0x641fbfba37fee, 0x6d6d531398a6f, 0x5f4725764937e, 0xfb5e7d595af7, 0x2a0e33f31cd55, 0x171d3c6f621a1, 0x30886fc60a83c, 0x2375feaab3b40, 0x656142fe41fd8]⟩,
   ⟨[0x88d813f345513, 0x6b33ba57a93e0, 0x4c7985f7efb17, 0xad075424adba, 0x4e8f7946df6b2, 0xc112d1f980523, 0x49e755d0280a1, 0x2d0be2a1f153a, 0x3488c3095b641, 0x4db1e9a0cd854], [0x827e184a33715, 0x26fff534d1de2, 0x5b116ed309d3b, 0x40c8d9923f968, 0x254d6262f127d, 0xeb4c401a02b57, 0x7c1a5cd19481b, 0x4e994d22cb148, 0x2fd14d8e9a6ff, 0x3f3b0b506e8ef], [0xacbb2192d0d4, 0x5ad437c1137da, 0x194df8f4978fe, 0x569f428fcd681, 0x440ab84ebda2e, 0x71acb2b9b94, 0x36495a727e109, 0x2c7bbfbc4670c, 0x70df23a25f661, 0x28b24ae967ad8]⟩,
   ⟨[0xa0f56d26c19cd, 0x2199efe6c17cf, 0x234d29f1ca747, 0x74e7edac788c6, 0x56def769ec613, 0x6da5f9111d368, 0x75019ded7070f, 0x668904b9cc686, 0x7bd2278e98141, 0x74d7ce18b9d06], [0x1691ef1db7743, 0x5bdcb52513251, 0x880dfd58552f, 0x1d6b3ee69bd0a, 0xdf5a88773c38, 0xc094929962f60, 0x1978f58542d2f, 0x2477127820a19, 0x4f630dfe1ad37, 0x283387fc2588d], [0x73e4b175342b1, 0x1e2ea2f8817f8, 0xe36e592d89b9, 0x556985c76f3d1, 0x17586947f1b9f, 0x83894538720f0, 0x49c8320eb6627, 0x57fcf4e730a78, 0x2a4beefaa0b93, 0x294ece9a722e1]⟩,
   ⟨[0x672f6d1495031, 0x1bd8fdde53ef6, 0x2b91c714a2c13, 0x3042764c1be7a, 0x215c56a0ede6e, 0xf01712e36f0ab, 0x525eb2c91f5d9, 0x4a7bac5e8b947, 0x5183b56926cba, 0x7d3edaaac8e27], [0x282a6939e11c3, 0x66c4cbc6f5dbe, 0x5123c70144f68, 0x354705754070, 0x5be6b2b681a76, 0x54b5dd04806ff, 0x4ce73d1ea7c82, 0x692cc1053ab63, 0x535ae1b4f5f42, 0x60a6c280503d9], [0x5ccdad02c3e6b, 0x236aaf0c2208d, 0x2a1b3dc123ad5, 0x4808d9a85c7cb, 0x620b632d048de, 0xde4795b182dac, 0x6f740b4ddebb6, 0x527f4e1b71053, 0x3711de510b0c6, 0x4c2397bb75fd4]⟩,
   ⟨[0x4234da61a7380, 0x7cfe09c0e115b, 0x146042d1f85bf, 0x76ba304771d0e, 0x382e92d2ca568, 0xf852c7de31639, 0x2b6da101f3608, 0x2354cdeb32a3d, 0x6d1c3faba408e, 0x46a322ab41f71], [0x835486d6965d2, 0x5ddc060c09641, 0x6fe8f914611bf, 0x56cbaccee1d60, 0x29652751b4958, 0x30b1681fb22fd, 0x4c26183389f35, 0x64c5d6f3e855b, 0x48cc11faa68a2, 0x303df8c197245], [0xa93445489dd55, 0x32c10e5a00644, 0x10133787b6b48, 0x294af3ffbb10e, 0x67150840a8e54, 0x48b07f53aecd5, 0x2bdabd1e806b9, 0x77916bd0d716c, 0x7251eace82a30, 0x5bd06e6166102]⟩,
   ⟨[0x198dab8e7d26b, 0x4b8cd7b0f6214, 0x6f94feba66594, 0x6d655aae8e434, 0x33cbdda515a1d, 0xfd360d05067e0, 0x7d4b6026e8f95, 0x6fa60f441f382, 0x671f70f6e2fd4, 0x58b341c31c7cd], [0x3b6dab18c1f78, 0x360a07e0ce4b7, 0x37ba4f69cc30e, 0x14f6dd6939e3b, 0x71e66afea8a58, 0xf5276cce6483e, 0x3f604318a4007, 0x1ff31567fcf56, 0x7687cfe2e27ea, 0x43af6ad6807d2], [0x152cc8c204025, 0x32037f0153cd1, 0x1e8b1e05ec419, 0x1b7b6cef81375, 0x17e8291bdc455, 0x2e282133836f4, 0x1d9a6210e2d16, 0x799cee0857bea, 0x35d41a84a5412, 0x6ffbca27c28a6]⟩,
   ⟨[0x430814e96be9, 0x57e73fb140b73, 0x60128fab5ada4, 0x7c05121085a5a, 0x767dc265fe0e8, 0x25029fd3c2d6f, 0x4ef454786b123, 0x208d275e826ad, 0x6c327fb0c7286, 0x424e515341df4], [0x9bddc8231ab6b, 0x5ca9241f8e72f, 0x773a7e6fe081d, 0x24caa53134e52, 0x5ac81dcd4e91a, 0x62f6fb283e86a, 0x20e0d3d1ea811, 0x179b49545c71, 0x51ea7921edd08, 0x1106f03625eea], [0xf609ceb81873f, 0x19bfc53a07bb7, 0x2151a37fd339f, 0x247fab99463b, 0x28eb12503b657, 0x740156bca3c, 0x3050e54a17fc4, 0x6a21fe8be254, 0x783205cee4961, 0x5ddac46630bd0]⟩,
   ⟨[0xd0214026c8378, 0x49b9512e7c6ab, 0x52cab42c95449, 0x1712c0b2d3437, 0x28712113ee6e, 0x3c231b02fbaa4, 0x34002a05d7466, 0x47244849d6c0f, 0x7a777e770eed, 0x2fb5fbc1a501d], [0x7dd3f594fa92e, 0x11f65f7b4dc87, 0x6c8d5bc2a5cd3, 0x45434bca486d6, 0x916c2f835346, 0x284317ff11104, 0xfed4b690d85b, 0x4f7cd3c5275f4, 0x72fcbe2a0e31e, 0x6dce382a2d3fc], [0x10a836271a17b, 0x731e97701d7e1, 0x74424ad4971ce, 0x7f483b4d3226b, 0xb8d73cf87486, 0x3747546d2b06b, 0x6d6e9758543e8, 0x2311de6c16b96, 0xcbaf9cbd69a4, 0x95bad5dff17a]⟩,
   ⟨[0x774e982f03894, 0x68f7ba9bd2b4c, 0x1bf739059f5ee, 0x47ab5f6cf04ee, 0x3ac811a5ffef, 0x5c95473a71b06, 0x59b02d1c89d3a, 0x11350faac38cb, 0x2513847a831c2, 0x7fa7d3dc337c4], [0xe029a8789c756, 0x6c80112aa281c, 0x8852bec02592, 0x3fbf12b155c1a, 0x5e093259ad772, 0x9a44e24e7366e, 0x3bf1ca8cb8f83, 0x6e16f8c3a71fd, 0x1dbc1d6fdddc1, 0x5a28406d8b874], [0x52274d60c7fe9, 0x9ada801895bf, 0x22d4d6202774, 0x72d947ee0b5bd, 0x51a0feb7fda2c, 0x709284a66373b, 0x13fb44e784e2e, 0x43800043bc45b, 0x6debfa915c8fe, 0x184a44db57776]⟩,
   ⟨[0xc6e45435b0d8b, 0x7a4d96fc4c926, 0x4dd4ffb13a623, 0x2b97573d59ba4, 0x64d5dad519c4f, 0xc54e3e0322075, 0x25d680006d4fd, 0x26c6c103ce9e, 0x6a3c770ad980f, 0xaffa7978989], [0x1bbc06890396f, 0x59b7508be77a3, 0x2c2f34e1e88ef, 0xba76cc4b6dc3, 0x40cb93f2db890, 0x38db1eaf02ba4, 0x51a968fe1c009, 0x79e490fdf2f6e, 0x38810cc4881b6, 0x2f52348865870], [0xfbcbadf123f77, 0x5c24e5ce6f8c7, 0x57cbe94145d7b, 0x3d7a5f191dc9f, 0x580576de72db2, 0x3e11d99876cb6, 0x71d9921e18fa4, 0x2a74c8c214de9, 0x290e367e8106a, 0xa45e602e2a06]⟩,
   ⟨[0xc81708300b3a2, 0x2eb6dd40141c, 0x8ebfbad275a0, 0x9eb98abecc72, 0x1ea0cbbd24c18, 0x5c085867db19c, 0x78a2db60d1751, 0x32a43ebac70a1, 0x2c402b12da313, 0x4f4b89acdd13a], [0x4ac90a370fd35, 0x27d715223e22b, 0x564833f08968d, 0x6a965db0c2238, 0x4c25626c5cce9, 0xe894c118288f1, 0x4fdd61c59df2, 0x4f91479c26d34, 0x22fded1ede6bc, 0x53cc6f351dbd1], [0x41c1e5bf143db, 0x78318a8fc82ed, 0x73cb01f7a1760, 0x2bb276ee12092, 0x62b5d062f3983, 0x6c0699785ed64, 0x705c5b8750987, 0x734c5a5ebf1cc, 0x6b535cd5fca58, 0x173a96cf5e5c2]⟩],
  [⟨[0x13c7d530a0840, 0x37ca09024ba99, 0xf02a724d26d, 0x7486168f78df3, 0x57b6fbaf96b6f, 0x20e874d64e405, 0x1c5456bee2684, 0x700947727ae36, 0xaf081e60df35, 0x49f6d248190f3], [0xfacbf6a273b2e, 0xb50b6f61bb7f, 0x16ed02d72ccbd, 0x9999e37103a, 0x6dee9b338e1d0, 0x76c4153f5f8eb, 0x4fb473e4876b9, 0x35cb573505218, 0x40e4e17b314f1, 0x64fadd17fb3c8], [0x90b27a6a17533, 0x10db043fc3678, 0x5f8aab7da8edb, 0x5008b83d17311, 0x75bb4482f1426, 0xb1bcb5765dffa, 0x242dcc05593ad, 0x45c4be141a4d5, 0x6ebc978b8ca73, 0x4580e5da2151a]⟩,
   ⟨[0xb09415b635b74, 0x483e55c20ea00, 0x70dee5b80a6e0, 0x72fd4450bc01c, 0x7b300c6dcc536, 0x754d2bb66e63f, 0x1bf3c286f6a01, 0x25f645bb8410d, 0x298df23b3bfd7, 0x1774cb501031d], [0x271cb350c6048, 0x7dca7fd3bf959, 0xc41185459a7f, 0x4bb079006a71e, 0x1c3da681dc428, 0xe32a22d0bed67, 0x1cf9c74cc48d7, 0x754ed2fd148af, 0x6a6bf79732c29, 0x637ba0deb58f], [0xaeee5e5d5bf89, 0x1ba9622f598cd, 0x17e6c0ecf6116, 0x1b6169a7a5686, 0xc74f9dca999e, 0xbae9a5784b34d, 0x3f1dcc80821ef, 0x6a6297209394d, 0x27baecceb3db, 0x6fbf5a0739ff7]⟩,
   ⟨[0xadf4d9c8be4c7, 0x1f7c3f9b2df52, 0x54205b348462, 0x58a2b0587b556, 0x1031a5a79db2e, 0xcb7b60fc99b95, 0x25fc96a4bb5a5, 0x6c62b62f597a6, 0x9cbdcb2df127, 0x2acc07e9ced89], [0xed235fae524a, 0x3e231b9c1c59c, 0x5face3761829c, 0x417e0131c4b06, 0x703508be7fc97, 0x47ba8d9cc12e6, 0x40b532d99e9a0, 0x13850b64f1991, 0x5cdf168c10b39, 0x358abdf8e6b44], [0x42687c30120de, 0x6f4e854b5ac1d, 0x60d24d07c886, 0x6662bc5b4226e, 0xdd5e40422c53, 0x66ba1a186aea2, 0x3d5a9977141c7, 0x7210cb94d5a31, 0x575395147170, 0x3eef35d2347c4]⟩,
   ⟨[0x5fa6d194f912, 0x656a4617a17b0, 0x2b82def48f596, 0x483ae1abd8952, 0x4fea93c4aa27f, 0xa79830abcfa6b, 0x30c8ea10d6328, 0x150c9ab136c88, 0x9f66838d7eb3, 0x599aaecd736ac], [0x101ff4997777e, 0x6fe6da39f9ef7, 0x5dd2fd55d5b90, 0x1eba3bffa43e, 0x3937f9aeae09f, 0xb6e4eb341745b, 0x6a541793feb35, 0x4c99ba0510109, 0x3ecaa464451f9, 0x627cc2a28e33f], [0x6f5cf9eef8083, 0x3689b7af03c8c, 0x41c9c530f26ae, 0x6f1b087dfae9e, 0x5abb0337d1374, 0xf05aa9ce380b8, 0x39d858198471e, 0x5cb4a29d7fab0, 0x794534c8bbace, 0x39ceb7d5953e0]⟩,
   ⟨[0x614976baf39a3, 0x325765d4dad1b, 0x6ec2ef5a9dfa1, 0x4f0b8f0301a47, 0x31d97e564e18, 0x1c40ecb1a0617, 0xdea316ca6102, 0x232439090ee60, 0x2901913c8fb0f, 0x412ff556e2402], [0x64ce9bb2fe15e, 0x5e645c62b940a, 0x3113e7905c6ae, 0x2bbdf7fb2c955, 0xccf48175a91b, 0x38bc3e1e69073, 0x4538f90a325f, 0x46bf9a7d85906, 0x5d8aaa52e49ac, 0x6f70ceb9de4f0], [0x635fddeee55b1, 0x2b647305ec4d0, 0x785a1c6c0cc5b, 0xc28eeef42fdf, 0x70b6df3ce31f0, 0x75bb72fedb524, 0x44424339cd683, 0x724049e9861df, 0x606b0d0c1b71c, 0x72720dedaf767]⟩,
   ⟨[0xab553d62ecfb6, 0x78c8b49e2ee27, 0x712ab7130f07c, 0x7517ab87454c5, 0x7a2f222bfe5af, 0x9df9ac8ef8d1e, 0x70a0b9486719e, 0x5fe0a5cbb6815, 0x5a777cfbb6eac, 0x26aa3deb05ed1], [0x178e658cab163, 0x6218b72d4439d, 0x3e0e7508f98b6, 0x53a2e9c0fe780, 0x862c90f4ab94, 0x7d2a76495265c, 0x7d6ca0b086a9, 0x37e0ce123ae70, 0x5e35005198c60, 0x14db9be0c9bd4], [0x22ae27ae69a25, 0x6bc61b880b6b7, 0x2b9a770acb37c, 0x6a57a8181e7de, 0x515156749d33a, 0x89265c87573a, 0x2aab0ba4334fd, 0x36bfa753f183d, 0x7d94cdd21bbea, 0x73d056e77bad1]⟩,
   ⟨[0x54034d049a849, 0x7a61f3dcad52b, 0x6ae0359f441ac, 0x4fa71a2db1d12, 0x4a3ad2195fb05, 0xda575d0991f08, 0x4483a3f583d4a, 0x19e22ff97f896, 0x45ce17079eb6f, 0x3d843dc26f0b3], [0x5bb7830081f4a, 0x535b970a5deec, 0x6920157058ab1, 0x5abb6799cd9b0, 0x4e722e0be3e24, 0x34b265793f314, 0x721330570dc23, 0x4426ef0f5b164, 0x7d6f3a6cb44e7, 0x56e34a5b334a3], [0x3f8c7fda5799a, 0x633a1ab544629, 0x36c698257c6e1, 0x671cb37471c6e, 0x6309190ebe26a, 0x73e0d3c3c947, 0x75458f071d648, 0x304d50e4e6e2, 0x25b9fce5481c7, 0x560854658e1e6]⟩,
   ⟨[0xaf006973eae1e, 0x3ba1cb36833ed, 0x440038b6244fe, 0x1ed4d4b28e0bb, 0x4946559a45b7c, 0xd7ac175a120af, 0xc782441be688, 0x3fbe4f6759494, 0x3227fcd0861c6, 0x693e8e569df61], [0xef3d4d70d6006, 0x3622b91c969f3, 0x59e57b022c126, 0x4e567be39909d, 0x25826f5172ebe, 0x978fe696eb07d, 0x7e55ec2c54f03, 0x1f198f1ea9886, 0x61284786511bb, 0x54ebeea2e481c], [0xf0108988cdc8a, 0x6320933c6db8e, 0x69930cef56158, 0x3a35fc98f89a6, 0x27bd07b67aaa5, 0xa2124168772a7, 0x108cbfcb7f765, 0x190ea54b1ec2b, 0x427daad72bfd4, 0x73eb2d65c41ba]⟩,
   ⟨[0xa06a739424a7f, 0xf82babc20278, 0x5e0013c80b8ba, 0x9213e9c746a9, 0x77ccf7ee8dca2, 0x48553ce359952, 0x68d83c7bb1bfc, 0x23585472c1288, 0x683cf0d405e14, 0x4b248941e148a], [0xa7c88931485a3, 0x30d7d59f36392, 0x3096b037e2fe5, 0x72b76e5c87a57, 0x412333addb88d, 0x75009989c68f4, 0x5ee189974076a, 0x60ffafd8a128, 0x120acf08da33f, 0x571f558025bfd], [0xda9d04cd700e8, 0x57458c41b633d, 0x14b6489fa7b39, 0x3bd5c957593dd, 0x1304cb1d79cf1, 0x5e9baf878a8a2, 0x194c540c98a95, 0x3b7b2bacec32a, 0x4f344f8dd4cde, 0x78ef34bd78a1]⟩,
   ⟨[0xfc67e2383ef8f, 0x382b810e6f7bf, 0x6c9f24b27c13, 0x57d888d81661, 0x54a699a1b1d6b, 0x8ff73bb9232b4, 0x3804878333a2b, 0x44f051b58790e, 0x271d3aa9bd38, 0x44cde0eb6cf43], [0xd62b3c3a5a19, 0x141707504e91e, 0x6515c33000546, 0x17546c6b9ff00, 0x45d82e76e1b8b, 0xae172e2eb811b, 0x413704723e59f, 0x70b4ce13230e2, 0x54bf697ce5a, 0x63ecc547a49b9], [0x602372f14d11c, 0x378921b1097ed, 0x67c4238d607fa, 0x21d2c859309ee, 0x5847490a29e8e, 0x2d093948c4994, 0xe23389bfc4dd, 0x7de892ca061e2, 0x4bcea3495b247, 0x62f7532d3859d]⟩,
   ⟨[0x86b22df769d24, 0x247653b1384a5, 0x7ca7b0ba8b67b, 0x3de749e6f9b6, 0x60288e35e6723, 0x132375704332a, 0x90b7e04caad9, 0x618fe2cc615f8, 0x71c3fa82e1054, 0x5acca0095992f], [0x8070a5524110a, 0x2f514e36570a5, 0x7fa5ffdad9b18, 0x40716460997f2, 0x4a84076418d9b, 0x191d0e25444e5, 0x3f007a978d4fd, 0x10583b27ce828, 0x76188cfb16d13, 0x4ab4850c52869], [0xcb5bb8406e9fb, 0x6229079fe11a8, 0x69d10e2374f64, 0x3e0965719e097, 0x3d8e4f1d6e86e, 0xfea5863beba3d, 0x7d0430ef56c07, 0x181949dfd703d, 0x1339a965b35c2, 0x3b56220f5c7f3]⟩,
   ⟨[0x66dee74b6c3e6, 0x383135ae75c98, 0x4505f98dc1ace, 0x32c4bbddac89f, 0x52aa09f53d136, 0x4f3a390196005, 0x4a5fcac34f0e0, 0x1edc68c692d8b, 0x2fd9e6d8ee76f, 0x29fc1cca2c8f6], [0x65029bc02dce4, 0x72fd6589b1b83, 0x4147281085e5, 0x3b32d6a3356b3, 0x73f9780b33257, 0x3d884cd344161, 0x32f7d4ea15736, 0xf5fb646c3211, 0x710946f78ee11, 0x41450bebeafa8], [0x4b10d60b8a44b, 0x74df316ad0515, 0xbd0da3a0140, 0x2fa9736d69155, 0x4ae7cb062a37a, 0x3b28579544a9b, 0x30def5d17e4d9, 0x4fc0a27b77d73, 0x103d226b1e92e, 0x5050aa53e3d45]⟩,
   ⟨[0x4c96ee0523578, 0x2657e40ae1bea, 0x32f4a192d817a, 0x2963b113f0e7e, 0x5e7c716a6d2e3, 0x27ee6d4437f4b, 0x1151ea99b216a, 0x1183200c3345a, 0x4620822162719, 0x6ff98ac189c7f], [0x7835a38637315, 0x21dcf392da107, 0x32e572f2009a7, 0x551a3874139cb, 0x54ba83808ec95, 0xe3b367e07b1aa, 0x1c425c58af001, 0x7febed49d81ad, 0x5614216d95fd6, 0x7059956fb58d9], [0x9a088527332d8, 0x4ebff217d2f53, 0x68a2c41e7a6f9, 0x7203b80a56ada, 0x3ccf4a503f5b5, 0x9de73564aac98, 0x7c64a2d2d5b63, 0x66a514607f4f4, 0x4f7b23a1883ce, 0x478dba2254062]⟩,
   ⟨[0x891c63ec17278, 0x3a469ea7941a1, 0x6cc724614c2a6, 0x47368eac894d3, 0x332725d63a7fd, 0xe1b3a2b255a5d, 0x7de48a07b22ac, 0x1320fe5c7df2a, 0x7981ea9b5299f, 0x64e3a11075fbc], [0xf356d82b65e1d, 0x333902b0c3e91, 0x236ee56d2f8f6, 0x52d781547a66b, 0x71ecc2b2d45fd, 0x21d01072a8cfe, 0x14250e888f3a4, 0x41f6ccf6d58e7, 0x12f704916cd11, 0x1c16a5ba5deb5], [0x7176d4a4be8ed, 0x3ac14fe6cb1c7, 0x5bf2a9f3fdca4, 0x100a77e943894, 0x1a1b89f7eb96b, 0xac24527f9f6bc, 0x2afdc6a5cc161, 0x6c7233297dd8d, 0x1ef7e4b64538a, 0x64c28116f6d3d]⟩,
   ⟨[0xc28582d0eaf98, 0x760a4d8c62392, 0x2e99a28753318, 0x36b4dd38d7c84, 0x5ce1103fe9b19, 0xa5e7e678ec657, 0x1027fc495cc3, 0x53d5efe3f79a, 0x78707798b4856, 0x2bcb996dbb870], [0xde9be7a3b7d2f, 0x326f8d8093fcf, 0x6f4ca9ea85c42, 0x2da90d1d5efae, 0x453d210c50a00, 0xed30d7ae954a3, 0x667d3af1ff3bd, 0x610d4a9935ffa, 0x7996e35b2eee4, 0x5851fbf41b9d7], [0x1ccb597d775b8, 0x2e2d7080aca82, 0x26a27679ca594, 0x767cac5608b07, 0x7d3e1c929a8ee, 0x1c08248026b08, 0x66e49f4282b91, 0x43ec983912c70, 0x47be45e4d1d00, 0x5d6619498c3d3]⟩,
   ⟨[0xd75f87926e2ca, 0x4bce95d143c30, 0x7f9b22ab8d12a, 0x5764f5d0427ec, 0x53fc4aec382ec, 0xbefad0696c924, 0x5c1a42613e0f9, 0x6c63ea68e2641, 0x5ae918e206ee4, 0x201eb6276d205], [0x80526deb4f23a, 0x4a3e016c3560a, 0x48954f4dfe4e5, 0x33faeeca38ced, 0x1aabcf5f5b04d, 0x624845cac218d, 0x727d5924f0d61, 0x39a25a9a902b9, 0x25354b1923a74, 0x42d904b1ee6e2], [0x5ee12683d6873, 0x20c302fb23d53, 0x41183598e5e20, 0x660c4a3602d69, 0x428e3d7f7da6b, 0xffdab157ccece, 0x3abd7dacf40f1, 0x1f758b2026116, 0x59ca09f80a28e, 0x58050997a84c9]⟩],
  [⟨[0x12bc79de3583c, 0x21865086663fd, 0x4e4abb33032f, 0x79c1995d5f6ae, 0x6843dc92e6f2c, 0xe5aab95a25a94, 0x297e894cb3e2e, 0x2f3e8d3c6a333, 0x1389e783b3338, 0x4d35f4985f35a], [0x924729178d442, 0x72fef9ac231d7, 0x3255217e983f8, 0x78d1add8547ed, 0x7dd800a0126e4, 0x40f7454bb5636, 0x70028ed5fe73d, 0x2fe6922362d32, 0x517f433247dd5, 0x3131bdb6dbd80], [0x9b880561b3c2f, 0x528e3ff8e6eb8, 0x2b3f6e8a064aa, 0x306f6878089c4, 0x7dc267af352ea, 0xeb92414bd9e20, 0x3b288ad2e08de, 0x226d516c76aec, 0x40d85e3e81384, 0xd2240fb63716]⟩,
   ⟨[0x587deff3e2ca8, 0xade75f1c108a, 0x77c7746d2b81, 0x7f15aeee1a36c, 0x147d7174597be, 0xadf5550885ada, 0x5ac4d1e2642dc, 0x11b21a28d0ddd, 0x41407bd6eab82, 0x48a1c814ef854], [0xee63d584955ca, 0xdb6fc1d35a63, 0x7990e3e93cf7d, 0x6896872475c47, 0x2fe85fb8b4f95, 0x9a4386f393657, 0x6d05838fae08a, 0x3b7e6453e11c6, 0x4a2c032c2ce97, 0x3289cb5a153dd], [0x2bd6e9f70c80a, 0x231e61f2c2c8a, 0x2a043498e6b5b, 0x27ef36d2bd2c9, 0x792b9e0d4effa, 0xd609539828287, 0x2dd2c1ec6c7bb, 0x22b3bf91980de, 0x3c03da1e5a7d9, 0x84f0bee586b4]⟩,
   ⟨[0x712e11d32f6c1, 0x7699a1e2965d4, 0x6f53b52261f62, 0x10d991e106c19, 0x5e1f7a164c33c, 0x2d0c5f074beb5, 0x460f51489d3d8, 0x2e479eac4245a, 0x2053db40ca26b, 0x7428215abe9c], [0xb9a8a9f89a37f, 0x43fee2728e6a8, 0x3bad546c31f76, 0x2f4ca0d786241, 0x7291b2d3383a2, 0x6c364b58f7471, 0xe1166dd243cd, 0x3571addb675c5, 0x5ceb2284920a6, 0x3ce87a34c0993], [0xd7ac4bc491e76, 0x6933e79c065c0, 0x3962bb73b910d, 0x25407d7f52984, 0x587dbc6c6a8a0, 0x3ae437d302cf, 0x4a456dc9a70dc, 0x3580fd7730db6, 0x6bdb32465e50, 0x303101ef56592]⟩,
   ⟨[0xe210468ebf556, 0x1e3325c2e6ffc, 0x3eb88667f698c, 0x4c7309f19c344, 0x7b954d985c68, 0x112b5d338e899, 0x103ad36665f4c, 0x5c48c27f780b9, 0x6dfcd7ac7e7c2, 0x5fbab29982614], [0x50c0cb5724e2, 0x3f7ab514caa0f, 0x4f45065da591b, 0x629b4e99e7b9f, 0x7ff99b8004a8b, 0x13a7e073c783c, 0x5096ee21ead2d, 0x35ac55d5bc48a, 0x52d7ccddb8458, 0x26359b210ddc3], [0x10eb7f4f37055, 0x22c5837d27df8, 0x14dd44f017128, 0x762b8a81a083, 0x6343f4e6b1730, 0x6a070b31b593a, 0x35a4cb671b136, 0x34aa79f2e1c0d, 0x2b801d09af476, 0x4d55933c87ac6]⟩,
   ⟨[0xf5af20bfa216, 0x70ca3cc7423ea, 0x3bdcf09af2cf8, 0x70852c08e07c8, 0x2b67c67b7dc0d, 0x4747a18e7911a, 0x2ae9d138bec06, 0x29a908d7441b5, 0x1ca2c87ab2c68, 0x5d57e612ac9ca], [0xcb61ad6c38d3b, 0x98910bdaa430, 0x5a8f1058b45f9, 0x1378b35fe5270, 0x3b096f4b6729b, 0xb715d3132ec7f, 0xbf368d7a6e35, 0x3532d4aac8584, 0x7c03968d90fab, 0x3dd8235c48dcd], [0x865375c84bf5b, 0x6f89f501226ea, 0x3a9ba52948170, 0x5125268d062c9, 0x80351c14559d, 0x2d7f2832cc046, 0x72cd1ccbf4a78, 0x6c2a3fae0ea13, 0x66fcf5db7e22e, 0x7019e17361a4]⟩,
   ⟨[0xe48e34b29f673, 0x189aa11c7064c, 0x980567389db8, 0x140d89a2cb56f, 0x66bb6c0f4791d, 0x97f8e780b26f8, 0x69029d6b5b3ab, 0x1807a1948e6bc, 0x26e19f742fade, 0x85f04c0fc570], [0x8a43fbb459afb, 0x80263e72058c, 0x77c836cc06ea1, 0x1b50f235f0ea1, 0x22280d3bf0256, 0xb12f3375a9340, 0x56068c08f4dcc, 0x188b7fee30e53, 0x34956976a7e2b, 0x6f32b80c1218b], [0x2995c7d4906bd, 0x4c47098446e5d, 0x770566a516a0b, 0x1e7e3fba19859, 0x5f7f7eee25e7c, 0x56ab023b1e34b, 0x65c13925054d0, 0x3f1a384f6eb8d, 0xc7de81e37b03, 0x7ab8e723005d9]⟩,
   ⟨[0xd9677ac1784b4, 0x3b608c12c6e54, 0x3773dbaacf6b, 0x335230a701d3d, 0x164dd69069b24, 0x529717b200fbf, 0x20fa9213b9796, 0x57db2fafa5561, 0x2139fa8922fb6, 0x67569b0196555], [0x9839d81326e12, 0x7f6b8cd121226, 0x11ef52feb2e87, 0x499e40d596c14, 0x1e15d66fb1681, 0xcb2e1a771676b, 0x5b8802822c88b, 0x4ac4c2a3d2ce6, 0x736aeee38077f, 0x48e797f51a1f0], [0xf3ffc1b7e0e25, 0x741eced05d3c2, 0x2f761f2ee2fc5, 0x1899845146f7, 0x1f791e6351ad2, 0xd38697a0353d4, 0x5d13800614cc5, 0x72bf23ae1c7de, 0x2f2f0ce9eeec6, 0x4bcab345e5507]⟩,
   ⟨[0x447671491497e, 0xc80e0499549d, 0x7383b83ae8a43, 0x18d8798a60ae8, 0x5a7634049a61d, 0xcf3ba71a877fa, 0x38992c781814f, 0x4fa4f3f875472, 0x6b3be16d87909, 0x7fbf24b86f9cf], [0x5d7ed1152d458, 0x6a737d3ec8814, 0x3336316e14a78, 0x7540ca254140d, 0x110b2dc2c19d2, 0x3541aee4cd459, 0x6d62da4142812, 0x4d24768b69ef, 0x17feaa0883076, 0x28a34309d30b8], [0x82aea5aaa7679, 0x69f5ffc2299f9, 0x75584b5cbbae3, 0x7eb4016ff7e27, 0x77f9d62577d9f, 0x6dc60ebca06a0, 0x3c85f387e563b, 0x15f9c0c733fb2, 0x55561adbdc642, 0x14b6056050d92]⟩,
   ⟨[0xd1ddcb3d8676e, 0x29a0a308ddecf, 0x6a381ec144616, 0x1160ca0bfec27, 0x61482ef8b50e3, 0xef6f13cbb5fd6, 0x47895ba6c9bbe, 0x25ec3cc939cd7, 0xc55182568086, 0x28782aa420f85], [0x8812d8865eb1a, 0xa23a343939ab, 0x7911cb6565c2a, 0x542477b4639b9, 0x4025d314b3748, 0xf0fc98ff524b1, 0x6aa3ed50ec301, 0x67bea284ce141, 0x35fbe193baf03, 0x283f0131bfa47], [0x3691d5b656339, 0x10fa865ccf6eb, 0x39afc5408e69, 0x716574c1285d7, 0x229c93e34d31c, 0x9dcb9e5d6f976, 0x35deba296dc50, 0xae005b921892, 0x2c8a31cbe1965, 0xed87d30fca21]⟩,
   ⟨[0x9c6090b0db1a4, 0x34b5a129c41c7, 0x59562792d152d, 0xa11d7ce1d2f8, 0x66b6939748922, 0x2ad03a62c9001, 0x7bbaec39432f3, 0xf8a4915ff527, 0x7dbe1a2997f40, 0x439d5f39e64a8], [0x5c0d182e1af93, 0x153bbc2722775, 0x211b8b306ba69, 0x7d3a33c211b46, 0x5650d03f0188d, 0x3805179159f66, 0x5b80fdebbc150, 0x23b752b2cca19, 0x56569ddd4bb09, 0x630a1d0fe1331], [0xcc57a9bd01fd0, 0x1a61b9af718f, 0x3e7aefe584488, 0x2846b6bf5441, 0x32f196d04dd3, 0x5855f89a5b1e2, 0x34031211c8dc5, 0x14993dfd465a0, 0x1b4afbb37974e, 0x10725bf8acc79]⟩,
   ⟨[0x8533407fda6ae, 0x192f807908397, 0x6d0300b59435d, 0x3d01eb7b22034, 0x6afeef3f9cd09, 0xe5025b96af595, 0x6a4a6be18817b, 0x11d766d6d736b, 0x798906cad57f4, 0x5abb11a884308], [0x5141d4e3ff7b2, 0x7785d03c4c1d1, 0x2e4309aa4bedf, 0xd594ef832b4b, 0x79f60b7615e57, 0xaf439572259c7, 0x39e6726c1c742, 0x33efcc7442133, 0x1b48c7f680882, 0x2fbae97fb8296], [0x2d2c880f58dfd, 0x2e893d015f3d, 0x402a9ae8025ab, 0x616166212b68, 0x5d8a9efc3cca1, 0x7ec85775c4cd6, 0x48d0978840129, 0x2c54de6a58362, 0x6b650181206c2, 0x781263825c8b9]⟩,
   ⟨[0x37f4695fb8f38, 0x64899737ea849, 0x5ca9511a1c0c, 0x5b2332e230d2f, 0x5befb537af5c5, 0xe66edc4cc05a1, 0x1f243387eed8d, 0x60531af1b8294, 0x48207af7fb47e, 0x6467f4f208bc1], [0xed253e56ad0b4, 0x6fd900d9b4494, 0x771fdb0b28644, 0x6608e858b8864, 0x2410acfa4ecfd, 0x6bcbcb4c454f1, 0x4c982596786af, 0x7c7d414f13d62, 0x400a18a4312b8, 0x1c8ae8aac6e97], [0x39a273da14f76, 0x7a039fc51a14, 0x75ae649e4978d, 0x68bbf1108ed62, 0x1ac7cbc84a882, 0xf007cbf2633b8, 0x1a252213d53a3, 0x60026357e6823, 0x5559c92cd3aa6, 0x363afb26a540d]⟩,
   ⟨[0xc6d7ac27539ac, 0x4caf0243c7093, 0x6e0afe6d51b44, 0x2fd11233ba456, 0x2cf8d4fbec26a, 0x335e8b284bd21, 0x4e3b0c6669531, 0x268080a9578c0, 0x1a56306692ea, 0x1dc271c3acef7], [0x5d867cce652dc, 0x413ff399550dd, 0x4ae5eb4fd02dd, 0x52874ea4a9c83, 0x4e30a566cc4f0, 0x9ed469cd2fa26, 0x79eed35a8b65b, 0x64ff6af426d8, 0x13c73fca107ab, 0x6bcc1f527ae0b], [0xe8622b341115b, 0x5f8b755945b8a, 0x642734eb49580, 0x2466340ffffa, 0x3e1295e9db2ef, 0x914081a805fd4, 0x4a81cd7486d11, 0x5d93e4c17c491, 0x6919ba5ecc6b0, 0x448ff91161c16]⟩,
   ⟨[0x3d9dfabf694f0, 0x2ee322ab5b23, 0x7e35695039192, 0x16eb2f5322f0b, 0x7fcf7ba70f363, 0x7fbe02b2a3f5e, 0x16937e666bfe0, 0x63b8fca96f14a, 0x540136f4d10d5, 0x39d97115cad4a], [0xa782daea02c81, 0x2fd925ee99f06, 0x60f793f8913a6, 0x1e83a9cde3761, 0x1467fc5c751ca, 0x264902cf947e3, 0x6faa77e5a8be, 0x67f05ef979834, 0x5311603b55490, 0x74d079f64a01], [0x6d0d6bda6a83d, 0x2ddddee12d29, 0x5927c12a4b6b7, 0x71c3961f108df, 0x77b7833c53611, 0x2fde12520d971, 0x7cb6a7953e587, 0x4139054626fc8, 0x79eac5f05cf63, 0x1d021ba677a6]⟩,
   ⟨[0xcac0e21e72d01, 0x2aac8a7589e07, 0x7a7f89c925218, 0x5c69de570605b, 0x7c603800c1cec, 0x5cd221f6861f6, 0x225a7f4668d5e, 0x27c1f6ffb5628, 0x7a72b7eaeb5a8, 0xb10838b451b8], [0xce1fea6ae6f93, 0x19a7f14080e06, 0x2cf09eea75595, 0x6db5a156f82ec, 0x2fba8a7857009, 0x13f8b71b7b21d, 0x36bcbd874c4ce, 0x3a12d4d39a34d, 0x27ebc6e708cc4, 0x46b288961c679], [0x84942a3ffe4f7, 0x39331db0efdd2, 0x3bc5e8d64d32a, 0x2f14504f246a2, 0x5d0b970850bfe, 0xddbfd50853040, 0x53f2bb46e95d8, 0x6217469553610, 0x1aa60880f4c92, 0x1bb031c7cdcad]⟩,
   ⟨[0x43577337ed415, 0x1168cf60c5fcc, 0x4f7f95837b2d6, 0x56ba25d4f23a3, 0x5c14460b0f4e0, 0x2b00069045903, 0x4b0c5a39b1aa, 0x3fbb985d77fa8, 0x49239ee5946d9, 0x57387cd1049e9], [0xb952d15ee6357, 0x2db9a48c1b600, 0x2d0190d4adbba, 0x47f14e4566f50, 0x1f163d4e86e1d, 0xc92af729f469e, 0x7bd599cc0c16, 0x6bc2f08cae272, 0x47553865eb8cc, 0x1ce9f42f10932], [0xbce2da7f5610f, 0x3b36d325ee2a8, 0x726b58068ab44, 0x4a0f44270ed1f, 0x71571152ce6be, 0x565993b17157c, 0x39843697248a3, 0x51edad623656a, 0x4e89907281d95, 0x3514f571877c2]⟩],
  [⟨[0xd2a3121f83a1d, 0x2da330b022d82, 0x3b3eab80ffd8, 0x15d727ff11ea8, 0x645e52899fb8c, 0xc944bafe40831, 0x6efc60bcb700d, 0x49c8983d2f665, 0x1d4d70fcc0d3, 0x4d6ed234bfc0d], [0xb1c9f041d3f61, 0x5d2fde93ec1f5, 0x76737dc0f744c, 0x42230534666be, 0x3404e863515da, 0xc7436cce8b116, 0x5ea392999318, 0x7905e98068490, 0x10a805ad32fcc, 0x23b7ce895d07], [0x3effb814e2197, 0x852a305be11b, 0x48396dd06c432, 0x540d5c5935d99, 0x35aead67940be, 0x8ca943925f507, 0x6f245be658554, 0xb5e763a6e0c5, 0x2e795e93c44d8, 0x6cc4b88c475c6]⟩,
   ⟨[0xc200b8b331922, 0x4683e419f734, 0x2c7e001fcd0c0, 0x1479fd1fc8df1, 0x577647bf78e53, 0x3ac981a6cc35c, 0x2966643df7aff, 0x673621471efdc, 0x7bf256881f54f, 0x487f29b6db344], [0x85cdb9629c5f6, 0x604c1dbe92b8a, 0x3bbe72a278d3d, 0x767de37996d84, 0xdfe0b1187ee4, 0x4de0adc2458bc, 0x3cccc4c709e4, 0x45a74ffea1e3d, 0x15b4ee2b662a6, 0x181efb7ae8968], [0x9f028a704590f, 0x5f2ba1a40e68c, 0x1f65fec8d20c2, 0x20c79dafc49dd, 0x7eefcc164d9d7, 0xd456b93390094, 0x185eadf32b9d0, 0x4ed0525883825, 0x7b8a0aeb853ae, 0xd9511cb1b787]⟩,
   ⟨[0xcdf0db3694899, 0x23b940d7cf533, 0x6b84827681417, 0x6f9b4f46f0e96, 0x515da23e8ac6b, 0x95847795bb758, 0x3f4cca41b8228, 0x6186e4e9093ac, 0x77309478974b1, 0x5b4f6c6f8fefa], [0x1443f74773b5c, 0x63fff59fde6b6, 0x1f16f0b9eec52, 0x51fcdc5a3486, 0x3db748af8f2e5, 0xb5783c6dc2d30, 0x2dab21d8cc130, 0x5f25b88234552, 0x4ff796b7d456d, 0x6080eb1fc5c27], [0xa9aa635e4ef7d, 0x108ec067c691f, 0x4d22357bae6a, 0x337a3327bc99c, 0xa68f7badf67c, 0xac18f7dfa19b2, 0x5c678fbe8eb52, 0x1d8f2c4e8bb6e, 0xda44f24f2716, 0x30a3de2a3a421]⟩,
   ⟨[0xf5bcb25cf4fb5, 0x37f879fd958af, 0x1ad917c6de29f, 0x162ff07f36826, 0x67919212f631a, 0xbfd3793a355fb, 0x5755b1abed696, 0x144f83c26744a, 0x4bcad8857d421, 0x16302d4eadae5], [0x7e6c00e672c8d, 0x38de62f3282ed, 0x4b4d7588b4274, 0xde769dfd42de, 0x31736034810b0, 0x42d1d02cfde19, 0x3d5001378bc45, 0x63303c6fb6962, 0x33ff632b306cc, 0x7fcd2720cf3dd], [0xd3e05fe45941, 0x1ee7bcfc54ea8, 0x73bf8104fcccd, 0x6e128f079e6c4, 0x6fe2c64e04ed7, 0x7c13d9f8f4e55, 0x73aa7be299340, 0x65d2152375afe, 0x389eb4abe5495, 0x44a45040b455f]⟩,
   ⟨[0xa15b31548edef, 0x4be66e39bfe46, 0xa4f48f221de4, 0x3d1db970835ab, 0x31933e3de57cb, 0x978578feee453, 0x2c30f392dc6a7, 0xc948c85ae181, 0x200560ffd6366, 0x1230f26094a57], [0x71f959a90337c, 0x208552f478dc7, 0x5788ac4ebb26b, 0x2b9fbf27c3470, 0x4ff4c8b12365, 0x6d2bce6204d47, 0x1e8aaa0a8023e, 0x797c24fed76b7, 0x26173ef326e46, 0x6133fb5b5b999], [0x12bc7a048af37, 0xfd0301ec2e53, 0x2c070dd9cd038, 0x7f2efac327986, 0x26ce631fc9fef, 0x277f1e2bb1725, 0x10e40e88e18e3, 0x39310e1b26218, 0x3985e2f2fbfeb, 0x268dc44a02adf]⟩,
   ⟨[0xdea78eadaeec1, 0x3db0be77c03ed, 0x3edf67a38d25b, 0x5019b365a8a38, 0x5197bfb9ff59c, 0x83d36f0a5a16a, 0x5152e257ca37f, 0x6a2bee626daa6, 0x33ae983c20b72, 0x4d9b705eaad1c], [0x874e06d7b5c24, 0x64390163770b6, 0x5698af98ff650, 0x5b8ebb355d77a, 0xae7c70732c73, 0xe19d3d98fabdd, 0x79deda37da75d, 0x4b710b1674c5, 0x40619a55a5def, 0x779dcc6f44704], [0x504f35721defb, 0x4a3c0c7e7284a, 0x2eb38abd01fcb, 0x4ce3322295df1, 0x31db27f499399, 0x18aabc6e0c983, 0xaf5ef9b55762, 0x5322b53aaaaca, 0x7762a5164bc03, 0x7f960e2af4304]⟩,
   ⟨[0x4fe2209d880a9, 0x3b71ceb098483, 0x6f0a21f537c16, 0x2cf6eb8ff1658, 0x5494e50b58ca1, 0x4438ea9a0a3e8, 0x3e7417d2f3188, 0x6c48a60bd0440, 0x6ad71a29db30c, 0x1ac8e5a50d6aa], [0xc73b8887e050b, 0x3885d576cdad0, 0x4a689c810c4fb, 0x694592db886b1, 0x63944b776872e, 0xaa2f2a130e0fc, 0x8dd2c544ea7e, 0x210e4d0fc740d, 0x1e222c1caa921, 0x71e84db222363], [0x6f9367df1009d, 0x6cbc0a10d4fd2, 0x610447be01c43, 0xf58331ddcdd9, 0x41cddb6d56bdd, 0x11776cafbc4ac, 0x374788fa28eb8, 0xe99592b60098, 0x1448ff0c15c26, 0x6667044fc0ecf]⟩,
   ⟨[0x9f8c30043ea50, 0x112be297e6871, 0x2f61bc12d1b08, 0x22b45b0df4504, 0x4a8355fc774a3, 0x9f24537d203a0, 0xf00050e3a31c, 0x60d19d82588c3, 0x35a326b654f92, 0x69365e53b389a], [0x50a34f9bca230, 0x768f7a199c03d, 0x204c0aadfc49c, 0x25cac2599062c, 0x77f593dcc6037, 0xd311959eb3e67, 0x92b89479afdf, 0x5b67ad89c4f22, 0x3626eaed6b185, 0x67832ec55b3c6], [0xc1593cefcecc1, 0xa4a2957784f8, 0x26abbb5309788, 0x74f0f59146003, 0x387e735c3c669, 0x593e8e4deba0c, 0x2e24a801d3568, 0x5256747685bdb, 0x13566542c53e, 0x48e7e32cd1ad3]⟩,
   ⟨[0x7d4dba5c3cc2a, 0x5759b789aa3a3, 0x6f22e17510467, 0x40f3252f7511b, 0x528aef4908b9a, 0xb8eae9e5bcee1, 0x6942b0fecb4dd, 0x33e6a3d8bd112, 0x4cc49dd25e389, 0x445c577d06042], [0x7c40a37befd01, 0x730ca5186a539, 0x5c36b6edbb6b6, 0x4ce95b4da9cd6, 0x2e2ad0baecb4f, 0x9e94d245c6f84, 0x73894e220ebea, 0x1e10c1571b9c0, 0x2a750557b17a9, 0x2f468854de098], [0x6d012da4d1f3b, 0x65fa17aaa85d, 0x126d6ec4c4597, 0x62f36e6ede0c7, 0xb9419f244e94, 0x89b6aa6ea58bd, 0x67307208be7e2, 0x65fd90ed40d58, 0x2493ae4798b62, 0x5c947f9a199f6]⟩,
   ⟨[0xc9ca5529bdf08, 0x6474fd3a96c71, 0x32737e53c8c69, 0x7f1a1d1edae8c, 0x7e44ed2c4b89c, 0x39ac19f0c716a, 0x41f9f39f47ebf, 0x7591e503a89bc, 0x7e4b3b038ba83, 0x2d77047632306], [0xe44217d6e3b7f, 0x25c90b5976aee, 0x1f4ef248e8c6d, 0x6af1d1868f663, 0x38ac35e161de, 0x6647522c34933, 0x5fbbbb3c26a48, 0x226ea1bc6b125, 0x61ea27678e69, 0x7204a98e37606], [0x782e217103af0, 0x5f858671bd8fe, 0x4929b9196468a, 0x4ea71ee645dfd, 0x44aab314b679f, 0xb22073c603b6, 0x4b1c1d90f53b3, 0xf1b4fa3f48f3, 0x128359405a8d0, 0x7d5f6710b1af]⟩,
   ⟨[0x306dd32f8b559, 0x7c415e4d67e45, 0x56a49257a4333, 0x18f1224742086, 0x542b30dd86ddc, 0x1645f932983ef, 0x7213fc2770a7f, 0x5126f605b77f9, 0x41ceeb5b0de9e, 0x3c305d884ec37], [0x769826ecc1e95, 0x58df57466b622, 0x2788c60f1a684, 0x10c568f251da8, 0x75b0e37e05118, 0x165cb8643bf09, 0x6155f1c1aee2d, 0x6cf1b4ef316a8, 0x61e8f6b5fb5f, 0x893f44e63c16], [0xcdf32871df406, 0x78311bd087efe, 0x67873b3557364, 0x636be32d35e5a, 0x6195801d0d6bb, 0x2735b3b4eb70e, 0x363c1bd256df7, 0x4c37f9069c166, 0x706b70fc69919, 0x5402bc0a1784b]⟩,
   ⟨[0xc3c3a75895a83, 0x2af5e20173369, 0x16058bb908ba2, 0x6422cfbdcba5, 0x3532c8daa68d7, 0x1718b0498e976, 0x1037f828d1cb5, 0x4adfbac138e46, 0x264f5d9aa2dbf, 0x661862dcf83a4], [0xb4401a412de9c, 0x4c413e9a0630f, 0x1e24fc9e6e3f3, 0x77a8e0fd8d9c4, 0x1bc33a8ca2e97, 0x8030a67a41045, 0x39f744b6ecfd1, 0x72432ddcffe36, 0x7dd91d0bbe6d8, 0x78ab20170916], [0x498f6f8bd5a53, 0xd1c46916c0cf, 0x5f54960938342, 0x447aa84ab04d2, 0x724a5eb675b6e, 0xea0e318325878, 0x66b113c4aa80b, 0x253461b0bf6be, 0x4db77bc24c66a, 0x1ac7ede0a50f4]⟩,
   ⟨[0x44a5984167bc5, 0x3c2e2ef77d4c4, 0xb0e5f803c46e, 0x36c49b84af0a1, 0xc05a8c33c661, 0x96d04429de51d, 0x1cd77226def8b, 0x5af209a481396, 0x4dd604cdffc41, 0xde719b2b2635], [0x38429d5339495, 0x59b744e7203f8, 0x54083470e63f2, 0x20168d78f5f9f, 0x60b7bbd5eea39, 0x6c9580366396a, 0x47b4dabfd7116, 0x7cb92ce4eb12, 0x171cbbfff880b, 0x32aea49629d50], [0x2327365257623, 0x2901f27d0f318, 0x7eec27d093a11, 0xc431cc4582e3, 0x32fc5091ec7c3, 0x9f1205282c2b4, 0x6a99198ce7309, 0x181d401a1e0eb, 0xbfbae47e38f, 0x1b85974a394fd]⟩,
   ⟨[0x3d98bb92de0a, 0x12fc6bee98813, 0x3c727a73bb1db, 0x594a927d8cbf4, 0x2f609aa953dba, 0xbfb4cf73d47d7, 0x6f4ac381ae6b8, 0xd2b0c81b4efb, 0x5455f0c358d6d, 0xf023e512deee], [0x69bd7fc6e5cf7, 0x2d72f5a73331e, 0x30cab8a2d6416, 0x1594d14fa77f2, 0x631869d3d020d, 0x2e08ccbfd994, 0x46f03b754307b, 0x67146a1f6ed5b, 0xb02b94197421, 0x751016b4bd0bc], [0xe6efcc4ede7fe, 0x4add3198030a1, 0x47734a17278d8, 0xf92f45e7ce85, 0x3f6d367d00160, 0xe13dfe99432be, 0x187a2af6e1412, 0x6a191ceed3ace, 0x58147d849a2ba, 0x1bc9a9b916364]⟩,
   ⟨[0x199d348c776, 0x27b8b4cfed803, 0x5bf0ab8d43407, 0x7b10caf37ec50, 0x33b53f6c30777, 0xe87f6475537f5, 0x1d4a155abbcb, 0x3cb17a764ea6a, 0x13523ee4327e1, 0x753b39ecfeace], [0x42f46c4c2845f, 0x664a9551b6369, 0xc9cc8349a824, 0x574459d0ed534, 0x1a18730e01da7, 0x82ca89b83e7f8, 0x6aee1395800dc, 0x20195766f2d74, 0x27864ba955a16, 0x56478a31843ab], [0x3d3fe4f04ac87, 0x2e5e52e60efdd, 0x60730a36559c5, 0x6a427612ad123, 0x3a36f820d7fe6, 0x89ad1f5c273d7, 0x2d21c3309431d, 0x79250b4aead6f, 0x3f475a1168016, 0x92ad39e48d5d]⟩,
   ⟨[0xc1cb7eacbbe5f, 0x4783a6e7df912, 0x5830ae2e3ae77, 0x20aee82d43f9a, 0x1f837edbc8314, 0xa1d23c74da695, 0x5e6aeac19a780, 0x7852725690c30, 0x6807b0774f532, 0x4db69c9f9c33], [0xf824529d58522, 0x241e1a2206190, 0x7c5225bad2b57, 0x67f90115b53bf, 0x66bd04e108b4e, 0x33f9f0cc81b9c, 0x3c0a7a3ffbc22, 0x2670d5cc34121, 0x2cf6bbd4dbd78, 0x644ed07dfb2c5], [0x2a7acb34b8f5d, 0x48474bd048b62, 0x4d4c75ce04805, 0x1db57b655ba7f, 0x7755297fab4dc, 0xcbabd48415893, 0x6810fe1ca637e, 0xf699ddd6ac1f, 0x451c6eaba4ea0, 0x7e1db71ec0558]⟩]]

/-- `lut_cmb[j][k]`. -/
def lut_cmb (j k : Nat) : AffE (List Nat) := (lut_data.getD j []).getD k ⟨[], [], []⟩

end Gost.Ecp_tc26_512_paramSetC
