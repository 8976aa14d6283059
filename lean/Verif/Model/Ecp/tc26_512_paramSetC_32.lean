import Verif.Model.FiatField

/-!
# The functions, constants and table of `/repo/ecp_id_tc26_gost_3410_2012_512_paramSetC.c`

32 bit version of the file (`__SIZEOF_INT128__` is not defined).  Generated by `tools/mkfiat.py`, statement by statement;
see `Verif/Model/Fiat.lean` for the meaning.  All line numbers refer to this file.
-/

namespace Gost.Ecp_tc26_512_paramSetC_32

set_option maxRecDepth 100000

/-- `fiat_id_tc26_gost_3410_2012_512_paramSetC_carry_mul`, lines 5048-6767. -/
def carry_mul : CProg := ⟨[
  .set (.mul 64 (.c 0x239) (.mul 64 (.a 22) (.b 22))), .set (.mul 64 (.c 0x239) (.mul 64 (.a 22) (.b 21))),
  .set (.mul 64 (.c 0x239) (.mul 64 (.mul 64 (.a 22) (.b 20)) (.c 2))), .set (.mul 64 (.c 0x239) (.mul 64 (.a 22) (.b 19))),
  .set (.mul 64 (.c 0x239) (.mul 64 (.a 22) (.b 18))), .set (.mul 64 (.c 0x239) (.mul 64 (.a 22) (.b 17))),
  .set (.mul 64 (.c 0x239) (.mul 64 (.mul 64 (.a 22) (.b 16)) (.c 2))), .set (.mul 64 (.c 0x239) (.mul 64 (.a 22) (.b 15))),
  .set (.mul 64 (.c 0x239) (.mul 64 (.a 22) (.b 14))), .set (.mul 64 (.c 0x239) (.mul 64 (.a 22) (.b 13))),
  .set (.mul 64 (.c 0x239) (.mul 64 (.mul 64 (.a 22) (.b 12)) (.c 2))), .set (.mul 64 (.c 0x239) (.mul 64 (.a 22) (.b 11))),
  .set (.mul 64 (.c 0x239) (.mul 64 (.a 22) (.b 10))), .set (.mul 64 (.c 0x239) (.mul 64 (.a 22) (.b 9))),
  .set (.mul 64 (.c 0x239) (.mul 64 (.mul 64 (.a 22) (.b 8)) (.c 2))), .set (.mul 64 (.c 0x239) (.mul 64 (.a 22) (.b 7))),
  .set (.mul 64 (.c 0x239) (.mul 64 (.a 22) (.b 6))), .set (.mul 64 (.c 0x239) (.mul 64 (.a 22) (.b 5))),
  .set (.mul 64 (.c 0x239) (.mul 64 (.mul 64 (.a 22) (.b 4)) (.c 2))), .set (.mul 64 (.c 0x239) (.mul 64 (.a 22) (.b 3))),
  .set (.mul 64 (.c 0x239) (.mul 64 (.a 22) (.b 2))), .set (.mul 64 (.c 0x239) (.mul 64 (.mul 64 (.a 22) (.b 1)) (.c 2))),
  .set (.mul 64 (.c 0x239) (.mul 64 (.a 21) (.b 22))), .set (.mul 64 (.c 0x239) (.mul 64 (.mul 64 (.a 21) (.b 21)) (.c 2))),
  .set (.mul 64 (.c 0x239) (.mul 64 (.mul 64 (.a 21) (.b 20)) (.c 2))), .set (.mul 64 (.c 0x239) (.mul 64 (.a 21) (.b 19))),
  .set (.mul 64 (.c 0x239) (.mul 64 (.a 21) (.b 18))), .set (.mul 64 (.c 0x239) (.mul 64 (.mul 64 (.a 21) (.b 17)) (.c 2))),
  .set (.mul 64 (.c 0x239) (.mul 64 (.mul 64 (.a 21) (.b 16)) (.c 2))), .set (.mul 64 (.c 0x239) (.mul 64 (.a 21) (.b 15))),
  .set (.mul 64 (.c 0x239) (.mul 64 (.a 21) (.b 14))), .set (.mul 64 (.c 0x239) (.mul 64 (.mul 64 (.a 21) (.b 13)) (.c 2))),
  .set (.mul 64 (.c 0x239) (.mul 64 (.mul 64 (.a 21) (.b 12)) (.c 2))), .set (.mul 64 (.c 0x239) (.mul 64 (.a 21) (.b 11))),
  .set (.mul 64 (.c 0x239) (.mul 64 (.a 21) (.b 10))), .set (.mul 64 (.c 0x239) (.mul 64 (.mul 64 (.a 21) (.b 9)) (.c 2))),
  .set (.mul 64 (.c 0x239) (.mul 64 (.mul 64 (.a 21) (.b 8)) (.c 2))), .set (.mul 64 (.c 0x239) (.mul 64 (.a 21) (.b 7))),
  .set (.mul 64 (.c 0x239) (.mul 64 (.a 21) (.b 6))), .set (.mul 64 (.c 0x239) (.mul 64 (.mul 64 (.a 21) (.b 5)) (.c 2))),
  .set (.mul 64 (.c 0x239) (.mul 64 (.mul 64 (.a 21) (.b 4)) (.c 2))), .set (.mul 64 (.c 0x239) (.mul 64 (.a 21) (.b 3))),
  .set (.mul 64 (.c 0x239) (.mul 64 (.mul 64 (.a 21) (.b 2)) (.c 2))), .set (.mul 64 (.c 0x239) (.mul 64 (.mul 64 (.a 20) (.b 22)) (.c 2))),
  .set (.mul 64 (.c 0x239) (.mul 64 (.mul 64 (.a 20) (.b 21)) (.c 2))),
  .set (.mul 64 (.c 0x239) (.mul 64 (.mul 64 (.a 20) (.b 20)) (.c 2))), .set (.mul 64 (.c 0x239) (.mul 64 (.a 20) (.b 19))),
  .set (.mul 64 (.c 0x239) (.mul 64 (.mul 64 (.a 20) (.b 18)) (.c 2))),
  .set (.mul 64 (.c 0x239) (.mul 64 (.mul 64 (.a 20) (.b 17)) (.c 2))),
  .set (.mul 64 (.c 0x239) (.mul 64 (.mul 64 (.a 20) (.b 16)) (.c 2))), .set (.mul 64 (.c 0x239) (.mul 64 (.a 20) (.b 15))),
  .set (.mul 64 (.c 0x239) (.mul 64 (.mul 64 (.a 20) (.b 14)) (.c 2))),
  .set (.mul 64 (.c 0x239) (.mul 64 (.mul 64 (.a 20) (.b 13)) (.c 2))),
  .set (.mul 64 (.c 0x239) (.mul 64 (.mul 64 (.a 20) (.b 12)) (.c 2))), .set (.mul 64 (.c 0x239) (.mul 64 (.a 20) (.b 11))),
  .set (.mul 64 (.c 0x239) (.mul 64 (.mul 64 (.a 20) (.b 10)) (.c 2))), .set (.mul 64 (.c 0x239) (.mul 64 (.mul 64 (.a 20) (.b 9)) (.c 2))),
  .set (.mul 64 (.c 0x239) (.mul 64 (.mul 64 (.a 20) (.b 8)) (.c 2))), .set (.mul 64 (.c 0x239) (.mul 64 (.a 20) (.b 7))),
  .set (.mul 64 (.c 0x239) (.mul 64 (.mul 64 (.a 20) (.b 6)) (.c 2))), .set (.mul 64 (.c 0x239) (.mul 64 (.mul 64 (.a 20) (.b 5)) (.c 2))),
  .set (.mul 64 (.c 0x239) (.mul 64 (.mul 64 (.a 20) (.b 4)) (.c 2))), .set (.mul 64 (.c 0x239) (.mul 64 (.mul 64 (.a 20) (.b 3)) (.c 2))),
  .set (.mul 64 (.c 0x239) (.mul 64 (.a 19) (.b 22))), .set (.mul 64 (.c 0x239) (.mul 64 (.a 19) (.b 21))),
  .set (.mul 64 (.c 0x239) (.mul 64 (.a 19) (.b 20))), .set (.mul 64 (.c 0x239) (.mul 64 (.a 19) (.b 19))),
  .set (.mul 64 (.c 0x239) (.mul 64 (.a 19) (.b 18))), .set (.mul 64 (.c 0x239) (.mul 64 (.a 19) (.b 17))),
  .set (.mul 64 (.c 0x239) (.mul 64 (.a 19) (.b 16))), .set (.mul 64 (.c 0x239) (.mul 64 (.a 19) (.b 15))),
  .set (.mul 64 (.c 0x239) (.mul 64 (.a 19) (.b 14))), .set (.mul 64 (.c 0x239) (.mul 64 (.a 19) (.b 13))),
  .set (.mul 64 (.c 0x239) (.mul 64 (.a 19) (.b 12))), .set (.mul 64 (.c 0x239) (.mul 64 (.a 19) (.b 11))),
  .set (.mul 64 (.c 0x239) (.mul 64 (.a 19) (.b 10))), .set (.mul 64 (.c 0x239) (.mul 64 (.a 19) (.b 9))),
  .set (.mul 64 (.c 0x239) (.mul 64 (.a 19) (.b 8))), .set (.mul 64 (.c 0x239) (.mul 64 (.a 19) (.b 7))),
  .set (.mul 64 (.c 0x239) (.mul 64 (.a 19) (.b 6))), .set (.mul 64 (.c 0x239) (.mul 64 (.a 19) (.b 5))),
  .set (.mul 64 (.c 0x239) (.mul 64 (.mul 64 (.a 19) (.b 4)) (.c 2))), .set (.mul 64 (.c 0x239) (.mul 64 (.a 18) (.b 22))),
  .set (.mul 64 (.c 0x239) (.mul 64 (.a 18) (.b 21))), .set (.mul 64 (.c 0x239) (.mul 64 (.mul 64 (.a 18) (.b 20)) (.c 2))),
  .set (.mul 64 (.c 0x239) (.mul 64 (.a 18) (.b 19))), .set (.mul 64 (.c 0x239) (.mul 64 (.a 18) (.b 18))),
  .set (.mul 64 (.c 0x239) (.mul 64 (.a 18) (.b 17))), .set (.mul 64 (.c 0x239) (.mul 64 (.mul 64 (.a 18) (.b 16)) (.c 2))),
  .set (.mul 64 (.c 0x239) (.mul 64 (.a 18) (.b 15))), .set (.mul 64 (.c 0x239) (.mul 64 (.a 18) (.b 14))),
  .set (.mul 64 (.c 0x239) (.mul 64 (.a 18) (.b 13))), .set (.mul 64 (.c 0x239) (.mul 64 (.mul 64 (.a 18) (.b 12)) (.c 2))),
  .set (.mul 64 (.c 0x239) (.mul 64 (.a 18) (.b 11))), .set (.mul 64 (.c 0x239) (.mul 64 (.a 18) (.b 10))),
  .set (.mul 64 (.c 0x239) (.mul 64 (.a 18) (.b 9))), .set (.mul 64 (.c 0x239) (.mul 64 (.mul 64 (.a 18) (.b 8)) (.c 2))),
  .set (.mul 64 (.c 0x239) (.mul 64 (.a 18) (.b 7))), .set (.mul 64 (.c 0x239) (.mul 64 (.a 18) (.b 6))),
  .set (.mul 64 (.c 0x239) (.mul 64 (.mul 64 (.a 18) (.b 5)) (.c 2))), .set (.mul 64 (.c 0x239) (.mul 64 (.a 17) (.b 22))),
  .set (.mul 64 (.c 0x239) (.mul 64 (.mul 64 (.a 17) (.b 21)) (.c 2))),
  .set (.mul 64 (.c 0x239) (.mul 64 (.mul 64 (.a 17) (.b 20)) (.c 2))), .set (.mul 64 (.c 0x239) (.mul 64 (.a 17) (.b 19))),
  .set (.mul 64 (.c 0x239) (.mul 64 (.a 17) (.b 18))), .set (.mul 64 (.c 0x239) (.mul 64 (.mul 64 (.a 17) (.b 17)) (.c 2))),
  .set (.mul 64 (.c 0x239) (.mul 64 (.mul 64 (.a 17) (.b 16)) (.c 2))), .set (.mul 64 (.c 0x239) (.mul 64 (.a 17) (.b 15))),
  .set (.mul 64 (.c 0x239) (.mul 64 (.a 17) (.b 14))), .set (.mul 64 (.c 0x239) (.mul 64 (.mul 64 (.a 17) (.b 13)) (.c 2))),
  .set (.mul 64 (.c 0x239) (.mul 64 (.mul 64 (.a 17) (.b 12)) (.c 2))), .set (.mul 64 (.c 0x239) (.mul 64 (.a 17) (.b 11))),
  .set (.mul 64 (.c 0x239) (.mul 64 (.a 17) (.b 10))), .set (.mul 64 (.c 0x239) (.mul 64 (.mul 64 (.a 17) (.b 9)) (.c 2))),
  .set (.mul 64 (.c 0x239) (.mul 64 (.mul 64 (.a 17) (.b 8)) (.c 2))), .set (.mul 64 (.c 0x239) (.mul 64 (.a 17) (.b 7))),
  .set (.mul 64 (.c 0x239) (.mul 64 (.mul 64 (.a 17) (.b 6)) (.c 2))), .set (.mul 64 (.c 0x239) (.mul 64 (.mul 64 (.a 16) (.b 22)) (.c 2))),
  .set (.mul 64 (.c 0x239) (.mul 64 (.mul 64 (.a 16) (.b 21)) (.c 2))),
  .set (.mul 64 (.c 0x239) (.mul 64 (.mul 64 (.a 16) (.b 20)) (.c 2))), .set (.mul 64 (.c 0x239) (.mul 64 (.a 16) (.b 19))),
  .set (.mul 64 (.c 0x239) (.mul 64 (.mul 64 (.a 16) (.b 18)) (.c 2))),
  .set (.mul 64 (.c 0x239) (.mul 64 (.mul 64 (.a 16) (.b 17)) (.c 2))),
  .set (.mul 64 (.c 0x239) (.mul 64 (.mul 64 (.a 16) (.b 16)) (.c 2))), .set (.mul 64 (.c 0x239) (.mul 64 (.a 16) (.b 15))),
  .set (.mul 64 (.c 0x239) (.mul 64 (.mul 64 (.a 16) (.b 14)) (.c 2))),
  .set (.mul 64 (.c 0x239) (.mul 64 (.mul 64 (.a 16) (.b 13)) (.c 2))),
  .set (.mul 64 (.c 0x239) (.mul 64 (.mul 64 (.a 16) (.b 12)) (.c 2))), .set (.mul 64 (.c 0x239) (.mul 64 (.a 16) (.b 11))),
  .set (.mul 64 (.c 0x239) (.mul 64 (.mul 64 (.a 16) (.b 10)) (.c 2))), .set (.mul 64 (.c 0x239) (.mul 64 (.mul 64 (.a 16) (.b 9)) (.c 2))),
  .set (.mul 64 (.c 0x239) (.mul 64 (.mul 64 (.a 16) (.b 8)) (.c 2))), .set (.mul 64 (.c 0x239) (.mul 64 (.mul 64 (.a 16) (.b 7)) (.c 2))),
  .set (.mul 64 (.c 0x239) (.mul 64 (.a 15) (.b 22))), .set (.mul 64 (.c 0x239) (.mul 64 (.a 15) (.b 21))),
  .set (.mul 64 (.c 0x239) (.mul 64 (.a 15) (.b 20))), .set (.mul 64 (.c 0x239) (.mul 64 (.a 15) (.b 19))),
  .set (.mul 64 (.c 0x239) (.mul 64 (.a 15) (.b 18))), .set (.mul 64 (.c 0x239) (.mul 64 (.a 15) (.b 17))),
  .set (.mul 64 (.c 0x239) (.mul 64 (.a 15) (.b 16))), .set (.mul 64 (.c 0x239) (.mul 64 (.a 15) (.b 15))),
  .set (.mul 64 (.c 0x239) (.mul 64 (.a 15) (.b 14))), .set (.mul 64 (.c 0x239) (.mul 64 (.a 15) (.b 13))),
  .set (.mul 64 (.c 0x239) (.mul 64 (.a 15) (.b 12))), .set (.mul 64 (.c 0x239) (.mul 64 (.a 15) (.b 11))),
  .set (.mul 64 (.c 0x239) (.mul 64 (.a 15) (.b 10))), .set (.mul 64 (.c 0x239) (.mul 64 (.a 15) (.b 9))),
  .set (.mul 64 (.c 0x239) (.mul 64 (.mul 64 (.a 15) (.b 8)) (.c 2))), .set (.mul 64 (.c 0x239) (.mul 64 (.a 14) (.b 22))),
  .set (.mul 64 (.c 0x239) (.mul 64 (.a 14) (.b 21))), .set (.mul 64 (.c 0x239) (.mul 64 (.mul 64 (.a 14) (.b 20)) (.c 2))),
  .set (.mul 64 (.c 0x239) (.mul 64 (.a 14) (.b 19))), .set (.mul 64 (.c 0x239) (.mul 64 (.a 14) (.b 18))),
  .set (.mul 64 (.c 0x239) (.mul 64 (.a 14) (.b 17))), .set (.mul 64 (.c 0x239) (.mul 64 (.mul 64 (.a 14) (.b 16)) (.c 2))),
  .set (.mul 64 (.c 0x239) (.mul 64 (.a 14) (.b 15))), .set (.mul 64 (.c 0x239) (.mul 64 (.a 14) (.b 14))),
  .set (.mul 64 (.c 0x239) (.mul 64 (.a 14) (.b 13))), .set (.mul 64 (.c 0x239) (.mul 64 (.mul 64 (.a 14) (.b 12)) (.c 2))),
  .set (.mul 64 (.c 0x239) (.mul 64 (.a 14) (.b 11))), .set (.mul 64 (.c 0x239) (.mul 64 (.a 14) (.b 10))),
  .set (.mul 64 (.c 0x239) (.mul 64 (.mul 64 (.a 14) (.b 9)) (.c 2))), .set (.mul 64 (.c 0x239) (.mul 64 (.a 13) (.b 22))),
  .set (.mul 64 (.c 0x239) (.mul 64 (.mul 64 (.a 13) (.b 21)) (.c 2))),
  .set (.mul 64 (.c 0x239) (.mul 64 (.mul 64 (.a 13) (.b 20)) (.c 2))), .set (.mul 64 (.c 0x239) (.mul 64 (.a 13) (.b 19))),
  .set (.mul 64 (.c 0x239) (.mul 64 (.a 13) (.b 18))), .set (.mul 64 (.c 0x239) (.mul 64 (.mul 64 (.a 13) (.b 17)) (.c 2))),
  .set (.mul 64 (.c 0x239) (.mul 64 (.mul 64 (.a 13) (.b 16)) (.c 2))), .set (.mul 64 (.c 0x239) (.mul 64 (.a 13) (.b 15))),
  .set (.mul 64 (.c 0x239) (.mul 64 (.a 13) (.b 14))), .set (.mul 64 (.c 0x239) (.mul 64 (.mul 64 (.a 13) (.b 13)) (.c 2))),
  .set (.mul 64 (.c 0x239) (.mul 64 (.mul 64 (.a 13) (.b 12)) (.c 2))), .set (.mul 64 (.c 0x239) (.mul 64 (.a 13) (.b 11))),
  .set (.mul 64 (.c 0x239) (.mul 64 (.mul 64 (.a 13) (.b 10)) (.c 2))),
  .set (.mul 64 (.c 0x239) (.mul 64 (.mul 64 (.a 12) (.b 22)) (.c 2))),
  .set (.mul 64 (.c 0x239) (.mul 64 (.mul 64 (.a 12) (.b 21)) (.c 2))),
  .set (.mul 64 (.c 0x239) (.mul 64 (.mul 64 (.a 12) (.b 20)) (.c 2))), .set (.mul 64 (.c 0x239) (.mul 64 (.a 12) (.b 19))),
  .set (.mul 64 (.c 0x239) (.mul 64 (.mul 64 (.a 12) (.b 18)) (.c 2))),
  .set (.mul 64 (.c 0x239) (.mul 64 (.mul 64 (.a 12) (.b 17)) (.c 2))),
  .set (.mul 64 (.c 0x239) (.mul 64 (.mul 64 (.a 12) (.b 16)) (.c 2))), .set (.mul 64 (.c 0x239) (.mul 64 (.a 12) (.b 15))),
  .set (.mul 64 (.c 0x239) (.mul 64 (.mul 64 (.a 12) (.b 14)) (.c 2))),
  .set (.mul 64 (.c 0x239) (.mul 64 (.mul 64 (.a 12) (.b 13)) (.c 2))),
  .set (.mul 64 (.c 0x239) (.mul 64 (.mul 64 (.a 12) (.b 12)) (.c 2))),
  .set (.mul 64 (.c 0x239) (.mul 64 (.mul 64 (.a 12) (.b 11)) (.c 2))), .set (.mul 64 (.c 0x239) (.mul 64 (.a 11) (.b 22))),
  .set (.mul 64 (.c 0x239) (.mul 64 (.a 11) (.b 21))), .set (.mul 64 (.c 0x239) (.mul 64 (.a 11) (.b 20))),
  .set (.mul 64 (.c 0x239) (.mul 64 (.a 11) (.b 19))), .set (.mul 64 (.c 0x239) (.mul 64 (.a 11) (.b 18))),
  .set (.mul 64 (.c 0x239) (.mul 64 (.a 11) (.b 17))), .set (.mul 64 (.c 0x239) (.mul 64 (.a 11) (.b 16))),
  .set (.mul 64 (.c 0x239) (.mul 64 (.a 11) (.b 15))), .set (.mul 64 (.c 0x239) (.mul 64 (.a 11) (.b 14))),
  .set (.mul 64 (.c 0x239) (.mul 64 (.a 11) (.b 13))), .set (.mul 64 (.c 0x239) (.mul 64 (.mul 64 (.a 11) (.b 12)) (.c 2))),
  .set (.mul 64 (.c 0x239) (.mul 64 (.a 10) (.b 22))), .set (.mul 64 (.c 0x239) (.mul 64 (.a 10) (.b 21))),
  .set (.mul 64 (.c 0x239) (.mul 64 (.mul 64 (.a 10) (.b 20)) (.c 2))), .set (.mul 64 (.c 0x239) (.mul 64 (.a 10) (.b 19))),
  .set (.mul 64 (.c 0x239) (.mul 64 (.a 10) (.b 18))), .set (.mul 64 (.c 0x239) (.mul 64 (.a 10) (.b 17))),
  .set (.mul 64 (.c 0x239) (.mul 64 (.mul 64 (.a 10) (.b 16)) (.c 2))), .set (.mul 64 (.c 0x239) (.mul 64 (.a 10) (.b 15))),
  .set (.mul 64 (.c 0x239) (.mul 64 (.a 10) (.b 14))), .set (.mul 64 (.c 0x239) (.mul 64 (.mul 64 (.a 10) (.b 13)) (.c 2))),
  .set (.mul 64 (.c 0x239) (.mul 64 (.a 9) (.b 22))), .set (.mul 64 (.c 0x239) (.mul 64 (.mul 64 (.a 9) (.b 21)) (.c 2))),
  .set (.mul 64 (.c 0x239) (.mul 64 (.mul 64 (.a 9) (.b 20)) (.c 2))), .set (.mul 64 (.c 0x239) (.mul 64 (.a 9) (.b 19))),
  .set (.mul 64 (.c 0x239) (.mul 64 (.a 9) (.b 18))), .set (.mul 64 (.c 0x239) (.mul 64 (.mul 64 (.a 9) (.b 17)) (.c 2))),
  .set (.mul 64 (.c 0x239) (.mul 64 (.mul 64 (.a 9) (.b 16)) (.c 2))), .set (.mul 64 (.c 0x239) (.mul 64 (.a 9) (.b 15))),
  .set (.mul 64 (.c 0x239) (.mul 64 (.mul 64 (.a 9) (.b 14)) (.c 2))), .set (.mul 64 (.c 0x239) (.mul 64 (.mul 64 (.a 8) (.b 22)) (.c 2))),
  .set (.mul 64 (.c 0x239) (.mul 64 (.mul 64 (.a 8) (.b 21)) (.c 2))), .set (.mul 64 (.c 0x239) (.mul 64 (.mul 64 (.a 8) (.b 20)) (.c 2))),
  .set (.mul 64 (.c 0x239) (.mul 64 (.a 8) (.b 19))), .set (.mul 64 (.c 0x239) (.mul 64 (.mul 64 (.a 8) (.b 18)) (.c 2))),
  .set (.mul 64 (.c 0x239) (.mul 64 (.mul 64 (.a 8) (.b 17)) (.c 2))), .set (.mul 64 (.c 0x239) (.mul 64 (.mul 64 (.a 8) (.b 16)) (.c 2))),
  .set (.mul 64 (.c 0x239) (.mul 64 (.mul 64 (.a 8) (.b 15)) (.c 2))), .set (.mul 64 (.c 0x239) (.mul 64 (.a 7) (.b 22))),
  .set (.mul 64 (.c 0x239) (.mul 64 (.a 7) (.b 21))), .set (.mul 64 (.c 0x239) (.mul 64 (.a 7) (.b 20))),
  .set (.mul 64 (.c 0x239) (.mul 64 (.a 7) (.b 19))), .set (.mul 64 (.c 0x239) (.mul 64 (.a 7) (.b 18))),
  .set (.mul 64 (.c 0x239) (.mul 64 (.a 7) (.b 17))), .set (.mul 64 (.c 0x239) (.mul 64 (.mul 64 (.a 7) (.b 16)) (.c 2))),
  .set (.mul 64 (.c 0x239) (.mul 64 (.a 6) (.b 22))), .set (.mul 64 (.c 0x239) (.mul 64 (.a 6) (.b 21))),
  .set (.mul 64 (.c 0x239) (.mul 64 (.mul 64 (.a 6) (.b 20)) (.c 2))), .set (.mul 64 (.c 0x239) (.mul 64 (.a 6) (.b 19))),
  .set (.mul 64 (.c 0x239) (.mul 64 (.a 6) (.b 18))), .set (.mul 64 (.c 0x239) (.mul 64 (.mul 64 (.a 6) (.b 17)) (.c 2))),
  .set (.mul 64 (.c 0x239) (.mul 64 (.a 5) (.b 22))), .set (.mul 64 (.c 0x239) (.mul 64 (.mul 64 (.a 5) (.b 21)) (.c 2))),
  .set (.mul 64 (.c 0x239) (.mul 64 (.mul 64 (.a 5) (.b 20)) (.c 2))), .set (.mul 64 (.c 0x239) (.mul 64 (.a 5) (.b 19))),
  .set (.mul 64 (.c 0x239) (.mul 64 (.mul 64 (.a 5) (.b 18)) (.c 2))), .set (.mul 64 (.c 0x239) (.mul 64 (.mul 64 (.a 4) (.b 22)) (.c 2))),
  .set (.mul 64 (.c 0x239) (.mul 64 (.mul 64 (.a 4) (.b 21)) (.c 2))), .set (.mul 64 (.c 0x239) (.mul 64 (.mul 64 (.a 4) (.b 20)) (.c 2))),
  .set (.mul 64 (.c 0x239) (.mul 64 (.mul 64 (.a 4) (.b 19)) (.c 2))), .set (.mul 64 (.c 0x239) (.mul 64 (.a 3) (.b 22))),
  .set (.mul 64 (.c 0x239) (.mul 64 (.a 3) (.b 21))), .set (.mul 64 (.c 0x239) (.mul 64 (.mul 64 (.a 3) (.b 20)) (.c 2))),
  .set (.mul 64 (.c 0x239) (.mul 64 (.a 2) (.b 22))), .set (.mul 64 (.c 0x239) (.mul 64 (.mul 64 (.a 2) (.b 21)) (.c 2))),
  .set (.mul 64 (.c 0x239) (.mul 64 (.mul 64 (.a 1) (.b 22)) (.c 2))), .set (.mul 64 (.a 22) (.b 0)),
  .set (.mul 64 (.a 21) (.mul 32 (.b 1) (.c 2))), .set (.mul 64 (.a 21) (.b 0)), .set (.mul 64 (.a 20) (.mul 32 (.b 2) (.c 2))),
  .set (.mul 64 (.a 20) (.mul 32 (.b 1) (.c 2))), .set (.mul 64 (.a 20) (.b 0)), .set (.mul 64 (.a 19) (.b 3)),
  .set (.mul 64 (.a 19) (.b 2)), .set (.mul 64 (.a 19) (.b 1)), .set (.mul 64 (.a 19) (.b 0)),
  .set (.mul 64 (.a 18) (.mul 32 (.b 4) (.c 2))), .set (.mul 64 (.a 18) (.b 3)), .set (.mul 64 (.a 18) (.b 2)),
  .set (.mul 64 (.a 18) (.mul 32 (.b 1) (.c 2))), .set (.mul 64 (.a 18) (.b 0)), .set (.mul 64 (.a 17) (.mul 32 (.b 5) (.c 2))),
  .set (.mul 64 (.a 17) (.mul 32 (.b 4) (.c 2))), .set (.mul 64 (.a 17) (.b 3)), .set (.mul 64 (.a 17) (.mul 32 (.b 2) (.c 2))),
  .set (.mul 64 (.a 17) (.mul 32 (.b 1) (.c 2))), .set (.mul 64 (.a 17) (.b 0)), .set (.mul 64 (.a 16) (.mul 32 (.b 6) (.c 2))),
  .set (.mul 64 (.a 16) (.mul 32 (.b 5) (.c 2))), .set (.mul 64 (.a 16) (.mul 32 (.b 4) (.c 2))),
  .set (.mul 64 (.a 16) (.mul 32 (.b 3) (.c 2))), .set (.mul 64 (.a 16) (.mul 32 (.b 2) (.c 2))),
  .set (.mul 64 (.a 16) (.mul 32 (.b 1) (.c 2))), .set (.mul 64 (.a 16) (.b 0)), .set (.mul 64 (.a 15) (.b 7)),
  .set (.mul 64 (.a 15) (.b 6)), .set (.mul 64 (.a 15) (.b 5)), .set (.mul 64 (.a 15) (.mul 32 (.b 4) (.c 2))),
  .set (.mul 64 (.a 15) (.b 3)), .set (.mul 64 (.a 15) (.b 2)), .set (.mul 64 (.a 15) (.b 1)), .set (.mul 64 (.a 15) (.b 0)),
  .set (.mul 64 (.a 14) (.mul 32 (.b 8) (.c 2))), .set (.mul 64 (.a 14) (.b 7)), .set (.mul 64 (.a 14) (.b 6)),
  .set (.mul 64 (.a 14) (.mul 32 (.b 5) (.c 2))), .set (.mul 64 (.a 14) (.mul 32 (.b 4) (.c 2))), .set (.mul 64 (.a 14) (.b 3)),
  .set (.mul 64 (.a 14) (.b 2)), .set (.mul 64 (.a 14) (.mul 32 (.b 1) (.c 2))), .set (.mul 64 (.a 14) (.b 0)),
  .set (.mul 64 (.a 13) (.mul 32 (.b 9) (.c 2))), .set (.mul 64 (.a 13) (.mul 32 (.b 8) (.c 2))), .set (.mul 64 (.a 13) (.b 7)),
  .set (.mul 64 (.a 13) (.mul 32 (.b 6) (.c 2))), .set (.mul 64 (.a 13) (.mul 32 (.b 5) (.c 2))),
  .set (.mul 64 (.a 13) (.mul 32 (.b 4) (.c 2))), .set (.mul 64 (.a 13) (.b 3)), .set (.mul 64 (.a 13) (.mul 32 (.b 2) (.c 2))),
  .set (.mul 64 (.a 13) (.mul 32 (.b 1) (.c 2))), .set (.mul 64 (.a 13) (.b 0)), .set (.mul 64 (.a 12) (.mul 32 (.b 10) (.c 2))),
  .set (.mul 64 (.a 12) (.mul 32 (.b 9) (.c 2))), .set (.mul 64 (.a 12) (.mul 32 (.b 8) (.c 2))),
  .set (.mul 64 (.a 12) (.mul 32 (.b 7) (.c 2))), .set (.mul 64 (.a 12) (.mul 32 (.b 6) (.c 2))),
  .set (.mul 64 (.a 12) (.mul 32 (.b 5) (.c 2))), .set (.mul 64 (.a 12) (.mul 32 (.b 4) (.c 2))),
  .set (.mul 64 (.a 12) (.mul 32 (.b 3) (.c 2))), .set (.mul 64 (.a 12) (.mul 32 (.b 2) (.c 2))),
  .set (.mul 64 (.a 12) (.mul 32 (.b 1) (.c 2))), .set (.mul 64 (.a 12) (.b 0)), .set (.mul 64 (.a 11) (.b 11)),
  .set (.mul 64 (.a 11) (.b 10)), .set (.mul 64 (.a 11) (.b 9)), .set (.mul 64 (.a 11) (.mul 32 (.b 8) (.c 2))),
  .set (.mul 64 (.a 11) (.b 7)), .set (.mul 64 (.a 11) (.b 6)), .set (.mul 64 (.a 11) (.b 5)),
  .set (.mul 64 (.a 11) (.mul 32 (.b 4) (.c 2))), .set (.mul 64 (.a 11) (.b 3)), .set (.mul 64 (.a 11) (.b 2)),
  .set (.mul 64 (.a 11) (.b 1)), .set (.mul 64 (.a 11) (.b 0)), .set (.mul 64 (.a 10) (.mul 32 (.b 12) (.c 2))),
  .set (.mul 64 (.a 10) (.b 11)), .set (.mul 64 (.a 10) (.b 10)), .set (.mul 64 (.a 10) (.mul 32 (.b 9) (.c 2))),
  .set (.mul 64 (.a 10) (.mul 32 (.b 8) (.c 2))), .set (.mul 64 (.a 10) (.b 7)), .set (.mul 64 (.a 10) (.b 6)),
  .set (.mul 64 (.a 10) (.mul 32 (.b 5) (.c 2))), .set (.mul 64 (.a 10) (.mul 32 (.b 4) (.c 2))), .set (.mul 64 (.a 10) (.b 3)),
  .set (.mul 64 (.a 10) (.b 2)), .set (.mul 64 (.a 10) (.mul 32 (.b 1) (.c 2))), .set (.mul 64 (.a 10) (.b 0)),
  .set (.mul 64 (.a 9) (.mul 32 (.b 13) (.c 2))), .set (.mul 64 (.a 9) (.mul 32 (.b 12) (.c 2))), .set (.mul 64 (.a 9) (.b 11)),
  .set (.mul 64 (.a 9) (.mul 32 (.b 10) (.c 2))), .set (.mul 64 (.a 9) (.mul 32 (.b 9) (.c 2))),
  .set (.mul 64 (.a 9) (.mul 32 (.b 8) (.c 2))), .set (.mul 64 (.a 9) (.b 7)), .set (.mul 64 (.a 9) (.mul 32 (.b 6) (.c 2))),
  .set (.mul 64 (.a 9) (.mul 32 (.b 5) (.c 2))), .set (.mul 64 (.a 9) (.mul 32 (.b 4) (.c 2))), .set (.mul 64 (.a 9) (.b 3)),
  .set (.mul 64 (.a 9) (.mul 32 (.b 2) (.c 2))), .set (.mul 64 (.a 9) (.mul 32 (.b 1) (.c 2))), .set (.mul 64 (.a 9) (.b 0)),
  .set (.mul 64 (.a 8) (.mul 32 (.b 14) (.c 2))), .set (.mul 64 (.a 8) (.mul 32 (.b 13) (.c 2))),
  .set (.mul 64 (.a 8) (.mul 32 (.b 12) (.c 2))), .set (.mul 64 (.a 8) (.mul 32 (.b 11) (.c 2))),
  .set (.mul 64 (.a 8) (.mul 32 (.b 10) (.c 2))), .set (.mul 64 (.a 8) (.mul 32 (.b 9) (.c 2))),
  .set (.mul 64 (.a 8) (.mul 32 (.b 8) (.c 2))), .set (.mul 64 (.a 8) (.mul 32 (.b 7) (.c 2))),
  .set (.mul 64 (.a 8) (.mul 32 (.b 6) (.c 2))), .set (.mul 64 (.a 8) (.mul 32 (.b 5) (.c 2))),
  .set (.mul 64 (.a 8) (.mul 32 (.b 4) (.c 2))), .set (.mul 64 (.a 8) (.mul 32 (.b 3) (.c 2))),
  .set (.mul 64 (.a 8) (.mul 32 (.b 2) (.c 2))), .set (.mul 64 (.a 8) (.mul 32 (.b 1) (.c 2))), .set (.mul 64 (.a 8) (.b 0)),
  .set (.mul 64 (.a 7) (.b 15)), .set (.mul 64 (.a 7) (.b 14)), .set (.mul 64 (.a 7) (.b 13)),
  .set (.mul 64 (.a 7) (.mul 32 (.b 12) (.c 2))), .set (.mul 64 (.a 7) (.b 11)), .set (.mul 64 (.a 7) (.b 10)),
  .set (.mul 64 (.a 7) (.b 9)), .set (.mul 64 (.a 7) (.mul 32 (.b 8) (.c 2))), .set (.mul 64 (.a 7) (.b 7)), .set (.mul 64 (.a 7) (.b 6)),
  .set (.mul 64 (.a 7) (.b 5)), .set (.mul 64 (.a 7) (.mul 32 (.b 4) (.c 2))), .set (.mul 64 (.a 7) (.b 3)), .set (.mul 64 (.a 7) (.b 2)),
  .set (.mul 64 (.a 7) (.b 1)), .set (.mul 64 (.a 7) (.b 0)), .set (.mul 64 (.a 6) (.mul 32 (.b 16) (.c 2))), .set (.mul 64 (.a 6) (.b 15)),
  .set (.mul 64 (.a 6) (.b 14)), .set (.mul 64 (.a 6) (.mul 32 (.b 13) (.c 2))), .set (.mul 64 (.a 6) (.mul 32 (.b 12) (.c 2))),
  .set (.mul 64 (.a 6) (.b 11)), .set (.mul 64 (.a 6) (.b 10)), .set (.mul 64 (.a 6) (.mul 32 (.b 9) (.c 2))),
  .set (.mul 64 (.a 6) (.mul 32 (.b 8) (.c 2))), .set (.mul 64 (.a 6) (.b 7)), .set (.mul 64 (.a 6) (.b 6)),
  .set (.mul 64 (.a 6) (.mul 32 (.b 5) (.c 2))), .set (.mul 64 (.a 6) (.mul 32 (.b 4) (.c 2))), .set (.mul 64 (.a 6) (.b 3)),
  .set (.mul 64 (.a 6) (.b 2)), .set (.mul 64 (.a 6) (.mul 32 (.b 1) (.c 2))), .set (.mul 64 (.a 6) (.b 0)),
  .set (.mul 64 (.a 5) (.mul 32 (.b 17) (.c 2))), .set (.mul 64 (.a 5) (.mul 32 (.b 16) (.c 2))), .set (.mul 64 (.a 5) (.b 15)),
  .set (.mul 64 (.a 5) (.mul 32 (.b 14) (.c 2))), .set (.mul 64 (.a 5) (.mul 32 (.b 13) (.c 2))),
  .set (.mul 64 (.a 5) (.mul 32 (.b 12) (.c 2))), .set (.mul 64 (.a 5) (.b 11)), .set (.mul 64 (.a 5) (.mul 32 (.b 10) (.c 2))),
  .set (.mul 64 (.a 5) (.mul 32 (.b 9) (.c 2))), .set (.mul 64 (.a 5) (.mul 32 (.b 8) (.c 2))), .set (.mul 64 (.a 5) (.b 7)),
  .set (.mul 64 (.a 5) (.mul 32 (.b 6) (.c 2))), .set (.mul 64 (.a 5) (.mul 32 (.b 5) (.c 2))),
  .set (.mul 64 (.a 5) (.mul 32 (.b 4) (.c 2))), .set (.mul 64 (.a 5) (.b 3)), .set (.mul 64 (.a 5) (.mul 32 (.b 2) (.c 2))),
  .set (.mul 64 (.a 5) (.mul 32 (.b 1) (.c 2))), .set (.mul 64 (.a 5) (.b 0)), .set (.mul 64 (.a 4) (.mul 32 (.b 18) (.c 2))),
  .set (.mul 64 (.a 4) (.mul 32 (.b 17) (.c 2))), .set (.mul 64 (.a 4) (.mul 32 (.b 16) (.c 2))),
  .set (.mul 64 (.a 4) (.mul 32 (.b 15) (.c 2))), .set (.mul 64 (.a 4) (.mul 32 (.b 14) (.c 2))),
  .set (.mul 64 (.a 4) (.mul 32 (.b 13) (.c 2))), .set (.mul 64 (.a 4) (.mul 32 (.b 12) (.c 2))),
  .set (.mul 64 (.a 4) (.mul 32 (.b 11) (.c 2))), .set (.mul 64 (.a 4) (.mul 32 (.b 10) (.c 2))),
  .set (.mul 64 (.a 4) (.mul 32 (.b 9) (.c 2))), .set (.mul 64 (.a 4) (.mul 32 (.b 8) (.c 2))),
  .set (.mul 64 (.a 4) (.mul 32 (.b 7) (.c 2))), .set (.mul 64 (.a 4) (.mul 32 (.b 6) (.c 2))),
  .set (.mul 64 (.a 4) (.mul 32 (.b 5) (.c 2))), .set (.mul 64 (.a 4) (.mul 32 (.b 4) (.c 2))),
  .set (.mul 64 (.a 4) (.mul 32 (.b 3) (.c 2))), .set (.mul 64 (.a 4) (.mul 32 (.b 2) (.c 2))),
  .set (.mul 64 (.a 4) (.mul 32 (.b 1) (.c 2))), .set (.mul 64 (.a 4) (.b 0)), .set (.mul 64 (.a 3) (.b 19)), .set (.mul 64 (.a 3) (.b 18)),
  .set (.mul 64 (.a 3) (.b 17)), .set (.mul 64 (.a 3) (.mul 32 (.b 16) (.c 2))), .set (.mul 64 (.a 3) (.b 15)),
  .set (.mul 64 (.a 3) (.b 14)), .set (.mul 64 (.a 3) (.b 13)), .set (.mul 64 (.a 3) (.mul 32 (.b 12) (.c 2))),
  .set (.mul 64 (.a 3) (.b 11)), .set (.mul 64 (.a 3) (.b 10)), .set (.mul 64 (.a 3) (.b 9)), .set (.mul 64 (.a 3) (.mul 32 (.b 8) (.c 2))),
  .set (.mul 64 (.a 3) (.b 7)), .set (.mul 64 (.a 3) (.b 6)), .set (.mul 64 (.a 3) (.b 5)), .set (.mul 64 (.a 3) (.mul 32 (.b 4) (.c 2))),
  .set (.mul 64 (.a 3) (.b 3)), .set (.mul 64 (.a 3) (.b 2)), .set (.mul 64 (.a 3) (.b 1)), .set (.mul 64 (.a 3) (.b 0)),
  .set (.mul 64 (.a 2) (.mul 32 (.b 20) (.c 2))), .set (.mul 64 (.a 2) (.b 19)), .set (.mul 64 (.a 2) (.b 18)),
  .set (.mul 64 (.a 2) (.mul 32 (.b 17) (.c 2))), .set (.mul 64 (.a 2) (.mul 32 (.b 16) (.c 2))), .set (.mul 64 (.a 2) (.b 15)),
  .set (.mul 64 (.a 2) (.b 14)), .set (.mul 64 (.a 2) (.mul 32 (.b 13) (.c 2))), .set (.mul 64 (.a 2) (.mul 32 (.b 12) (.c 2))),
  .set (.mul 64 (.a 2) (.b 11)), .set (.mul 64 (.a 2) (.b 10)), .set (.mul 64 (.a 2) (.mul 32 (.b 9) (.c 2))),
  .set (.mul 64 (.a 2) (.mul 32 (.b 8) (.c 2))), .set (.mul 64 (.a 2) (.b 7)), .set (.mul 64 (.a 2) (.b 6)),
  .set (.mul 64 (.a 2) (.mul 32 (.b 5) (.c 2))), .set (.mul 64 (.a 2) (.mul 32 (.b 4) (.c 2))), .set (.mul 64 (.a 2) (.b 3)),
  .set (.mul 64 (.a 2) (.b 2)), .set (.mul 64 (.a 2) (.mul 32 (.b 1) (.c 2))), .set (.mul 64 (.a 2) (.b 0)),
  .set (.mul 64 (.a 1) (.mul 32 (.b 21) (.c 2))), .set (.mul 64 (.a 1) (.mul 32 (.b 20) (.c 2))), .set (.mul 64 (.a 1) (.b 19)),
  .set (.mul 64 (.a 1) (.mul 32 (.b 18) (.c 2))), .set (.mul 64 (.a 1) (.mul 32 (.b 17) (.c 2))),
  .set (.mul 64 (.a 1) (.mul 32 (.b 16) (.c 2))), .set (.mul 64 (.a 1) (.b 15)), .set (.mul 64 (.a 1) (.mul 32 (.b 14) (.c 2))),
  .set (.mul 64 (.a 1) (.mul 32 (.b 13) (.c 2))), .set (.mul 64 (.a 1) (.mul 32 (.b 12) (.c 2))), .set (.mul 64 (.a 1) (.b 11)),
  .set (.mul 64 (.a 1) (.mul 32 (.b 10) (.c 2))), .set (.mul 64 (.a 1) (.mul 32 (.b 9) (.c 2))),
  .set (.mul 64 (.a 1) (.mul 32 (.b 8) (.c 2))), .set (.mul 64 (.a 1) (.b 7)), .set (.mul 64 (.a 1) (.mul 32 (.b 6) (.c 2))),
  .set (.mul 64 (.a 1) (.mul 32 (.b 5) (.c 2))), .set (.mul 64 (.a 1) (.mul 32 (.b 4) (.c 2))), .set (.mul 64 (.a 1) (.b 3)),
  .set (.mul 64 (.a 1) (.mul 32 (.b 2) (.c 2))), .set (.mul 64 (.a 1) (.mul 32 (.b 1) (.c 2))), .set (.mul 64 (.a 1) (.b 0)),
  .set (.mul 64 (.a 0) (.b 22)), .set (.mul 64 (.a 0) (.b 21)), .set (.mul 64 (.a 0) (.b 20)), .set (.mul 64 (.a 0) (.b 19)),
  .set (.mul 64 (.a 0) (.b 18)), .set (.mul 64 (.a 0) (.b 17)), .set (.mul 64 (.a 0) (.b 16)), .set (.mul 64 (.a 0) (.b 15)),
  .set (.mul 64 (.a 0) (.b 14)), .set (.mul 64 (.a 0) (.b 13)), .set (.mul 64 (.a 0) (.b 12)), .set (.mul 64 (.a 0) (.b 11)),
  .set (.mul 64 (.a 0) (.b 10)), .set (.mul 64 (.a 0) (.b 9)), .set (.mul 64 (.a 0) (.b 8)), .set (.mul 64 (.a 0) (.b 7)),
  .set (.mul 64 (.a 0) (.b 6)), .set (.mul 64 (.a 0) (.b 5)), .set (.mul 64 (.a 0) (.b 4)), .set (.mul 64 (.a 0) (.b 3)),
  .set (.mul 64 (.a 0) (.b 2)), .set (.mul 64 (.a 0) (.b 1)), .set (.mul 64 (.a 0) (.b 0)),
  .set (.add 64 (.x 529) (.add 64 (.x 253) (.add 64 (.x 252) (.add 64 (.x 250) (.add 64 (.x 247) (.add 64 (.x 243) (.add 64 (.x 238) (.add 64 (.x 232) (.add 64 (.x 225) (.add 64 (.x 217) (.add 64 (.x 208) (.add 64 (.x 198) (.add 64 (.x 187) (.add 64 (.x 175) (.add 64 (.x 162) (.add 64 (.x 148) (.add 64 (.x 133) (.add 64 (.x 117) (.add 64 (.x 100) (.add 64 (.x 82) (.add 64 (.x 63) (.add 64 (.x 43) (.x 22))))))))))))))))))))))),
  .set (.shr (.x 530) 23), .set (.cast 32 (.and (.x 530) (.c 0x7fffff))),
  .set (.add 64 (.x 507) (.add 64 (.x 485) (.add 64 (.x 464) (.add 64 (.x 444) (.add 64 (.x 425) (.add 64 (.x 407) (.add 64 (.x 390) (.add 64 (.x 374) (.add 64 (.x 359) (.add 64 (.x 345) (.add 64 (.x 332) (.add 64 (.x 320) (.add 64 (.x 309) (.add 64 (.x 299) (.add 64 (.x 290) (.add 64 (.x 282) (.add 64 (.x 275) (.add 64 (.x 269) (.add 64 (.x 264) (.add 64 (.x 260) (.add 64 (.x 257) (.add 64 (.x 255) (.x 254))))))))))))))))))))))),
  .set (.add 64 (.x 508) (.add 64 (.x 486) (.add 64 (.x 465) (.add 64 (.x 445) (.add 64 (.x 426) (.add 64 (.x 408) (.add 64 (.x 391) (.add 64 (.x 375) (.add 64 (.x 360) (.add 64 (.x 346) (.add 64 (.x 333) (.add 64 (.x 321) (.add 64 (.x 310) (.add 64 (.x 300) (.add 64 (.x 291) (.add 64 (.x 283) (.add 64 (.x 276) (.add 64 (.x 270) (.add 64 (.x 265) (.add 64 (.x 261) (.add 64 (.x 258) (.add 64 (.x 256) (.x 1))))))))))))))))))))))),
  .set (.add 64 (.x 509) (.add 64 (.x 487) (.add 64 (.x 466) (.add 64 (.x 446) (.add 64 (.x 427) (.add 64 (.x 409) (.add 64 (.x 392) (.add 64 (.x 376) (.add 64 (.x 361) (.add 64 (.x 347) (.add 64 (.x 334) (.add 64 (.x 322) (.add 64 (.x 311) (.add 64 (.x 301) (.add 64 (.x 292) (.add 64 (.x 284) (.add 64 (.x 277) (.add 64 (.x 271) (.add 64 (.x 266) (.add 64 (.x 262) (.add 64 (.x 259) (.add 64 (.x 23) (.x 2))))))))))))))))))))))),
  .set (.add 64 (.x 510) (.add 64 (.x 488) (.add 64 (.x 467) (.add 64 (.x 447) (.add 64 (.x 428) (.add 64 (.x 410) (.add 64 (.x 393) (.add 64 (.x 377) (.add 64 (.x 362) (.add 64 (.x 348) (.add 64 (.x 335) (.add 64 (.x 323) (.add 64 (.x 312) (.add 64 (.x 302) (.add 64 (.x 293) (.add 64 (.x 285) (.add 64 (.x 278) (.add 64 (.x 272) (.add 64 (.x 267) (.add 64 (.x 263) (.add 64 (.x 44) (.add 64 (.x 24) (.x 3))))))))))))))))))))))),
  .set (.add 64 (.x 511) (.add 64 (.x 489) (.add 64 (.x 468) (.add 64 (.x 448) (.add 64 (.x 429) (.add 64 (.x 411) (.add 64 (.x 394) (.add 64 (.x 378) (.add 64 (.x 363) (.add 64 (.x 349) (.add 64 (.x 336) (.add 64 (.x 324) (.add 64 (.x 313) (.add 64 (.x 303) (.add 64 (.x 294) (.add 64 (.x 286) (.add 64 (.x 279) (.add 64 (.x 273) (.add 64 (.x 268) (.add 64 (.x 64) (.add 64 (.x 45) (.add 64 (.x 25) (.x 4))))))))))))))))))))))),
  .set (.add 64 (.x 512) (.add 64 (.x 490) (.add 64 (.x 469) (.add 64 (.x 449) (.add 64 (.x 430) (.add 64 (.x 412) (.add 64 (.x 395) (.add 64 (.x 379) (.add 64 (.x 364) (.add 64 (.x 350) (.add 64 (.x 337) (.add 64 (.x 325) (.add 64 (.x 314) (.add 64 (.x 304) (.add 64 (.x 295) (.add 64 (.x 287) (.add 64 (.x 280) (.add 64 (.x 274) (.add 64 (.x 83) (.add 64 (.x 65) (.add 64 (.x 46) (.add 64 (.x 26) (.x 5))))))))))))))))))))))),
  .set (.add 64 (.x 513) (.add 64 (.x 491) (.add 64 (.x 470) (.add 64 (.x 450) (.add 64 (.x 431) (.add 64 (.x 413) (.add 64 (.x 396) (.add 64 (.x 380) (.add 64 (.x 365) (.add 64 (.x 351) (.add 64 (.x 338) (.add 64 (.x 326) (.add 64 (.x 315) (.add 64 (.x 305) (.add 64 (.x 296) (.add 64 (.x 288) (.add 64 (.x 281) (.add 64 (.x 101) (.add 64 (.x 84) (.add 64 (.x 66) (.add 64 (.x 47) (.add 64 (.x 27) (.x 6))))))))))))))))))))))),
  .set (.add 64 (.x 514) (.add 64 (.x 492) (.add 64 (.x 471) (.add 64 (.x 451) (.add 64 (.x 432) (.add 64 (.x 414) (.add 64 (.x 397) (.add 64 (.x 381) (.add 64 (.x 366) (.add 64 (.x 352) (.add 64 (.x 339) (.add 64 (.x 327) (.add 64 (.x 316) (.add 64 (.x 306) (.add 64 (.x 297) (.add 64 (.x 289) (.add 64 (.x 118) (.add 64 (.x 102) (.add 64 (.x 85) (.add 64 (.x 67) (.add 64 (.x 48) (.add 64 (.x 28) (.x 7))))))))))))))))))))))),
  .set (.add 64 (.x 515) (.add 64 (.x 493) (.add 64 (.x 472) (.add 64 (.x 452) (.add 64 (.x 433) (.add 64 (.x 415) (.add 64 (.x 398) (.add 64 (.x 382) (.add 64 (.x 367) (.add 64 (.x 353) (.add 64 (.x 340) (.add 64 (.x 328) (.add 64 (.x 317) (.add 64 (.x 307) (.add 64 (.x 298) (.add 64 (.x 134) (.add 64 (.x 119) (.add 64 (.x 103) (.add 64 (.x 86) (.add 64 (.x 68) (.add 64 (.x 49) (.add 64 (.x 29) (.x 8))))))))))))))))))))))),
  .set (.add 64 (.x 516) (.add 64 (.x 494) (.add 64 (.x 473) (.add 64 (.x 453) (.add 64 (.x 434) (.add 64 (.x 416) (.add 64 (.x 399) (.add 64 (.x 383) (.add 64 (.x 368) (.add 64 (.x 354) (.add 64 (.x 341) (.add 64 (.x 329) (.add 64 (.x 318) (.add 64 (.x 308) (.add 64 (.x 149) (.add 64 (.x 135) (.add 64 (.x 120) (.add 64 (.x 104) (.add 64 (.x 87) (.add 64 (.x 69) (.add 64 (.x 50) (.add 64 (.x 30) (.x 9))))))))))))))))))))))),
  .set (.add 64 (.x 517) (.add 64 (.x 495) (.add 64 (.x 474) (.add 64 (.x 454) (.add 64 (.x 435) (.add 64 (.x 417) (.add 64 (.x 400) (.add 64 (.x 384) (.add 64 (.x 369) (.add 64 (.x 355) (.add 64 (.x 342) (.add 64 (.x 330) (.add 64 (.x 319) (.add 64 (.x 163) (.add 64 (.x 150) (.add 64 (.x 136) (.add 64 (.x 121) (.add 64 (.x 105) (.add 64 (.x 88) (.add 64 (.x 70) (.add 64 (.x 51) (.add 64 (.x 31) (.x 10))))))))))))))))))))))),
  .set (.add 64 (.x 518) (.add 64 (.x 496) (.add 64 (.x 475) (.add 64 (.x 455) (.add 64 (.x 436) (.add 64 (.x 418) (.add 64 (.x 401) (.add 64 (.x 385) (.add 64 (.x 370) (.add 64 (.x 356) (.add 64 (.x 343) (.add 64 (.x 331) (.add 64 (.x 176) (.add 64 (.x 164) (.add 64 (.x 151) (.add 64 (.x 137) (.add 64 (.x 122) (.add 64 (.x 106) (.add 64 (.x 89) (.add 64 (.x 71) (.add 64 (.x 52) (.add 64 (.x 32) (.x 11))))))))))))))))))))))),
  .set (.add 64 (.x 519) (.add 64 (.x 497) (.add 64 (.x 476) (.add 64 (.x 456) (.add 64 (.x 437) (.add 64 (.x 419) (.add 64 (.x 402) (.add 64 (.x 386) (.add 64 (.x 371) (.add 64 (.x 357) (.add 64 (.x 344) (.add 64 (.x 188) (.add 64 (.x 177) (.add 64 (.x 165) (.add 64 (.x 152) (.add 64 (.x 138) (.add 64 (.x 123) (.add 64 (.x 107) (.add 64 (.x 90) (.add 64 (.x 72) (.add 64 (.x 53) (.add 64 (.x 33) (.x 12))))))))))))))))))))))),
  .set (.add 64 (.x 520) (.add 64 (.x 498) (.add 64 (.x 477) (.add 64 (.x 457) (.add 64 (.x 438) (.add 64 (.x 420) (.add 64 (.x 403) (.add 64 (.x 387) (.add 64 (.x 372) (.add 64 (.x 358) (.add 64 (.x 199) (.add 64 (.x 189) (.add 64 (.x 178) (.add 64 (.x 166) (.add 64 (.x 153) (.add 64 (.x 139) (.add 64 (.x 124) (.add 64 (.x 108) (.add 64 (.x 91) (.add 64 (.x 73) (.add 64 (.x 54) (.add 64 (.x 34) (.x 13))))))))))))))))))))))),
  .set (.add 64 (.x 521) (.add 64 (.x 499) (.add 64 (.x 478) (.add 64 (.x 458) (.add 64 (.x 439) (.add 64 (.x 421) (.add 64 (.x 404) (.add 64 (.x 388) (.add 64 (.x 373) (.add 64 (.x 209) (.add 64 (.x 200) (.add 64 (.x 190) (.add 64 (.x 179) (.add 64 (.x 167) (.add 64 (.x 154) (.add 64 (.x 140) (.add 64 (.x 125) (.add 64 (.x 109) (.add 64 (.x 92) (.add 64 (.x 74) (.add 64 (.x 55) (.add 64 (.x 35) (.x 14))))))))))))))))))))))),
  .set (.add 64 (.x 522) (.add 64 (.x 500) (.add 64 (.x 479) (.add 64 (.x 459) (.add 64 (.x 440) (.add 64 (.x 422) (.add 64 (.x 405) (.add 64 (.x 389) (.add 64 (.x 218) (.add 64 (.x 210) (.add 64 (.x 201) (.add 64 (.x 191) (.add 64 (.x 180) (.add 64 (.x 168) (.add 64 (.x 155) (.add 64 (.x 141) (.add 64 (.x 126) (.add 64 (.x 110) (.add 64 (.x 93) (.add 64 (.x 75) (.add 64 (.x 56) (.add 64 (.x 36) (.x 15))))))))))))))))))))))),
  .set (.add 64 (.x 523) (.add 64 (.x 501) (.add 64 (.x 480) (.add 64 (.x 460) (.add 64 (.x 441) (.add 64 (.x 423) (.add 64 (.x 406) (.add 64 (.x 226) (.add 64 (.x 219) (.add 64 (.x 211) (.add 64 (.x 202) (.add 64 (.x 192) (.add 64 (.x 181) (.add 64 (.x 169) (.add 64 (.x 156) (.add 64 (.x 142) (.add 64 (.x 127) (.add 64 (.x 111) (.add 64 (.x 94) (.add 64 (.x 76) (.add 64 (.x 57) (.add 64 (.x 37) (.x 16))))))))))))))))))))))),
  .set (.add 64 (.x 524) (.add 64 (.x 502) (.add 64 (.x 481) (.add 64 (.x 461) (.add 64 (.x 442) (.add 64 (.x 424) (.add 64 (.x 233) (.add 64 (.x 227) (.add 64 (.x 220) (.add 64 (.x 212) (.add 64 (.x 203) (.add 64 (.x 193) (.add 64 (.x 182) (.add 64 (.x 170) (.add 64 (.x 157) (.add 64 (.x 143) (.add 64 (.x 128) (.add 64 (.x 112) (.add 64 (.x 95) (.add 64 (.x 77) (.add 64 (.x 58) (.add 64 (.x 38) (.x 17))))))))))))))))))))))),
  .set (.add 64 (.x 525) (.add 64 (.x 503) (.add 64 (.x 482) (.add 64 (.x 462) (.add 64 (.x 443) (.add 64 (.x 239) (.add 64 (.x 234) (.add 64 (.x 228) (.add 64 (.x 221) (.add 64 (.x 213) (.add 64 (.x 204) (.add 64 (.x 194) (.add 64 (.x 183) (.add 64 (.x 171) (.add 64 (.x 158) (.add 64 (.x 144) (.add 64 (.x 129) (.add 64 (.x 113) (.add 64 (.x 96) (.add 64 (.x 78) (.add 64 (.x 59) (.add 64 (.x 39) (.x 18))))))))))))))))))))))),
  .set (.add 64 (.x 526) (.add 64 (.x 504) (.add 64 (.x 483) (.add 64 (.x 463) (.add 64 (.x 244) (.add 64 (.x 240) (.add 64 (.x 235) (.add 64 (.x 229) (.add 64 (.x 222) (.add 64 (.x 214) (.add 64 (.x 205) (.add 64 (.x 195) (.add 64 (.x 184) (.add 64 (.x 172) (.add 64 (.x 159) (.add 64 (.x 145) (.add 64 (.x 130) (.add 64 (.x 114) (.add 64 (.x 97) (.add 64 (.x 79) (.add 64 (.x 60) (.add 64 (.x 40) (.x 19))))))))))))))))))))))),
  .set (.add 64 (.x 527) (.add 64 (.x 505) (.add 64 (.x 484) (.add 64 (.x 248) (.add 64 (.x 245) (.add 64 (.x 241) (.add 64 (.x 236) (.add 64 (.x 230) (.add 64 (.x 223) (.add 64 (.x 215) (.add 64 (.x 206) (.add 64 (.x 196) (.add 64 (.x 185) (.add 64 (.x 173) (.add 64 (.x 160) (.add 64 (.x 146) (.add 64 (.x 131) (.add 64 (.x 115) (.add 64 (.x 98) (.add 64 (.x 80) (.add 64 (.x 61) (.add 64 (.x 41) (.x 20))))))))))))))))))))))),
  .set (.add 64 (.x 528) (.add 64 (.x 506) (.add 64 (.x 251) (.add 64 (.x 249) (.add 64 (.x 246) (.add 64 (.x 242) (.add 64 (.x 237) (.add 64 (.x 231) (.add 64 (.x 224) (.add 64 (.x 216) (.add 64 (.x 207) (.add 64 (.x 197) (.add 64 (.x 186) (.add 64 (.x 174) (.add 64 (.x 161) (.add 64 (.x 147) (.add 64 (.x 132) (.add 64 (.x 116) (.add 64 (.x 99) (.add 64 (.x 81) (.add 64 (.x 62) (.add 64 (.x 42) (.x 21))))))))))))))))))))))),
  .set (.add 64 (.x 531) (.x 554)), .set (.shr (.x 555) 22), .set (.cast 32 (.and (.x 555) (.c 0x3fffff))),
  .set (.add 64 (.x 556) (.x 553)), .set (.shr (.x 558) 22), .set (.cast 32 (.and (.x 558) (.c 0x3fffff))),
  .set (.add 64 (.x 559) (.x 552)), .set (.shr (.x 561) 23), .set (.cast 32 (.and (.x 561) (.c 0x7fffff))),
  .set (.add 64 (.x 562) (.x 551)), .set (.shr (.x 564) 22), .set (.cast 32 (.and (.x 564) (.c 0x3fffff))),
  .set (.add 64 (.x 565) (.x 550)), .set (.shr (.x 567) 22), .set (.cast 32 (.and (.x 567) (.c 0x3fffff))),
  .set (.add 64 (.x 568) (.x 549)), .set (.shr (.x 570) 22), .set (.cast 32 (.and (.x 570) (.c 0x3fffff))),
  .set (.add 64 (.x 571) (.x 548)), .set (.shr (.x 573) 23), .set (.cast 32 (.and (.x 573) (.c 0x7fffff))),
  .set (.add 64 (.x 574) (.x 547)), .set (.shr (.x 576) 22), .set (.cast 32 (.and (.x 576) (.c 0x3fffff))),
  .set (.add 64 (.x 577) (.x 546)), .set (.shr (.x 579) 22), .set (.cast 32 (.and (.x 579) (.c 0x3fffff))),
  .set (.add 64 (.x 580) (.x 545)), .set (.shr (.x 582) 22), .set (.cast 32 (.and (.x 582) (.c 0x3fffff))),
  .set (.add 64 (.x 583) (.x 544)), .set (.shr (.x 585) 23), .set (.cast 32 (.and (.x 585) (.c 0x7fffff))),
  .set (.add 64 (.x 586) (.x 543)), .set (.shr (.x 588) 22), .set (.cast 32 (.and (.x 588) (.c 0x3fffff))),
  .set (.add 64 (.x 589) (.x 542)), .set (.shr (.x 591) 22), .set (.cast 32 (.and (.x 591) (.c 0x3fffff))),
  .set (.add 64 (.x 592) (.x 541)), .set (.shr (.x 594) 22), .set (.cast 32 (.and (.x 594) (.c 0x3fffff))),
  .set (.add 64 (.x 595) (.x 540)), .set (.shr (.x 597) 23), .set (.cast 32 (.and (.x 597) (.c 0x7fffff))),
  .set (.add 64 (.x 598) (.x 539)), .set (.shr (.x 600) 22), .set (.cast 32 (.and (.x 600) (.c 0x3fffff))),
  .set (.add 64 (.x 601) (.x 538)), .set (.shr (.x 603) 22), .set (.cast 32 (.and (.x 603) (.c 0x3fffff))),
  .set (.add 64 (.x 604) (.x 537)), .set (.shr (.x 606) 22), .set (.cast 32 (.and (.x 606) (.c 0x3fffff))),
  .set (.add 64 (.x 607) (.x 536)), .set (.shr (.x 609) 23), .set (.cast 32 (.and (.x 609) (.c 0x7fffff))),
  .set (.add 64 (.x 610) (.x 535)), .set (.shr (.x 612) 22), .set (.cast 32 (.and (.x 612) (.c 0x3fffff))),
  .set (.add 64 (.x 613) (.x 534)), .set (.shr (.x 615) 22), .set (.cast 32 (.and (.x 615) (.c 0x3fffff))),
  .set (.add 64 (.x 616) (.x 533)), .set (.cast 32 (.shr (.x 618) 22)), .set (.cast 32 (.and (.x 618) (.c 0x3fffff))),
  .set (.mul 64 (.c 0x239) (.x 619)), .set (.add 64 (.x 532) (.x 621)), .set (.cast 32 (.shr (.x 622) 23)),
  .set (.cast 32 (.and (.x 622) (.c 0x7fffff))), .set (.add 32 (.x 623) (.x 557)), .set (.cast 8 (.shr (.x 625) 22)),
  .set (.and (.x 625) (.c 0x3fffff)), .set (.add 32 (.x 626) (.x 560))], [624, 627, 628, 563, 566, 569, 572, 575, 578, 581, 584, 587, 590, 593, 596, 599, 602, 605, 608, 611, 614, 617, 620]⟩

/-- `fiat_id_tc26_gost_3410_2012_512_paramSetC_carry_square`, lines 6779-7757. -/
def carry_square : CProg := ⟨[
  .set (.mul 64 (.a 22) (.c 0x239)), .set (.mul 64 (.x 1) (.c 2)), .set (.mul 32 (.a 22) (.c 2)), .set (.mul 64 (.a 21) (.c 0x239)),
  .set (.mul 64 (.x 4) (.c 2)), .set (.mul 32 (.a 21) (.c 2)), .set (.mul 64 (.a 20) (.c 0x239)), .set (.mul 64 (.x 7) (.c 2)),
  .set (.mul 32 (.a 20) (.c 2)), .set (.mul 64 (.a 19) (.c 0x239)), .set (.mul 64 (.x 10) (.c 2)), .set (.mul 32 (.a 19) (.c 2)),
  .set (.mul 64 (.a 18) (.c 0x239)), .set (.mul 64 (.x 13) (.c 2)), .set (.mul 32 (.a 18) (.c 2)), .set (.mul 64 (.a 17) (.c 0x239)),
  .set (.mul 64 (.x 16) (.c 2)), .set (.mul 32 (.a 17) (.c 2)), .set (.mul 64 (.a 16) (.c 0x239)), .set (.mul 64 (.x 19) (.c 2)),
  .set (.mul 32 (.a 16) (.c 2)), .set (.mul 64 (.a 15) (.c 0x239)), .set (.mul 64 (.x 22) (.c 2)), .set (.mul 32 (.a 15) (.c 2)),
  .set (.mul 64 (.a 14) (.c 0x239)), .set (.mul 64 (.x 25) (.c 2)), .set (.mul 32 (.a 14) (.c 2)), .set (.mul 64 (.a 13) (.c 0x239)),
  .set (.mul 64 (.x 28) (.c 2)), .set (.mul 32 (.a 13) (.c 2)), .set (.mul 64 (.a 12) (.c 0x239)), .set (.mul 64 (.x 31) (.c 2)),
  .set (.mul 32 (.a 12) (.c 2)), .set (.mul 32 (.a 11) (.c 2)), .set (.mul 32 (.a 10) (.c 2)), .set (.mul 32 (.a 9) (.c 2)),
  .set (.mul 32 (.a 8) (.c 2)), .set (.mul 32 (.a 7) (.c 2)), .set (.mul 32 (.a 6) (.c 2)), .set (.mul 32 (.a 5) (.c 2)),
  .set (.mul 32 (.a 4) (.c 2)), .set (.mul 32 (.a 3) (.c 2)), .set (.mul 32 (.a 2) (.c 2)), .set (.mul 32 (.a 1) (.c 2)),
  .set (.mul 64 (.a 22) (.x 1)), .set (.mul 64 (.a 21) (.x 2)), .set (.mul 64 (.a 21) (.mul 64 (.x 4) (.c 2))),
  .set (.mul 64 (.a 20) (.mul 64 (.x 2) (.c 2))), .set (.mul 64 (.a 20) (.mul 64 (.x 5) (.c 2))),
  .set (.mul 64 (.a 20) (.mul 64 (.x 7) (.c 2))), .set (.mul 64 (.a 19) (.x 2)), .set (.mul 64 (.a 19) (.x 5)),
  .set (.mul 64 (.a 19) (.x 8)), .set (.mul 64 (.a 19) (.x 10)), .set (.mul 64 (.a 18) (.x 2)), .set (.mul 64 (.a 18) (.x 5)),
  .set (.mul 64 (.a 18) (.mul 64 (.x 8) (.c 2))), .set (.mul 64 (.a 18) (.x 11)), .set (.mul 64 (.a 18) (.x 13)),
  .set (.mul 64 (.a 17) (.x 2)), .set (.mul 64 (.a 17) (.mul 64 (.x 5) (.c 2))), .set (.mul 64 (.a 17) (.mul 64 (.x 8) (.c 2))),
  .set (.mul 64 (.a 17) (.x 11)), .set (.mul 64 (.a 17) (.x 14)), .set (.mul 64 (.a 17) (.mul 64 (.x 16) (.c 2))),
  .set (.mul 64 (.a 16) (.mul 64 (.x 2) (.c 2))), .set (.mul 64 (.a 16) (.mul 64 (.x 5) (.c 2))),
  .set (.mul 64 (.a 16) (.mul 64 (.x 8) (.c 2))), .set (.mul 64 (.a 16) (.x 11)), .set (.mul 64 (.a 16) (.mul 64 (.x 14) (.c 2))),
  .set (.mul 64 (.a 16) (.mul 64 (.x 17) (.c 2))), .set (.mul 64 (.a 16) (.mul 64 (.x 19) (.c 2))), .set (.mul 64 (.a 15) (.x 2)),
  .set (.mul 64 (.a 15) (.x 5)), .set (.mul 64 (.a 15) (.x 8)), .set (.mul 64 (.a 15) (.x 11)), .set (.mul 64 (.a 15) (.x 14)),
  .set (.mul 64 (.a 15) (.x 17)), .set (.mul 64 (.a 15) (.x 20)), .set (.mul 64 (.a 15) (.x 22)), .set (.mul 64 (.a 14) (.x 2)),
  .set (.mul 64 (.a 14) (.x 5)), .set (.mul 64 (.a 14) (.mul 64 (.x 8) (.c 2))), .set (.mul 64 (.a 14) (.x 11)),
  .set (.mul 64 (.a 14) (.x 14)), .set (.mul 64 (.a 14) (.x 17)), .set (.mul 64 (.a 14) (.mul 64 (.x 20) (.c 2))),
  .set (.mul 64 (.a 14) (.x 23)), .set (.mul 64 (.a 14) (.x 25)), .set (.mul 64 (.a 13) (.x 2)),
  .set (.mul 64 (.a 13) (.mul 64 (.x 5) (.c 2))), .set (.mul 64 (.a 13) (.mul 64 (.x 8) (.c 2))), .set (.mul 64 (.a 13) (.x 11)),
  .set (.mul 64 (.a 13) (.x 14)), .set (.mul 64 (.a 13) (.mul 64 (.x 17) (.c 2))), .set (.mul 64 (.a 13) (.mul 64 (.x 20) (.c 2))),
  .set (.mul 64 (.a 13) (.x 23)), .set (.mul 64 (.a 13) (.x 26)), .set (.mul 64 (.a 13) (.mul 64 (.x 28) (.c 2))),
  .set (.mul 64 (.a 12) (.mul 64 (.x 2) (.c 2))), .set (.mul 64 (.a 12) (.mul 64 (.x 5) (.c 2))),
  .set (.mul 64 (.a 12) (.mul 64 (.x 8) (.c 2))), .set (.mul 64 (.a 12) (.x 11)), .set (.mul 64 (.a 12) (.mul 64 (.x 14) (.c 2))),
  .set (.mul 64 (.a 12) (.mul 64 (.x 17) (.c 2))), .set (.mul 64 (.a 12) (.mul 64 (.x 20) (.c 2))), .set (.mul 64 (.a 12) (.x 23)),
  .set (.mul 64 (.a 12) (.mul 64 (.x 26) (.c 2))), .set (.mul 64 (.a 12) (.mul 64 (.x 29) (.c 2))),
  .set (.mul 64 (.a 12) (.mul 64 (.x 31) (.c 2))), .set (.mul 64 (.a 11) (.x 2)), .set (.mul 64 (.a 11) (.x 5)),
  .set (.mul 64 (.a 11) (.x 8)), .set (.mul 64 (.a 11) (.x 11)), .set (.mul 64 (.a 11) (.x 14)), .set (.mul 64 (.a 11) (.x 17)),
  .set (.mul 64 (.a 11) (.x 20)), .set (.mul 64 (.a 11) (.x 23)), .set (.mul 64 (.a 11) (.x 26)), .set (.mul 64 (.a 11) (.x 29)),
  .set (.mul 64 (.a 11) (.mul 64 (.x 32) (.c 2))), .set (.mul 64 (.a 11) (.a 11)), .set (.mul 64 (.a 10) (.x 2)),
  .set (.mul 64 (.a 10) (.x 5)), .set (.mul 64 (.a 10) (.mul 64 (.x 8) (.c 2))), .set (.mul 64 (.a 10) (.x 11)),
  .set (.mul 64 (.a 10) (.x 14)), .set (.mul 64 (.a 10) (.x 17)), .set (.mul 64 (.a 10) (.mul 64 (.x 20) (.c 2))),
  .set (.mul 64 (.a 10) (.x 23)), .set (.mul 64 (.a 10) (.x 26)), .set (.mul 64 (.a 10) (.mul 64 (.x 29) (.c 2))),
  .set (.mul 64 (.a 10) (.mul 32 (.x 33) (.c 2))), .set (.mul 64 (.a 10) (.x 34)), .set (.mul 64 (.a 10) (.a 10)),
  .set (.mul 64 (.a 9) (.x 2)), .set (.mul 64 (.a 9) (.mul 64 (.x 5) (.c 2))), .set (.mul 64 (.a 9) (.mul 64 (.x 8) (.c 2))),
  .set (.mul 64 (.a 9) (.x 11)), .set (.mul 64 (.a 9) (.x 14)), .set (.mul 64 (.a 9) (.mul 64 (.x 17) (.c 2))),
  .set (.mul 64 (.a 9) (.mul 64 (.x 20) (.c 2))), .set (.mul 64 (.a 9) (.x 23)), .set (.mul 64 (.a 9) (.mul 64 (.x 26) (.c 2))),
  .set (.mul 64 (.a 9) (.mul 32 (.x 30) (.c 2))), .set (.mul 64 (.a 9) (.mul 32 (.x 33) (.c 2))), .set (.mul 64 (.a 9) (.x 34)),
  .set (.mul 64 (.a 9) (.mul 32 (.x 35) (.c 2))), .set (.mul 64 (.a 9) (.mul 32 (.a 9) (.c 2))),
  .set (.mul 64 (.a 8) (.mul 64 (.x 2) (.c 2))), .set (.mul 64 (.a 8) (.mul 64 (.x 5) (.c 2))),
  .set (.mul 64 (.a 8) (.mul 64 (.x 8) (.c 2))), .set (.mul 64 (.a 8) (.x 11)), .set (.mul 64 (.a 8) (.mul 64 (.x 14) (.c 2))),
  .set (.mul 64 (.a 8) (.mul 64 (.x 17) (.c 2))), .set (.mul 64 (.a 8) (.mul 64 (.x 20) (.c 2))),
  .set (.mul 64 (.a 8) (.mul 64 (.x 23) (.c 2))), .set (.mul 64 (.a 8) (.mul 32 (.x 27) (.c 2))),
  .set (.mul 64 (.a 8) (.mul 32 (.x 30) (.c 2))), .set (.mul 64 (.a 8) (.mul 32 (.x 33) (.c 2))),
  .set (.mul 64 (.a 8) (.mul 32 (.x 34) (.c 2))), .set (.mul 64 (.a 8) (.mul 32 (.x 35) (.c 2))),
  .set (.mul 64 (.a 8) (.mul 32 (.x 36) (.c 2))), .set (.mul 64 (.a 8) (.mul 32 (.a 8) (.c 2))), .set (.mul 64 (.a 7) (.x 2)),
  .set (.mul 64 (.a 7) (.x 5)), .set (.mul 64 (.a 7) (.x 8)), .set (.mul 64 (.a 7) (.x 11)), .set (.mul 64 (.a 7) (.x 14)),
  .set (.mul 64 (.a 7) (.x 17)), .set (.mul 64 (.a 7) (.mul 64 (.x 20) (.c 2))), .set (.mul 64 (.a 7) (.x 24)),
  .set (.mul 64 (.a 7) (.x 27)), .set (.mul 64 (.a 7) (.x 30)), .set (.mul 64 (.a 7) (.mul 32 (.x 33) (.c 2))),
  .set (.mul 64 (.a 7) (.x 34)), .set (.mul 64 (.a 7) (.x 35)), .set (.mul 64 (.a 7) (.x 36)),
  .set (.mul 64 (.a 7) (.mul 32 (.x 37) (.c 2))), .set (.mul 64 (.a 7) (.a 7)), .set (.mul 64 (.a 6) (.x 2)), .set (.mul 64 (.a 6) (.x 5)),
  .set (.mul 64 (.a 6) (.mul 64 (.x 8) (.c 2))), .set (.mul 64 (.a 6) (.x 11)), .set (.mul 64 (.a 6) (.x 14)),
  .set (.mul 64 (.a 6) (.mul 64 (.x 17) (.c 2))), .set (.mul 64 (.a 6) (.mul 32 (.x 21) (.c 2))), .set (.mul 64 (.a 6) (.x 24)),
  .set (.mul 64 (.a 6) (.x 27)), .set (.mul 64 (.a 6) (.mul 32 (.x 30) (.c 2))), .set (.mul 64 (.a 6) (.mul 32 (.x 33) (.c 2))),
  .set (.mul 64 (.a 6) (.x 34)), .set (.mul 64 (.a 6) (.x 35)), .set (.mul 64 (.a 6) (.mul 32 (.x 36) (.c 2))),
  .set (.mul 64 (.a 6) (.mul 32 (.x 37) (.c 2))), .set (.mul 64 (.a 6) (.x 38)), .set (.mul 64 (.a 6) (.a 6)), .set (.mul 64 (.a 5) (.x 2)),
  .set (.mul 64 (.a 5) (.mul 64 (.x 5) (.c 2))), .set (.mul 64 (.a 5) (.mul 64 (.x 8) (.c 2))), .set (.mul 64 (.a 5) (.x 11)),
  .set (.mul 64 (.a 5) (.mul 64 (.x 14) (.c 2))), .set (.mul 64 (.a 5) (.mul 32 (.x 18) (.c 2))),
  .set (.mul 64 (.a 5) (.mul 32 (.x 21) (.c 2))), .set (.mul 64 (.a 5) (.x 24)), .set (.mul 64 (.a 5) (.mul 32 (.x 27) (.c 2))),
  .set (.mul 64 (.a 5) (.mul 32 (.x 30) (.c 2))), .set (.mul 64 (.a 5) (.mul 32 (.x 33) (.c 2))), .set (.mul 64 (.a 5) (.x 34)),
  .set (.mul 64 (.a 5) (.mul 32 (.x 35) (.c 2))), .set (.mul 64 (.a 5) (.mul 32 (.x 36) (.c 2))),
  .set (.mul 64 (.a 5) (.mul 32 (.x 37) (.c 2))), .set (.mul 64 (.a 5) (.x 38)), .set (.mul 64 (.a 5) (.mul 32 (.x 39) (.c 2))),
  .set (.mul 64 (.a 5) (.mul 32 (.a 5) (.c 2))), .set (.mul 64 (.a 4) (.mul 64 (.x 2) (.c 2))),
  .set (.mul 64 (.a 4) (.mul 64 (.x 5) (.c 2))), .set (.mul 64 (.a 4) (.mul 64 (.x 8) (.c 2))),
  .set (.mul 64 (.a 4) (.mul 64 (.x 11) (.c 2))), .set (.mul 64 (.a 4) (.mul 32 (.x 15) (.c 2))),
  .set (.mul 64 (.a 4) (.mul 32 (.x 18) (.c 2))), .set (.mul 64 (.a 4) (.mul 32 (.x 21) (.c 2))),
  .set (.mul 64 (.a 4) (.mul 32 (.x 24) (.c 2))), .set (.mul 64 (.a 4) (.mul 32 (.x 27) (.c 2))),
  .set (.mul 64 (.a 4) (.mul 32 (.x 30) (.c 2))), .set (.mul 64 (.a 4) (.mul 32 (.x 33) (.c 2))),
  .set (.mul 64 (.a 4) (.mul 32 (.x 34) (.c 2))), .set (.mul 64 (.a 4) (.mul 32 (.x 35) (.c 2))),
  .set (.mul 64 (.a 4) (.mul 32 (.x 36) (.c 2))), .set (.mul 64 (.a 4) (.mul 32 (.x 37) (.c 2))),
  .set (.mul 64 (.a 4) (.mul 32 (.x 38) (.c 2))), .set (.mul 64 (.a 4) (.mul 32 (.x 39) (.c 2))),
  .set (.mul 64 (.a 4) (.mul 32 (.x 40) (.c 2))), .set (.mul 64 (.a 4) (.mul 32 (.a 4) (.c 2))), .set (.mul 64 (.a 3) (.x 2)),
  .set (.mul 64 (.a 3) (.x 5)), .set (.mul 64 (.a 3) (.mul 64 (.x 8) (.c 2))), .set (.mul 64 (.a 3) (.x 12)), .set (.mul 64 (.a 3) (.x 15)),
  .set (.mul 64 (.a 3) (.x 18)), .set (.mul 64 (.a 3) (.mul 32 (.x 21) (.c 2))), .set (.mul 64 (.a 3) (.x 24)),
  .set (.mul 64 (.a 3) (.x 27)), .set (.mul 64 (.a 3) (.x 30)), .set (.mul 64 (.a 3) (.mul 32 (.x 33) (.c 2))),
  .set (.mul 64 (.a 3) (.x 34)), .set (.mul 64 (.a 3) (.x 35)), .set (.mul 64 (.a 3) (.x 36)),
  .set (.mul 64 (.a 3) (.mul 32 (.x 37) (.c 2))), .set (.mul 64 (.a 3) (.x 38)), .set (.mul 64 (.a 3) (.x 39)),
  .set (.mul 64 (.a 3) (.x 40)), .set (.mul 64 (.a 3) (.mul 32 (.x 41) (.c 2))), .set (.mul 64 (.a 3) (.a 3)), .set (.mul 64 (.a 2) (.x 2)),
  .set (.mul 64 (.a 2) (.mul 64 (.x 5) (.c 2))), .set (.mul 64 (.a 2) (.mul 32 (.x 9) (.c 2))), .set (.mul 64 (.a 2) (.x 12)),
  .set (.mul 64 (.a 2) (.x 15)), .set (.mul 64 (.a 2) (.mul 32 (.x 18) (.c 2))), .set (.mul 64 (.a 2) (.mul 32 (.x 21) (.c 2))),
  .set (.mul 64 (.a 2) (.x 24)), .set (.mul 64 (.a 2) (.x 27)), .set (.mul 64 (.a 2) (.mul 32 (.x 30) (.c 2))),
  .set (.mul 64 (.a 2) (.mul 32 (.x 33) (.c 2))), .set (.mul 64 (.a 2) (.x 34)), .set (.mul 64 (.a 2) (.x 35)),
  .set (.mul 64 (.a 2) (.mul 32 (.x 36) (.c 2))), .set (.mul 64 (.a 2) (.mul 32 (.x 37) (.c 2))), .set (.mul 64 (.a 2) (.x 38)),
  .set (.mul 64 (.a 2) (.x 39)), .set (.mul 64 (.a 2) (.mul 32 (.x 40) (.c 2))), .set (.mul 64 (.a 2) (.mul 32 (.x 41) (.c 2))),
  .set (.mul 64 (.a 2) (.x 42)), .set (.mul 64 (.a 2) (.a 2)), .set (.mul 64 (.a 1) (.mul 64 (.x 2) (.c 2))),
  .set (.mul 64 (.a 1) (.mul 32 (.x 6) (.c 2))), .set (.mul 64 (.a 1) (.mul 32 (.x 9) (.c 2))), .set (.mul 64 (.a 1) (.x 12)),
  .set (.mul 64 (.a 1) (.mul 32 (.x 15) (.c 2))), .set (.mul 64 (.a 1) (.mul 32 (.x 18) (.c 2))),
  .set (.mul 64 (.a 1) (.mul 32 (.x 21) (.c 2))), .set (.mul 64 (.a 1) (.x 24)), .set (.mul 64 (.a 1) (.mul 32 (.x 27) (.c 2))),
  .set (.mul 64 (.a 1) (.mul 32 (.x 30) (.c 2))), .set (.mul 64 (.a 1) (.mul 32 (.x 33) (.c 2))), .set (.mul 64 (.a 1) (.x 34)),
  .set (.mul 64 (.a 1) (.mul 32 (.x 35) (.c 2))), .set (.mul 64 (.a 1) (.mul 32 (.x 36) (.c 2))),
  .set (.mul 64 (.a 1) (.mul 32 (.x 37) (.c 2))), .set (.mul 64 (.a 1) (.x 38)), .set (.mul 64 (.a 1) (.mul 32 (.x 39) (.c 2))),
  .set (.mul 64 (.a 1) (.mul 32 (.x 40) (.c 2))), .set (.mul 64 (.a 1) (.mul 32 (.x 41) (.c 2))), .set (.mul 64 (.a 1) (.x 42)),
  .set (.mul 64 (.a 1) (.mul 32 (.x 43) (.c 2))), .set (.mul 64 (.a 1) (.mul 32 (.a 1) (.c 2))), .set (.mul 64 (.a 0) (.x 3)),
  .set (.mul 64 (.a 0) (.x 6)), .set (.mul 64 (.a 0) (.x 9)), .set (.mul 64 (.a 0) (.x 12)), .set (.mul 64 (.a 0) (.x 15)),
  .set (.mul 64 (.a 0) (.x 18)), .set (.mul 64 (.a 0) (.x 21)), .set (.mul 64 (.a 0) (.x 24)), .set (.mul 64 (.a 0) (.x 27)),
  .set (.mul 64 (.a 0) (.x 30)), .set (.mul 64 (.a 0) (.x 33)), .set (.mul 64 (.a 0) (.x 34)), .set (.mul 64 (.a 0) (.x 35)),
  .set (.mul 64 (.a 0) (.x 36)), .set (.mul 64 (.a 0) (.x 37)), .set (.mul 64 (.a 0) (.x 38)), .set (.mul 64 (.a 0) (.x 39)),
  .set (.mul 64 (.a 0) (.x 40)), .set (.mul 64 (.a 0) (.x 41)), .set (.mul 64 (.a 0) (.x 42)), .set (.mul 64 (.a 0) (.x 43)),
  .set (.mul 64 (.a 0) (.x 44)), .set (.mul 64 (.a 0) (.a 0)),
  .set (.add 64 (.x 320) (.add 64 (.x 276) (.add 64 (.x 256) (.add 64 (.x 237) (.add 64 (.x 219) (.add 64 (.x 202) (.add 64 (.x 186) (.add 64 (.x 171) (.add 64 (.x 157) (.add 64 (.x 144) (.add 64 (.x 132) (.x 121)))))))))))),
  .set (.shr (.x 321) 23), .set (.cast 32 (.and (.x 321) (.c 0x7fffff))),
  .set (.add 64 (.x 298) (.add 64 (.x 277) (.add 64 (.x 257) (.add 64 (.x 238) (.add 64 (.x 220) (.add 64 (.x 203) (.add 64 (.x 187) (.add 64 (.x 172) (.add 64 (.x 158) (.add 64 (.x 145) (.add 64 (.x 133) (.x 122)))))))))))),
  .set (.add 64 (.x 299) (.add 64 (.x 278) (.add 64 (.x 258) (.add 64 (.x 239) (.add 64 (.x 221) (.add 64 (.x 204) (.add 64 (.x 188) (.add 64 (.x 173) (.add 64 (.x 159) (.add 64 (.x 146) (.add 64 (.x 134) (.x 45)))))))))))),
  .set (.add 64 (.x 300) (.add 64 (.x 279) (.add 64 (.x 259) (.add 64 (.x 240) (.add 64 (.x 222) (.add 64 (.x 205) (.add 64 (.x 189) (.add 64 (.x 174) (.add 64 (.x 160) (.add 64 (.x 147) (.add 64 (.x 135) (.x 46)))))))))))),
  .set (.add 64 (.x 301) (.add 64 (.x 280) (.add 64 (.x 260) (.add 64 (.x 241) (.add 64 (.x 223) (.add 64 (.x 206) (.add 64 (.x 190) (.add 64 (.x 175) (.add 64 (.x 161) (.add 64 (.x 148) (.add 64 (.x 48) (.x 47)))))))))))),
  .set (.add 64 (.x 302) (.add 64 (.x 281) (.add 64 (.x 261) (.add 64 (.x 242) (.add 64 (.x 224) (.add 64 (.x 207) (.add 64 (.x 191) (.add 64 (.x 176) (.add 64 (.x 162) (.add 64 (.x 149) (.add 64 (.x 51) (.x 49)))))))))))),
  .set (.add 64 (.x 303) (.add 64 (.x 282) (.add 64 (.x 262) (.add 64 (.x 243) (.add 64 (.x 225) (.add 64 (.x 208) (.add 64 (.x 192) (.add 64 (.x 177) (.add 64 (.x 163) (.add 64 (.x 55) (.add 64 (.x 52) (.x 50)))))))))))),
  .set (.add 64 (.x 304) (.add 64 (.x 283) (.add 64 (.x 263) (.add 64 (.x 244) (.add 64 (.x 226) (.add 64 (.x 209) (.add 64 (.x 193) (.add 64 (.x 178) (.add 64 (.x 164) (.add 64 (.x 60) (.add 64 (.x 56) (.x 53)))))))))))),
  .set (.add 64 (.x 305) (.add 64 (.x 284) (.add 64 (.x 264) (.add 64 (.x 245) (.add 64 (.x 227) (.add 64 (.x 210) (.add 64 (.x 194) (.add 64 (.x 179) (.add 64 (.x 66) (.add 64 (.x 61) (.add 64 (.x 57) (.x 54)))))))))))),
  .set (.add 64 (.x 306) (.add 64 (.x 285) (.add 64 (.x 265) (.add 64 (.x 246) (.add 64 (.x 228) (.add 64 (.x 211) (.add 64 (.x 195) (.add 64 (.x 180) (.add 64 (.x 73) (.add 64 (.x 67) (.add 64 (.x 62) (.x 58)))))))))))),
  .set (.add 64 (.x 307) (.add 64 (.x 286) (.add 64 (.x 266) (.add 64 (.x 247) (.add 64 (.x 229) (.add 64 (.x 212) (.add 64 (.x 196) (.add 64 (.x 81) (.add 64 (.x 74) (.add 64 (.x 68) (.add 64 (.x 63) (.x 59)))))))))))),
  .set (.add 64 (.x 308) (.add 64 (.x 287) (.add 64 (.x 267) (.add 64 (.x 248) (.add 64 (.x 230) (.add 64 (.x 213) (.add 64 (.x 197) (.add 64 (.x 90) (.add 64 (.x 82) (.add 64 (.x 75) (.add 64 (.x 69) (.x 64)))))))))))),
  .set (.add 64 (.x 309) (.add 64 (.x 288) (.add 64 (.x 268) (.add 64 (.x 249) (.add 64 (.x 231) (.add 64 (.x 214) (.add 64 (.x 100) (.add 64 (.x 91) (.add 64 (.x 83) (.add 64 (.x 76) (.add 64 (.x 70) (.x 65)))))))))))),
  .set (.add 64 (.x 310) (.add 64 (.x 289) (.add 64 (.x 269) (.add 64 (.x 250) (.add 64 (.x 232) (.add 64 (.x 215) (.add 64 (.x 111) (.add 64 (.x 101) (.add 64 (.x 92) (.add 64 (.x 84) (.add 64 (.x 77) (.x 71)))))))))))),
  .set (.add 64 (.x 311) (.add 64 (.x 290) (.add 64 (.x 270) (.add 64 (.x 251) (.add 64 (.x 233) (.add 64 (.x 123) (.add 64 (.x 112) (.add 64 (.x 102) (.add 64 (.x 93) (.add 64 (.x 85) (.add 64 (.x 78) (.x 72)))))))))))),
  .set (.add 64 (.x 312) (.add 64 (.x 291) (.add 64 (.x 271) (.add 64 (.x 252) (.add 64 (.x 234) (.add 64 (.x 136) (.add 64 (.x 124) (.add 64 (.x 113) (.add 64 (.x 103) (.add 64 (.x 94) (.add 64 (.x 86) (.x 79)))))))))))),
  .set (.add 64 (.x 313) (.add 64 (.x 292) (.add 64 (.x 272) (.add 64 (.x 253) (.add 64 (.x 150) (.add 64 (.x 137) (.add 64 (.x 125) (.add 64 (.x 114) (.add 64 (.x 104) (.add 64 (.x 95) (.add 64 (.x 87) (.x 80)))))))))))),
  .set (.add 64 (.x 314) (.add 64 (.x 293) (.add 64 (.x 273) (.add 64 (.x 254) (.add 64 (.x 165) (.add 64 (.x 151) (.add 64 (.x 138) (.add 64 (.x 126) (.add 64 (.x 115) (.add 64 (.x 105) (.add 64 (.x 96) (.x 88)))))))))))),
  .set (.add 64 (.x 315) (.add 64 (.x 294) (.add 64 (.x 274) (.add 64 (.x 181) (.add 64 (.x 166) (.add 64 (.x 152) (.add 64 (.x 139) (.add 64 (.x 127) (.add 64 (.x 116) (.add 64 (.x 106) (.add 64 (.x 97) (.x 89)))))))))))),
  .set (.add 64 (.x 316) (.add 64 (.x 295) (.add 64 (.x 275) (.add 64 (.x 198) (.add 64 (.x 182) (.add 64 (.x 167) (.add 64 (.x 153) (.add 64 (.x 140) (.add 64 (.x 128) (.add 64 (.x 117) (.add 64 (.x 107) (.x 98)))))))))))),
  .set (.add 64 (.x 317) (.add 64 (.x 296) (.add 64 (.x 216) (.add 64 (.x 199) (.add 64 (.x 183) (.add 64 (.x 168) (.add 64 (.x 154) (.add 64 (.x 141) (.add 64 (.x 129) (.add 64 (.x 118) (.add 64 (.x 108) (.x 99)))))))))))),
  .set (.add 64 (.x 318) (.add 64 (.x 297) (.add 64 (.x 235) (.add 64 (.x 217) (.add 64 (.x 200) (.add 64 (.x 184) (.add 64 (.x 169) (.add 64 (.x 155) (.add 64 (.x 142) (.add 64 (.x 130) (.add 64 (.x 119) (.x 109)))))))))))),
  .set (.add 64 (.x 319) (.add 64 (.x 255) (.add 64 (.x 236) (.add 64 (.x 218) (.add 64 (.x 201) (.add 64 (.x 185) (.add 64 (.x 170) (.add 64 (.x 156) (.add 64 (.x 143) (.add 64 (.x 131) (.add 64 (.x 120) (.x 110)))))))))))),
  .set (.add 64 (.x 322) (.x 345)), .set (.shr (.x 346) 22), .set (.cast 32 (.and (.x 346) (.c 0x3fffff))),
  .set (.add 64 (.x 347) (.x 344)), .set (.shr (.x 349) 22), .set (.cast 32 (.and (.x 349) (.c 0x3fffff))),
  .set (.add 64 (.x 350) (.x 343)), .set (.shr (.x 352) 23), .set (.cast 32 (.and (.x 352) (.c 0x7fffff))),
  .set (.add 64 (.x 353) (.x 342)), .set (.shr (.x 355) 22), .set (.cast 32 (.and (.x 355) (.c 0x3fffff))),
  .set (.add 64 (.x 356) (.x 341)), .set (.shr (.x 358) 22), .set (.cast 32 (.and (.x 358) (.c 0x3fffff))),
  .set (.add 64 (.x 359) (.x 340)), .set (.shr (.x 361) 22), .set (.cast 32 (.and (.x 361) (.c 0x3fffff))),
  .set (.add 64 (.x 362) (.x 339)), .set (.shr (.x 364) 23), .set (.cast 32 (.and (.x 364) (.c 0x7fffff))),
  .set (.add 64 (.x 365) (.x 338)), .set (.shr (.x 367) 22), .set (.cast 32 (.and (.x 367) (.c 0x3fffff))),
  .set (.add 64 (.x 368) (.x 337)), .set (.shr (.x 370) 22), .set (.cast 32 (.and (.x 370) (.c 0x3fffff))),
  .set (.add 64 (.x 371) (.x 336)), .set (.shr (.x 373) 22), .set (.cast 32 (.and (.x 373) (.c 0x3fffff))),
  .set (.add 64 (.x 374) (.x 335)), .set (.shr (.x 376) 23), .set (.cast 32 (.and (.x 376) (.c 0x7fffff))),
  .set (.add 64 (.x 377) (.x 334)), .set (.shr (.x 379) 22), .set (.cast 32 (.and (.x 379) (.c 0x3fffff))),
  .set (.add 64 (.x 380) (.x 333)), .set (.shr (.x 382) 22), .set (.cast 32 (.and (.x 382) (.c 0x3fffff))),
  .set (.add 64 (.x 383) (.x 332)), .set (.shr (.x 385) 22), .set (.cast 32 (.and (.x 385) (.c 0x3fffff))),
  .set (.add 64 (.x 386) (.x 331)), .set (.shr (.x 388) 23), .set (.cast 32 (.and (.x 388) (.c 0x7fffff))),
  .set (.add 64 (.x 389) (.x 330)), .set (.shr (.x 391) 22), .set (.cast 32 (.and (.x 391) (.c 0x3fffff))),
  .set (.add 64 (.x 392) (.x 329)), .set (.shr (.x 394) 22), .set (.cast 32 (.and (.x 394) (.c 0x3fffff))),
  .set (.add 64 (.x 395) (.x 328)), .set (.shr (.x 397) 22), .set (.cast 32 (.and (.x 397) (.c 0x3fffff))),
  .set (.add 64 (.x 398) (.x 327)), .set (.shr (.x 400) 23), .set (.cast 32 (.and (.x 400) (.c 0x7fffff))),
  .set (.add 64 (.x 401) (.x 326)), .set (.shr (.x 403) 22), .set (.cast 32 (.and (.x 403) (.c 0x3fffff))),
  .set (.add 64 (.x 404) (.x 325)), .set (.shr (.x 406) 22), .set (.cast 32 (.and (.x 406) (.c 0x3fffff))),
  .set (.add 64 (.x 407) (.x 324)), .set (.cast 32 (.shr (.x 409) 22)), .set (.cast 32 (.and (.x 409) (.c 0x3fffff))),
  .set (.mul 64 (.c 0x239) (.x 410)), .set (.add 64 (.x 323) (.x 412)), .set (.cast 32 (.shr (.x 413) 23)),
  .set (.cast 32 (.and (.x 413) (.c 0x7fffff))), .set (.add 32 (.x 414) (.x 348)), .set (.cast 8 (.shr (.x 416) 22)),
  .set (.and (.x 416) (.c 0x3fffff)), .set (.add 32 (.x 417) (.x 351))], [415, 418, 419, 354, 357, 360, 363, 366, 369, 372, 375, 378, 381, 384, 387, 390, 393, 396, 399, 402, 405, 408, 411]⟩

/-- `fiat_id_tc26_gost_3410_2012_512_paramSetC_carry`, lines 7769-7892. -/
def carry : CProg := ⟨[
  .set (.a 0), .set (.add 32 (.shr (.x 1) 23) (.a 1)), .set (.add 32 (.shr (.x 2) 22) (.a 2)), .set (.add 32 (.shr (.x 3) 22) (.a 3)),
  .set (.add 32 (.shr (.x 4) 23) (.a 4)), .set (.add 32 (.shr (.x 5) 22) (.a 5)), .set (.add 32 (.shr (.x 6) 22) (.a 6)),
  .set (.add 32 (.shr (.x 7) 22) (.a 7)), .set (.add 32 (.shr (.x 8) 23) (.a 8)), .set (.add 32 (.shr (.x 9) 22) (.a 9)),
  .set (.add 32 (.shr (.x 10) 22) (.a 10)), .set (.add 32 (.shr (.x 11) 22) (.a 11)), .set (.add 32 (.shr (.x 12) 23) (.a 12)),
  .set (.add 32 (.shr (.x 13) 22) (.a 13)), .set (.add 32 (.shr (.x 14) 22) (.a 14)), .set (.add 32 (.shr (.x 15) 22) (.a 15)),
  .set (.add 32 (.shr (.x 16) 23) (.a 16)), .set (.add 32 (.shr (.x 17) 22) (.a 17)), .set (.add 32 (.shr (.x 18) 22) (.a 18)),
  .set (.add 32 (.shr (.x 19) 22) (.a 19)), .set (.add 32 (.shr (.x 20) 23) (.a 20)), .set (.add 32 (.shr (.x 21) 22) (.a 21)),
  .set (.add 32 (.shr (.x 22) 22) (.a 22)), .set (.add 32 (.and (.x 1) (.c 0x7fffff)) (.mul 32 (.c 0x239) (.shr (.x 23) 22))),
  .set (.add 32 (.cast 8 (.shr (.x 24) 23)) (.and (.x 2) (.c 0x3fffff))), .set (.and (.x 24) (.c 0x7fffff)),
  .set (.and (.x 25) (.c 0x3fffff)), .set (.add 32 (.cast 8 (.shr (.x 25) 22)) (.and (.x 3) (.c 0x3fffff))),
  .set (.and (.x 4) (.c 0x7fffff)), .set (.and (.x 5) (.c 0x3fffff)), .set (.and (.x 6) (.c 0x3fffff)), .set (.and (.x 7) (.c 0x3fffff)),
  .set (.and (.x 8) (.c 0x7fffff)), .set (.and (.x 9) (.c 0x3fffff)), .set (.and (.x 10) (.c 0x3fffff)), .set (.and (.x 11) (.c 0x3fffff)),
  .set (.and (.x 12) (.c 0x7fffff)), .set (.and (.x 13) (.c 0x3fffff)), .set (.and (.x 14) (.c 0x3fffff)),
  .set (.and (.x 15) (.c 0x3fffff)), .set (.and (.x 16) (.c 0x7fffff)), .set (.and (.x 17) (.c 0x3fffff)),
  .set (.and (.x 18) (.c 0x3fffff)), .set (.and (.x 19) (.c 0x3fffff)), .set (.and (.x 20) (.c 0x7fffff)),
  .set (.and (.x 21) (.c 0x3fffff)), .set (.and (.x 22) (.c 0x3fffff)), .set (.and (.x 23) (.c 0x3fffff))], [26, 27, 28, 29, 30, 31, 32, 33, 34, 35, 36, 37, 38, 39, 40, 41, 42, 43, 44, 45, 46, 47, 48]⟩

/-- `fiat_id_tc26_gost_3410_2012_512_paramSetC_add`, lines 7905-7976. -/
def add : CProg := ⟨[
  .set (.add 32 (.a 0) (.b 0)), .set (.add 32 (.a 1) (.b 1)), .set (.add 32 (.a 2) (.b 2)), .set (.add 32 (.a 3) (.b 3)),
  .set (.add 32 (.a 4) (.b 4)), .set (.add 32 (.a 5) (.b 5)), .set (.add 32 (.a 6) (.b 6)), .set (.add 32 (.a 7) (.b 7)),
  .set (.add 32 (.a 8) (.b 8)), .set (.add 32 (.a 9) (.b 9)), .set (.add 32 (.a 10) (.b 10)), .set (.add 32 (.a 11) (.b 11)),
  .set (.add 32 (.a 12) (.b 12)), .set (.add 32 (.a 13) (.b 13)), .set (.add 32 (.a 14) (.b 14)), .set (.add 32 (.a 15) (.b 15)),
  .set (.add 32 (.a 16) (.b 16)), .set (.add 32 (.a 17) (.b 17)), .set (.add 32 (.a 18) (.b 18)), .set (.add 32 (.a 19) (.b 19)),
  .set (.add 32 (.a 20) (.b 20)), .set (.add 32 (.a 21) (.b 21)), .set (.add 32 (.a 22) (.b 22))], [1, 2, 3, 4, 5, 6, 7, 8, 9, 10, 11, 12, 13, 14, 15, 16, 17, 18, 19, 20, 21, 22, 23]⟩

/-- `fiat_id_tc26_gost_3410_2012_512_paramSetC_sub`, lines 7989-8060. -/
def sub : CProg := ⟨[
  .set (.sub 32 (.add 32 (.c 0xfffb8e) (.a 0)) (.b 0)), .set (.sub 32 (.add 32 (.c 0x7ffffe) (.a 1)) (.b 1)),
  .set (.sub 32 (.add 32 (.c 0x7ffffe) (.a 2)) (.b 2)), .set (.sub 32 (.add 32 (.c 0xfffffe) (.a 3)) (.b 3)),
  .set (.sub 32 (.add 32 (.c 0x7ffffe) (.a 4)) (.b 4)), .set (.sub 32 (.add 32 (.c 0x7ffffe) (.a 5)) (.b 5)),
  .set (.sub 32 (.add 32 (.c 0x7ffffe) (.a 6)) (.b 6)), .set (.sub 32 (.add 32 (.c 0xfffffe) (.a 7)) (.b 7)),
  .set (.sub 32 (.add 32 (.c 0x7ffffe) (.a 8)) (.b 8)), .set (.sub 32 (.add 32 (.c 0x7ffffe) (.a 9)) (.b 9)),
  .set (.sub 32 (.add 32 (.c 0x7ffffe) (.a 10)) (.b 10)), .set (.sub 32 (.add 32 (.c 0xfffffe) (.a 11)) (.b 11)),
  .set (.sub 32 (.add 32 (.c 0x7ffffe) (.a 12)) (.b 12)), .set (.sub 32 (.add 32 (.c 0x7ffffe) (.a 13)) (.b 13)),
  .set (.sub 32 (.add 32 (.c 0x7ffffe) (.a 14)) (.b 14)), .set (.sub 32 (.add 32 (.c 0xfffffe) (.a 15)) (.b 15)),
  .set (.sub 32 (.add 32 (.c 0x7ffffe) (.a 16)) (.b 16)), .set (.sub 32 (.add 32 (.c 0x7ffffe) (.a 17)) (.b 17)),
  .set (.sub 32 (.add 32 (.c 0x7ffffe) (.a 18)) (.b 18)), .set (.sub 32 (.add 32 (.c 0xfffffe) (.a 19)) (.b 19)),
  .set (.sub 32 (.add 32 (.c 0x7ffffe) (.a 20)) (.b 20)), .set (.sub 32 (.add 32 (.c 0x7ffffe) (.a 21)) (.b 21)),
  .set (.sub 32 (.add 32 (.c 0x7ffffe) (.a 22)) (.b 22))], [1, 2, 3, 4, 5, 6, 7, 8, 9, 10, 11, 12, 13, 14, 15, 16, 17, 18, 19, 20, 21, 22, 23]⟩

/-- `fiat_id_tc26_gost_3410_2012_512_paramSetC_opp`, lines 8072-8143. -/
def opp : CProg := ⟨[
  .set (.sub 32 (.c 0xfffb8e) (.a 0)), .set (.sub 32 (.c 0x7ffffe) (.a 1)), .set (.sub 32 (.c 0x7ffffe) (.a 2)),
  .set (.sub 32 (.c 0xfffffe) (.a 3)), .set (.sub 32 (.c 0x7ffffe) (.a 4)), .set (.sub 32 (.c 0x7ffffe) (.a 5)),
  .set (.sub 32 (.c 0x7ffffe) (.a 6)), .set (.sub 32 (.c 0xfffffe) (.a 7)), .set (.sub 32 (.c 0x7ffffe) (.a 8)),
  .set (.sub 32 (.c 0x7ffffe) (.a 9)), .set (.sub 32 (.c 0x7ffffe) (.a 10)), .set (.sub 32 (.c 0xfffffe) (.a 11)),
  .set (.sub 32 (.c 0x7ffffe) (.a 12)), .set (.sub 32 (.c 0x7ffffe) (.a 13)), .set (.sub 32 (.c 0x7ffffe) (.a 14)),
  .set (.sub 32 (.c 0xfffffe) (.a 15)), .set (.sub 32 (.c 0x7ffffe) (.a 16)), .set (.sub 32 (.c 0x7ffffe) (.a 17)),
  .set (.sub 32 (.c 0x7ffffe) (.a 18)), .set (.sub 32 (.c 0xfffffe) (.a 19)), .set (.sub 32 (.c 0x7ffffe) (.a 20)),
  .set (.sub 32 (.c 0x7ffffe) (.a 21)), .set (.sub 32 (.c 0x7ffffe) (.a 22))], [1, 2, 3, 4, 5, 6, 7, 8, 9, 10, 11, 12, 13, 14, 15, 16, 17, 18, 19, 20, 21, 22, 23]⟩

/-- `fiat_id_tc26_gost_3410_2012_512_paramSetC_from_bytes`, lines 8853-9208. -/
def from_bytes : CProg := ⟨[
  .set (.shl 32 (.a 63) 14), .set (.shl 32 (.a 62) 6), .set (.shl 32 (.a 61) 20), .set (.shl 32 (.a 60) 12), .set (.shl 32 (.a 59) 4),
  .set (.shl 32 (.a 58) 18), .set (.shl 32 (.a 57) 10), .set (.shl 32 (.a 56) 2), .set (.shl 32 (.a 55) 17), .set (.shl 32 (.a 54) 9),
  .set (.mul 32 (.a 53) (.c 2)), .set (.shl 32 (.a 52) 15), .set (.shl 32 (.a 51) 7), .set (.shl 32 (.a 50) 21), .set (.shl 32 (.a 49) 13),
  .set (.shl 32 (.a 48) 5), .set (.shl 32 (.a 47) 19), .set (.shl 32 (.a 46) 11), .set (.shl 32 (.a 45) 3), .set (.shl 32 (.a 44) 18),
  .set (.shl 32 (.a 43) 10), .set (.shl 32 (.a 42) 2), .set (.shl 32 (.a 41) 16), .set (.shl 32 (.a 40) 8), .set (.a 39),
  .set (.shl 32 (.a 38) 14), .set (.shl 32 (.a 37) 6), .set (.shl 32 (.a 36) 20), .set (.shl 32 (.a 35) 12), .set (.shl 32 (.a 34) 4),
  .set (.shl 32 (.a 33) 19), .set (.shl 32 (.a 32) 11), .set (.shl 32 (.a 31) 3), .set (.shl 32 (.a 30) 17), .set (.shl 32 (.a 29) 9),
  .set (.mul 32 (.a 28) (.c 2)), .set (.shl 32 (.a 27) 15), .set (.shl 32 (.a 26) 7), .set (.shl 32 (.a 25) 21), .set (.shl 32 (.a 24) 13),
  .set (.shl 32 (.a 23) 5), .set (.shl 32 (.a 22) 20), .set (.shl 32 (.a 21) 12), .set (.shl 32 (.a 20) 4), .set (.shl 32 (.a 19) 18),
  .set (.shl 32 (.a 18) 10), .set (.shl 32 (.a 17) 2), .set (.shl 32 (.a 16) 16), .set (.shl 32 (.a 15) 8), .set (.a 14),
  .set (.shl 32 (.a 13) 14), .set (.shl 32 (.a 12) 6), .set (.shl 32 (.a 11) 21), .set (.shl 32 (.a 10) 13), .set (.shl 32 (.a 9) 5),
  .set (.shl 32 (.a 8) 19), .set (.shl 32 (.a 7) 11), .set (.shl 32 (.a 6) 3), .set (.shl 32 (.a 5) 17), .set (.shl 32 (.a 4) 9),
  .set (.mul 32 (.a 3) (.c 2)), .set (.shl 32 (.a 2) 16), .set (.shl 32 (.a 1) 8), .set (.a 0), .set (.add 32 (.x 63) (.x 64)),
  .set (.add 32 (.x 62) (.x 65)), .set (.and (.x 66) (.c 0x7fffff)), .set (.cast 8 (.shr (.x 66) 23)), .set (.add 32 (.x 61) (.x 68)),
  .set (.add 32 (.x 60) (.x 69)), .set (.add 32 (.x 59) (.x 70)), .set (.and (.x 71) (.c 0x3fffff)), .set (.cast 8 (.shr (.x 71) 22)),
  .set (.add 32 (.x 58) (.x 73)), .set (.add 32 (.x 57) (.x 74)), .set (.add 32 (.x 56) (.x 75)), .set (.and (.x 76) (.c 0x3fffff)),
  .set (.cast 8 (.shr (.x 76) 22)), .set (.add 32 (.x 55) (.x 78)), .set (.add 32 (.x 54) (.x 79)), .set (.add 32 (.x 53) (.x 80)),
  .set (.and (.x 81) (.c 0x7fffff)), .set (.cast 8 (.shr (.x 81) 23)), .set (.add 32 (.x 52) (.x 83)), .set (.add 32 (.x 51) (.x 84)),
  .set (.add 32 (.x 49) (.x 50)), .set (.add 32 (.x 48) (.x 86)), .set (.and (.x 87) (.c 0x3fffff)), .set (.cast 8 (.shr (.x 87) 22)),
  .set (.add 32 (.x 47) (.x 89)), .set (.add 32 (.x 46) (.x 90)), .set (.add 32 (.x 45) (.x 91)), .set (.and (.x 92) (.c 0x3fffff)),
  .set (.cast 8 (.shr (.x 92) 22)), .set (.add 32 (.x 44) (.x 94)), .set (.add 32 (.x 43) (.x 95)), .set (.add 32 (.x 42) (.x 96)),
  .set (.and (.x 97) (.c 0x7fffff)), .set (.cast 8 (.shr (.x 97) 23)), .set (.add 32 (.x 41) (.x 99)), .set (.add 32 (.x 40) (.x 100)),
  .set (.add 32 (.x 39) (.x 101)), .set (.and (.x 102) (.c 0x3fffff)), .set (.cast 8 (.shr (.x 102) 22)), .set (.add 32 (.x 38) (.x 104)),
  .set (.add 32 (.x 37) (.x 105)), .set (.and (.x 106) (.c 0x3fffff)), .set (.cast 8 (.shr (.x 106) 22)), .set (.add 32 (.x 36) (.x 108)),
  .set (.add 32 (.x 35) (.x 109)), .set (.add 32 (.x 34) (.x 110)), .set (.and (.x 111) (.c 0x3fffff)), .set (.cast 8 (.shr (.x 111) 22)),
  .set (.add 32 (.x 33) (.x 113)), .set (.add 32 (.x 32) (.x 114)), .set (.add 32 (.x 31) (.x 115)), .set (.and (.x 116) (.c 0x7fffff)),
  .set (.cast 8 (.shr (.x 116) 23)), .set (.add 32 (.x 30) (.x 118)), .set (.add 32 (.x 29) (.x 119)), .set (.add 32 (.x 28) (.x 120)),
  .set (.and (.x 121) (.c 0x3fffff)), .set (.cast 8 (.shr (.x 121) 22)), .set (.add 32 (.x 27) (.x 123)), .set (.add 32 (.x 26) (.x 124)),
  .set (.add 32 (.x 24) (.x 25)), .set (.add 32 (.x 23) (.x 126)), .set (.and (.x 127) (.c 0x3fffff)), .set (.cast 8 (.shr (.x 127) 22)),
  .set (.add 32 (.x 22) (.x 129)), .set (.add 32 (.x 21) (.x 130)), .set (.add 32 (.x 20) (.x 131)), .set (.and (.x 132) (.c 0x7fffff)),
  .set (.cast 8 (.shr (.x 132) 23)), .set (.add 32 (.x 19) (.x 134)), .set (.add 32 (.x 18) (.x 135)), .set (.add 32 (.x 17) (.x 136)),
  .set (.and (.x 137) (.c 0x3fffff)), .set (.cast 8 (.shr (.x 137) 22)), .set (.add 32 (.x 16) (.x 139)), .set (.add 32 (.x 15) (.x 140)),
  .set (.add 32 (.x 14) (.x 141)), .set (.and (.x 142) (.c 0x3fffff)), .set (.cast 8 (.shr (.x 142) 22)), .set (.add 32 (.x 13) (.x 144)),
  .set (.add 32 (.x 12) (.x 145)), .set (.and (.x 146) (.c 0x3fffff)), .set (.cast 8 (.shr (.x 146) 22)), .set (.add 32 (.x 11) (.x 148)),
  .set (.add 32 (.x 10) (.x 149)), .set (.add 32 (.x 9) (.x 150)), .set (.and (.x 151) (.c 0x7fffff)), .set (.cast 8 (.shr (.x 151) 23)),
  .set (.add 32 (.x 8) (.x 153)), .set (.add 32 (.x 7) (.x 154)), .set (.add 32 (.x 6) (.x 155)), .set (.and (.x 156) (.c 0x3fffff)),
  .set (.cast 8 (.shr (.x 156) 22)), .set (.add 32 (.x 5) (.x 158)), .set (.add 32 (.x 4) (.x 159)), .set (.add 32 (.x 3) (.x 160)),
  .set (.and (.x 161) (.c 0x3fffff)), .set (.cast 8 (.shr (.x 161) 22)), .set (.add 32 (.x 2) (.x 163)), .set (.add 32 (.x 1) (.x 164))], [67, 72, 77, 82, 85, 88, 93, 98, 103, 107, 112, 117, 122, 125, 128, 133, 138, 143, 147, 152, 157, 162, 165]⟩

/-- `fiat_id_tc26_gost_3410_2012_512_paramSetC_to_bytes`, lines 8264-8841. -/
def to_bytes : CProg := ⟨[
  .sbb 32 23 (.c 0) (.a 0) (.c 0x7ffdc7), .sbb 32 22 (.x 2) (.a 1) (.c 0x3fffff), .sbb 32 22 (.x 4) (.a 2) (.c 0x3fffff),
  .sbb 32 23 (.x 6) (.a 3) (.c 0x7fffff), .sbb 32 22 (.x 8) (.a 4) (.c 0x3fffff), .sbb 32 22 (.x 10) (.a 5) (.c 0x3fffff),
  .sbb 32 22 (.x 12) (.a 6) (.c 0x3fffff), .sbb 32 23 (.x 14) (.a 7) (.c 0x7fffff), .sbb 32 22 (.x 16) (.a 8) (.c 0x3fffff),
  .sbb 32 22 (.x 18) (.a 9) (.c 0x3fffff), .sbb 32 22 (.x 20) (.a 10) (.c 0x3fffff), .sbb 32 23 (.x 22) (.a 11) (.c 0x7fffff),
  .sbb 32 22 (.x 24) (.a 12) (.c 0x3fffff), .sbb 32 22 (.x 26) (.a 13) (.c 0x3fffff), .sbb 32 22 (.x 28) (.a 14) (.c 0x3fffff),
  .sbb 32 23 (.x 30) (.a 15) (.c 0x7fffff), .sbb 32 22 (.x 32) (.a 16) (.c 0x3fffff), .sbb 32 22 (.x 34) (.a 17) (.c 0x3fffff),
  .sbb 32 22 (.x 36) (.a 18) (.c 0x3fffff), .sbb 32 23 (.x 38) (.a 19) (.c 0x7fffff), .sbb 32 22 (.x 40) (.a 20) (.c 0x3fffff),
  .sbb 32 22 (.x 42) (.a 21) (.c 0x3fffff), .sbb 32 22 (.x 44) (.a 22) (.c 0x3fffff), .cmov 32 (.x 46) (.c 0) (.c 0xffffffff),
  .adc 32 23 (.c 0) (.x 1) (.and (.x 47) (.c 0x7ffdc7)), .adc 32 22 (.x 49) (.x 3) (.and (.x 47) (.c 0x3fffff)),
  .adc 32 22 (.x 51) (.x 5) (.and (.x 47) (.c 0x3fffff)), .adc 32 23 (.x 53) (.x 7) (.and (.x 47) (.c 0x7fffff)),
  .adc 32 22 (.x 55) (.x 9) (.and (.x 47) (.c 0x3fffff)), .adc 32 22 (.x 57) (.x 11) (.and (.x 47) (.c 0x3fffff)),
  .adc 32 22 (.x 59) (.x 13) (.and (.x 47) (.c 0x3fffff)), .adc 32 23 (.x 61) (.x 15) (.and (.x 47) (.c 0x7fffff)),
  .adc 32 22 (.x 63) (.x 17) (.and (.x 47) (.c 0x3fffff)), .adc 32 22 (.x 65) (.x 19) (.and (.x 47) (.c 0x3fffff)),
  .adc 32 22 (.x 67) (.x 21) (.and (.x 47) (.c 0x3fffff)), .adc 32 23 (.x 69) (.x 23) (.and (.x 47) (.c 0x7fffff)),
  .adc 32 22 (.x 71) (.x 25) (.and (.x 47) (.c 0x3fffff)), .adc 32 22 (.x 73) (.x 27) (.and (.x 47) (.c 0x3fffff)),
  .adc 32 22 (.x 75) (.x 29) (.and (.x 47) (.c 0x3fffff)), .adc 32 23 (.x 77) (.x 31) (.and (.x 47) (.c 0x7fffff)),
  .adc 32 22 (.x 79) (.x 33) (.and (.x 47) (.c 0x3fffff)), .adc 32 22 (.x 81) (.x 35) (.and (.x 47) (.c 0x3fffff)),
  .adc 32 22 (.x 83) (.x 37) (.and (.x 47) (.c 0x3fffff)), .adc 32 23 (.x 85) (.x 39) (.and (.x 47) (.c 0x7fffff)),
  .adc 32 22 (.x 87) (.x 41) (.and (.x 47) (.c 0x3fffff)), .adc 32 22 (.x 89) (.x 43) (.and (.x 47) (.c 0x3fffff)),
  .adc 32 22 (.x 91) (.x 45) (.and (.x 47) (.c 0x3fffff)), .set (.shl 32 (.x 92) 2), .set (.shl 32 (.x 90) 4), .set (.shl 32 (.x 88) 6),
  .set (.shl 32 (.x 86) 7), .set (.mul 32 (.x 84) (.c 2)), .set (.shl 32 (.x 82) 3), .set (.shl 32 (.x 80) 5), .set (.shl 32 (.x 78) 6),
  .set (.shl 32 (.x 74) 2), .set (.shl 32 (.x 72) 4), .set (.shl 32 (.x 70) 5), .set (.shl 32 (.x 68) 7), .set (.mul 32 (.x 66) (.c 2)),
  .set (.shl 32 (.x 64) 3), .set (.shl 32 (.x 62) 4), .set (.shl 32 (.x 60) 6), .set (.shl 32 (.x 56) 2), .set (.shl 32 (.x 54) 3),
  .set (.shl 32 (.x 52) 5), .set (.shl 32 (.x 50) 7), .set (.cast 8 (.and (.x 48) (.c 0xff))), .set (.shr (.x 48) 8),
  .set (.cast 8 (.and (.x 115) (.c 0xff))), .set (.cast 8 (.shr (.x 115) 8)), .set (.add 32 (.x 113) (.x 117)),
  .set (.cast 8 (.and (.x 118) (.c 0xff))), .set (.shr (.x 118) 8), .set (.cast 8 (.and (.x 120) (.c 0xff))), .set (.shr (.x 120) 8),
  .set (.cast 8 (.and (.x 122) (.c 0xff))), .set (.cast 8 (.shr (.x 122) 8)), .set (.add 32 (.x 112) (.x 124)),
  .set (.cast 8 (.and (.x 125) (.c 0xff))), .set (.shr (.x 125) 8), .set (.cast 8 (.and (.x 127) (.c 0xff))), .set (.shr (.x 127) 8),
  .set (.cast 8 (.and (.x 129) (.c 0xff))), .set (.cast 8 (.shr (.x 129) 8)), .set (.add 32 (.x 111) (.x 131)),
  .set (.cast 8 (.and (.x 132) (.c 0xff))), .set (.shr (.x 132) 8), .set (.cast 8 (.and (.x 134) (.c 0xff))), .set (.shr (.x 134) 8),
  .set (.cast 8 (.and (.x 136) (.c 0xff))), .set (.cast 8 (.shr (.x 136) 8)), .set (.add 32 (.x 110) (.x 138)),
  .set (.cast 8 (.and (.x 139) (.c 0xff))), .set (.shr (.x 139) 8), .set (.cast 8 (.and (.x 141) (.c 0xff))),
  .set (.cast 8 (.shr (.x 141) 8)), .set (.cast 8 (.and (.x 58) (.c 0xff))), .set (.shr (.x 58) 8),
  .set (.cast 8 (.and (.x 145) (.c 0xff))), .set (.cast 8 (.shr (.x 145) 8)), .set (.add 32 (.x 109) (.x 147)),
  .set (.cast 8 (.and (.x 148) (.c 0xff))), .set (.shr (.x 148) 8), .set (.cast 8 (.and (.x 150) (.c 0xff))), .set (.shr (.x 150) 8),
  .set (.cast 8 (.and (.x 152) (.c 0xff))), .set (.cast 8 (.shr (.x 152) 8)), .set (.add 32 (.x 108) (.x 154)),
  .set (.cast 8 (.and (.x 155) (.c 0xff))), .set (.shr (.x 155) 8), .set (.cast 8 (.and (.x 157) (.c 0xff))), .set (.shr (.x 157) 8),
  .set (.cast 8 (.and (.x 159) (.c 0xff))), .set (.cast 8 (.shr (.x 159) 8)), .set (.add 32 (.x 107) (.x 161)),
  .set (.cast 8 (.and (.x 162) (.c 0xff))), .set (.shr (.x 162) 8), .set (.cast 8 (.and (.x 164) (.c 0xff))), .set (.shr (.x 164) 8),
  .set (.cast 8 (.and (.x 166) (.c 0xff))), .set (.cast 8 (.shr (.x 166) 8)), .set (.add 32 (.x 106) (.x 168)),
  .set (.cast 8 (.and (.x 169) (.c 0xff))), .set (.shr (.x 169) 8), .set (.cast 8 (.and (.x 171) (.c 0xff))),
  .set (.cast 8 (.shr (.x 171) 8)), .set (.add 32 (.x 105) (.x 173)), .set (.cast 8 (.and (.x 174) (.c 0xff))), .set (.shr (.x 174) 8),
  .set (.cast 8 (.and (.x 176) (.c 0xff))), .set (.shr (.x 176) 8), .set (.cast 8 (.and (.x 178) (.c 0xff))),
  .set (.cast 8 (.shr (.x 178) 8)), .set (.add 32 (.x 104) (.x 180)), .set (.cast 8 (.and (.x 181) (.c 0xff))), .set (.shr (.x 181) 8),
  .set (.cast 8 (.and (.x 183) (.c 0xff))), .set (.shr (.x 183) 8), .set (.cast 8 (.and (.x 185) (.c 0xff))),
  .set (.cast 8 (.shr (.x 185) 8)), .set (.add 32 (.x 103) (.x 187)), .set (.cast 8 (.and (.x 188) (.c 0xff))), .set (.shr (.x 188) 8),
  .set (.cast 8 (.and (.x 190) (.c 0xff))), .set (.shr (.x 190) 8), .set (.cast 8 (.and (.x 192) (.c 0xff))),
  .set (.cast 8 (.shr (.x 192) 8)), .set (.add 32 (.x 102) (.x 194)), .set (.cast 8 (.and (.x 195) (.c 0xff))), .set (.shr (.x 195) 8),
  .set (.cast 8 (.and (.x 197) (.c 0xff))), .set (.cast 8 (.shr (.x 197) 8)), .set (.cast 8 (.and (.x 76) (.c 0xff))),
  .set (.shr (.x 76) 8), .set (.cast 8 (.and (.x 201) (.c 0xff))), .set (.cast 8 (.shr (.x 201) 8)), .set (.add 32 (.x 101) (.x 203)),
  .set (.cast 8 (.and (.x 204) (.c 0xff))), .set (.shr (.x 204) 8), .set (.cast 8 (.and (.x 206) (.c 0xff))), .set (.shr (.x 206) 8),
  .set (.cast 8 (.and (.x 208) (.c 0xff))), .set (.cast 8 (.shr (.x 208) 8)), .set (.add 32 (.x 100) (.x 210)),
  .set (.cast 8 (.and (.x 211) (.c 0xff))), .set (.shr (.x 211) 8), .set (.cast 8 (.and (.x 213) (.c 0xff))), .set (.shr (.x 213) 8),
  .set (.cast 8 (.and (.x 215) (.c 0xff))), .set (.cast 8 (.shr (.x 215) 8)), .set (.add 32 (.x 99) (.x 217)),
  .set (.cast 8 (.and (.x 218) (.c 0xff))), .set (.shr (.x 218) 8), .set (.cast 8 (.and (.x 220) (.c 0xff))), .set (.shr (.x 220) 8),
  .set (.cast 8 (.and (.x 222) (.c 0xff))), .set (.cast 8 (.shr (.x 222) 8)), .set (.add 32 (.x 98) (.x 224)),
  .set (.cast 8 (.and (.x 225) (.c 0xff))), .set (.shr (.x 225) 8), .set (.cast 8 (.and (.x 227) (.c 0xff))),
  .set (.cast 8 (.shr (.x 227) 8)), .set (.add 32 (.x 97) (.x 229)), .set (.cast 8 (.and (.x 230) (.c 0xff))), .set (.shr (.x 230) 8),
  .set (.cast 8 (.and (.x 232) (.c 0xff))), .set (.shr (.x 232) 8), .set (.cast 8 (.and (.x 234) (.c 0xff))),
  .set (.cast 8 (.shr (.x 234) 8)), .set (.add 32 (.x 96) (.x 236)), .set (.cast 8 (.and (.x 237) (.c 0xff))), .set (.shr (.x 237) 8),
  .set (.cast 8 (.and (.x 239) (.c 0xff))), .set (.shr (.x 239) 8), .set (.cast 8 (.and (.x 241) (.c 0xff))),
  .set (.cast 8 (.shr (.x 241) 8)), .set (.add 32 (.x 95) (.x 243)), .set (.cast 8 (.and (.x 244) (.c 0xff))), .set (.shr (.x 244) 8),
  .set (.cast 8 (.and (.x 246) (.c 0xff))), .set (.shr (.x 246) 8), .set (.cast 8 (.and (.x 248) (.c 0xff))),
  .set (.cast 8 (.shr (.x 248) 8)), .set (.add 32 (.x 94) (.x 250)), .set (.cast 8 (.and (.x 251) (.c 0xff))), .set (.shr (.x 251) 8),
  .set (.cast 8 (.and (.x 253) (.c 0xff))), .set (.cast 8 (.shr (.x 253) 8))], [114, 116, 119, 121, 123, 126, 128, 130, 133, 135, 137, 140, 142, 143, 144, 146, 149, 151, 153, 156, 158, 160, 163, 165, 167, 170, 172, 175, 177, 179, 182, 184, 186, 189, 191, 193, 196, 198, 199, 200, 202, 205, 207, 209, 212, 214, 216, 219, 221, 223, 226, 228, 231, 233, 235, 238, 240, 242, 245, 247, 249, 252, 254, 255]⟩

/-- `fiat_id_tc26_gost_3410_2012_512_paramSetC_inv`, lines 9218-9277; the variables are 0 = t1, 0 = output, 1 = acc, 2 = t2, 3 = t3, 4 = t6, 5 = t12, 6 = t24, 7 = t48, 8 = t96, 9 = t102, 10 = t198, 11 = t200, 12 = t400, 13 = t502. -/
def inv : List InvStep := [.sq 1 0 1, .mul 2 1 0, .sq 1 2 1, .mul 3 1 0, .sq 1 3 1, .sq 1 1 2, .mul 4 1 3, .sq 1 4 1, .sq 1 1 5, .mul 5 1 4,
  .sq 1 5 1, .sq 1 1 11, .mul 6 1 5, .sq 1 6 1, .sq 1 1 23, .mul 7 1 6, .sq 1 7 1, .sq 1 1 47, .mul 8 1 7, .sq 1 8 1,
  .sq 1 1 5, .mul 9 1 4, .sq 1 9 1, .sq 1 1 95, .mul 10 1 8, .sq 1 10 1, .sq 1 1 1, .mul 11 1 2, .sq 1 11 1, .sq 1 1 199,
  .mul 12 1 11, .sq 1 12 1, .sq 1 1 101, .mul 13 1 9, .sq 1 13 1, .sq 1 1 3, .mul 1 1 3, .sq 1 1 4, .mul 1 1 0, .sq 1 1 2,
  .mul 0 1 0]

/-- The constants, lines: `const_one` 9281-9289, `const_d` 9291-9299, `const_S` 9301-9309, `const_T` 9311-9319; the file has no others. -/
def consts : FiatConsts where
  one := [1, 0, 0, 0, 0, 0, 0, 0, 0, 0, 0, 0, 0, 0, 0, 0, 0, 0, 0, 0, 0, 0, 0]
  a := [0, 0, 0, 0, 0, 0, 0, 0, 0, 0, 0, 0, 0, 0, 0, 0, 0, 0, 0, 0, 0, 0, 0]
  b := [0, 0, 0, 0, 0, 0, 0, 0, 0, 0, 0, 0, 0, 0, 0, 0, 0, 0, 0, 0, 0, 0, 0]
  b3 := [0, 0, 0, 0, 0, 0, 0, 0, 0, 0, 0, 0, 0, 0, 0, 0, 0, 0, 0, 0, 0, 0, 0]
  d := [0x6e7550, 0x1b7667, 0x265181, 0x54456, 0x33f0af, 0x1e91a0, 0x1e78da, 0x2ce43e, 0x16609c, 0x28ae03, 0x273c14, 0x1ce535, 0x210504, 0xa2818, 0x31ebde, 0x506638, 0x1a016a, 0x3fc9b5, 0x1e6fad, 0x274b9e, 0x36367c, 0x18c017, 0x2793d7]
  S := [0x4621e, 0x292266, 0x166b9f, 0x1eaeea, 0x3303d4, 0x185b97, 0x1861c9, 0x74c6f0, 0xa67d8, 0x35d47f, 0x2630fa, 0x78c6b2, 0x37bebe, 0x1d75f9, 0x338508, 0x2be671, 0x297fa5, 0x200d92, 0x186414, 0x762d18, 0x27260, 0x9cffa, 0x61b0a]
  T := [0x7d1271, 0x2493bb, 0x310d95, 0x6b8b63, 0x3352c7, 0x1a6d9a, 0x51424, 0x5cd0b5, 0x23bac4, 0x1c1d00, 0x268a03, 0x5a2633, 0x302b80, 0x1706ae, 0x851fa, 0x62bbb4, 0x245591, 0x3ff6f3, 0x5129c, 0x313745, 0x13b3bf, 0x397559, 0x2698a3]

/-- The functions of the file. -/
def file : FiatSol where
  carry_mul := carry_mul
  carry_square := carry_square
  carry := carry
  add := add
  sub := sub
  opp := opp
  from_bytes := from_bytes
  to_bytes := to_bytes
  inv := inv
  limbs := 23
  consts := consts

/-- `lut_cmb`, lines 9322-12024. -/
def lut_data : List (List (AffE (List Nat))) := [
  [⟨[18, 0, 0, 0, 0, 0, 0, 0, 0, 0, 0, 0, 0, 0, 0, 0, 0, 0, 0, 0, 0, 0, 0], [0x1a3d, 0x7dce6, 0x3b0018, 0x65755c, 0x8b012, 0x309056, 0xe5ccb, 0x68c5d1, 0x3dd7e0, 0x67bc4, 0x3a96ca, 0x34a916, 0x37b386, 0x15845f, 0x368d9a, 0x405e50, 0x3efd86, 0x3c541, 0x15bbd0, 0x5732b2, 0x7d785, 0x39d1fb, 0x11a6bd], [0x1e12e, 0xd882c, 0x2601b2, 0x224088, 0x1c6152, 0x2a260e, 0x28653, 0x5de8b6, 0x192dce, 0x34b3d9, 0x1e9a35, 0x33e39c, 0x2a9f73, 0x34ebd, 0x15f4da, 0x6a1af, 0x2dd375, 0x3dea3, 0x734a1, 0x21908a, 0xd2766, 0x10c3a8, 0x3db95a]⟩,
   ⟨[0x714838, 0x3864c7, 0x15e5ee, 0x23e2f6, 0x1272f, 0x115410, 0x3575f4, 0x599e80, 0x1911c3, 0x16a65a, 0x1d472e, 0x6f3d5b, 0x10340f, 0xe837f, 0x27c450, 0x7123ec, 0x28cf66, 0xcd738, 0x28a9a, 0xcaee3, 0x261b2d, 0x1b65d5, 0x3754b], [0x62ff0c, 0x39ac13, 0x3468dd, 0x5cfc63, 0x3f7d2, 0x370ae6, 0x36c17a, 0x1d053e, 0x4e79d, 0x268c78, 0x38ab40, 0x7ddb1e, 0x3b4d93, 0x3572d3, 0x124d45, 0x72b7da, 0x18e151, 0x1874e3, 0x372e71, 0x505781, 0x19b7ef, 0x225c53, 0x8a46], [0x224325, 0x1b6a98, 0x3712f0, 0x29896c, 0x276411, 0x312c3d, 0x3c91a0, 0x5e5815, 0x297712, 0x3de7c7, 0x2d1f5f, 0x2bd84b, 0x31e9d5, 0x49136, 0x1802f2, 0x2f8cf5, 0x2db47f, 0x132c57, 0xa8508, 0x3d2b4c, 0x28bd48, 0x1d60c1, 0x3e0aa0]⟩,
   ⟨[0x30b9c8, 0x2685fc, 0x1b92bc, 0x18dfef, 0x22306a, 0x11c069, 0x3eb95c, 0x3f5ef0, 0x7c592, 0x381817, 0x10861d, 0x4d484, 0x23d575, 0x3f10b5, 0xa70aa, 0x4d7662, 0xdd1aa, 0x3fd38c, 0xa6668, 0x25165d, 0x181e91, 0xe23e5, 0x269040], [0x341e21, 0x257531, 0x967cf, 0x19ba94, 0x151857, 0x19aa1e, 0x7dc17, 0x11db85, 0x2d3151, 0x2cedd2, 0x24e69b, 0x1a161c, 0x1a4c0c, 0xaf920, 0x70d8c, 0x6577b1, 0x20ba5b, 0x3e2cb7, 0x2fdc2a, 0x35fbc6, 0x22fa7d, 0x33f920, 0x271d0d], [0x5e541e, 0x1d52c8, 0x1062dd, 0x24b0b7, 0x38ab52, 0x390136, 0x229fc, 0x83904, 0x1d494f, 0x3390ea, 0x2173e5, 0x3c560e, 0x2dbd84, 0x5f4e6, 0x27c060, 0x18f19, 0x21c09, 0x2c4427, 0x2af1d0, 0x137d94, 0x398a24, 0x15c3ee, 0x2465fe]⟩,
   ⟨[0x323c86, 0x177fda, 0x39b750, 0x273d46, 0x17fbdd, 0x2cf518, 0xbbf36, 0x5c0328, 0x2ce181, 0x6a3b, 0xe6e58, 0x239ab, 0x34c2ce, 0x74e3e, 0x3363f2, 0x95fce, 0x11caa2, 0x20baf6, 0x33ea63, 0x66a91e, 0x2cc83a, 0xd84ae, 0x1b7d65], [0x4cd0fd, 0x2320b8, 0x1cb711, 0x404c3f, 0x3a65b2, 0x256419, 0x163a1d, 0x7e15f5, 0x302b21, 0xc47d7, 0x3c9cbf, 0x2da840, 0x354b2a, 0x19f94, 0x5e8b1, 0x2b8f3d, 0x26c85c, 0x1f3dd4, 0x251d66, 0x48ec35, 0x206268, 0x2913a7, 0x1f1f83], [0x77f340, 0x8d7fb, 0x29e763, 0x797aaf, 0x60644, 0x35a5c, 0x9727, 0x626d74, 0x249825, 0x181fbf, 0x83b0b, 0x6f875, 0x331e5f, 0x343541, 0x37ad03, 0x4a743, 0x18465b, 0x203d5a, 0x2ca6be, 0x8aab6, 0x181a90, 0x2d8f7b, 0x153eb7]⟩,
   ⟨[0x18a411, 0x3a0221, 0x3c31b0, 0x798d8f, 0x2e6982, 0x3e68c9, 0x11c222, 0x4a377b, 0x1b47f3, 0x3998d9, 0x14ab3e, 0x58d2aa, 0x4e849, 0x1856b6, 0x9b3ea, 0x32f37e, 0x21a719, 0x2bd295, 0x14959e, 0x25e386, 0x3f0c52, 0x3fceaa, 0x263172], [0x1a14e2, 0x1f7d87, 0x30183e, 0x6d32ed, 0x2df898, 0x2cef71, 0x2646cb, 0x1b0dad, 0x1a7601, 0x20a57e, 0x8d5e8, 0x3faf5f, 0x128ed4, 0x25b18d, 0x2f0fa9, 0x3a6179, 0x78264, 0x351fe0, 0x74564, 0x1fb814, 0x3c2c48, 0x164834, 0x270d18], [0x33f8b7, 0x2f3a9d, 0xe251a, 0x30da6b, 0x26849c, 0x2d0b0c, 0x2c4bf7, 0x515301, 0x36f37, 0xa9dbf, 0x298cd0, 0x24a32b, 0x26d945, 0x2c3300, 0x268566, 0x1e4819, 0x102918, 0x235296, 0x1b311b, 0x7f2404, 0x38d33d, 0x1e3550, 0x90157]⟩,
   ⟨[0x320711, 0x340698, 0x1f056a, 0x3bd939, 0x3171b5, 0x38a716, 0x15fa28, 0x64ade0, 0xf0671, 0x1dcc6e, 0x21080e, 0x4176ee, 0x3eefbe, 0x14abf9, 0x11ce49, 0x5c1b2a, 0x1dccbc, 0xf5858, 0x14b76c, 0x2fef68, 0x13bba8, 0x271302, 0x2a675d], [0x22d5dc, 0x189878, 0x3957d3, 0x124011, 0xc0ff4, 0x21c5f0, 0x1cf183, 0x5c75fb, 0xa4a72, 0x1621e5, 0x2d902f, 0xa5e79, 0x7d979, 0x2fa252, 0x1a032c, 0x6e4700, 0x1cdded, 0x15afc0, 0x1b495c, 0x25bc0a, 0x3d6ab6, 0x1c2483, 0x2f3b9a], [0x57afe2, 0x3853aa, 0x381675, 0x53c924, 0x4a57a, 0x3a659f, 0x7371f, 0x6b5a26, 0x29ed43, 0xf437b, 0x3da56, 0x43a9b2, 0x1ed072, 0x2bf85e, 0x106d8, 0x4a67f0, 0x249fd9, 0x2b8c98, 0x11fd8e, 0x6ef5a5, 0x274425, 0x2a63c4, 0x10fe70]⟩,
   ⟨[0x3bffef, 0x28bc0f, 0xc1e3b, 0x332346, 0x97c49, 0x642a0, 0x1511eb, 0x662119, 0x38700f, 0x10075b, 0x217a9, 0x515d8a, 0x3768a5, 0x1aad, 0x33785, 0xeafda, 0x28d7ee, 0x386c98, 0x2309d6, 0x217545, 0x36e128, 0x36f567, 0x84d45], [0x6ddac3, 0x211a34, 0x334127, 0x68417f, 0x2536ca, 0x392b50, 0x121bf5, 0x6fae39, 0x1b66d6, 0x1a543, 0x47d4a, 0x320ef6, 0x32b862, 0xe86d1, 0x3b670, 0x4d6880, 0x17dced, 0x2d4cad, 0x2f1822, 0x61f872, 0x117a0e, 0x227cbf, 0x118a0f], [0x597549, 0x311975, 0x12ada8, 0xbf81e, 0x447db, 0x36564b, 0x36d4a4, 0x5a12b6, 0x1d943e, 0x1fa011, 0x22fc7d, 0x1b96f2, 0x197333, 0xf5f62, 0x26d265, 0xdbbe2, 0x2b31b9, 0x2bf98d, 0x25c030, 0x1a95a2, 0x3b2fa4, 0xb0c82, 0x21fee2]⟩,
   ⟨[0x15ee0d, 0x26feb, 0x3ad4f5, 0x3274ae, 0x1265e7, 0x17040f, 0x13c06e, 0x448f30, 0x134ed6, 0x2635d7, 0xb19b7, 0x44ca5a, 0x2d51cd, 0x3cbba9, 0xba676, 0x44e2e0, 0x2d3c1d, 0x1b2c78, 0x18cb04, 0xf06a8, 0x29faae, 0x3bd16d, 0x2947ad], [0xb19bd, 0x2858fe, 0x1456b, 0x651923, 0x153b6f, 0x192326, 0x1edfc6, 0x3af276, 0x39ee2, 0x85a43, 0x5be71, 0x91140, 0x2d46eb, 0x17e252, 0x5eb99, 0x2b8ae0, 0x1b76cf, 0x6af84, 0x353a13, 0x310d97, 0x23cc43, 0x112265, 0xe4e08], [0x172ba5, 0x224e8d, 0x8e83d, 0x6e0fd7, 0xca435, 0x3f7b82, 0x2ae24b, 0x203ae6, 0x1109aa, 0x2d29be, 0x209120, 0x435c39, 0x10375a, 0x3466d6, 0x3a4483, 0x4c88d7, 0x2b8fcf, 0xd4c74, 0xead7, 0x4e1d11, 0x8f6a2, 0x36c2a6, 0xf1ec2]⟩,
   ⟨[0x7f3a5f, 0x1992d7, 0x33f7ae, 0x399159, 0xea75b, 0x24be3f, 0x137150, 0x9c6c8, 0x224779, 0x24da62, 0x39d8c0, 0x274469, 0x59edb, 0x230792, 0x11ea0b, 0xaccb4, 0x1a5db9, 0x33f671, 0x8f9e0, 0x171663, 0x34d6e6, 0xfd1e8, 0x305366], [0x5edf20, 0x3a4158, 0x3152d2, 0x39738c, 0x219af4, 0xad69f, 0xa7ed, 0x6eb20, 0x1db459, 0x249c37, 0x8c20f, 0x4e26fa, 0x18a7f4, 0x2a583d, 0x26534, 0x4d37cc, 0x2bf41a, 0x4d4e5, 0x2b73a3, 0x3f1c84, 0x2883c4, 0x3bc222, 0x89d6c], [0x7b6e7f, 0x22175e, 0x285356, 0x25e3a3, 0x1037ef, 0x3ad3a2, 0x1c9c57, 0x504aae, 0x64ef6, 0x17470, 0x1db4a2, 0x5776df, 0x1e96ef, 0x17da2b, 0x2dd3d9, 0x73cbb8, 0x140a2f, 0x109b2e, 0xb5ea4, 0x64397, 0x884c, 0x89dd2, 0x2af788]⟩,
   ⟨[0x735fb2, 0x2f19a0, 0x30f84, 0x69d875, 0x30428e, 0x1c7831, 0x348247, 0x1553c9, 0x363ed5, 0x12e6ae, 0x297863, 0x5231b6, 0x76ef8, 0x2a51f3, 0x53479, 0x728729, 0x565e8, 0x253185, 0x373e1c, 0x173952, 0x378596, 0x35c7d9, 0x1afa68], [0x7813f3, 0x32a16a, 0x2dccb1, 0x20a412, 0x32ee55, 0x60b7c, 0x1221a, 0x746789, 0x2b0e40, 0x1d2dcc, 0xcb8ac, 0x1fc5bd, 0x3bcc70, 0x2c6f3, 0x6c465, 0x105d9d, 0xcb0ae, 0x2cf08c, 0x22b897, 0x4f105d, 0x2334a0, 0xc0a22, 0x2cf1f5], [0x505e0f, 0x12ed31, 0x2474ab, 0x24227c, 0x514ec, 0x1d9f97, 0x799fa, 0x6748ee, 0x1b12fa, 0x297127, 0x1ab293, 0x592de3, 0x202a4e, 0x28f351, 0x267888, 0x7c29e7, 0x191344, 0x3bb856, 0x3d0068, 0x6a2ecd, 0xffbc8, 0x1acf89, 0x12063a]⟩,
   ⟨[0x69fbfb, 0x156959, 0x608fa, 0x785c89, 0x3ac4c8, 0x27ab75, 0x1fcc4f, 0x1f7944, 0x17eb65, 0x3c2011, 0x325ca4, 0x1506dc, 0xe2144, 0x2d1626, 0x16961d, 0x363598, 0x3c4b42, 0x25df, 0x29e048, 0x36c933, 0x6a748, 0x3b1a3d, 0x72bbf], [0x347fd3, 0x23fec8, 0x365c46, 0x206227, 0x2642d5, 0xf856c, 0xd409c, 0x22dd47, 0x37edb3, 0x295e9b, 0x168c23, 0x6707a7, 0x191e7d, 0x1b783e, 0x3fb2d4, 0x6b0c90, 0x233284, 0xcd25a, 0x1f61f1, 0x4e3362, 0x2620f3, 0x36cd2, 0x187790], [0x415547, 0x56478, 0x3f9ae8, 0x2a78c9, 0xb1617, 0x2994fb, 0x17a9c0, 0x2443fa, 0x33c2a2, 0x314877, 0x3e8c07, 0x1d6145, 0x9e22b, 0x1e135d, 0x26e0f2, 0x76c01c, 0x9f80a, 0x38b123, 0x61f27, 0x37d737, 0x1266fa, 0x194f60, 0xa4432]⟩,
   ⟨[0x31c22e, 0x1b7130, 0x1e8939, 0x6f4f1f, 0x1b084a, 0xae27b, 0x243d6b, 0x341897, 0x185c0c, 0x283264, 0x33afef, 0x273c32, 0x37390a, 0x216908, 0xe39d, 0x22f13e, 0x23196, 0x266eda, 0x2e74b0, 0x68d67d, 0x19b003, 0x2462d8, 0x1d92fd], [0x3ae17c, 0x213d60, 0x246509, 0x243e35, 0xc9adf, 0x16b366, 0x61e45, 0x22a2b9, 0x6570f, 0x302a1d, 0x2e384b, 0x83836, 0x231790, 0x946a6, 0x1c75bc, 0x2f1936, 0x1f19e1, 0x20a5e8, 0x2ccc4b, 0x3c73d2, 0x13da6b, 0x150ac, 0x3d6e3c], [0x48f7fb, 0x78414, 0x25aa31, 0x24f2ea, 0x251a2f, 0x350186, 0x242828, 0x1af8f7, 0x1e7a82, 0x180fd1, 0x2c709a, 0x9ff0, 0x243cbb, 0x2ba544, 0xa79d6, 0x7fb7ba, 0x2e4f31, 0xd9ba1, 0x488df, 0x2bd096, 0x2360fa, 0x3c511a, 0x1a1012]⟩,
   ⟨[0xd6219, 0x1eb7ca, 0x290fb0, 0x4be668, 0x1673d0, 0x2187c6, 0x2109e9, 0x2142ad, 0x2b9655, 0x16bb18, 0x505a1, 0x3cf749, 0x508b1, 0x7750e, 0x11e906, 0x6bc76b, 0x10180a, 0x3f71c4, 0x25bbcb, 0x19e43e, 0xc640c, 0x23109, 0x36776c], [0x7854c6, 0x36123b, 0xfd077, 0x3a6383, 0x16a28, 0x23347, 0x355348, 0x309eb3, 0x13fc16, 0x127d7e, 0xa0b31, 0x619126, 0x32ce4a, 0x1c53ea, 0x9b36, 0x7ebf13, 0x153cec, 0x2f0b2b, 0x1fea94, 0x18dd53, 0x2dfe81, 0x250282, 0x28bbc9], [0x6bdfe8, 0x3d7d6c, 0x3081de, 0x3d3d16, 0x3cab31, 0x1c9412, 0x1096d6, 0x20b298, 0x22cdb0, 0x23945, 0x319aef, 0x316d40, 0x1efbbc, 0x30e49f, 0x2d6387, 0x7c9b05, 0xff238, 0x2ab556, 0x1d7a21, 0x746313, 0x2064f3, 0x159471, 0x6420e]⟩,
   ⟨[0xf873e, 0xa10cd, 0x2be785, 0x38b227, 0x34217f, 0x1dee7a, 0xef9ff, 0x642e35, 0x3bbd91, 0x394167, 0x11c45d, 0x248d59, 0x6caf4, 0x356b6a, 0xc93e3, 0x7df1c5, 0x15175f, 0x6774e, 0x2c2f46, 0x12a0b5, 0x26ac43, 0x316265, 0x17578e], [0x637692, 0x17aa0f, 0x349d7, 0x42bd56, 0x20ac26, 0x153d2e, 0x3bfe98, 0x45b29f, 0xc665a, 0x15f634, 0x31f264, 0x5c891, 0x3f619e, 0x28131c, 0x18d792, 0x6219ef, 0x39bd88, 0x1f8951, 0xe21df, 0x495ead, 0x342fca, 0x196c92, 0x1ef0fa], [0x47865a, 0x318d12, 0x3c903e, 0xbd15e, 0x3d2d6e, 0x2aa3a, 0x227179, 0x73cf23, 0x2dc1a1, 0xd9b0c, 0x11b186, 0x68972c, 0xc6df0, 0x77408, 0x28faee, 0x1c3c02, 0x37190a, 0x2f00e2, 0x1ec176, 0x72b55, 0x24e393, 0x32cf55, 0x1437cd]⟩,
   ⟨[0x6d31af, 0x321e4e, 0xca7ee, 0x5abb74, 0xc3a9, 0x19a488, 0x1861a0, 0x582f9d, 0x3cfd06, 0x2ea1af, 0x18a543, 0x10f4b5, 0x10715d, 0x1f9af3, 0x23023f, 0x1643e3, 0x215f28, 0x19fd03, 0x22e874, 0x3da8f6, 0x39620a, 0x22056a, 0xea069], [0x518c5, 0x1ae0bf, 0x94299, 0x1e2ded, 0x3500da, 0x9630e, 0x63632, 0x3387cc, 0x31191, 0x108cfd, 0x182e5f, 0x683906, 0x540a6, 0x28d759, 0x1ee5be, 0x66621, 0x1c501a, 0x13c28f, 0xa2aa3, 0x3f6a17, 0x7898a, 0x2e1235, 0x19a8], [0x6feed8, 0x1d5b2a, 0x3f2a5f, 0x97336, 0x37fb45, 0x2db6d6, 0x2cc41f, 0x3d7b28, 0x2f8ad4, 0x3151fc, 0x1c064a, 0x3c6241, 0x365f52, 0x1581a2, 0xc7bf2, 0x2ad32b, 0x9c743, 0x608a, 0x282f9a, 0x263a9c, 0x3d2500, 0x3476d7, 0x39390a]⟩,
   ⟨[0x4f5ad3, 0x1444fe, 0x6bafd, 0x61624f, 0x11230, 0x78216, 0x298470, 0x15013e, 0x3a1285, 0x16ea4d, 0x1dd727, 0x1a40e5, 0x2d2579, 0x1f10d3, 0x220c0b, 0xec9e4, 0x26bc42, 0x3ab97, 0x393447, 0x45b418, 0x6d93b, 0x10fc88, 0x64a8e], [0x6be9ea, 0xca597, 0x2253cf, 0x638639, 0x2b0b51, 0x30bc7, 0x323019, 0xcca80, 0x10e5f7, 0x2ec009, 0x15b4cb, 0x663cf0, 0x35a148, 0x2fa75b, 0x311933, 0x63c853, 0x11d6d9, 0x37f8df, 0x1cf5aa, 0x151b7a, 0xc96e3, 0x2c8326, 0x16832], [0x6a5978, 0x1a7f02, 0x354fe, 0x3933e3, 0x71810, 0x77d8, 0x33a7b3, 0x26f851, 0x34fef5, 0x10b6df, 0x3399ba, 0xdfb2b, 0x34476f, 0x346d99, 0x2f557e, 0x47897f, 0x348dbe, 0x1cde03, 0x2a740a, 0x66e864, 0x3c78b, 0x28392, 0x25f5db]⟩],
  [⟨[0x17286e, 0xf5a5c, 0x39b3ca, 0x1f9077, 0x1b296d, 0x5dc87, 0x1d0f98, 0x64781e, 0x93d05, 0x126b0f, 0xbba75, 0x44f9e6, 0x28e04b, 0x20a55e, 0x12f73b, 0x2cf153, 0x21678c, 0x2f8222, 0x15dd38, 0x687c5d, 0x27b303, 0x3155b8, 0x2b5fb6], [0x41e5e6, 0x6ce3f, 0x699c4, 0x1b1a07, 0x8be9d, 0xa3a3e, 0x229979, 0x5014a4, 0x2f0cb, 0x3b52a9, 0x83fdd, 0x47e479, 0x9dd35, 0x391b43, 0x21e9c2, 0x4d6c1f, 0xd8ab1, 0x2ac33d, 0x3f840f, 0x713093, 0x1f7d6c, 0x637c, 0x2a1b17], [0x2a0728, 0x22b9b0, 0x120094, 0x6af4e8, 0x3a01d1, 0x2767db, 0x238927, 0x68635d, 0x3ea0a, 0xfe41f, 0x3cb1ce, 0x133fa4, 0x2b3010, 0xd5d89, 0xf339f, 0x5d46a1, 0x290d2d, 0x1fc5be, 0x3a00f, 0x62dc95, 0x37cab9, 0x2a05e9, 0x2bbc6f]⟩,
   ⟨[0x706744, 0x19db10, 0x3f9b5c, 0xf3e76, 0x1b2506, 0x127bdf, 0xeb38d, 0x42e3c, 0x3df4c, 0x3b146c, 0x395196, 0x18e1d3, 0xf2464, 0x307efb, 0x2a190a, 0x58d3b4, 0x12c74a, 0x195650, 0xc0bf0, 0x1892b5, 0x6770f, 0x1a228b, 0x3113a8], [0x7384a0, 0x41291, 0x123686, 0x1ad842, 0x1e3157, 0x7a754, 0x905e0, 0x3bc7d8, 0x116fe2, 0x2d132f, 0xe6646, 0x64d804, 0x1ba830, 0x3695cb, 0x173e41, 0x5cfdbc, 0x2188cf, 0x1c1011, 0x19a6d6, 0x4789c9, 0x32435a, 0x2b1970, 0x3d40a8], [0x334e7f, 0xc23f4, 0x160b20, 0x3bf3ea, 0x3b5299, 0x1d3ec2, 0x36dae9, 0x58023b, 0xb5eaf, 0x371744, 0xef4d7, 0x8817f, 0x2be7f, 0x1eb13e, 0x2d1a5f, 0x69630f, 0x93d58, 0x36d385, 0x2a3045, 0x25c26b, 0x111e19, 0x1756bf, 0x35b39d]⟩,
   ⟨[0x545c3c, 0x137d2c, 0xe7fab, 0xeb9af, 0x2789fc, 0x1ef592, 0x34210a, 0x2a5180, 0x23edae, 0x307f6, 0x23cfac, 0x1bf315, 0x20b287, 0xa3de8, 0x189938, 0x378524, 0x2deddf, 0x215405, 0x1398b5, 0x4827a1, 0x18a82a, 0xab6b7, 0x214b8a], [0x1b6ee1, 0x134930, 0x2cb43d, 0x4dc974, 0x31eaf7, 0x3bda7e, 0x33618e, 0x4a982d, 0x1b6e94, 0xd4749, 0x7d19b, 0x5faab5, 0x3f714a, 0xe57a9, 0x28fdd3, 0x75bd17, 0x3d774f, 0xe4d55, 0x3ca227, 0xdf34f, 0x28970f, 0x36f5ea, 0x22bc1b], [0x475039, 0x230014, 0x1fea38, 0x5ccc55, 0x3c6941, 0x22517f, 0x2d30e5, 0x309b25, 0x34cc8, 0x356ed5, 0x14fca5, 0x36104b, 0x1d0f11, 0x273d12, 0x170f1b, 0x76d103, 0x1f613d, 0x1c9d53, 0x1f1400, 0x76a382, 0x25000d, 0x3b5419, 0x15987c]⟩,
   ⟨[0x7f4ac5, 0x8e500, 0x16ba4, 0x7474e5, 0x9cfb4, 0x1d6bb8, 0x3b23dd, 0x5db100, 0x8843b, 0x12da0a, 0x24794d, 0x26577b, 0x240e5e, 0x346c8e, 0x27dc8c, 0x634650, 0x195f50, 0x71e58, 0xa83cf, 0x1b8e3d, 0x1d4281, 0x14d35d, 0x2c222c], [0x20b3a0, 0x6028d, 0x2eb45a, 0x3df458, 0x1d376c, 0x18c400, 0x2c3a24, 0x319f9a, 0x22c40, 0x2f8c6, 0x22e290, 0x26fd32, 0x35216, 0x1d9c11, 0x1789f2, 0xb1e8a, 0xa64cd, 0x2909d1, 0x3f99fb, 0x53ece7, 0x67860, 0x2534b2, 0x3f2f3f], [0x231268, 0xed62f, 0x31d715, 0x518514, 0x3d37ef, 0x83cbe, 0x1e2ce4, 0x7ec3f7, 0x38fe97, 0x18e538, 0x14ef47, 0x7e9282, 0x2d63f2, 0x3161b4, 0x39adc6, 0x7ba2a, 0x1ff255, 0x1874f8, 0xaf0fd, 0x2aaab7, 0x298743, 0x333d31, 0xe50e3]⟩,
   ⟨[0xf76fa, 0x1833cd, 0x16a2d3, 0x6a2d69, 0x2f385, 0x1f8454, 0x3fe32a, 0x4babd6, 0x3fddb, 0x12096e, 0x24dc23, 0x636ce5, 0x55cb4, 0x4f203, 0x22c2df, 0x599d77, 0x38b010, 0x3624fa, 0x2121d8, 0x6eb595, 0xeb1ae, 0x33b6f0, 0x1072a8], [0x660a55, 0xc0424, 0x13326f, 0x530efa, 0x38052, 0x3a7413, 0xb6cf, 0x25ba64, 0x6a2be, 0x39b086, 0x7574e, 0x18fdbb, 0x714b1, 0x26708b, 0x515a5, 0x43defc, 0x2ce885, 0x171175, 0x2570f1, 0x4ee75a, 0x1930e0, 0x155bbd, 0xc64c5], [0x34919d, 0x1443db, 0x3e9123, 0xe1842, 0x3545c9, 0x98db4, 0x184a4d, 0x5dafc4, 0x98f85, 0x1ea9c6, 0x23826a, 0x69b06d, 0x1dfba9, 0x798be, 0xae8af, 0x236b65, 0x1846c8, 0x3ab8dd, 0x2c7db0, 0x74ea7, 0x2df25b, 0x1c28c7, 0x25b6de]⟩,
   ⟨[0x63c056, 0xf0f64, 0x3af88, 0x26ef3f, 0xacf8a, 0x3b178b, 0x1a1b3f, 0x2802be, 0x141f1b, 0x1188f2, 0x3b7121, 0x4b6a3, 0x17e723, 0x15df00, 0x395bae, 0x12a3e3, 0xd5b27, 0xef7a7, 0x108148, 0x27eaad, 0xbc9dc, 0x229bc0, 0x3e724e], [0x65e7f8, 0x1505d9, 0x2ac40c, 0x3163a4, 0x3edf4d, 0x4f661, 0x3262e7, 0x3b5607, 0x2d19b3, 0x107a09, 0xf13cc, 0x4c7800, 0x35b8e6, 0x254cd7, 0x6103f, 0x41f4f8, 0x122e7d, 0x201c99, 0x3f9160, 0x56128e, 0x32fa32, 0x19a4a9, 0x2e0115], [0x12d79a, 0xa6e34, 0x8d368, 0x1977f5, 0x11e966, 0x123fe5, 0x343fac, 0x12e1c9, 0x1aff6c, 0x23c0ec, 0x3a2a35, 0x5016a3, 0x2cf3b6, 0x78be6, 0x8be88, 0x5fc4fe, 0x2694, 0x258b13, 0xabdae, 0x4b9df4, 0x187a2f, 0x36ec5b, 0x2b7df6]⟩,
   ⟨[0x6dae2c, 0x32cf3, 0x2d7562, 0x32ff5d, 0x70816, 0xd011d, 0xe17b7, 0x38556c, 0x3da262, 0xac037, 0x112ae7, 0x1eb223, 0x2587c3, 0x1a3f55, 0x22e756, 0x7d6544, 0x35e36c, 0x298741, 0x1945d2, 0x7e68fa, 0x3f5793, 0x13306c, 0x21451], [0x7cb839, 0x1964d3, 0x7ed8e, 0x3aef58, 0x2bc177, 0xf6696, 0x1caeb, 0x509c2b, 0x3f5dbb, 0x1131ed, 0x151301, 0x31f44f, 0x1d60f9, 0x1a36a3, 0x2696d3, 0x713749, 0x415f4, 0xc2e1e, 0x18e7ee, 0x6737c5, 0x71bb7, 0x8c358, 0x1f1407], [0x42c734, 0x9034, 0x1689fc, 0x66e68, 0x18f756, 0x1dcfdf, 0x83dcc, 0x3841c9, 0xdd192, 0x122593, 0x31a8dd, 0x341616, 0x196d74, 0xb8d12, 0xb5714, 0x6030fc, 0x390678, 0x3ab96c, 0x53f6e, 0x2c04ab, 0x1d12c3, 0x35009e, 0x3dc316]⟩,
   ⟨[0x3d2ee8, 0xeddf2, 0x16bd70, 0x320c0c, 0x52f43, 0x2fa0a8, 0x65472, 0x29362, 0x2c27a2, 0x5e1bb, 0x19992c, 0x30905, 0xbf0f4, 0x209691, 0x350247, 0x57e044, 0xe41cd, 0x17f9ee, 0x78967, 0x6ace99, 0x7c820, 0x113d5c, 0x38da0a], [0x83fe6, 0x1c1bc1, 0xeb8d8, 0x7692b, 0x281516, 0x155672, 0xd8b29, 0x3e13e4, 0x3138bc, 0x3cace6, 0x35fa0f, 0x23164a, 0xec9e6, 0x23b1c7, 0x225bff, 0x7740c9, 0x30f788, 0x6d8c, 0x2d6bd, 0x2603ce, 0x5485e, 0xe66c9, 0x19e3e], [0x1300d5, 0x2c1c24, 0x32064c, 0x43f0e6, 0x860bc, 0x14a553, 0x36075b, 0x1987d7, 0x2754f6, 0x385eef, 0x13d858, 0x2c23bb, 0x32c81d, 0xe6f7d, 0x3c8eb3, 0x3644d0, 0x13d21a, 0x31fb11, 0x28b7b0, 0xe500e, 0x1da66d, 0x20b336, 0x364559]⟩,
   ⟨[0x8f24b, 0x3022f1, 0x292d14, 0x9db0, 0x12884b, 0x2cb622, 0x9d61f, 0x10ff0b, 0x5c248, 0x128df1, 0x14dd06, 0x6c833, 0x177e25, 0x37c0e, 0x29c2cd, 0x72de1, 0x1f0312, 0x13fa86, 0x2e1d55, 0x102de, 0x326586, 0x89c95, 0xd11ca], [0x1e5a41, 0x14b02f, 0x2afda8, 0x3c8a99, 0x304a64, 0x254b15, 0x1deb3, 0x481e27, 0x32a61c, 0xd6970, 0x182caa, 0x34ec0a, 0x19a25d, 0x1c8588, 0x3f689b, 0x233bd8, 0x3abcaa, 0x33e7af, 0x375fa3, 0x1c8d11, 0x21737a, 0x102c76, 0xc7526], [0x352e1e, 0x2092b9, 0x8105c, 0x7fb15d, 0x255dd0, 0xf061b, 0x16c72f, 0x6e33f5, 0x3a9dd5, 0x39695d, 0x3502fe, 0x3a705f, 0x370221, 0x30642f, 0x163d04, 0x7bf9ac, 0xa4c37, 0x1e0389, 0x1214ff, 0x1ff3d6, 0x3d5c3d, 0x28cf11, 0x1aaa6a]⟩,
   ⟨[0x5bf790, 0x7d0f3, 0x1c51d, 0x20772c, 0x200268, 0x1b52f, 0x279abe, 0x1f71cf, 0x375d44, 0xf0f65, 0x27410e, 0x3d9be0, 0x2c960c, 0x3c9c, 0x3a7a25, 0x4f1756, 0x2cbe23, 0x4069a, 0x182c17, 0x5cfaf2, 0x26993, 0x9da3a, 0x39f360], [0x364e82, 0x346d3, 0x3d3445, 0xa6b7, 0x37bd7, 0x1658ec, 0xb914, 0x6fa605, 0x1454eb, 0x2ce3c8, 0x3d9acc, 0x7af12d, 0x21d6dc, 0x2cc083, 0x1879ba, 0x51ee63, 0x19f677, 0x10ad1f, 0x2a0f9b, 0x41ea60, 0x277936, 0x380ad2, 0x1d4704], [0x4bfec6, 0x1b656, 0x2537a7, 0x74f164, 0x3daaee, 0x30b1b3, 0x28efd7, 0x63000e, 0x2e7006, 0x6d43f, 0x3a92b0, 0x5cbf0d, 0x1b3d1c, 0x155a03, 0x13bcfb, 0x22e3ea, 0x9a093, 0x372b6d, 0x3b3d4a, 0x22bbae, 0x2c8021, 0x2f7acb, 0x2885fe]⟩,
   ⟨[0x3234ef, 0x29b8c5, 0x1ae10c, 0x16cd11, 0x3acd42, 0x9111e, 0x2e5197, 0xcf7dd, 0x2a45e, 0x13dcb9, 0x11df8a, 0x41e6a2, 0x3d6bec, 0x19831c, 0x26f1bd, 0x1f02be, 0x291ad9, 0xaead3, 0x655db, 0x4c8dc1, 0x27bf77, 0x17e4ad, 0x376e83], [0x6c4c88, 0x3238da, 0xd5920, 0x2db750, 0x35fa90, 0xc2bc9, 0x2db3d0, 0x373a80, 0x2e0271, 0x3818b5, 0x3209d6, 0x3d0a96, 0x7be66, 0x306a1a, 0x1e42d6, 0x21c5c7, 0x255b61, 0x2e2400, 0xb30c1, 0x12f49e, 0xe248a, 0x3bbe77, 0x8eeed], [0x14067a, 0x2cf299, 0x82bef, 0x130694, 0x18c073, 0xca3aa, 0x128835, 0x23457e, 0xff51f, 0x3f8c44, 0x3fa288, 0x269665, 0x80b90, 0xcfee1, 0x3f3285, 0xdf6ee, 0xb1087, 0x107d3d, 0x311e7d, 0x7ca53c, 0x33fca6, 0x263a19, 0x363624]⟩,
   ⟨[0x1ddc6c, 0x3a0ede, 0x1408d0, 0x1eee7b, 0x1405fc, 0x128750, 0x2ca34c, 0xfbea, 0x6137a, 0x370d1a, 0x3b6a04, 0x57d79, 0x28b50f, 0x13a132, 0x7eb68, 0x7a7017, 0x2517c9, 0x219256, 0x3e617c, 0x456ece, 0x11278f, 0x1624f1, 0x3c0f7], [0xaf6c0, 0x3da705, 0xcc5a4, 0x45a7b, 0x30e620, 0x5489d, 0x350783, 0x53dbd, 0x16c68b, 0x2d182b, 0x294a05, 0x749de2, 0xddd4d, 0x3b31a2, 0x197d97, 0x6bbe3e, 0x3ff605, 0x49d4f, 0x312e4d, 0x3f5019, 0x3e1c7f, 0x3d1c1d, 0x3d261e], [0x26418d, 0x292458, 0x1a1fc4, 0x617df6, 0x24eef7, 0xf2bd5, 0x34e0b9, 0x6c6d66, 0x74ba2, 0x1a4d76, 0x306be0, 0x2376e, 0x5ef92, 0x3ebb91, 0x24ba60, 0x1ba73c, 0x222a6b, 0x18daef, 0x141de7, 0x390908, 0x35530c, 0x2cd8d, 0x77882]⟩,
   ⟨[0x440de3, 0x2d9bf2, 0xc1e19, 0x13c1c8, 0x318020, 0x1dcaec, 0x64315, 0x335fb3, 0x146401, 0x35671e, 0x8e31d, 0x69e0db, 0x71fa1, 0x39cf3b, 0x18e811, 0x2db19f, 0x1279c0, 0x29fdeb, 0x2ef592, 0x5f5f4a, 0xa323a, 0x2c8bbb, 0x326780], [0xcb270, 0x86bd0, 0x36c911, 0x5f16e, 0x359a7c, 0x33ffdf, 0x2fe3cf, 0x286ebc, 0x282c12, 0x32282a, 0x2231da, 0x319, 0x3d8930, 0x2056b8, 0x3104e7, 0x6e83c, 0x3636a, 0x24cb95, 0x2de038, 0x81e87, 0x34b889, 0xf9915, 0x310022], [0x40a26d, 0x2410e6, 0x33665c, 0x5eb45d, 0x1c554, 0x31d73, 0xea84f, 0x6564d6, 0x1f3357, 0x20481a, 0x180940, 0x3bf11d, 0x2af372, 0x2559bc, 0x178008, 0xa361c, 0x37281d, 0x742c0, 0x3b03d2, 0x5eba80, 0x3348ee, 0x332c9e, 0x131d23]⟩,
   ⟨[0x4f558d, 0x110d2e, 0x10b290, 0x298f39, 0x1a9dd0, 0x45042, 0x74453, 0x31d6d7, 0x7787f, 0x2daaa8, 0x3148f0, 0x14722, 0x1a5f6a, 0x101bc3, 0x127243, 0x7d18a1, 0x2a51d2, 0x25ed49, 0x3d93ac, 0xa172, 0x2d4427, 0x35288c, 0x733e5], [0x4f5f03, 0x3e1845, 0x6aeb2, 0x72b386, 0x309db4, 0x2e4ae4, 0x1c33c4, 0x64aa28, 0x3a80e7, 0x18d735, 0x35e7ab, 0x49c50a, 0x11bf7d, 0x1cf85a, 0x310dd1, 0x755de3, 0x1ef133, 0x19ec22, 0x93bf1, 0x79c3ff, 0x35788e, 0x3bce6d, 0x319941], [0x320489, 0x13dd6f, 0x30c812, 0x58efb4, 0x199a57, 0x1dcc5, 0x397377, 0x6262b8, 0x2b88c5, 0x9a7a2, 0x243a8, 0xfe111, 0x388c89, 0x11a2e9, 0x227dae, 0x4e02b8, 0x4e7bc, 0x3b33f, 0x3c0c6, 0x25df7e, 0x3a82e0, 0x3930ee, 0x13c142]⟩,
   ⟨[0x66cdfe, 0xf2eac, 0x131171, 0xd830c, 0x73abf, 0x6d5db, 0x19f2ed, 0x7d8846, 0x2cde7e, 0x1f8420, 0x248809, 0x70e344, 0x68413, 0x706e0, 0x2454a6, 0x3c1f38, 0x20840e, 0x308f2a, 0x3b026e, 0x55d941, 0x26cd7d, 0x41ffb, 0x16e182], [0x498ea7, 0x28466b, 0x2ee6e4, 0x5adb8e, 0x34df94, 0x16e8fa, 0xdd486, 0x22172a, 0x26f797, 0x3ea2f7, 0x3f32fe, 0x761c80, 0x141a4b, 0x3a2dc0, 0x3f2489, 0x284ebf, 0x324946, 0x98dc6, 0x140160, 0x1637dd, 0x32460f, 0x1dcd38, 0x24f529], [0x33f90c, 0xb2b06, 0x10ac6c, 0xd4c79, 0x28accf, 0x3882b8, 0x3627fd, 0x77768c, 0x60b8a, 0x175ab9, 0x20a7d7, 0x36e54c, 0x26b20a, 0xe710c, 0x24597d, 0x19e845, 0x28672c, 0x21b0cc, 0x23d9e3, 0x1692c6, 0x1d045, 0x97657, 0x370f6]⟩,
   ⟨[0x7b9005, 0x27b1d5, 0x30bca5, 0x33e7a3, 0x260d50, 0x425f4, 0x2bf81b, 0x56dc12, 0x1c3248, 0x23be6a, 0x31838d, 0x6c6dd9, 0x2fd065, 0x3ec34d, 0x1b79c8, 0x61cfcc, 0x2c377e, 0x5c2a1, 0x142560, 0x7dccb, 0x238949, 0x11710d, 0x36ae4c], [0x2c3f57, 0x7550e, 0x145d0d, 0x172c44, 0x166b15, 0x3f673a, 0x1f41b9, 0x38e3e7, 0xed8fe, 0x26f447, 0x141659, 0x4024ea, 0x14c9b2, 0x21b32a, 0x362710, 0x791c00, 0x12a6f2, 0x3e23ae, 0x359c46, 0x56019b, 0x24cd68, 0x18639d, 0xaa1e5], [0x3eb03a, 0x5bd4e, 0x26a08d, 0x767fc9, 0xae7a8, 0x302eff, 0xe751e, 0x221eb, 0x13d036, 0xb5f88, 0x195de4, 0x7c1167, 0xf8bfb, 0x2a2bf5, 0x1374e2, 0x5baa0d, 0x34a333, 0x2db57e, 0x2a02cc, 0x497d58, 0x647e9, 0x212584, 0x28ae2e]⟩],
  [⟨[0x56caa9, 0x2ed942, 0x66832, 0xe005c, 0x212c9, 0xa5796, 0x39920f, 0x85f1d, 0x361285, 0x307080, 0x62627, 0x7d6aaa, 0x2fad3a, 0x1f916b, 0x19cded, 0x60f8ef, 0x6cd6, 0x9a576, 0x4244c, 0x56b6f1, 0x27d5ec, 0x1c22fe, 0x20ca2b], [0x638473, 0x28a459, 0x8f882, 0x300359, 0x1a0569, 0x733c8, 0xaa690, 0x2854fd, 0x3a42ab, 0x5d85, 0x3ec955, 0x276dab, 0x2c69d6, 0x28e861, 0x3c6252, 0x1693c6, 0x67c90, 0x135d5a, 0x19baa5, 0x638a4d, 0x1c54f3, 0x36958e, 0x229409], [0x3694ad, 0x3cdd1d, 0x2bb2cb, 0xf907f, 0x217793, 0x1c10f3, 0x7c509, 0x55ed5b, 0x3fc009, 0x13833e, 0xafdaf, 0x3dfb2, 0x2ebc1f, 0x268005, 0x28835f, 0x2fe0af, 0x2e65e7, 0x2d7ac4, 0x16b704, 0x34371a, 0x333d73, 0x117f49, 0x3508fb]⟩,
   ⟨[0x24288f, 0x3dd4, 0x121c5c, 0x771cbc, 0x3bf063, 0x2294b, 0x31319f, 0x643727, 0x319f6f, 0x8b82b, 0x101d49, 0x546ee5, 0x238c40, 0x30cac, 0x190408, 0x7c0f5a, 0x15eafd, 0x24a8f, 0x365016, 0x2d2dba, 0x1f751c, 0x3964a, 0x2f92cb], [0x561a15, 0x3b4c37, 0x1c36b5, 0x2ed2e4, 0x2231b, 0x1adaf5, 0x270194, 0x9dbf0, 0x287239, 0x80b2d, 0x2eb25e, 0x32ed93, 0x164dc0, 0x2f327a, 0x130078, 0x1841d3, 0x49bc2, 0x48e93, 0x1b59e7, 0x6243c6, 0x394260, 0x17bc8d, 0x176b2a], [0x41022, 0x6b154, 0x27cadc, 0x627b5a, 0x1965da, 0x2d1bdb, 0x1b16fe, 0x16a869, 0x2540ea, 0x3b4b72, 0x13eccc, 0x581a5a, 0x2c2192, 0x2588bf, 0x1cc31e, 0x53d1b3, 0x3845c2, 0x234bbe, 0x7abdf, 0x567dc1, 0x204d8e, 0x161734, 0x62c35]⟩,
   ⟨[0xdd434, 0x27577f, 0x224bab, 0x1f24c1, 0x225696, 0x241e15, 0x1cebf5, 0x5549c7, 0x3c9373, 0x2dcba3, 0x2a3cba, 0x1ee227, 0x20fd58, 0x7bff7, 0x341b3d, 0x47e8d4, 0x11c543, 0x386e9e, 0x232b8f, 0x43836a, 0x1e14c, 0x136e35, 0x2d423a], [0x5da3dc, 0x3e4b5e, 0x182e1b, 0x4d3f17, 0x358964, 0x2f6cdb, 0xfa963, 0x530f85, 0x3fce01, 0x27b181, 0x16c4e2, 0x1a24b7, 0x3a2690, 0x2bad95, 0xa878e, 0x49fa0f, 0x200790, 0x7745a, 0x1a19fb, 0x524e6f, 0x167aef, 0x318813, 0xbf477], [0x446ffb, 0xe720d, 0x13a7ad, 0x2f3160, 0x20aca2, 0x31e19f, 0x2c99c7, 0x53fc61, 0xb444b, 0x432e3, 0x20dfe5, 0xdcbd, 0x2a6660, 0x35a737, 0x16191b, 0x6dfef3, 0x7d074, 0x15b6da, 0xe1d85, 0x40898c, 0xf18dd, 0x16a189, 0x259e34]⟩,
   ⟨[0x4d2036, 0x198b36, 0x6cedc, 0x28c725, 0x3381ea, 0x37c857, 0x239ae3, 0xb8343, 0x13b8a1, 0x4ca9c, 0x341f6f, 0x2c9d36, 0x2b4ce, 0xf979a, 0x5e1a, 0x3c162, 0xc805d, 0x171240, 0x200e07, 0x5b5010, 0x19d606, 0x226023, 0x23d266], [0x240cf2, 0x2268f3, 0x25d159, 0x3c1b6f, 0x214c16, 0x22d5ea, 0x1d06d1, 0x7104a8, 0x2198f4, 0x2eae4a, 0x1a0374, 0x128b26, 0x156b81, 0x380ab8, 0xb34, 0x32fd36, 0x35997f, 0x1ddd23, 0xf9701, 0x3d11dd, 0x219a73, 0x9572e, 0x7e79a], [0x4e4ad4, 0x38839d, 0x31f346, 0x188c54, 0xce5e2, 0xbcb59, 0x36662e, 0x7df8fb, 0xe4805, 0x38edc7, 0x209bb0, 0x6a5b00, 0x5dc69, 0x1ae66c, 0x175257, 0x6d0bbf, 0x158611, 0x3efea8, 0xe0c1d, 0x50dc3b, 0x8337, 0x1869c2, 0x3fd81d]⟩,
   ⟨[0x50cb64, 0x2429a6, 0x382136, 0x54f357, 0x3794a8, 0x1f187a, 0xf2e75, 0x1ac75c, 0x2c3e90, 0x2e6b5e, 0x39ac0e, 0x4f180b, 0x20c545, 0x3fd3eb, 0xc1453, 0x17fab0, 0x2e55de, 0x31c1c1, 0x2659ca, 0x53e22f, 0x377ea4, 0x11c7af, 0x5e66b], [0x5f2793, 0xfabf6, 0x138db2, 0x3ef56, 0x3c44cd, 0x2d1772, 0x296103, 0x10a045, 0x3f081b, 0x3ca53, 0x319331, 0x1f65b4, 0x2e09b1, 0x3544f7, 0x2e0977, 0x7a91c1, 0xe98e1, 0x3c2830, 0x1f751e, 0xfe9de, 0x104ca6, 0x84e9f, 0x2edf68], [0x1753ae, 0x15176b, 0x1d49c2, 0x5271f0, 0xe3b9d, 0x2a9e63, 0x147498, 0x28c096, 0x38f62a, 0x1e8789, 0x1e1d5c, 0x3504a2, 0x26fe76, 0x1c16a5, 0x1b3f89, 0x43db5a, 0x106cd7, 0x317e3f, 0x332597, 0x3737fb, 0x3f7130, 0x2a1ea9, 0x3be9de]⟩,
   ⟨[0x3fc808, 0x2f762e, 0x3004d3, 0x384db9, 0x2349a4, 0x32b0e8, 0x152a07, 0x361460, 0x39bdd3, 0x17d898, 0x228c11, 0x61443c, 0x33c414, 0x1922e8, 0x33eb75, 0x6856cb, 0xd4491, 0x89ed9, 0x1713b8, 0x737ca, 0x37b4bb, 0x137c25, 0x157928], [0x5c5870, 0x13a25a, 0x1376b2, 0x7f3687, 0xdd1ca, 0x144bd1, 0x205b88, 0x30b67a, 0x2f2ed7, 0x2bbb97, 0x6de0e, 0x42d5ef, 0x20bc9e, 0x1dfaca, 0x176018, 0x557358, 0xa2a03, 0x17f6aa, 0x1a348a, 0x63ccce, 0x19e3cd, 0x1caf72, 0x8a7ac], [0x73284, 0x16a772, 0x1b02b4, 0x3dcc2c, 0x1275ac, 0x13ec26, 0x39548f, 0x32ac62, 0x2e6d0f, 0x20a687, 0x34013d, 0x2fbd07, 0x27b2fe, 0xab0f8, 0xdfcfe, 0x4b5db3, 0x31570e, 0x2a4886, 0xaa957, 0x5d7580, 0x1ebed6, 0x253717, 0x1a649b]⟩,
   ⟨[0x6c4cb2, 0x1fb3e4, 0x15b9f8, 0x361781, 0x2c10d3, 0x1d9d87, 0x34274c, 0x21ebf4, 0x33dc87, 0xadd4d, 0x3051cc, 0x69d7f2, 0x2cfffe, 0x14e44a, 0x49ca0, 0x3cbed6, 0x1bf1e2, 0x14c23e, 0xb6eb5, 0x2db65d, 0x5cb32, 0x38b9c, 0x7883b], [0x3ef9a6, 0x1e1e72, 0x118e1f, 0xdd4ee, 0x1621a6, 0x3726a5, 0x5cb81, 0x66ce7a, 0x248a4, 0x2d7afd, 0x14acd8, 0x25639c, 0x9a8a5, 0x3318f4, 0xf0bf7, 0x5062de, 0x24a9, 0xe22d2, 0x1e48e9, 0x21e288, 0x36db79, 0x2f277c, 0x2b4193], [0x1ea6fe, 0x31ee3b, 0x45d18, 0x7b886d, 0x3ab025, 0x3cb9dc, 0x1e395d, 0x3b02bb, 0x117981, 0x19571f, 0x12104c, 0x15b662, 0x2c613a, 0x70ffa, 0xf20bb, 0x70246f, 0x3ae4d8, 0x2c3692, 0x2ba766, 0x6979ec, 0x1ee4fa, 0x3fc3ae, 0x97753]⟩,
   ⟨[0x4f1de3, 0xc6911, 0xa47c8, 0x1d1bd1, 0x2f9d0e, 0x28b6c, 0x30b56d, 0x7338c9, 0x444b1, 0x39a863, 0x14fd9b, 0x29ba71, 0x2f8e1d, 0x12c499, 0x73ffa, 0xc56d4, 0x14a736, 0x3a7177, 0x1ce30c, 0x3aaf39, 0x22b563, 0x36e7cc, 0x37afcd], [0x58f41d, 0x140257, 0x211567, 0x7dda65, 0x22c062, 0x1ed494, 0x18952b, 0x649d74, 0x29bec2, 0x20c9da, 0x17b4bc, 0x68e1ee, 0x8d396, 0x101e55, 0x179ef9, 0x704d7b, 0x225fe0, 0x33ad09, 0xd6f51, 0x617587, 0x14347, 0x6d488, 0xa58ea], [0x62169e, 0x3ec8cd, 0x241534, 0x6f5f65, 0x2b9962, 0x142663, 0x88e95, 0x730fe3, 0x331a06, 0x27e7bd, 0x364306, 0x3e391e, 0x313667, 0x198427, 0x226ada, 0x566f4b, 0x21a27c, 0x17bbd7, 0x3d41db, 0x28bb58, 0x3278b2, 0x6e057, 0x3c841]⟩,
   ⟨[0x687d5d, 0x3309ef, 0x346ce5, 0x1ff1ab, 0x3d2116, 0x18305d, 0x49468, 0x61bceb, 0x157fa5, 0x36cfd, 0x17b473, 0x536514, 0x35be53, 0x31fbf4, 0x138689, 0x459fc3, 0x382e53, 0x9dce1, 0x1e636a, 0x2622fe, 0x14a044, 0x145177, 0x2c68b2], [0x7cde9, 0x5e108, 0xd8163, 0x3f9a62, 0x1c6bbe, 0x202790, 0xb515c, 0x6a300, 0x15f9a6, 0x2a1527, 0x3a73eb, 0x6f181c, 0x175b8c, 0x2a4da4, 0x768f8, 0xe56e3, 0x29b426, 0x11186f, 0x3175d0, 0x29b106, 0x1ef0b9, 0x1139e2, 0x35aca5], [0x4b2ae1, 0x1424f0, 0x110341, 0xc7518, 0x1685e7, 0x16192f, 0x28cf4c, 0x637208, 0x3fcbd2, 0x348a0e, 0x34bdb7, 0xe99f6, 0x1472cd, 0xf1faa, 0x102ea2, 0x579d10, 0x229c04, 0xda721, 0xc0d5e, 0x4201f5, 0x13fc8, 0xdfa6e, 0x260016]⟩,
   ⟨[0x71785f, 0x2a6790, 0x374b9a, 0x5c47e4, 0x295cbc, 0x17c2f6, 0x2dd473, 0x3079a, 0x1b4cd6, 0x24c5e5, 0x319f1c, 0x436f1d, 0x1a1ef6, 0x3d299, 0x382ba2, 0x60e409, 0x23098, 0x171ebd, 0x20240f, 0x330d1e, 0x17e024, 0x9ac85, 0x1b14b7], [0x3c69f8, 0x119ef1, 0x2e2839, 0x778f4b, 0x39f0c, 0x23a6c4, 0x3f874d, 0x5e260a, 0x3d33f7, 0x2c9846, 0x187047, 0x7b8c63, 0x273788, 0xa168b, 0x3c94cf, 0x58bb90, 0xb16b8, 0x3e3a1e, 0x18e21b, 0x7a9202, 0x302517, 0x154f91, 0x846a0], [0x1a0fde, 0x153d67, 0x336333, 0x3c90a4, 0x94797, 0x312d2a, 0x1003f0, 0x7fbc25, 0x3df24, 0x237ac4, 0x194267, 0x2396ed, 0x24617, 0x16c8cb, 0x152d85, 0x16d3de, 0x262957, 0x311596, 0x3ec838, 0x1975c2, 0x34fe59, 0x113d00, 0x2243ac]⟩,
   ⟨[0x68a405, 0x34c98b, 0x7e397, 0x558483, 0x956ce, 0x2e1cca, 0x5043d, 0x476a5e, 0x28457f, 0x3988df, 0x37a1bc, 0x47942d, 0x124d2e, 0x3ae5e0, 0xb4291, 0x4d22eb, 0x14b7cf, 0x28b3d4, 0x3ccb59, 0x190521, 0xa108d, 0x3a6057, 0x172d60], [0x2b251d, 0x13d428, 0xae878, 0x5fa00d, 0x260531, 0x329563, 0x216c5, 0xd16be, 0x9e37e, 0x3f37e0, 0x1aef12, 0x64e859, 0x19915b, 0x5bff9, 0x3958ed, 0xc4e03, 0x8b99a, 0x1c38f2, 0x3d7dc0, 0x2f8014, 0x1cec59, 0x34ab43, 0x13d729], [0x6f3bd9, 0x150f71, 0x2a3f95, 0x68e792, 0x16cf11, 0x1b8a33, 0x2e5920, 0x38f685, 0x2cdf4a, 0x27cb65, 0x2df482, 0xa0b78, 0x309c5f, 0x3b06d3, 0x13dae0, 0x554bde, 0x17ec53, 0xf50f5, 0x101ef0, 0x5f28db, 0x15cc1a, 0x1980c3, 0x249da3]⟩,
   ⟨[0x4c93f1, 0x388a39, 0x30eec8, 0x52fc35, 0xb0cae, 0x2f3e40, 0x3a2acd, 0x28c4d5, 0x1da5f9, 0x586ca, 0x119027, 0x16cdc0, 0x25236c, 0x18a357, 0xb64b, 0x76882b, 0x3182b1, 0x37246c, 0x3fb39, 0x2c988c, 0x231b0b, 0x3e5bbf, 0xf374], [0x10d9d, 0x1ff389, 0x1538d1, 0x41bd6c, 0x1301b2, 0x1dcb4a, 0x8fabc, 0x611765, 0x1a717f, 0x182ff9, 0x29a9c1, 0x2b99c3, 0x17ca7, 0x32aa1, 0x2ea89d, 0x88d80, 0x11ec29, 0x3a56be, 0x32b8, 0x1406e5, 0x38401c, 0x1acb38, 0xcb5e9], [0x66e5ab, 0x161a19, 0x57829, 0x5f11ae, 0x22507e, 0x113755, 0x218956, 0x7e85bc, 0x3a29f5, 0x1a56ea, 0x2f8a9f, 0x30b6f2, 0x1f6a48, 0x3c6b9c, 0x331944, 0x12724e, 0x154fe, 0x1a08f6, 0x53ce3, 0x110da, 0x189838, 0xc6556, 0x26e926]⟩,
   ⟨[0x56b198, 0x2e9d6f, 0x384104, 0x2cb192, 0x11e1d2, 0xc3007, 0x331d92, 0x72b899, 0x2dfe85, 0x19f7ae, 0x228032, 0x1a709b, 0x394a71, 0x11dcb, 0x25119c, 0x673c0f, 0x703ee, 0x3905c2, 0x4cbe0, 0x3038f7, 0x218611, 0x344f8b, 0x6ef8f], [0x8b7ab, 0x1c7936, 0xaf677, 0x38d1c4, 0xd1982, 0x8de6, 0x1d8cd8, 0x2daf00, 0x2139dc, 0xc0a4c, 0x103bf4, 0x132620, 0x1e360f, 0x20be7e, 0x2f6f7b, 0x45610, 0x3b63bf, 0x65305, 0x30a74a, 0x72846a, 0x9d52f, 0x360afc, 0x15c630], [0x1bb7e7, 0x38cfc8, 0x105c2d, 0x4f800d, 0x2813af, 0x3d95f7, 0xb5e3e, 0x65c148, 0x17b5eb, 0xb59ab, 0xd6920, 0x1459af, 0x2201a2, 0x66541, 0x1d0ba3, 0x337e0f, 0x3be92f, 0x375c3, 0x35fbbd, 0x5f0b0f, 0xe891b, 0x131d3f, 0x14ed75]⟩,
   ⟨[0x50d8d5, 0x2e5561, 0x31562b, 0x395b3a, 0x2d062a, 0x329c94, 0x1bed6e, 0x64208e, 0x302bdb, 0x38a686, 0x1e41f5, 0x1078f7, 0x3a3fcc, 0x61b38, 0x3a908e, 0x5a12d7, 0x2303d, 0x141e31, 0x9e463, 0x73510f, 0x3c92b0, 0x83485, 0x37a81], [0x19b1b8, 0x38cd53, 0xe197c, 0x9ff2f, 0x3bcd33, 0x302c2a, 0x54200, 0x79b52b, 0x39d05f, 0x1f9c10, 0x29b440, 0x3d8482, 0x1c2bd2, 0x19bd77, 0x10755e, 0x6cae47, 0x1b82a, 0x3df53b, 0x18a7f, 0x5fc8ab, 0xbffcf, 0x169679, 0x67097], [0x935d3, 0x10f268, 0x288b71, 0x303deb, 0x2e4a85, 0x1813e, 0x3cdd05, 0x1ad0a, 0x14aa02, 0x19fd4a, 0x200bbd, 0x331b4f, 0xfccbe, 0x1f30db, 0xbdf6f, 0x7ab775, 0x21be2d, 0xed4b7, 0x384794, 0x784f1a, 0x3f3a79, 0x3d50f, 0x64f82]⟩,
   ⟨[0x55e16a, 0x9cbf4, 0x7f387, 0x8d055, 0x1de49d, 0x3df914, 0x3ed04e, 0x6ca4bc, 0x28fce3, 0x3273a4, 0x2df89a, 0x230a46, 0x18e30c, 0x2ce6f1, 0x2db57, 0x7890f7, 0x22d4f9, 0x38dc8f, 0x376ff1, 0x12231a, 0x74880, 0x12a080, 0x56dc5], [0x3dbbf8, 0x196819, 0x24db6e, 0x7a739a, 0x2c4bd5, 0x241e7e, 0x38c332, 0xe069b, 0x11a877, 0xbb5f3, 0x613f, 0x1d700e, 0x154f4e, 0x232aa4, 0x159c2a, 0x203c23, 0x2ac285, 0x2f4ed7, 0x3914ce, 0x1b8c64, 0xc5894, 0x3a7d72, 0x21efb5], [0x34ea4d, 0x1ba7b1, 0x3c1624, 0x332852, 0x3e94da, 0x887, 0xbfe68, 0x4ad4ca, 0xb742b, 0x158248, 0x285b88, 0x6edd6b, 0x200bab, 0x248dd5, 0x1035a8, 0x1f2081, 0x7b194, 0x11b74d, 0x152bcc, 0x5f5821, 0x1fe674, 0x239a6, 0x34bb24]⟩,
   ⟨[0x72b20f, 0xbf7f4, 0x178c52, 0x776657, 0x4bfe5, 0xaa36b, 0x3719b7, 0x4c2095, 0x355126, 0x1b6111, 0x172806, 0x52ce54, 0x8f0a0, 0x2b3884, 0x2b7196, 0x3a0409, 0x124baa, 0x1e7741, 0x128dc5, 0x301368, 0x2a859, 0x145dd3, 0x1a5ae5], [0x4943b1, 0x36fa8c, 0x2bccb8, 0x702644, 0x253fd2, 0x185cbe, 0x47a35, 0x2af03c, 0x1ae6f9, 0x1fbb03, 0x24abe9, 0x23a32d, 0x2165fe, 0x25287b, 0x13905e, 0x5cfe02, 0x7f1f9, 0x3e1e1e, 0x7a483, 0x1bf89e, 0x10168f, 0x62f67, 0x133007], [0x7d5697, 0x312189, 0x15fc12, 0x3c037b, 0x175465, 0xf4b83, 0x21df66, 0x2a624d, 0x34d443, 0x1e79dd, 0x321a3f, 0x18dc79, 0x1a5d56, 0x3541af, 0x70013, 0x24cb38, 0x65d92, 0x20b271, 0x1ec105, 0x1e7c11, 0x122c84, 0x7b7c1, 0x2fdb93]⟩],
  [⟨[0x44839b, 0x3198f6, 0x3bd372, 0x7ed128, 0x206115, 0x3fdd6a, 0x22f00a, 0x117144, 0x1588a8, 0x1ff57f, 0x289324, 0x690294, 0x2d2809, 0x1dc9a7, 0xb6923, 0x4b99ef, 0x3488ab, 0x1f4972, 0xffb73, 0x59a57d, 0xf6194, 0xb6f28, 0x25388b], [0x64e5a1, 0x13fe4f, 0x8eccd, 0x5c77, 0x1b9c8, 0x162316, 0x20528f, 0x2dedd0, 0x191713, 0x30317d, 0x39a24f, 0x2eb466, 0xea8d0, 0xe5d27, 0x3fed4f, 0x40531e, 0xfba2c, 0x234e5d, 0x3d16d, 0x7f1872, 0x256c50, 0x316cfd, 0x2401f9], [0x275d5, 0x1f7882, 0x25e59c, 0x1b773, 0x24ff1d, 0xd98cd, 0xb7e40, 0x6e438e, 0x355f20, 0x19a7ae, 0x290722, 0x174b19, 0x318264, 0x49caa, 0x3f743b, 0x4fa60e, 0x21e560, 0x2ddbd1, 0x279c3f, 0x2a0542, 0x1c4f6e, 0x3f3d08, 0x1a9cb4]⟩,
   ⟨[0x44d3b6, 0x11a0b0, 0x223464, 0x616311, 0x45b71, 0x221b75, 0xddb07, 0x36cced, 0x310543, 0x1c0449, 0x1a5298, 0x7f7212, 0x27112e, 0x3341d5, 0x1bb277, 0x47b3a6, 0x2631fe, 0xec73f, 0x3bea8e, 0x11acad, 0x56ab4, 0x332f4e, 0x20f040], [0x729ff7, 0x84fdb, 0xaf943, 0x69efd1, 0xf6b0c, 0x2c5da9, 0x3fe069, 0x72a537, 0xa3f33, 0x1c0a53, 0x2f3282, 0x6c96eb, 0x39033f, 0x4147a, 0x2f27e0, 0x752bf, 0x61145, 0x2cd663, 0x31dfd9, 0x7e357f, 0x1e8721, 0x265fef, 0x77889], [0x33fad5, 0x16e6ed, 0x16f2ef, 0x1b964b, 0x1a2eca, 0x3e0c81, 0x3fe7d9, 0x69ab34, 0x2b4e22, 0x3b9125, 0x3129c9, 0x6b5e95, 0x3e450d, 0x3c0221, 0x246870, 0x12331e, 0x368335, 0x3842e7, 0x1cd463, 0x375065, 0x1afc4f, 0x18c552, 0x3df99d]⟩,
   ⟨[0x76c909, 0x2ecc28, 0x3e534c, 0x6e5b56, 0x3472bc, 0x2ed648, 0x1800e5, 0x62eb01, 0x388368, 0x17e589, 0xee455, 0x752271, 0x7db0e, 0x4ce3b, 0x1bc93d, 0x266e9b, 0x1a633f, 0x80153, 0x100613, 0x1b334a, 0x1081c5, 0x3ceaca, 0x28bc5f], [0x4fb1b3, 0x1f97a9, 0x159d7e, 0x459cf9, 0xcbc43, 0x132e42, 0x3f3662, 0x32762f, 0x3f6792, 0x147465, 0x64e92, 0x7b5ed9, 0x2cdcb9, 0x3b3f08, 0x307a15, 0x760d9b, 0x145a0b, 0x101514, 0x36ac7f, 0x46c8ca, 0x9d1f6, 0x65054, 0xdebf1], [0x4f598c, 0x2dec24, 0xeff2a, 0x1f3645, 0x27f317, 0x3daf78, 0x2bc2db, 0x4ea69, 0x279343, 0x337bf6, 0x117316, 0x616d27, 0x378ec8, 0x25d729, 0x265316, 0x3d0829, 0x396e01, 0x2ae96d, 0x3445e4, 0x1e9f9a, 0x30eddc, 0x2e073a, 0x21b311]⟩,
   ⟨[0x2cc32d, 0xd826a, 0x26e228, 0xd6206, 0x227832, 0x2140d7, 0x2068c2, 0x5c5008, 0x25521d, 0x281fa5, 0x51e83, 0x105a03, 0x3232e0, 0x3d0e47, 0x3bd547, 0x65100c, 0x113b09, 0x24f1fa, 0x30cda7, 0x53d618, 0xa2a17, 0xbd8b1, 0x20fb2c], [0x5a2225, 0x391b43, 0xb1cff, 0x7dce4c, 0x193c2c, 0x3bfbcf, 0x1040c3, 0x1e82a9, 0x3d9486, 0x3af831, 0x217a7a, 0x6f3f26, 0x2e52c2, 0x38837e, 0x256bb5, 0x1d310d, 0xd911e, 0x12dd9b, 0x1d3c60, 0x42ae12, 0x1aa290, 0x11d773, 0x8a556], [0x3db239, 0x3c331e, 0x2c1abe, 0x54f6fd, 0x29390c, 0x2f6790, 0x2cd02b, 0x7afe3f, 0x12b2c3, 0x2287bb, 0x114fe8, 0x2cc8ac, 0x2cadbb, 0x1a33be, 0x37be86, 0xaa64f, 0xcdb97, 0x3cf948, 0x1bb280, 0xbd3ad, 0x1c0a26, 0x1857f5, 0x2270fb]⟩,
   ⟨[0x588772, 0x34a3bf, 0x2b2057, 0xd6822, 0xed9ff, 0x385c48, 0x3a74b9, 0x5a12d2, 0x79dd4, 0x2b2e76, 0xe28, 0xe1c30, 0x3339ae, 0x248cce, 0x3445a9, 0x28093c, 0x256a7e, 0x18f19e, 0x385218, 0x57d410, 0x2dbf86, 0x1f5eca, 0x1cacdd], [0x265c7d, 0x28705e, 0x384f7d, 0x18d471, 0x1527df, 0x3da983, 0x1dde7f, 0x2a71f4, 0x1b4521, 0x3dcb4, 0x328f6d, 0x195cdd, 0x16f6b4, 0x2550c, 0x181f0f, 0x279602, 0x592b, 0xa8fc2, 0x173822, 0x528d2f, 0x3bb20b, 0x1cb21c, 0x2e0800], [0x67c867, 0x24b417, 0xd83f0, 0x584b7b, 0x2c2dcd, 0x3925c8, 0x35374e, 0x273444, 0x1ed50e, 0x19dc39, 0x12047, 0x4b56f7, 0x1f477d, 0xc0b39, 0x103a52, 0x3b6571, 0xf7cb4, 0x3f0e6a, 0x3100b6, 0x77750c, 0x2a6650, 0x1b8e63, 0x356e38]⟩,
   ⟨[0x294cc0, 0x1abf5c, 0x22ab9b, 0x575222, 0x251493, 0x2e554c, 0x27f012, 0x71924e, 0x23d76d, 0x230b9e, 0x295210, 0x783eb9, 0x3d2eb1, 0x34e19b, 0x21e2d1, 0x50a8ca, 0x18c513, 0x167437, 0x2f383c, 0x71ae6b, 0x5632b, 0x97273, 0x39c267], [0x56e019, 0x310b20, 0x308bd2, 0x786653, 0x396a2e, 0x7ff67, 0x3bfba0, 0x328bb8, 0x24ddec, 0x2f538d, 0x3bccd8, 0x6635e3, 0x23177e, 0x45322, 0x2e32d2, 0x4ec3f8, 0x1e2de3, 0x245612, 0x3c6038, 0x4d683d, 0x12b6cb, 0x27583, 0x2b048c], [0x78d023, 0x2e23cc, 0x772ac, 0x3b5b53, 0x29ed11, 0x3ed08f, 0x71e5c, 0x428132, 0x315335, 0x402b, 0x822d3, 0x7b1b14, 0x35a437, 0x206234, 0x32b6e0, 0x55555c, 0x27cfbe, 0x4a5ea, 0x556ce, 0x31dfeb, 0x1db053, 0xe8bac, 0xc0d49]⟩,
   ⟨[0x4aa9d1, 0x2779ea, 0x1b86f9, 0x72282a, 0x1ebbe9, 0x18b46d, 0x26ff2c, 0x3f0cc7, 0x212453, 0x34244b, 0x9799c, 0x4f49c4, 0xc1dea, 0x35b3df, 0xbdbdf, 0x1f15a7, 0x37371d, 0x20ebe1, 0x2ea33, 0x9840b, 0x1dd721, 0x2ea8b9, 0xb48ad], [0x234472, 0x5efdd, 0x21b297, 0x2e57af, 0x131f56, 0x3de1f4, 0x3d96b7, 0x3aa17f, 0x17742d, 0x26100, 0x337a96, 0x4ea9e0, 0x27ea1c, 0x1f7fa1, 0x32ffcb, 0x7dd72a, 0x35bb87, 0x318cc2, 0x3f5009, 0x766de0, 0x391596, 0xdfbb0, 0x2a498f], [0x68f40a, 0x34745d, 0x3b263f, 0x370d88, 0xb7e85, 0x165b40, 0xf819e, 0x5987ab, 0x108717, 0x2a8421, 0xb286f, 0x4b94fd, 0x1dcd66, 0x4cfec, 0x21944b, 0x187f0d, 0xe4a62, 0x307e74, 0x6fcd6, 0x4495f4, 0x31d0fe, 0x2d69fc, 0xb5770]⟩,
   ⟨[0x42173b, 0x2f2767, 0x3d5fcf, 0x49931c, 0x9bca8, 0x1886fd, 0x110f6d, 0x3c1f29, 0x2c545a, 0x33ef6f, 0x18e372, 0x75fa4c, 0x18bb09, 0x26f270, 0x346de4, 0x28fac0, 0x23e410, 0x27b61c, 0x14ea05, 0x438310, 0x2cad7b, 0x1fd7f3, 0xb3f41], [0x10995c, 0x168ea0, 0x13ca45, 0x2f2095, 0x31ab84, 0x32fb0a, 0x42bb8, 0x8933c, 0x97983, 0x65857, 0x150488, 0x1f3b0b, 0x29f9de, 0x298c42, 0x291103, 0x7b8240, 0x185c19, 0xa0a6a, 0xd566b, 0x742ce, 0x1d215f, 0x3f50ac, 0x22911c], [0x45e864, 0x15742, 0x161854, 0x7b3d4f, 0x21eeae, 0x296ce2, 0x3346c6, 0x734650, 0x1106cc, 0x1bf45e, 0x1f7d96, 0x45f811, 0x3b405e, 0xde8b5, 0x178a69, 0x6cfe39, 0x3f339a, 0x262a13, 0x2fb7c, 0x669a06, 0x2cb49b, 0xdd528, 0x26c657]⟩,
   ⟨[0x5a4314, 0x33dcdd, 0x3024fc, 0x3fa63f, 0x296fce, 0x1613ff, 0x1601c8, 0x18ec14, 0x176101, 0x16707a, 0x323522, 0x6451ef, 0x38e06e, 0xbbed9, 0x325ef6, 0x5506ae, 0x173417, 0x30ce7f, 0xe2a20, 0x65e329, 0x52ab8, 0x1dc041, 0xc6341], [0x44dd3d, 0x2af1bc, 0x9fa4b, 0x334b00, 0x3f42e3, 0x2593c, 0x229e96, 0x6d61d4, 0x2b2fd7, 0x22c1a9, 0x290fc9, 0x728bc5, 0x3cc825, 0x2f498d, 0x343407, 0x205470, 0x675ec, 0x2ed6f5, 0x63c9f, 0x5d0188, 0x26f6b5, 0x63702, 0x3a29d], [0x35f788, 0x24e672, 0x28c708, 0x3bbce6, 0x138643, 0xa192e, 0x582fa, 0x192093, 0x29b4d3, 0x2443e6, 0x3fb121, 0x581657, 0x2cd1a9, 0x110fb0, 0x299aa9, 0x1fd531, 0x2e546, 0x1e08db, 0x1d678e, 0x43bd67, 0x1a8272, 0x22c90a, 0x7cc59]⟩,
   ⟨[0x3c1c05, 0x371d27, 0x1ee674, 0x6687dd, 0x1b5b64, 0x37b7a6, 0x110b63, 0x4d3034, 0x34e37, 0x3361c7, 0x29a6d0, 0x5a8f45, 0x2097c, 0xea46a, 0x1c9c63, 0x510d99, 0xfb932, 0xd6720, 0x487b1, 0x3d00ed, 0x851e4, 0x997f2, 0x320424], [0x61b9a6, 0x1b989a, 0x38839a, 0x38318c, 0xa4e7a, 0x316981, 0x262d85, 0x404d09, 0x382abe, 0xdcd89, 0x1791bb, 0x2076bf, 0x97c30, 0x38d1b5, 0x30a092, 0x563aeb, 0x27026c, 0xe6af4, 0x37d8d5, 0x6d9346, 0x1e7c0c, 0x1b5d43, 0x35b6ed], [0x7ff888, 0x222708, 0x1fa371, 0xdcc52, 0x5815a, 0x1f9620, 0x61b0, 0x78fa0, 0x24cc30, 0x15b96e, 0x21510c, 0x382242, 0x30063a, 0x36f011, 0x37b5d5, 0x2eb1a, 0x26488b, 0x3568b8, 0x3e1f1, 0x517c59, 0x30a3a0, 0x25590a, 0x1142de]⟩,
   ⟨[0x5982a8, 0x370c8f, 0xaf64e, 0x2e275, 0x1eee4f, 0x246cad, 0x2ac24b, 0x334875, 0x174aa6, 0x2c27c8, 0xea109, 0x2bb331, 0x2ae934, 0x254289, 0x3ca630, 0x3660d8, 0x2c93f, 0x18a01e, 0x31d7a9, 0x2bd9f0, 0x2b8049, 0x350d91, 0x294e97], [0x129088, 0x28094d, 0x357f4d, 0x6b6fff, 0x1b77fc, 0x21a12, 0x214a39, 0x7dad9d, 0x3bca3, 0x32a844, 0x2dc466, 0x5640ce, 0x3a5766, 0x209ae0, 0x388583, 0x5aa61f, 0x3917fe, 0x20db8c, 0x2576dc, 0x46380e, 0x2b7ce8, 0xb5a77, 0x136232], [0x59dd5, 0x298a36, 0x2a6fc3, 0x30e5aa, 0x308a3f, 0x2d40e1, 0x2e7de9, 0x807b9, 0xe3f2e, 0x227438, 0x210ce9, 0x2efe56, 0x252e80, 0x38c0f1, 0x175105, 0xe6782, 0xb3a10, 0x11d347, 0x6498f, 0x1484b8, 0x92d66, 0x1cad6a, 0x3e1628]⟩,
   ⟨[0x1fa2d3, 0x1ad4f5, 0x1ba2bf, 0x584c68, 0x3c80cd, 0x2a3ce1, 0xe01c2, 0x2dd8be, 0x17c543, 0x2c4e30, 0x34aece, 0x437f0a, 0x104c7, 0x2aa667, 0x3c16d7, 0x1848bb, 0x1d7152, 0x2a413c, 0x3c17cc, 0x412579, 0x18306d, 0x32a9e, 0x8eded], [0x68a027, 0x272d65, 0x35ed0f, 0x6bd7e7, 0x3673df, 0x2fa6b9, 0x2b9424, 0x16de59, 0x24f12d, 0x30f5a6, 0x16b74c, 0x2ccee0, 0x316f68, 0x28d420, 0x2a7f25, 0x1fa3fc, 0x36b1f5, 0x3abc71, 0x2e10fe, 0x5f45af, 0x30575c, 0x3847b7, 0xdd252], [0x2fa0bd, 0x3eb306, 0x96877, 0x521ba1, 0x1c63bc, 0x32e251, 0x3fa86, 0x6bc4d8, 0xf02d8, 0x2ff844, 0x242017, 0x73e523, 0x80eb0, 0x22b8de, 0x3bb4d3, 0x13c01e, 0x33830b, 0x3cfd23, 0x294978, 0x102d1c, 0xe4a57, 0x1089dc, 0x3d1440]⟩,
   ⟨[0x166ad2, 0x1851e7, 0x3a69ac, 0x138038, 0x2cbbe9, 0xe1b01, 0x2d813b, 0x55062f, 0x11e135, 0x1b55a0, 0x38c972, 0x6ffedb, 0x2efc51, 0x37167e, 0x651ca, 0x2faad0, 0x319a64, 0x1ab9e5, 0x19ea91, 0x571c6a, 0x1b9b34, 0x32c40d, 0x120211], [0x3fca5a, 0x2e874f, 0x16f8d3, 0x5ed189, 0x322122, 0xec018, 0xce754, 0x487a23, 0xd1100, 0x2ac3bb, 0x2b538f, 0x4f45d1, 0x1eb758, 0x3b112b, 0x3e180b, 0x5a4b85, 0x1d03f0, 0x2069e1, 0x11a16e, 0x4f3d33, 0x381cc, 0x94bb5, 0x250b30], [0x1c2c25, 0x2e0b68, 0x25ac97, 0x4e260, 0x2eb2ab, 0x309f16, 0x2ecedf, 0x62f833, 0x1e0f90, 0x294a6e, 0x253bc6, 0x341fbd, 0x1fb3c9, 0x38047a, 0x3cd92b, 0x2f682e, 0x553ea, 0x160b6f, 0x346039, 0x3e514d, 0x24f021, 0x3e913f, 0x129cfe]⟩,
   ⟨[0x1efbd4, 0x3b8b42, 0xef579, 0x5902fb, 0x3522f1, 0x5610c, 0x170e18, 0x1afdfc, 0x204d62, 0x391959, 0x179e48, 0x2ff462, 0x63ce3, 0x111ea8, 0x1aadcf, 0xbd1d2, 0x367f3c, 0x11e570, 0xba7b7, 0x26d561, 0x15cf3e, 0x16e814, 0x3fec7e], [0x410519, 0x34d54f, 0x3c2fff, 0x4f910f, 0x11c414, 0x15af5e, 0x3d949c, 0x3f1b53, 0x91ad, 0x264bb8, 0x189713, 0x338935, 0x1cfc31, 0x3530fd, 0x3d8864, 0x571f5c, 0x66f17, 0xc820b, 0xa514a, 0x53ed14, 0x8908d, 0x2a9aa4, 0x3723d1], [0x530a55, 0x23cca3, 0x382430, 0x6af068, 0x35651e, 0x14f6ec, 0x2aeaab, 0x487304, 0x156caa, 0xc009a, 0x10ef4b, 0x26fc2d, 0x10f060, 0x95637, 0x288a9c, 0x7e1314, 0xa00ce, 0x2f2c3, 0xbe1f6, 0x54175b, 0xafaa6, 0x232e71, 0x2b55e0]⟩,
   ⟨[0x1e7a5, 0x4fd57, 0x22f6ff, 0x4cc21b, 0xd5fc7, 0x1fd78e, 0x3a2ebe, 0x183905, 0xc129e, 0x3765a9, 0xa6e98, 0x797796, 0x24f429, 0x36f1e4, 0x3de415, 0x60a080, 0x3d9a0f, 0x348ee1, 0x3b8d4c, 0x3b94f9, 0xa52ce, 0x36391f, 0x219dca], [0x155e, 0x1cfd, 0x1a8f93, 0x743a5a, 0x13df56, 0x35856c, 0x1e2621, 0x1df2fd, 0x17fc31, 0x7f36b, 0x2516f7, 0x6f4eda, 0x4d8da, 0x3bb017, 0x17812b, 0x2e8803, 0x331e37, 0x1476ec, 0x3b6795, 0x1d82cf, 0x55a4d, 0x1e2e87, 0x23fea8], [0x2dea12, 0x158ecd, 0x1fc69f, 0x672ae8, 0x1e897d, 0x1f295f, 0x27c7cf, 0x2f1854, 0x2dd29a, 0x224dff, 0x228de0, 0x9a2b0, 0x113cf4, 0x30bd96, 0x29a4ab, 0x6dd2c6, 0xe0f85, 0x1ba973, 0x3aeec2, 0x440748, 0x3c3422, 0x4a832, 0x3a30eb]⟩,
   ⟨[0x1f1de4, 0x18b067, 0x2ffba1, 0x7c943a, 0x3a18d1, 0x1108e9, 0x284491, 0x156a7b, 0x148d8e, 0x125467, 0x1947ce, 0x48136e, 0x14138d, 0x303877, 0x13932, 0x55fe2, 0x202719, 0x1586ae, 0x2d4502, 0x71913c, 0x1b1b1c, 0x56028, 0x151696], [0x76c4df, 0x1348d7, 0x276bb5, 0x1d589a, 0x390f8d, 0x29442b, 0xb75d, 0x36e35, 0x3201cc, 0x2a33f2, 0x1f44da, 0xf6817, 0x9dd39, 0x291ee0, 0x3b94b2, 0x628085, 0x3da89e, 0x1935a1, 0x1682e4, 0x3d96a4, 0x266b1c, 0xb66b4, 0x892a2], [0x3afe25, 0x55237, 0x193631, 0xade15, 0x176b32, 0x8e9b8, 0x10652a, 0x1c79fd, 0x12262b, 0x811e4, 0x371d92, 0xbe1, 0xf024e, 0x3270af, 0x3a0aea, 0x5156ee, 0x3a8504, 0x159140, 0xa6703, 0x125bf7, 0x3b1a1b, 0x14c0d0, 0x29ee7f]⟩],
  [⟨[0xcee3a, 0x3d7321, 0x23142, 0x3544c4, 0x3f91bd, 0x10a3ec, 0x82b20, 0x78ffe7, 0x3864f1, 0x3b8041, 0x1d9dc2, 0x7b678, 0x31a85d, 0x26740b, 0x3b73ea, 0x554f39, 0x24c5a9, 0x1017c6, 0x15253b, 0x78b21a, 0x1046aa, 0x345729, 0x19f681], [0x181cb6, 0x1c63a7, 0x3cc749, 0x688eb7, 0x3206dc, 0x2e4e99, 0x4e7e3, 0x5c52da, 0x206dfe, 0x1645c1, 0x3c7beb, 0x204b2, 0x12daf, 0x349503, 0x34618e, 0x231a9d, 0x29b7b6, 0x2a40b2, 0x3c911a, 0x14e5ca, 0x168d52, 0x5511b, 0x2f1520], [0x7821fa, 0x36926c, 0xd7af9, 0x6ec97b, 0x45f92, 0x2447d1, 0x26c242, 0x319411, 0x3b8dad, 0x1e3305, 0x17aa9c, 0x1725d0, 0x244567, 0x5476c, 0x1eff9, 0x6a1091, 0x24fa36, 0x39dcf, 0x208642, 0x3c7246, 0x3fa637, 0x2bb676, 0x259d44]⟩,
   ⟨[0x1143e0, 0xbe934, 0x92033, 0x22ace8, 0x7276f, 0xf73bc, 0x201d0f, 0x226977, 0x12645, 0x275465, 0x28e554, 0x5cbe2c, 0x21f1f6, 0x3d5fe6, 0x1dc930, 0x77c3da, 0x97be2, 0xd819d, 0x1c8a3, 0x19ced0, 0x134484, 0xf4f11, 0x1df685], [0x9bc, 0x11eda2, 0xd29df, 0x3dd661, 0x2c252e, 0x113eda, 0x3df35d, 0x2ded2e, 0x2b0755, 0x333f8a, 0x13c151, 0x57fea3, 0x15dac1, 0x3eb220, 0x3b1ea, 0x7c1a9b, 0x3ce6e5, 0x3cad4f, 0x12b472, 0x652857, 0x7e9d3, 0x24534d, 0x213675], [0x48f0d3, 0x22cd16, 0xad0b2, 0x354f10, 0x349fb2, 0x305a14, 0x1bda8f, 0x7e0240, 0x1c187d, 0x3e456c, 0x228c2a, 0x518d87, 0x31fee5, 0x18beb8, 0x1e38eb, 0x3553a2, 0x3c0940, 0x3de9ba, 0x120769, 0x76bfbd, 0x3ceef0, 0x1b431a, 0x1e3982]⟩,
   ⟨[0x516136, 0x29df1b, 0x2d8bbf, 0x309d5f, 0x259d4b, 0x38377, 0x3833e1, 0x4338bb, 0x1d9308, 0x6d82f, 0xb6b51, 0x5ba357, 0x320d4c, 0x259a92, 0x1d9241, 0x78b989, 0x45c59, 0x37e70, 0x2b41f8, 0x40b045, 0x3cc5ab, 0x3a6093, 0x2eb114], [0x2fd13f, 0x31b6b2, 0x38071a, 0x8f7e, 0x2227f0, 0x2c8cb9, 0x2c017, 0x452659, 0xccf76, 0xf095b, 0x3a4dfd, 0x72e9c3, 0x10b61e, 0xc0898, 0x24c173, 0xa2663, 0x60cdb, 0x96ae3, 0x13f6f3, 0x4b3363, 0x1f342b, 0xc8de7, 0x251ccd], [0x291e81, 0x87e94, 0x397163, 0x41ee95, 0x174bbe, 0x116ea7, 0x3f0f93, 0x4c9f35, 0x28b7f6, 0x5adca, 0x148dec, 0x599d15, 0x24b8e7, 0x3fb84f, 0x3da2f2, 0x3bcd26, 0x3a6e5e, 0x198e0f, 0x2481b2, 0x52634a, 0x22d3f8, 0x291ef1, 0x7cc09]⟩,
   ⟨[0x103033, 0x2add30, 0x1859a0, 0x15a086, 0x61c02, 0x10e7a8, 0x3eaff4, 0x767d34, 0x10ab16, 0x1f8467, 0x26afab, 0xd90e0, 0x26d163, 0x1708cf, 0x41dbd, 0x16bb95, 0x375e2c, 0x3bca5, 0x4aae7, 0x3072cc, 0x5e256, 0x15ac55, 0x3babc8], [0x4b5126, 0x221dbc, 0x61e51, 0x1a65b2, 0x144a5d, 0x53b47, 0x35282a, 0x361203, 0x34a24a, 0x265dcd, 0x11e3e4, 0x71f53c, 0x1617a7, 0x1b3cfc, 0x37acd5, 0x3d79a9, 0x2f6062, 0xe6254, 0x13609b, 0x6b6554, 0x35f594, 0xabd87, 0x2edabf], [0x261ed9, 0x2da8c6, 0x1e0a7a, 0x169981, 0x1cf370, 0x3e78e4, 0x1dc822, 0x5c5907, 0xc84aa, 0x1b3d8d, 0x235ff6, 0x3183f8, 0x1dc3f5, 0x3cd3e8, 0x38aa8a, 0x298326, 0x23ee8a, 0x219ac4, 0x2ffa3e, 0x6fb3b6, 0x26c478, 0x1e8fd, 0x28fc8a]⟩,
   ⟨[0x74bf78, 0x21a4a0, 0x7f0aa, 0x4357ac, 0x1fe0e7, 0x28ee47, 0x28c433, 0x2dc428, 0x1801ea, 0x1c3dca, 0x36e321, 0x76cd18, 0xfe126, 0x1f3cfa, 0x3b1976, 0x7fb0f7, 0x22f2c9, 0x197985, 0x7146f, 0x7d7dcb, 0x400af, 0x344938, 0x2e00bd], [0x33b420, 0x2cbfc9, 0x1ebe71, 0xe5302, 0x74db3, 0x130287, 0x26b2, 0x514208, 0x2e49cd, 0xb2a5b, 0x3c750f, 0x3ed5ac, 0x39b88b, 0x2b90da, 0x5740f, 0x279855, 0x83537, 0xaece4, 0x284e3d, 0x7ebf4b, 0x753f0, 0x361832, 0x1f793f], [0x3a939a, 0x52334, 0x356449, 0x24bfbb, 0x36be0f, 0x367b2c, 0x4e8d1, 0x67e56c, 0x279de5, 0x90171, 0x15ddde, 0x2a246d, 0x62b11, 0x36bdb, 0x1714b6, 0x7cbb2a, 0x1969ba, 0x27ca13, 0x28b9de, 0x5e3b1a, 0x78ae7, 0x1351f5, 0xda62]⟩,
   ⟨[0x53172, 0x2a2bfc, 0x33e860, 0x638adf, 0x22fda9, 0x161786, 0x2313fd, 0x502ab2, 0x1c6da3, 0x235635, 0x8ed5b, 0x1e342b, 0x13c148, 0x2e6a9c, 0x3897f3, 0x5843f7, 0x123dfd, 0x3c9807, 0x5f065, 0xd45e4, 0x2690e3, 0x341a20, 0x927bf], [0x15f913, 0x30564f, 0x2f86a0, 0xc54cb, 0x17e098, 0x1c24f2, 0x17111f, 0x21c5d, 0x1be2d3, 0xfd2c4, 0x1e935e, 0x3ce41d, 0x86058, 0x1b00c8, 0x285196, 0x11da1, 0x2f1a16, 0x126abe, 0x42fd8, 0x2edbf1, 0x3a75c6, 0xd1c7c, 0x367832], [0x293aee, 0x21495, 0x1bb0f5, 0x566c32, 0x196dda, 0xd10ce, 0xc6555, 0x1e8e54, 0x14fa41, 0x3ca61a, 0x8c270, 0x41a922, 0x10dde3, 0x3c22d8, 0x143053, 0xc9dac, 0x117939, 0x16ba60, 0x28b353, 0x3c642b, 0x20c6f4, 0x3f370, 0x196768]⟩,
   ⟨[0x65e8f6, 0x9c4a7, 0xa1d99, 0x7d4b7b, 0x15f315, 0x3fc1aa, 0x2468fa, 0x5c1056, 0xf4362, 0x2c7799, 0x22a7d7, 0x71ec9d, 0x1acb59, 0x1e9b82, 0x369ea, 0x52d8ab, 0x2884d6, 0xaa6b5, 0x110d92, 0x5882b4, 0x18cb6d, 0x2f7663, 0x1b502e], [0x6415d4, 0x36a62c, 0x2f8e5c, 0x310d30, 0x11ee1e, 0x271cb7, 0x22d267, 0x94efa, 0x398684, 0x3f1b86, 0x165a66, 0x5bb638, 0x34d02f, 0x3e6ebe, 0xde3c6, 0x4138e0, 0x2eecec, 0x24ee9d, 0x1e8c7f, 0x5cebe9, 0xa4e0f, 0x1bc6cd, 0x36b315], [0x4fdab7, 0x3e5ae6, 0xc6a3b, 0x2c4aa9, 0x269d75, 0xd8807, 0xb5f32, 0x6b8d06, 0x31ae80, 0x25b3e0, 0x39541f, 0xf3ed, 0x3a4af4, 0x1a6c5b, 0xc602b, 0x11ff53, 0x2f09c9, 0x54583, 0x214187, 0x36d12f, 0x3950dc, 0xaed90, 0x3f5a51]⟩,
   ⟨[0x56fa9, 0x2a8cf1, 0x1ddad, 0x46e6ff, 0x3b910b, 0x2cade7, 0xd73a3, 0x338292, 0xbbf55, 0x33f714, 0x4d83c, 0x7df50d, 0x37abd1, 0x103e5a, 0x42bb5, 0x663afa, 0x197069, 0x2b5674, 0x3b0d57, 0x45359a, 0x10b12c, 0xf3ca0, 0x25512a], [0x2bd66c, 0x2285d6, 0x1d66bd, 0x6bd87f, 0x2dc0f9, 0x3ae7ab, 0x361a39, 0x11b741, 0x206c9f, 0x25662e, 0xc70f7, 0x3f36e4, 0x2aca51, 0xc34af, 0x24625c, 0x6500c7, 0x198fcb, 0x12cfca, 0x9ee1c, 0x277608, 0x213658, 0x30604d, 0x2ef50f], [0x92abd, 0x1446d1, 0x3f6a06, 0x46565b, 0x3e584, 0x159e89, 0x3debc5, 0x735f29, 0x31eb5e, 0x434a9, 0x2797df, 0x6dea2c, 0x2a9686, 0x118efa, 0x50279, 0x3045ad, 0x34874b, 0x3d78ed, 0x18fec5, 0x3d2a5a, 0x30d04b, 0x3a21f3, 0x31e2cc]⟩,
   ⟨[0xf8bdb, 0x33a04e, 0x14b261, 0x3abae0, 0x3f54d, 0x168473, 0x1c33a5, 0x1cb69a, 0xfeee3, 0x31c38b, 0x219e20, 0x4de49d, 0x3dcbee, 0x52411, 0x3d8935, 0xd0029, 0x227d70, 0x2a8e3f, 0x204a8, 0x320844, 0xdd3b6, 0x3d0841, 0x2c6c6c], [0x5c03ec, 0x2b2c46, 0x293f5b, 0x7f7bde, 0x3adcb5, 0x17241d, 0x1fd746, 0x3529b7, 0x3332dc, 0x2763a5, 0x1e887a, 0x130eb1, 0x2394ce, 0xb8ef4, 0xe932d, 0x527cbe, 0x3f139a, 0x3bfa19, 0x336a1d, 0x66e2ac, 0x98186, 0x47a1a, 0x4788c], [0x9a196, 0x35ebc2, 0x265402, 0x7a08a2, 0x2cdba0, 0x23627e, 0x2433d, 0x46191a, 0x3dcf82, 0x34ee3, 0x2b144c, 0xfc454, 0x149146, 0x2c1b7, 0x707a7, 0x29e68d, 0xf78f8, 0x24eb1b, 0x116a27, 0x722f40, 0xc507f, 0x737d8, 0x1fabc6]⟩,
   ⟨[0x2e0a9f, 0x47ad4, 0x395ff2, 0x70c4cd, 0x1fb3c7, 0x1e8f1, 0x25684, 0x46a16b, 0xbe275, 0x1ca806, 0x17814, 0x255a20, 0x1a997f, 0x1ad072, 0x3cfeb6, 0x3c6c9c, 0x1f796b, 0x3cee03, 0x3882e, 0x6a3d22, 0x39a895, 0x3befab, 0x1e8b14], [0x2481a8, 0xfd69e, 0x1bb1b7, 0x6e58a2, 0x1ff0ff, 0x786c3, 0x16526a, 0x617928, 0x10511f, 0x88530, 0x397bc8, 0x34ba73, 0x4bee5, 0x274402, 0x4dcc0, 0x246dc1, 0x1408, 0x2dc300, 0x28ee1f, 0x609a3c, 0x9b999, 0x203ecd, 0x22aa2d], [0x3580e7, 0x155dcd, 0x13457a, 0x2c90eb, 0x26470a, 0x122727, 0x37bd5c, 0x5d220d, 0x152493, 0x18a293, 0x392995, 0x151e64, 0x2e37dc, 0x2e9ec6, 0x1a205e, 0x701d8, 0x1cb000, 0x120be4, 0x31b0d9, 0x5b9235, 0x5267, 0xb7c49, 0x155b65]⟩,
   ⟨[0x3005af, 0x222462, 0x34d58a, 0x2aef89, 0x2ba06b, 0x1c9a9e, 0x1e894b, 0x406001, 0x10bf30, 0x2867ea, 0x3f0ec9, 0x32d6f1, 0x2c15e9, 0x12cfc5, 0x191373, 0x24a43b, 0x2c8ab3, 0x25e47f, 0x3a9b91, 0x2dc4ac, 0x1821ea, 0x19e718, 0x3570ec], [0x49a08, 0x29c93f, 0x311736, 0x4a3e8d, 0x76459, 0x24e089, 0xd1295, 0x65b4da, 0x199d52, 0x7ce98, 0x284b76, 0x797a7f, 0x219d91, 0x288e07, 0xba4f1, 0x1089da, 0x3c7b7, 0x37c99e, 0x376b77, 0x28c9e0, 0x3af66b, 0x15f094, 0x887f7], [0x4d57fb, 0x142bb6, 0x680e9, 0x19ed70, 0x31f674, 0x3d4ad2, 0x23e39, 0x6d62ce, 0x1f2af6, 0x18dcd2, 0x87694, 0x4d412, 0x22ef3a, 0x24d6f, 0x16c5bc, 0x499a4a, 0x3c726b, 0x21f3cf, 0x23bb7d, 0x60ba2c, 0x3b5906, 0x19f5b1, 0x22e2b1]⟩,
   ⟨[0x1a18d3, 0x2df53, 0x3c65f2, 0x252d1f, 0x5d4e4, 0x37f7ad, 0x2b96c8, 0x4a99ef, 0x34622e, 0x3dc7c3, 0x25c9ea, 0x2950f3, 0x2d17d0, 0x2ba2b1, 0x16fd3f, 0x2d1e9b, 0x3d33a4, 0x20b37e, 0x1f2455, 0x39cb42, 0x74719, 0x6c7e3, 0xb524b], [0x3e735c, 0x1cd19b, 0xa2b03, 0x4dada, 0x1d7f00, 0x1bb1cd, 0x31ec2d, 0x60cb29, 0x305dad, 0x2a2e31, 0x2a51bd, 0x64ba52, 0xa34de, 0xc8dbd, 0x335fa7, 0x335fe1, 0x33c874, 0x3e276, 0x2026d5, 0x96e2b, 0x276e3, 0x38ef96, 0x3fbd7e], [0x79e37a, 0x1890d4, 0x250177, 0x47bb39, 0x29268c, 0x2479ab, 0x244958, 0x270a4b, 0x1a146f, 0xe6e93, 0x1688fb, 0x728526, 0x1cecab, 0x26f68e, 0x1480e6, 0x78facc, 0x234fe3, 0x1cb3a6, 0x3f46f, 0x31231a, 0x1c154c, 0x3f8810, 0x1da5ad]⟩,
   ⟨[0x3ddb7a, 0x2e3d3, 0x2553bf, 0x4415bb, 0x329c70, 0x22cb5a, 0x19fc2c, 0xf789e, 0x25ad01, 0x23fc89, 0x297284, 0x52cfee, 0x23b149, 0xd9dc2, 0x2f141c, 0x144a6, 0x34aa72, 0x71093, 0x3304eb, 0x72fe7f, 0x98781, 0x1fc2ee, 0x1aa3b0], [0x784fc3, 0x109969, 0x27287e, 0x6db5d4, 0xacf5e, 0x32b46, 0x37a8dc, 0x4ce91b, 0x36e3b8, 0x2d9c83, 0x4c6a9, 0x2a278f, 0x3e2154, 0x1e5587, 0x26d619, 0x749796, 0x2de56e, 0x1ca040, 0xf01a0, 0xa33e5, 0x398839, 0x25a737, 0x342ba0], [0xdd5db, 0x35af7c, 0xadfc4, 0x2d82ec, 0x1f65fa, 0xe30c7, 0x3a776, 0x11585e, 0x2736db, 0x3af607, 0xec2a5, 0x3db029, 0x3b1acf, 0x25db0f, 0x1fc2d, 0x9bb8a, 0xc442b, 0xb14d4, 0xb2fa5, 0x2930aa, 0x1a33e5, 0x7711e, 0x14aaea]⟩,
   ⟨[0x4e9ddc, 0x249bd7, 0x399aca, 0x1c89, 0x399ad6, 0x1ca0c4, 0x33f687, 0x167529, 0x3e6664, 0x247d4a, 0x3e497d, 0x6bec07, 0x321482, 0x261dc6, 0x1afb91, 0xcce08, 0x154873, 0x1fa9c6, 0x31d6b7, 0x1db078, 0x7f410, 0x2b5d77, 0x1cefe7], [0x78a938, 0x79ca6, 0x4a11b, 0xbbd2, 0x14d1b9, 0x32e71f, 0x228788, 0x43bdcb, 0x52fe3, 0x32e261, 0x3ea511, 0x6940b9, 0xdd8a7, 0x35310f, 0x16ad6a, 0x51ad87, 0x34db37, 0x39f114, 0x435ba, 0x75a182, 0x319b60, 0x7d2c9, 0x3b06e6], [0x4768e1, 0x1cc336, 0x3299a7, 0x5dff8f, 0x4b15, 0x222007, 0x35ca8e, 0x1da643, 0x267e34, 0x1ec2b8, 0x189f4, 0x721823, 0x225c4, 0x1f0249, 0x3a75ed, 0x43ca56, 0x25ac50, 0xe327, 0x3352d9, 0x4b96f8, 0x27419d, 0x23a16c, 0x31da1b]⟩,
   ⟨[0x487d70, 0x3aaa4a, 0x26a8eb, 0x5fbedd, 0x2a0595, 0x22f25c, 0x3a6fd8, 0x451396, 0x306e44, 0xf3b8f, 0x2912a8, 0x50f308, 0x7e373, 0x7762d, 0x1a5294, 0x331113, 0x26941a, 0x25f44e, 0x3862fa, 0x10d40e, 0x289a47, 0x99a16, 0x207317], [0x1b1bdb, 0x304b63, 0xe1eed, 0x53c2df, 0x3f16dc, 0x63bab, 0x21f5cc, 0x3d7b7, 0xb4008, 0x174e48, 0x341ae6, 0x23df07, 0x2ff147, 0x7214d, 0x11768a, 0x756b3f, 0xdb5d9, 0x3f42f9, 0x62571, 0x7558ec, 0x2aedf3, 0x1f12e2, 0x2c1d2e], [0x424eea, 0x8e4e0, 0x276315, 0x10c7ce, 0x10fb31, 0x5db4c, 0x2e33ce, 0x29f3f7, 0x1931c4, 0x6a41d, 0x2e7d33, 0x31344c, 0x148e02, 0x387e14, 0xea259, 0x485845, 0x18ecf9, 0x1365b8, 0x9b445, 0x8051, 0x327427, 0x1f7091, 0x18b432]⟩,
   ⟨[0x5f7787, 0x170455, 0x340de5, 0x62a794, 0x2c24c5, 0x10bda3, 0x2bfbbe, 0x31b953, 0x2717cf, 0x9262e, 0x2a4512, 0x72de4, 0x25410b, 0x2bb34c, 0x633a9, 0x7482db, 0x2d93b4, 0x3dd3ec, 0xc66cf, 0x203eb1, 0x24ed0d, 0x3397cd, 0xf7881], [0x127e99, 0x3fdc31, 0xd6b1b, 0x67dd99, 0x20b17c, 0x19b464, 0x1b54bd, 0x79adb3, 0x1df680, 0x244323, 0x11f742, 0x305cdb, 0x78d7a, 0x769b, 0x1cae8b, 0x2f49e1, 0x2c7f9f, 0x38fe3a, 0x39cf05, 0x79bf1e, 0x308d34, 0x3dee92, 0x11514a], [0x382385, 0x13bd1f, 0x3811cf, 0x292587, 0x322e94, 0x26dd80, 0x2e2f48, 0x230f38, 0x17ba53, 0xe1b94, 0x1e3431, 0x12a183, 0x3003e9, 0x39a0bd, 0x1c4811, 0x1e6db1, 0x1d16f, 0x2ef639, 0x3595bc, 0x635c14, 0xf1141, 0x276ef2, 0x26f1ab]⟩],
  [⟨[0x63583c, 0x178f3b, 0x31fe89, 0x4a10cc, 0x25e861, 0x1d9981, 0x209c95, 0x757dab, 0xe0cca, 0x26f2cf, 0xf724b, 0x54a684, 0x395a25, 0x3b96aa, 0xcb3e2, 0x25fa25, 0x1a8ccd, 0x3e8d3c, 0x2670bc, 0x73c1d9, 0x2d1389, 0x130be6, 0x269afa], [0x78d442, 0x8e522, 0x18ebc9, 0x5f3584, 0x3f1cbf, 0xbf4c1, 0x164aa4, 0x6151fb, 0x68d6e, 0x126e4f, 0x200280, 0x31b7dd, 0x54bb5, 0x3503dd, 0x15fe73, 0x400a3b, 0x18b4cb, 0x269223, 0x3baabf, 0x219923, 0x517f, 0x36db7b, 0x1898de], [0x1b3c2f, 0x3100ac, 0x375c4d, 0x47ff1c, 0x1554a3, 0x345032, 0x567ed, 0x602271, 0x37b43, 0x352ea6, 0x99ebc, 0x7107dc, 0x14bd9, 0x3bae49, 0x12e08d, 0x6ca22b, 0x1dabb1, 0x2d516c, 0x270889, 0x2f1f40, 0xb40d8, 0x1f6c6e, 0x69120]⟩,
   ⟨[0x3e2ca8, 0xfbdfe, 0x8452c, 0x4ebe38, 0x3022b7, 0x3a3695, 0xef8e, 0x3868db, 0x38ad77, 0x197bef, 0x35c5d1, 0x56d147, 0x150885, 0x32b7d5, 0x22642d, 0x6b1347, 0x343776, 0x321a28, 0x170446, 0x3deb75, 0x2a4140, 0x29df0, 0x2450e4], [0x4955ca, 0xc7ab0, 0x2d31f7, 0x5f83a6, 0x2fa36d, 0x1f49e7, 0x3f321c, 0x11d711, 0x4b439, 0x34f95d, 0x217ee2, 0x32bafe, 0x6f393, 0x2a690e, 0xfae08, 0x34160e, 0x38471b, 0x3e6453, 0x1d2eed, 0x19616, 0x2eca2c, 0x2b42a7, 0x1944e5], [0x70c80a, 0x3add3e, 0x164515, 0x4c3e58, 0x2b68c7, 0x24c735, 0x154086, 0x4af4b2, 0x3f79b6, 0xeffa4, 0x2e7835, 0x143f92, 0x139828, 0x2f5825, 0x2c6c7b, 0x374b07, 0x260379, 0x33bf91, 0xfb28a, 0x6d0f2d, 0x1a3c03, 0x3dcb0d, 0x42785]⟩,
   ⟨[0x32f6c1, 0x25c23a, 0x32ea38, 0x343c52, 0x2c5da6, 0x29130f, 0x1dea76, 0x41b06, 0x6cc8f, 0xc33c2, 0x3de859, 0x75ade1, 0x1f074b, 0x20b431, 0x89d3d, 0x183d45, 0x10916a, 0x79eac, 0x4d6b9, 0x6da065, 0xe2053, 0x2b57d, 0x3a141], [0x9a37f, 0x35153f, 0x33545c, 0x5c4e51, 0x2ed0ff, 0x23618f, 0x1775aa, 0x5e1890, 0x3a6506, 0x383a25, 0x6cb4c, 0x238f29, 0xb58f7, 0x35b0d9, 0x1d243c, 0x38459b, 0x19d714, 0x31addb, 0x14cd5, 0x114249, 0x9dceb, 0x69813, 0x1e743d], [0x491e76, 0x358978, 0x32e06b, 0x7cf380, 0x21ba4c, 0x1b9dc8, 0x72c57, 0x7d4a61, 0x2a03eb, 0x2a8a04, 0x36f1b1, 0x167d87, 0x37d30, 0x300eb9, 0x9a70d, 0x2915b7, 0xc36da, 0xfd77, 0x3ca0d6, 0x599232, 0x906bd, 0x3deacb, 0x181880]⟩,
   ⟨[0x6bf556, 0x208d1, 0x37fe71, 0x64b85c, 0x31878c, 0x333fb4, 0x7d710, 0x4670d1, 0x23984f, 0x5c689, 0x255366, 0x44c87b, 0x1d338e, 0x3044ad, 0x2665f4, 0x40eb4d, 0x1e02e4, 0x8c27f, 0xf8571, 0x6bd63f, 0xa6dfc, 0x13304c, 0x2fdd59], [0x5724e2, 0x218196, 0x150782, 0x56a299, 0x236fde, 0x32ed2c, 0x39e8a0, 0x679ee7, 0x14da74, 0x4a8bc, 0x266e00, 0x41e7ff, 0x2073c7, 0x344e9f, 0x21ead2, 0x425bb8, 0x2f122a, 0x2c55d5, 0x8b0d6, 0x666edc, 0x21d2d7, 0x2421bb, 0x131acd], [0x737055, 0x1d6fe9, 0x3efc08, 0x306fa4, 0x2508b1, 0x2780b8, 0x329ba8, 0x206820, 0x3b15c5, 0x317300, 0xfd39a, 0x49d634, 0xb31b5, 0x19a81c, 0x271b13, 0x56932d, 0x387035, 0x2a79f2, 0x28ecd2, 0xe84d7, 0x232b80, 0x2790f5, 0x26aac9]⟩,
   ⟨[0x3fa216, 0x2b5e41, 0x11f507, 0x4798e8, 0x1f1c32, 0x4d796, 0x77b9e, 0x2381f2, 0x42960, 0x3dc0de, 0x1f19ed, 0x8d2b6, 0x218e79, 0x191d1e, 0x38bec0, 0x2ba744, 0x1106d5, 0x2908d7, 0x18d0a6, 0x643d59, 0x251ca2, 0x25593, 0x2eabf3], [0x438d3b, 0x2c35ad, 0x121865, 0x2217b5, 0x3f2262, 0x2c5a2, 0xb51e2, 0x7f949c, 0x1bc59a, 0x2729b2, 0x25bd2d, 0x63fbb0, 0x13132e, 0x16dc57, 0x17a6e3, 0x2fcda3, 0x321610, 0x32d4aa, 0x1f56d4, 0x4b46c8, 0x26fc03, 0x2b891b, 0x1eec11], [0x4bf5b, 0xa6eb9, 0x137543, 0x3ea024, 0x2e1be2, 0x294a40, 0x175374, 0x3418b2, 0x92934, 0x559da, 0xd4705, 0x23080, 0x2832cc, 0x20b5fc, 0xbf4a7, 0x4b3473, 0x3a84f, 0x2a3fae, 0x45db0, 0x7aedbf, 0x1266fc, 0x2e6c3, 0x380cf]⟩,
   ⟨[0x29f673, 0x11c696, 0x32672, 0x54238e, 0x370626, 0x339c4e, 0x31300a, 0xb2d5b, 0x206c4d, 0x791d2, 0x2db03d, 0x37c66b, 0x2780b2, 0x2e5fe3, 0x2b5b3a, 0x240a75, 0x239af3, 0x7a194, 0x35bc60, 0x4fba17, 0x3826e1, 0x181f8a, 0x42f82], [0x459afb, 0x87f76, 0x2c645, 0x4c7ce4, 0x142200, 0x366037, 0x1ef906, 0x57c3a8, 0x1a8791, 0x302563, 0x2034ef, 0x1a0222, 0x3375a9, 0x32c4bc, 0x8f4dc, 0x581a30, 0xc394e, 0xb7fee, 0x3c5662, 0x34bb53, 0x5b495, 0x18243, 0x37995c], [0x4906bd, 0x32b8fa, 0x372e94, 0x613088, 0x17311, 0x3528b5, 0x1ee0ac, 0x686616, 0x33f1fd, 0x25e7c3, 0x3dfbb8, 0x1a5df7, 0x23b1e, 0x15aac, 0x25054d, 0x1704e4, 0x1bae37, 0x1a384f, 0x3606fc, 0x740f1b, 0x2c8c7d, 0x24600b, 0x3d5c73]⟩,
   ⟨[0x1784b4, 0x2cef58, 0x372a6c, 0x118258, 0x2d6ed8, 0x2dd567, 0x106ee7, 0x1c074f, 0x1a9185, 0x29b246, 0x375a41, 0x7df964, 0x17b200, 0x194a5c, 0x13b979, 0x3ea48, 0x295585, 0x1b2faf, 0x1f6d5f, 0x7d4491, 0x2aa139, 0x2032ca, 0x33ab4d], [0x326e12, 0x73b02, 0x9134c, 0x719a24, 0x10ffda, 0x17f597, 0x23dea, 0x565b05, 0xcf206, 0x316819, 0x1759be, 0x3b59e1, 0x1a7716, 0x2f2cb8, 0x22c88, 0x6e200a, 0x34b39a, 0x4c2a3, 0xeff2b, 0x7771c0, 0x38736a, 0x3ea343, 0x2473cb], [0x7e0e25, 0x3ff836, 0x29e179, 0x59da0b, 0x38bd07, 0x397717, 0x35eec3, 0x1451bd, 0xc4cc2, 0x11ad20, 0x24798d, 0x1ea1f7, 0x17a035, 0x174e1a, 0x614cc, 0x744e00, 0x71f7a, 0x3f23ae, 0x1d8dca, 0x674f7, 0x3af2f, 0x28bcaa, 0x25e559]⟩,
   ⟨[0x11497e, 0xece29, 0x2a4ea2, 0x1c0932, 0x86320, 0x1d745, 0xe7077, 0x2982ba, 0x6c3cc, 0x1a61d3, 0x18d012, 0x3fd5a7, 0x271a87, 0x3f3cee, 0x381814, 0x6264b1, 0x1d51c9, 0x24f3f8, 0x32133e, 0x70b6c3, 0x27eb3b, 0x170df3, 0x3fdf92], [0x52d458, 0x2fda22, 0x40a2e, 0x6fa7d9, 0xf1a9c, 0xb70a5, 0x1666c6, 0x150503, 0x2a0651, 0x19d2e, 0x2cb70b, 0x22c910, 0x2ee4cd, 0x8d506, 0x14281, 0x358b69, 0x2da7bf, 0x124768, 0x20ec13, 0x550441, 0x1c17fe, 0x213a61, 0x1451a1], [0x2a7679, 0x15d4b5, 0xcfcc1, 0x3ff845, 0x1c7a7d, 0x1ae5dd, 0x3eab09, 0x3fdf89, 0x35a00b, 0x37d9ff, 0x275895, 0x35077f, 0xebca0, 0x2db718, 0x7e563, 0x7217ce, 0xcfec9, 0x39c0c7, 0xc8457, 0xd6dee, 0x95556, 0x2c0a1b, 0xa5b02]⟩,
   ⟨[0x58676e, 0x3bb967, 0x2f67e8, 0x14611b, 0x2ca68, 0x360a23, 0x3d4703, 0x2ffb09, 0xb0650, 0x350e32, 0x20bbe2, 0x7eb614, 0x13cbb5, 0x3bbdbc, 0x26c9bb, 0x1e256e, 0xe735e, 0x2c3cc9, 0x10c97, 0xc12b4, 0x28c55, 0x14841f, 0x143c15], [0x65eb1a, 0x25b10, 0x1cd5c4, 0x746872, 0x54288, 0x1b2b2e, 0x1f2239, 0x518e6e, 0x2123bd, 0x33748a, 0x174c52, 0x258c02, 0x18ff52, 0x7c3f2, 0x10ec30, 0x2a8fb5, 0x338507, 0x3ea284, 0x1e079e, 0x70c9dd, 0x23b5fb, 0x2637f4, 0x141f80], [0x656339, 0x123ab6, 0x3b759b, 0x50cb99, 0xd243e, 0x22a047, 0x30735f, 0x4a175, 0xb2ba6, 0xd31ce, 0x324f8d, 0x4bb229, 0x1e5d6f, 0x2772e, 0x296dc5, 0x577ae8, 0x86249, 0x2005b9, 0x32ca2b, 0x18e5f0, 0x10ac8a, 0x261f94, 0x76c3e]⟩,
   ⟨[0xdb1a4, 0xc1216, 0x20e3ce, 0x342538, 0x25ad2d, 0x3c968a, 0xb2ac4, 0x3874be, 0x108ebe, 0x89221, 0x1a4e5d, 0xe6b, 0x3a62c9, 0xcab40, 0x39432f, 0x6eebb0, 0x3fd49f, 0xa4915, 0x3e803e, 0xd14cb, 0x147dbe, 0x273cc9, 0x21ceaf], [0x61af93, 0x1a305, 0x13baae, 0x7784e4, 0xd254e, 0x19835d, 0x242371, 0x846d1, 0x29d19e, 0x188df, 0x340fc, 0x7b3565, 0x179159, 0xe014, 0x2bbc15, 0x6e03f7, 0x332866, 0x3752b2, 0x36128e, 0x4eeea5, 0x18d656, 0x21fc26, 0x31850e], [0x501fd0, 0xaf537, 0x38c7e6, 0x43735e, 0x110069, 0x3f2c22, 0x17cf5d, 0x2fd510, 0x14235b, 0x4dd30, 0x3c65b4, 0xf1032, 0x389a5b, 0x156157, 0x11c8dc, 0x500c48, 0x119681, 0x193dfd, 0x2e9c52, 0x7dd9bc, 0x3c9b4a, 0x3f1598, 0x8392d]⟩,
   ⟨[0x7da6ae, 0x26680f, 0x1cbc2, 0x700f21, 0x2ba64b, 0x5aca1, 0xda060, 0x6c880d, 0x280f5b, 0x1cd097, 0x3bbcfe, 0x2caeaf, 0x1b96af, 0x2f9409, 0x218817, 0x2929af, 0x35cdaf, 0x1766d6, 0x2fe847, 0x3656a, 0x47989, 0x351086, 0x2d5d88], [0x3ff7b2, 0x283a9c, 0x20e8a8, 0x3a0789, 0x1bfde1, 0xd525f, 0x35c861, 0x60cad2, 0x2aca77, 0x15e571, 0x182dd8, 0x4e3f9f, 0x157225, 0xabd0e, 0x2c1c74, 0x6799c9, 0x1084cd, 0x2fcc74, 0x1104cf, 0x63fb40, 0xb1b48, 0x2ff705, 0x17dd74], [0x758dfd, 0x259101, 0x2f9e96, 0x127a02, 0x3560ba, 0x174012, 0x80553, 0x84ada, 0x30b0b3, 0x3cca10, 0x2a7bf0, 0x66b5d8, 0x1775c4, 0x25fb21, 0x84012, 0x23425e, 0x160d8a, 0x14de6a, 0xd84b1, 0xc090, 0x1ceb65, 0x304b91, 0x3c0931]⟩,
   ⟨[0x7b8f38, 0x3e8d2b, 0x14249b, 0x32e6fd, 0x19922, 0x288d0e, 0x30b952, 0x8c34b, 0x191997, 0x2f5c5b, 0x3ed4de, 0x2d0dbe, 0x1c4cc0, 0x3799bb, 0x7eed8, 0x7c90ce, 0x2e0a50, 0x131af1, 0x28fd81, 0x3d7bfd, 0x20c820, 0x1e4117, 0x3233fa], [0x6ad0b4, 0x24a7ca, 0x224a76, 0x201b36, 0x89bf6, 0x185943, 0xee3fb, 0x62e219, 0x304742, 0xecfdc, 0x2b3e9, 0x278a41, 0xb4c45, 0x3daf2f, 0x16786a, 0x326096, 0x4f58a, 0x3d414f, 0x2571f1, 0xc5218, 0xbc00a, 0x1558dd, 0xe4574], [0x214f76, 0x344e7b, 0xd0a1c, 0x73f8a, 0x31a1e8, 0x24f24b, 0x2eb5cc, 0x423b58, 0x5df88, 0xa882d, 0x1f2f21, 0x1dc1ac, 0xbf263, 0xfc01f, 0x13d53a, 0x689488, 0x39a08c, 0x26357, 0x354d80, 0x649669, 0x6d559, 0x24d4a8, 0x1b1d7d]⟩,
   ⟨[0x7539ac, 0x1af584, 0x3849e3, 0x604878, 0x28932b, 0x336a8d, 0x2dc15f, 0x4ee915, 0x3e8891, 0x2c26a5, 0x2353ef, 0x690acf, 0xb284b, 0x4cd7a, 0x266953, 0x38ec31, 0x15e302, 0x80a9, 0x25d49a, 0x318334, 0x3b81a5, 0x38759d, 0xee138], [0x6652dc, 0x30cf99, 0x286eae, 0x7e732a, 0x1bb04f, 0x1a7e81, 0x395cbd, 0x12a720, 0x143a75, 0xc4f0a, 0x2959b, 0x5134e3, 0x29cd2f, 0x2e7b51, 0x1a8b65, 0x67bb4d, 0x109b63, 0xff6af, 0xf5619, 0x1fe508, 0x593c7, 0x2a4f5c, 0x35e60f], [0x41115b, 0xc4566, 0x2dc574, 0x6eab28, 0x3017e2, 0x275a4a, 0x2c84e6, 0x3fffe, 0x12331a, 0x1b2ef0, 0xa57a7, 0x7ea3e1, 0x1a805, 0x64502, 0x3486d1, 0x2a0735, 0x1f1246, 0x13e4c1, 0xd6176, 0x5d2f66, 0xb6919, 0x222c38, 0x2247fc]⟩,
   ⟨[0x7694f0, 0x33bf57, 0x2d919e, 0x464556, 0x3240bb, 0xa81c8, 0x3fc6ad, 0x4c8bc2, 0x37597a, 0xf3632, 0x3dee9c, 0x7af7fc, 0x2b2a3, 0x1fef8, 0x266bfe, 0x5a4df9, 0x1bc528, 0x38fca9, 0x21ab8e, 0x1b7a68, 0x255401, 0x22b95a, 0x1cecb8], [0x202c81, 0x305b5d, 0xf8353, 0x24bdd3, 0x34cbf6, 0x1fc489, 0x1c1ef2, 0x378dd8, 0x341d4e, 0x351ca3, 0x1ff171, 0x3f1946, 0x2cf94, 0x389924, 0x3e5a8b, 0x1bea9d, 0x1e60d0, 0x305ef9, 0x29219f, 0x301daa, 0xd311, 0x33ec94, 0x3a683], [0x26a83d, 0x21ad7b, 0x1694b6, 0x3bbdc2, 0x16e0b7, 0x9525b, 0x3b24f8, 0x7c4237, 0xe1cb0, 0x13611e, 0x1e0cf1, 0x4b8f7b, 0x12520d, 0x1cbf78, 0x153e58, 0x72da9e, 0x9bf23, 0x390546, 0x1ec704, 0x62f82e, 0x1379ea, 0x374cef, 0xe810]⟩,
   ⟨[0x672d01, 0x181c43, 0xf03e5, 0x114eb1, 0x30aab, 0xe4929, 0x3f4ff1, 0x5c1816, 0x234ef2, 0x1cecb, 0xe003, 0xfb7c6, 0x21f686, 0x397348, 0x668d5, 0x969fd, 0x2d58a1, 0x1f6ff, 0x2b509f, 0x5bf575, 0x1c7a72, 0x3168a3, 0x58841], [0x2e6f93, 0x3fd4d, 0x70367, 0x7e2810, 0x32a669, 0x3753aa, 0x59e13, 0x5be0bb, 0x2dad0a, 0x17009d, 0x2a29e1, 0x10eafb, 0x371b7b, 0x384fe2, 0x74c4c, 0x5af2f6, 0x268d35, 0x12d4d3, 0x1988e8, 0x637384, 0x3ca7eb, 0x12c38c, 0x235944], [0x7fe4f7, 0x128547, 0x3ee942, 0x63b61d, 0x254e4c, 0x6b269, 0x2778bd, 0x3c91a8, 0x38a282, 0x10bfe5, 0x2e5c21, 0x205d0, 0x150853, 0x2376ff, 0x6e95d, 0x4fcaed, 0x14d842, 0x174695, 0x192588, 0x4407a, 0x169aa6, 0x38f9b9, 0xdd818]⟩,
   ⟨[0x7ed415, 0x2aee66, 0x2fe621, 0x19ec18, 0x1ac45a, 0x2c1bd9, 0x39eff2, 0x53c8e8, 0x35d12e, 0xf4e0a, 0x11182c, 0x481dc1, 0x69045, 0x28ac00, 0x239b1a, 0x12c316, 0x1dfea0, 0x3b985d, 0xdb2fe, 0x4f72ca, 0x34c923, 0x1a2093, 0x2b9c3e], [0x6e6357, 0x2a5a2b, 0x1b005c, 0x349183, 0x374b6e, 0x6a56d, 0x5a032, 0x159bd4, 0x3f8a72, 0x6e1d8, 0x18f53a, 0x34f1f1, 0x3729f4, 0x1b24ab, 0x1cc0c1, 0x1ef566, 0x2b89c8, 0x2f08c, 0x3199af, 0x1c32f5, 0x194755, 0x5e212, 0xe74fa], [0x75610f, 0x1c5b4f, 0x31545e, 0x5a64bd, 0x288ecd, 0x3455, 0x3e4d6b, 0x1c3b47, 0x107a21, 0xe6be9, 0x1c454b, 0x2be715, 0x13b171, 0xd5966, 0x17248a, 0x6610da, 0xd95a9, 0x2dad62, 0x3b2b47, 0x483940, 0x214e89, 0x2e30ef, 0x1a8a7a]⟩],
  [⟨[0x5710c2, 0x1c5ac3, 0x32a560, 0x8892c, 0x2827e3, 0x34491a, 0xcbddb, 0x1226bc, 0x3dc095, 0x3dbf5d, 0x207c8f, 0x3aee4, 0x241676, 0x19f64f, 0x3a54c, 0x7cce36, 0x229653, 0x1ad488, 0x2ff51a, 0x3bad16, 0x269362, 0x5cfd4, 0x2b0036], [0x1d5b16, 0x37f93d, 0x11be70, 0x10f69, 0xfd6a2, 0x198f6d, 0x306746, 0x19354, 0x5d19c, 0x2a4081, 0x2187bf, 0x37cd1c, 0xf42fe, 0x384fbb, 0x3f74b7, 0x2cb87d, 0x2fa3d2, 0x3b9cbd, 0x11ace0, 0x4f2a0f, 0x10cdfe, 0x37dc56, 0x1ca343], [0x2e9f4b, 0x17b4e0, 0x311c99, 0x42e4b2, 0x253b3c, 0x56b7f, 0x338de4, 0x2bd82c, 0x321b8d, 0x38a72f, 0x8f3d8, 0x1567cc, 0x26ad64, 0x20c5af, 0xccd37, 0x590cbb, 0x313270, 0x3c5ba6, 0x368f2d, 0x3060dd, 0x36f8bc, 0xf2893, 0x334a0c]⟩,
   ⟨[0xde443, 0x32a8c8, 0x3ee1ee, 0x2fb8da, 0x1ec25, 0x1f2379, 0x2c120c, 0x422db7, 0x3aa20d, 0x36834, 0xb6fab, 0x579a73, 0x2c546a, 0x3cfcbb, 0x15cce3, 0x1da981, 0x1d2dec, 0x155c8f, 0x32c6de, 0x1bbcc6, 0x332ab7, 0x221975, 0x15380a], [0x79f763, 0x86f41, 0x27b078, 0x72ae3a, 0x3377bb, 0x3c40f7, 0x18f8c7, 0x559ba1, 0x387ee1, 0x395f9, 0x26c76d, 0x438509, 0x258967, 0x102218, 0x21ef58, 0x187594, 0x70c07, 0x1150ed, 0x1a248f, 0x17ca07, 0x305c05, 0x3b435d, 0x3ab05], [0x269d6f, 0x14041f, 0x1c654b, 0x1e5899, 0xb839f, 0x68ff, 0x1345c1, 0x62c16d, 0x95303, 0x336b6b, 0x1f5076, 0x6b8de7, 0x3033a5, 0x31b05d, 0xaaebb, 0x580dc0, 0x216e2a, 0xb00e8, 0x2fed70, 0x67f7e7, 0xe3f39, 0x26a5c9, 0x1321c9]⟩,
   ⟨[0x75f516, 0x19707b, 0x284d76, 0x135fd0, 0x3e3862, 0x146acb, 0x1c934b, 0x7030a4, 0xcf8e7, 0x2ca64f, 0x3fdc6e, 0x65c11e, 0x16b6bb, 0x18c069, 0x171dc5, 0x5b5697, 0x1e8900, 0x1b6daf, 0x310bbc, 0x6bcf1d, 0x2f143f, 0x1905ca, 0x17744], [0x3d88d5, 0xf9e5c, 0x3604cf, 0xc36d2, 0x2cf504, 0x39a798, 0xbded1, 0x1b8dc3, 0x8e589, 0x3a11f2, 0x200d8c, 0x625d48, 0xa9310, 0x3cd6f6, 0x23eb4, 0x1cdccf, 0x126f0d, 0x22c59f, 0x2acc01, 0x5306ad, 0x2e74f2, 0x5df6d, 0x285847], [0x65f342, 0x1ee28a, 0x222beb, 0x6ca69d, 0xbb7f9, 0x21bf78, 0x3ec62, 0x54a057, 0x316b24, 0xff725, 0x262490, 0x3ae835, 0xda133, 0x120d05, 0xf8110, 0x347c18, 0x14b405, 0xe57ea, 0x1d3804, 0x1fb3a3, 0x36fc24, 0x3107fa, 0x2d52f]⟩,
   ⟨[0x730c26, 0x33129, 0x99e61, 0x274495, 0x67d5f, 0x30e0f3, 0x133ee6, 0x1ca496, 0xd9af5, 0xe2809, 0x39b916, 0x6ce2b0, 0x22b22, 0x3c1d03, 0x134443, 0x6c83e6, 0x22e5d1, 0x355465, 0x1393de, 0x297b8c, 0xccc36, 0x384ba8, 0x3c2a7], [0x1f3e32, 0x3e6a39, 0x274f66, 0x65f067, 0x3dee02, 0x1adba0, 0x3dd0d0, 0x67633, 0x3371e3, 0x18b039, 0xfbd3f, 0x3fef60, 0xc13e7, 0x35aff4, 0x248f86, 0x75c8ac, 0x10fb8, 0x9a933, 0x155411, 0x4dd6ea, 0x18b242, 0x3f42b9, 0x307afb], [0x43d9da, 0x2f1fac, 0x2bebf2, 0x1674c8, 0x2f5627, 0x982a2, 0x1dd189, 0x23cfe8, 0x1435e4, 0x2e3968, 0x212138, 0x37daed, 0x1af391, 0x149eac, 0x3f6739, 0x5a1d0b, 0x3da69, 0x2c06dc, 0x3a4339, 0x603e6e, 0x144a9b, 0x2e832b, 0x2dec99]⟩,
   ⟨[0x262a7a, 0x6d662, 0x70e7f, 0x7d4fd4, 0x363f2, 0x2dcd0b, 0x3f4bd3, 0x4b46be, 0x18690b, 0xd990e, 0xfab11, 0xf371c, 0x3cc586, 0x27fa77, 0x64076, 0x2b6788, 0x3fbd23, 0x3e156, 0xb4246, 0x11f74c, 0x1580e7, 0x1ab7d6, 0x2fd3d2], [0x73791e, 0x28fb9d, 0x2f8da3, 0x149495, 0x1eddc0, 0x22da14, 0xd1be0, 0x602f3, 0x166d08, 0x1f0437, 0x1cd0d, 0x2624c1, 0x2a961b, 0x94f8b, 0x315ebc, 0x21b46, 0x1db347, 0x240821, 0x2271b3, 0x475580, 0x22765, 0x30ddfa, 0x2dd431], [0x73cd42, 0xaa556, 0x12283b, 0x7c1ae9, 0x379d4, 0x22cbd1, 0x3ab652, 0x694262, 0x3dad8f, 0x3c497a, 0x1a32cf, 0x3c85f6, 0x5431e, 0x2156d8, 0x2af6b5, 0x38046, 0x2e42cb, 0x254f18, 0x20d00f, 0x30d955, 0x71955, 0xb6d41, 0x285989]⟩,
   ⟨[0x7e08fb, 0x263a00, 0xcadfc, 0x1dc808, 0x2fa272, 0x1fb53d, 0x11f9bf, 0x3390f4, 0x34e6f0, 0x4d46c, 0x54043, 0x1a0b56, 0x3d1a17, 0x1b584c, 0x11ed5c, 0x7b2cbc, 0xc420c, 0x2c7f8d, 0x1b1449, 0x6d4b4b, 0x284bd2, 0x97414, 0x1056cf], [0x73d3d1, 0x88230, 0x75fe, 0x3b85b2, 0x172ed7, 0xe1cd6, 0x2d09fb, 0x73d157, 0x9ae50, 0x11e0dc, 0xee967, 0x2cfff1, 0x10b62c, 0x1bbb7a, 0x1a028c, 0x4cd9af, 0x11bcf9, 0x27e62f, 0x579bb, 0x7dc76f, 0x332a43, 0x23c822, 0x141a7], [0x696277, 0x1b3a68, 0x2bb919, 0x483ed8, 0xe8365, 0x99c62, 0x3c029f, 0x5155da, 0x1f3bfc, 0x3f93bc, 0x19b689, 0x763ba9, 0x3d2f7a, 0x398c78, 0x38b6bf, 0x6c7737, 0x2ee2b2, 0x3aade4, 0x2a6200, 0x61fd04, 0x1f7254, 0xc8c41, 0x33394f]⟩,
   ⟨[0x5e9802, 0x264758, 0x1ab2b5, 0x2e4f89, 0x2c4adc, 0x94ef, 0x2689ad, 0x46fa1a, 0x30afc9, 0x1796b4, 0x7e5d9, 0x42c248, 0xf1e94, 0x21f53b, 0x261686, 0x3f1ddb, 0x38c53a, 0x85f45, 0x2d5719, 0xe126b, 0x8a053, 0x1d8a2, 0xca742], [0x24d905, 0xe9b9f, 0x1793c, 0x38deef, 0x281c2c, 0x2a3e68, 0x2c3a89, 0x474938, 0x191ae2, 0x59f41, 0x3170a5, 0x7b0894, 0x3188b8, 0x4a286, 0x1330a6, 0xf7b22, 0xcce16, 0x2f2ee2, 0x195174, 0x5d1601, 0x1f40e0, 0x291362, 0x35c7dc], [0xb4c31, 0x3b561d, 0xf3b3b, 0x70fa44, 0x7486a, 0x1df356, 0x1935f2, 0x4fb6d9, 0x27d7fd, 0x350dc9, 0xa3f69, 0x449466, 0x239ba4, 0x28e2f3, 0x26cbc7, 0x36018, 0x3a9dcf, 0x37b528, 0x1e2c6e, 0x3f6ec0, 0x3fd88f, 0x68ade, 0x37fce0]⟩,
   ⟨[0x50000e, 0x1e77a7, 0x24b63e, 0x48ccfe, 0x38b910, 0x19209b, 0x253b08, 0x5b37af, 0x4506b, 0x1a4b14, 0xff3bf, 0x85950, 0x2d6373, 0xcdbbd, 0x90934, 0x4cf09f, 0x27cd34, 0x371f39, 0x1c72b6, 0x6d2050, 0x2ac578, 0xfb697, 0x5ff6a], [0x599665, 0x2dda7b, 0x268815, 0x2942ac, 0x1dec68, 0x2dbb5f, 0xc7d78, 0x57f19c, 0x21dfb6, 0x753fb, 0x1eb75c, 0x6bb8bb, 0xf62d8, 0x276ad4, 0x18ebc3, 0x214208, 0x1152dd, 0x1897cd, 0x2857d4, 0x42470e, 0x21c7ea, 0x270fa, 0x2e73f0], [0x71d30b, 0x2e7b13, 0x33f7e5, 0x26176, 0x24c588, 0x1ea175, 0x3b6645, 0x291861, 0xed3a0, 0x2a696, 0x16c658, 0x3c9dca, 0x1224f2, 0x5aac4, 0x1a509b, 0x2e50aa, 0x1912ec, 0x39a83f, 0x2eeac7, 0x39f245, 0x4aba0, 0x38d048, 0x88ca8]⟩,
   ⟨[0x381541, 0x204236, 0xf7f85, 0x6abc1b, 0x309bd4, 0x1a5b8a, 0x3193b0, 0x7c3dbc, 0x21aa72, 0x25ab66, 0x27c829, 0xdcb0, 0x1e5740, 0x27a69e, 0x2a0916, 0x3558c0, 0x8defa, 0x1d63, 0x302547, 0x77415f, 0x17c197, 0x22627f, 0x599e2], [0x4dd359, 0x246a2c, 0x27e508, 0x6a3ca3, 0x378eb4, 0x26beb6, 0x844c3, 0x55d1c5, 0xbd3a3, 0x337c41, 0x3de17e, 0x4df9ba, 0x29b7c8, 0x371c33, 0x1bc3b2, 0x52b93e, 0x3f84c4, 0x46c2d, 0x381921, 0x329932, 0x29014, 0x195e90, 0x165863], [0x3d4ce8, 0x9aea0, 0xa6139, 0x626ab6, 0x1921ad, 0x1ddcc3, 0x10a346, 0x1c0df5, 0x22458f, 0x29a8d6, 0x23055b, 0x7fbc20, 0x12bd87, 0x105456, 0x9b655, 0x61c3ad, 0x29cbb, 0x37ec3d, 0x3a6374, 0x604726, 0x36c983, 0x2fb577, 0x34d612]⟩,
   ⟨[0x2e7dcc, 0xd16b4, 0x24096a, 0x25c077, 0x92685, 0x31bc93, 0x2f71e3, 0x6db6d, 0x314d92, 0x31dce1, 0x21f441, 0x5c93b1, 0xa56d1, 0x7c7f7, 0x3ac8aa, 0x4fb13f, 0x382f3c, 0x346287, 0x10c1c3, 0x3eb5c9, 0x287a6f, 0x18779d, 0x239eab], [0x41fd8f, 0x1e6522, 0x22b56d, 0x25abcd, 0x306d98, 0x300f6b, 0x1655da, 0x272687, 0x6b08d, 0x23b809, 0x138aaf, 0x1df48c, 0x11f659, 0x9e92a, 0x3b30cc, 0x1daee5, 0x3a3f41, 0x9df14, 0x214e4f, 0x1a4ee1, 0xaf3f8, 0x3b84fd, 0x27cb30], [0x3fb85e, 0x2a5b7e, 0xb3d6c, 0x10aaed, 0x1dcc4d, 0x2372c6, 0x2990b7, 0x29fd67, 0x184f9d, 0x213292, 0x6d4f4, 0x4c67dd, 0x170ce7, 0x279fef, 0x2af75f, 0x2865f8, 0x3df044, 0x3246c4, 0xbbbcd, 0x70d0bc, 0x16fdf4, 0x2e1724, 0x34d526]⟩,
   ⟨[0x68145b, 0x10e47b, 0x16afbb, 0x6d5ca7, 0x1cbdaa, 0x3773d2, 0x376c07, 0x798761, 0x122c25, 0x941e, 0xb8b0c, 0x6e3cf0, 0x37c29f, 0x3fcfe2, 0x355c91, 0x6b5739, 0x39e2, 0xa6fb6, 0x368629, 0x439d33, 0x51b6b, 0x3ccb53, 0x21e090], [0x72b0d9, 0x260fba, 0xa91da, 0x248f7, 0x3e3b08, 0x233510, 0xf7a4c, 0x23cd1, 0x3bf83e, 0x3f97ff, 0x387abe, 0x6b4171, 0xd77d6, 0x28d310, 0x1fad93, 0x6d40a9, 0x109960, 0x1c700e, 0x10a5d3, 0x638ae3, 0x2b09eb, 0x5f26c, 0x1e411], [0xe2a67, 0x16a28f, 0x289716, 0x78f0b2, 0x3797da, 0x268485, 0x262e41, 0x241f04, 0x74ec0, 0xd6eac, 0x1e559f, 0x153e46, 0x2fb890, 0xca628, 0x2a4016, 0x7d6524, 0x1ec8d1, 0x286dc0, 0x157657, 0x79e5b8, 0x39f963, 0xce35c, 0x3f1219]⟩,
   ⟨[0xf57b, 0x9df26, 0x222fe3, 0x2a30be, 0x379e2f, 0xaab5f, 0x2dedc7, 0x530a70, 0x1b01fa, 0x3d1b31, 0x2ad753, 0x29a2aa, 0x34373f, 0x2d9918, 0x2c76d1, 0x2f937a, 0xeb50a, 0x3f8781, 0x2c7f91, 0x4d41f, 0x3aec45, 0x369fc0, 0x13605], [0x54c5ba, 0x376f0d, 0xf2327, 0x202dd7, 0x22b2ce, 0x3d8e25, 0x30ed93, 0x5e7d9a, 0x359051, 0x330484, 0x1f4da9, 0xd5a03, 0x3772ee, 0x1fdd99, 0x190d1c, 0x64de66, 0x112698, 0x3d9ddf, 0x3b8e10, 0x670e8, 0x1e9a00, 0xd2726, 0x344016], [0x1eaec6, 0xa257f, 0x368552, 0x569140, 0x240df0, 0x2be21b, 0xac85e, 0x35c3d1, 0x16fbde, 0x24acf2, 0x3aa3f7, 0x6a54cf, 0x2aad78, 0x3be77f, 0xca38b, 0x53d6d6, 0x238462, 0x1e2258, 0x2e8075, 0x5c588d, 0x1be563, 0x362af4, 0xe1465]⟩,
   ⟨[0x544ba0, 0x103eee, 0x12accc, 0x4634f, 0x326bcc, 0x186bd9, 0x1d886, 0x6e9cd, 0x28a635, 0x18e4a4, 0x2fa643, 0xc1175, 0x39e179, 0x255905, 0xe38ae, 0x75e7f, 0x3f2df2, 0xbf618, 0x38eddb, 0x3d531b, 0x343eb7, 0x1d10d6, 0x3039d], [0x7286cb, 0x262870, 0x87c21, 0x15f41e, 0x2d96da, 0x4a9e5, 0x10055, 0x63a621, 0xe9f00, 0xee347, 0x26af40, 0x3e094e, 0x3b2228, 0x1a3cc1, 0x30a53b, 0x11ee4, 0x218ed0, 0x7142c, 0x391f95, 0x2bb1ff, 0x1aa23a, 0x3c5218, 0x2f08bb], [0x1eb5ac, 0x3f1c36, 0x1fd7a7, 0x755608, 0x3353ae, 0x3d6966, 0x17fdc3, 0xf856, 0x9b134, 0xc3d1a, 0x1e06fc, 0x745d11, 0x3761cd, 0x21ff5d, 0x37240e, 0x3022f6, 0x13dc00, 0x308386, 0x71c5f, 0x10c125, 0x192b4, 0x19ff02, 0x3b2385]⟩,
   ⟨[0x417d4c, 0x3aecd5, 0x2e5b54, 0x243dae, 0x3b5c3, 0x242612, 0x1e0962, 0x4ac9d7, 0x33b66d, 0x13dc44, 0x17552d, 0x6c3a48, 0x36914e, 0x1c9cfd, 0x862a1, 0x260590, 0x2bec73, 0x263aa5, 0x13bdc2, 0x7eafce, 0x1a9ea3, 0xa9066, 0x24a7f], [0x7d40f1, 0x2268cc, 0x2a7b4d, 0x17b592, 0x1b785f, 0x2cebbb, 0x3fd10a, 0x33d10f, 0x5ff3d, 0x2c3d3, 0x171a74, 0x5e8507, 0x2d6928, 0x7621e, 0x3f547b, 0x5e087b, 0xffdd4, 0x36fee1, 0x28a970, 0x49a969, 0x8d33f, 0x20baca, 0xf9e55], [0x1e00f, 0x3dc07c, 0x1ba800, 0x4aee42, 0x13e66a, 0x1c61d4, 0x365b36, 0xd2885, 0x46efc, 0x88fb6, 0x7f83b, 0x3e8670, 0x1539ed, 0x39945d, 0x52181, 0x150e04, 0x3f8361, 0x33d590, 0x2a7678, 0x1a0e6a, 0x17fb3a, 0x1b263, 0x3fb8cc]⟩,
   ⟨[0x441491, 0xf0a65, 0x1689d6, 0x1482f7, 0x147bf7, 0x3d0042, 0x2844d1, 0x5fd1b5, 0x200a97, 0x117c63, 0x3d90b5, 0x1d123e, 0x44fa4, 0x3f2318, 0x36fa13, 0x5a1ae5, 0x811ca, 0x1e59ef, 0x34d752, 0x564b68, 0x1118ff, 0x39b3ea, 0x14d131], [0x13c497, 0x3c1203, 0x17b8c9, 0x5f5c63, 0x1c40d9, 0x337a68, 0x200255, 0x7b6f12, 0x1f0c0a, 0xd6663, 0x1f59c2, 0x154c68, 0x345e93, 0x3d89d5, 0x342aec, 0x6fd7f9, 0x15325a, 0x1c82fe, 0x32f5e8, 0x78f1f, 0x25fc9a, 0x3196c7, 0x39e007], [0x39a6fc, 0x11ceab, 0x12dc99, 0x5819b9, 0x18eb3d, 0x219d0b, 0x1627fa, 0x3ffc71, 0xe2b28, 0x516d9, 0x3b039d, 0x1e1b28, 0x179d77, 0x2e37d9, 0x3a1c1, 0xd735b, 0x360858, 0x8afc3, 0x16fd4c, 0x289d6, 0x1e9558, 0xaf3ea, 0x3d50fe]⟩,
   ⟨[0x53d15a, 0x2c2f83, 0x170abe, 0x712a78, 0x103d0a, 0x5bc7e, 0x2462b7, 0x116fb3, 0x32d4a0, 0x3ccda0, 0x88a2e, 0x510f79, 0x293310, 0x1d649f, 0x315518, 0x2689d7, 0x324d85, 0x200963, 0x86c95, 0xb31f5, 0x13c26e, 0x3a95f, 0x36130b], [0x11ed3f, 0x22e8cd, 0xaf23d, 0xa28b1, 0x1c1b53, 0x4bd1f, 0xb0909, 0x6fd7aa, 0x1ba416, 0x3f26b, 0x305459, 0x74c3ec, 0x287773, 0x34cc74, 0x2d85ed, 0x5c853f, 0x49bb2, 0xdf4ca, 0x16e02a, 0x4d746d, 0xb5669, 0x11dad1, 0x16a410], [0x112679, 0x2adf1b, 0x8bdea, 0x7d441a, 0x37a3db, 0x8035d, 0x1d18de, 0x432d9e, 0x217c8d, 0x34b1cc, 0x347e03, 0x7cef1a, 0x3ca8b5, 0xb5855, 0x34a8bc, 0x3867cb, 0x169433, 0x134c66, 0x11d943, 0x61b8e4, 0x383edc, 0x274aad, 0xae283]⟩]]

/-- `lut_cmb[j][k]`. -/
def lut_cmb (j k : Nat) : AffE (List Nat) := (lut_data.getD j []).getD k ⟨[], [], []⟩

end Gost.Ecp_tc26_512_paramSetC_32
