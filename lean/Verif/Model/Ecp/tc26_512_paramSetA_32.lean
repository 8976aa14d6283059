import Verif.Model.FiatField

/-!
# The functions, constants and table of `/repo/ecp_id_tc26_gost_3410_2012_512_paramSetA.c`

32 bit version of the file (`__SIZEOF_INT128__` is not defined).  Generated by `tools/mkfiat.py`, statement by statement;
see `Verif/Model/Fiat.lean` for the meaning.  All line numbers refer to this file.
-/

namespace Gost.Ecp_tc26_512_paramSetA_32

set_option maxRecDepth 100000

/-- `fiat_id_tc26_gost_3410_2012_512_paramSetA_carry_mul`, lines 5028-6747. -/
def carry_mul : CProg := ⟨[
  .set (.mul 64 (.c 0x239) (.mul 64 (.a 22) (.b 22))), .set (.mul 64 (.c 0x239) (.mul 64 (.a 22) (.b 21))),
  .set (.mul 64 (.c 0x239) (.mul 64 (.mul 64 (.a 22) (.b 20)) (.c 2))), .set (.mul 64 (.c 0x239) (.mul 64 (.a 22) (.b 19))),
  .set (.mul 64 (.c 0x239) (.mul 64 (.a 22) (.b 18))), .set (.mul 64 (.c 0x239) (.mul 64 (.a 22) (.b 17))),
  .set (.mul 64 (.c 0x239) (.mul 64 (.mul 64 (.a 22) (.b 16)) (.c 2))), .set (.mul 64 (.c 0x239) (.mul 64 (.a 22) (.b 15))),
  .set (.mul 64 (.c 0x239) (.mul 64 (.a 22) (.b 14))), .set (.mul 64 (.c 0x239) (.mul 64 (.a 22) (.b 13))),
  .set (.mul 64 (.c 0x239) (.mul 64 (.mul 64 (.a 22) (.b 12)) (.c 2))), .set (.mul 64 (.c 0x239) (.mul 64 (.a 22) (.b 11))),
  .set (.mul 64 (.c 0x239) (.mul 64 (.a 22) (.b 10))), .set (.mul 64 (.c 0x239) (.mul 64 (.a 22) (.b 9))),
  .set (.mul 64 (.c 0x239) (.mul 64 (.mul 64 (.a 22) (.b 8)) (.c 2))), .set (.mul 64 (.c 0x239) (.mul 64 (.a 22) (.b 7))),
  .set (.mul 64 (.c 0x239) (.mul 64 (.a 22) (.b 6))), .set (.mul 64 (.c 0x239) (.mul 64 (.a 22) (.b 5))),
  .set (.mul 64 (.c 0x239) (.mul 64 (.mul 64 (.a 22) (.b 4)) (.c 2))), .set (.mul 64 (.c 0x239) (.mul 64 (.a 22) (.b 3))),
  .set (.mul 64 (.c 0x239) (.mul 64 (.a 22) (.b 2))), .set (.mul 64 (.c 0x239) (.mul 64 (.mul 64 (.a 22) (.b 1)) (.c 2))),
  .set (.mul 64 (.c 0x239) (.mul 64 (.a 21) (.b 22))), .set (.mul 64 (.c 0x239) (.mul 64 (.mul 64 (.a 21) (.b 21)) (.c 2))),
  .set (.mul 64 (.c 0x239) (.mul 64 (.mul 64 (.a 21) (.b 20)) (.c 2))), .set (.mul 64 (.c 0x239) (.mul 64 (.a 21) (.b 19))),
  .set (.mul 64 (.c 0x239) (.mul 64 (.a 21) (.b 18))), .set (.mul 64 (.c 0x239) (.mul 64 (.mul 64 (.a 21) (.b 17)) (.c 2))),
  .set (.mul 64 (.c 0x239) (.mul 64 (.mul 64 (.a 21) (.b 16)) (.c 2))), .set (.mul 64 (.c 0x239) (.mul 64 (.a 21) (.b 15))),
  .set (.mul 64 (.c 0x239) (.mul 64 (.a 21) (.b 14))), .set (.mul 64 (.c 0x239) (.mul 64 (.mul 64 (.a 21) (.b 13)) (.c 2))),
  .set (.mul 64 (.c 0x239) (.mul 64 (.mul 64 (.a 21) (.b 12)) (.c 2))), .set (.mul 64 (.c 0x239) (.mul 64 (.a 21) (.b 11))),
  .set (.mul 64 (.c 0x239) (.mul 64 (.a 21) (.b 10))), .set (.mul 64 (.c 0x239) (.mul 64 (.mul 64 (.a 21) (.b 9)) (.c 2))),
  .set (.mul 64 (.c 0x239) (.mul 64 (.mul 64 (.a 21) (.b 8)) (.c 2))), .set (.mul 64 (.c 0x239) (.mul 64 (.a 21) (.b 7))),
  .set (.mul 64 (.c 0x239) (.mul 64 (.a 21) (.b 6))), .set (.mul 64 (.c 0x239) (.mul 64 (.mul 64 (.a 21) (.b 5)) (.c 2))),
  .set (.mul 64 (.c 0x239) (.mul 64 (.mul 64 (.a 21) (.b 4)) (.c 2))), .set (.mul 64 (.c 0x239) (.mul 64 (.a 21) (.b 3))),
  .set (.mul 64 (.c 0x239) (.mul 64 (.mul 64 (.a 21) (.b 2)) (.c 2))), .set (.mul 64 (.c 0x239) (.mul 64 (.mul 64 (.a 20) (.b 22)) (.c 2))),
  .set (.mul 64 (.c 0x239) (.mul 64 (.mul 64 (.a 20) (.b 21)) (.c 2))),
  .set (.mul 64 (.c 0x239) (.mul 64 (.mul 64 (.a 20) (.b 20)) (.c 2))), .set (.mul 64 (.c 0x239) (.mul 64 (.a 20) (.b 19))),
  .set (.mul 64 (.c 0x239) (.mul 64 (.mul 64 (.a 20) (.b 18)) (.c 2))),
  .set (.mul 64 (.c 0x239) (.mul 64 (.mul 64 (.a 20) (.b 17)) (.c 2))),
  .set (.mul 64 (.c 0x239) (.mul 64 (.mul 64 (.a 20) (.b 16)) (.c 2))), .set (.mul 64 (.c 0x239) (.mul 64 (.a 20) (.b 15))),
  .set (.mul 64 (.c 0x239) (.mul 64 (.mul 64 (.a 20) (.b 14)) (.c 2))),
  .set (.mul 64 (.c 0x239) (.mul 64 (.mul 64 (.a 20) (.b 13)) (.c 2))),
  .set (.mul 64 (.c 0x239) (.mul 64 (.mul 64 (.a 20) (.b 12)) (.c 2))), .set (.mul 64 (.c 0x239) (.mul 64 (.a 20) (.b 11))),
  .set (.mul 64 (.c 0x239) (.mul 64 (.mul 64 (.a 20) (.b 10)) (.c 2))), .set (.mul 64 (.c 0x239) (.mul 64 (.mul 64 (.a 20) (.b 9)) (.c 2))),
  .set (.mul 64 (.c 0x239) (.mul 64 (.mul 64 (.a 20) (.b 8)) (.c 2))), .set (.mul 64 (.c 0x239) (.mul 64 (.a 20) (.b 7))),
  .set (.mul 64 (.c 0x239) (.mul 64 (.mul 64 (.a 20) (.b 6)) (.c 2))), .set (.mul 64 (.c 0x239) (.mul 64 (.mul 64 (.a 20) (.b 5)) (.c 2))),
  .set (.mul 64 (.c 0x239) (.mul 64 (.mul 64 (.a 20) (.b 4)) (.c 2))), .set (.mul 64 (.c 0x239) (.mul 64 (.mul 64 (.a 20) (.b 3)) (.c 2))),
  .set (.mul 64 (.c 0x239) (.mul 64 (.a 19) (.b 22))), .set (.mul 64 (.c 0x239) (.mul 64 (.a 19) (.b 21))),
  .set (.mul 64 (.c 0x239) (.mul 64 (.a 19) (.b 20))), .set (.mul 64 (.c 0x239) (.mul 64 (.a 19) (.b 19))),
  .set (.mul 64 (.c 0x239) (.mul 64 (.a 19) (.b 18))), .set (.mul 64 (.c 0x239) (.mul 64 (.a 19) (.b 17))),
  .set (.mul 64 (.c 0x239) (.mul 64 (.a 19) (.b 16))), .set (.mul 64 (.c 0x239) (.mul 64 (.a 19) (.b 15))),
  .set (.mul 64 (.c 0x239) (.mul 64 (.a 19) (.b 14))), .set (.mul 64 (.c 0x239) (.mul 64 (.a 19) (.b 13))),
  .set (.mul 64 (.c 0x239) (.mul 64 (.a 19) (.b 12))), .set (.mul 64 (.c 0x239) (.mul 64 (.a 19) (.b 11))),
  .set (.mul 64 (.c 0x239) (.mul 64 (.a 19) (.b 10))), .set (.mul 64 (.c 0x239) (.mul 64 (.a 19) (.b 9))),
  .set (.mul 64 (.c 0x239) (.mul 64 (.a 19) (.b 8))), .set (.mul 64 (.c 0x239) (.mul 64 (.a 19) (.b 7))),
  .set (.mul 64 (.c 0x239) (.mul 64 (.a 19) (.b 6))), .set (.mul 64 (.c 0x239) (.mul 64 (.a 19) (.b 5))),
  .set (.mul 64 (.c 0x239) (.mul 64 (.mul 64 (.a 19) (.b 4)) (.c 2))), .set (.mul 64 (.c 0x239) (.mul 64 (.a 18) (.b 22))),
  .set (.mul 64 (.c 0x239) (.mul 64 (.a 18) (.b 21))), .set (.mul 64 (.c 0x239) (.mul 64 (.mul 64 (.a 18) (.b 20)) (.c 2))),
  .set (.mul 64 (.c 0x239) (.mul 64 (.a 18) (.b 19))), .set (.mul 64 (.c 0x239) (.mul 64 (.a 18) (.b 18))),
  .set (.mul 64 (.c 0x239) (.mul 64 (.a 18) (.b 17))), .set (.mul 64 (.c 0x239) (.mul 64 (.mul 64 (.a 18) (.b 16)) (.c 2))),
  .set (.mul 64 (.c 0x239) (.mul 64 (.a 18) (.b 15))), .set (.mul 64 (.c 0x239) (.mul 64 (.a 18) (.b 14))),
  .set (.mul 64 (.c 0x239) (.mul 64 (.a 18) (.b 13))), .set (.mul 64 (.c 0x239) (.mul 64 (.mul 64 (.a 18) (.b 12)) (.c 2))),
  .set (.mul 64 (.c 0x239) (.mul 64 (.a 18) (.b 11))), .set (.mul 64 (.c 0x239) (.mul 64 (.a 18) (.b 10))),
  .set (.mul 64 (.c 0x239) (.mul 64 (.a 18) (.b 9))), .set (.mul 64 (.c 0x239) (.mul 64 (.mul 64 (.a 18) (.b 8)) (.c 2))),
  .set (.mul 64 (.c 0x239) (.mul 64 (.a 18) (.b 7))), .set (.mul 64 (.c 0x239) (.mul 64 (.a 18) (.b 6))),
  .set (.mul 64 (.c 0x239) (.mul 64 (.mul 64 (.a 18) (.b 5)) (.c 2))), .set (.mul 64 (.c 0x239) (.mul 64 (.a 17) (.b 22))),
  .set (.mul 64 (.c 0x239) (.mul 64 (.mul 64 (.a 17) (.b 21)) (.c 2))),
  .set (.mul 64 (.c 0x239) (.mul 64 (.mul 64 (.a 17) (.b 20)) (.c 2))), .set (.mul 64 (.c 0x239) (.mul 64 (.a 17) (.b 19))),
  .set (.mul 64 (.c 0x239) (.mul 64 (.a 17) (.b 18))), .set (.mul 64 (.c 0x239) (.mul 64 (.mul 64 (.a 17) (.b 17)) (.c 2))),
  .set (.mul 64 (.c 0x239) (.mul 64 (.mul 64 (.a 17) (.b 16)) (.c 2))), .set (.mul 64 (.c 0x239) (.mul 64 (.a 17) (.b 15))),
  .set (.mul 64 (.c 0x239) (.mul 64 (.a 17) (.b 14))), .set (.mul 64 (.c 0x239) (.mul 64 (.mul 64 (.a 17) (.b 13)) (.c 2))),
  .set (.mul 64 (.c 0x239) (.mul 64 (.mul 64 (.a 17) (.b 12)) (.c 2))), .set (.mul 64 (.c 0x239) (.mul 64 (.a 17) (.b 11))),
  .set (.mul 64 (.c 0x239) (.mul 64 (.a 17) (.b 10))), .set (.mul 64 (.c 0x239) (.mul 64 (.mul 64 (.a 17) (.b 9)) (.c 2))),
  .set (.mul 64 (.c 0x239) (.mul 64 (.mul 64 (.a 17) (.b 8)) (.c 2))), .set (.mul 64 (.c 0x239) (.mul 64 (.a 17) (.b 7))),
  .set (.mul 64 (.c 0x239) (.mul 64 (.mul 64 (.a 17) (.b 6)) (.c 2))), .set (.mul 64 (.c 0x239) (.mul 64 (.mul 64 (.a 16) (.b 22)) (.c 2))),
  .set (.mul 64 (.c 0x239) (.mul 64 (.mul 64 (.a 16) (.b 21)) (.c 2))),
  .set (.mul 64 (.c 0x239) (.mul 64 (.mul 64 (.a 16) (.b 20)) (.c 2))), .set (.mul 64 (.c 0x239) (.mul 64 (.a 16) (.b 19))),
  .set (.mul 64 (.c 0x239) (.mul 64 (.mul 64 (.a 16) (.b 18)) (.c 2))),
  .set (.mul 64 (.c 0x239) (.mul 64 (.mul 64 (.a 16) (.b 17)) (.c 2))),
  .set (.mul 64 (.c 0x239) (.mul 64 (.mul 64 (.a 16) (.b 16)) (.c 2))), .set (.mul 64 (.c 0x239) (.mul 64 (.a 16) (.b 15))),
  .set (.mul 64 (.c 0x239) (.mul 64 (.mul 64 (.a 16) (.b 14)) (.c 2))),
  .set (.mul 64 (.c 0x239) (.mul 64 (.mul 64 (.a 16) (.b 13)) (.c 2))),
  .set (.mul 64 (.c 0x239) (.mul 64 (.mul 64 (.a 16) (.b 12)) (.c 2))), .set (.mul 64 (.c 0x239) (.mul 64 (.a 16) (.b 11))),
  .set (.mul 64 (.c 0x239) (.mul 64 (.mul 64 (.a 16) (.b 10)) (.c 2))), .set (.mul 64 (.c 0x239) (.mul 64 (.mul 64 (.a 16) (.b 9)) (.c 2))),
  .set (.mul 64 (.c 0x239) (.mul 64 (.mul 64 (.a 16) (.b 8)) (.c 2))), .set (.mul 64 (.c 0x239) (.mul 64 (.mul 64 (.a 16) (.b 7)) (.c 2))),
  .set (.mul 64 (.c 0x239) (.mul 64 (.a 15) (.b 22))), .set (.mul 64 (.c 0x239) (.mul 64 (.a 15) (.b 21))),
  .set (.mul 64 (.c 0x239) (.mul 64 (.a 15) (.b 20))), .set (.mul 64 (.c 0x239) (.mul 64 (.a 15) (.b 19))),
  .set (.mul 64 (.c 0x239) (.mul 64 (.a 15) (.b 18))), .set (.mul 64 (.c 0x239) (.mul 64 (.a 15) (.b 17))),
  .set (.mul 64 (.c 0x239) (.mul 64 (.a 15) (.b 16))), .set (.mul 64 (.c 0x239) (.mul 64 (.a 15) (.b 15))),
  .set (.mul 64 (.c 0x239) (.mul 64 (.a 15) (.b 14))), .set (.mul 64 (.c 0x239) (.mul 64 (.a 15) (.b 13))),
  .set (.mul 64 (.c 0x239) (.mul 64 (.a 15) (.b 12))), .set (.mul 64 (.c 0x239) (.mul 64 (.a 15) (.b 11))),
  .set (.mul 64 (.c 0x239) (.mul 64 (.a 15) (.b 10))), .set (.mul 64 (.c 0x239) (.mul 64 (.a 15) (.b 9))),
  .set (.mul 64 (.c 0x239) (.mul 64 (.mul 64 (.a 15) (.b 8)) (.c 2))), .set (.mul 64 (.c 0x239) (.mul 64 (.a 14) (.b 22))),
  .set (.mul 64 (.c 0x239) (.mul 64 (.a 14) (.b 21))), .set (.mul 64 (.c 0x239) (.mul 64 (.mul 64 (.a 14) (.b 20)) (.c 2))),
  .set (.mul 64 (.c 0x239) (.mul 64 (.a 14) (.b 19))), .set (.mul 64 (.c 0x239) (.mul 64 (.a 14) (.b 18))),
  .set (.mul 64 (.c 0x239) (.mul 64 (.a 14) (.b 17))), .set (.mul 64 (.c 0x239) (.mul 64 (.mul 64 (.a 14) (.b 16)) (.c 2))),
  .set (.mul 64 (.c 0x239) (.mul 64 (.a 14) (.b 15))), .set (.mul 64 (.c 0x239) (.mul 64 (.a 14) (.b 14))),
  .set (.mul 64 (.c 0x239) (.mul 64 (.a 14) (.b 13))), .set (.mul 64 (.c 0x239) (.mul 64 (.mul 64 (.a 14) (.b 12)) (.c 2))),
  .set (.mul 64 (.c 0x239) (.mul 64 (.a 14) (.b 11))), .set (.mul 64 (.c 0x239) (.mul 64 (.a 14) (.b 10))),
  .set (.mul 64 (.c 0x239) (.mul 64 (.mul 64 (.a 14) (.b 9)) (.c 2))), .set (.mul 64 (.c 0x239) (.mul 64 (.a 13) (.b 22))),
  .set (.mul 64 (.c 0x239) (.mul 64 (.mul 64 (.a 13) (.b 21)) (.c 2))),
  .set (.mul 64 (.c 0x239) (.mul 64 (.mul 64 (.a 13) (.b 20)) (.c 2))), .set (.mul 64 (.c 0x239) (.mul 64 (.a 13) (.b 19))),
  .set (.mul 64 (.c 0x239) (.mul 64 (.a 13) (.b 18))), .set (.mul 64 (.c 0x239) (.mul 64 (.mul 64 (.a 13) (.b 17)) (.c 2))),
  .set (.mul 64 (.c 0x239) (.mul 64 (.mul 64 (.a 13) (.b 16)) (.c 2))), .set (.mul 64 (.c 0x239) (.mul 64 (.a 13) (.b 15))),
  .set (.mul 64 (.c 0x239) (.mul 64 (.a 13) (.b 14))), .set (.mul 64 (.c 0x239) (.mul 64 (.mul 64 (.a 13) (.b 13)) (.c 2))),
  .set (.mul 64 (.c 0x239) (.mul 64 (.mul 64 (.a 13) (.b 12)) (.c 2))), .set (.mul 64 (.c 0x239) (.mul 64 (.a 13) (.b 11))),
  .set (.mul 64 (.c 0x239) (.mul 64 (.mul 64 (.a 13) (.b 10)) (.c 2))),
  .set (.mul 64 (.c 0x239) (.mul 64 (.mul 64 (.a 12) (.b 22)) (.c 2))),
  .set (.mul 64 (.c 0x239) (.mul 64 (.mul 64 (.a 12) (.b 21)) (.c 2))),
  .set (.mul 64 (.c 0x239) (.mul 64 (.mul 64 (.a 12) (.b 20)) (.c 2))), .set (.mul 64 (.c 0x239) (.mul 64 (.a 12) (.b 19))),
  .set (.mul 64 (.c 0x239) (.mul 64 (.mul 64 (.a 12) (.b 18)) (.c 2))),
  .set (.mul 64 (.c 0x239) (.mul 64 (.mul 64 (.a 12) (.b 17)) (.c 2))),
  .set (.mul 64 (.c 0x239) (.mul 64 (.mul 64 (.a 12) (.b 16)) (.c 2))), .set (.mul 64 (.c 0x239) (.mul 64 (.a 12) (.b 15))),
  .set (.mul 64 (.c 0x239) (.mul 64 (.mul 64 (.a 12) (.b 14)) (.c 2))),
  .set (.mul 64 (.c 0x239) (.mul 64 (.mul 64 (.a 12) (.b 13)) (.c 2))),
  .set (.mul 64 (.c 0x239) (.mul 64 (.mul 64 (.a 12) (.b 12)) (.c 2))),
  .set (.mul 64 (.c 0x239) (.mul 64 (.mul 64 (.a 12) (.b 11)) (.c 2))), .set (.mul 64 (.c 0x239) (.mul 64 (.a 11) (.b 22))),
  .set (.mul 64 (.c 0x239) (.mul 64 (.a 11) (.b 21))), .set (.mul 64 (.c 0x239) (.mul 64 (.a 11) (.b 20))),
  .set (.mul 64 (.c 0x239) (.mul 64 (.a 11) (.b 19))), .set (.mul 64 (.c 0x239) (.mul 64 (.a 11) (.b 18))),
  .set (.mul 64 (.c 0x239) (.mul 64 (.a 11) (.b 17))), .set (.mul 64 (.c 0x239) (.mul 64 (.a 11) (.b 16))),
  .set (.mul 64 (.c 0x239) (.mul 64 (.a 11) (.b 15))), .set (.mul 64 (.c 0x239) (.mul 64 (.a 11) (.b 14))),
  .set (.mul 64 (.c 0x239) (.mul 64 (.a 11) (.b 13))), .set (.mul 64 (.c 0x239) (.mul 64 (.mul 64 (.a 11) (.b 12)) (.c 2))),
  .set (.mul 64 (.c 0x239) (.mul 64 (.a 10) (.b 22))), .set (.mul 64 (.c 0x239) (.mul 64 (.a 10) (.b 21))),
  .set (.mul 64 (.c 0x239) (.mul 64 (.mul 64 (.a 10) (.b 20)) (.c 2))), .set (.mul 64 (.c 0x239) (.mul 64 (.a 10) (.b 19))),
  .set (.mul 64 (.c 0x239) (.mul 64 (.a 10) (.b 18))), .set (.mul 64 (.c 0x239) (.mul 64 (.a 10) (.b 17))),
  .set (.mul 64 (.c 0x239) (.mul 64 (.mul 64 (.a 10) (.b 16)) (.c 2))), .set (.mul 64 (.c 0x239) (.mul 64 (.a 10) (.b 15))),
  .set (.mul 64 (.c 0x239) (.mul 64 (.a 10) (.b 14))), .set (.mul 64 (.c 0x239) (.mul 64 (.mul 64 (.a 10) (.b 13)) (.c 2))),
  .set (.mul 64 (.c 0x239) (.mul 64 (.a 9) (.b 22))), .set (.mul 64 (.c 0x239) (.mul 64 (.mul 64 (.a 9) (.b 21)) (.c 2))),
  .set (.mul 64 (.c 0x239) (.mul 64 (.mul 64 (.a 9) (.b 20)) (.c 2))), .set (.mul 64 (.c 0x239) (.mul 64 (.a 9) (.b 19))),
  .set (.mul 64 (.c 0x239) (.mul 64 (.a 9) (.b 18))), .set (.mul 64 (.c 0x239) (.mul 64 (.mul 64 (.a 9) (.b 17)) (.c 2))),
  .set (.mul 64 (.c 0x239) (.mul 64 (.mul 64 (.a 9) (.b 16)) (.c 2))), .set (.mul 64 (.c 0x239) (.mul 64 (.a 9) (.b 15))),
  .set (.mul 64 (.c 0x239) (.mul 64 (.mul 64 (.a 9) (.b 14)) (.c 2))), .set (.mul 64 (.c 0x239) (.mul 64 (.mul 64 (.a 8) (.b 22)) (.c 2))),
  .set (.mul 64 (.c 0x239) (.mul 64 (.mul 64 (.a 8) (.b 21)) (.c 2))), .set (.mul 64 (.c 0x239) (.mul 64 (.mul 64 (.a 8) (.b 20)) (.c 2))),
  .set (.mul 64 (.c 0x239) (.mul 64 (.a 8) (.b 19))), .set (.mul 64 (.c 0x239) (.mul 64 (.mul 64 (.a 8) (.b 18)) (.c 2))),
  .set (.mul 64 (.c 0x239) (.mul 64 (.mul 64 (.a 8) (.b 17)) (.c 2))), .set (.mul 64 (.c 0x239) (.mul 64 (.mul 64 (.a 8) (.b 16)) (.c 2))),
  .set (.mul 64 (.c 0x239) (.mul 64 (.mul 64 (.a 8) (.b 15)) (.c 2))), .set (.mul 64 (.c 0x239) (.mul 64 (.a 7) (.b 22))),
  .set (.mul 64 (.c 0x239) (.mul 64 (.a 7) (.b 21))), .set (.mul 64 (.c 0x239) (.mul 64 (.a 7) (.b 20))),
  .set (.mul 64 (.c 0x239) (.mul 64 (.a 7) (.b 19))), .set (.mul 64 (.c 0x239) (.mul 64 (.a 7) (.b 18))),
  .set (.mul 64 (.c 0x239) (.mul 64 (.a 7) (.b 17))), .set (.mul 64 (.c 0x239) (.mul 64 (.mul 64 (.a 7) (.b 16)) (.c 2))),
  .set (.mul 64 (.c 0x239) (.mul 64 (.a 6) (.b 22))), .set (.mul 64 (.c 0x239) (.mul 64 (.a 6) (.b 21))),
  .set (.mul 64 (.c 0x239) (.mul 64 (.mul 64 (.a 6) (.b 20)) (.c 2))), .set (.mul 64 (.c 0x239) (.mul 64 (.a 6) (.b 19))),
  .set (.mul 64 (.c 0x239) (.mul 64 (.a 6) (.b 18))), .set (.mul 64 (.c 0x239) (.mul 64 (.mul 64 (.a 6) (.b 17)) (.c 2))),
  .set (.mul 64 (.c 0x239) (.mul 64 (.a 5) (.b 22))), .set (.mul 64 (.c 0x239) (.mul 64 (.mul 64 (.a 5) (.b 21)) (.c 2))),
  .set (.mul 64 (.c 0x239) (.mul 64 (.mul 64 (.a 5) (.b 20)) (.c 2))), .set (.mul 64 (.c 0x239) (.mul 64 (.a 5) (.b 19))),
  .set (.mul 64 (.c 0x239) (.mul 64 (.mul 64 (.a 5) (.b 18)) (.c 2))), .set (.mul 64 (.c 0x239) (.mul 64 (.mul 64 (.a 4) (.b 22)) (.c 2))),
  .set (.mul 64 (.c 0x239) (.mul 64 (.mul 64 (.a 4) (.b 21)) (.c 2))), .set (.mul 64 (.c 0x239) (.mul 64 (.mul 64 (.a 4) (.b 20)) (.c 2))),
  .set (.mul 64 (.c 0x239) (.mul 64 (.mul 64 (.a 4) (.b 19)) (.c 2))), .set (.mul 64 (.c 0x239) (.mul 64 (.a 3) (.b 22))),
  .set (.mul 64 (.c 0x239) (.mul 64 (.a 3) (.b 21))), .set (.mul 64 (.c 0x239) (.mul 64 (.mul 64 (.a 3) (.b 20)) (.c 2))),
  .set (.mul 64 (.c 0x239) (.mul 64 (.a 2) (.b 22))), .set (.mul 64 (.c 0x239) (.mul 64 (.mul 64 (.a 2) (.b 21)) (.c 2))),
  .set (.mul 64 (.c 0x239) (.mul 64 (.mul 64 (.a 1) (.b 22)) (.c 2))), .set (.mul 64 (.a 22) (.b 0)),
  .set (.mul 64 (.a 21) (.mul 32 (.b 1) (.c 2))), .set (.mul 64 (.a 21) (.b 0)), .set (.mul 64 (.a 20) (.mul 32 (.b 2) (.c 2))),
  .set (.mul 64 (.a 20) (.mul 32 (.b 1) (.c 2))), .set (.mul 64 (.a 20) (.b 0)), .set (.mul 64 (.a 19) (.b 3)),
  .set (.mul 64 (.a 19) (.b 2)), .set (.mul 64 (.a 19) (.b 1)), .set (.mul 64 (.a 19) (.b 0)),
  .set (.mul 64 (.a 18) (.mul 32 (.b 4) (.c 2))), .set (.mul 64 (.a 18) (.b 3)), .set (.mul 64 (.a 18) (.b 2)),
  .set (.mul 64 (.a 18) (.mul 32 (.b 1) (.c 2))), .set (.mul 64 (.a 18) (.b 0)), .set (.mul 64 (.a 17) (.mul 32 (.b 5) (.c 2))),
  .set (.mul 64 (.a 17) (.mul 32 (.b 4) (.c 2))), .set (.mul 64 (.a 17) (.b 3)), .set (.mul 64 (.a 17) (.mul 32 (.b 2) (.c 2))),
  .set (.mul 64 (.a 17) (.mul 32 (.b 1) (.c 2))), .set (.mul 64 (.a 17) (.b 0)), .set (.mul 64 (.a 16) (.mul 32 (.b 6) (.c 2))),
  .set (.mul 64 (.a 16) (.mul 32 (.b 5) (.c 2))), .set (.mul 64 (.a 16) (.mul 32 (.b 4) (.c 2))),
  .set (.mul 64 (.a 16) (.mul 32 (.b 3) (.c 2))), .set (.mul 64 (.a 16) (.mul 32 (.b 2) (.c 2))),
  .set (.mul 64 (.a 16) (.mul 32 (.b 1) (.c 2))), .set (.mul 64 (.a 16) (.b 0)), .set (.mul 64 (.a 15) (.b 7)),
  .set (.mul 64 (.a 15) (.b 6)), .set (.mul 64 (.a 15) (.b 5)), .set (.mul 64 (.a 15) (.mul 32 (.b 4) (.c 2))),
  .set (.mul 64 (.a 15) (.b 3)), .set (.mul 64 (.a 15) (.b 2)), .set (.mul 64 (.a 15) (.b 1)), .set (.mul 64 (.a 15) (.b 0)),
  .set (.mul 64 (.a 14) (.mul 32 (.b 8) (.c 2))), .set (.mul 64 (.a 14) (.b 7)), .set (.mul 64 (.a 14) (.b 6)),
  .set (.mul 64 (.a 14) (.mul 32 (.b 5) (.c 2))), .set (.mul 64 (.a 14) (.mul 32 (.b 4) (.c 2))), .set (.mul 64 (.a 14) (.b 3)),
  .set (.mul 64 (.a 14) (.b 2)), .set (.mul 64 (.a 14) (.mul 32 (.b 1) (.c 2))), .set (.mul 64 (.a 14) (.b 0)),
  .set (.mul 64 (.a 13) (.mul 32 (.b 9) (.c 2))), .set (.mul 64 (.a 13) (.mul 32 (.b 8) (.c 2))), .set (.mul 64 (.a 13) (.b 7)),
  .set (.mul 64 (.a 13) (.mul 32 (.b 6) (.c 2))), .set (.mul 64 (.a 13) (.mul 32 (.b 5) (.c 2))),
  .set (.mul 64 (.a 13) (.mul 32 (.b 4) (.c 2))), .set (.mul 64 (.a 13) (.b 3)), .set (.mul 64 (.a 13) (.mul 32 (.b 2) (.c 2))),
  .set (.mul 64 (.a 13) (.mul 32 (.b 1) (.c 2))), .set (.mul 64 (.a 13) (.b 0)), .set (.mul 64 (.a 12) (.mul 32 (.b 10) (.c 2))),
  .set (.mul 64 (.a 12) (.mul 32 (.b 9) (.c 2))), .set (.mul 64 (.a 12) (.mul 32 (.b 8) (.c 2))),
  .set (.mul 64 (.a 12) (.mul 32 (.b 7) (.c 2))), .set (.mul 64 (.a 12) (.mul 32 (.b 6) (.c 2))),
  .set (.mul 64 (.a 12) (.mul 32 (.b 5) (.c 2))), .set (.mul 64 (.a 12) (.mul 32 (.b 4) (.c 2))),
  .set (.mul 64 (.a 12) (.mul 32 (.b 3) (.c 2))), .set (.mul 64 (.a 12) (.mul 32 (.b 2) (.c 2))),
  .set (.mul 64 (.a 12) (.mul 32 (.b 1) (.c 2))), .set (.mul 64 (.a 12) (.b 0)), .set (.mul 64 (.a 11) (.b 11)),
  .set (.mul 64 (.a 11) (.b 10)), .set (.mul 64 (.a 11) (.b 9)), .set (.mul 64 (.a 11) (.mul 32 (.b 8) (.c 2))),
  .set (.mul 64 (.a 11) (.b 7)), .set (.mul 64 (.a 11) (.b 6)), .set (.mul 64 (.a 11) (.b 5)),
  .set (.mul 64 (.a 11) (.mul 32 (.b 4) (.c 2))), .set (.mul 64 (.a 11) (.b 3)), .set (.mul 64 (.a 11) (.b 2)),
  .set (.mul 64 (.a 11) (.b 1)), .set (.mul 64 (.a 11) (.b 0)), .set (.mul 64 (.a 10) (.mul 32 (.b 12) (.c 2))),
  .set (.mul 64 (.a 10) (.b 11)), .set (.mul 64 (.a 10) (.b 10)), .set (.mul 64 (.a 10) (.mul 32 (.b 9) (.c 2))),
  .set (.mul 64 (.a 10) (.mul 32 (.b 8) (.c 2))), .set (.mul 64 (.a 10) (.b 7)), .set (.mul 64 (.a 10) (.b 6)),
  .set (.mul 64 (.a 10) (.mul 32 (.b 5) (.c 2))), .set (.mul 64 (.a 10) (.mul 32 (.b 4) (.c 2))), .set (.mul 64 (.a 10) (.b 3)),
  .set (.mul 64 (.a 10) (.b 2)), .set (.mul 64 (.a 10) (.mul 32 (.b 1) (.c 2))), .set (.mul 64 (.a 10) (.b 0)),
  .set (.mul 64 (.a 9) (.mul 32 (.b 13) (.c 2))), .set (.mul 64 (.a 9) (.mul 32 (.b 12) (.c 2))), .set (.mul 64 (.a 9) (.b 11)),
  .set (.mul 64 (.a 9) (.mul 32 (.b 10) (.c 2))), .set (.mul 64 (.a 9) (.mul 32 (.b 9) (.c 2))),
  .set (.mul 64 (.a 9) (.mul 32 (.b 8) (.c 2))), .set (.mul 64 (.a 9) (.b 7)), .set (.mul 64 (.a 9) (.mul 32 (.b 6) (.c 2))),
  .set (.mul 64 (.a 9) (.mul 32 (.b 5) (.c 2))), .set (.mul 64 (.a 9) (.mul 32 (.b 4) (.c 2))), .set (.mul 64 (.a 9) (.b 3)),
  .set (.mul 64 (.a 9) (.mul 32 (.b 2) (.c 2))), .set (.mul 64 (.a 9) (.mul 32 (.b 1) (.c 2))), .set (.mul 64 (.a 9) (.b 0)),
  .set (.mul 64 (.a 8) (.mul 32 (.b 14) (.c 2))), .set (.mul 64 (.a 8) (.mul 32 (.b 13) (.c 2))),
  .set (.mul 64 (.a 8) (.mul 32 (.b 12) (.c 2))), .set (.mul 64 (.a 8) (.mul 32 (.b 11) (.c 2))),
  .set (.mul 64 (.a 8) (.mul 32 (.b 10) (.c 2))), .set (.mul 64 (.a 8) (.mul 32 (.b 9) (.c 2))),
  .set (.mul 64 (.a 8) (.mul 32 (.b 8) (.c 2))), .set (.mul 64 (.a 8) (.mul 32 (.b 7) (.c 2))),
  .set (.mul 64 (.a 8) (.mul 32 (.b 6) (.c 2))), .set (.mul 64 (.a 8) (.mul 32 (.b 5) (.c 2))),
  .set (.mul 64 (.a 8) (.mul 32 (.b 4) (.c 2))), .set (.mul 64 (.a 8) (.mul 32 (.b 3) (.c 2))),
  .set (.mul 64 (.a 8) (.mul 32 (.b 2) (.c 2))), .set (.mul 64 (.a 8) (.mul 32 (.b 1) (.c 2))), .set (.mul 64 (.a 8) (.b 0)),
  .set (.mul 64 (.a 7) (.b 15)), .set (.mul 64 (.a 7) (.b 14)), .set (.mul 64 (.a 7) (.b 13)),
  .set (.mul 64 (.a 7) (.mul 32 (.b 12) (.c 2))), .set (.mul 64 (.a 7) (.b 11)), .set (.mul 64 (.a 7) (.b 10)),
  .set (.mul 64 (.a 7) (.b 9)), .set (.mul 64 (.a 7) (.mul 32 (.b 8) (.c 2))), .set (.mul 64 (.a 7) (.b 7)), .set (.mul 64 (.a 7) (.b 6)),
  .set (.mul 64 (.a 7) (.b 5)), .set (.mul 64 (.a 7) (.mul 32 (.b 4) (.c 2))), .set (.mul 64 (.a 7) (.b 3)), .set (.mul 64 (.a 7) (.b 2)),
  .set (.mul 64 (.a 7) (.b 1)), .set (.mul 64 (.a 7) (.b 0)), .set (.mul 64 (.a 6) (.mul 32 (.b 16) (.c 2))), .set (.mul 64 (.a 6) (.b 15)),
  .set (.mul 64 (.a 6) (.b 14)), .set (.mul 64 (.a 6) (.mul 32 (.b 13) (.c 2))), .set (.mul 64 (.a 6) (.mul 32 (.b 12) (.c 2))),
  .set (.mul 64 (.a 6) (.b 11)), .set (.mul 64 (.a 6) (.b 10)), .set (.mul 64 (.a 6) (.mul 32 (.b 9) (.c 2))),
  .set (.mul 64 (.a 6) (.mul 32 (.b 8) (.c 2))), .set (.mul 64 (.a 6) (.b 7)), .set (.mul 64 (.a 6) (.b 6)),
  .set (.mul 64 (.a 6) (.mul 32 (.b 5) (.c 2))), .set (.mul 64 (.a 6) (.mul 32 (.b 4) (.c 2))), .set (.mul 64 (.a 6) (.b 3)),
  .set (.mul 64 (.a 6) (.b 2)), .set (.mul 64 (.a 6) (.mul 32 (.b 1) (.c 2))), .set (.mul 64 (.a 6) (.b 0)),
  .set (.mul 64 (.a 5) (.mul 32 (.b 17) (.c 2))), .set (.mul 64 (.a 5) (.mul 32 (.b 16) (.c 2))), .set (.mul 64 (.a 5) (.b 15)),
  .set (.mul 64 (.a 5) (.mul 32 (.b 14) (.c 2))), .set (.mul 64 (.a 5) (.mul 32 (.b 13) (.c 2))),
  .set (.mul 64 (.a 5) (.mul 32 (.b 12) (.c 2))), .set (.mul 64 (.a 5) (.b 11)), .set (.mul 64 (.a 5) (.mul 32 (.b 10) (.c 2))),
  .set (.mul 64 (.a 5) (.mul 32 (.b 9) (.c 2))), .set (.mul 64 (.a 5) (.mul 32 (.b 8) (.c 2))), .set (.mul 64 (.a 5) (.b 7)),
  .set (.mul 64 (.a 5) (.mul 32 (.b 6) (.c 2))), .set (.mul 64 (.a 5) (.mul 32 (.b 5) (.c 2))),
  .set (.mul 64 (.a 5) (.mul 32 (.b 4) (.c 2))), .set (.mul 64 (.a 5) (.b 3)), .set (.mul 64 (.a 5) (.mul 32 (.b 2) (.c 2))),
  .set (.mul 64 (.a 5) (.mul 32 (.b 1) (.c 2))), .set (.mul 64 (.a 5) (.b 0)), .set (.mul 64 (.a 4) (.mul 32 (.b 18) (.c 2))),
  .set (.mul 64 (.a 4) (.mul 32 (.b 17) (.c 2))), .set (.mul 64 (.a 4) (.mul 32 (.b 16) (.c 2))),
  .set (.mul 64 (.a 4) (.mul 32 (.b 15) (.c 2))), .set (.mul 64 (.a 4) (.mul 32 (.b 14) (.c 2))),
  .set (.mul 64 (.a 4) (.mul 32 (.b 13) (.c 2))), .set (.mul 64 (.a 4) (.mul 32 (.b 12) (.c 2))),
  .set (.mul 64 (.a 4) (.mul 32 (.b 11) (.c 2))), .set (.mul 64 (.a 4) (.mul 32 (.b 10) (.c 2))),
  .set (.mul 64 (.a 4) (.mul 32 (.b 9) (.c 2))), .set (.mul 64 (.a 4) (.mul 32 (.b 8) (.c 2))),
  .set (.mul 64 (.a 4) (.mul 32 (.b 7) (.c 2))), .set (.mul 64 (.a 4) (.mul 32 (.b 6) (.c 2))),
  .set (.mul 64 (.a 4) (.mul 32 (.b 5) (.c 2))), .set (.mul 64 (.a 4) (.mul 32 (.b 4) (.c 2))),
  .set (.mul 64 (.a 4) (.mul 32 (.b 3) (.c 2))), .set (.mul 64 (.a 4) (.mul 32 (.b 2) (.c 2))),
  .set (.mul 64 (.a 4) (.mul 32 (.b 1) (.c 2))), .set (.mul 64 (.a 4) (.b 0)), .set (.mul 64 (.a 3) (.b 19)), .set (.mul 64 (.a 3) (.b 18)),
  .set (.mul 64 (.a 3) (.b 17)), .set (.mul 64 (.a 3) (.mul 32 (.b 16) (.c 2))), .set (.mul 64 (.a 3) (.b 15)),
  .set (.mul 64 (.a 3) (.b 14)), .set (.mul 64 (.a 3) (.b 13)), .set (.mul 64 (.a 3) (.mul 32 (.b 12) (.c 2))),
  .set (.mul 64 (.a 3) (.b 11)), .set (.mul 64 (.a 3) (.b 10)), .set (.mul 64 (.a 3) (.b 9)), .set (.mul 64 (.a 3) (.mul 32 (.b 8) (.c 2))),
  .set (.mul 64 (.a 3) (.b 7)), .set (.mul 64 (.a 3) (.b 6)), .set (.mul 64 (.a 3) (.b 5)), .set (.mul 64 (.a 3) (.mul 32 (.b 4) (.c 2))),
  .set (.mul 64 (.a 3) (.b 3)), .set (.mul 64 (.a 3) (.b 2)), .set (.mul 64 (.a 3) (.b 1)), .set (.mul 64 (.a 3) (.b 0)),
  .set (.mul 64 (.a 2) (.mul 32 (.b 20) (.c 2))), .set (.mul 64 (.a 2) (.b 19)), .set (.mul 64 (.a 2) (.b 18)),
  .set (.mul 64 (.a 2) (.mul 32 (.b 17) (.c 2))), .set (.mul 64 (.a 2) (.mul 32 (.b 16) (.c 2))), .set (.mul 64 (.a 2) (.b 15)),
  .set (.mul 64 (.a 2) (.b 14)), .set (.mul 64 (.a 2) (.mul 32 (.b 13) (.c 2))), .set (.mul 64 (.a 2) (.mul 32 (.b 12) (.c 2))),
  .set (.mul 64 (.a 2) (.b 11)), .set (.mul 64 (.a 2) (.b 10)), .set (.mul 64 (.a 2) (.mul 32 (.b 9) (.c 2))),
  .set (.mul 64 (.a 2) (.mul 32 (.b 8) (.c 2))), .set (.mul 64 (.a 2) (.b 7)), .set (.mul 64 (.a 2) (.b 6)),
  .set (.mul 64 (.a 2) (.mul 32 (.b 5) (.c 2))), .set (.mul 64 (.a 2) (.mul 32 (.b 4) (.c 2))), .set (.mul 64 (.a 2) (.b 3)),
  .set (.mul 64 (.a 2) (.b 2)), .set (.mul 64 (.a 2) (.mul 32 (.b 1) (.c 2))), .set (.mul 64 (.a 2) (.b 0)),
  .set (.mul 64 (.a 1) (.mul 32 (.b 21) (.c 2))), .set (.mul 64 (.a 1) (.mul 32 (.b 20) (.c 2))), .set (.mul 64 (.a 1) (.b 19)),
  .set (.mul 64 (.a 1) (.mul 32 (.b 18) (.c 2))), .set (.mul 64 (.a 1) (.mul 32 (.b 17) (.c 2))),
  .set (.mul 64 (.a 1) (.mul 32 (.b 16) (.c 2))), .set (.mul 64 (.a 1) (.b 15)), .set (.mul 64 (.a 1) (.mul 32 (.b 14) (.c 2))),
  .set (.mul 64 (.a 1) (.mul 32 (.b 13) (.c 2))), .set (.mul 64 (.a 1) (.mul 32 (.b 12) (.c 2))), .set (.mul 64 (.a 1) (.b 11)),
  .set (.mul 64 (.a 1) (.mul 32 (.b 10) (.c 2))), .set (.mul 64 (.a 1) (.mul 32 (.b 9) (.c 2))),
  .set (.mul 64 (.a 1) (.mul 32 (.b 8) (.c 2))), .set (.mul 64 (.a 1) (.b 7)), .set (.mul 64 (.a 1) (.mul 32 (.b 6) (.c 2))),
  .set (.mul 64 (.a 1) (.mul 32 (.b 5) (.c 2))), .set (.mul 64 (.a 1) (.mul 32 (.b 4) (.c 2))), .set (.mul 64 (.a 1) (.b 3)),
  .set (.mul 64 (.a 1) (.mul 32 (.b 2) (.c 2))), .set (.mul 64 (.a 1) (.mul 32 (.b 1) (.c 2))), .set (.mul 64 (.a 1) (.b 0)),
  .set (.mul 64 (.a 0) (.b 22)), .set (.mul 64 (.a 0) (.b 21)), .set (.mul 64 (.a 0) (.b 20)), .set (.mul 64 (.a 0) (.b 19)),
  .set (.mul 64 (.a 0) (.b 18)), .set (.mul 64 (.a 0) (.b 17)), .set (.mul 64 (.a 0) (.b 16)), .set (.mul 64 (.a 0) (.b 15)),
  .set (.mul 64 (.a 0) (.b 14)), .set (.mul 64 (.a 0) (.b 13)), .set (.mul 64 (.a 0) (.b 12)), .set (.mul 64 (.a 0) (.b 11)),
  .set (.mul 64 (.a 0) (.b 10)), .set (.mul 64 (.a 0) (.b 9)), .set (.mul 64 (.a 0) (.b 8)), .set (.mul 64 (.a 0) (.b 7)),
  .set (.mul 64 (.a 0) (.b 6)), .set (.mul 64 (.a 0) (.b 5)), .set (.mul 64 (.a 0) (.b 4)), .set (.mul 64 (.a 0) (.b 3)),
  .set (.mul 64 (.a 0) (.b 2)), .set (.mul 64 (.a 0) (.b 1)), .set (.mul 64 (.a 0) (.b 0)),
  .set (.add 64 (.x 529) (.add 64 (.x 253) (.add 64 (.x 252) (.add 64 (.x 250) (.add 64 (.x 247) (.add 64 (.x 243) (.add 64 (.x 238) (.add 64 (.x 232) (.add 64 (.x 225) (.add 64 (.x 217) (.add 64 (.x 208) (.add 64 (.x 198) (.add 64 (.x 187) (.add 64 (.x 175) (.add 64 (.x 162) (.add 64 (.x 148) (.add 64 (.x 133) (.add 64 (.x 117) (.add 64 (.x 100) (.add 64 (.x 82) (.add 64 (.x 63) (.add 64 (.x 43) (.x 22))))))))))))))))))))))),
  .set (.shr (.x 530) 23), .set (.cast 32 (.and (.x 530) (.c 0x7fffff))),
  .set (.add 64 (.x 507) (.add 64 (.x 485) (.add 64 (.x 464) (.add 64 (.x 444) (.add 64 (.x 425) (.add 64 (.x 407) (.add 64 (.x 390) (.add 64 (.x 374) (.add 64 (.x 359) (.add 64 (.x 345) (.add 64 (.x 332) (.add 64 (.x 320) (.add 64 (.x 309) (.add 64 (.x 299) (.add 64 (.x 290) (.add 64 (.x 282) (.add 64 (.x 275) (.add 64 (.x 269) (.add 64 (.x 264) (.add 64 (.x 260) (.add 64 (.x 257) (.add 64 (.x 255) (.x 254))))))))))))))))))))))),
  .set (.add 64 (.x 508) (.add 64 (.x 486) (.add 64 (.x 465) (.add 64 (.x 445) (.add 64 (.x 426) (.add 64 (.x 408) (.add 64 (.x 391) (.add 64 (.x 375) (.add 64 (.x 360) (.add 64 (.x 346) (.add 64 (.x 333) (.add 64 (.x 321) (.add 64 (.x 310) (.add 64 (.x 300) (.add 64 (.x 291) (.add 64 (.x 283) (.add 64 (.x 276) (.add 64 (.x 270) (.add 64 (.x 265) (.add 64 (.x 261) (.add 64 (.x 258) (.add 64 (.x 256) (.x 1))))))))))))))))))))))),
  .set (.add 64 (.x 509) (.add 64 (.x 487) (.add 64 (.x 466) (.add 64 (.x 446) (.add 64 (.x 427) (.add 64 (.x 409) (.add 64 (.x 392) (.add 64 (.x 376) (.add 64 (.x 361) (.add 64 (.x 347) (.add 64 (.x 334) (.add 64 (.x 322) (.add 64 (.x 311) (.add 64 (.x 301) (.add 64 (.x 292) (.add 64 (.x 284) (.add 64 (.x 277) (.add 64 (.x 271) (.add 64 (.x 266) (.add 64 (.x 262) (.add 64 (.x 259) (.add 64 (.x 23) (.x 2))))))))))))))))))))))),
  .set (.add 64 (.x 510) (.add 64 (.x 488) (.add 64 (.x 467) (.add 64 (.x 447) (.add 64 (.x 428) (.add 64 (.x 410) (.add 64 (.x 393) (.add 64 (.x 377) (.add 64 (.x 362) (.add 64 (.x 348) (.add 64 (.x 335) (.add 64 (.x 323) (.add 64 (.x 312) (.add 64 (.x 302) (.add 64 (.x 293) (.add 64 (.x 285) (.add 64 (.x 278) (.add 64 (.x 272) (.add 64 (.x 267) (.add 64 (.x 263) (.add 64 (.x 44) (.add 64 (.x 24) (.x 3))))))))))))))))))))))),
  .set (.add 64 (.x 511) (.add 64 (.x 489) (.add 64 (.x 468) (.add 64 (.x 448) (.add 64 (.x 429) (.add 64 (.x 411) (.add 64 (.x 394) (.add 64 (.x 378) (.add 64 (.x 363) (.add 64 (.x 349) (.add 64 (.x 336) (.add 64 (.x 324) (.add 64 (.x 313) (.add 64 (.x 303) (.add 64 (.x 294) (.add 64 (.x 286) (.add 64 (.x 279) (.add 64 (.x 273) (.add 64 (.x 268) (.add 64 (.x 64) (.add 64 (.x 45) (.add 64 (.x 25) (.x 4))))))))))))))))))))))),
  .set (.add 64 (.x 512) (.add 64 (.x 490) (.add 64 (.x 469) (.add 64 (.x 449) (.add 64 (.x 430) (.add 64 (.x 412) (.add 64 (.x 395) (.add 64 (.x 379) (.add 64 (.x 364) (.add 64 (.x 350) (.add 64 (.x 337) (.add 64 (.x 325) (.add 64 (.x 314) (.add 64 (.x 304) (.add 64 (.x 295) (.add 64 (.x 287) (.add 64 (.x 280) (.add 64 (.x 274) (.add 64 (.x 83) (.add 64 (.x 65) (.add 64 (.x 46) (.add 64 (.x 26) (.x 5))))))))))))))))))))))),
  .set (.add 64 (.x 513) (.add 64 (.x 491) (.add 64 (.x 470) (.add 64 (.x 450) (.add 64 (.x 431) (.add 64 (.x 413) (.add 64 (.x 396) (.add 64 (.x 380) (.add 64 (.x 365) (.add 64 (.x 351) (.add 64 (.x 338) (.add 64 (.x 326) (.add 64 (.x 315) (.add 64 (.x 305) (.add 64 (.x 296) (.add 64 (.x 288) (.add 64 (.x 281) (.add 64 (.x 101) (.add 64 (.x 84) (.add 64 (.x 66) (.add 64 (.x 47) (.add 64 (.x 27) (.x 6))))))))))))))))))))))),
  .set (.add 64 (.x 514) (.add 64 (.x 492) (.add 64 (.x 471) (.add 64 (.x 451) (.add 64 (.x 432) (.add 64 (.x 414) (.add 64 (.x 397) (.add 64 (.x 381) (.add 64 (.x 366) (.add 64 (.x 352) (.add 64 (.x 339) (.add 64 (.x 327) (.add 64 (.x 316) (.add 64 (.x 306) (.add 64 (.x 297) (.add 64 (.x 289) (.add 64 (.x 118) (.add 64 (.x 102) (.add 64 (.x 85) (.add 64 (.x 67) (.add 64 (.x 48) (.add 64 (.x 28) (.x 7))))))))))))))))))))))),
  .set (.add 64 (.x 515) (.add 64 (.x 493) (.add 64 (.x 472) (.add 64 (.x 452) (.add 64 (.x 433) (.add 64 (.x 415) (.add 64 (.x 398) (.add 64 (.x 382) (.add 64 (.x 367) (.add 64 (.x 353) (.add 64 (.x 340) (.add 64 (.x 328) (.add 64 (.x 317) (.add 64 (.x 307) (.add 64 (.x 298) (.add 64 (.x 134) (.add 64 (.x 119) (.add 64 (.x 103) (.add 64 (.x 86) (.add 64 (.x 68) (.add 64 (.x 49) (.add 64 (.x 29) (.x 8))))))))))))))))))))))),
  .set (.add 64 (.x 516) (.add 64 (.x 494) (.add 64 (.x 473) (.add 64 (.x 453) (.add 64 (.x 434) (.add 64 (.x 416) (.add 64 (.x 399) (.add 64 (.x 383) (.add 64 (.x 368) (.add 64 (.x 354) (.add 64 (.x 341) (.add 64 (.x 329) (.add 64 (.x 318) (.add 64 (.x 308) (.add 64 (.x 149) (.add 64 (.x 135) (.add 64 (.x 120) (.add 64 (.x 104) (.add 64 (.x 87) (.add 64 (.x 69) (.add 64 (.x 50) (.add 64 (.x 30) (.x 9))))))))))))))))))))))),
  .set (.add 64 (.x 517) (.add 64 (.x 495) (.add 64 (.x 474) (.add 64 (.x 454) (.add 64 (.x 435) (.add 64 (.x 417) (.add 64 (.x 400) (.add 64 (.x 384) (.add 64 (.x 369) (.add 64 (.x 355) (.add 64 (.x 342) (.add 64 (.x 330) (.add 64 (.x 319) (.add 64 (.x 163) (.add 64 (.x 150) (.add 64 (.x 136) (.add 64 (.x 121) (.add 64 (.x 105) (.add 64 (.x 88) (.add 64 (.x 70) (.add 64 (.x 51) (.add 64 (.x 31) (.x 10))))))))))))))))))))))),
  .set (.add 64 (.x 518) (.add 64 (.x 496) (.add 64 (.x 475) (.add 64 (.x 455) (.add 64 (.x 436) (.add 64 (.x 418) (.add 64 (.x 401) (.add 64 (.x 385) (.add 64 (.x 370) (.add 64 (.x 356) (.add 64 (.x 343) (.add 64 (.x 331) (.add 64 (.x 176) (.add 64 (.x 164) (.add 64 (.x 151) (.add 64 (.x 137) (.add 64 (.x 122) (.add 64 (.x 106) (.add 64 (.x 89) (.add 64 (.x 71) (.add 64 (.x 52) (.add 64 (.x 32) (.x 11))))))))))))))))))))))),
  .set (.add 64 (.x 519) (.add 64 (.x 497) (.add 64 (.x 476) (.add 64 (.x 456) (.add 64 (.x 437) (.add 64 (.x 419) (.add 64 (.x 402) (.add 64 (.x 386) (.add 64 (.x 371) (.add 64 (.x 357) (.add 64 (.x 344) (.add 64 (.x 188) (.add 64 (.x 177) (.add 64 (.x 165) (.add 64 (.x 152) (.add 64 (.x 138) (.add 64 (.x 123) (.add 64 (.x 107) (.add 64 (.x 90) (.add 64 (.x 72) (.add 64 (.x 53) (.add 64 (.x 33) (.x 12))))))))))))))))))))))),
  .set (.add 64 (.x 520) (.add 64 (.x 498) (.add 64 (.x 477) (.add 64 (.x 457) (.add 64 (.x 438) (.add 64 (.x 420) (.add 64 (.x 403) (.add 64 (.x 387) (.add 64 (.x 372) (.add 64 (.x 358) (.add 64 (.x 199) (.add 64 (.x 189) (.add 64 (.x 178) (.add 64 (.x 166) (.add 64 (.x 153) (.add 64 (.x 139) (.add 64 (.x 124) (.add 64 (.x 108) (.add 64 (.x 91) (.add 64 (.x 73) (.add 64 (.x 54) (.add 64 (.x 34) (.x 13))))))))))))))))))))))),
  .set (.add 64 (.x 521) (.add 64 (.x 499) (.add 64 (.x 478) (.add 64 (.x 458) (.add 64 (.x 439) (.add 64 (.x 421) (.add 64 (.x 404) (.add 64 (.x 388) (.add 64 (.x 373) (.add 64 (.x 209) (.add 64 (.x 200) (.add 64 (.x 190) (.add 64 (.x 179) (.add 64 (.x 167) (.add 64 (.x 154) (.add 64 (.x 140) (.add 64 (.x 125) (.add 64 (.x 109) (.add 64 (.x 92) (.add 64 (.x 74) (.add 64 (.x 55) (.add 64 (.x 35) (.x 14))))))))))))))))))))))),
  .set (.add 64 (.x 522) (.add 64 (.x 500) (.add 64 (.x 479) (.add 64 (.x 459) (.add 64 (.x 440) (.add 64 (.x 422) (.add 64 (.x 405) (.add 64 (.x 389) (.add 64 (.x 218) (.add 64 (.x 210) (.add 64 (.x 201) (.add 64 (.x 191) (.add 64 (.x 180) (.add 64 (.x 168) (.add 64 (.x 155) (.add 64 (.x 141) (.add 64 (.x 126) (.add 64 (.x 110) (.add 64 (.x 93) (.add 64 (.x 75) (.add 64 (.x 56) (.add 64 (.x 36) (.x 15))))))))))))))))))))))),
  .set (.add 64 (.x 523) (.add 64 (.x 501) (.add 64 (.x 480) (.add 64 (.x 460) (.add 64 (.x 441) (.add 64 (.x 423) (.add 64 (.x 406) (.add 64 (.x 226) (.add 64 (.x 219) (.add 64 (.x 211) (.add 64 (.x 202) (.add 64 (.x 192) (.add 64 (.x 181) (.add 64 (.x 169) (.add 64 (.x 156) (.add 64 (.x 142) (.add 64 (.x 127) (.add 64 (.x 111) (.add 64 (.x 94) (.add 64 (.x 76) (.add 64 (.x 57) (.add 64 (.x 37) (.x 16))))))))))))))))))))))),
  .set (.add 64 (.x 524) (.add 64 (.x 502) (.add 64 (.x 481) (.add 64 (.x 461) (.add 64 (.x 442) (.add 64 (.x 424) (.add 64 (.x 233) (.add 64 (.x 227) (.add 64 (.x 220) (.add 64 (.x 212) (.add 64 (.x 203) (.add 64 (.x 193) (.add 64 (.x 182) (.add 64 (.x 170) (.add 64 (.x 157) (.add 64 (.x 143) (.add 64 (.x 128) (.add 64 (.x 112) (.add 64 (.x 95) (.add 64 (.x 77) (.add 64 (.x 58) (.add 64 (.x 38) (.x 17))))))))))))))))))))))),
  .set (.add 64 (.x 525) (.add 64 (.x 503) (.add 64 (.x 482) (.add 64 (.x 462) (.add 64 (.x 443) (.add 64 (.x 239) (.add 64 (.x 234) (.add 64 (.x 228) (.add 64 (.x 221) (.add 64 (.x 213) (.add 64 (.x 204) (.add 64 (.x 194) (.add 64 (.x 183) (.add 64 (.x 171) (.add 64 (.x 158) (.add 64 (.x 144) (.add 64 (.x 129) (.add 64 (.x 113) (.add 64 (.x 96) (.add 64 (.x 78) (.add 64 (.x 59) (.add 64 (.x 39) (.x 18))))))))))))))))))))))),
  .set (.add 64 (.x 526) (.add 64 (.x 504) (.add 64 (.x 483) (.add 64 (.x 463) (.add 64 (.x 244) (.add 64 (.x 240) (.add 64 (.x 235) (.add 64 (.x 229) (.add 64 (.x 222) (.add 64 (.x 214) (.add 64 (.x 205) (.add 64 (.x 195) (.add 64 (.x 184) (.add 64 (.x 172) (.add 64 (.x 159) (.add 64 (.x 145) (.add 64 (.x 130) (.add 64 (.x 114) (.add 64 (.x 97) (.add 64 (.x 79) (.add 64 (.x 60) (.add 64 (.x 40) (.x 19))))))))))))))))))))))),
  .set (.add 64 (.x 527) (.add 64 (.x 505) (.add 64 (.x 484) (.add 64 (.x 248) (.add 64 (.x 245) (.add 64 (.x 241) (.add 64 (.x 236) (.add 64 (.x 230) (.add 64 (.x 223) (.add 64 (.x 215) (.add 64 (.x 206) (.add 64 (.x 196) (.add 64 (.x 185) (.add 64 (.x 173) (.add 64 (.x 160) (.add 64 (.x 146) (.add 64 (.x 131) (.add 64 (.x 115) (.add 64 (.x 98) (.add 64 (.x 80) (.add 64 (.x 61) (.add 64 (.x 41) (.x 20))))))))))))))))))))))),
  .set (.add 64 (.x 528) (.add 64 (.x 506) (.add 64 (.x 251) (.add 64 (.x 249) (.add 64 (.x 246) (.add 64 (.x 242) (.add 64 (.x 237) (.add 64 (.x 231) (.add 64 (.x 224) (.add 64 (.x 216) (.add 64 (.x 207) (.add 64 (.x 197) (.add 64 (.x 186) (.add 64 (.x 174) (.add 64 (.x 161) (.add 64 (.x 147) (.add 64 (.x 132) (.add 64 (.x 116) (.add 64 (.x 99) (.add 64 (.x 81) (.add 64 (.x 62) (.add 64 (.x 42) (.x 21))))))))))))))))))))))),
  .set (.add 64 (.x 531) (.x 554)), .set (.shr (.x 555) 22), .set (.cast 32 (.and (.x 555) (.c 0x3fffff))),
  .set (.add 64 (.x 556) (.x 553)), .set (.shr (.x 558) 22), .set (.cast 32 (.and (.x 558) (.c 0x3fffff))),
  .set (.add 64 (.x 559) (.x 552)), .set (.shr (.x 561) 23), .set (.cast 32 (.and (.x 561) (.c 0x7fffff))),
  .set (.add 64 (.x 562) (.x 551)), .set (.shr (.x 564) 22), .set (.cast 32 (.and (.x 564) (.c 0x3fffff))),
  .set (.add 64 (.x 565) (.x 550)), .set (.shr (.x 567) 22), .set (.cast 32 (.and (.x 567) (.c 0x3fffff))),
  .set (.add 64 (.x 568) (.x 549)), .set (.shr (.x 570) 22), .set (.cast 32 (.and (.x 570) (.c 0x3fffff))),
  .set (.add 64 (.x 571) (.x 548)), .set (.shr (.x 573) 23), .set (.cast 32 (.and (.x 573) (.c 0x7fffff))),
  .set (.add 64 (.x 574) (.x 547)), .set (.shr (.x 576) 22), .set (.cast 32 (.and (.x 576) (.c 0x3fffff))),
  .set (.add 64 (.x 577) (.x 546)), .set (.shr (.x 579) 22), .set (.cast 32 (.and (.x 579) (.c 0x3fffff))),
  .set (.add 64 (.x 580) (.x 545)), .set (.shr (.x 582) 22), .set (.cast 32 (.and (.x 582) (.c 0x3fffff))),
  .set (.add 64 (.x 583) (.x 544)), .set (.shr (.x 585) 23), .set (.cast 32 (.and (.x 585) (.c 0x7fffff))),
  .set (.add 64 (.x 586) (.x 543)), .set (.shr (.x 588) 22), .set (.cast 32 (.and (.x 588) (.c 0x3fffff))),
  .set (.add 64 (.x 589) (.x 542)), .set (.shr (.x 591) 22), .set (.cast 32 (.and (.x 591) (.c 0x3fffff))),
  .set (.add 64 (.x 592) (.x 541)), .set (.shr (.x 594) 22), .set (.cast 32 (.and (.x 594) (.c 0x3fffff))),
  .set (.add 64 (.x 595) (.x 540)), .set (.shr (.x 597) 23), .set (.cast 32 (.and (.x 597) (.c 0x7fffff))),
  .set (.add 64 (.x 598) (.x 539)), .set (.shr (.x 600) 22), .set (.cast 32 (.and (.x 600) (.c 0x3fffff))),
  .set (.add 64 (.x 601) (.x 538)), .set (.shr (.x 603) 22), .set (.cast 32 (.and (.x 603) (.c 0x3fffff))),
  .set (.add 64 (.x 604) (.x 537)), .set (.shr (.x 606) 22), .set (.cast 32 (.and (.x 606) (.c 0x3fffff))),
  .set (.add 64 (.x 607) (.x 536)), .set (.shr (.x 609) 23), .set (.cast 32 (.and (.x 609) (.c 0x7fffff))),
  .set (.add 64 (.x 610) (.x 535)), .set (.shr (.x 612) 22), .set (.cast 32 (.and (.x 612) (.c 0x3fffff))),
  .set (.add 64 (.x 613) (.x 534)), .set (.shr (.x 615) 22), .set (.cast 32 (.and (.x 615) (.c 0x3fffff))),
  .set (.add 64 (.x 616) (.x 533)), .set (.cast 32 (.shr (.x 618) 22)), .set (.cast 32 (.and (.x 618) (.c 0x3fffff))),
  .set (.mul 64 (.c 0x239) (.x 619)), .set (.add 64 (.x 532) (.x 621)), .set (.cast 32 (.shr (.x 622) 23)),
  .set (.cast 32 (.and (.x 622) (.c 0x7fffff))), .set (.add 32 (.x 623) (.x 557)), .set (.cast 8 (.shr (.x 625) 22)),
  .set (.and (.x 625) (.c 0x3fffff)), .set (.add 32 (.x 626) (.x 560))], [624, 627, 628, 563, 566, 569, 572, 575, 578, 581, 584, 587, 590, 593, 596, 599, 602, 605, 608, 611, 614, 617, 620]⟩

/-- `fiat_id_tc26_gost_3410_2012_512_paramSetA_carry_square`, lines 6759-7737. -/
def carry_square : CProg := ⟨[
  .set (.mul 64 (.a 22) (.c 0x239)), .set (.mul 64 (.x 1) (.c 2)), .set (.mul 32 (.a 22) (.c 2)), .set (.mul 64 (.a 21) (.c 0x239)),
  .set (.mul 64 (.x 4) (.c 2)), .set (.mul 32 (.a 21) (.c 2)), .set (.mul 64 (.a 20) (.c 0x239)), .set (.mul 64 (.x 7) (.c 2)),
  .set (.mul 32 (.a 20) (.c 2)), .set (.mul 64 (.a 19) (.c 0x239)), .set (.mul 64 (.x 10) (.c 2)), .set (.mul 32 (.a 19) (.c 2)),
  .set (.mul 64 (.a 18) (.c 0x239)), .set (.mul 64 (.x 13) (.c 2)), .set (.mul 32 (.a 18) (.c 2)), .set (.mul 64 (.a 17) (.c 0x239)),
  .set (.mul 64 (.x 16) (.c 2)), .set (.mul 32 (.a 17) (.c 2)), .set (.mul 64 (.a 16) (.c 0x239)), .set (.mul 64 (.x 19) (.c 2)),
  .set (.mul 32 (.a 16) (.c 2)), .set (.mul 64 (.a 15) (.c 0x239)), .set (.mul 64 (.x 22) (.c 2)), .set (.mul 32 (.a 15) (.c 2)),
  .set (.mul 64 (.a 14) (.c 0x239)), .set (.mul 64 (.x 25) (.c 2)), .set (.mul 32 (.a 14) (.c 2)), .set (.mul 64 (.a 13) (.c 0x239)),
  .set (.mul 64 (.x 28) (.c 2)), .set (.mul 32 (.a 13) (.c 2)), .set (.mul 64 (.a 12) (.c 0x239)), .set (.mul 64 (.x 31) (.c 2)),
  .set (.mul 32 (.a 12) (.c 2)), .set (.mul 32 (.a 11) (.c 2)), .set (.mul 32 (.a 10) (.c 2)), .set (.mul 32 (.a 9) (.c 2)),
  .set (.mul 32 (.a 8) (.c 2)), .set (.mul 32 (.a 7) (.c 2)), .set (.mul 32 (.a 6) (.c 2)), .set (.mul 32 (.a 5) (.c 2)),
  .set (.mul 32 (.a 4) (.c 2)), .set (.mul 32 (.a 3) (.c 2)), .set (.mul 32 (.a 2) (.c 2)), .set (.mul 32 (.a 1) (.c 2)),
  .set (.mul 64 (.a 22) (.x 1)), .set (.mul 64 (.a 21) (.x 2)), .set (.mul 64 (.a 21) (.mul 64 (.x 4) (.c 2))),
  .set (.mul 64 (.a 20) (.mul 64 (.x 2) (.c 2))), .set (.mul 64 (.a 20) (.mul 64 (.x 5) (.c 2))),
  .set (.mul 64 (.a 20) (.mul 64 (.x 7) (.c 2))), .set (.mul 64 (.a 19) (.x 2)), .set (.mul 64 (.a 19) (.x 5)),
  .set (.mul 64 (.a 19) (.x 8)), .set (.mul 64 (.a 19) (.x 10)), .set (.mul 64 (.a 18) (.x 2)), .set (.mul 64 (.a 18) (.x 5)),
  .set (.mul 64 (.a 18) (.mul 64 (.x 8) (.c 2))), .set (.mul 64 (.a 18) (.x 11)), .set (.mul 64 (.a 18) (.x 13)),
  .set (.mul 64 (.a 17) (.x 2)), .set (.mul 64 (.a 17) (.mul 64 (.x 5) (.c 2))), .set (.mul 64 (.a 17) (.mul 64 (.x 8) (.c 2))),
  .set (.mul 64 (.a 17) (.x 11)), .set (.mul 64 (.a 17) (.x 14)), .set (.mul 64 (.a 17) (.mul 64 (.x 16) (.c 2))),
  .set (.mul 64 (.a 16) (.mul 64 (.x 2) (.c 2))), .set (.mul 64 (.a 16) (.mul 64 (.x 5) (.c 2))),
  .set (.mul 64 (.a 16) (.mul 64 (.x 8) (.c 2))), .set (.mul 64 (.a 16) (.x 11)), .set (.mul 64 (.a 16) (.mul 64 (.x 14) (.c 2))),
  .set (.mul 64 (.a 16) (.mul 64 (.x 17) (.c 2))), .set (.mul 64 (.a 16) (.mul 64 (.x 19) (.c 2))), .set (.mul 64 (.a 15) (.x 2)),
  .set (.mul 64 (.a 15) (.x 5)), .set (.mul 64 (.a 15) (.x 8)), .set (.mul 64 (.a 15) (.x 11)), .set (.mul 64 (.a 15) (.x 14)),
  .set (.mul 64 (.a 15) (.x 17)), .set (.mul 64 (.a 15) (.x 20)), .set (.mul 64 (.a 15) (.x 22)), .set (.mul 64 (.a 14) (.x 2)),
  .set (.mul 64 (.a 14) (.x 5)), .set (.mul 64 (.a 14) (.mul 64 (.x 8) (.c 2))), .set (.mul 64 (.a 14) (.x 11)),
  .set (.mul 64 (.a 14) (.x 14)), .set (.mul 64 (.a 14) (.x 17)), .set (.mul 64 (.a 14) (.mul 64 (.x 20) (.c 2))),
  .set (.mul 64 (.a 14) (.x 23)), .set (.mul 64 (.a 14) (.x 25)), .set (.mul 64 (.a 13) (.x 2)),
  .set (.mul 64 (.a 13) (.mul 64 (.x 5) (.c 2))), .set (.mul 64 (.a 13) (.mul 64 (.x 8) (.c 2))), .set (.mul 64 (.a 13) (.x 11)),
  .set (.mul 64 (.a 13) (.x 14)), .set (.mul 64 (.a 13) (.mul 64 (.x 17) (.c 2))), .set (.mul 64 (.a 13) (.mul 64 (.x 20) (.c 2))),
  .set (.mul 64 (.a 13) (.x 23)), .set (.mul 64 (.a 13) (.x 26)), .set (.mul 64 (.a 13) (.mul 64 (.x 28) (.c 2))),
  .set (.mul 64 (.a 12) (.mul 64 (.x 2) (.c 2))), .set (.mul 64 (.a 12) (.mul 64 (.x 5) (.c 2))),
  .set (.mul 64 (.a 12) (.mul 64 (.x 8) (.c 2))), .set (.mul 64 (.a 12) (.x 11)), .set (.mul 64 (.a 12) (.mul 64 (.x 14) (.c 2))),
  .set (.mul 64 (.a 12) (.mul 64 (.x 17) (.c 2))), .set (.mul 64 (.a 12) (.mul 64 (.x 20) (.c 2))), .set (.mul 64 (.a 12) (.x 23)),
  .set (.mul 64 (.a 12) (.mul 64 (.x 26) (.c 2))), .set (.mul 64 (.a 12) (.mul 64 (.x 29) (.c 2))),
  .set (.mul 64 (.a 12) (.mul 64 (.x 31) (.c 2))), .set (.mul 64 (.a 11) (.x 2)), .set (.mul 64 (.a 11) (.x 5)),
  .set (.mul 64 (.a 11) (.x 8)), .set (.mul 64 (.a 11) (.x 11)), .set (.mul 64 (.a 11) (.x 14)), .set (.mul 64 (.a 11) (.x 17)),
  .set (.mul 64 (.a 11) (.x 20)), .set (.mul 64 (.a 11) (.x 23)), .set (.mul 64 (.a 11) (.x 26)), .set (.mul 64 (.a 11) (.x 29)),
  .set (.mul 64 (.a 11) (.mul 64 (.x 32) (.c 2))), .set (.mul 64 (.a 11) (.a 11)), .set (.mul 64 (.a 10) (.x 2)),
  .set (.mul 64 (.a 10) (.x 5)), .set (.mul 64 (.a 10) (.mul 64 (.x 8) (.c 2))), .set (.mul 64 (.a 10) (.x 11)),
  .set (.mul 64 (.a 10) (.x 14)), .set (.mul 64 (.a 10) (.x 17)), .set (.mul 64 (.a 10) (.mul 64 (.x 20) (.c 2))),
  .set (.mul 64 (.a 10) (.x 23)), .set (.mul 64 (.a 10) (.x 26)), .set (.mul 64 (.a 10) (.mul 64 (.x 29) (.c 2))),
  .set (.mul 64 (.a 10) (.mul 32 (.x 33) (.c 2))), .set (.mul 64 (.a 10) (.x 34)), .set (.mul 64 (.a 10) (.a 10)),
  .set (.mul 64 (.a 9) (.x 2)), .set (.mul 64 (.a 9) (.mul 64 (.x 5) (.c 2))), .set (.mul 64 (.a 9) (.mul 64 (.x 8) (.c 2))),
  .set (.mul 64 (.a 9) (.x 11)), .set (.mul 64 (.a 9) (.x 14)), .set (.mul 64 (.a 9) (.mul 64 (.x 17) (.c 2))),
  .set (.mul 64 (.a 9) (.mul 64 (.x 20) (.c 2))), .set (.mul 64 (.a 9) (.x 23)), .set (.mul 64 (.a 9) (.mul 64 (.x 26) (.c 2))),
  .set (.mul 64 (.a 9) (.mul 32 (.x 30) (.c 2))), .set (.mul 64 (.a 9) (.mul 32 (.x 33) (.c 2))), .set (.mul 64 (.a 9) (.x 34)),
  .set (.mul 64 (.a 9) (.mul 32 (.x 35) (.c 2))), .set (.mul 64 (.a 9) (.mul 32 (.a 9) (.c 2))),
  .set (.mul 64 (.a 8) (.mul 64 (.x 2) (.c 2))), .set (.mul 64 (.a 8) (.mul 64 (.x 5) (.c 2))),
  .set (.mul 64 (.a 8) (.mul 64 (.x 8) (.c 2))), .set (.mul 64 (.a 8) (.x 11)), .set (.mul 64 (.a 8) (.mul 64 (.x 14) (.c 2))),
  .set (.mul 64 (.a 8) (.mul 64 (.x 17) (.c 2))), .set (.mul 64 (.a 8) (.mul 64 (.x 20) (.c 2))),
  .set (.mul 64 (.a 8) (.mul 64 (.x 23) (.c 2))), .set (.mul 64 (.a 8) (.mul 32 (.x 27) (.c 2))),
  .set (.mul 64 (.a 8) (.mul 32 (.x 30) (.c 2))), .set (.mul 64 (.a 8) (.mul 32 (.x 33) (.c 2))),
  .set (.mul 64 (.a 8) (.mul 32 (.x 34) (.c 2))), .set (.mul 64 (.a 8) (.mul 32 (.x 35) (.c 2))),
  .set (.mul 64 (.a 8) (.mul 32 (.x 36) (.c 2))), .set (.mul 64 (.a 8) (.mul 32 (.a 8) (.c 2))), .set (.mul 64 (.a 7) (.x 2)),
  .set (.mul 64 (.a 7) (.x 5)), .set (.mul 64 (.a 7) (.x 8)), .set (.mul 64 (.a 7) (.x 11)), .set (.mul 64 (.a 7) (.x 14)),
  .set (.mul 64 (.a 7) (.x 17)), .set (.mul 64 (.a 7) (.mul 64 (.x 20) (.c 2))), .set (.mul 64 (.a 7) (.x 24)),
  .set (.mul 64 (.a 7) (.x 27)), .set (.mul 64 (.a 7) (.x 30)), .set (.mul 64 (.a 7) (.mul 32 (.x 33) (.c 2))),
  .set (.mul 64 (.a 7) (.x 34)), .set (.mul 64 (.a 7) (.x 35)), .set (.mul 64 (.a 7) (.x 36)),
  .set (.mul 64 (.a 7) (.mul 32 (.x 37) (.c 2))), .set (.mul 64 (.a 7) (.a 7)), .set (.mul 64 (.a 6) (.x 2)), .set (.mul 64 (.a 6) (.x 5)),
  .set (.mul 64 (.a 6) (.mul 64 (.x 8) (.c 2))), .set (.mul 64 (.a 6) (.x 11)), .set (.mul 64 (.a 6) (.x 14)),
  .set (.mul 64 (.a 6) (.mul 64 (.x 17) (.c 2))), .set (.mul 64 (.a 6) (.mul 32 (.x 21) (.c 2))), .set (.mul 64 (.a 6) (.x 24)),
  .set (.mul 64 (.a 6) (.x 27)), .set (.mul 64 (.a 6) (.mul 32 (.x 30) (.c 2))), .set (.mul 64 (.a 6) (.mul 32 (.x 33) (.c 2))),
  .set (.mul 64 (.a 6) (.x 34)), .set (.mul 64 (.a 6) (.x 35)), .set (.mul 64 (.a 6) (.mul 32 (.x 36) (.c 2))),
  .set (.mul 64 (.a 6) (.mul 32 (.x 37) (.c 2))), .set (.mul 64 (.a 6) (.x 38)), .set (.mul 64 (.a 6) (.a 6)), .set (.mul 64 (.a 5) (.x 2)),
  .set (.mul 64 (.a 5) (.mul 64 (.x 5) (.c 2))), .set (.mul 64 (.a 5) (.mul 64 (.x 8) (.c 2))), .set (.mul 64 (.a 5) (.x 11)),
  .set (.mul 64 (.a 5) (.mul 64 (.x 14) (.c 2))), .set (.mul 64 (.a 5) (.mul 32 (.x 18) (.c 2))),
  .set (.mul 64 (.a 5) (.mul 32 (.x 21) (.c 2))), .set (.mul 64 (.a 5) (.x 24)), .set (.mul 64 (.a 5) (.mul 32 (.x 27) (.c 2))),
  .set (.mul 64 (.a 5) (.mul 32 (.x 30) (.c 2))), .set (.mul 64 (.a 5) (.mul 32 (.x 33) (.c 2))), .set (.mul 64 (.a 5) (.x 34)),
  .set (.mul 64 (.a 5) (.mul 32 (.x 35) (.c 2))), .set (.mul 64 (.a 5) (.mul 32 (.x 36) (.c 2))),
  .set (.mul 64 (.a 5) (.mul 32 (.x 37) (.c 2))), .set (.mul 64 (.a 5) (.x 38)), .set (.mul 64 (.a 5) (.mul 32 (.x 39) (.c 2))),
  .set (.mul 64 (.a 5) (.mul 32 (.a 5) (.c 2))), .set (.mul 64 (.a 4) (.mul 64 (.x 2) (.c 2))),
  .set (.mul 64 (.a 4) (.mul 64 (.x 5) (.c 2))), .set (.mul 64 (.a 4) (.mul 64 (.x 8) (.c 2))),
  .set (.mul 64 (.a 4) (.mul 64 (.x 11) (.c 2))), .set (.mul 64 (.a 4) (.mul 32 (.x 15) (.c 2))),
  .set (.mul 64 (.a 4) (.mul 32 (.x 18) (.c 2))), .set (.mul 64 (.a 4) (.mul 32 (.x 21) (.c 2))),
  .set (.mul 64 (.a 4) (.mul 32 (.x 24) (.c 2))), .set (.mul 64 (.a 4) (.mul 32 (.x 27) (.c 2))),
  .set (.mul 64 (.a 4) (.mul 32 (.x 30) (.c 2))), .set (.mul 64 (.a 4) (.mul 32 (.x 33) (.c 2))),
  .set (.mul 64 (.a 4) (.mul 32 (.x 34) (.c 2))), .set (.mul 64 (.a 4) (.mul 32 (.x 35) (.c 2))),
  .set (.mul 64 (.a 4) (.mul 32 (.x 36) (.c 2))), .set (.mul 64 (.a 4) (.mul 32 (.x 37) (.c 2))),
  .set (.mul 64 (.a 4) (.mul 32 (.x 38) (.c 2))), .set (.mul 64 (.a 4) (.mul 32 (.x 39) (.c 2))),
  .set (.mul 64 (.a 4) (.mul 32 (.x 40) (.c 2))), .set (.mul 64 (.a 4) (.mul 32 (.a 4) (.c 2))), .set (.mul 64 (.a 3) (.x 2)),
  .set (.mul 64 (.a 3) (.x 5)), .set (.mul 64 (.a 3) (.mul 64 (.x 8) (.c 2))), .set (.mul 64 (.a 3) (.x 12)), .set (.mul 64 (.a 3) (.x 15)),
  .set (.mul 64 (.a 3) (.x 18)), .set (.mul 64 (.a 3) (.mul 32 (.x 21) (.c 2))), .set (.mul 64 (.a 3) (.x 24)),
  .set (.mul 64 (.a 3) (.x 27)), .set (.mul 64 (.a 3) (.x 30)), .set (.mul 64 (.a 3) (.mul 32 (.x 33) (.c 2))),
  .set (.mul 64 (.a 3) (.x 34)), .set (.mul 64 (.a 3) (.x 35)), .set (.mul 64 (.a 3) (.x 36)),
  .set (.mul 64 (.a 3) (.mul 32 (.x 37) (.c 2))), .set (.mul 64 (.a 3) (.x 38)), .set (.mul 64 (.a 3) (.x 39)),
  .set (.mul 64 (.a 3) (.x 40)), .set (.mul 64 (.a 3) (.mul 32 (.x 41) (.c 2))), .set (.mul 64 (.a 3) (.a 3)), .set (.mul 64 (.a 2) (.x 2)),
  .set (.mul 64 (.a 2) (.mul 64 (.x 5) (.c 2))), .set (.mul 64 (.a 2) (.mul 32 (.x 9) (.c 2))), .set (.mul 64 (.a 2) (.x 12)),
  .set (.mul 64 (.a 2) (.x 15)), .set (.mul 64 (.a 2) (.mul 32 (.x 18) (.c 2))), .set (.mul 64 (.a 2) (.mul 32 (.x 21) (.c 2))),
  .set (.mul 64 (.a 2) (.x 24)), .set (.mul 64 (.a 2) (.x 27)), .set (.mul 64 (.a 2) (.mul 32 (.x 30) (.c 2))),
  .set (.mul 64 (.a 2) (.mul 32 (.x 33) (.c 2))), .set (.mul 64 (.a 2) (.x 34)), .set (.mul 64 (.a 2) (.x 35)),
  .set (.mul 64 (.a 2) (.mul 32 (.x 36) (.c 2))), .set (.mul 64 (.a 2) (.mul 32 (.x 37) (.c 2))), .set (.mul 64 (.a 2) (.x 38)),
  .set (.mul 64 (.a 2) (.x 39)), .set (.mul 64 (.a 2) (.mul 32 (.x 40) (.c 2))), .set (.mul 64 (.a 2) (.mul 32 (.x 41) (.c 2))),
  .set (.mul 64 (.a 2) (.x 42)), .set (.mul 64 (.a 2) (.a 2)), .set (.mul 64 (.a 1) (.mul 64 (.x 2) (.c 2))),
  .set (.mul 64 (.a 1) (.mul 32 (.x 6) (.c 2))), .set (.mul 64 (.a 1) (.mul 32 (.x 9) (.c 2))), .set (.mul 64 (.a 1) (.x 12)),
  .set (.mul 64 (.a 1) (.mul 32 (.x 15) (.c 2))), .set (.mul 64 (.a 1) (.mul 32 (.x 18) (.c 2))),
  .set (.mul 64 (.a 1) (.mul 32 (.x 21) (.c 2))), .set (.mul 64 (.a 1) (.x 24)), .set (.mul 64 (.a 1) (.mul 32 (.x 27) (.c 2))),
  .set (.mul 64 (.a 1) (.mul 32 (.x 30) (.c 2))), .set (.mul 64 (.a 1) (.mul 32 (.x 33) (.c 2))), .set (.mul 64 (.a 1) (.x 34)),
  .set (.mul 64 (.a 1) (.mul 32 (.x 35) (.c 2))), .set (.mul 64 (.a 1) (.mul 32 (.x 36) (.c 2))),
  .set (.mul 64 (.a 1) (.mul 32 (.x 37) (.c 2))), .set (.mul 64 (.a 1) (.x 38)), .set (.mul 64 (.a 1) (.mul 32 (.x 39) (.c 2))),
  .set (.mul 64 (.a 1) (.mul 32 (.x 40) (.c 2))), .set (.mul 64 (.a 1) (.mul 32 (.x 41) (.c 2))), .set (.mul 64 (.a 1) (.x 42)),
  .set (.mul 64 (.a 1) (.mul 32 (.x 43) (.c 2))), .set (.mul 64 (.a 1) (.mul 32 (.a 1) (.c 2))), .set (.mul 64 (.a 0) (.x 3)),
  .set (.mul 64 (.a 0) (.x 6)), .set (.mul 64 (.a 0) (.x 9)), .set (.mul 64 (.a 0) (.x 12)), .set (.mul 64 (.a 0) (.x 15)),
  .set (.mul 64 (.a 0) (.x 18)), .set (.mul 64 (.a 0) (.x 21)), .set (.mul 64 (.a 0) (.x 24)), .set (.mul 64 (.a 0) (.x 27)),
  .set (.mul 64 (.a 0) (.x 30)), .set (.mul 64 (.a 0) (.x 33)), .set (.mul 64 (.a 0) (.x 34)), .set (.mul 64 (.a 0) (.x 35)),
  .set (.mul 64 (.a 0) (.x 36)), .set (.mul 64 (.a 0) (.x 37)), .set (.mul 64 (.a 0) (.x 38)), .set (.mul 64 (.a 0) (.x 39)),
  .set (.mul 64 (.a 0) (.x 40)), .set (.mul 64 (.a 0) (.x 41)), .set (.mul 64 (.a 0) (.x 42)), .set (.mul 64 (.a 0) (.x 43)),
  .set (.mul 64 (.a 0) (.x 44)), .set (.mul 64 (.a 0) (.a 0)),
  .set (.add 64 (.x 320) (.add 64 (.x 276) (.add 64 (.x 256) (.add 64 (.x 237) (.add 64 (.x 219) (.add 64 (.x 202) (.add 64 (.x 186) (.add 64 (.x 171) (.add 64 (.x 157) (.add 64 (.x 144) (.add 64 (.x 132) (.x 121)))))))))))),
  .set (.shr (.x 321) 23), .set (.cast 32 (.and (.x 321) (.c 0x7fffff))),
  .set (.add 64 (.x 298) (.add 64 (.x 277) (.add 64 (.x 257) (.add 64 (.x 238) (.add 64 (.x 220) (.add 64 (.x 203) (.add 64 (.x 187) (.add 64 (.x 172) (.add 64 (.x 158) (.add 64 (.x 145) (.add 64 (.x 133) (.x 122)))))))))))),
  .set (.add 64 (.x 299) (.add 64 (.x 278) (.add 64 (.x 258) (.add 64 (.x 239) (.add 64 (.x 221) (.add 64 (.x 204) (.add 64 (.x 188) (.add 64 (.x 173) (.add 64 (.x 159) (.add 64 (.x 146) (.add 64 (.x 134) (.x 45)))))))))))),
  .set (.add 64 (.x 300) (.add 64 (.x 279) (.add 64 (.x 259) (.add 64 (.x 240) (.add 64 (.x 222) (.add 64 (.x 205) (.add 64 (.x 189) (.add 64 (.x 174) (.add 64 (.x 160) (.add 64 (.x 147) (.add 64 (.x 135) (.x 46)))))))))))),
  .set (.add 64 (.x 301) (.add 64 (.x 280) (.add 64 (.x 260) (.add 64 (.x 241) (.add 64 (.x 223) (.add 64 (.x 206) (.add 64 (.x 190) (.add 64 (.x 175) (.add 64 (.x 161) (.add 64 (.x 148) (.add 64 (.x 48) (.x 47)))))))))))),
  .set (.add 64 (.x 302) (.add 64 (.x 281) (.add 64 (.x 261) (.add 64 (.x 242) (.add 64 (.x 224) (.add 64 (.x 207) (.add 64 (.x 191) (.add 64 (.x 176) (.add 64 (.x 162) (.add 64 (.x 149) (.add 64 (.x 51) (.x 49)))))))))))),
  .set (.add 64 (.x 303) (.add 64 (.x 282) (.add 64 (.x 262) (.add 64 (.x 243) (.add 64 (.x 225) (.add 64 (.x 208) (.add 64 (.x 192) (.add 64 (.x 177) (.add 64 (.x 163) (.add 64 (.x 55) (.add 64 (.x 52) (.x 50)))))))))))),
  .set (.add 64 (.x 304) (.add 64 (.x 283) (.add 64 (.x 263) (.add 64 (.x 244) (.add 64 (.x 226) (.add 64 (.x 209) (.add 64 (.x 193) (.add 64 (.x 178) (.add 64 (.x 164) (.add 64 (.x 60) (.add 64 (.x 56) (.x 53)))))))))))),
  .set (.add 64 (.x 305) (.add 64 (.x 284) (.add 64 (.x 264) (.add 64 (.x 245) (.add 64 (.x 227) (.add 64 (.x 210) (.add 64 (.x 194) (.add 64 (.x 179) (.add 64 (.x 66) (.add 64 (.x 61) (.add 64 (.x 57) (.x 54)))))))))))),
  .set (.add 64 (.x 306) (.add 64 (.x 285) (.add 64 (.x 265) (.add 64 (.x 246) (.add 64 (.x 228) (.add 64 (.x 211) (.add 64 (.x 195) (.add 64 (.x 180) (.add 64 (.x 73) (.add 64 (.x 67) (.add 64 (.x 62) (.x 58)))))))))))),
  .set (.add 64 (.x 307) (.add 64 (.x 286) (.add 64 (.x 266) (.add 64 (.x 247) (.add 64 (.x 229) (.add 64 (.x 212) (.add 64 (.x 196) (.add 64 (.x 81) (.add 64 (.x 74) (.add 64 (.x 68) (.add 64 (.x 63) (.x 59)))))))))))),
  .set (.add 64 (.x 308) (.add 64 (.x 287) (.add 64 (.x 267) (.add 64 (.x 248) (.add 64 (.x 230) (.add 64 (.x 213) (.add 64 (.x 197) (.add 64 (.x 90) (.add 64 (.x 82) (.add 64 (.x 75) (.add 64 (.x 69) (.x 64)))))))))))),
  .set (.add 64 (.x 309) (.add 64 (.x 288) (.add 64 (.x 268) (.add 64 (.x 249) (.add 64 (.x 231) (.add 64 (.x 214) (.add 64 (.x 100) (.add 64 (.x 91) (.add 64 (.x 83) (.add 64 (.x 76) (.add 64 (.x 70) (.x 65)))))))))))),
  .set (.add 64 (.x 310) (.add 64 (.x 289) (.add 64 (.x 269) (.add 64 (.x 250) (.add 64 (.x 232) (.add 64 (.x 215) (.add 64 (.x 111) (.add 64 (.x 101) (.add 64 (.x 92) (.add 64 (.x 84) (.add 64 (.x 77) (.x 71)))))))))))),
  .set (.add 64 (.x 311) (.add 64 (.x 290) (.add 64 (.x 270) (.add 64 (.x 251) (.add 64 (.x 233) (.add 64 (.x 123) (.add 64 (.x 112) (.add 64 (.x 102) (.add 64 (.x 93) (.add 64 (.x 85) (.add 64 (.x 78) (.x 72)))))))))))),
  .set (.add 64 (.x 312) (.add 64 (.x 291) (.add 64 (.x 271) (.add 64 (.x 252) (.add 64 (.x 234) (.add 64 (.x 136) (.add 64 (.x 124) (.add 64 (.x 113) (.add 64 (.x 103) (.add 64 (.x 94) (.add 64 (.x 86) (.x 79)))))))))))),
  .set (.add 64 (.x 313) (.add 64 (.x 292) (.add 64 (.x 272) (.add 64 (.x 253) (.add 64 (.x 150) (.add 64 (.x 137) (.add 64 (.x 125) (.add 64 (.x 114) (.add 64 (.x 104) (.add 64 (.x 95) (.add 64 (.x 87) (.x 80)))))))))))),
  .set (.add 64 (.x 314) (.add 64 (.x 293) (.add 64 (.x 273) (.add 64 (.x 254) (.add 64 (.x 165) (.add 64 (.x 151) (.add 64 (.x 138) (.add 64 (.x 126) (.add 64 (.x 115) (.add 64 (.x 105) (.add 64 (.x 96) (.x 88)))))))))))),
  .set (.add 64 (.x 315) (.add 64 (.x 294) (.add 64 (.x 274) (.add 64 (.x 181) (.add 64 (.x 166) (.add 64 (.x 152) (.add 64 (.x 139) (.add 64 (.x 127) (.add 64 (.x 116) (.add 64 (.x 106) (.add 64 (.x 97) (.x 89)))))))))))),
  .set (.add 64 (.x 316) (.add 64 (.x 295) (.add 64 (.x 275) (.add 64 (.x 198) (.add 64 (.x 182) (.add 64 (.x 167) (.add 64 (.x 153) (.add 64 (.x 140) (.add 64 (.x 128) (.add 64 (.x 117) (.add 64 (.x 107) (.x 98)))))))))))),
  .set (.add 64 (.x 317) (.add 64 (.x 296) (.add 64 (.x 216) (.add 64 (.x 199) (.add 64 (.x 183) (.add 64 (.x 168) (.add 64 (.x 154) (.add 64 (.x 141) (.add 64 (.x 129) (.add 64 (.x 118) (.add 64 (.x 108) (.x 99)))))))))))),
  .set (.add 64 (.x 318) (.add 64 (.x 297) (.add 64 (.x 235) (.add 64 (.x 217) (.add 64 (.x 200) (.add 64 (.x 184) (.add 64 (.x 169) (.add 64 (.x 155) (.add 64 (.x 142) (.add 64 (.x 130) (.add 64 (.x 119) (.x 109)))))))))))),
  .set (.add 64 (.x 319) (.add 64 (.x 255) (.add 64 (.x 236) (.add 64 (.x 218) (.add 64 (.x 201) (.add 64 (.x 185) (.add 64 (.x 170) (.add 64 (.x 156) (.add 64 (.x 143) (.add 64 (.x 131) (.add 64 (.x 120) (.x 110)))))))))))),
  .set (.add 64 (.x 322) (.x 345)), .set (.shr (.x 346) 22), .set (.cast 32 (.and (.x 346) (.c 0x3fffff))),
  .set (.add 64 (.x 347) (.x 344)), .set (.shr (.x 349) 22), .set (.cast 32 (.and (.x 349) (.c 0x3fffff))),
  .set (.add 64 (.x 350) (.x 343)), .set (.shr (.x 352) 23), .set (.cast 32 (.and (.x 352) (.c 0x7fffff))),
  .set (.add 64 (.x 353) (.x 342)), .set (.shr (.x 355) 22), .set (.cast 32 (.and (.x 355) (.c 0x3fffff))),
  .set (.add 64 (.x 356) (.x 341)), .set (.shr (.x 358) 22), .set (.cast 32 (.and (.x 358) (.c 0x3fffff))),
  .set (.add 64 (.x 359) (.x 340)), .set (.shr (.x 361) 22), .set (.cast 32 (.and (.x 361) (.c 0x3fffff))),
  .set (.add 64 (.x 362) (.x 339)), .set (.shr (.x 364) 23), .set (.cast 32 (.and (.x 364) (.c 0x7fffff))),
  .set (.add 64 (.x 365) (.x 338)), .set (.shr (.x 367) 22), .set (.cast 32 (.and (.x 367) (.c 0x3fffff))),
  .set (.add 64 (.x 368) (.x 337)), .set (.shr (.x 370) 22), .set (.cast 32 (.and (.x 370) (.c 0x3fffff))),
  .set (.add 64 (.x 371) (.x 336)), .set (.shr (.x 373) 22), .set (.cast 32 (.and (.x 373) (.c 0x3fffff))),
  .set (.add 64 (.x 374) (.x 335)), .set (.shr (.x 376) 23), .set (.cast 32 (.and (.x 376) (.c 0x7fffff))),
  .set (.add 64 (.x 377) (.x 334)), .set (.shr (.x 379) 22), .set (.cast 32 (.and (.x 379) (.c 0x3fffff))),
  .set (.add 64 (.x 380) (.x 333)), .set (.shr (.x 382) 22), .set (.cast 32 (.and (.x 382) (.c 0x3fffff))),
  .set (.add 64 (.x 383) (.x 332)), .set (.shr (.x 385) 22), .set (.cast 32 (.and (.x 385) (.c 0x3fffff))),
  .set (.add 64 (.x 386) (.x 331)), .set (.shr (.x 388) 23), .set (.cast 32 (.and (.x 388) (.c 0x7fffff))),
  .set (.add 64 (.x 389) (.x 330)), .set (.shr (.x 391) 22), .set (.cast 32 (.and (.x 391) (.c 0x3fffff))),
  .set (.add 64 (.x 392) (.x 329)), .set (.shr (.x 394) 22), .set (.cast 32 (.and (.x 394) (.c 0x3fffff))),
  .set (.add 64 (.x 395) (.x 328)), .set (.shr (.x 397) 22), .set (.cast 32 (.and (.x 397) (.c 0x3fffff))),
  .set (.add 64 (.x 398) (.x 327)), .set (.shr (.x 400) 23), .set (.cast 32 (.and (.x 400) (.c 0x7fffff))),
  .set (.add 64 (.x 401) (.x 326)), .set (.shr (.x 403) 22), .set (.cast 32 (.and (.x 403) (.c 0x3fffff))),
  .set (.add 64 (.x 404) (.x 325)), .set (.shr (.x 406) 22), .set (.cast 32 (.and (.x 406) (.c 0x3fffff))),
  .set (.add 64 (.x 407) (.x 324)), .set (.cast 32 (.shr (.x 409) 22)), .set (.cast 32 (.and (.x 409) (.c 0x3fffff))),
  .set (.mul 64 (.c 0x239) (.x 410)), .set (.add 64 (.x 323) (.x 412)), .set (.cast 32 (.shr (.x 413) 23)),
  .set (.cast 32 (.and (.x 413) (.c 0x7fffff))), .set (.add 32 (.x 414) (.x 348)), .set (.cast 8 (.shr (.x 416) 22)),
  .set (.and (.x 416) (.c 0x3fffff)), .set (.add 32 (.x 417) (.x 351))], [415, 418, 419, 354, 357, 360, 363, 366, 369, 372, 375, 378, 381, 384, 387, 390, 393, 396, 399, 402, 405, 408, 411]⟩

/-- `fiat_id_tc26_gost_3410_2012_512_paramSetA_carry`, lines 7749-7872. -/
def carry : CProg := ⟨[
  .set (.a 0), .set (.add 32 (.shr (.x 1) 23) (.a 1)), .set (.add 32 (.shr (.x 2) 22) (.a 2)), .set (.add 32 (.shr (.x 3) 22) (.a 3)),
  .set (.add 32 (.shr (.x 4) 23) (.a 4)), .set (.add 32 (.shr (.x 5) 22) (.a 5)), .set (.add 32 (.shr (.x 6) 22) (.a 6)),
  .set (.add 32 (.shr (.x 7) 22) (.a 7)), .set (.add 32 (.shr (.x 8) 23) (.a 8)), .set (.add 32 (.shr (.x 9) 22) (.a 9)),
  .set (.add 32 (.shr (.x 10) 22) (.a 10)), .set (.add 32 (.shr (.x 11) 22) (.a 11)), .set (.add 32 (.shr (.x 12) 23) (.a 12)),
  .set (.add 32 (.shr (.x 13) 22) (.a 13)), .set (.add 32 (.shr (.x 14) 22) (.a 14)), .set (.add 32 (.shr (.x 15) 22) (.a 15)),
  .set (.add 32 (.shr (.x 16) 23) (.a 16)), .set (.add 32 (.shr (.x 17) 22) (.a 17)), .set (.add 32 (.shr (.x 18) 22) (.a 18)),
  .set (.add 32 (.shr (.x 19) 22) (.a 19)), .set (.add 32 (.shr (.x 20) 23) (.a 20)), .set (.add 32 (.shr (.x 21) 22) (.a 21)),
  .set (.add 32 (.shr (.x 22) 22) (.a 22)), .set (.add 32 (.and (.x 1) (.c 0x7fffff)) (.mul 32 (.c 0x239) (.shr (.x 23) 22))),
  .set (.add 32 (.cast 8 (.shr (.x 24) 23)) (.and (.x 2) (.c 0x3fffff))), .set (.and (.x 24) (.c 0x7fffff)),
  .set (.and (.x 25) (.c 0x3fffff)), .set (.add 32 (.cast 8 (.shr (.x 25) 22)) (.and (.x 3) (.c 0x3fffff))),
  .set (.and (.x 4) (.c 0x7fffff)), .set (.and (.x 5) (.c 0x3fffff)), .set (.and (.x 6) (.c 0x3fffff)), .set (.and (.x 7) (.c 0x3fffff)),
  .set (.and (.x 8) (.c 0x7fffff)), .set (.and (.x 9) (.c 0x3fffff)), .set (.and (.x 10) (.c 0x3fffff)), .set (.and (.x 11) (.c 0x3fffff)),
  .set (.and (.x 12) (.c 0x7fffff)), .set (.and (.x 13) (.c 0x3fffff)), .set (.and (.x 14) (.c 0x3fffff)),
  .set (.and (.x 15) (.c 0x3fffff)), .set (.and (.x 16) (.c 0x7fffff)), .set (.and (.x 17) (.c 0x3fffff)),
  .set (.and (.x 18) (.c 0x3fffff)), .set (.and (.x 19) (.c 0x3fffff)), .set (.and (.x 20) (.c 0x7fffff)),
  .set (.and (.x 21) (.c 0x3fffff)), .set (.and (.x 22) (.c 0x3fffff)), .set (.and (.x 23) (.c 0x3fffff))], [26, 27, 28, 29, 30, 31, 32, 33, 34, 35, 36, 37, 38, 39, 40, 41, 42, 43, 44, 45, 46, 47, 48]⟩

/-- `fiat_id_tc26_gost_3410_2012_512_paramSetA_add`, lines 7885-7956. -/
def add : CProg := ⟨[
  .set (.add 32 (.a 0) (.b 0)), .set (.add 32 (.a 1) (.b 1)), .set (.add 32 (.a 2) (.b 2)), .set (.add 32 (.a 3) (.b 3)),
  .set (.add 32 (.a 4) (.b 4)), .set (.add 32 (.a 5) (.b 5)), .set (.add 32 (.a 6) (.b 6)), .set (.add 32 (.a 7) (.b 7)),
  .set (.add 32 (.a 8) (.b 8)), .set (.add 32 (.a 9) (.b 9)), .set (.add 32 (.a 10) (.b 10)), .set (.add 32 (.a 11) (.b 11)),
  .set (.add 32 (.a 12) (.b 12)), .set (.add 32 (.a 13) (.b 13)), .set (.add 32 (.a 14) (.b 14)), .set (.add 32 (.a 15) (.b 15)),
  .set (.add 32 (.a 16) (.b 16)), .set (.add 32 (.a 17) (.b 17)), .set (.add 32 (.a 18) (.b 18)), .set (.add 32 (.a 19) (.b 19)),
  .set (.add 32 (.a 20) (.b 20)), .set (.add 32 (.a 21) (.b 21)), .set (.add 32 (.a 22) (.b 22))], [1, 2, 3, 4, 5, 6, 7, 8, 9, 10, 11, 12, 13, 14, 15, 16, 17, 18, 19, 20, 21, 22, 23]⟩

/-- `fiat_id_tc26_gost_3410_2012_512_paramSetA_sub`, lines 7969-8040. -/
def sub : CProg := ⟨[
  .set (.sub 32 (.add 32 (.c 0xfffb8e) (.a 0)) (.b 0)), .set (.sub 32 (.add 32 (.c 0x7ffffe) (.a 1)) (.b 1)),
  .set (.sub 32 (.add 32 (.c 0x7ffffe) (.a 2)) (.b 2)), .set (.sub 32 (.add 32 (.c 0xfffffe) (.a 3)) (.b 3)),
  .set (.sub 32 (.add 32 (.c 0x7ffffe) (.a 4)) (.b 4)), .set (.sub 32 (.add 32 (.c 0x7ffffe) (.a 5)) (.b 5)),
  .set (.sub 32 (.add 32 (.c 0x7ffffe) (.a 6)) (.b 6)), .set (.sub 32 (.add 32 (.c 0xfffffe) (.a 7)) (.b 7)),
  .set (.sub 32 (.add 32 (.c 0x7ffffe) (.a 8)) (.b 8)), .set (.sub 32 (.add 32 (.c 0x7ffffe) (.a 9)) (.b 9)),
  .set (.sub 32 (.add 32 (.c 0x7ffffe) (.a 10)) (.b 10)), .set (.sub 32 (.add 32 (.c 0xfffffe) (.a 11)) (.b 11)),
  .set (.sub 32 (.add 32 (.c 0x7ffffe) (.a 12)) (.b 12)), .set (.sub 32 (.add 32 (.c 0x7ffffe) (.a 13)) (.b 13)),
  .set (.sub 32 (.add 32 (.c 0x7ffffe) (.a 14)) (.b 14)), .set (.sub 32 (.add 32 (.c 0xfffffe) (.a 15)) (.b 15)),
  .set (.sub 32 (.add 32 (.c 0x7ffffe) (.a 16)) (.b 16)), .set (.sub 32 (.add 32 (.c 0x7ffffe) (.a 17)) (.b 17)),
  .set (.sub 32 (.add 32 (.c 0x7ffffe) (.a 18)) (.b 18)), .set (.sub 32 (.add 32 (.c 0xfffffe) (.a 19)) (.b 19)),
  .set (.sub 32 (.add 32 (.c 0x7ffffe) (.a 20)) (.b 20)), .set (.sub 32 (.add 32 (.c 0x7ffffe) (.a 21)) (.b 21)),
  .set (.sub 32 (.add 32 (.c 0x7ffffe) (.a 22)) (.b 22))], [1, 2, 3, 4, 5, 6, 7, 8, 9, 10, 11, 12, 13, 14, 15, 16, 17, 18, 19, 20, 21, 22, 23]⟩

/-- `fiat_id_tc26_gost_3410_2012_512_paramSetA_opp`, lines 8052-8123. -/
def opp : CProg := ⟨[
  .set (.sub 32 (.c 0xfffb8e) (.a 0)), .set (.sub 32 (.c 0x7ffffe) (.a 1)), .set (.sub 32 (.c 0x7ffffe) (.a 2)),
  .set (.sub 32 (.c 0xfffffe) (.a 3)), .set (.sub 32 (.c 0x7ffffe) (.a 4)), .set (.sub 32 (.c 0x7ffffe) (.a 5)),
  .set (.sub 32 (.c 0x7ffffe) (.a 6)), .set (.sub 32 (.c 0xfffffe) (.a 7)), .set (.sub 32 (.c 0x7ffffe) (.a 8)),
  .set (.sub 32 (.c 0x7ffffe) (.a 9)), .set (.sub 32 (.c 0x7ffffe) (.a 10)), .set (.sub 32 (.c 0xfffffe) (.a 11)),
  .set (.sub 32 (.c 0x7ffffe) (.a 12)), .set (.sub 32 (.c 0x7ffffe) (.a 13)), .set (.sub 32 (.c 0x7ffffe) (.a 14)),
  .set (.sub 32 (.c 0xfffffe) (.a 15)), .set (.sub 32 (.c 0x7ffffe) (.a 16)), .set (.sub 32 (.c 0x7ffffe) (.a 17)),
  .set (.sub 32 (.c 0x7ffffe) (.a 18)), .set (.sub 32 (.c 0xfffffe) (.a 19)), .set (.sub 32 (.c 0x7ffffe) (.a 20)),
  .set (.sub 32 (.c 0x7ffffe) (.a 21)), .set (.sub 32 (.c 0x7ffffe) (.a 22))], [1, 2, 3, 4, 5, 6, 7, 8, 9, 10, 11, 12, 13, 14, 15, 16, 17, 18, 19, 20, 21, 22, 23]⟩

/-- `fiat_id_tc26_gost_3410_2012_512_paramSetA_from_bytes`, lines 8833-9188. -/
def from_bytes : CProg := ⟨[
  .set (.shl 32 (.a 63) 14), .set (.shl 32 (.a 62) 6), .set (.shl 32 (.a 61) 20), .set (.shl 32 (.a 60) 12), .set (.shl 32 (.a 59) 4),
  .set (.shl 32 (.a 58) 18), .set (.shl 32 (.a 57) 10), .set (.shl 32 (.a 56) 2), .set (.shl 32 (.a 55) 17), .set (.shl 32 (.a 54) 9),
  .set (.mul 32 (.a 53) (.c 2)), .set (.shl 32 (.a 52) 15), .set (.shl 32 (.a 51) 7), .set (.shl 32 (.a 50) 21), .set (.shl 32 (.a 49) 13),
  .set (.shl 32 (.a 48) 5), .set (.shl 32 (.a 47) 19), .set (.shl 32 (.a 46) 11), .set (.shl 32 (.a 45) 3), .set (.shl 32 (.a 44) 18),
  .set (.shl 32 (.a 43) 10), .set (.shl 32 (.a 42) 2), .set (.shl 32 (.a 41) 16), .set (.shl 32 (.a 40) 8), .set (.a 39),
  .set (.shl 32 (.a 38) 14), .set (.shl 32 (.a 37) 6), .set (.shl 32 (.a 36) 20), .set (.shl 32 (.a 35) 12), .set (.shl 32 (.a 34) 4),
  .set (.shl 32 (.a 33) 19), .set (.shl 32 (.a 32) 11), .set (.shl 32 (.a 31) 3), .set (.shl 32 (.a 30) 17), .set (.shl 32 (.a 29) 9),
  .set (.mul 32 (.a 28) (.c 2)), .set (.shl 32 (.a 27) 15), .set (.shl 32 (.a 26) 7), .set (.shl 32 (.a 25) 21), .set (.shl 32 (.a 24) 13),
  .set (.shl 32 (.a 23) 5), .set (.shl 32 (.a 22) 20), .set (.shl 32 (.a 21) 12), .set (.shl 32 (.a 20) 4), .set (.shl 32 (.a 19) 18),
  .set (.shl 32 (.a 18) 10), .set (.shl 32 (.a 17) 2), .set (.shl 32 (.a 16) 16), .set (.shl 32 (.a 15) 8), .set (.a 14),
  .set (.shl 32 (.a 13) 14), .set (.shl 32 (.a 12) 6), .set (.shl 32 (.a 11) 21), .set (.shl 32 (.a 10) 13), .set (.shl 32 (.a 9) 5),
  .set (.shl 32 (.a 8) 19), .set (.shl 32 (.a 7) 11), .set (.shl 32 (.a 6) 3), .set (.shl 32 (.a 5) 17), .set (.shl 32 (.a 4) 9),
  .set (.mul 32 (.a 3) (.c 2)), .set (.shl 32 (.a 2) 16), .set (.shl 32 (.a 1) 8), .set (.a 0), .set (.add 32 (.x 63) (.x 64)),
  .set (.add 32 (.x 62) (.x 65)), .set (.and (.x 66) (.c 0x7fffff)), .set (.cast 8 (.shr (.x 66) 23)), .set (.add 32 (.x 61) (.x 68)),
  .set (.add 32 (.x 60) (.x 69)), .set (.add 32 (.x 59) (.x 70)), .set (.and (.x 71) (.c 0x3fffff)), .set (.cast 8 (.shr (.x 71) 22)),
  .set (.add 32 (.x 58) (.x 73)), .set (.add 32 (.x 57) (.x 74)), .set (.add 32 (.x 56) (.x 75)), .set (.and (.x 76) (.c 0x3fffff)),
  .set (.cast 8 (.shr (.x 76) 22)), .set (.add 32 (.x 55) (.x 78)), .set (.add 32 (.x 54) (.x 79)), .set (.add 32 (.x 53) (.x 80)),
  .set (.and (.x 81) (.c 0x7fffff)), .set (.cast 8 (.shr (.x 81) 23)), .set (.add 32 (.x 52) (.x 83)), .set (.add 32 (.x 51) (.x 84)),
  .set (.add 32 (.x 49) (.x 50)), .set (.add 32 (.x 48) (.x 86)), .set (.and (.x 87) (.c 0x3fffff)), .set (.cast 8 (.shr (.x 87) 22)),
  .set (.add 32 (.x 47) (.x 89)), .set (.add 32 (.x 46) (.x 90)), .set (.add 32 (.x 45) (.x 91)), .set (.and (.x 92) (.c 0x3fffff)),
  .set (.cast 8 (.shr (.x 92) 22)), .set (.add 32 (.x 44) (.x 94)), .set (.add 32 (.x 43) (.x 95)), .set (.add 32 (.x 42) (.x 96)),
  .set (.and (.x 97) (.c 0x7fffff)), .set (.cast 8 (.shr (.x 97) 23)), .set (.add 32 (.x 41) (.x 99)), .set (.add 32 (.x 40) (.x 100)),
  .set (.add 32 (.x 39) (.x 101)), .set (.and (.x 102) (.c 0x3fffff)), .set (.cast 8 (.shr (.x 102) 22)), .set (.add 32 (.x 38) (.x 104)),
  .set (.add 32 (.x 37) (.x 105)), .set (.and (.x 106) (.c 0x3fffff)), .set (.cast 8 (.shr (.x 106) 22)), .set (.add 32 (.x 36) (.x 108)),
  .set (.add 32 (.x 35) (.x 109)), .set (.add 32 (.x 34) (.x 110)), .set (.and (.x 111) (.c 0x3fffff)), .set (.cast 8 (.shr (.x 111) 22)),
  .set (.add 32 (.x 33) (.x 113)), .set (.add 32 (.x 32) (.x 114)), .set (.add 32 (.x 31) (.x 115)), .set (.and (.x 116) (.c 0x7fffff)),
  .set (.cast 8 (.shr (.x 116) 23)), .set (.add 32 (.x 30) (.x 118)), .set (.add 32 (.x 29) (.x 119)), .set (.add 32 (.x 28) (.x 120)),
  .set (.and (.x 121) (.c 0x3fffff)), .set (.cast 8 (.shr (.x 121) 22)), .set (.add 32 (.x 27) (.x 123)), .set (.add 32 (.x 26) (.x 124)),
  .set (.add 32 (.x 24) (.x 25)), .set (.add 32 (.x 23) (.x 126)), .set (.and (.x 127) (.c 0x3fffff)), .set (.cast 8 (.shr (.x 127) 22)),
  .set (.add 32 (.x 22) (.x 129)), .set (.add 32 (.x 21) (.x 130)), .set (.add 32 (.x 20) (.x 131)), .set (.and (.x 132) (.c 0x7fffff)),
  .set (.cast 8 (.shr (.x 132) 23)), .set (.add 32 (.x 19) (.x 134)), .set (.add 32 (.x 18) (.x 135)), .set (.add 32 (.x 17) (.x 136)),
  .set (.and (.x 137) (.c 0x3fffff)), .set (.cast 8 (.shr (.x 137) 22)), .set (.add 32 (.x 16) (.x 139)), .set (.add 32 (.x 15) (.x 140)),
  .set (.add 32 (.x 14) (.x 141)), .set (.and (.x 142) (.c 0x3fffff)), .set (.cast 8 (.shr (.x 142) 22)), .set (.add 32 (.x 13) (.x 144)),
  .set (.add 32 (.x 12) (.x 145)), .set (.and (.x 146) (.c 0x3fffff)), .set (.cast 8 (.shr (.x 146) 22)), .set (.add 32 (.x 11) (.x 148)),
  .set (.add 32 (.x 10) (.x 149)), .set (.add 32 (.x 9) (.x 150)), .set (.and (.x 151) (.c 0x7fffff)), .set (.cast 8 (.shr (.x 151) 23)),
  .set (.add 32 (.x 8) (.x 153)), .set (.add 32 (.x 7) (.x 154)), .set (.add 32 (.x 6) (.x 155)), .set (.and (.x 156) (.c 0x3fffff)),
  .set (.cast 8 (.shr (.x 156) 22)), .set (.add 32 (.x 5) (.x 158)), .set (.add 32 (.x 4) (.x 159)), .set (.add 32 (.x 3) (.x 160)),
  .set (.and (.x 161) (.c 0x3fffff)), .set (.cast 8 (.shr (.x 161) 22)), .set (.add 32 (.x 2) (.x 163)), .set (.add 32 (.x 1) (.x 164))], [67, 72, 77, 82, 85, 88, 93, 98, 103, 107, 112, 117, 122, 125, 128, 133, 138, 143, 147, 152, 157, 162, 165]⟩

/-- `fiat_id_tc26_gost_3410_2012_512_paramSetA_to_bytes`, lines 8244-8821. -/
def to_bytes : CProg := ⟨[
  .sbb 32 23 (.c 0) (.a 0) (.c 0x7ffdc7), .sbb 32 22 (.x 2) (.a 1) (.c 0x3fffff), .sbb 32 22 (.x 4) (.a 2) (.c 0x3fffff),
  .sbb 32 23 (.x 6) (.a 3) (.c 0x7fffff), .sbb 32 22 (.x 8) (.a 4) (.c 0x3fffff), .sbb 32 22 (.x 10) (.a 5) (.c 0x3fffff),
  .sbb 32 22 (.x 12) (.a 6) (.c 0x3fffff), .sbb 32 23 (.x 14) (.a 7) (.c 0x7fffff), .sbb 32 22 (.x 16) (.a 8) (.c 0x3fffff),
  .sbb 32 22 (.x 18) (.a 9) (.c 0x3fffff), .sbb 32 22 (.x 20) (.a 10) (.c 0x3fffff), .sbb 32 23 (.x 22) (.a 11) (.c 0x7fffff),
  .sbb 32 22 (.x 24) (.a 12) (.c 0x3fffff), .sbb 32 22 (.x 26) (.a 13) (.c 0x3fffff), .sbb 32 22 (.x 28) (.a 14) (.c 0x3fffff),
  .sbb 32 23 (.x 30) (.a 15) (.c 0x7fffff), .sbb 32 22 (.x 32) (.a 16) (.c 0x3fffff), .sbb 32 22 (.x 34) (.a 17) (.c 0x3fffff),
  .sbb 32 22 (.x 36) (.a 18) (.c 0x3fffff), .sbb 32 23 (.x 38) (.a 19) (.c 0x7fffff), .sbb 32 22 (.x 40) (.a 20) (.c 0x3fffff),
  .sbb 32 22 (.x 42) (.a 21) (.c 0x3fffff), .sbb 32 22 (.x 44) (.a 22) (.c 0x3fffff), .cmov 32 (.x 46) (.c 0) (.c 0xffffffff),
  .adc 32 23 (.c 0) (.x 1) (.and (.x 47) (.c 0x7ffdc7)), .adc 32 22 (.x 49) (.x 3) (.and (.x 47) (.c 0x3fffff)),
  .adc 32 22 (.x 51) (.x 5) (.and (.x 47) (.c 0x3fffff)), .adc 32 23 (.x 53) (.x 7) (.and (.x 47) (.c 0x7fffff)),
  .adc 32 22 (.x 55) (.x 9) (.and (.x 47) (.c 0x3fffff)), .adc 32 22 (.x 57) (.x 11) (.and (.x 47) (.c 0x3fffff)),
  .adc 32 22 (.x 59) (.x 13) (.and (.x 47) (.c 0x3fffff)), .adc 32 23 (.x 61) (.x 15) (.and (.x 47) (.c 0x7fffff)),
  .adc 32 22 (.x 63) (.x 17) (.and (.x 47) (.c 0x3fffff)), .adc 32 22 (.x 65) (.x 19) (.and (.x 47) (.c 0x3fffff)),
  .adc 32 22 (.x 67) (.x 21) (.and (.x 47) (.c 0x3fffff)), .adc 32 23 (.x 69) (.x 23) (.and (.x 47) (.c 0x7fffff)),
  .adc 32 22 (.x 71) (.x 25) (.and (.x 47) (.c 0x3fffff)), .adc 32 22 (.x 73) (.x 27) (.and (.x 47) (.c 0x3fffff)),
  .adc 32 22 (.x 75) (.x 29) (.and (.x 47) (.c 0x3fffff)), .adc 32 23 (.x 77) (.x 31) (.and (.x 47) (.c 0x7fffff)),
  .adc 32 22 (.x 79) (.x 33) (.and (.x 47) (.c 0x3fffff)), .adc 32 22 (.x 81) (.x 35) (.and (.x 47) (.c 0x3fffff)),
  .adc 32 22 (.x 83) (.x 37) (.and (.x 47) (.c 0x3fffff)), .adc 32 23 (.x 85) (.x 39) (.and (.x 47) (.c 0x7fffff)),
  .adc 32 22 (.x 87) (.x 41) (.and (.x 47) (.c 0x3fffff)), .adc 32 22 (.x 89) (.x 43) (.and (.x 47) (.c 0x3fffff)),
  .adc 32 22 (.x 91) (.x 45) (.and (.x 47) (.c 0x3fffff)), .set (.shl 32 (.x 92) 2), .set (.shl 32 (.x 90) 4), .set (.shl 32 (.x 88) 6),
  .set (.shl 32 (.x 86) 7), .set (.mul 32 (.x 84) (.c 2)), .set (.shl 32 (.x 82) 3), .set (.shl 32 (.x 80) 5), .set (.shl 32 (.x 78) 6),
  .set (.shl 32 (.x 74) 2), .set (.shl 32 (.x 72) 4), .set (.shl 32 (.x 70) 5), .set (.shl 32 (.x 68) 7), .set (.mul 32 (.x 66) (.c 2)),
  .set (.shl 32 (.x 64) 3), .set (.shl 32 (.x 62) 4), .set (.shl 32 (.x 60) 6), .set (.shl 32 (.x 56) 2), .set (.shl 32 (.x 54) 3),
  .set (.shl 32 (.x 52) 5), .set (.shl 32 (.x 50) 7), .set (.cast 8 (.and (.x 48) (.c 0xff))), .set (.shr (.x 48) 8),
  .set (.cast 8 (.and (.x 115) (.c 0xff))), .set (.cast 8 (.shr (.x 115) 8)), .set (.add 32 (.x 113) (.x 117)),
  .set (.cast 8 (.and (.x 118) (.c 0xff))), .set (.shr (.x 118) 8), .set (.cast 8 (.and (.x 120) (.c 0xff))), .set (.shr (.x 120) 8),
  .set (.cast 8 (.and (.x 122) (.c 0xff))), .set (.cast 8 (.shr (.x 122) 8)), .set (.add 32 (.x 112) (.x 124)),
  .set (.cast 8 (.and (.x 125) (.c 0xff))), .set (.shr (.x 125) 8), .set (.cast 8 (.and (.x 127) (.c 0xff))), .set (.shr (.x 127) 8),
  .set (.cast 8 (.and (.x 129) (.c 0xff))), .set (.cast 8 (.shr (.x 129) 8)), .set (.add 32 (.x 111) (.x 131)),
  .set (.cast 8 (.and (.x 132) (.c 0xff))), .set (.shr (.x 132) 8), .set (.cast 8 (.and (.x 134) (.c 0xff))), .set (.shr (.x 134) 8),
  .set (.cast 8 (.and (.x 136) (.c 0xff))), .set (.cast 8 (.shr (.x 136) 8)), .set (.add 32 (.x 110) (.x 138)),
  .set (.cast 8 (.and (.x 139) (.c 0xff))), .set (.shr (.x 139) 8), .set (.cast 8 (.and (.x 141) (.c 0xff))),
  .set (.cast 8 (.shr (.x 141) 8)), .set (.cast 8 (.and (.x 58) (.c 0xff))), .set (.shr (.x 58) 8),
  .set (.cast 8 (.and (.x 145) (.c 0xff))), .set (.cast 8 (.shr (.x 145) 8)), .set (.add 32 (.x 109) (.x 147)),
  .set (.cast 8 (.and (.x 148) (.c 0xff))), .set (.shr (.x 148) 8), .set (.cast 8 (.and (.x 150) (.c 0xff))), .set (.shr (.x 150) 8),
  .set (.cast 8 (.and (.x 152) (.c 0xff))), .set (.cast 8 (.shr (.x 152) 8)), .set (.add 32 (.x 108) (.x 154)),
  .set (.cast 8 (.and (.x 155) (.c 0xff))), .set (.shr (.x 155) 8), .set (.cast 8 (.and (.x 157) (.c 0xff))), .set (.shr (.x 157) 8),
  .set (.cast 8 (.and (.x 159) (.c 0xff))), .set (.cast 8 (.shr (.x 159) 8)), .set (.add 32 (.x 107) (.x 161)),
  .set (.cast 8 (.and (.x 162) (.c 0xff))), .set (.shr (.x 162) 8), .set (.cast 8 (.and (.x 164) (.c 0xff))), .set (.shr (.x 164) 8),
  .set (.cast 8 (.and (.x 166) (.c 0xff))), .set (.cast 8 (.shr (.x 166) 8)), .set (.add 32 (.x 106) (.x 168)),
  .set (.cast 8 (.and (.x 169) (.c 0xff))), .set (.shr (.x 169) 8), .set (.cast 8 (.and (.x 171) (.c 0xff))),
  .set (.cast 8 (.shr (.x 171) 8)), .set (.add 32 (.x 105) (.x 173)), .set (.cast 8 (.and (.x 174) (.c 0xff))), .set (.shr (.x 174) 8),
  .set (.cast 8 (.and (.x 176) (.c 0xff))), .set (.shr (.x 176) 8), .set (.cast 8 (.and (.x 178) (.c 0xff))),
  .set (.cast 8 (.shr (.x 178) 8)), .set (.add 32 (.x 104) (.x 180)), .set (.cast 8 (.and (.x 181) (.c 0xff))), .set (.shr (.x 181) 8),
  .set (.cast 8 (.and (.x 183) (.c 0xff))), .set (.shr (.x 183) 8), .set (.cast 8 (.and (.x 185) (.c 0xff))),
  .set (.cast 8 (.shr (.x 185) 8)), .set (.add 32 (.x 103) (.x 187)), .set (.cast 8 (.and (.x 188) (.c 0xff))), .set (.shr (.x 188) 8),
  .set (.cast 8 (.and (.x 190) (.c 0xff))), .set (.shr (.x 190) 8), .set (.cast 8 (.and (.x 192) (.c 0xff))),
  .set (.cast 8 (.shr (.x 192) 8)), .set (.add 32 (.x 102) (.x 194)), .set (.cast 8 (.and (.x 195) (.c 0xff))), .set (.shr (.x 195) 8),
  .set (.cast 8 (.and (.x 197) (.c 0xff))), .set (.cast 8 (.shr (.x 197) 8)), .set (.cast 8 (.and (.x 76) (.c 0xff))),
  .set (.shr (.x 76) 8), .set (.cast 8 (.and (.x 201) (.c 0xff))), .set (.cast 8 (.shr (.x 201) 8)), .set (.add 32 (.x 101) (.x 203)),
  .set (.cast 8 (.and (.x 204) (.c 0xff))), .set (.shr (.x 204) 8), .set (.cast 8 (.and (.x 206) (.c 0xff))), .set (.shr (.x 206) 8),
  .set (.cast 8 (.and (.x 208) (.c 0xff))), .set (.cast 8 (.shr (.x 208) 8)), .set (.add 32 (.x 100) (.x 210)),
  .set (.cast 8 (.and (.x 211) (.c 0xff))), .set (.shr (.x 211) 8), .set (.cast 8 (.and (.x 213) (.c 0xff))), .set (.shr (.x 213) 8),
  .set (.cast 8 (.and (.x 215) (.c 0xff))), .set (.cast 8 (.shr (.x 215) 8)), .set (.add 32 (.x 99) (.x 217)),
  .set (.cast 8 (.and (.x 218) (.c 0xff))), .set (.shr (.x 218) 8), .set (.cast 8 (.and (.x 220) (.c 0xff))), .set (.shr (.x 220) 8),
  .set (.cast 8 (.and (.x 222) (.c 0xff))), .set (.cast 8 (.shr (.x 222) 8)), .set (.add 32 (.x 98) (.x 224)),
  .set (.cast 8 (.and (.x 225) (.c 0xff))), .set (.shr (.x 225) 8), .set (.cast 8 (.and (.x 227) (.c 0xff))),
  .set (.cast 8 (.shr (.x 227) 8)), .set (.add 32 (.x 97) (.x 229)), .set (.cast 8 (.and (.x 230) (.c 0xff))), .set (.shr (.x 230) 8),
  .set (.cast 8 (.and (.x 232) (.c 0xff))), .set (.shr (.x 232) 8), .set (.cast 8 (.and (.x 234) (.c 0xff))),
  .set (.cast 8 (.shr (.x 234) 8)), .set (.add 32 (.x 96) (.x 236)), .set (.cast 8 (.and (.x 237) (.c 0xff))), .set (.shr (.x 237) 8),
  .set (.cast 8 (.and (.x 239) (.c 0xff))), .set (.shr (.x 239) 8), .set (.cast 8 (.and (.x 241) (.c 0xff))),
  .set (.cast 8 (.shr (.x 241) 8)), .set (.add 32 (.x 95) (.x 243)), .set (.cast 8 (.and (.x 244) (.c 0xff))), .set (.shr (.x 244) 8),
  .set (.cast 8 (.and (.x 246) (.c 0xff))), .set (.shr (.x 246) 8), .set (.cast 8 (.and (.x 248) (.c 0xff))),
  .set (.cast 8 (.shr (.x 248) 8)), .set (.add 32 (.x 94) (.x 250)), .set (.cast 8 (.and (.x 251) (.c 0xff))), .set (.shr (.x 251) 8),
  .set (.cast 8 (.and (.x 253) (.c 0xff))), .set (.cast 8 (.shr (.x 253) 8))], [114, 116, 119, 121, 123, 126, 128, 130, 133, 135, 137, 140, 142, 143, 144, 146, 149, 151, 153, 156, 158, 160, 163, 165, 167, 170, 172, 175, 177, 179, 182, 184, 186, 189, 191, 193, 196, 198, 199, 200, 202, 205, 207, 209, 212, 214, 216, 219, 221, 223, 226, 228, 231, 233, 235, 238, 240, 242, 245, 247, 249, 252, 254, 255]⟩

/-- `fiat_id_tc26_gost_3410_2012_512_paramSetA_inv`, lines 9198-9257; the variables are 0 = t1, 0 = output, 1 = acc, 2 = t2, 3 = t3, 4 = t6, 5 = t12, 6 = t24, 7 = t48, 8 = t96, 9 = t102, 10 = t198, 11 = t200, 12 = t400, 13 = t502. -/
def inv : List InvStep := [.sq 1 0 1, .mul 2 1 0, .sq 1 2 1, .mul 3 1 0, .sq 1 3 1, .sq 1 1 2, .mul 4 1 3, .sq 1 4 1, .sq 1 1 5, .mul 5 1 4,
  .sq 1 5 1, .sq 1 1 11, .mul 6 1 5, .sq 1 6 1, .sq 1 1 23, .mul 7 1 6, .sq 1 7 1, .sq 1 1 47, .mul 8 1 7, .sq 1 8 1,
  .sq 1 1 5, .mul 9 1 4, .sq 1 9 1, .sq 1 1 95, .mul 10 1 8, .sq 1 10 1, .sq 1 1 1, .mul 11 1 2, .sq 1 11 1, .sq 1 1 199,
  .mul 12 1 11, .sq 1 12 1, .sq 1 1 101, .mul 13 1 9, .sq 1 13 1, .sq 1 1 3, .mul 1 1 3, .sq 1 1 4, .mul 1 1 0, .sq 1 1 2,
  .mul 0 1 0]

/-- The constants, lines: `const_one` 9261-9269, `const_b` 9271-9279; the file has no others. -/
def consts : FiatConsts where
  one := [1, 0, 0, 0, 0, 0, 0, 0, 0, 0, 0, 0, 0, 0, 0, 0, 0, 0, 0, 0, 0, 0, 0]
  a := [0, 0, 0, 0, 0, 0, 0, 0, 0, 0, 0, 0, 0, 0, 0, 0, 0, 0, 0, 0, 0, 0, 0]
  b := [0x71c760, 0x20f0b4, 0xa818c, 0x7dc8ec, 0x3e753a, 0x1d862e, 0x36a43, 0x457401, 0x2c2996, 0x398693, 0x396121, 0x132f71, 0xfd0b6, 0x2f4207, 0x30e879, 0x51d872, 0x25c12b, 0x3e3b46, 0x15b333, 0x37a16, 0x321b77, 0x5dedf, 0x3a3094]
  b3 := [0, 0, 0, 0, 0, 0, 0, 0, 0, 0, 0, 0, 0, 0, 0, 0, 0, 0, 0, 0, 0, 0, 0]
  d := [0, 0, 0, 0, 0, 0, 0, 0, 0, 0, 0, 0, 0, 0, 0, 0, 0, 0, 0, 0, 0, 0, 0]
  S := [0, 0, 0, 0, 0, 0, 0, 0, 0, 0, 0, 0, 0, 0, 0, 0, 0, 0, 0, 0, 0, 0, 0]
  T := [0, 0, 0, 0, 0, 0, 0, 0, 0, 0, 0, 0, 0, 0, 0, 0, 0, 0, 0, 0, 0, 0, 0]

/-- The functions of the file. -/
def file : FiatSol where
  carry_mul := carry_mul
  carry_square := carry_square
  carry := carry
  add := add
  sub := sub
  opp := opp
  from_bytes := from_bytes
  to_bytes := to_bytes
  inv := inv
  limbs := 23
  consts := consts

/-- `lut_cmb`, lines 9282-12120. -/
def lut_data : List (List (AffW (List Nat))) := [
  [⟨[3, 0, 0, 0, 0, 0, 0, 0, 0, 0, 0, 0, 0, 0, 0, 0, 0, 0, 0, 0, 0, 0, 0], [0x15f2a4, 0x1396a4, 0x44d2c, 0x46beb7, 0x3f97f0, 0x298028, 0x38e907, 0x5e6a50, 0x1d27ae, 0x27e81b, 0x2c4d7c, 0x490ef8, 0x1cbefa, 0x20193f, 0x2bc177, 0x4eb3c6, 0x32f0e4, 0xa1cd9, 0xb712a, 0x4c3710, 0xdab8e, 0x3e87a8, 0x1d40f3]⟩,
   ⟨[0x4b87c3, 0x28d0f9, 0x20b709, 0xa89d0, 0x33ee84, 0x3aec55, 0xc2241, 0x32f57b, 0x2baec9, 0x2696e9, 0x250816, 0x5d2a1e, 0x1f488f, 0x10a475, 0x28a117, 0x302585, 0x2d8ab6, 0x2cff09, 0x2edad2, 0x6a726b, 0x2899fa, 0x2b2712, 0x287fc6], [0xd90d6, 0x2fd8a3, 0x3892e6, 0x49f6d8, 0x1bdc46, 0x14c636, 0x2531b7, 0x7ac2fe, 0x2ddd59, 0x33e260, 0x275efc, 0x75988e, 0x3333f7, 0x20678f, 0xfbfa3, 0x235fe1, 0x20f1d2, 0x373098, 0xc4dda, 0x606e9e, 0x118dfc, 0x417ec, 0xf2d71]⟩,
   ⟨[0x7f1e5f, 0x1419c8, 0x2cf1d7, 0xe5b8f, 0x25b6a, 0x99e5b, 0x1804dc, 0x2f7572, 0x2a640e, 0xfb103, 0x291840, 0x7fd916, 0x5b8c9, 0x131c59, 0x31c148, 0x2bf81b, 0x139b07, 0x2ff2ff, 0x49c2d, 0x11bb6c, 0x2b0a64, 0x1d12b8, 0x15a2a0], [0x6cbc6, 0x27724e, 0x302b5d, 0x1bc2f1, 0x3f55c0, 0x3aa25f, 0x232f00, 0x74a629, 0x37b4e, 0x24e8be, 0x2a188a, 0x2cb205, 0x3ed36, 0x1c4269, 0x2bd5c1, 0x26ad6c, 0x1235fe, 0x1cf2c0, 0x24e745, 0x68766f, 0x2be51f, 0x1b57a0, 0x1e35b3]⟩,
   ⟨[0x5256e0, 0x3f836f, 0x373455, 0x75ba3a, 0x2108b7, 0x1c82be, 0x267dd8, 0x4ecebf, 0x2f62e6, 0xa8f9e, 0xcdafa, 0x43a073, 0x313659, 0x154a30, 0x16402e, 0x1175db, 0xe2798, 0x1f5060, 0x33e5ec, 0x1d0b54, 0x1add71, 0x23dad9, 0x1e1ca5], [0x755e5a, 0x183470, 0x23f0d4, 0x313928, 0x2dd729, 0x1d3e91, 0x35ae71, 0x5318a6, 0x2f3edb, 0x289630, 0x38d891, 0x7cf062, 0x38ee6a, 0x13aff2, 0x2e68f8, 0x64faa0, 0x3bf0e8, 0xaa0e7, 0x2840f, 0x3de33e, 0x22d493, 0x3f570b, 0x2197b3]⟩,
   ⟨[0x3642a2, 0x299dca, 0x3d77e1, 0x489d30, 0x27522e, 0x240d64, 0x2f9f74, 0x19c938, 0x296297, 0x1e1814, 0x4e1b7, 0x23d69c, 0x3213c, 0x4ff86, 0x1c3786, 0x304ea3, 0x14189f, 0x6ea0f, 0x69315, 0x11e349, 0x397b6c, 0xf3cd, 0x2183ec], [0x2e3c8e, 0x250f3a, 0x3f23c0, 0xe6089, 0x1aa647, 0x1449a0, 0x1ee430, 0x6effdc, 0x2d388d, 0x19e36b, 0x1d016d, 0x829c5, 0x391c21, 0x271fc6, 0x2f3a60, 0x19b88f, 0x1cf454, 0x2b6d5c, 0x1dae4b, 0x14a040, 0x2920c3, 0x17bc1f, 0x19d5e3]⟩,
   ⟨[0x135c5b, 0x1dc3ce, 0x4c781, 0x80e30, 0x9851d, 0x350569, 0x2e8442, 0x1051d8, 0x4fd70, 0x134424, 0xf2b29, 0x685f52, 0x2ddece, 0x8902, 0x2f4764, 0xe5c3d, 0x32a0b9, 0x1a6033, 0x12a3e6, 0x6bf5ec, 0x3d93f8, 0x360b6e, 0x18b3fc], [0x4ecf79, 0xb2aa, 0x3fb9c2, 0x78ce6d, 0x1215d4, 0x38e3dd, 0xc3346, 0x4c9060, 0x3d3143, 0x243b10, 0x259423, 0x6a2b73, 0x28505d, 0xae48c, 0xc6ee, 0x572490, 0x27d956, 0x14406a, 0x33be99, 0x18c2fa, 0x2f3af0, 0x1405c5, 0x64b19]⟩,
   ⟨[0x1f2ebd, 0x510c7, 0x19ae41, 0x7cb53e, 0x3ab38e, 0x3266f9, 0x208eb6, 0x6d10f3, 0x1d6c3a, 0x2d7d80, 0xb3c9d, 0x48bda2, 0x14cc2e, 0x156682, 0xbaebc, 0x32a9c9, 0x1fd4d5, 0x323040, 0x282e72, 0x3ce90a, 0x7c3a6, 0x4f672, 0x19034a], [0x4dea72, 0x355cf9, 0x2bbd82, 0x4625d7, 0x35a89f, 0x2ce049, 0x1d8906, 0x50c, 0x357091, 0x1d1a1c, 0x1a15e2, 0x2c9aa7, 0x1b1721, 0x3b7772, 0x3075ba, 0x3ace9c, 0x18b5b9, 0x1483a0, 0x2b8443, 0xd0833, 0x11414e, 0x377005, 0x1fe0bc]⟩,
   ⟨[0x614d45, 0xface1, 0x2e03fd, 0x104582, 0x27b6d8, 0x2e45ca, 0x3dc391, 0x278f0, 0x150f86, 0x2ede47, 0x25399c, 0x4dccc4, 0x186e7c, 0x987ae, 0x82ecc, 0x7b6ee3, 0x97785, 0x3e0986, 0x1c91ed, 0x61a3c8, 0x291652, 0x89f6c, 0xc0f4e], [0x341422, 0x16f7f9, 0x2a2213, 0xcc4c8, 0x2a5108, 0x14c3ff, 0x2a84ff, 0x7c98c9, 0x1c8206, 0x31b7cb, 0x37bb04, 0x3e3334, 0x29aeb3, 0x3e65da, 0x20ee26, 0x779af6, 0x288afe, 0xd4b8d, 0x1db51b, 0x3bf6a3, 0x381a92, 0x11d531, 0x247f4e]⟩,
   ⟨[0x709ae6, 0x252549, 0x7ee34, 0x5d8045, 0x38367b, 0x35ccf0, 0x5cd45, 0x72dfb7, 0x59b58, 0x2bb6e5, 0x3546ba, 0x1567c4, 0x3c5f98, 0x2503e9, 0x3ab5a8, 0x2858eb, 0x1535bc, 0x2dc366, 0x34ed0d, 0x277ded, 0x16e7e, 0x1a35d9, 0x234ea3], [0x3cf55, 0x26ee0d, 0x25529f, 0x31335f, 0x305d60, 0x148f61, 0x343772, 0x4bd619, 0x12e0c0, 0x13ea6e, 0x1a3bc0, 0x69b10d, 0x2cceed, 0x2b62b5, 0x3456e2, 0x5151d, 0x374fb6, 0xf4ccc, 0x1978d4, 0x3fa7e6, 0x266d24, 0x248d2b, 0x161ad6]⟩,
   ⟨[0x32c9a3, 0x2c7c77, 0xe3f02, 0x3e504e, 0x1351cc, 0x177427, 0x20c8e9, 0x19a4c7, 0xb0c5d, 0x1f549f, 0x3b0c1b, 0x21f5de, 0x75b2, 0x36927d, 0x185855, 0x4bd125, 0x14bbc7, 0x1c0cc6, 0x22540c, 0x552107, 0x2283dd, 0x6ba78, 0x13823d], [0x1f97de, 0x28b5d5, 0x30f546, 0x1a0b0, 0x10cc6d, 0x1610c3, 0x245beb, 0x3016d1, 0x1b8316, 0x16ba74, 0x2c99f7, 0x1cc511, 0x17550a, 0x2060a, 0x256cb7, 0x40bf9e, 0x16677b, 0x7d673, 0x182b4f, 0x2e8adb, 0x1cbed4, 0x2d048b, 0xc037a]⟩,
   ⟨[0x5b2170, 0x2a20e5, 0x3a2cc9, 0x2d459d, 0x1decc6, 0x31c1fe, 0xce89c, 0x28cb4a, 0x228929, 0xc455b, 0x288443, 0x19205f, 0x23421a, 0x352e01, 0x1e5137, 0x74c0c9, 0x3a0d7, 0x3a7f32, 0x2bdaab, 0x38ce1e, 0x991a9, 0x31aaf9, 0x36ff6b], [0x6c89e0, 0x256380, 0x1f7866, 0xf7cd3, 0x1e0162, 0x1a7772, 0x474b0, 0x1b3366, 0x24c27d, 0x33397c, 0x2ddff7, 0x3d06f, 0x3ce689, 0x87afa, 0x135bed, 0x1e1302, 0x3fd153, 0x3f3f3d, 0x5db43, 0x6193c9, 0x174036, 0x258d52, 0x46f1f]⟩,
   ⟨[0x49fc14, 0x7614, 0x1f7037, 0x592750, 0x290b61, 0x960a8, 0x194ff1, 0x139cac, 0x3e0952, 0x270ec5, 0x88b6c, 0x4c78f1, 0x1d53f4, 0x3170c1, 0x1bd840, 0x705662, 0x20de92, 0x128651, 0x3e0d7f, 0x7f2363, 0x29f44, 0x1b5fcc, 0x12dcb6], [0x715c01, 0x3ba447, 0x14b2cf, 0xd0598, 0x21bd5e, 0x3b2771, 0x1c4456, 0xb7702, 0x34ad46, 0x20b4d4, 0x34c10f, 0x211bee, 0x229380, 0xf7d2e, 0x1dcfee, 0x667394, 0x181e9b, 0x423c4, 0x1ece77, 0x170479, 0x32353f, 0x164df6, 0x16f1de]⟩,
   ⟨[0x75c5f8, 0x385bf, 0x31dd89, 0x6e52cd, 0x7ab18, 0x1db7d7, 0x181db9, 0x3116d9, 0x2f42c8, 0x1008a8, 0x955a8, 0x16157f, 0x366962, 0x374b18, 0x3da6a4, 0x4dd8ae, 0x303056, 0x814a3, 0x1fd98e, 0x54633b, 0x196306, 0x36be52, 0x1cff52], [0x6f6bd4, 0x363198, 0x27a4a2, 0x2e0cc3, 0x3815c9, 0x3f3192, 0x37b67c, 0x30f20c, 0x2a1b35, 0x16c2b1, 0x10040b, 0x6d50ba, 0x15627b, 0x236233, 0x2bd95d, 0x68647c, 0x3db8b8, 0x90eb1, 0x1829ed, 0x3aa621, 0x281854, 0x579e2, 0x27cda0]⟩,
   ⟨[0x56e4c3, 0xe21ff, 0x24f3b1, 0x2d126d, 0x125d7c, 0x11ef67, 0xbd798, 0x18629, 0x1299fe, 0x16dccd, 0x1db60a, 0x2ab062, 0x3e7ddd, 0x2f1bf6, 0xf1421, 0x7ddefc, 0x22f932, 0x327fbb, 0x1e3684, 0xf04e8, 0x28b9f5, 0xac17, 0x1b586e], [0x29c581, 0x1f0cdd, 0xc57c8, 0x5909c4, 0x3a26ed, 0x32886a, 0x2d003, 0x47bc86, 0x4b488, 0x28eac9, 0x7e5f, 0x2afb2f, 0x29fda2, 0x161194, 0x3e7bc, 0xf8369, 0xe94cc, 0x37e9ad, 0x7994d, 0x620da2, 0x1c54f1, 0x3054f, 0xf164e]⟩,
   ⟨[0x485a6f, 0x4577d, 0x3e3eb4, 0x6c4e40, 0x32dff, 0x36d9c3, 0x3133c3, 0x3bd1c9, 0x2755d5, 0x118134, 0x1160f0, 0x59163, 0x3eb8fc, 0x56fc9, 0x28aed8, 0x3179b5, 0x3fbf05, 0x11e59, 0x11744, 0x3470b0, 0x135bde, 0x158952, 0xe6db], [0x532f1f, 0x3906a8, 0x2a32fc, 0x227e49, 0x58edf, 0x3d7db2, 0x23dc29, 0x70553d, 0x4329b, 0x3549b6, 0x3ec868, 0xd7c98, 0x368c50, 0xf57e5, 0x126458, 0x4d62f6, 0x31cef3, 0x204de0, 0x72e81, 0x7da6c8, 0x3d4c1e, 0x3faaa5, 0x18b7eb]⟩,
   ⟨[0x5b2bef, 0x2eea64, 0x35adef, 0x37b6a, 0x3d7f26, 0x3f7ae8, 0x16082b, 0x4d0845, 0x3213fd, 0x2b907c, 0x9d773, 0x32eb9f, 0xb9447, 0xff14b, 0x2cc862, 0xee902, 0x1a1e93, 0x3b5022, 0x7ec85, 0x773a1a, 0x1e3782, 0x1f2f23, 0x371a25], [0x500c90, 0x12947, 0x276b35, 0x55eb4, 0xb22a3, 0x1c3032, 0x34b27d, 0x58fc68, 0x1db835, 0xe22d, 0x26af65, 0x5f11ac, 0x2ab077, 0x16a2bf, 0x2de969, 0x14f0f9, 0x142da0, 0x197b6c, 0x98cd4, 0x76ab0a, 0x3edf05, 0x165ef4, 0x2e8b63]⟩],
  [⟨[0x43ff72, 0x371016, 0x88c3d, 0x3d3831, 0x29e105, 0x874c9, 0x28ad35, 0x50a745, 0x129e17, 0x6826f, 0x3a7e7, 0x5a9957, 0x3f5a11, 0x1e0d75, 0x132e4a, 0x1cacf1, 0x106741, 0x35b4a8, 0x38b784, 0x7346f0, 0x3db373, 0x1ced8b, 0x3b3cab], [0x5aca1, 0x3f976, 0xc0b13, 0x7066aa, 0x37d80f, 0x150b30, 0x22f326, 0x34aeaa, 0x8fece, 0x38e83f, 0x3a6384, 0x15a868, 0xd1591, 0x111853, 0x7ccdc, 0x88671, 0x325d9, 0x30192a, 0x1a7ca, 0x363760, 0x1f97e8, 0x2c79f3, 0x1b4f8f]⟩,
   ⟨[0x6a80d4, 0x39a871, 0x1ded13, 0x3f5d25, 0x9bd11, 0x15e36e, 0xee574, 0x6f2527, 0x4bd44, 0x3a9039, 0x158327, 0x7b459, 0x2c3fc0, 0x2902e4, 0x2368b3, 0x54306b, 0x2e6771, 0x25a, 0x359e84, 0x753a6d, 0x1f1043, 0x198b2d, 0x1d7912], [0x7e5ccb, 0x738a9, 0x164be0, 0x1d6b62, 0xef92e, 0x280cb8, 0x37c2ad, 0x569d4a, 0x279d0c, 0x2f59f7, 0x3dac74, 0x42978c, 0x10da80, 0x217a9d, 0x336498, 0x239bfb, 0x367cf4, 0x2665, 0x12fc23, 0x6b55f4, 0x8389e, 0x10c55c, 0x3917a5]⟩,
   ⟨[0xb001b, 0x36253f, 0x364099, 0x403910, 0x2fd274, 0x240152, 0x2222a5, 0x38a33, 0x15b0c3, 0x1ba804, 0xb91c9, 0x1e1d50, 0x2c6a3f, 0x2da6d, 0x31cde7, 0x5f8aba, 0x32f16c, 0x5f59e, 0x27fb7f, 0x3f4395, 0x5567b, 0x37388, 0x31bc7c], [0x21eb64, 0xf56d8, 0x63940, 0x7222d6, 0x2072c6, 0x2e61e2, 0x16f379, 0x27eadf, 0x3a6bd2, 0x2f0b3a, 0x2ffae6, 0x7dbbb0, 0x3399, 0x15cf91, 0x284363, 0x3dc09b, 0x305937, 0x1a75e2, 0x28d44c, 0x52188e, 0x3f5117, 0x2a7b19, 0xf38a9]⟩,
   ⟨[0x68b2e0, 0x17ffc5, 0x27afc3, 0xa45a1, 0x1227b7, 0x976fe, 0x3cc399, 0x111c12, 0x21cdec, 0x290fa, 0xe0dc4, 0x4b8791, 0x3123b8, 0x257e85, 0x31095c, 0x9042, 0x2e0671, 0x2ede50, 0x2522af, 0x2113da, 0x2136c8, 0x3a4426, 0x375e38], [0x4b72d7, 0x317636, 0x2c6b14, 0x23c200, 0x229ca0, 0x18ab4e, 0x38de7c, 0x71c6f7, 0x6d850, 0x7f5a9, 0x1adead, 0x171f68, 0x18927f, 0x1a4c5e, 0xddcc, 0x38263e, 0x3c1f7f, 0x1b3c9a, 0x3488f3, 0x23c421, 0x2f2417, 0x68eda, 0x73ec6]⟩,
   ⟨[0x740829, 0x3bbe8d, 0x73e98, 0x356fad, 0x3b7ddb, 0x2dc94b, 0x30c9a3, 0x1b8a3c, 0x23bccd, 0x3f076, 0x3a8a39, 0x67c926, 0x57c86, 0x27a91e, 0x6bfd0, 0x268025, 0x26c695, 0x30f65c, 0x7a146, 0x1c03bd, 0x1a48a6, 0x327209, 0x331030], [0x4bbaf6, 0x14ed13, 0x201e53, 0x19209b, 0x18cd1e, 0xdef6d, 0x38012, 0x45882e, 0x3736ab, 0x1e713a, 0x2c4dfb, 0x3f0eef, 0x2cff2d, 0x3250f5, 0x78aba, 0x678753, 0x56e90, 0x198bb5, 0x3ce0ad, 0x7fa3c4, 0x393ac2, 0x207404, 0x1c83c6]⟩,
   ⟨[0x6ef83, 0x15f1b3, 0x12aa0f, 0x14518c, 0x2839b7, 0xd1d3a, 0x4c1ba, 0x5f75c2, 0xd10b9, 0x13d894, 0xdb952, 0xb1478, 0xcb9aa, 0x11ad2e, 0x2894c3, 0x11dd4e, 0x303e2, 0x1eec21, 0x1a194b, 0x5970c2, 0x271263, 0x37cd83, 0xe91b], [0x2f7fb, 0x37d3d0, 0x167e4d, 0x2b340e, 0x29810c, 0xf2744, 0x500a9, 0x77b334, 0x33bbf3, 0x35f681, 0x2a089f, 0x5bd0a, 0x34b55c, 0x1c94f6, 0x3e80fe, 0x12e6ad, 0x2e5578, 0xfcd23, 0x3d81bb, 0xe9fc4, 0x2dca2e, 0x163735, 0x331f02]⟩,
   ⟨[0x6924ac, 0x35ada0, 0x1100a8, 0x267dea, 0x271c3d, 0x28011c, 0x33f146, 0x380bd9, 0x1e9b99, 0x38a9b3, 0x23055c, 0x402c40, 0xe057b, 0x2f5047, 0x30abb8, 0x177283, 0x151e5a, 0x26a491, 0x346a9d, 0x6a2686, 0x10ae09, 0x31479f, 0x3f9361], [0x22a729, 0x1a0ab6, 0x3a1834, 0x4adeae, 0x25c51b, 0x380b76, 0x109bca, 0x326c1b, 0x2680d8, 0x3f48f6, 0xdce07, 0xd0cdc, 0x24513c, 0x1aaf42, 0xf88a1, 0x7680cc, 0x32e52, 0x28b7a, 0x28f444, 0x13b5ea, 0xbe2fe, 0x382f79, 0x26d469]⟩,
   ⟨[0x2ef810, 0x3d7ca9, 0x12a7ca, 0x66ed19, 0x3b6782, 0x1a688b, 0x57236, 0x3ab1dd, 0x2dca9f, 0x318d65, 0x2c3201, 0x2651f2, 0x2585a, 0x110b33, 0x2fc48f, 0x27ff7f, 0xc314b, 0x306b0f, 0x2bcd62, 0xe5451, 0x372c81, 0x8b694, 0x1640e1], [0x5d5544, 0x50ce4, 0x17634f, 0x13a04a, 0x106fdb, 0x1dfa5d, 0x2b04eb, 0x49ff7c, 0x26e744, 0x3d42a5, 0x2b0fd6, 0x76fac0, 0x3acf9e, 0xb293a, 0x120f10, 0x56d4d7, 0x3229a1, 0x1c7884, 0x3ce57d, 0x3c86a7, 0x1588c1, 0xd548, 0x11bb4a]⟩,
   ⟨[0x36250b, 0x274ce1, 0x3f5fe8, 0x112aff, 0x4d6dd, 0x37a903, 0x211dc3, 0x30c9d5, 0x3f5472, 0x198593, 0x93e8, 0x1f8bff, 0xc9ff, 0x3d63d2, 0x3d23, 0x153cab, 0x3ca8e7, 0xf7f9c, 0x17381e, 0x3b2121, 0x6a36e, 0x20df0d, 0x2dcc34], [0x1dde59, 0x100b9e, 0x1387ec, 0x1f5f47, 0x37e7af, 0x193274, 0x2f43de, 0x18e845, 0x2c7eeb, 0x31e7ad, 0x3754d, 0x107b6f, 0x6c7a7, 0x2efa28, 0x230679, 0x3ba29a, 0x3eb83e, 0xe3477, 0x312658, 0x6c10e6, 0x372b67, 0xf6596, 0x380597]⟩,
   ⟨[0x555afe, 0xc7849, 0x42f9d, 0x7edfa, 0xc752b, 0x137ca0, 0x2a9fbe, 0x565768, 0x15078, 0x37865e, 0x22585a, 0x5c7329, 0x230050, 0x2ead2b, 0x1ffab6, 0x7012d8, 0x118e18, 0x31cbe8, 0x34b659, 0xc9258, 0x123325, 0x1f45f2, 0x2b0b5e], [0x63e131, 0x2ceabb, 0x3cf06, 0x5c2801, 0x14448a, 0x1f4570, 0x1de032, 0x7965e9, 0x1c2619, 0x1a84c4, 0x3ca51e, 0x5f8927, 0x1ed00e, 0x18abce, 0x282492, 0x2a4526, 0x1d6653, 0xd9615, 0x11e6f0, 0x671d54, 0x340830, 0x1ef0d7, 0x2fbb7b]⟩,
   ⟨[0x348880, 0x32b440, 0x3867fd, 0x41325c, 0xcdbc2, 0x65444, 0x28f475, 0x1da4b4, 0x109841, 0x3b0866, 0x1e6a77, 0x5d249e, 0x39c59b, 0x3a6f13, 0x38a7e4, 0x5ae286, 0x2f9473, 0x23261, 0x3a0db2, 0x1e7f01, 0x36bf40, 0xe2aec, 0xc8de1], [0x53791c, 0x25adbe, 0x1df305, 0x5cb9a7, 0x2a8658, 0x101f47, 0x329a71, 0x6e7f78, 0x3cb686, 0x2818c0, 0x13dea8, 0x1ad5e, 0x2f79ef, 0x2d66c0, 0x1dabd2, 0x602b71, 0x2903c7, 0x385466, 0x1cdb64, 0x75ce9a, 0x2430bd, 0x176946, 0xe2bc5]⟩,
   ⟨[0x7c9263, 0x2d6dc4, 0x3d3acd, 0x3ebf76, 0x3e1efb, 0x2e4716, 0xf0dd6, 0x3b4748, 0x73a35, 0x3eb153, 0x3dbae5, 0x91752, 0x152a69, 0x3a6b6d, 0x190ce0, 0xc4f96, 0x2aee5b, 0x2d6e94, 0x298b92, 0x2fc509, 0xea268, 0x701e4, 0x3cbd22], [0x68bb5f, 0x3e426a, 0xaba98, 0x63696e, 0xca3ae, 0x30d3d9, 0xe9e5c, 0x46b796, 0x98d02, 0x1c097a, 0x322587, 0x4192a0, 0x117cf5, 0x19b330, 0x1c614e, 0x7dc495, 0x10f1b4, 0x303802, 0x39f211, 0x330a82, 0x2dd8da, 0x2d36f2, 0x17bc2]⟩,
   ⟨[0x49325f, 0x3db33b, 0x29ebf5, 0x1c7997, 0x33f6e9, 0x30c1ad, 0x361ddf, 0x34088e, 0x2a26db, 0x50a8f, 0x2d5cb6, 0x2b3acd, 0x2f102c, 0x1d8f3e, 0x36e06f, 0x5f6b74, 0x3dc5f, 0x3135d7, 0x38e39f, 0x7b5a1e, 0x355d0, 0x16256e, 0x91faa], [0x4eea23, 0x2f50b1, 0x1cbfb6, 0x77ca4a, 0x2e434e, 0x3f8b6d, 0x33265d, 0x6dc04a, 0x17b7fe, 0x156470, 0x1c0ab3, 0x2b82a3, 0x25ed15, 0x345415, 0x6ae3, 0x6a18d6, 0x651b4, 0x324af0, 0x19fd45, 0x756504, 0xd0eb8, 0x1080df, 0x117135]⟩,
   ⟨[0x2201b, 0x2573d3, 0x2b796d, 0xf77c6, 0x1fa05b, 0x4ea6d, 0x3790d1, 0x4517cb, 0x3d97b6, 0x15b191, 0x311e57, 0x37ce58, 0x151409, 0xd6bcf, 0xc5ca5, 0x63737a, 0x299b77, 0xc37e1, 0xf27aa, 0x57c9c2, 0x30edd0, 0x3c12b9, 0x3ae308], [0x154aeb, 0x8f6cc, 0x1668d8, 0x4663dd, 0xd8d93, 0x1ce5f0, 0x21bf83, 0x6bae95, 0x2855b3, 0x335b55, 0x1408aa, 0x4e3e5, 0x28e855, 0x14e502, 0x8e67d, 0x6edaaa, 0x1d9f0f, 0x9dc94, 0x3a18e2, 0x7fa8e, 0x3e00bb, 0x2a56ff, 0x38554]⟩,
   ⟨[0x7a0037, 0x3d491d, 0x3c391c, 0x6294c3, 0x303f10, 0x26a8e1, 0x28d44a, 0x4cd241, 0x1ac12e, 0x32802c, 0x17518c, 0x4b7ff7, 0x184785, 0xc137f, 0x20c5e6, 0x2e88cb, 0x109c0d, 0x3af23c, 0x37a943, 0x209953, 0x15b4e0, 0x69845, 0x93ea8], [0x4a991, 0x3f0551, 0xd6c31, 0x6f47d6, 0x7e9b, 0x27e38c, 0x33bb37, 0x13496d, 0x1a3f2a, 0x14fcba, 0x2722f6, 0x5676f1, 0x213e52, 0x3df1c7, 0x228b30, 0x6856c0, 0x22a73d, 0xb650, 0xeabeb, 0x714726, 0x128875, 0xeb41c, 0x18ca4b]⟩,
   ⟨[0x7bd9ec, 0x1763e0, 0x3a0ddc, 0x731c43, 0x293989, 0x347efa, 0x115b21, 0x3b45b4, 0xda37f, 0x2c87d5, 0x1c53c2, 0x7822f8, 0x8496e, 0x3d3cb7, 0x8a383, 0x735a84, 0x876bd, 0x141ff0, 0x3567b3, 0x785465, 0x30d346, 0x32c983, 0x16542b], [0x175998, 0x105962, 0x27690d, 0x53cea1, 0x27fe4a, 0x377ce, 0x29f12, 0x791342, 0x1cd5d3, 0x24804d, 0x318cbd, 0xac20c, 0x2261a2, 0x17c07, 0x6aed6, 0x1ae5e, 0x230ea0, 0x390d91, 0x9c7fb, 0x2f102a, 0x291350, 0x3da578, 0x13e6de]⟩],
  [⟨[0x5c8dd6, 0x2a3738, 0x365d8c, 0x63db9c, 0x113081, 0x2f34e7, 0x3e646d, 0x19b42d, 0x6cc4b, 0x37967a, 0x37b63a, 0x346973, 0x175bb7, 0x1baea5, 0x2d90d6, 0x235ec5, 0x22b7d3, 0x6c0a7, 0xd9373, 0x3362b4, 0x167362, 0x228fa8, 0x2dc7cc], [0x772f9b, 0x383b30, 0x1fe31b, 0x39283d, 0x30e99d, 0x19398c, 0xe05d7, 0x1cb0b3, 0x31a3e1, 0x335e57, 0x3d185f, 0x4f30a8, 0x2cc2da, 0x3cb4ee, 0xd7f61, 0x6b8eda, 0x20c99d, 0x342d58, 0x3bcf21, 0x43ee8, 0x3937c7, 0x2b2687, 0x3099b7]⟩,
   ⟨[0x6f3863, 0x216888, 0x117f80, 0x3aecb0, 0x3cb3c3, 0x9172c, 0x351ee1, 0xad459, 0x342449, 0xa95a1, 0x362f69, 0x44683c, 0x12100a, 0x38c6, 0x3da8c, 0x4920f7, 0x1f5e72, 0x3f8b01, 0x1b2e28, 0x7828ae, 0x3b1aa3, 0x2304af, 0x2983e5], [0x59f3ad, 0x5ebdb, 0x38f715, 0x7427df, 0x35ee7f, 0x1a4b0d, 0x14e6c7, 0x699a32, 0x15674, 0x3dc67d, 0x1cda8, 0x3c45b2, 0x1be065, 0xc2772, 0x2184e2, 0x5c0469, 0x24f0b3, 0x2374a4, 0x31de85, 0x6b53de, 0xf651c, 0x3071eb, 0x29a433]⟩,
   ⟨[0x30a82f, 0xef962, 0x227761, 0x6d7f9e, 0x81be, 0xfee69, 0x752c8, 0x748dee, 0x387116, 0x287c41, 0x27434, 0x664a85, 0x1d3de1, 0x3d565f, 0x3b7ed9, 0x65c3bb, 0x23180a, 0xe41d1, 0x1016cd, 0x65f0c5, 0x17a834, 0xa4ab, 0x1fc477], [0x4855d4, 0x1d815b, 0x366682, 0x4fee42, 0x1dd612, 0x25ba93, 0xe1804, 0x7b46d, 0x79e19, 0x263779, 0x1fdfa2, 0x78741f, 0x37b69e, 0x18e0a2, 0x37f5d9, 0xc71e4, 0x1f6109, 0x2a965, 0x358a62, 0x790cbb, 0x1fc664, 0x27f06, 0x26a40a]⟩,
   ⟨[0x60807f, 0x3df3ae, 0xbe26f, 0x5110e1, 0x3b1a48, 0x326eeb, 0x1e337a, 0x30a675, 0x3f5f8b, 0xcd0ba, 0x2297fb, 0x379bd, 0x15c430, 0x3fe28a, 0x280ce2, 0x10a09a, 0xbb43d, 0x3bf3e8, 0xd2a25, 0x553c3d, 0x3a4814, 0x23d406, 0x130434], [0x12725, 0x34675, 0x30625e, 0x68204c, 0x7ff0, 0x353d6, 0x374d41, 0x2b0aec, 0x2d4c90, 0x23b516, 0x3d5fe1, 0x1bf1af, 0x26188f, 0x277e9, 0x9edc0, 0x419f60, 0x3b901e, 0x36c9a, 0x1c2868, 0x39bd67, 0x1e1fac, 0x18e5c8, 0xd5b85]⟩,
   ⟨[0xb4e46, 0x1c91bb, 0xe149e, 0xcf26b, 0x239a61, 0x1413c1, 0x39d982, 0x31dc48, 0xcb5e3, 0x177633, 0x3594bf, 0x220b88, 0x3ee0e1, 0x1c29c, 0x332288, 0x1ac903, 0x2ea788, 0x2cf324, 0xa068a, 0x192c4f, 0x3620b1, 0x3a15b7, 0x1846ff], [0x37ea0f, 0xe365f, 0xab7db, 0x73fc69, 0x30e576, 0x1f51c5, 0x3e4c0f, 0x7734a2, 0xb6d61, 0x7f20a, 0x16676c, 0x742ab, 0x24cacd, 0x263f7c, 0x1fbb60, 0x5126de, 0x1b0843, 0x27e640, 0x2b6416, 0xe461c, 0x35712f, 0x21fd4, 0x3dfb53]⟩,
   ⟨[0x78afc0, 0x344524, 0x32570, 0x5274d4, 0x1be8c7, 0xf7fc, 0x3a3cd2, 0x224b02, 0x3cb849, 0x318f23, 0xb31c5, 0x172883, 0xe290f, 0x58fca, 0x29d5b9, 0xee887, 0x8c23a, 0xb4641, 0x19f308, 0x368406, 0x3235c5, 0xf6048, 0x334fc7], [0x721229, 0x28e47c, 0x6f2dc, 0x6e7cff, 0x184c72, 0x3af41e, 0xec9a0, 0x8e682, 0x294028, 0x10cbe0, 0x325e8d, 0x229c6e, 0x7ae13, 0x12b92a, 0x1a6f8b, 0x445e9e, 0x38e62b, 0xcce4e, 0x16d227, 0x5aec2b, 0x2cb9c3, 0xe9ee2, 0x151064]⟩,
   ⟨[0x219f11, 0xeee99, 0xf0e81, 0x14202d, 0x17d47d, 0x13e996, 0x1fc4d3, 0x7153bf, 0x3b0646, 0x3ccda8, 0x2db80c, 0x5a6567, 0x301938, 0xb2a1d, 0x2c1cd4, 0x36d153, 0x2de7, 0x1c0718, 0x1398d4, 0x1c18b0, 0x531c6, 0x270891, 0x1d12c0], [0x6bf552, 0x379c8c, 0x124703, 0x1685d6, 0xb4d76, 0x354333, 0x3fd16e, 0x78f567, 0x228610, 0x2410d3, 0x37ee2a, 0x2ff2a5, 0x1ea65b, 0x3fe56c, 0x86d94, 0x16f8d9, 0x253d0c, 0x110729, 0x251056, 0x771af9, 0x330bb2, 0x30d723, 0x10b52c]⟩,
   ⟨[0x59eedd, 0x224ddb, 0x224843, 0x62307, 0x1c385d, 0x214646, 0x2e9ef9, 0x69fc2, 0x34e86c, 0x2de7f8, 0x11547f, 0x592112, 0x3ba86d, 0x3e5946, 0x1999d6, 0x19972e, 0xbec90, 0x1a2575, 0xc3fb3, 0x16b2b8, 0xf91c3, 0x3be22b, 0x259437], [0x511bd4, 0x114679, 0x3320b0, 0x6912de, 0x209607, 0x10ea82, 0x1756fd, 0x67c9a7, 0x386f00, 0x19c5a2, 0xc1f54, 0x60cbc7, 0x1da7b9, 0x63f18, 0x3d8253, 0x6757e9, 0x1f28e4, 0x3f4512, 0x15ba1b, 0x296bbe, 0x1e7448, 0x27173c, 0x385c41]⟩,
   ⟨[0x1a30ee, 0x3f8dad, 0xa157b, 0x2e76b6, 0x3b33b, 0x67b4f, 0x338572, 0x4a7886, 0xaf814, 0x231f5b, 0x3a7866, 0x1bc9d8, 0x2ec718, 0xf7210, 0x38a200, 0x24bd8b, 0x25403d, 0x2338a0, 0x197fc8, 0x7effc4, 0x2c8ed2, 0x2f359c, 0x7199c], [0x3aa840, 0x1feba5, 0x204035, 0x1437de, 0x30877e, 0x1dc9d8, 0x22f529, 0x4aa308, 0x8cf16, 0x227f26, 0x30ea93, 0x444d20, 0xfc049, 0x25fecc, 0x366a3b, 0x75f2c6, 0x2d58de, 0x37a47, 0x1143e7, 0x66f889, 0x1aa585, 0x8637c, 0x285d24]⟩,
   ⟨[0x1684fd, 0x26202e, 0x229298, 0x38ba17, 0x1143e4, 0x4c67b, 0x9a1d3, 0x359003, 0xcf20, 0x3c8e67, 0x25ddf6, 0x167020, 0xc3320, 0x32fd4f, 0x1d4ddd, 0x2abe07, 0x15d694, 0x2025e4, 0x24b490, 0x237c45, 0xf2232, 0x172623, 0x3f2420], [0x31c43a, 0x2504f9, 0x2a5346, 0x85709, 0x181464, 0x16ae98, 0x5937d, 0x7e227e, 0x21e344, 0x2d37f2, 0x3baba8, 0x76ba1e, 0x1e9354, 0x1fb1cd, 0x2fa365, 0x37f2a0, 0x150ff4, 0x1d5dc, 0x3d537e, 0x3f0f28, 0x2c7bea, 0x3c8613, 0x32181b]⟩,
   ⟨[0x4fdbff, 0x279110, 0x14218e, 0x6ff570, 0xbee6d, 0x1ac4bf, 0x168284, 0x204fd9, 0x9e49a, 0x375f6c, 0x188591, 0x711953, 0x3f4432, 0x196529, 0x394538, 0x18f2f6, 0x2ca7b0, 0x13757, 0x1f2763, 0x1f675a, 0x2051a1, 0x3e27eb, 0x1862d5], [0x762ca4, 0x8c476, 0x324e43, 0x2a5bed, 0x2fcb16, 0x3a2ec2, 0xdac89, 0x1b1ea8, 0x270a0c, 0xf92c4, 0x137059, 0x2c67b, 0x1de35a, 0x3aeb0, 0x32086d, 0x622727, 0x3663f6, 0x143f44, 0x7e1a6, 0x52b971, 0x2a4520, 0x3b35c1, 0xe5f13]⟩,
   ⟨[0x377631, 0x160066, 0x3f8625, 0x8a975, 0x11c7dc, 0x2ac5ae, 0x1d6ad4, 0x457d6d, 0xd9162, 0x29be2c, 0x23e49c, 0x3ce982, 0x29bd3f, 0x2fa98a, 0xaaf8f, 0x51ba4c, 0xaaa3a, 0x35ac4, 0x326c9d, 0x1bbf9, 0x259ee8, 0x363291, 0x354d7c], [0x4bacf, 0x21298, 0xbd9f4, 0x43d1fd, 0x144099, 0x31dc66, 0x38ff58, 0x1edfde, 0xcde37, 0x11d4f2, 0x1830f3, 0x66b396, 0x2b5740, 0xfe1b, 0x18ca75, 0x543a1, 0x1f8bb, 0x3ad189, 0x2324cf, 0x4d2c11, 0x2f4ceb, 0x158ce7, 0xcc8e6]⟩,
   ⟨[0x1f545, 0xbafc9, 0x256984, 0x5ba1bd, 0x186cc4, 0x354258, 0x2c995a, 0x634432, 0x1c8dfd, 0x6a9f8, 0x3413fa, 0x407583, 0x364359, 0x360343, 0x4e81d, 0x23b9e2, 0x44aac, 0x3e4f02, 0x253e4, 0x4e1d95, 0x8b230, 0x45ab3, 0x36815], [0x3912f5, 0x38574b, 0x4ad86, 0x463316, 0x37d8, 0x1023fc, 0x31de0, 0x7ec789, 0x81ef, 0x2aba70, 0x355bfb, 0x306cb6, 0x146c52, 0xd5ad0, 0x3681f1, 0x63a37a, 0x1b646e, 0xa931f, 0x23dd86, 0x6f9afa, 0x8a0bb, 0x11bd6f, 0x169519]⟩,
   ⟨[0x183d98, 0x3953f2, 0x3f5c, 0x1d61cc, 0x29e894, 0x8fd62, 0x124f02, 0x5d5510, 0x2cbb48, 0x27c8ec, 0x2da8a4, 0x506092, 0xd2eca, 0x80cb3, 0x370b1f, 0x264230, 0x254b5d, 0x30d35b, 0x237e95, 0x3d3219, 0xf1ee0, 0x16f356, 0x433b4], [0x2eddfd, 0x28836f, 0x4b480, 0x268786, 0x2f536c, 0x2af788, 0x3b32bc, 0x3b16d5, 0x2c983e, 0x9c26, 0x267d08, 0x20e60c, 0xecf45, 0x278142, 0x1746f3, 0x54a790, 0x35c6aa, 0x272dac, 0x2ba52d, 0x38b5a4, 0x3725b3, 0x3565dc, 0x1ff559]⟩,
   ⟨[0x65d9d6, 0x344fc2, 0x870b, 0x699985, 0x2a5c08, 0x2d5249, 0x2cb5fe, 0x7c94cd, 0x1208b8, 0x34bb9, 0xf21f9, 0x10b487, 0x1d773a, 0x37e3b0, 0x2176d0, 0x52166e, 0x2f70e0, 0x1bed82, 0x286120, 0x7331ed, 0x1507e2, 0x3fd862, 0xa5bc5], [0x763783, 0x11ec7b, 0x6ecdb, 0x596d37, 0x2d6d59, 0x1fb1f1, 0x10dd1f, 0x3f277e, 0x91b7a, 0x3ffe47, 0x3d49d, 0x71af1e, 0x173fa2, 0x1b76ec, 0x1d5248, 0x59be83, 0x3f4d6a, 0x1ce0d3, 0x3fdbaf, 0x554caa, 0x2faf76, 0x4dd7d, 0x25bfe6]⟩,
   ⟨[0x78e507, 0x3b0516, 0x239513, 0x26b945, 0x2f7ea4, 0x258daa, 0x2ca54e, 0x38f70d, 0xea33, 0x2cc019, 0x322c57, 0x7e5f7d, 0x1bd5e1, 0x2300d9, 0xa82fb, 0x7b959b, 0x200d1e, 0x1f252c, 0x21984a, 0x15c036, 0x16a72f, 0x3e13, 0x15aa73], [0x7c9d6a, 0x3e1441, 0x11a00f, 0x79a490, 0x12d007, 0x3c8625, 0x1e5649, 0x4491d7, 0x76136, 0x3e7528, 0x353c0b, 0x8e4bd, 0x3422e8, 0x338bfd, 0x27f2d6, 0x772362, 0x359b33, 0x3a501d, 0x154aff, 0x49526d, 0x2761de, 0x309735, 0x60b95]⟩],
  [⟨[0x523b9f, 0x1a6be6, 0x36edd, 0x76aa2f, 0x3fd0e2, 0x385a57, 0x98667, 0x13dd67, 0x12b434, 0x973, 0x3cf995, 0x45926b, 0x2cf3d, 0x1b1027, 0x3876f6, 0x39998a, 0x398d3b, 0x598d3, 0x9e59f, 0x3da91c, 0x27f8fe, 0x1992ef, 0x1bd1e4], [0x5e09d8, 0x27291c, 0x42e2c, 0x5186a7, 0x151430, 0x2a705a, 0x312685, 0x1c5cd7, 0x2bc485, 0x6b1b4, 0x3ed133, 0x6ba1bb, 0x12b561, 0x1c6829, 0x38f88d, 0xfafdf, 0x3a8f9c, 0x3b8278, 0x75330, 0x723d70, 0x13971c, 0x2a3a0, 0x32d46e]⟩,
   ⟨[0x4a84e3, 0xf993b, 0x38e50f, 0x6f9d6c, 0x222dda, 0x201c17, 0x3d690b, 0x685e56, 0x3ae821, 0x160832, 0x267374, 0x14a440, 0x286466, 0x37b81c, 0x34fb56, 0xa60a9, 0x361f71, 0x2768e5, 0x2d9adf, 0x351ed3, 0x26b155, 0x2acf8b, 0xcab49], [0x2e7818, 0x50ddb, 0x2f8281, 0x426db, 0x3bf6c0, 0x2f18b3, 0xfdf15, 0x4326c8, 0x34a233, 0x3f8bb5, 0x252744, 0x5d0622, 0x600e0, 0xc538e, 0x2b9b96, 0x240977, 0x266e45, 0xed85f, 0x16d56e, 0x5934a8, 0xde008, 0xb7a70, 0x333a6e]⟩,
   ⟨[0x62aa91, 0x4ad0d, 0x290514, 0x35ef4e, 0x3f0059, 0x36f603, 0x1e8a95, 0x4e5e21, 0x3aaad3, 0x1864b4, 0x314695, 0x61f315, 0x3e5320, 0xa6a70, 0x312dda, 0xca432, 0x89af4, 0x27ee81, 0x3314b2, 0x569617, 0x369c83, 0x333762, 0x4c25b], [0x29163b, 0x10f6c4, 0x3cfa87, 0x413607, 0x4d631, 0x29cc9a, 0x9b191, 0x12e650, 0x7576e, 0x2faef9, 0x1e71a7, 0x6d93a4, 0x110bdb, 0x3c8a96, 0xab70a, 0x161ff3, 0x309eac, 0x887fb, 0x199fc7, 0x7b0c04, 0x30951, 0x138445, 0x2c19e3]⟩,
   ⟨[0x1d9920, 0x35a7f8, 0x26f037, 0x352ee6, 0x36ff52, 0xda4b7, 0xd5800, 0x12d75b, 0x1e4378, 0x6fb97, 0x3489d8, 0x7291b9, 0x2611ff, 0x29220f, 0x3180af, 0x3b64f1, 0x29d493, 0x29061e, 0x287f20, 0xa8410, 0x3b766f, 0x194e12, 0x1c9672], [0x2bebd9, 0x34c959, 0x372bce, 0x77e3fe, 0x2a76ef, 0x3b1215, 0x17d01e, 0x1f6d6e, 0x1af581, 0x2135b9, 0x23ae9b, 0x643ee2, 0x309b0b, 0x149e24, 0x2b829c, 0x14d460, 0x35aab8, 0x1d64a4, 0x3c4123, 0x5fd0be, 0x2680ce, 0x32fc91, 0xd5efa]⟩,
   ⟨[0x42107b, 0x2d79cb, 0xe25c7, 0x15d835, 0x25eacc, 0x38e784, 0x133c3a, 0x9780f, 0x7a2b3, 0x3a0803, 0x381d55, 0x282268, 0x20b921, 0x37f7ac, 0x13b76d, 0x3ce92f, 0x25ecd4, 0x30b106, 0x1d9f81, 0x6798c4, 0xcf158, 0x3caf9c, 0x3824db], [0x7f6848, 0x34a534, 0x1b343, 0x6bf10c, 0x8fcf1, 0x25f0, 0x105280, 0x58fee9, 0x6b688, 0x1bec79, 0x3d6bc7, 0x1dbc3e, 0x298412, 0x2caf5f, 0x3c0536, 0x6d0ed6, 0x2790f7, 0x16b380, 0xea2cc, 0x7f2385, 0x1fc33e, 0x1295d, 0x2ec02f]⟩,
   ⟨[0x1f7939, 0x2ac3e2, 0x1660f9, 0x663a40, 0x1a8a13, 0x23c8ef, 0x3ab7b7, 0x39e16f, 0x1fa47b, 0x25ab8d, 0x384015, 0x3ce1a6, 0x5f145, 0xc1e4b, 0x1a72db, 0x203492, 0x3de59e, 0x10cd81, 0x2d2fae, 0x21f48a, 0x1c1285, 0x2ec41b, 0x1e8b07], [0x18d1f3, 0x2ec53a, 0x190d62, 0x18fcfd, 0xa3ee7, 0x39d235, 0x217ff2, 0x142817, 0x2fb4f7, 0x1bb01d, 0xbf067, 0x52c1a1, 0x1029df, 0x3b77ac, 0x1c5446, 0xa8528, 0x76849, 0x24957c, 0x255f16, 0x464713, 0x14a68e, 0x2a0e25, 0x27874c]⟩,
   ⟨[0x165c60, 0xf1947, 0x358dac, 0x3112ab, 0x3ced7d, 0x7d95d, 0x1bfb25, 0x38039b, 0x2c49b9, 0x226b1d, 0x307b50, 0x2a8a6b, 0x3a8d6f, 0x2d72f9, 0x2f321d, 0x530076, 0x2d8361, 0x2d2b58, 0x32030c, 0x32f5e5, 0x164ce3, 0x26d5d1, 0x20444c], [0x2abbe4, 0x3519d8, 0x151482, 0x773260, 0x34b1ad, 0x250b9e, 0x302049, 0x385164, 0x3e74f7, 0x23b51f, 0x1a3158, 0x527f9c, 0x3cabd3, 0x2f9178, 0x6bae5, 0x600f3b, 0x2df1b8, 0xd590f, 0x194149, 0x5de8b8, 0x2325d5, 0x3edbff, 0xaafe1]⟩,
   ⟨[0x1a50fc, 0x280217, 0x3a5f1b, 0x412d41, 0x285345, 0x2dbbad, 0xff377, 0x59899d, 0x29b472, 0x72a4a, 0x28dc22, 0x1611b6, 0x3c3760, 0x1466b, 0x3d8fa9, 0x573081, 0x13fb11, 0x203758, 0x2e6367, 0x482cf9, 0x3178f6, 0x1073e8, 0x1997c3], [0x73fdfd, 0x2eff90, 0x14ebad, 0xf3618, 0x162a1a, 0x270e47, 0x10a3e7, 0x345497, 0x2c126d, 0x36f8a6, 0x166505, 0x5c77a, 0x197ed6, 0x192ecc, 0x233375, 0x3e0030, 0xd5706, 0x9709a, 0x3d8884, 0x244795, 0xb3f0c, 0x2420c0, 0x286796]⟩,
   ⟨[0xcaae5, 0x94457, 0x152528, 0x1e3db2, 0x5ec25, 0xbf941, 0x2a007f, 0x504fd8, 0x3ed863, 0x3a902a, 0x14f2ea, 0x15db81, 0x280472, 0x3d790f, 0x349779, 0x6eb09f, 0x209701, 0x377e4f, 0x2e600b, 0x152371, 0xba435, 0x1fef62, 0x27e7f6], [0x599cb9, 0x1549aa, 0x13af70, 0x234b56, 0x248cc3, 0x32259c, 0x203d97, 0x6aa891, 0x5cefe, 0x199005, 0x1990d3, 0x334df5, 0x1b0bb0, 0x11dd6c, 0x38f1e0, 0x4ee490, 0x3c3321, 0x1f139b, 0x6c59b, 0x195c36, 0x13ed7, 0x20142, 0x34ff5c]⟩,
   ⟨[0x2c93ff, 0x319f9, 0x2cb9, 0x2d18f3, 0x1dca23, 0xc5093, 0x1eff04, 0x75cff0, 0x64ea8, 0x4571c, 0x19b187, 0x53f3e7, 0x2bfcd9, 0x100147, 0x381877, 0x32e5d6, 0x2ec006, 0x238ed2, 0x32c67b, 0x1663, 0x3c176a, 0x14e21c, 0x399d5e], [0x4e0b57, 0x1c2f95, 0x363dc0, 0x9dc71, 0x151a34, 0x3159c5, 0x201355, 0x455c7c, 0x70906, 0x2195fd, 0x1ce30a, 0x73cadb, 0x5c318, 0x37022, 0x53e6c, 0x78d811, 0x2d5455, 0xb37e3, 0x3a1081, 0x5948e6, 0x32f5e3, 0x3f1006, 0x29c6c7]⟩,
   ⟨[0x6a53f5, 0x234585, 0x3b1248, 0x31e22d, 0x14c277, 0x1e4e41, 0xc1028, 0x4cfb54, 0xea3e8, 0x91aa9, 0x26a9c7, 0x3266e7, 0x2e72a8, 0x2340fe, 0x306573, 0x6b9e9a, 0x35d59f, 0x1db09e, 0x5f131, 0x2a91f, 0x3d10fa, 0x2d44c4, 0x1a9029], [0x4dc2d6, 0x485aa, 0x357f02, 0x109abd, 0x277446, 0x2b2567, 0x3c69a7, 0x31aa5d, 0x308e0d, 0xcdb91, 0x1a3ab7, 0x43a830, 0x2fc1d1, 0x1fa04c, 0x2b3c22, 0x400e6c, 0x88655, 0xd2e38, 0x2bede7, 0x41f67a, 0x2eb40a, 0x263e54, 0x736a8]⟩,
   ⟨[0x524db7, 0x329bd6, 0x2bc43f, 0x407e56, 0x6ba61, 0x1a5fc7, 0xfc681, 0x1a5e17, 0x2ad8e2, 0x3c1b1e, 0x3028ba, 0x2ce10a, 0x13f30e, 0x1966b5, 0x1c1df1, 0x540907, 0x29361c, 0xe7b5c, 0x303dde, 0x59fb60, 0x151554, 0x2838bd, 0x3d9cfa], [0x2063f9, 0x2731ca, 0x2003f0, 0x79f9f9, 0x347ac8, 0x21973a, 0x1280ce, 0x323a60, 0x98d3c, 0x306d49, 0x109ec, 0x511419, 0x10c7b4, 0x1d2e21, 0x3991c3, 0x3c5990, 0x1db860, 0x14ec41, 0x88bac, 0x448c44, 0x84966, 0x31e904, 0x524f2]⟩,
   ⟨[0x49e3d3, 0x181a3b, 0x11aa50, 0x7021e5, 0x316ec7, 0x29a769, 0x3f4c5a, 0x6aa0ed, 0x3e7379, 0x150459, 0x35cbc7, 0x5debb1, 0x53c63, 0xaa5e3, 0x13545f, 0x19a93, 0x29934b, 0xa94d0, 0x260b29, 0x298f53, 0x377d15, 0x29f246, 0x2f33b2], [0x66fe62, 0x1037ad, 0x370077, 0x421175, 0x1e861c, 0x33773, 0x2bfea4, 0x380f, 0x1544c, 0x272751, 0x3fb134, 0x39c926, 0x2cab64, 0x26f1d5, 0x273824, 0x4bdf14, 0x1e4097, 0x281d77, 0x273464, 0x5eb84, 0x2942cd, 0x3938b5, 0x333ccf]⟩,
   ⟨[0xb8466, 0x335b47, 0x1c7c5f, 0x130b87, 0x2c697, 0x11f099, 0x1909fc, 0x7c440b, 0x6e6cd, 0x3604f5, 0xa3664, 0xe9448, 0x375564, 0x100abb, 0xa2bd1, 0x610611, 0xb0919, 0x192da1, 0xca6a0, 0x22ec21, 0x10021b, 0x14ac0f, 0x3c3561], [0x1de844, 0x339f0, 0x338277, 0x39e865, 0xc918f, 0x1b9202, 0x39db51, 0x35e972, 0x269806, 0x1a4703, 0x128e3f, 0x59736b, 0x9133a, 0x988fa, 0x3f5d17, 0x75d549, 0x35af8b, 0xebf87, 0x2b5241, 0x1a47e1, 0x3fad0b, 0x3f031a, 0x856d]⟩,
   ⟨[0x7ba242, 0x3f139f, 0x11defd, 0x23de43, 0x295aa0, 0x3ab6ce, 0x492a, 0x38f1c, 0x1f3beb, 0xdeade, 0x3039cc, 0x546c46, 0xf8c59, 0x364f5d, 0x278a38, 0x3d22c, 0xfdc4b, 0x1beaf, 0x25b08, 0x8f72c, 0x27c5e7, 0x252a05, 0x107a50], [0xeba8f, 0x27a1d4, 0x3ef3a3, 0x7bcf49, 0x3d3105, 0x23e6fd, 0x359b97, 0x28f42a, 0x3e23d6, 0x178851, 0x37642f, 0x42e04b, 0x376afd, 0x198f42, 0x2f89cf, 0xe495c, 0x2116c6, 0x369883, 0x5445e, 0x28d909, 0x1123be, 0x395238, 0xbdbc0]⟩,
   ⟨[0x79a5e7, 0x1c3e7b, 0x184f53, 0x3bbc86, 0x10d687, 0x38850, 0x38e20e, 0x3e53ae, 0x4a94c, 0x2aeb4d, 0x3aeb1a, 0x448bcc, 0x4db71, 0x3778d, 0x3944f0, 0xcc500, 0x8e46, 0xf5c40, 0x110507, 0x1f1e48, 0x3628d5, 0x52a96, 0x3b94d2], [0x4abcf, 0xa3bc2, 0x1c80a, 0x7bda93, 0xecd4f, 0x3f215d, 0xebbe2, 0x5395fc, 0x74168, 0x22a24a, 0x1a1b35, 0x77ffe0, 0x3c9950, 0x28a73c, 0x1ac592, 0x23cb0d, 0x3f12d3, 0x30ed1b, 0x2e878c, 0x3ba03c, 0x3cdba8, 0x21e634, 0xf8610]⟩],
  [⟨[0x374ea0, 0x3d49a3, 0x1f7e76, 0x1d6b9e, 0x2592c5, 0xe14a2, 0x190c56, 0x63dae2, 0x39cb00, 0x1a96b0, 0x1112b0, 0x125d57, 0x3e073b, 0x3ba300, 0x10434f, 0x584798, 0x328c4d, 0x2c908e, 0x3f37c6, 0x50852e, 0xe2e46, 0x3a1a63, 0x1c643d], [0x147d83, 0x590de, 0x1a30e1, 0x3223d8, 0x92f2b, 0x2b60ee, 0x44972, 0x24b04f, 0xf8784, 0x15a35, 0x1e5404, 0x3b76c0, 0x24ecfe, 0x101933, 0x29fdfb, 0x224043, 0x59771, 0x35fa07, 0x44afe, 0x168a97, 0x1d4795, 0x16c054, 0x202b01]⟩,
   ⟨[0x63e7a6, 0x34c8d6, 0x280787, 0x1a7385, 0x3abd2e, 0x185e3e, 0xc346, 0x75ff68, 0x117390, 0x234323, 0x327433, 0x3fed4a, 0x3946ee, 0x36feb, 0xc0f57, 0x359c4a, 0x92d1d, 0x1a134, 0x2ad6d7, 0x12395f, 0x3f988a, 0x1accff, 0x2123c1], [0x2d5a19, 0x156939, 0x222c1a, 0x619366, 0x16036d, 0x33459b, 0x62d47, 0x4b8c12, 0x1b95cf, 0x117f5f, 0x3f80da, 0x50a50, 0x3942d5, 0x385eae, 0x33ab22, 0x537468, 0xdff4b, 0x1879d6, 0x2388a7, 0xfcea6, 0x375e35, 0x3398b3, 0x3f30ba]⟩,
   ⟨[0x3598d4, 0x19a9a3, 0x3a267b, 0x2b12cc, 0x3839d5, 0x3b8d33, 0x25bf3a, 0x438430, 0x189c5b, 0x3f2c8b, 0x3a8177, 0x7055a3, 0x2e6730, 0x341821, 0x2142de, 0x10bc51, 0xd1ea0, 0x15fef0, 0x329b9b, 0x508a4, 0x1c1b9, 0x1ff600, 0x328e8e], [0x717603, 0x33f89c, 0x25c76b, 0x18607b, 0x1303e9, 0xf2cb5, 0xf8ce4, 0x11128f, 0x216ce5, 0x3b4aec, 0x27f704, 0x5a2623, 0x2a1412, 0x37e07d, 0x7f5bf, 0x6bff5f, 0xd2ea, 0x28d09e, 0x30fece, 0x7ce886, 0x163ad8, 0x7318, 0x2c4f8d]⟩,
   ⟨[0x22ef26, 0x11df21, 0x1a21e7, 0x67a5b1, 0x327468, 0x31ba5c, 0x156dc9, 0x1e7e4e, 0x3fb583, 0x1eb61f, 0x2abba4, 0x40fec8, 0x4c5ff, 0x10f939, 0x3d4da2, 0x5c0941, 0x13c311, 0xba027, 0x1845cc, 0x6ff264, 0x38ac88, 0x3463d6, 0xeadb9], [0xb056c, 0x288db2, 0x1c02cf, 0xbb175, 0x18f094, 0x27806d, 0x355563, 0x54c2ad, 0x1cce8e, 0x2e2b85, 0x73f85, 0x6d02cb, 0x33434a, 0x3da80b, 0x1550b8, 0x53a65c, 0x3624ad, 0x78142, 0x17bfe5, 0x2ef056, 0x126c8f, 0x377035, 0x3c5fd9]⟩,
   ⟨[0x692f52, 0x2d345a, 0x1014b5, 0x4a6f1c, 0x279feb, 0x57359, 0x5ee89, 0xb0567, 0x2b38d3, 0x243c26, 0xfe1b, 0x1499ce, 0x326c87, 0x3808d0, 0x24e577, 0x559968, 0x14ef5f, 0x91017, 0xa4b95, 0x79eb0d, 0x498f0, 0x2f7f3a, 0x24e38], [0x590d7, 0xc5aff, 0x21f7af, 0x667ccb, 0x38ac0e, 0x23a769, 0x3e7c3d, 0x52fb04, 0x2de7ec, 0x2f29f5, 0x23207b, 0xcdf9d, 0x2b4365, 0x3a2fbf, 0x11fb18, 0x63afcf, 0x15b1dd, 0x33b40c, 0x12f31, 0x87c46, 0x99c9e, 0x16bc64, 0x32ad86]⟩,
   ⟨[0x483715, 0x368333, 0x246073, 0x5fb045, 0x3a117a, 0x2fbc81, 0x9ffff, 0x3826cf, 0x40665, 0x248d34, 0x20f6f7, 0x64c39e, 0xddc2a, 0x27f7ad, 0x2a0468, 0x4233a3, 0x39012c, 0x1733df, 0x2effef, 0x799097, 0x1ff171, 0x18ed19, 0x26ccee], [0x46e82c, 0x3d6f41, 0x1b2a06, 0x1ff2c3, 0x3f0f50, 0x1a930, 0x3bf063, 0x2ee18d, 0x1ccfe3, 0x36f969, 0x149ad4, 0x16e5be, 0x1f9762, 0x22d061, 0x12e3b7, 0x3e984, 0x3b3250, 0x38c6b2, 0x159530, 0x73861f, 0x251136, 0x123d52, 0x27a418]⟩,
   ⟨[0x3f3d56, 0x35580a, 0x315b32, 0x683b54, 0x2e6b1b, 0x30e284, 0x1a147c, 0x57017e, 0x3f1ce4, 0x739f3, 0xbe2d0, 0x237229, 0x35db98, 0x13b31, 0x885d5, 0x734416, 0x2bcb46, 0x25b709, 0x1f5588, 0x7afb72, 0xa3b67, 0x2f51e5, 0x37f6d4], [0x58dc2b, 0x3bc578, 0x3efb94, 0x7ab5c0, 0x33698c, 0x384e73, 0x18c54e, 0x6017c, 0x169895, 0x32c34c, 0x1b77d2, 0x668dcd, 0x29d00c, 0x35521d, 0x871e7, 0x881e9, 0x3f9cc2, 0x273aea, 0xafa2b, 0x519c25, 0x284813, 0x2f3204, 0x3a63d7]⟩,
   ⟨[0x24391, 0x3ba776, 0x33874, 0x34fbcf, 0x303978, 0x22d87, 0x5fc7a, 0x4d7abb, 0x3f68e7, 0x17ec8c, 0x51303, 0x6259da, 0x21f4e5, 0x121632, 0x31bbfe, 0x79b8a1, 0x3ae333, 0x6a0fc, 0x55308, 0x601907, 0x2ea623, 0x3b33ba, 0x349f3f], [0x1e557, 0xc8304, 0x2edbe, 0x1eff0a, 0x3b6349, 0x228976, 0x317095, 0x482b44, 0x2287bf, 0x244b82, 0x3cfa63, 0x1d099b, 0x23eb12, 0x188057, 0xd5e10, 0x5205c6, 0x2a8f5f, 0x2ab102, 0x151e7a, 0x31464e, 0x16acf5, 0x3c570e, 0x3d5498]⟩,
   ⟨[0x528a5e, 0x1d1a41, 0x1d0b03, 0x6e975c, 0xc8044, 0x26c6ab, 0x1e178a, 0x66b411, 0x47104, 0x204d14, 0x228536, 0xd099c, 0x838ab, 0x1bc3dc, 0x29fce8, 0x29fd9, 0x2e687a, 0x3e8ae4, 0x2dd424, 0x432788, 0x8979f, 0x39edd9, 0x1751d6], [0x492d65, 0x1a7de1, 0x14fd58, 0xc2887, 0x170ffc, 0x2cd82, 0xc7eb0, 0x7bc59a, 0x27399, 0x7595a, 0x6b074, 0x362bd4, 0x1d090f, 0x5cc42, 0x350e6d, 0x520ba, 0x3511c8, 0x263b84, 0x12cb4b, 0x395148, 0x1557be, 0x1a47cb, 0x314464]⟩,
   ⟨[0x43f2f2, 0x194797, 0x164af2, 0x39d872, 0x104a3, 0x16929a, 0x282c81, 0x5f9c2c, 0x2a5d4b, 0x3192b8, 0x2e15cb, 0x4f6e26, 0x1dbe42, 0x11c09d, 0x36f64f, 0x4483fb, 0x60cce, 0x3148c2, 0x1ee90a, 0x3e6042, 0x2e64b1, 0x2c44f1, 0x2f2b60], [0x5dc792, 0x397cad, 0x18311a, 0xdb83d, 0x3a7fe0, 0x36e2b7, 0x208a0b, 0x725417, 0x55265, 0x28a5c2, 0x2d7738, 0x8626d, 0x267142, 0x335a17, 0x3e2e6a, 0x23c202, 0x1cec16, 0x7c3ca, 0x26178f, 0x7af6b1, 0x3ec4b0, 0xa5c59, 0x5cc1b]⟩,
   ⟨[0x6d6ce3, 0x3cddfa, 0x3536db, 0x3afd9f, 0x97b34, 0x5ecd4, 0x34aa4d, 0x3b05fc, 0x9bbad, 0x3fdcee, 0x33d997, 0x3c160, 0x3b6d37, 0x315c67, 0x2362f6, 0x1a9401, 0x14e9ad, 0x33da3e, 0x1bcd3c, 0x2d9f1b, 0x30dd6a, 0x3ec5e7, 0x308176], [0x3069bb, 0x21c759, 0x15a982, 0x433f9, 0xf0415, 0x19193b, 0xcb74a, 0x550a79, 0x2d6049, 0x207daa, 0x496f6, 0x492eb6, 0x3490bf, 0x3d7e1a, 0x29d71a, 0x1a99c6, 0x3442ec, 0x1fe876, 0x307a44, 0x5b4a4f, 0xdc29c, 0x38c4ef, 0x2e915d]⟩,
   ⟨[0xbeb8c, 0x61a56, 0xd8268, 0x421e9b, 0x1ad305, 0x2c0c54, 0x2b4a5f, 0x3df358, 0x1523f3, 0x28b368, 0x276fd0, 0x442093, 0x817d3, 0x2ae36b, 0x3c22de, 0x58669c, 0xd7f6c, 0x279a1a, 0xd107c, 0x21de92, 0x246cc9, 0x34b4a4, 0xefaca], [0x694eec, 0x3c5044, 0x16ecb7, 0x412a48, 0x17e21d, 0x1c1e82, 0x2ba6cd, 0x1cf647, 0x306f34, 0x146470, 0x196674, 0x1418a3, 0x2cfe68, 0x26b0a5, 0x747e1, 0x76e, 0x2c52fe, 0x381158, 0x3cb4bd, 0xe909b, 0x9f542, 0xcb347, 0x16d579]⟩,
   ⟨[0x69d866, 0x27d233, 0x35a8f4, 0x6bc550, 0x18da15, 0x30ce9e, 0x15d2e1, 0x5388cb, 0x32ac42, 0x1edfa9, 0x41adc, 0x232d9, 0x278158, 0x3b9c91, 0x1dd2a0, 0x33f780, 0x3e5c50, 0x75cf3, 0x15e7c2, 0x440ada, 0x16d15d, 0x586c1, 0x2a016c], [0x4ae04a, 0x3e7bc9, 0x96110, 0x66932, 0x1b3038, 0x1a7311, 0x2f1aef, 0x68ea21, 0x95e5d, 0x9883b, 0x33990, 0x24c0b3, 0x29a84d, 0x5eba4, 0x311e64, 0x13feae, 0x8156b, 0x2f4ee6, 0xdf329, 0x1ae70a, 0x2847dd, 0x18e0d7, 0x2bd42e]⟩,
   ⟨[0xb9710, 0x1f475f, 0x999f5, 0x32b55c, 0x2e7c12, 0x264ced, 0x94f0a, 0x5a4e16, 0xbeca0, 0x349b97, 0x3ce972, 0x2b59d3, 0x2f203f, 0xf211f, 0x3b07f1, 0x786c83, 0x1d952, 0x2b793e, 0x33c2b1, 0x5e8a36, 0x36e5e2, 0x156a46, 0x362c8f], [0x317544, 0xaec08, 0x3109ac, 0x4ec46a, 0x214545, 0x338b7b, 0x16c802, 0x4e4271, 0x3a07d9, 0x19d25, 0x198775, 0x49a8c4, 0x215656, 0x9570a, 0x4bcc8, 0x6ed97e, 0x3721b2, 0x1ab6c7, 0x219edf, 0x4291b1, 0x21788d, 0x3ca653, 0x2c51f0]⟩,
   ⟨[0x549a73, 0x1585e0, 0x1219af, 0x278b73, 0xab916, 0x3fb445, 0x3fc327, 0x487904, 0x8835a, 0x13ebdd, 0x2b6722, 0x5f61f3, 0x33c0b6, 0x387e43, 0xdc4ff, 0x220aa8, 0x2411bd, 0x2d9844, 0x3bd35d, 0x878bc, 0x1548f6, 0x3f932e, 0x189eaf], [0x243bbc, 0x80398, 0x10a82f, 0x6ab89b, 0x21339, 0x291fc3, 0x145ba0, 0x5378d0, 0x15b299, 0x57581, 0x2112c0, 0x642c8e, 0x3981d5, 0x20f113, 0x354642, 0x7c7721, 0xcedda, 0x220c78, 0xfa861, 0x4b62aa, 0xc4398, 0x1a528a, 0x1fa9c0]⟩,
   ⟨[0x213fa6, 0x303120, 0x2ab912, 0x604140, 0x25c250, 0x3c2a6c, 0x322291, 0x13477e, 0x1f06c8, 0x3b3f6a, 0x283a23, 0x38b2d8, 0x29dd45, 0x2ebaa8, 0x1b3724, 0x678e35, 0x96d14, 0x27b787, 0x7aa23, 0x25f092, 0x2170f1, 0x1bc371, 0x3aed1a], [0x425b32, 0x286aa0, 0x23581, 0x6ee73f, 0x1e5a3b, 0x30d82f, 0x2d1ca8, 0x6a5ff6, 0x1470f9, 0x161816, 0x2350cb, 0x113d17, 0x3f9a5e, 0x3c7c27, 0x276ea7, 0xcc5e8, 0x3022f0, 0x293e6c, 0x1948b1, 0x43775, 0x3051db, 0x3d4e8f, 0x16ead0]⟩],
  [⟨[0xe7229, 0x1a6628, 0x3c1b89, 0x1def3a, 0x5f8ab, 0x178896, 0x120d1f, 0x35812, 0x2204c7, 0x25b252, 0x2627d9, 0x295a6a, 0x64f84, 0x2dd46e, 0x18c55b, 0x76ac5a, 0x24becb, 0xd610a, 0x3cf93d, 0x25ba10, 0x1d8ff, 0x111dc7, 0x1ba971], [0x79874, 0x2a9bc0, 0xae07a, 0x2b976d, 0x37698a, 0x1efd5d, 0x355fbe, 0xfc35f, 0x3a64a2, 0x37be03, 0x2e85b5, 0x1d3118, 0x27921a, 0xc7471, 0x2bcab5, 0x33ab97, 0x1c915, 0x19a901, 0x1d2e71, 0x2a197e, 0x115a8d, 0x24bf73, 0x3cc85]⟩,
   ⟨[0x2895b2, 0x320735, 0xcfb47, 0x3db761, 0x24c433, 0x13e23c, 0x2bf3df, 0x50a160, 0xed8df, 0x23dc8, 0x22ada6, 0x55a62f, 0x118219, 0x55fc7, 0x16fc9a, 0x19cdac, 0x1f6533, 0x39def8, 0x365eb0, 0x1de6a4, 0x2ec097, 0x14aba8, 0x3b186e], [0x76f84f, 0xa6360, 0x389afc, 0x7f347c, 0x10f3a6, 0x20172f, 0x2456c5, 0x74d6fd, 0x3ebc5a, 0x15702d, 0x2c322d, 0x62ec4a, 0x1c6321, 0x1ecee0, 0xc4dcd, 0x385f54, 0x15a2f6, 0x3ea398, 0x154a9e, 0x35549d, 0x2902a3, 0xe87d8, 0x2197a4]⟩,
   ⟨[0xe5e61, 0x4d26c, 0x6e668, 0x1b95, 0x22ceb8, 0x2ad340, 0x178fff, 0x68e92d, 0x1ce560, 0x314785, 0x3c340c, 0xe0359, 0x12093f, 0x126d05, 0x1a73f, 0x6aadbb, 0x2d01ce, 0x1e4c4c, 0x19b1e1, 0x1e252e, 0x27c32f, 0x27f7c8, 0x274554], [0x47c011, 0x16ac83, 0x1c5fd0, 0x2b42de, 0x108c9b, 0x3e5c82, 0x1f47c2, 0x67643d, 0x253b0c, 0x3b23f4, 0x285e6a, 0x127f, 0x1afedd, 0x1639c8, 0x35c65d, 0x3890f9, 0x26d0ad, 0x24695d, 0x33ff31, 0x166142, 0x32ebdf, 0xd509e, 0x190de4]⟩,
   ⟨[0x5e3f2e, 0x10c08c, 0x10e26f, 0x25a315, 0x9e64f, 0x2605, 0x3601e3, 0x634d76, 0x3bfcd4, 0x123253, 0x1d94e0, 0x3e9f61, 0x25a1e6, 0x75853, 0x1ec114, 0x470547, 0x3e437a, 0x19ed05, 0x61623, 0x38d391, 0x31ccde, 0x3374b4, 0x7c7b9], [0x512f62, 0x2e17fe, 0x36cb08, 0x1bdb9e, 0x394d71, 0x2a7ef7, 0x2e6818, 0x5f5a88, 0x311e36, 0x2a6bb1, 0x19cd43, 0x45542f, 0x2b8cea, 0xfa346, 0x2e1a7a, 0xbd16f, 0x245c8d, 0x314f13, 0xffbe8, 0x56b54a, 0x382922, 0x35f251, 0x3aceb3]⟩,
   ⟨[0x3e11b5, 0x2716b, 0x2750e4, 0x3740a5, 0x338906, 0x13b5f0, 0x27cfae, 0x4aa6d3, 0x39e3b9, 0x2d1b9f, 0x35d9, 0x1e459b, 0xcf781, 0x20167f, 0x1bb777, 0x38ba4c, 0x28f2e3, 0x37d8d5, 0x1ecf87, 0x4e758a, 0x2aa667, 0x2e97a6, 0x352507], [0x283bbd, 0x263775, 0xc63c9, 0x1ee4, 0x3acbbf, 0x162a58, 0x7b4fe, 0x351728, 0x1973f1, 0x2770e0, 0x3116fa, 0x46ebbd, 0x2c2896, 0x36e872, 0x13137c, 0x2f444f, 0x3b3375, 0x3c6ab, 0xfcbe7, 0x6d9063, 0x20e15a, 0xd5454, 0x37bdb0]⟩,
   ⟨[0x439e00, 0x1e43d1, 0x3de476, 0x148953, 0x25c9e8, 0x1b6d92, 0xaa405, 0x40cb85, 0x310a15, 0x3d0034, 0x1acfb7, 0x171502, 0x34b2c2, 0x27fb5d, 0x3b0085, 0x344898, 0x3ca33c, 0x1baf56, 0x21b32, 0x448603, 0x91ba6, 0xbafc4, 0x13d5a4], [0x780d50, 0x4d808, 0x2f1f9d, 0x6e9b4e, 0x1edd73, 0xa2602, 0x32564d, 0xa5962, 0x2d65f0, 0x1ff6e8, 0x263de7, 0x28b02d, 0xe0a8d, 0x2ae55e, 0x2eaa0b, 0x508b9c, 0x2ca2cc, 0x39b8a4, 0xcf2d9, 0x2b0c05, 0x36c4c9, 0x115406, 0x3a4458]⟩,
   ⟨[0x1a9fef, 0x17c5b8, 0x14f927, 0x33e7ca, 0x1de04b, 0x21489f, 0x3223e7, 0x7f4816, 0x16233a, 0xe408a, 0x25911c, 0x6cfeef, 0x162d98, 0x1fb3b2, 0xcafe2, 0x140c69, 0x373513, 0x5efaf, 0x318c8d, 0x1ed26d, 0x23e013, 0xe235e, 0x2d6fb0], [0x4d9693, 0x18038f, 0x1cf661, 0x2f57eb, 0x1e346f, 0x30f7b0, 0x1dd4f8, 0x2d4964, 0x3d7230, 0xfa730, 0x1d142c, 0x2276ea, 0x1ba178, 0x1466bf, 0xbf8c5, 0x40d605, 0x2d85ab, 0x1f11d4, 0x16c7d7, 0xaa5d0, 0x359550, 0x29a075, 0x122ca4]⟩,
   ⟨[0x72b845, 0x1bee64, 0x30577d, 0x6baf51, 0x24885d, 0x2ba5b1, 0x236704, 0x346dc, 0x2a639e, 0x3af226, 0x2ea89e, 0x26af84, 0x4d4c, 0x3640e, 0x1d8986, 0xe2826, 0xd1018, 0x2cb972, 0x9688a, 0x489a0, 0x2e4f56, 0x3dd33c, 0x3609ba], [0x1692af, 0x2c1f96, 0x3792d8, 0x69079, 0x16ed4a, 0x3b5304, 0xfa6cc, 0x18593e, 0xc409, 0x4e36e, 0x3e4b0, 0x18a207, 0x146bf4, 0x1cbda5, 0x11b878, 0x62a10e, 0x2d181, 0x1d3599, 0x185943, 0x609ab4, 0x2218d4, 0x3653f8, 0x19f9fd]⟩,
   ⟨[0x2ed6c7, 0x3c5236, 0x186569, 0x428772, 0x3a69e3, 0x87bf9, 0x3e9e5f, 0x3ae8b4, 0x3504f3, 0xa8276, 0x3c584f, 0x69143d, 0x2c8325, 0xffe9f, 0x191129, 0x319b36, 0x115e02, 0x16e07a, 0x2fa414, 0x14619e, 0x12cd22, 0x2d0e0d, 0x125784], [0x642a65, 0x203d55, 0x16c315, 0x3cf7a9, 0x3071de, 0x106dae, 0xb2c7d, 0x47ba31, 0x2ca388, 0x29fbfc, 0x390eac, 0x57cd61, 0x21cf36, 0x34a05c, 0x8b13, 0x793db5, 0x17e8e7, 0x35d12f, 0x3d6716, 0x4c990f, 0x3b6448, 0xa7f2c, 0x25b5c5]⟩,
   ⟨[0x5e98d9, 0x26dfa6, 0x864c2, 0x2e69df, 0x364c2c, 0xd5fd3, 0x1356ce, 0x454a4c, 0x3b0302, 0x16d23c, 0xb4aaa, 0x57f380, 0x7cfac, 0x27103b, 0xcaa2b, 0x5b3bde, 0xd252e, 0x2fc387, 0x1b39e0, 0x3c0113, 0x9ada1, 0x2d5182, 0x29b37], [0x3b5c86, 0x2985b6, 0x193f46, 0x7d3ff4, 0x17ea07, 0x3167a4, 0x28ecd5, 0x102560, 0x14d8cd, 0x9d70a, 0x36c65b, 0x77810c, 0x38b843, 0xaaa4f, 0x423cc, 0x609b5a, 0xb047d, 0x32fcf2, 0x341089, 0x2f82ca, 0x12d7a7, 0x2d3f89, 0x189dd5]⟩,
   ⟨[0x66582f, 0x257453, 0x210314, 0x62a225, 0x165c3b, 0x2e6592, 0x2f1436, 0x5ee3f8, 0x7f555, 0x20f441, 0x34ed55, 0x308313, 0x34a8df, 0x19301d, 0x173fdb, 0x144214, 0x19892a, 0x27897a, 0x21a061, 0x7d24b8, 0x37f3b1, 0x248cc2, 0x373db3], [0xbf27a, 0x39d46b, 0x1ad6fe, 0x475ac8, 0x63b06, 0x233fd2, 0x35c0af, 0x6c6594, 0x2f3cd2, 0x15df1b, 0x2df565, 0x22d72e, 0x4b112, 0x22c9b, 0x217d30, 0x586404, 0x175c8a, 0x3cd70e, 0x3f9d96, 0x7351b7, 0x328f89, 0x339645, 0x147d37]⟩,
   ⟨[0x6acc7, 0x17f7bc, 0x43bce, 0x259c1d, 0x2cdb37, 0x7238c, 0x375e6f, 0x22971, 0x1b4942, 0x3e301a, 0x389e0c, 0x14070b, 0x29defc, 0x2ddac4, 0x236616, 0xa23a, 0x3ba71b, 0x230957, 0x2229eb, 0x73c8f9, 0x25df6a, 0x2badcb, 0xf1344], [0x1bee3f, 0x1fa015, 0xcfe6e, 0x6fb0f7, 0x3c54f5, 0x3503d8, 0xb28fc, 0x1f5c0, 0x104298, 0x3af43a, 0x3a5408, 0x18dac0, 0x32ee35, 0x31c65f, 0xb31f5, 0x18b829, 0x133fd, 0x280cf1, 0x206df2, 0x9d76f, 0x1dc987, 0x365635, 0x14e280]⟩,
   ⟨[0x52a016, 0x6f577, 0x1c0241, 0x5e5024, 0xda944, 0x855a1, 0x2a89f3, 0xe86b5, 0xcef59, 0x3e508e, 0x384b7e, 0x32aaa5, 0x18ff8f, 0x2cd18e, 0x40821, 0x189644, 0x2deb40, 0x132c27, 0xb3030, 0x54a603, 0x6bbed, 0x31d103, 0x2f003f], [0x1e656d, 0x2ff583, 0x12a61f, 0x346dbe, 0x2a6fb1, 0x11fd3b, 0x1276c, 0x6148c0, 0x16501, 0xc96d4, 0x3db630, 0x492c8d, 0x57fde, 0xcf96c, 0x164ca, 0x4fcb96, 0x385504, 0x3e5188, 0x286382, 0x41e093, 0x2dab5, 0x10bb0f, 0x784c]⟩,
   ⟨[0x75746d, 0x3f9d7d, 0x2d54d0, 0xca2ba, 0x34e004, 0x145edc, 0x24946a, 0x2b2267, 0x29d5d7, 0x1bd561, 0x40ff1, 0x7a8818, 0x347ca, 0x368968, 0x3dfbfd, 0x45e779, 0x28cb15, 0x6fe47, 0x2ae3ad, 0xc1917, 0x1a6e74, 0xc0aaf, 0x1ead78], [0x13957a, 0xb13a3, 0x2fc29d, 0x318258, 0x316af, 0x159186, 0x2f9ace, 0x2617a1, 0x2da110, 0x24827f, 0x14b7e3, 0x5a1108, 0x2ad5ab, 0x1f8cd8, 0x280cbb, 0xf3352, 0x21699d, 0x3d79ed, 0xf2342, 0xa46df, 0x765c5, 0x1562aa, 0x1933be]⟩,
   ⟨[0x771dc4, 0x105963, 0x13309e, 0x2d5f9c, 0x3816e4, 0x183fd1, 0x24cc65, 0x4c32c8, 0x23344, 0x127581, 0x170a08, 0x3e271b, 0x376c4a, 0x378fa8, 0x38bd67, 0x6dd9f1, 0x13cb77, 0x110a9a, 0x11b015, 0x3ab2f7, 0x203c14, 0x37d1d9, 0x17f513], [0x383dc1, 0x32b2dc, 0x3f0168, 0x279081, 0x1e4f82, 0x183a42, 0xbfb80, 0x5a12c9, 0x186fcd, 0x2e7365, 0x26cdde, 0x7856a6, 0x241080, 0xbb921, 0x3e1a85, 0x62d604, 0xbb5d8, 0x26b482, 0x19f5d5, 0x28f3dc, 0x143feb, 0x3e5ada, 0x253def]⟩,
   ⟨[0x6ba123, 0xa781d, 0xb7d51, 0x740f38, 0x2940f6, 0x157c6f, 0x3e02ce, 0x7207c6, 0x1b64bc, 0x372f37, 0x3a87cb, 0x2d7712, 0x1b97d4, 0x391cb2, 0x3ab655, 0x2e6f, 0x2c7d2f, 0x2aa52f, 0x32378f, 0x72d63d, 0x38fa33, 0x3c9db3, 0x8013d], [0x2066c, 0x35dfef, 0x1bc43f, 0x29fb46, 0x13f28b, 0x2a9e1c, 0x316ce9, 0x2537f0, 0x2f07ac, 0x37b3fa, 0xbb76b, 0x49349e, 0x330713, 0x2755e1, 0x2928a9, 0x636d8a, 0x36549d, 0x119414, 0x2cf725, 0x37181e, 0x1a2bc, 0x19da46, 0x3b690a]⟩],
  [⟨[0x32a280, 0x1cb2cc, 0xf9796, 0x7d75, 0x1af2eb, 0x3c758a, 0x3a6728, 0x43b3e9, 0x188ce5, 0x29d0a4, 0x113a0, 0x22343f, 0x890d8, 0x12176a, 0x2971b0, 0x785a55, 0x1c0b7, 0x273262, 0x2d06d6, 0x6c271, 0x1e07ea, 0x3a1542, 0x26c181], [0x414498, 0x14cb47, 0xffca6, 0x2d51cc, 0x8d4, 0x244ea0, 0x2f062c, 0x336a8, 0x150722, 0x19f588, 0xcb860, 0x604bc3, 0x8902b, 0x3d5adc, 0x88d53, 0xa2728, 0x3852c8, 0x1ce562, 0x3d7474, 0xe17f9, 0xadbde, 0x2f321, 0x2b5370]⟩,
   ⟨[0x720956, 0x12fe7d, 0x3a4010, 0x5e1f1, 0x2fcf68, 0x1ca0d, 0x1f9a09, 0x476576, 0x1bbe6f, 0x157a43, 0x41b45, 0x69b21a, 0x11a874, 0x237329, 0x10abf2, 0x4a1bcf, 0x248b43, 0x39b567, 0x162490, 0x2f2bdb, 0x296c0c, 0xa4fee, 0x4ad98], [0x4454eb, 0x2c8099, 0x10e84d, 0x2e2241, 0x3207ca, 0xf5910, 0x3f04f, 0x392613, 0xade9f, 0x3dbd57, 0x30b86d, 0x9cc16, 0xa209a, 0x3c2afa, 0x35e76, 0x5f940a, 0x2b2161, 0xc7d9d, 0x363b77, 0x77a201, 0x399b44, 0x8e94d, 0x8286]⟩,
   ⟨[0x2b92bc, 0x6153e, 0xf8c6, 0x5f1b6c, 0x3ba49, 0x1a925e, 0xf9bba, 0x55f92, 0x2fbd92, 0x2177a5, 0x3fb8f5, 0x5d4bf2, 0x2146d4, 0x36976b, 0x22b1ba, 0x32f949, 0x965fd, 0x1e9f3e, 0x2da23b, 0x107070, 0x398a1e, 0x69bfe, 0x2fddc0], [0x72b741, 0x3d395c, 0x3a9b25, 0x294646, 0x21148, 0x15da45, 0x113c40, 0x419e05, 0x3f3b62, 0x1f8475, 0x6ee22, 0x66bc79, 0x8b7cc, 0x23931, 0x167fa8, 0x3bd93e, 0x39ee3d, 0x1dfeea, 0x1fdcfe, 0x613db2, 0x160b1f, 0x1970fe, 0x23b0dd]⟩,
   ⟨[0x23c1ba, 0x2e5121, 0x2c52e9, 0x7811e3, 0x1a384, 0x2eabe1, 0x24fbc8, 0x45d98f, 0x1c8207, 0x33da7a, 0x30b201, 0x23dfb3, 0x14cd7a, 0xb9a13, 0x29ed72, 0x3fdd61, 0x2faedb, 0x16fda9, 0x6a7e0, 0x3cce59, 0x59683, 0x34b4b3, 0x344f10], [0x64f192, 0x121a7b, 0x1023d3, 0x4802fa, 0xc0c74, 0x3436b0, 0x28f327, 0x104d43, 0xb6d47, 0x3d9f11, 0x38a86e, 0x24b31c, 0xd71f6, 0x1075b, 0x131e0b, 0x6451d8, 0x23646d, 0x185996, 0x143b48, 0x76f1c1, 0xe8da3, 0x2eb768, 0x3fbf6f]⟩,
   ⟨[0x4d2204, 0x2a5ea9, 0x19369, 0x70cd74, 0x1a76b1, 0x3815c4, 0x2e68f7, 0x5398a8, 0x20ab8f, 0x185d53, 0x168c1d, 0x274e1a, 0x524f2, 0x3d9b1a, 0x12e5ab, 0x4c1050, 0x32abc0, 0x25971d, 0x3ac08f, 0x2f1afc, 0x1407b9, 0x277b2e, 0x1b1f71], [0xd2e98, 0x30b33b, 0x3037e7, 0x425f13, 0x2ebdc3, 0x1d9be6, 0x111cd4, 0x7d7418, 0x1f1c08, 0x27b843, 0x2d41e6, 0x4d0fdd, 0x162312, 0xa0eb8, 0x4819a, 0x1e097b, 0xa336, 0xc49b4, 0x1f6549, 0x65532d, 0x175c84, 0x8b3cf, 0x1d68d8]⟩,
   ⟨[0x7e2ef2, 0xcb9a8, 0x968e6, 0x367210, 0x79ea4, 0x115bce, 0x2f228c, 0x7be5bf, 0x3c8a27, 0xc8607, 0x319827, 0x6bf356, 0x222bca, 0x2d52ec, 0x1634c9, 0x422bb5, 0x20b569, 0x2745c9, 0x2547e2, 0x692cc6, 0x366369, 0xc2f45, 0x2dcb38], [0x432e57, 0x3bce51, 0x2f50a1, 0x10e21, 0xb5704, 0x3603ec, 0x3dc6b0, 0x1d3c66, 0x3e876a, 0x1d2475, 0x3d0cfe, 0x752fd6, 0x1389ee, 0x2682a3, 0x6de0, 0x466661, 0x25ca0b, 0x3a47de, 0x1dbddd, 0x584c8d, 0x97729, 0x3a3d36, 0x26d79a]⟩,
   ⟨[0x46dc32, 0x39e30e, 0x1a553f, 0x631635, 0x137523, 0x11f122, 0x2887f, 0x39c6a2, 0x3d3f52, 0xe5c16, 0x1b4338, 0x1104ad, 0x26ad2e, 0xc1be9, 0x82a2, 0x36d7b0, 0x3e62e1, 0x2ac82d, 0x354eee, 0x1b7162, 0x2f1507, 0x64946, 0x2b777f], [0x755cf4, 0x2f3f9d, 0x27fbe0, 0x250d1c, 0x3ad66c, 0x220a36, 0x324dd9, 0xfd4e3, 0x2fb653, 0x1407e0, 0x7bd23, 0x1bca1b, 0x23529d, 0x512e2, 0x322089, 0x52fb0b, 0x159218, 0xa2629, 0x1ecc37, 0xd691d, 0x1cdc35, 0x25dece, 0x8b229]⟩,
   ⟨[0x42a2e, 0x2becd, 0xce644, 0x7eb2c8, 0xcdb86, 0x38243c, 0x13980f, 0x7db14b, 0x3af52f, 0x34d34e, 0x328903, 0x12e910, 0x2f165c, 0x1f951b, 0x3dcc69, 0x6a2790, 0x1419b1, 0x3cd6d6, 0xa88dc, 0x65e513, 0x38eab, 0xda64e, 0x1e4802], [0x411e28, 0x38a31b, 0xea13f, 0x692375, 0x3972e4, 0x3c7618, 0x30675c, 0x471a7, 0x1eaa31, 0x332b8, 0xba219, 0x5949f6, 0x721e9, 0xb0539, 0x351bfd, 0x6af8c8, 0x1749b7, 0x1b4221, 0x346e9f, 0x1d138c, 0x315c0e, 0x3ae1bd, 0x1e5845]⟩,
   ⟨[0x73dd11, 0x38d066, 0x3b6e1e, 0x58d879, 0x3fc188, 0x26ea01, 0x3a5e72, 0x3eae27, 0x17ec7b, 0x21435a, 0x30a0ef, 0x226f77, 0x319511, 0xeecc9, 0x184fb1, 0x485367, 0x12dbce, 0x296d94, 0x1ecef1, 0x48a6ef, 0xc1378, 0x486f3, 0x294cb6], [0x659e15, 0x21afe5, 0x35b7d, 0x14905a, 0x190940, 0x28a11c, 0x3c2ec5, 0x61d9ff, 0x3c91f9, 0xc24f9, 0x21d20c, 0x69147f, 0x2c2485, 0x1f02a6, 0x1e436b, 0x70b5ec, 0x3c8887, 0x479c4, 0x329212, 0x23848, 0xfd9d8, 0x1ca129, 0x2842cb]⟩,
   ⟨[0x7b92f5, 0x37a067, 0x74af, 0x5b2f28, 0xcbf5f, 0x77719, 0x15f2e0, 0x16a3e7, 0x1ceb10, 0x22f6c6, 0x3d1fa9, 0x4cd931, 0x1d7522, 0x1781a9, 0x3443ce, 0x6fa88b, 0x1564ba, 0x110d1f, 0x12896b, 0xb6064, 0x253009, 0x7c604, 0x3e79c8], [0x22eac3, 0x1d3cbb, 0x1660eb, 0x530d25, 0x1ddd46, 0x38675b, 0x270fcb, 0x70d781, 0x36db98, 0x10e11b, 0x19ca07, 0x4b0308, 0x3e92e0, 0x39f79, 0x2fad1d, 0x17b8fe, 0x1c8122, 0x13fae1, 0x95301, 0x3b1103, 0x31a89, 0x1447c4, 0x9d34f]⟩,
   ⟨[0x7c8a6b, 0x2a2fe8, 0x35e593, 0x4e1d4d, 0x15a0b8, 0x20842d, 0x18d50d, 0x1081d4, 0x126a85, 0x5e191, 0x1bef59, 0x5aa8b6, 0x3a3a60, 0xabf90, 0x6196e, 0x150e95, 0xcb2dc, 0xddcd3, 0x3e2a72, 0x582eab, 0x35f095, 0x10e8b9, 0x2f9603], [0x381ed7, 0x655d9, 0x270a8e, 0x48245, 0x309cd3, 0x17ed44, 0x1d450e, 0x312ba, 0x5985d, 0x358c0c, 0x2a7087, 0x72f6c5, 0x198d4b, 0x266da7, 0x30d13d, 0x164faf, 0x1b3d2a, 0x54328, 0x297c8d, 0x24974d, 0xc4c24, 0x233778, 0xa3c4f]⟩,
   ⟨[0x19eece, 0x162127, 0x1040af, 0x1c475e, 0x239506, 0x9af50, 0x1c9807, 0x3fa8cc, 0x3128f6, 0x45734, 0x1442ac, 0x47e27e, 0x3215cf, 0x140684, 0x23566d, 0x62ea4e, 0x26b67a, 0x295af8, 0x6e548, 0x40f0f6, 0x3fa25a, 0x3841b6, 0x34374f], [0x11dbc4, 0x1ee6db, 0x351c56, 0x3d4083, 0x1009d6, 0x3e9349, 0x10a11, 0x382d27, 0x3d7132, 0x1999fc, 0x3911d4, 0x45d805, 0x1b235, 0x258644, 0x1b1da8, 0x7d367d, 0x2106b2, 0x96b2d, 0x1a078d, 0x7ce535, 0x3c6bb8, 0x21fc86, 0x388e7f]⟩,
   ⟨[0x3c849a, 0x339da9, 0x1b56c, 0x18b48f, 0x36b241, 0x1c3e99, 0x1dc79f, 0x6e4794, 0x14ad70, 0x20af6f, 0x286589, 0xaa9b, 0x287b90, 0x36d3ba, 0x2cb788, 0x36daf5, 0xda427, 0x3cd59, 0x26b18, 0x2da542, 0x10aef9, 0x3ea11a, 0x3453b3], [0x1d0091, 0x20390c, 0x2d251a, 0x43effa, 0x284188, 0x326c4e, 0x1965d5, 0x52e6ee, 0x616f, 0x2561a4, 0x3ad411, 0x36d206, 0xe1bd3, 0x1392b2, 0x2a8475, 0x66efa5, 0x37e866, 0x1bbd62, 0x1d1550, 0x32e625, 0x302306, 0x1e0dda, 0x1cf60c]⟩,
   ⟨[0x23f415, 0x34d9cf, 0x24e53d, 0x875af, 0x52504, 0x3fd275, 0x30c106, 0x6f3f46, 0xb6725, 0x1db8d9, 0x28e8f0, 0x172728, 0x28da5a, 0x32e926, 0x2d0a85, 0x530d4, 0x35dc87, 0x2d07d2, 0x3f882e, 0x5c838f, 0x26f2bf, 0x3eee58, 0x71443], [0x2cb0ff, 0x3e64ea, 0x18edb8, 0x3b4182, 0x1fc937, 0x2aafb7, 0x2ea0f1, 0x49d653, 0xf4a39, 0xb926e, 0x10ca2f, 0x2208c8, 0x39de49, 0x161ed, 0x7eafc, 0x514fed, 0x39404, 0x18883a, 0x23262, 0x16e9c1, 0x3c573a, 0x2fb6fd, 0x386202]⟩,
   ⟨[0x5d99db, 0x1d29, 0xaf82d, 0x444767, 0x15c5e2, 0x2a81b3, 0x24a5ef, 0x6f6af5, 0x1ebbcb, 0x305276, 0x1a7f7a, 0x6b1587, 0x10bc41, 0x233733, 0x15633f, 0x6476a7, 0x104f63, 0x1f393b, 0x255507, 0x708297, 0xdb54c, 0x1a8a1d, 0x1a9756], [0x33896f, 0x11688, 0x1fbda0, 0x2d7b5b, 0x345043, 0x409dd, 0x23a47b, 0x18ce42, 0x5c57, 0x10e46c, 0x16395d, 0x29a5e5, 0x63854, 0x2f12a1, 0x13e1b, 0x407727, 0x1eeaac, 0x39d044, 0x23c5c8, 0x3bb777, 0x206b48, 0x20cd62, 0x2c7de1]⟩,
   ⟨[0x431425, 0x3e66af, 0x39aa06, 0x61f4d9, 0x1789c9, 0x2ecaac, 0x3f0c7, 0x19c0fc, 0x131e10, 0x1fdec5, 0x375c20, 0x38cda3, 0x19fa41, 0x339e14, 0x2c2643, 0x60e1eb, 0x1f88c5, 0x2c520c, 0xed4a1, 0x9b12c, 0x3385e8, 0x7cec0, 0x25145a], [0xc4bbc, 0x1ca76e, 0x53791, 0x71b24b, 0x2aee0e, 0x3d38bc, 0x14df23, 0x714100, 0x2621b3, 0x3ea6e9, 0x3351fd, 0x2f67a6, 0x3dd342, 0x2b6916, 0x18e95c, 0x4f0ef0, 0x63803, 0x31c884, 0x29f497, 0x76fcd3, 0x8e8de, 0x375097, 0x34bf55]⟩],
  [⟨[0x101002, 0x3e5e72, 0x8b02e, 0x50fb59, 0x18ab92, 0x3ee716, 0x97228, 0x49bdb3, 0x3af4f6, 0x3ec3f2, 0xa2168, 0x2e9535, 0x1b90e4, 0x2ba88c, 0x326e95, 0x3feb7e, 0x2017bc, 0xd0eee, 0x14761f, 0x47526e, 0x180227, 0x611b5, 0x35bcc9], [0x65bb6c, 0x254eb1, 0x213662, 0xc625d, 0x291ef8, 0x123964, 0x3c6a2d, 0x3ceff9, 0x263687, 0x11917b, 0xe22cf, 0x2846f8, 0x34ae34, 0x1ea233, 0x1ea70a, 0x1c002f, 0x8295d, 0x358f85, 0x1292a5, 0x6ff9ad, 0x6c51d, 0x10c570, 0x3f9016]⟩,
   ⟨[0x520c83, 0x11b38f, 0x3659fa, 0x4b70a4, 0x2d7d78, 0x317e0c, 0x2bcc8a, 0x170479, 0x3049c8, 0x35330f, 0x292cac, 0x659c79, 0x953da, 0x2839ac, 0xeec75, 0x34fe7a, 0x3da567, 0x3e416c, 0x7ad5, 0x787665, 0x23f8ac, 0x22688f, 0x2f4735], [0x48fdb2, 0x1ec71c, 0x3d8930, 0x650536, 0x22a057, 0x34d941, 0x33da64, 0x2d8af7, 0x15a74d, 0x2ee4d, 0x20f500, 0x50ade, 0x21dce1, 0x6cc2, 0x4af7, 0x385379, 0x14d7fd, 0x35f5dc, 0x2ce71c, 0x4f1273, 0x235af5, 0x73649, 0x1c5b77]⟩,
   ⟨[0x2d1d21, 0x3d3afa, 0x3484fe, 0x3b8aef, 0x28e325, 0x180681, 0x8d952, 0x4222b, 0x2ec06c, 0x196929, 0x3f38c, 0x4a5049, 0xd9b6d, 0x1c481b, 0x3a16ba, 0x7f7383, 0x16e539, 0x3cb657, 0xcb3e0, 0x17cb6e, 0x282b60, 0x168672, 0x21396d], [0x230b59, 0x2a3f7a, 0x2cedd4, 0x46b9e4, 0x10dafc, 0x30ed59, 0x34b350, 0x4c3909, 0xd0e93, 0x3a3458, 0x30157, 0x3e191d, 0x2a17a1, 0x1c795e, 0x19e14, 0x448635, 0x364727, 0x2b17db, 0x13693, 0x50f600, 0x13aded, 0x267b88, 0x12e874]⟩,
   ⟨[0x491237, 0xa3228, 0x6a16f, 0x2bcc52, 0x2a58b0, 0x223c2f, 0xecf49, 0x310d98, 0xe07c8, 0x27a178, 0x2f51c1, 0x1d757e, 0x3d1406, 0x3f45bf, 0x3c049a, 0x247f57, 0x1b4ea7, 0x2c3aa4, 0xc59a, 0x2c0bf5, 0x4e1ec, 0x3b5c4f, 0x2ed5bd], [0xda809, 0x3f3b14, 0x317876, 0x4fbbd1, 0x145987, 0x34043d, 0x4e8df, 0x40b9a8, 0x3fb500, 0x102180, 0x2ad5, 0x948b6, 0x24e856, 0x1346b2, 0x1224de, 0x780cfe, 0x3527a8, 0x15a63d, 0x350b6b, 0x19d0b1, 0x125f42, 0xc970b, 0x30d16c]⟩,
   ⟨[0x5b8dd0, 0x2efe9a, 0x2160b2, 0x6c25e9, 0x3648ee, 0xf0498, 0x2e36a5, 0x48709d, 0x3f3212, 0x32a4d7, 0x37ea02, 0x3554ef, 0x80afa, 0x9f4d8, 0xa370e, 0x74c856, 0x302b5c, 0xf4bed, 0x286a2a, 0x1b7967, 0x1ea28e, 0x5c511, 0x36a76a], [0x470560, 0x2a01f5, 0x571a, 0x49d849, 0x1ec4a9, 0x32b83b, 0x1a8df4, 0x495fb3, 0xbd33c, 0x857fc, 0x128475, 0x3b8705, 0x243166, 0x1bceba, 0x28f42f, 0x530ed6, 0x1d8a5c, 0x1fc74f, 0x2d4804, 0x367b6, 0x327af, 0x2863d0, 0x900e7]⟩,
   ⟨[0x780229, 0x1ef630, 0x510ed, 0x6460b5, 0xa8636, 0x358de6, 0x1eae5f, 0x54b5eb, 0x24ddd6, 0x3eddbf, 0x373b40, 0x26abac, 0x3a5597, 0x2be3a2, 0x167777, 0x45d31b, 0x32440d, 0x15429f, 0x3a681a, 0x1d0aa3, 0x36ba5b, 0x25ea57, 0x343f81], [0x13fcd6, 0x32b515, 0x205a39, 0x6417aa, 0x188962, 0x30f077, 0x30d896, 0x618839, 0x924ce, 0x313575, 0x2445e3, 0x4eeca, 0x2b4a7c, 0x9d939, 0x13dd92, 0x23a94b, 0x22a525, 0x2ec641, 0xf31a9, 0x1d3493, 0x3df626, 0x3c1521, 0xe392e]⟩,
   ⟨[0x66600b, 0x4fdf8, 0x7d4bd, 0x26b138, 0x2ea81d, 0x333ef4, 0x15a59c, 0x51b0c0, 0x35d122, 0x3da6c3, 0x3e2c86, 0x3cb4b4, 0x44b44, 0x3424de, 0x1d32e6, 0x2521d8, 0x3ccec2, 0x276f5, 0x220217, 0x8ba1, 0x321cb, 0x286e09, 0x4c3e0], [0x2b8d50, 0x2e3bc1, 0xf2753, 0x7fce93, 0x3ef16c, 0x35426b, 0x206746, 0x7fcfc3, 0x3c1d6c, 0x37f851, 0x14034b, 0x5c71b5, 0x2aa534, 0x3695a5, 0x1cc377, 0x4b40f1, 0x3b0dd3, 0x3cc25, 0x296bd9, 0x76050e, 0x30853c, 0x23cddf, 0x5051f]⟩,
   ⟨[0x1fac05, 0x38bf66, 0x106ae1, 0x5f6c39, 0x2bcfd1, 0x12c446, 0x2014b7, 0x22cdd4, 0x2c0e46, 0x68ba, 0x9b619, 0x112eba, 0x1134de, 0x382bd9, 0x38ab24, 0x3efc51, 0x125a98, 0x166ae1, 0x1204d8, 0x395f99, 0x22ec93, 0xc2334, 0xf0db3], [0x65fb58, 0x26949f, 0x284e96, 0xe9b6c, 0x3dccc0, 0x276266, 0x11c074, 0x6165b, 0x3618b9, 0xc1873, 0x210655, 0x68168f, 0x2a5321, 0x130fa1, 0x288227, 0x405d32, 0x2c76a2, 0x3544a1, 0x21ffee, 0x372d2b, 0x1a438e, 0x2f5590, 0x1bbd78]⟩,
   ⟨[0x324b7, 0x5a62f, 0x3f767b, 0x6e0320, 0xff7d, 0x1365d4, 0x34c36f, 0xac0f4, 0x37c47, 0x22a9d, 0x1c6bcf, 0xc25f1, 0x19449e, 0x272780, 0x107ba2, 0x3a5f5d, 0x10f210, 0x1a8365, 0xfa62a, 0xeefad, 0x80b72, 0x3abccf, 0x19b10], [0x76b572, 0x3d6f9e, 0xadec4, 0x516d49, 0x3e0bd1, 0x139e71, 0x339678, 0x6abdf0, 0x38e886, 0x2299ce, 0x367195, 0x43a05b, 0x361d28, 0x796d9, 0x373012, 0x1ec4d3, 0x1008a0, 0x2e74dd, 0x3c82f9, 0x4054a4, 0x32570c, 0x101897, 0x118c2d]⟩,
   ⟨[0x462f42, 0x57e48, 0x1278b3, 0x26cc97, 0x1e327a, 0x1598f9, 0x3def1b, 0x79209, 0x33f716, 0x3b919d, 0x3706f3, 0x399a35, 0x36c21d, 0x323df4, 0xa940e, 0xd518e, 0xd882e, 0x3c191a, 0x244fc8, 0x5c226, 0x509f7, 0xf698a, 0x7583], [0x7336dd, 0x2ae10e, 0x262eec, 0x40454e, 0x3352a6, 0x2a34de, 0x33bce4, 0x24fd39, 0x1319fb, 0x1ae5aa, 0x315d5b, 0x2c46be, 0x1df5a0, 0x2c4b31, 0x34a43a, 0x4d4dd6, 0x116d9, 0xe599a, 0x33b481, 0x72c084, 0x3602a6, 0xfa6a0, 0x193096]⟩,
   ⟨[0x1fa23e, 0x17dd44, 0x2b9851, 0x78d9bf, 0x300461, 0xe650f, 0x3235a, 0x1e10fd, 0x191997, 0x347e5b, 0xef26d, 0x722710, 0x91296, 0xdac3, 0x364c90, 0x153fd5, 0x386de4, 0x10d8c8, 0x1f9824, 0xadec8, 0x3f9d31, 0x22f161, 0xfb294], [0x7cfe80, 0x2929ef, 0x1e66b0, 0x3a9598, 0x40870, 0x110507, 0x2b8c7, 0x218fe2, 0x24a402, 0x82d52, 0x14daf9, 0x3244a6, 0x583bf, 0x215f1c, 0x35f85b, 0xde2b3, 0x4bc8f, 0xe7228, 0x2e9933, 0x7bdb8, 0x1f7f0f, 0x3332af, 0x156268]⟩,
   ⟨[0x2e3e7, 0x25fa60, 0x1fb4e6, 0x16c3c6, 0x247d0e, 0x2d8d5e, 0x6a675, 0x149dd3, 0x14833c, 0x2071d1, 0x267269, 0x5e8399, 0x15d1bf, 0x2573db, 0xe94c4, 0x53f0cb, 0xe6c01, 0x2c9873, 0x3e40e, 0x2dc625, 0xee009, 0x37b3c1, 0x314d3b], [0x12f52a, 0x212a59, 0x39a45c, 0x237a1, 0x2467e, 0x3ad286, 0x14e2ee, 0x79d3d0, 0x1d7205, 0x19a1c3, 0x1a753e, 0x648e5b, 0x1da22b, 0x32cbc7, 0x1a0350, 0x51025a, 0x3a3047, 0x1814dc, 0x15f660, 0x384509, 0x28c315, 0x14d207, 0x1bfc3c]⟩,
   ⟨[0xbf619, 0x1b0a4a, 0x2f5b04, 0x66718, 0xf956b, 0x148057, 0x3d7c40, 0x2d779f, 0xd96ba, 0x34f9e9, 0xabc81, 0x612100, 0x94453, 0x1a7a84, 0x395c2a, 0x1ccf9c, 0x1909ab, 0x127f4, 0x3cc47f, 0x53b36f, 0x1168b8, 0x3e681b, 0x33586a], [0x3405c5, 0x14c1f8, 0x217c04, 0x44f686, 0x3b975d, 0x1566be, 0xc3966, 0x442f22, 0x2eec1c, 0x1fbb59, 0x2c7f08, 0x5c2547, 0x2e399a, 0x357e26, 0x182b2f, 0x428509, 0x1036a, 0xc10bf, 0x38cf9d, 0x37ad35, 0xed96e, 0x1a6435, 0x3e4f02]⟩,
   ⟨[0x41eb8e, 0x24bf, 0x3694df, 0x511be5, 0xa954f, 0x206ab1, 0x3cf939, 0x513701, 0xe6080, 0x2108ce, 0x20017e, 0x105b07, 0x11ee5f, 0x3e26e6, 0xdcd93, 0x8016d, 0x3fe138, 0x3d710, 0x2881a3, 0x2e6638, 0x13554c, 0x1a9737, 0x2f29b7], [0x72fa30, 0x3860ab, 0x2a3a9b, 0x46d4d4, 0x2c8e1c, 0xb27c5, 0x2fb5f3, 0x6e389e, 0x32bf68, 0x2f2032, 0x3d0e8b, 0x5eff1b, 0xe77f7, 0x32d4d9, 0xee3b7, 0x2dd781, 0x2c515f, 0x1196a0, 0x3c1961, 0x484ebe, 0x7bcf4, 0x2fa36a, 0x385130]⟩,
   ⟨[0xb2cc6, 0xe1daf, 0x3ada49, 0x67c22d, 0x2135bf, 0x34f418, 0x2f97cb, 0x3d4e4f, 0x389246, 0x605c0, 0x5a49f, 0x289a5c, 0x19305f, 0x2bdb2b, 0x37f1cc, 0x7c489d, 0x1cc3b8, 0x22be49, 0x4f6fe, 0x4cdb36, 0x1ecd22, 0x347fcc, 0x121b6e], [0x38250c, 0x3a9b9a, 0x31b884, 0x38b4e2, 0x2903f8, 0xd4406, 0x3337e, 0x571ca, 0x20fc99, 0x2bec49, 0x4a324, 0x63e39a, 0x248d5a, 0x34ee85, 0x12c541, 0x36df11, 0x1a9d56, 0x114ad8, 0x2b0978, 0x4376fe, 0x19da75, 0x36cc96, 0x2821e1]⟩,
   ⟨[0x3c6db0, 0x394096, 0x15d4d8, 0x624f58, 0x3a01cb, 0x2c9112, 0x3a878f, 0x184b32, 0x1888a3, 0x26e10, 0xe5d54, 0x55695d, 0x4dc05, 0x1b0a95, 0x230372, 0xb124e, 0x11de6a, 0xf2458, 0x2c9259, 0x290ac1, 0x20440b, 0x114828, 0x2b166a], [0x32b46d, 0x207b45, 0x473c9, 0x7fbbbf, 0x15aff8, 0x39eb60, 0x35d816, 0xb1d9f, 0x37a1a2, 0xd8711, 0x2dfde, 0x1cbec4, 0x2a1716, 0x3b7011, 0x2ced5f, 0x6ba8f2, 0x2b544, 0xc2201, 0x1b97b2, 0x68b05e, 0x2ecfad, 0x14d41e, 0x319d72]⟩],
  [⟨[0x297, 0x28ee9d, 0x25f457, 0x3a1c7f, 0x3d187e, 0x16aac2, 0x18da90, 0x32cc34, 0xc9fe, 0x83a39, 0xabfd1, 0x56518, 0x20e915, 0x37f36c, 0x1c3ce8, 0x16154b, 0xd8f76, 0x1349c7, 0x2c5b2d, 0x302adf, 0x347c0f, 0x1ad83e, 0x337c01], [0x44dbd8, 0x161f8e, 0x3a4eaf, 0x7e41ee, 0x20d593, 0x2b1752, 0x8c520, 0xf746c, 0x251428, 0x336f1a, 0x2f850d, 0x363b2f, 0x3c91b4, 0x373cad, 0x114941, 0x7f0c1b, 0xab3aa, 0xb5cda, 0x3a4cd6, 0x13c09d, 0x3cfdab, 0x30f023, 0x2f9d40]⟩,
   ⟨[0x16ab0f, 0x2549a, 0x324067, 0x1caa0d, 0x1d43da, 0x2d4798, 0x2fabbd, 0x524e09, 0x3e65a7, 0xe6579, 0x6b2ba, 0x7b52b6, 0x17769b, 0x13ca17, 0x179c6f, 0x5068df, 0x329383, 0x1c707e, 0x1906bf, 0x76817b, 0x10ed4f, 0x185468, 0x3c4a19], [0x3a29a3, 0x7d7e2, 0xc6bc2, 0x7a5479, 0x1f1cf, 0x39f9e1, 0x44b37, 0x5aa886, 0x2cde04, 0x2b1fd3, 0x3036ae, 0x4bc454, 0xe6063, 0x3e513c, 0x142e11, 0x6eb792, 0x2a88a8, 0x3ee121, 0xcafa1, 0x69badd, 0x3f3982, 0x1a3478, 0x51f0b]⟩,
   ⟨[0x65cd56, 0x2c822b, 0x2f6b9c, 0xa1bb8, 0xaaf79, 0xea4d3, 0x77bc8, 0x4e72de, 0x344b0b, 0x1e3ed5, 0x38e0c9, 0x798666, 0x2c7240, 0x33538, 0x3c3c44, 0x400702, 0x200573, 0x3e2a4d, 0x4adf5, 0x7bcbc6, 0x1d81e3, 0xe60c8, 0x33e777], [0x34ad00, 0x1b4772, 0x3423a, 0x3b4dc7, 0x20f3e4, 0x39b171, 0x127cdb, 0x3dcc1f, 0x2bc848, 0x370405, 0x12bf7, 0x2c5599, 0x14ab0c, 0x103733, 0x2c167, 0x72597a, 0x1a940b, 0xaa67e, 0x27936d, 0x6b2d36, 0x236515, 0x3318c3, 0x665d]⟩,
   ⟨[0x7bf246, 0x38a54e, 0x17a2c6, 0x2df25b, 0x22deb2, 0x3b118a, 0x285430, 0x7eda78, 0x20f2ec, 0x2dc0f9, 0x824dc, 0x35cc91, 0x2c8632, 0x1d44dc, 0x18ca86, 0x4a0fad, 0x2945f8, 0x2d0d5, 0x1b8cb7, 0x2990a6, 0x19deb1, 0x25b0f2, 0x568b1], [0x1b65cd, 0xcdcf7, 0xc0170, 0x180f0b, 0x16bd33, 0x2ffa3c, 0x40868, 0x5d604e, 0x100ff9, 0x336b67, 0x3ff1a5, 0x66724b, 0x3b381e, 0x2868b1, 0x10d47b, 0x776dc4, 0x246ba9, 0x2ad2cd, 0x2aaf38, 0xd0446, 0x2f27bb, 0x2943e1, 0xf4f81]⟩,
   ⟨[0x3d4a9c, 0x24a6d, 0x14b9e1, 0x52698e, 0x30ab88, 0x3b378d, 0x3e866c, 0x6c9349, 0x290e01, 0x1477ad, 0xe581, 0x1e06cc, 0x310918, 0x3193c5, 0x2b6332, 0x5ea944, 0x1f5e4b, 0x14f9b3, 0xe2522, 0x4fcf6f, 0x2a3d76, 0x48db9, 0x1d02e8], [0x37af28, 0x29fe6c, 0x9edfc, 0x27b89f, 0x301d20, 0x32442e, 0x200e28, 0x2d5e74, 0x12b052, 0x3a45f3, 0x317f8e, 0x1621a4, 0x17c898, 0x337293, 0x17dfb5, 0x71e94b, 0x1f139a, 0x1769a4, 0x3ba6ff, 0x5d3122, 0x2f863f, 0x395f4, 0x259438]⟩,
   ⟨[0x698800, 0x3c6a37, 0x21f1bb, 0x4e8c9d, 0x33db6, 0xa7b27, 0xe7c3d, 0x611e5a, 0x8e6dc, 0x1b99b7, 0x11169, 0xc1dec, 0x2423ca, 0x17b20, 0xab665, 0x2626d4, 0x23799a, 0x2806de, 0x3692db, 0x2b1ec8, 0xe1414, 0x26b167, 0x169029], [0x13b973, 0x3b4af9, 0x31acc0, 0x393363, 0xb4d81, 0x15a3ae, 0x2b3d90, 0x1bcc23, 0xcc79d, 0x3e07ec, 0x2ee5ff, 0x45b99c, 0x1c279, 0x1a54b4, 0x175534, 0x4fea24, 0x10f58e, 0x343eb1, 0x39ed8e, 0x22ae96, 0x23467e, 0x318a7f, 0x29e05c]⟩,
   ⟨[0x6b581b, 0x2f4135, 0x7fed7, 0x60c57b, 0x3393fd, 0x93667, 0x4fa1f, 0x54919f, 0x229f53, 0x1ab18e, 0x11d07d, 0x2443c, 0x2aa483, 0x8da57, 0x38a821, 0x7861e9, 0x24d8c3, 0x309579, 0x2a1002, 0x7b324a, 0x291fd3, 0x2937c2, 0x310ccc], [0x7b71a6, 0x3eb7a5, 0x395509, 0x3f58c6, 0x2932cb, 0x3417f8, 0xad82f, 0x251085, 0x6f21e, 0x1588b0, 0xc136a, 0x4e6bb6, 0xc7c60, 0x15a2ff, 0x1965f4, 0x6b3224, 0x280d4b, 0x374e1, 0x187558, 0x7a1057, 0x1a4db, 0x392a05, 0x2b7342]⟩,
   ⟨[0x102d12, 0x157e1d, 0x3819e1, 0x436ea, 0x33f4fe, 0x4d63c, 0x3a559c, 0x5758f8, 0x32a48c, 0x36f300, 0x3c06d5, 0x4ac77e, 0x12dd43, 0x1cdbeb, 0xcbe11, 0x3cb34, 0x3f6859, 0x144dcf, 0xbdc01, 0x38921f, 0x161041, 0xb8be6, 0x2ac248], [0x67dd3e, 0x36db63, 0x37ba32, 0xaf959, 0x25b293, 0x10059f, 0x35780d, 0x46380c, 0x18452d, 0x2b5b67, 0x16b7b2, 0x7af664, 0x3c1f41, 0x97e6f, 0x3205a1, 0x725eff, 0x3e2e86, 0x38f16d, 0xb458e, 0x385d51, 0x6670, 0x8bcc1, 0x98c17]⟩,
   ⟨[0x6dbf88, 0x2d6bb0, 0x3dfe61, 0x3df76a, 0x35baa, 0x984cf, 0x54134, 0x556ecd, 0x1f1973, 0x6d2ea, 0x2f57da, 0x24a56a, 0x2a7755, 0x305fd, 0x1c8fd6, 0x481caf, 0x3d0b45, 0xd68bc, 0x39248b, 0x290881, 0x1c8db5, 0x250ce, 0xa5c50], [0x5313e5, 0x2f268c, 0x1d3b3e, 0x1fe5d2, 0x6955a, 0x336b39, 0x290b6c, 0x183f14, 0x25ed57, 0x6e18e, 0x245ab9, 0xafadf, 0x1b239a, 0x3d1824, 0x286527, 0x619c72, 0x341914, 0x191683, 0x365835, 0x6a9c8d, 0xdcb56, 0x3d7d6f, 0x312da6]⟩,
   ⟨[0x2a34a8, 0x11a273, 0x2ef0e7, 0x56ed5f, 0x22b29f, 0x3bc53b, 0x374af6, 0x1209f7, 0x87894, 0x1d51ac, 0x1c55d9, 0x7ea51, 0x27a416, 0x2199bf, 0x398181, 0x50725a, 0x16d8b, 0x185f36, 0x22b389, 0x670f14, 0x3ee89c, 0x208598, 0x37fa4e], [0x2cbd11, 0x25ca10, 0x25a5c4, 0x73ccea, 0x1d4a0c, 0x3e1189, 0x12d18f, 0x202d6b, 0x5142a, 0x673ef, 0x230ded, 0x5c9ef1, 0x199f43, 0x951f1, 0x1fa9b, 0x42fdce, 0x3cf250, 0x333b05, 0x3487e6, 0x1a46ef, 0x9221a, 0x1601fa, 0xa8f97]⟩,
   ⟨[0x29b1a4, 0x1a205e, 0x10d45b, 0x9969, 0x3b86e1, 0x263695, 0x38303f, 0xf276e, 0x3dd7ee, 0x3d7b5, 0x19c4b1, 0x3248d5, 0x21e8fe, 0xfc768, 0x1f35ec, 0x2fb73b, 0x1b945a, 0x164c1b, 0x2f277f, 0x5eae78, 0x71711, 0xc61bb, 0xab2c0], [0x16df7a, 0x15dc01, 0x2ba091, 0x11f44e, 0xb08d7, 0x2e9923, 0x92787, 0x2adbb4, 0x3d7aa5, 0x9e226, 0x2384f8, 0x3614f7, 0x3bea0c, 0x2456bb, 0x107c57, 0x4a575c, 0x760c6, 0x34dea3, 0x2c29ae, 0x7702ec, 0x797dd, 0x2c2ec2, 0xb53b4]⟩,
   ⟨[0x4e14dc, 0xdcce7, 0x268b67, 0x671423, 0xc36e7, 0x2ef482, 0x2a811, 0x4f450d, 0x19d6e8, 0x379047, 0x24cf74, 0x17f363, 0x242d1c, 0x34df, 0x2aec5d, 0x16d8e1, 0x15b2fa, 0x347ef8, 0x75a03, 0x6afac1, 0x10c4cc, 0x216803, 0x1aa96e], [0x57b948, 0x2e3492, 0x2e8beb, 0x500ca7, 0x2a1860, 0x1b6814, 0x19c85f, 0x61c4ed, 0x2ef6b7, 0x38c2bf, 0x3c380d, 0x11c0c0, 0x11337c, 0x15c779, 0x136724, 0x50bf7, 0x5558d, 0x2ec289, 0x3637ca, 0x4b8113, 0x1a69cc, 0x301379, 0x3f1ad7]⟩,
   ⟨[0x12c055, 0xeb55e, 0xd7834, 0x27b02c, 0x3b78f0, 0x10001f, 0x2dd1ec, 0x44cc9d, 0x3f406f, 0x2bbd9b, 0x3d495e, 0x2d8896, 0x30cb6a, 0x1b5e53, 0x2ad9f8, 0x1e75bf, 0xf94ea, 0x57b4c, 0x370072, 0x14b385, 0x5aced, 0x2c28f0, 0x3ab7d9], [0x20cf13, 0x225c38, 0x2b6293, 0x13f808, 0x344cb9, 0x33719d, 0x2fe2b6, 0x282cb5, 0x175559, 0x403ea, 0x359279, 0x5d8812, 0xb1a40, 0x3ee682, 0x16e724, 0x2fb1c5, 0x2f6bee, 0x22778b, 0x19aea3, 0x3d80a9, 0x32d9d1, 0x3bf23f, 0x2dba08]⟩,
   ⟨[0x475a5b, 0xaf126, 0xe8d05, 0x37aad9, 0x3350ff, 0x3b6df1, 0xc70d2, 0x31341a, 0x166a1f, 0x3d3dbe, 0x21f7e8, 0x6d14a1, 0x39d159, 0x1efa80, 0x32b317, 0x24939b, 0x1c82dd, 0x61d7a, 0x147571, 0x4ffe3e, 0x965de, 0x28c381, 0xdfe6c], [0x35eaa0, 0x9123b, 0x32e9e6, 0x84111, 0xf226, 0x3cd924, 0xabc8b, 0x538b5d, 0x23291, 0xdb4a0, 0x10030, 0x328332, 0x1a2589, 0x233ea0, 0x17be31, 0x586460, 0x12777e, 0x2d359e, 0xd0bcc, 0x245915, 0xf3fab, 0x232dcc, 0x26cc0f]⟩,
   ⟨[0x6107a0, 0x348213, 0x1db8ee, 0x3152f3, 0x29336e, 0x1572bd, 0x2314e4, 0x50d309, 0x2101ea, 0xedba, 0x11643a, 0x2a8161, 0x169d2d, 0x105b84, 0x7a268, 0x602253, 0xeaf07, 0xbf9c0, 0x1f44d9, 0xbadf, 0xb6708, 0xf4eda, 0x27e80b], [0x79ea50, 0x12030f, 0x175d43, 0x5cd824, 0x334d4f, 0x2aee35, 0x21cfb0, 0x199622, 0xca221, 0x7bc44, 0x29cbbf, 0x19f06c, 0x34eca6, 0x27be0e, 0x2fe495, 0x705dbb, 0x2f6511, 0xd66c8, 0xc392a, 0x14bbee, 0x7f420, 0x20ef1f, 0x2dd2c3]⟩,
   ⟨[0x1f311e, 0x35e164, 0xd7e33, 0x4ee0a2, 0x1b027b, 0x3af8a9, 0x897e1, 0x4e7636, 0x2cfebd, 0x349e23, 0x3a2005, 0x33a740, 0x273b7, 0x18397, 0x2783f, 0x201e98, 0x9d39f, 0xa5722, 0x2d49f8, 0x798c09, 0xc4014, 0x7d8c3, 0x2f570f], [0x477116, 0x161163, 0x2df7bb, 0x1dd1d7, 0x3a92db, 0x36acfc, 0x211278, 0x55790c, 0xb98e9, 0x2eb711, 0x9d7b7, 0x3cd366, 0x622e0, 0xd9307, 0x1bd5f, 0x73a35f, 0x3fc1c3, 0x25c15b, 0x359419, 0x6a6138, 0x2a142d, 0xbbedd, 0x8a742]⟩],
  [⟨[0x20495, 0x29c46f, 0x15c863, 0x1a9be1, 0x2541bc, 0x3083d6, 0xe2b6e, 0x4dea6d, 0x233c05, 0x93178, 0x300c16, 0x47a8a8, 0x3eee62, 0x3a3ffe, 0x2d8a6e, 0x3747df, 0x23ebec, 0x3a703f, 0x57635, 0x4c2ff0, 0x13db65, 0x28f19d, 0x333ab2], [0xa454, 0x3242c, 0x263770, 0x70c7f5, 0x7b940, 0x62cbb, 0xbb7cc, 0x1e3f, 0x107bef, 0x24bd77, 0x3307a, 0x3c6ec5, 0x357523, 0x3fe203, 0x2f4b77, 0x39ab29, 0x9871, 0x3024e6, 0x1eae16, 0x3f3d08, 0x29a969, 0x1642e9, 0x3925fe]⟩,
   ⟨[0xc8333, 0x134ba7, 0x9b871, 0x4cdc4, 0x289ca0, 0x1fc8d2, 0x39d91b, 0x38fc3d, 0x19773b, 0x6d4df, 0x6221a, 0x4f1a1c, 0x10af9e, 0x18553a, 0x130550, 0x111a01, 0x3c7519, 0x287566, 0x1644e8, 0x41602d, 0x32cdc1, 0x1c2b40, 0x30a48f], [0x42dcf0, 0x8b28f, 0x3ec6f9, 0x6a8d26, 0x34dba9, 0x2bd050, 0x3fe19c, 0x30096c, 0x13965d, 0x10c86, 0x3c6698, 0x731549, 0xaaa24, 0x10c344, 0x3f7448, 0xc5964, 0x19616e, 0x35336f, 0x723d5, 0x244786, 0x2452d1, 0x1f0b6a, 0x31d0bc]⟩,
   ⟨[0x1abeae, 0x140094, 0x25f718, 0x1ffb06, 0x2ce72a, 0x678cf, 0x7d404, 0x73cb92, 0xa9fc4, 0x668bb, 0x27bd0d, 0x2bde2e, 0x3edd2c, 0x154ae6, 0x290863, 0x334512, 0x1e546a, 0x2467d8, 0x6cbdb, 0x2139ad, 0x1ced3f, 0x217dc2, 0x1f626b], [0x390dfd, 0x2f8b3, 0xe30af, 0x5d7a3, 0x1efa22, 0x2cafdb, 0x4971, 0x2efbea, 0x1f4acb, 0x302b99, 0x1dfc66, 0x7364f2, 0x371c65, 0x28108d, 0x3c66ed, 0x5d7568, 0x212dc4, 0x11a56e, 0x34ee5a, 0x31e1d4, 0x3cf9c2, 0x3eb41f, 0x3c84a7]⟩,
   ⟨[0x7ff718, 0x32692, 0x2f052e, 0x755b72, 0x3d2345, 0x38e6dd, 0x25dc5a, 0x65158e, 0x35f9e0, 0x19a28c, 0x178b35, 0x44d5b8, 0x39ce59, 0x379216, 0x98649, 0x105e9e, 0x37a436, 0x35a4a6, 0x87244, 0x2aa631, 0x1e9edb, 0xa2622, 0x1d1531], [0x3c8cb9, 0x3d6118, 0x179e49, 0x2b0c0c, 0x39c364, 0x2ca57a, 0x3f8c54, 0x1fb453, 0x3c0c82, 0x3b2ff0, 0x3a2b7f, 0x58c732, 0xc6e03, 0x30eaab, 0x2a43fc, 0x29df25, 0x2b4f, 0x22a3ca, 0x104844, 0x4a0b3b, 0x1849cb, 0x1c4653, 0x2f1596]⟩,
   ⟨[0x1d4a19, 0x35fdf4, 0xf8f5b, 0x3ff4b0, 0x157527, 0x15f4ff, 0x337da4, 0x2bc44f, 0x223c67, 0x1b663c, 0x281b4b, 0x78bdf6, 0xd0b3b, 0x99bbb, 0x2a4438, 0x512dec, 0x7055e, 0x2af2f0, 0x2c9105, 0x23e635, 0x1cb35b, 0x28c1c2, 0x2de4d1], [0x140ada, 0x11ec68, 0x18dfdd, 0x6f5e0e, 0x185618, 0xb38f8, 0x3ac86, 0x345a9c, 0x18811b, 0x34ef90, 0x309fa7, 0x2657b1, 0x26a02f, 0x3fb112, 0x3e8e9a, 0x4e6284, 0x310f7a, 0x13e7da, 0x14c174, 0x38c1fc, 0x26ec4a, 0x18c688, 0x2a438f]⟩,
   ⟨[0x4f0acf, 0x1c15fb, 0x3cd5c1, 0xd2292, 0x25b6a8, 0x221999, 0x16ba08, 0x792a56, 0x215ff2, 0x2b39f1, 0xf2f96, 0x25d28, 0x29609e, 0x351c7f, 0xa603d, 0x3f3cd9, 0x24c3b, 0xc25e9, 0x2157ff, 0x3e3f6f, 0x15898b, 0x7923f, 0x11a75f], [0x1b8989, 0x36b95e, 0xb28eb, 0x6f0f0e, 0x1bb501, 0x29744c, 0x2c2a82, 0x6278d2, 0x6d540, 0x338072, 0x23f135, 0x6b3c7f, 0x3f9ca2, 0x3069ed, 0x1454a7, 0x1cea39, 0xedae9, 0x2bf356, 0x3b1bd9, 0x73ef3, 0x3041d7, 0x96064, 0x142c76]⟩,
   ⟨[0x68ffc6, 0x3c11c5, 0x31dd2f, 0x2086bc, 0x213a20, 0x198c3, 0x3c70aa, 0x64a691, 0x3f88a6, 0x10b222, 0x1133ae, 0xd81a, 0x8b4f2, 0x37b644, 0x20b08f, 0x2b77a7, 0xaef1b, 0x2ab9a7, 0x1ffd9c, 0x2d2887, 0x1829d4, 0x291e60, 0x24dd09], [0x5a1ee9, 0x858bd, 0x6666a, 0x665e27, 0x1e2d76, 0x151594, 0x3cbb31, 0x274d76, 0x385369, 0x2d97f4, 0x213614, 0x5429e7, 0x1a6a17, 0x22689, 0x7c22e, 0xcb237, 0x3b33bc, 0x3a2cf2, 0x1014a7, 0x4afb82, 0x3db97c, 0x16fccc, 0x1d22ce]⟩,
   ⟨[0x583d1f, 0x1cab29, 0x21dffc, 0x579859, 0x239960, 0x287022, 0xfbf8a, 0x522225, 0x84a9f, 0x24948b, 0x2cc83c, 0x67c4ac, 0x34836d, 0x216546, 0x364159, 0x3adb5a, 0x3ceb5, 0x345b44, 0x2138fd, 0x1743ca, 0x69abd, 0x23ec4a, 0x50b88], [0x6438c3, 0x369425, 0x279b67, 0xd0143, 0x1f364d, 0x177c5d, 0x95b66, 0x2b4c4f, 0x2c159d, 0x4ad5b, 0x177c82, 0x33a0e4, 0x3accd6, 0x34623f, 0xf5d74, 0x680aef, 0x2d31e0, 0xbb398, 0x233354, 0x253484, 0x385e50, 0xf78cf, 0x322ba]⟩,
   ⟨[0x724124, 0x30c69a, 0x310e26, 0x278477, 0x12ffd4, 0x5570f, 0x3ebd03, 0x6f51f4, 0x43a21, 0x1a4cea, 0x172d44, 0x696c4a, 0x3fa9a1, 0x26633b, 0x5f2b7, 0x2c7c4, 0x3a452, 0x3f240b, 0x3cbc7e, 0x74f43, 0x2f68a2, 0x623f6, 0x1d4282], [0x14b428, 0x3e7d33, 0x2520c7, 0x41ccf2, 0x233bab, 0x1589f9, 0xd2e6e, 0x1ffd7c, 0x1dcfd2, 0x390ffe, 0x31026, 0x772372, 0x10f507, 0x39d935, 0x11504f, 0x41b316, 0x1b31f1, 0x309fcb, 0x2d1468, 0x238297, 0x1b6605, 0x1b59f9, 0xb6c96]⟩,
   ⟨[0x43f6c2, 0x763df, 0x308091, 0x6ddcff, 0x2fc758, 0x1eff60, 0x18180e, 0x5f0a71, 0x1e4437, 0xeadd7, 0x12ca06, 0x24ef90, 0x188475, 0x18b6d9, 0x1dea6e, 0x44fc14, 0x3d1458, 0x31e96a, 0xe2daf, 0x628bb3, 0x2a2193, 0x11f06, 0xc91e9], [0x482fed, 0x2528f8, 0x2fd25c, 0x261308, 0x139233, 0x302e3f, 0x2a13b0, 0x7deda6, 0x11fb4f, 0x8fba1, 0x196cc9, 0x51e7e4, 0x5a421, 0x3784e4, 0x174aff, 0x4725bc, 0x4cd05, 0x26fa6b, 0x1805bf, 0x17519d, 0x1a7b71, 0x280018, 0x26ec17]⟩,
   ⟨[0x1c205b, 0x2ccc69, 0x30f0e5, 0x192a4e, 0x3d1b67, 0x20dae2, 0x769de, 0x1bfa4d, 0xb7649, 0xc1b2b, 0x38c90f, 0x1d0bf8, 0x577cb, 0x190b4f, 0x3e238f, 0x52dff8, 0x10d0f0, 0x218c9, 0x13f89c, 0x714803, 0x3a6f8c, 0x353b6d, 0x2ffeea], [0x30c7d2, 0xca103, 0x21611c, 0x188899, 0x1f54e9, 0x10620, 0xae01a, 0x7a2db9, 0x2a9401, 0x209c63, 0x389f5d, 0x196fff, 0x2ce291, 0x340a01, 0x3ff906, 0x2c42fc, 0x37c6a3, 0x1146a7, 0x44bad, 0x63d883, 0xbab16, 0x1ff085, 0x140b79]⟩,
   ⟨[0x32c0e7, 0x208dff, 0x2f6660, 0x70c915, 0x2d9af5, 0x12ab64, 0x15326e, 0x1e8920, 0x31383c, 0xe45c6, 0x3ff494, 0x792407, 0x21a39a, 0x3efc30, 0x8c932, 0x31d0d5, 0x13e9b1, 0x16f25f, 0x251f58, 0x1d0ccc, 0x189479, 0x1e2a1d, 0x1548e8], [0x7ed4e4, 0x3831e3, 0x36b65b, 0x173db0, 0x30b4b3, 0x3b0a38, 0x176695, 0x22f024, 0x2dc536, 0x26d641, 0x3845e6, 0x6ae213, 0xf1253, 0x35b8b4, 0x2d1d2c, 0x26072b, 0xc4dff, 0x98c06, 0x3973e5, 0x6e815f, 0x35e739, 0x4e25a, 0x323e06]⟩,
   ⟨[0x18218e, 0x1c5a05, 0x156fea, 0xdef36, 0x3405ab, 0xc8d8a, 0x3d4ce6, 0x36c6b1, 0x26347b, 0x2bec62, 0x135b49, 0x4ed20d, 0x2bce15, 0xa503c, 0x30279f, 0x124e30, 0x3af38a, 0x8eb83, 0x141065, 0x4df4dc, 0x176dd3, 0xfcb73, 0x229cd], [0x4041c, 0x3cab13, 0x29b3e4, 0x1b70de, 0x9b3a, 0x2c70ac, 0x272eda, 0x10407e, 0x645f0, 0x1e2e70, 0x502a8, 0x794831, 0x3ae5de, 0x2799ea, 0x1cafa4, 0x6e7b51, 0x8984e, 0x12ef3f, 0x25e7, 0xdda10, 0x119536, 0x3d6d8d, 0x6c12f]⟩,
   ⟨[0x435ee4, 0x163d6, 0x377c11, 0x3bd7d6, 0x2e05f5, 0x1fba80, 0x107c07, 0x681a61, 0x5189c, 0x2c249, 0x3607cd, 0x957d6, 0x3f952a, 0x8ecba, 0x1e29e1, 0x33462b, 0x22898d, 0x1aabd5, 0x2e885c, 0xa2647, 0x37a37c, 0x297e79, 0x2a2ca3], [0x2c1a17, 0x158b61, 0x16816f, 0x53a5a8, 0x1547b2, 0x30ac66, 0x202c4c, 0x274c07, 0xd322e, 0x4a3e0, 0xf7bc7, 0x102196, 0xc81fb, 0x358316, 0x63f2b, 0x7ff11c, 0x25ffe3, 0x256744, 0x2e91a0, 0x64976e, 0x38c948, 0x396fac, 0x37cf6e]⟩,
   ⟨[0x794f1d, 0x2b6a50, 0x120ae4, 0x1cec0f, 0x383f87, 0x216277, 0x286cea, 0x103d5a, 0x2aa574, 0x3d3491, 0x22931d, 0x489498, 0x32eef4, 0xca2aa, 0x80a27, 0x7fa661, 0x94e9a, 0x3ee29e, 0x2ac21c, 0x1ce359, 0x3330fc, 0x1c6ade, 0x187790], [0x340ef5, 0xbdd62, 0x333909, 0x39146a, 0x38bb2e, 0x30f37, 0x143b07, 0x31cc3d, 0x2b5b5c, 0x5892, 0x52bd0, 0xa282b, 0x30d9c5, 0x1004fc, 0x38922a, 0x241a2, 0x53c3, 0x2c02ca, 0x2d4f8f, 0x4ab17b, 0x3667c0, 0x4ef7e, 0x80e4]⟩,
   ⟨[0x5fa89b, 0x1d2f7d, 0x19b385, 0x53b863, 0x22e414, 0x11c620, 0x1f0ca5, 0x1b475a, 0x3e5b07, 0x20c305, 0x18a591, 0x7de564, 0x1f654f, 0x3f1044, 0xd7b16, 0x4e51e7, 0x267972, 0x2a42f3, 0x159c2, 0x16007c, 0xf9ca8, 0x21184, 0x7fce7], [0x45b0f, 0x2c5, 0x33642b, 0x38378f, 0x1f29a8, 0x18130b, 0x340b0b, 0x7667b7, 0x38b986, 0x218a5c, 0x20d3e4, 0x2b84eb, 0x1dbf61, 0x6e45c, 0xc2528, 0x3d5b87, 0x3b9631, 0x16ffc9, 0x2577d8, 0x84014, 0x326179, 0x2b97fc, 0x17d9b9]⟩],
  [⟨[0x24fc6b, 0x260048, 0x27a39b, 0x4a6771, 0x2f8996, 0x250571, 0x22bd5a, 0x16ba95, 0x177752, 0x3aae54, 0x382bc, 0x2dbdca, 0x175d11, 0x485ab, 0x263bcc, 0x2ca217, 0x33aa31, 0x1eb58f, 0x1caa07, 0x439150, 0x3350d2, 0x2e0a1c, 0xb60e4], [0x6afab6, 0x1979bd, 0x206f5d, 0x4f0b02, 0x1dc842, 0x32d59a, 0x1dc451, 0x22d419, 0x3471, 0x178e67, 0x2d0057, 0x6162bd, 0xe5a47, 0x139f7c, 0x6e056, 0x245e47, 0x179c, 0x28ba82, 0x229b1f, 0x3b6e93, 0x12ae29, 0x17cd91, 0x14f8c1]⟩,
   ⟨[0x340d60, 0x77299, 0x3d596c, 0x5cab48, 0x18060b, 0x108f8b, 0x155345, 0x555740, 0x6639b, 0x966ba, 0x28b692, 0xe0989, 0xe36e6, 0x3ea5cf, 0x3e7233, 0x2bce85, 0x3b53c6, 0xb6428, 0xceb17, 0x1439c1, 0x3e1768, 0x182028, 0x63591], [0x4c6a3e, 0x3b6b4, 0x308620, 0x42d6e7, 0x688fb, 0x242205, 0x15fd4b, 0x6548a0, 0x73894, 0x59483, 0x70be7, 0x5ec1a3, 0x138af9, 0x59a16, 0x721c1, 0x3d327d, 0xac881, 0x8254b, 0x291db6, 0x202301, 0x2587bc, 0x2f4480, 0xbb989]⟩,
   ⟨[0x44d64a, 0x169a22, 0x198ee3, 0x1c1cf3, 0x1abb64, 0x2b70c, 0xd1b40, 0xb41c, 0x1a07bf, 0x31380a, 0x37e0a3, 0x5959d5, 0x195dcd, 0x318dbc, 0x14119, 0x39f9f8, 0x2f8b00, 0x35a9f, 0x1f77ed, 0x42f50f, 0x10f6eb, 0x18d31, 0x115505], [0x4a9cf0, 0x396ae3, 0x2f36dc, 0x59c454, 0x2372e1, 0x17c289, 0x1dc88c, 0x568bbb, 0x38aaf3, 0xac735, 0x1d93c9, 0x79763f, 0x474de, 0x1ffea5, 0x32e7a4, 0x286d83, 0x1c592e, 0x2e08d4, 0x3c918f, 0x635953, 0x125ecd, 0x218e30, 0x38e348]⟩,
   ⟨[0x1f97cb, 0x27c45, 0x4cbbc, 0x3c768c, 0x2150eb, 0x309bac, 0x1bd192, 0x449d0c, 0x27761, 0x334ec9, 0x4b563, 0x63bba5, 0x22d5ec, 0x36d1dc, 0x22c410, 0x5b8d6b, 0x182967, 0x2a4f38, 0x111a50, 0x211f1f, 0x1edad2, 0x18c6ed, 0x195251], [0x2c575a, 0x368bf8, 0x1817ce, 0x23d30f, 0x335f3c, 0x3d8b6b, 0x36535c, 0x6e800f, 0x1d0fee, 0x1d0e1d, 0x1030f4, 0x575f2f, 0x272de, 0x12885a, 0x1e98be, 0x2cef1, 0x343652, 0x26244e, 0x112950, 0xcf99b, 0x39e10d, 0x19a48e, 0xf62d8]⟩,
   ⟨[0x7f47cb, 0xdb92b, 0x1cfe89, 0x438c82, 0x2f9b60, 0x29f531, 0x36dacc, 0xb743f, 0x14bfca, 0x3076ab, 0x61c92, 0x402803, 0x1f9bbe, 0x2bb4f0, 0x1d49fc, 0x39da58, 0x1b9f65, 0x1a4032, 0x1853d6, 0x77f83b, 0xba641, 0x28f440, 0x36529], [0x469cbc, 0xecb6b, 0x3ed688, 0x448228, 0x125e0, 0x1294bb, 0x3209cd, 0x431140, 0x24adfe, 0xa297c, 0x343443, 0x3dc6b9, 0x3a8f4a, 0x3cd200, 0x27f94a, 0x26c683, 0x1010d7, 0x291317, 0x1c01db, 0x323a9c, 0x18f9e1, 0xfb990, 0x1c0fd8]⟩,
   ⟨[0x2529b0, 0x47c33, 0x105d03, 0x668833, 0x1d8a87, 0x1be267, 0x2e8a17, 0x1ba406, 0x12683b, 0x32efbe, 0x33c9c9, 0x3816fd, 0x1e2856, 0x1fa678, 0x34cf0e, 0x2bc6d4, 0x21d8c3, 0x138a8f, 0x301a91, 0x7ba5bf, 0x27adbf, 0x84950, 0x3344f2], [0x1d7ddb, 0xb9fbd, 0x3a23d1, 0xdaa8e, 0x15296c, 0x378879, 0x80207, 0x6dacfa, 0x2c4d0c, 0x3e240, 0x5cdbb, 0x4b5100, 0x24673c, 0x3eddc4, 0x1c3104, 0x4ec191, 0x1b0572, 0x2ee934, 0x1e439a, 0x8b8bc, 0x1d336d, 0xc0450, 0x264399]⟩,
   ⟨[0x63ba75, 0xe5577, 0x2d84d8, 0x11f137, 0x3c0568, 0x1fcf04, 0x369e84, 0x26107b, 0x3793d0, 0x2ff753, 0x80d0d, 0x9fe5b, 0xd568b, 0x306219, 0x57fb4, 0x251274, 0x28f357, 0x1868a6, 0x245601, 0x694dda, 0x1bf932, 0x291545, 0x834df], [0x5de7c7, 0x43fb9, 0x2022f7, 0x6dd20b, 0x34db2b, 0x9812a, 0x634e5, 0x529bdd, 0x37e7af, 0x20131e, 0x28145e, 0x7d781a, 0x3f2e11, 0x90377, 0x1ff3f0, 0x29544b, 0x4b34a, 0x308a92, 0x230957, 0x30849f, 0x3bd197, 0x36543d, 0x13db50]⟩,
   ⟨[0x6dbc4e, 0xb8c36, 0x33c975, 0x1b98fa, 0xe1469, 0x3f57bb, 0x366af6, 0x2940d4, 0x2a7401, 0xb24fa, 0x3d079c, 0xbbf2b, 0x1c8da1, 0x281279, 0x3fd16b, 0x5f172d, 0x3bc575, 0x3f2ee, 0xeb6e0, 0x25aa43, 0x19146d, 0xe2fcd, 0x708d1], [0x188a0a, 0x3280e1, 0x375ae3, 0x5def79, 0x30ca8c, 0x11a4e2, 0x1a18ee, 0x15160f, 0x3d4633, 0x210df1, 0x39513d, 0x32b85, 0x562c, 0x2b09de, 0x12e5d7, 0x343965, 0x2482ba, 0x358d60, 0x210688, 0x1de534, 0x37e47d, 0x306432, 0x331a00]⟩,
   ⟨[0xe3961, 0x136e2c, 0x396117, 0x3a4ea9, 0x2b633f, 0x331384, 0xe6fda, 0x110b81, 0x83f56, 0x10e231, 0x377f5b, 0x777cbf, 0x27d587, 0x16725e, 0x22fafb, 0x50fca0, 0x35e866, 0x1f6af5, 0x131aff, 0x31b90b, 0x3d8fc9, 0x3ccaef, 0xbcf90], [0x37ce7b, 0x3b57ec, 0x161e92, 0x65355b, 0x24637b, 0x8b2c0, 0x2e6fd, 0x1ed2f1, 0x24a016, 0x22b354, 0x19306e, 0x3009f9, 0x130478, 0x39951c, 0x3b9f26, 0x129d8e, 0x28eae8, 0x2e0532, 0x2312b7, 0x1904d9, 0x1f8fb7, 0x306139, 0x191e58]⟩,
   ⟨[0x315b6b, 0x6110b, 0x2d0f7a, 0xb35d8, 0x39dd74, 0x13bf7f, 0x88a74, 0x678a54, 0x27c11e, 0x39299c, 0x9e852, 0x3a9738, 0x3ba90b, 0x3c704c, 0x31ead, 0x3f9f6d, 0x60c99, 0x210078, 0xa43cc, 0x1d2c3a, 0x16f165, 0x2cbe20, 0x3cbd2a], [0x6ea72c, 0x19faa9, 0x27119b, 0x2db4, 0x3fc202, 0x258426, 0x17a426, 0x591ea2, 0xdaac0, 0x160bb2, 0x2b5c9b, 0x34552f, 0x354208, 0x3f73f6, 0x1d329f, 0x541523, 0x1d2733, 0x3e6da0, 0x58267, 0x2fd1cd, 0x3085b8, 0x37b13e, 0x11d71d]⟩,
   ⟨[0x4ef58f, 0x111078, 0x2a7d65, 0x32333e, 0x11bb9d, 0x33fa14, 0x1abd10, 0x7f9c0d, 0x12f21c, 0x3c4d14, 0x3a59e2, 0x17140e, 0x3ec05a, 0x2b8323, 0x13d487, 0x61b630, 0xc1262, 0x34a7e5, 0x18da22, 0xda70c, 0x1e1e78, 0x37ce10, 0xbebb1], [0x4f54f0, 0xa220b, 0x161352, 0x7e4ea4, 0x2878de, 0x1c80e5, 0xc0855, 0x75df3b, 0x39d0ab, 0x1d0301, 0x1594b9, 0x78140b, 0x1a2c01, 0x28fce5, 0x3c573c, 0x6e543, 0x3a90e6, 0x2d4fdd, 0x22b1f7, 0x62cb04, 0x2c12ca, 0x389e83, 0x7631e]⟩,
   ⟨[0x23c68b, 0xf609a, 0xd7e01, 0x69e56b, 0x3d496, 0x1bc8dc, 0x328e76, 0x316565, 0x11a340, 0x374048, 0x16c79e, 0x14449b, 0x2ee9b6, 0x32a11, 0x1212a3, 0x3d35c1, 0x3485fd, 0x1199a6, 0x1c3f0d, 0x17f8cf, 0x14ac02, 0x1e0eb1, 0x1aca7c], [0x31c47a, 0x102e12, 0x2f6f4b, 0x5b2d93, 0xa9886, 0x1cc034, 0x23e81b, 0x1a7ce, 0x29abc3, 0x4048c, 0x2bc25d, 0x368aba, 0x2746c, 0x373868, 0x61aa2, 0x56401c, 0x207f34, 0x1fca2d, 0x169b9e, 0x64fda3, 0x28c18a, 0xc0847, 0x1845f0]⟩,
   ⟨[0x2f9ad9, 0x9590f, 0x130486, 0x59cc83, 0x39a337, 0x22c7c7, 0x3c259, 0x602650, 0x8510c, 0x384f8a, 0x1f3aa0, 0x3706da, 0x69456, 0x2ad7c, 0x3a14, 0x7327ba, 0x2f7478, 0x1fbb28, 0x23bc3e, 0x7f5ab5, 0x1fff4e, 0x188d11, 0x13bc8b], [0xc111, 0x6aa72, 0x12a2e9, 0x55127a, 0x3c8991, 0x36cfbc, 0x37f0bb, 0x655b21, 0x2b75e3, 0x336687, 0x210878, 0x89c2c, 0x3cee92, 0x143383, 0x371d45, 0xbcdfe, 0x238367, 0x1c2d8b, 0x3e06ad, 0x53dbc8, 0x2a9f89, 0x2955f8, 0x137029]⟩,
   ⟨[0x2fb5b, 0x32bb27, 0x1ee694, 0x2e2965, 0x395f01, 0x3fec08, 0x3abdfb, 0x68b88b, 0x221db7, 0xf72d1, 0x3f9dc, 0x5c1b93, 0x73a9e, 0x160bd0, 0x53416, 0x23242a, 0x10fab9, 0x6d2c5, 0x236e83, 0x54747b, 0x63f98, 0x1a8789, 0x3dc7da], [0x463909, 0x29e3b4, 0x2f0e2, 0x593390, 0x34320b, 0x3f6a3b, 0x2603e4, 0x16676, 0x254c99, 0x23eb7b, 0x119d88, 0x3d63f8, 0x350bc8, 0x140757, 0x2473c4, 0x34d831, 0x17bdb7, 0x3e24eb, 0x231fe3, 0x70ec64, 0x43e18, 0x2a4d4f, 0x5d554]⟩,
   ⟨[0x6fc15d, 0x1f5830, 0x8ad9e, 0x2845f0, 0x1cd01e, 0xcfc1, 0x32ae8b, 0x19e673, 0x30c5e5, 0x50166, 0x372fac, 0x57147, 0x4060f, 0x163807, 0x2bcadd, 0x376726, 0x28315b, 0x9418f, 0x1e2957, 0x6d28be, 0x1bcade, 0x31a352, 0x52575], [0x404c1d, 0x24fa31, 0x12c7a3, 0x7d71a8, 0x28d167, 0x20b8e9, 0x32697e, 0x202c6b, 0x32212, 0x3ab37d, 0x29eeed, 0x239f39, 0x7dc00, 0x3bd86f, 0x3b948c, 0x5d1965, 0x3c74ad, 0x1eab46, 0x255c49, 0x2402db, 0x4833f, 0x181728, 0x2c23a4]⟩,
   ⟨[0x69003, 0x1493a6, 0x3f6b49, 0x1b15e2, 0x3cb610, 0x3ac0d8, 0x12e96d, 0x4c065c, 0x318c4e, 0x151ed2, 0x2348e6, 0x6ae001, 0x12c641, 0x126df2, 0x1d6e0a, 0x227223, 0x3493d1, 0x27ed79, 0x97233, 0x4ab1d, 0x2e7f5a, 0x3ed69a, 0x3d2512], [0x2d81d0, 0x12cd40, 0x296981, 0x7d52c8, 0x2b5e71, 0x18553c, 0x3f8695, 0x730395, 0x50dab, 0x15bcba, 0x220a46, 0x762fde, 0x29b8d0, 0x25890a, 0x2d307d, 0x77543e, 0x1f282e, 0x300b63, 0xf826d, 0x344f5f, 0x17b455, 0xfa526, 0x13c162]⟩]]

/-- `lut_cmb[j][k]`. -/
def lut_cmb (j k : Nat) : AffW (List Nat) := (lut_data.getD j []).getD k ⟨[], []⟩

end Gost.Ecp_tc26_512_paramSetA_32
