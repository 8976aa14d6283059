import Verif.Lemmas.Ecp.Test
import Verif.Lemmas.Ecp.Test_Chain
import Verif.Lemmas.EcCurves256
import Verif.Props.Ecp

/-!
# The curve of `/repo/ecp_id_GostR3410_2001_TestParamSet.c`, 64 bit version

Generated by `tools/mkfiat.py`.
-/

namespace Gost.Ecp_Test

open Fiat

set_option maxRecDepth 1000000

/-- 1, or the inverse of the Montgomery radix. -/
def rinv : Nat := 0x3801e89e6b5ccf172480d5c54ef89a9a1ff85d86528cc3a36dfca8eac41d976d

theorem rows16 : (lut_data.all fun r => Nat.beq r.length 16) = true := by decide +kernel

theorem table_ok : tabB (wAddB ec_Test.p) (fun e : AffW (List Nat) => decL ec_Test.p rinv W e.X) (fun e => decL ec_Test.p rinv W e.Y) (5 * 2) ((ec_Test.x, ec_Test.y) :: EcpChain_Test.chain) lut_data = true := by
  decide +kernel

theorem entries0 : (lut_data.all fun r => r.all (montEntB ec_Test.p 18446744073709551616 4 W full)) = true := by decide +kernel

theorem curve [Fact (ec_Test.p.Prime)] (gen : CurvePoint (ec_Test.a : ZMod ec_Test.p) (ec_Test.b : ZMod ec_Test.p)) (hg : WPt _ _ ec_Test.x ec_Test.y gen) :
    WCurve file.ops genProgs lut_cmb ec_Test.p 32 51 27 2 (montOk ec_Test.p W full) (montVal ec_Test.p R W) (ec_Test.a : ZMod ec_Test.p) (ec_Test.b : ZMod ec_Test.p) gen where
  field := field_sound
  fits := Or.inr ⟨rfl, by change montVal _ R W consts.a = _; rw [← decL_mont (rinv := rinv) (by decide +kernel)]; exact cast_of_mod (by decide +kernel), by change montVal _ R W consts.b3 = _; rw [← decL_mont (rinv := rinv) (by decide +kernel), show (3 : ZMod ec_Test.p) = ((3 : Nat) : ZMod ec_Test.p) from rfl, ← Nat.cast_mul]; exact cast_of_mod (by decide +kernel)⟩
  odd := two_ne_zero_of (by decide +kernel)
  no_order2 := noRoot noRoot_Test
  table := wTable (fun _ h => montOkB_sound h) (decL_mont (R := R) (by decide +kernel) W) rfl rows16 (mont_entries (R := R) (rinv := rinv) field_sound rfl (by decide +kernel) rfl rfl (by decide) (by decide) entries0) EcpChain_Test.chain_ok table_ok rfl hg
  rows_pos := by decide
  cols_pos := by decide
  comb := by decide
  digits := by decide
  nb_pos := by decide
  size := by decide +kernel

end Gost.Ecp_Test
