import Verif.Lemmas.Ecp.tc26_512_paramSetB_32
import Verif.Lemmas.Ecp.tc26_512_paramSetB_Chain
import Verif.Lemmas.EcCurves512b
import Verif.Props.Ecp

/-!
# The curve of `/repo/ecp_id_tc26_gost_3410_2012_512_paramSetB.c`, 32 bit version

Generated by `tools/mkfiat.py`.
-/

namespace Gost.Ecp_tc26_512_paramSetB_32

open Fiat

set_option maxRecDepth 1000000

/-- 1, or the inverse of the Montgomery radix. -/
def rinv : Nat := 0x788127350b88127350b88127350b88127350b88127350b88127350b88127350b88127350b88127350b88127350b88127350b88127350b88127350b8812735121

theorem rows16 : (lut_data.all fun r => Nat.beq r.length 16) = true := by decide +kernel

theorem table_ok : tabB (wAddB ec_tc26_512_paramSetB.p) (fun e : AffW (List Nat) => decL ec_tc26_512_paramSetB.p rinv W e.X) (fun e => decL ec_tc26_512_paramSetB.p rinv W e.Y) (5 * 8) ((ec_tc26_512_paramSetB.x, ec_tc26_512_paramSetB.y) :: EcpChain_tc26_512_paramSetB.chain) lut_data = true := by
  decide +kernel

theorem entries0 : (lut_data.all fun r => r.all (montEntB ec_tc26_512_paramSetB.p 4294967296 16 W full)) = true := by decide +kernel

theorem curve [Fact (ec_tc26_512_paramSetB.p.Prime)] (gen : CurvePoint (ec_tc26_512_paramSetB.a : ZMod ec_tc26_512_paramSetB.p) (ec_tc26_512_paramSetB.b : ZMod ec_tc26_512_paramSetB.p)) (hg : WPt _ _ ec_tc26_512_paramSetB.x ec_tc26_512_paramSetB.y gen) :
    WCurve file.ops am3Progs lut_cmb ec_tc26_512_paramSetB.p 64 102 14 8 (montOk ec_tc26_512_paramSetB.p W full) (montVal ec_tc26_512_paramSetB.p R W) (ec_tc26_512_paramSetB.a : ZMod ec_tc26_512_paramSetB.p) (ec_tc26_512_paramSetB.b : ZMod ec_tc26_512_paramSetB.p) gen where
  field := field_sound
  fits := Or.inl ⟨rfl, am3_of (by decide +kernel), by change montVal _ R W consts.b = _; rw [← decL_mont (rinv := rinv) (by decide +kernel)]; exact cast_of_mod (by decide +kernel)⟩
  odd := two_ne_zero_of (by decide +kernel)
  no_order2 := noRoot noRoot_tc26_512_paramSetB
  table := wTable (fun _ h => montOkB_sound h) (decL_mont (R := R) (by decide +kernel) W) rfl rows16 (mont_entries (R := R) (rinv := rinv) field_sound rfl (by decide +kernel) rfl rfl (by decide) (by decide) entries0) EcpChain_tc26_512_paramSetB.chain_ok table_ok rfl hg
  rows_pos := by decide
  cols_pos := by decide
  comb := by decide
  digits := by decide
  nb_pos := by decide
  size := by decide +kernel

end Gost.Ecp_tc26_512_paramSetB_32
