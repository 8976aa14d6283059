import Verif.Lemmas.Ecp.CryptoPro_B_32
import Verif.Lemmas.Ecp.CryptoPro_B_Chain
import Verif.Lemmas.EcCurves256
import Verif.Props.Ecp

/-!
# The curve of `/repo/ecp_id_GostR3410_2001_CryptoPro_B_ParamSet.c`, 32 bit version

Generated by `tools/mkfiat.py`.
-/

namespace Gost.Ecp_CryptoPro_B_32

open Fiat

set_option maxRecDepth 1000000

/-- 1, or the inverse of the Montgomery radix. -/
def rinv : Nat := 0x5e6708f84cd6f5eb33d5c519a3c2b800a291e6708f84cd6f5eb33d5c519a4576

theorem rows16 : (lut_data.all fun r => Nat.beq r.length 16) = true := by decide +kernel

theorem table_ok : tabB (wAddB ec_CryptoPro_B.p) (fun e : AffW (List Nat) => decL ec_CryptoPro_B.p rinv W e.X) (fun e => decL ec_CryptoPro_B.p rinv W e.Y) (5 * 2) ((ec_CryptoPro_B.x, ec_CryptoPro_B.y) :: EcpChain_CryptoPro_B.chain) lut_data = true := by
  decide +kernel

theorem entries0 : (lut_data.all fun r => r.all (montEntB ec_CryptoPro_B.p 4294967296 8 W full)) = true := by decide +kernel

theorem curve [Fact (ec_CryptoPro_B.p.Prime)] (gen : CurvePoint (ec_CryptoPro_B.a : ZMod ec_CryptoPro_B.p) (ec_CryptoPro_B.b : ZMod ec_CryptoPro_B.p)) (hg : WPt _ _ ec_CryptoPro_B.x ec_CryptoPro_B.y gen) :
    WCurve file.ops am3Progs lut_cmb ec_CryptoPro_B.p 32 51 27 2 (montOk ec_CryptoPro_B.p W full) (montVal ec_CryptoPro_B.p R W) (ec_CryptoPro_B.a : ZMod ec_CryptoPro_B.p) (ec_CryptoPro_B.b : ZMod ec_CryptoPro_B.p) gen where
  field := field_sound
  fits := Or.inl ⟨rfl, am3_of (by decide +kernel), by change montVal _ R W consts.b = _; rw [← decL_mont (rinv := rinv) (by decide +kernel)]; exact cast_of_mod (by decide +kernel)⟩
  odd := two_ne_zero_of (by decide +kernel)
  no_order2 := noRoot noRoot_CryptoPro_B
  table := wTable (fun _ h => montOkB_sound h) (decL_mont (R := R) (by decide +kernel) W) rfl rows16 (mont_entries (R := R) (rinv := rinv) field_sound rfl (by decide +kernel) rfl rfl (by decide) (by decide) entries0) EcpChain_CryptoPro_B.chain_ok table_ok rfl hg
  rows_pos := by decide
  cols_pos := by decide
  comb := by decide
  digits := by decide
  nb_pos := by decide
  size := by decide +kernel

end Gost.Ecp_CryptoPro_B_32
