import Verif.Lemmas.Ecp.CryptoPro_A
import Verif.Lemmas.Ecp.CryptoPro_A_Chain
import Verif.Lemmas.EcCurves256
import Verif.Props.Ecp

/-!
# The curve of `/repo/ecp_id_GostR3410_2001_CryptoPro_A_ParamSet.c`, 64 bit version

Generated by `tools/mkfiat.py`.
-/

namespace Gost.Ecp_CryptoPro_A

open Fiat

set_option maxRecDepth 1000000

/-- 1, or the inverse of the Montgomery radix. -/
def rinv : Nat := 1

theorem rows16 : (lut_data.all fun r => Nat.beq r.length 16) = true := by decide +kernel

theorem table_ok : tabB (wAddB ec_CryptoPro_A.p) (fun e : AffW (List Nat) => decL ec_CryptoPro_A.p rinv W e.X) (fun e => decL ec_CryptoPro_A.p rinv W e.Y) (5 * 3) ((ec_CryptoPro_A.x, ec_CryptoPro_A.y) :: EcpChain_CryptoPro_A.chain) lut_data = true := by
  decide +kernel

theorem entries_ok : (lut_data.all fun r => r.all fun e => (fun l => boundedB l bal) e.X && ((fun l => boundedB l bal) e.Y && (file.ops.nonzero e.Y && file.ops.nonzero (file.ops.opp e.Y)))) = true := by
  decide +kernel

theorem curve [Fact (ec_CryptoPro_A.p.Prime)] (gen : CurvePoint (ec_CryptoPro_A.a : ZMod ec_CryptoPro_A.p) (ec_CryptoPro_A.b : ZMod ec_CryptoPro_A.p)) (hg : WPt _ _ ec_CryptoPro_A.x ec_CryptoPro_A.y gen) :
    WCurve file.ops am3Progs lut_cmb ec_CryptoPro_A.p 32 51 19 3 (fun x => Bounded x bal) (solVal ec_CryptoPro_A.p W) (ec_CryptoPro_A.a : ZMod ec_CryptoPro_A.p) (ec_CryptoPro_A.b : ZMod ec_CryptoPro_A.p) gen where
  field := field_sound
  fits := Or.inl ⟨rfl, am3_of (by decide +kernel), cast_of_mod (by decide +kernel)⟩
  odd := two_ne_zero_of (by decide +kernel)
  no_order2 := noRoot noRoot_CryptoPro_A
  table := wTable (fun _ h => boundedB_sound h) (decL_sol W) rfl rows16 entries_ok EcpChain_CryptoPro_A.chain_ok table_ok rfl hg
  rows_pos := by decide
  cols_pos := by decide
  comb := by decide
  digits := by decide
  nb_pos := by decide
  size := by decide +kernel

end Gost.Ecp_CryptoPro_A
