import Verif.Lemmas.Ecp.tc26_512_paramSetA_32
import Verif.Lemmas.Ecp.tc26_512_paramSetA_Chain
import Verif.Lemmas.EcCurves512
import Verif.Props.Ecp

/-!
# The curve of `/repo/ecp_id_tc26_gost_3410_2012_512_paramSetA.c`, 32 bit version

Generated by `tools/mkfiat.py`.
-/

namespace Gost.Ecp_tc26_512_paramSetA_32

open Fiat

set_option maxRecDepth 1000000

/-- 1, or the inverse of the Montgomery radix. -/
def rinv : Nat := 1

theorem rows16 : (lut_data.all fun r => Nat.beq r.length 16) = true := by decide +kernel

theorem table_ok : tabB (wAddB ec_tc26_512_paramSetA.p) (fun e : AffW (List Nat) => decL ec_tc26_512_paramSetA.p rinv W e.X) (fun e => decL ec_tc26_512_paramSetA.p rinv W e.Y) (5 * 11) ((ec_tc26_512_paramSetA.x, ec_tc26_512_paramSetA.y) :: EcpChain_tc26_512_paramSetA.chain) lut_data = true := by
  decide +kernel

theorem entries_ok : (lut_data.all fun r => r.all fun e => (fun l => boundedB l bal) e.X && ((fun l => boundedB l bal) e.Y && (file.ops.nonzero e.Y && file.ops.nonzero (file.ops.opp e.Y)))) = true := by
  decide +kernel

theorem curve [Fact (ec_tc26_512_paramSetA.p.Prime)] (gen : CurvePoint (ec_tc26_512_paramSetA.a : ZMod ec_tc26_512_paramSetA.p) (ec_tc26_512_paramSetA.b : ZMod ec_tc26_512_paramSetA.p)) (hg : WPt _ _ ec_tc26_512_paramSetA.x ec_tc26_512_paramSetA.y gen) :
    WCurve file.ops am3Progs lut_cmb ec_tc26_512_paramSetA.p 64 102 11 11 (fun x => Bounded x bal) (solVal ec_tc26_512_paramSetA.p W) (ec_tc26_512_paramSetA.a : ZMod ec_tc26_512_paramSetA.p) (ec_tc26_512_paramSetA.b : ZMod ec_tc26_512_paramSetA.p) gen where
  field := field_sound
  fits := Or.inl ⟨rfl, am3_of (by decide +kernel), cast_of_mod (by decide +kernel)⟩
  odd := two_ne_zero_of (by decide +kernel)
  no_order2 := noRoot noRoot_tc26_512_paramSetA
  table := wTable (fun _ h => boundedB_sound h) (decL_sol W) rfl rows16 entries_ok EcpChain_tc26_512_paramSetA.chain_ok table_ok rfl hg
  rows_pos := by decide
  cols_pos := by decide
  comb := by decide
  digits := by decide
  nb_pos := by decide
  size := by decide +kernel

end Gost.Ecp_tc26_512_paramSetA_32
