import Verif.Lemmas.Ecp.tc26_512_paramSetC_32
import Verif.Lemmas.Ecp.tc26_512_paramSetC_Chain
import Verif.Lemmas.EcCurves512c
import Verif.Props.Ecp

/-!
# The curve of `/repo/ecp_id_tc26_gost_3410_2012_512_paramSetC.c`, 32 bit version

Generated by `tools/mkfiat.py`.
-/

namespace Gost.Ecp_tc26_512_paramSetC_32

open Fiat

set_option maxRecDepth 1000000

/-- 1, or the inverse of the Montgomery radix. -/
def rinv : Nat := 1

theorem rows16 : (lut_data.all fun r => Nat.beq r.length 16) = true := by decide +kernel

theorem table_ok : tabB (eAddB ec_tc26_512_paramSetC.p EcpChain_tc26_512_paramSetC.d) (fun e : AffE (List Nat) => decL ec_tc26_512_paramSetC.p rinv W e.X) (fun e => decL ec_tc26_512_paramSetC.p rinv W e.Y) (5 * 18) ((EcpChain_tc26_512_paramSetC.u, EcpChain_tc26_512_paramSetC.v) :: EcpChain_tc26_512_paramSetC.chain) lut_data = true := by
  decide +kernel

theorem entries_ok : (lut_data.all fun r => r.all fun e => (fun l => boundedB l bal) e.X && ((fun l => boundedB l bal) e.Y && ((fun l => boundedB l bal) e.T &&
      Nat.beq (decL ec_tc26_512_paramSetC.p rinv W e.T) (decL ec_tc26_512_paramSetC.p rinv W e.X * decL ec_tc26_512_paramSetC.p rinv W e.Y % ec_tc26_512_paramSetC.p)))) = true := by
  decide +kernel

/-- The Edwards form of the curve. -/
theorem ed_ok [Fact (ec_tc26_512_paramSetC.p.Prime)] : EdParams (EcpChain_tc26_512_paramSetC.S : ZMod ec_tc26_512_paramSetC.p) (EcpChain_tc26_512_paramSetC.T : ZMod ec_tc26_512_paramSetC.p) (EcpChain_tc26_512_paramSetC.d : ZMod ec_tc26_512_paramSetC.p) ∧
    ¬ IsSquare (EcpChain_tc26_512_paramSetC.S : ZMod ec_tc26_512_paramSetC.p) ∧ edA (EcpChain_tc26_512_paramSetC.S : ZMod ec_tc26_512_paramSetC.p) (EcpChain_tc26_512_paramSetC.T : ZMod ec_tc26_512_paramSetC.p) = ec_tc26_512_paramSetC.a ∧
    edB (EcpChain_tc26_512_paramSetC.S : ZMod ec_tc26_512_paramSetC.p) (EcpChain_tc26_512_paramSetC.T : ZMod ec_tc26_512_paramSetC.p) = ec_tc26_512_paramSetC.b := edCheck_spec edwards_tc26_512_paramSetC

theorem curve [Fact (ec_tc26_512_paramSetC.p.Prime)] (gen : CurvePoint (edA (EcpChain_tc26_512_paramSetC.S : ZMod ec_tc26_512_paramSetC.p) (EcpChain_tc26_512_paramSetC.T : ZMod ec_tc26_512_paramSetC.p)) (edB (EcpChain_tc26_512_paramSetC.S : ZMod ec_tc26_512_paramSetC.p) (EcpChain_tc26_512_paramSetC.T : ZMod ec_tc26_512_paramSetC.p)))
    (hg : EPt _ _ EcpChain_tc26_512_paramSetC.u EcpChain_tc26_512_paramSetC.v gen) (ho : ec_tc26_512_paramSetC.q • gen = 0) :
    ECurve file.ops lut_cmb ec_tc26_512_paramSetC.p 64 102 7 18 (fun x => Bounded x bal) (solVal ec_tc26_512_paramSetC.p W) (EcpChain_tc26_512_paramSetC.S : ZMod ec_tc26_512_paramSetC.p) (EcpChain_tc26_512_paramSetC.T : ZMod ec_tc26_512_paramSetC.p) (EcpChain_tc26_512_paramSetC.d : ZMod ec_tc26_512_paramSetC.p) gen ec_tc26_512_paramSetC.q where
  field := field_sound
  fits := ⟨cast_of_mod (by decide +kernel), cast_of_mod (by decide +kernel), cast_of_mod (by decide +kernel)⟩
  params := ed_ok.1
  S_nonsq := ed_ok.2.1
  order := ho
  order_odd := by decide +kernel
  table := eTable ed_ok.1 (fun _ h => boundedB_sound h) (decL_sol W) rfl rows16 entries_ok EcpChain_tc26_512_paramSetC.chain_ok table_ok rfl hg
  rows_pos := by decide
  cols_pos := by decide
  comb := by decide
  digits := by decide
  nb_pos := by decide
  size := by decide +kernel

end Gost.Ecp_tc26_512_paramSetC_32
