import Verif.Model.Ec
import Verif.Spec.EcSign
import Verif.Lemmas.StreebogCore
import Mathlib.FieldTheory.Finite.Basic
import Mathlib.Data.ZMod.Basic

/-!
# Lemmas for GOST R 34.10
-/

namespace Gost

open Spec (leNat beNat leBytes beBytes)

variable {G : Type} [AddCommGroup G]

/-- What the model assumes of an `EC_GROUP`: a generator of prime order `q`, coordinates for exactly the finite points and
smaller than the field characteristic, and point multiplications that compute multiples (`Verif/Props/Ecp.lean` proves
this of the code of `/repo/ecp_*.c`; the one of a single point multiplies by the cofactor in addition).  Scalars up to the
size of the field are accepted; a point at infinity as operand is refused by the code, nothing is assumed then.  The
simultaneous multiplication is only required to be right for points of the subgroup: with Edwards coordinates it is not
right for all others (`C45_two_reports_order2_as_infinity`). -/
structure EcGroup.Sound (E : EcGroup G) : Prop where
  prime : E.order.Prime
  gen_order : E.order • E.gen = 0
  gen_ne : E.gen ≠ 0
  fits : E.order ≤ 256 ^ BN_num_bytes E.field
  coords_zero : E.coords 0 = none
  coords_some : ∀ P, P ≠ 0 → ∃ x y, E.coords P = some (x, y) ∧ x < E.field ∧ y < E.field
  mulG : ∀ n, n < 256 ^ BN_num_bytes E.field → E.mulG n = some (n • E.gen)
  mulTwo : ∀ n Q m, n < E.order → m < E.order → Q ≠ 0 → E.order • Q = 0 → E.mulTwo n Q m = some (n • E.gen + m • Q)
  mulVar : ∀ Q m, m < E.order → Q ≠ 0 → E.mulVar Q m = some ((E.cofactor * m) • Q)
  cofactor : ¬ E.order ∣ E.cofactor

/-- The x-coordinate, when there is one. -/
def EcGroup.xc (E : EcGroup G) (P : G) : Option Nat := (E.coords P).map (·.1)

theorem nsmul_congr {P : G} {q a b : Nat} (hq : q • P = 0) (h : (a : ZMod q) = b) : a • P = b • P := by
  have h2 := (ZMod.natCast_eq_natCast_iff a b q).1 h
  rw [← Nat.mod_add_div a q, ← Nat.mod_add_div b q, add_nsmul, add_nsmul, mul_nsmul, mul_nsmul, hq, nsmul_zero, nsmul_zero, h2]

theorem nsmul_eq_zero_iff {P : G} {q a : Nat} (hp : q.Prime) (hq : q • P = 0) (h0 : P ≠ 0) : a • P = 0 ↔ q ∣ a := by
  have ho : addOrderOf P = q := addOrderOf_eq_prime hq h0 (hp := ⟨hp⟩)
  rw [← ho]
  exact addOrderOf_dvd_iff_nsmul_eq_zero.symm

theorem nsmul_inj {P : G} {q a b : Nat} (hp : q.Prime) (hq : q • P = 0) (h0 : P ≠ 0) (h : a • P = b • P) :
    (a : ZMod q) = b := by
  have ho : addOrderOf P = q := addOrderOf_eq_prime hq h0 (hp := ⟨hp⟩)
  rw [ZMod.natCast_eq_natCast_iff, ← ho]
  exact nsmul_eq_nsmul_iff_modEq.1 h

theorem digestNum_eq (q : Nat) (dgst : Bytes) : digestNum q dgst = Spec.digestNumber q dgst := by
  simp only [digestNum, Spec.digestNumber, Nat.dvd_iff_mod_eq_zero]

theorem digestNum_pos (q : Nat) (dgst : Bytes) : 0 < digestNum q dgst := by
  unfold digestNum; simp only; split <;> omega

theorem digestNum_lt (q : Nat) (hq : 1 < q) (dgst : Bytes) : digestNum q dgst < q := by
  unfold digestNum; simp only; split
  · exact hq
  · exact Nat.mod_lt _ (by omega)

theorem BN_mod_inverse_prime (a q : Nat) (hp : q.Prime) (h0 : 0 < a) (h1 : a < q) :
    ∃ v, BN_mod_inverse a q = some v ∧ v < q ∧ (v : ZMod q) * a = 1 := by
  have hc : Nat.gcd a q = 1 := Nat.Coprime.symm ((Nat.Prime.coprime_iff_not_dvd hp).2 (Nat.not_dvd_of_pos_of_lt h0 h1))
  have hq : (0 : Int) < q := by exact_mod_cast hp.pos
  refine ⟨(Nat.gcdA a q % q).toNat, if_pos hc, ?_, ?_⟩
  · have := Int.emod_lt_of_pos (Nat.gcdA a q) hq
    have := Int.emod_nonneg (Nat.gcdA a q) hq.ne'
    omega
  · have hb := Nat.gcd_eq_gcd_ab a q
    rw [hc] at hb
    have h2 := Int.emod_nonneg (Nat.gcdA a q) hq.ne'
    have h3 : (((Nat.gcdA a q % q).toNat : Nat) : ZMod q) = ((Nat.gcdA a q % q : Int) : ZMod q) := by
      rw [← Int.cast_natCast, Int.toNat_of_nonneg h2]
    rw [h3]
    have h4 : ((Nat.gcdA a q % q : Int) : ZMod q) = ((Nat.gcdA a q : Int) : ZMod q) := by
      rw [ZMod.intCast_eq_intCast_iff]
      exact Int.mod_modEq _ _
    rw [h4]
    have h5 := congrArg (fun z : Int => (z : ZMod q)) hb
    simp only [Int.cast_add, Int.cast_mul, Int.cast_natCast, Nat.cast_one, Int.cast_one, ZMod.natCast_self, zero_mul, add_zero] at h5
    rw [mul_comm]
    exact h5.symm

theorem Prime_one_lt {q : Nat} (h : q.Prime) : 1 < q := h.one_lt

/-- Verification in terms of the group. -/
theorem verify_eq (E : EcGroup G) (hE : E.Sound) (dgst : Bytes) (hl : dgst.length = 32 ∨ dgst.length = 64) (r s : Nat)
    (hr0 : r ≠ 0) (hr : r < E.order) (hs0 : s ≠ 0) (hs : s < E.order) (Q : G) (hQ : Q ≠ 0)
    (hQq : E.order • Q = 0) :
    ∃ z1 z2 : Nat, (z1 : ZMod E.order) * digestNum E.order dgst = s ∧ (z2 : ZMod E.order) * digestNum E.order dgst = -(r : ZMod E.order) ∧
      gost_ec_verify E dgst r s Q =
        match E.coords (z1 • E.gen + z2 • Q) with
        | none => 0
        | some (X, _) => if X % E.order ≠ r then 0 else 1 := by
  have hp := hE.prime
  obtain ⟨v, hv, hvq, hv1⟩ := BN_mod_inverse_prime _ E.order hp (digestNum_pos E.order dgst) (digestNum_lt E.order hp.one_lt dgst)
  refine ⟨s * v % E.order, (E.order - r) * v % E.order, ?_, ?_, ?_⟩
  · rw [ZMod.natCast_mod, Nat.cast_mul, mul_assoc, hv1, mul_one]
  · rw [ZMod.natCast_mod, Nat.cast_mul, mul_assoc, hv1, mul_one, Nat.cast_sub hr.le, ZMod.natCast_self, zero_sub]
  · unfold gost_ec_verify
    rw [if_neg (by simp only [Int.natAbs_natCast]; omega), if_neg (by tauto)]
    simp only [hv, gost_ec_point_mul, Int.natAbs_natCast]
    rw [hE.mulTwo _ _ _ (Nat.mod_lt _ hp.pos) (Nat.mod_lt _ hp.pos) hQ hQq]
    rfl

end Gost
