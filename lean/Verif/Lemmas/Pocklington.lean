import Mathlib.Algebra.Field.ZMod
import Mathlib.RingTheory.IntegralDomain
import Mathlib.FieldTheory.Finite.Basic
import Mathlib.GroupTheory.OrderOfElement
import Mathlib.Data.Nat.Prime.Basic
import Mathlib.Data.Nat.GCD.BigOperators

/-!
# Pocklington's primality criterion

Used to prove that the moduli and the orders of the built-in curves are prime.
-/

namespace Gost

/-- `a ^ e % n` by repeated squaring; `fuel` bounds the number of bits of `e`. -/
def powModAux (n : Nat) : Nat → Nat → Nat → Nat → Nat
  | 0, _, _, acc => acc
  | fuel + 1, a, e, acc => powModAux n fuel (a * a % n) (e / 2) (if e % 2 = 1 then acc * a % n else acc)

/-- `a ^ e % n` (for `e < 2^fuel`). -/
def powMod (n fuel a e : Nat) : Nat := powModAux n fuel (a % n) e (1 % n)

theorem powModAux_eq (n fuel a e acc : Nat) (he : e < 2 ^ fuel) :
    ((powModAux n fuel a e acc : Nat) : ZMod n) = (acc : ZMod n) * (a : ZMod n) ^ e := by
  induction fuel generalizing a e acc with
  | zero =>
    have : e = 0 := by simpa using he
    simp [powModAux, this]
  | succ f ih =>
    rw [powModAux, ih _ _ _ (by rw [pow_succ] at he; omega)]
    have h2 : e = 2 * (e / 2) + e % 2 := by omega
    have hm : ((a * a % n : Nat) : ZMod n) = (a : ZMod n) ^ 2 := by simp [pow_two]
    rw [hm, ← pow_mul]
    rcases Nat.mod_two_eq_zero_or_one e with h | h
    · rw [if_neg (by omega)]
      conv_rhs => rw [h2, h, Nat.add_zero]
    · rw [if_pos h]
      conv_rhs => rw [h2, h, pow_succ]
      simp only [ZMod.natCast_mod, Nat.cast_mul]
      ring

theorem powMod_eq (n fuel a e : Nat) (he : e < 2 ^ fuel) : ((powMod n fuel a e : Nat) : ZMod n) = (a : ZMod n) ^ e := by
  rw [powMod, powModAux_eq n fuel _ e _ he]
  simp

/-- What a prime factor of `N` looks like when a base has order divisible by the full power of `q` in `N - 1`. -/
theorem pocklington_factor {N q r : Nat} (hN : 1 < N) (hq : q.Prime) (hdvd : q ∣ N - 1) (a : Nat)
    (h1 : (a : ZMod N) ^ (N - 1) = 1) (h2 : ∃ w : Nat, (w : ZMod N) * ((a : ZMod N) ^ ((N - 1) / q) - 1) = 1)
    (hr : r.Prime) (hrN : r ∣ N) : q ∣ r - 1 := by
  have : Fact r.Prime := ⟨hr⟩
  let φ : ZMod N →+* ZMod r := ZMod.castHom hrN (ZMod r)
  have e1 : (a : ZMod r) ^ (N - 1) = 1 := by
    have := congrArg φ h1
    simpa using this
  obtain ⟨w, hw⟩ := h2
  have e2 : (w : ZMod r) * ((a : ZMod r) ^ ((N - 1) / q) - 1) = 1 := by
    have := congrArg φ hw
    simpa using this
  have e3 : (a : ZMod r) ^ ((N - 1) / q) ≠ 1 := by
    intro h
    rw [h, sub_self, mul_zero] at e2
    exact zero_ne_one e2
  have hpos : N - 1 ≠ 0 := by omega
  -- the order of `a` modulo `r`
  have hord1 : orderOf (a : ZMod r) ∣ N - 1 := orderOf_dvd_of_pow_eq_one e1
  have hord2 : ¬ orderOf (a : ZMod r) ∣ (N - 1) / q := fun h => e3 (orderOf_dvd_iff_pow_eq_one.1 h)
  have ha0 : (a : ZMod r) ≠ 0 := by
    intro h
    rw [h, zero_pow hpos] at e1
    exact zero_ne_one e1
  have hord3 : orderOf (a : ZMod r) ∣ r - 1 := orderOf_dvd_of_pow_eq_one (ZMod.pow_card_sub_one_eq_one ha0)
  refine dvd_trans ?_ hord3
  by_contra hnot
  apply hord2
  have hcop : Nat.Coprime (orderOf (a : ZMod r)) q := ((Nat.Prime.coprime_iff_not_dvd hq).2 hnot).symm
  have : orderOf (a : ZMod r) ∣ (N - 1) / q * q := by rwa [Nat.div_mul_cancel hdvd]
  exact hcop.dvd_of_dvd_mul_right this

/-- One prime factor `q` of `N - 1`, the base `a`, and an inverse `w` of `a ^ ((N-1)/q) - 1`. -/
structure PockStep where
  q : Nat
  a : Nat
  w : Nat

/-- The conditions on one factor. -/
def PockStep.check (N fuel : Nat) (s : PockStep) : Bool :=
  decide ((N - 1) % s.q = 0) && decide (powMod N fuel s.a (N - 1) = 1) &&
    decide (s.w * (powMod N fuel s.a ((N - 1) / s.q) + (N - 1)) % N = 1)

theorem PockStep.dvd {N fuel : Nat} {s : PockStep} (h : s.check N fuel = true) (h1 : 1 < N) (h4 : N < 2 ^ fuel)
    (hq : s.q.Prime) {r : Nat} (hr : r.Prime) (hrN : r ∣ N) : s.q ∣ r - 1 := by
  simp only [PockStep.check, Bool.and_eq_true, decide_eq_true_eq] at h
  obtain ⟨⟨h2, h5⟩, h6⟩ := h
  have hdvd : s.q ∣ N - 1 := Nat.dvd_of_mod_eq_zero h2
  have e1 : (s.a : ZMod N) ^ (N - 1) = 1 := by
    rw [← powMod_eq N fuel s.a (N - 1) (by omega), h5]; simp
  have e2 : (s.w : ZMod N) * ((s.a : ZMod N) ^ ((N - 1) / s.q) - 1) = 1 := by
    have hlt : (N - 1) / s.q < 2 ^ fuel := lt_of_le_of_lt (Nat.div_le_self _ _) (by omega)
    rw [← powMod_eq N fuel s.a _ hlt]
    have := congrArg (fun t : Nat => (t : ZMod N)) h6
    simp only [ZMod.natCast_mod, Nat.cast_mul, Nat.cast_add, Nat.cast_one] at this
    rw [Nat.cast_sub (by omega : 1 ≤ N)] at this
    simp only [CharP.cast_eq_zero, Nat.cast_one, zero_sub] at this
    rw [sub_eq_add_neg]
    exact this
  exact pocklington_factor h1 hq hdvd s.a e1 ⟨s.w, e2⟩ hr hrN

/-- Pocklington's criterion with a product of different prime factors of `N - 1` that exceeds the square root of `N`. -/
theorem pocklington {N : Nat} (steps : List PockStep) (fuel : Nat) (hprime : ∀ s ∈ steps, s.q.Prime)
    (hcheck : (decide (1 < N) && decide (N < 2 ^ fuel) && decide ((steps.map (·.q)).Nodup) &&
      decide (N < ((steps.map (·.q)).prod + 1) * ((steps.map (·.q)).prod + 1)) &&
      steps.all (PockStep.check N fuel)) = true) : N.Prime := by
  simp only [Bool.and_eq_true, decide_eq_true_eq, List.all_eq_true] at hcheck
  obtain ⟨⟨⟨⟨h1, h4⟩, hnd⟩, h3⟩, hall⟩ := hcheck
  by_contra hnp
  have hr := Nat.minFac_prime (by omega : N ≠ 1)
  have hle : N.minFac ^ 2 ≤ N := Nat.minFac_sq_le_self (by omega) hnp
  have hqr : ∀ s ∈ steps, s.q ∣ N.minFac - 1 := fun s hs =>
    PockStep.dvd (hall s hs) h1 h4 (hprime s hs) hr (Nat.minFac_dvd N)
  have hprod : (steps.map (·.q)).prod ∣ N.minFac - 1 := by
    clear hall h3
    revert hnd hprime hqr
    generalize N.minFac - 1 = m
    induction steps with
    | nil => intros; simp
    | cons s ss ih =>
      intro hprime hnd hqr
      simp only [List.map_cons, List.prod_cons]
      rw [List.map_cons, List.nodup_cons] at hnd
      refine Nat.Coprime.mul_dvd_of_dvd_of_dvd ?_ (hqr s (by simp))
        (ih (fun t ht => hprime t (List.mem_cons_of_mem _ ht)) hnd.2 (fun t ht => hqr t (List.mem_cons_of_mem _ ht)))
      refine Nat.coprime_list_prod_right_iff.2 fun x hx => ?_
      obtain ⟨t, ht, rfl⟩ := List.mem_map.1 hx
      refine (Nat.coprime_primes (hprime s (by simp)) (hprime t (List.mem_cons_of_mem _ ht))).2 ?_
      intro heq
      exact hnd.1 (List.mem_map.2 ⟨t, ht, heq.symm⟩)
  have h2 := hr.two_le
  have : (steps.map (·.q)).prod ≤ N.minFac - 1 := Nat.le_of_dvd (by omega) hprod
  have h7 : (steps.map (·.q)).prod + 1 ≤ N.minFac := by omega
  have : ((steps.map (·.q)).prod + 1) * ((steps.map (·.q)).prod + 1) ≤ N.minFac ^ 2 := by
    rw [pow_two]; exact Nat.mul_le_mul h7 h7
  omega

end Gost
