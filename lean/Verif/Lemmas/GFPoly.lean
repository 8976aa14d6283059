import Verif.Spec.GFPoly
import Verif.Spec.Kuznyechik
import Mathlib.Algebra.CharP.Two
import Mathlib.Tactic.LinearCombination

/-! # The shift-and-add multiplication is polynomial multiplication modulo `X^n + c` -/

namespace Gost
open Spec Polynomial

theorem toPoly_xor {n : Nat} (a b : BitVec n) : toPoly (a ^^^ b) = toPoly a + toPoly b := by
  unfold toPoly
  rw [← Finset.sum_add_distrib]
  apply Finset.sum_congr rfl
  intro i _
  rw [BitVec.getLsbD_xor]
  cases a.getLsbD i <;> cases b.getLsbD i <;> simp [CharTwo.add_self_eq_zero]

@[simp] theorem toPoly_zero (n : Nat) : toPoly (0#n) = 0 := by
  unfold toPoly; simp

theorem toPoly_coeff {n : Nat} (a : BitVec n) (i : Nat) :
    (toPoly a).coeff i = if a.getLsbD i then 1 else 0 := by
  unfold toPoly
  rw [finsetSum_coeff]
  by_cases hi : i < n
  · rw [Finset.sum_eq_single i]
    · split <;> simp
    · intro j _ hj
      split
      · rw [coeff_X_pow, if_neg (Ne.symm hj)]
      · simp
    · intro h; simp at h; omega
  · rw [BitVec.getLsbD_of_ge _ _ (by omega)]
    rw [Finset.sum_eq_zero]
    · simp
    · intro j hj
      simp at hj
      split
      · rw [coeff_X_pow, if_neg (by omega)]
      · simp

theorem toPoly_injective {n : Nat} {a b : BitVec n} (h : toPoly a = toPoly b) : a = b := by
  apply BitVec.eq_of_getLsbD_eq
  intro i hi
  have := congrArg (fun p => p.coeff i) h
  simp only [toPoly_coeff] at this
  cases ha : a.getLsbD i <;> cases hb : b.getLsbD i <;> simp_all

theorem toPoly_degree_lt {n : Nat} (a : BitVec n) : (toPoly a).degree < n := by
  rw [degree_lt_iff_coeff_zero]
  intro m hm
  rw [toPoly_coeff, BitVec.getLsbD_of_ge _ _ (by omega)]
  simp

theorem modulus_monic {n : Nat} (c : BitVec n) : (modulus c).Monic :=
  monic_X_pow_add (by have := toPoly_degree_lt c; exact this)

theorem modulus_degree {n : Nat} (c : BitVec n) : (modulus c).degree = n := by
  unfold modulus
  rw [degree_add_eq_left_of_degree_lt (by rw [degree_X_pow]; exact toPoly_degree_lt c), degree_X_pow]

theorem toPoly_mod {n : Nat} (c a : BitVec n) : toPoly a %ₘ modulus c = toPoly a := by
  rw [modByMonic_eq_self_iff (modulus_monic c), modulus_degree]
  exact toPoly_degree_lt a

/-- `toPoly a` represents the class of `f` iff they are congruent modulo the modulus. -/
theorem toPoly_eq_of_dvd {n : Nat} (c a : BitVec n) (f : (ZMod 2)[X]) (h : modulus c ∣ toPoly a - f) :
    toPoly a = f %ₘ modulus c := by
  have h1 : (toPoly a - f) %ₘ modulus c = 0 := (modByMonic_eq_zero_iff_dvd (modulus_monic c)).mpr h
  rw [sub_modByMonic, toPoly_mod] at h1
  exact sub_eq_zero.mp h1

theorem toPoly_shift {n : Nat} (hn : 0 < n) (a : BitVec n) :
    toPoly (a <<< 1) = X * toPoly a - (if a.msb then X ^ n else 0) := by
  ext i
  rw [coeff_sub, toPoly_coeff, BitVec.getLsbD_shiftLeft]
  have hm : a.msb = a.getLsbD (n - 1) := by rw [BitVec.msb_eq_getLsbD_last]
  cases i with
  | zero =>
    have : (X * toPoly a).coeff 0 = 0 := by simp
    rw [this]
    cases a.msb <;> simp [coeff_X_pow, show ¬ (0 = n) by omega]
  | succ i =>
    rw [coeff_X_mul, toPoly_coeff]
    simp only [Nat.add_sub_cancel]
    by_cases hi : i + 1 < n
    · have e : (if a.msb then (X:(ZMod 2)[X]) ^ n else 0).coeff (i + 1) = 0 := by
        split
        · rw [coeff_X_pow, if_neg (by omega)]
        · simp
      rw [e]; simp [hi]
    · by_cases hi2 : i + 1 = n
      · have e : i = n - 1 := by omega
        subst e
        rw [← hm]
        cases a.msb
        · simp
        · simp [show n - 1 + 1 = n by omega]
      · have e : (if a.msb then (X:(ZMod 2)[X]) ^ n else 0).coeff (i + 1) = 0 := by
          split
          · rw [coeff_X_pow, if_neg hi2]
          · simp
        rw [e, BitVec.getLsbD_of_ge _ _ (by omega)]; simp

theorem xtime_dvd {n : Nat} (hn : 0 < n) (c a : BitVec n) : modulus c ∣ toPoly (xtime c a) - X * toPoly a := by
  unfold xtime
  rw [toPoly_xor, toPoly_shift hn]
  cases a.msb
  · simp
  · simp only [if_true]
    have : X * toPoly a - X ^ n + toPoly c - X * toPoly a = modulus c - (2 : (ZMod 2)[X]) * X ^ n := by
      unfold modulus; ring
    rw [this]
    have h2 : (2 : (ZMod 2)[X]) = 0 := CharTwo.two_eq_zero
    rw [h2]; simp

theorem xtime_iter_dvd {n : Nat} (hn : 0 < n) (c a : BitVec n) (k : Nat) :
    modulus c ∣ toPoly (iter (xtime c) k a) - X ^ k * toPoly a := by
  induction k generalizing a with
  | zero => simp [iter]
  | succ k ih =>
    have h1 := ih (xtime c a)
    have h2 := Dvd.dvd.mul_left (xtime_dvd hn c a) (X ^ k)
    have := dvd_add h1 h2
    refine (this.trans (dvd_of_eq ?_))
    simp only [iter, pow_succ]
    ring

theorem foldl_iterx {n : Nat} (c a b : BitVec n) (m : Nat) :
    (List.range m).foldl (fun s i => (if b.getLsbD i then s.1 ^^^ s.2 else s.1, xtime c s.2)) (0, a) =
      ((List.range m).foldl (fun s i => if b.getLsbD i then s ^^^ iter (xtime c) i a else s) 0, iter (xtime c) m a) := by
  induction m with
  | zero => rfl
  | succ m ih =>
    rw [List.range_succ, List.foldl_append, ih, List.foldl_append]
    simp only [List.foldl_cons, List.foldl_nil]
    refine Prod.ext rfl ?_
    have : ∀ k (x : BitVec n), xtime c (iter (xtime c) k x) = iter (xtime c) (k + 1) x := by
      intro k
      induction k with
      | zero => intro x; rfl
      | succ k ih => intro x; exact ih (xtime c x)
    exact this m a

theorem gfMul_sum_dvd {n : Nat} (hn : 0 < n) (c a b : BitVec n) (m : Nat) :
    modulus c ∣ toPoly ((List.range m).foldl (fun s i => if b.getLsbD i then s ^^^ iter (xtime c) i a else s) 0) -
      (∑ i ∈ Finset.range m, if b.getLsbD i then X ^ i else 0) * toPoly a := by
  induction m with
  | zero => simp
  | succ m ih =>
    rw [List.range_succ, List.foldl_append, Finset.sum_range_succ]
    simp only [List.foldl_cons, List.foldl_nil]
    cases hb : b.getLsbD m with
    | false => simpa using ih
    | true =>
      simp only [if_true]
      rw [toPoly_xor]
      refine (dvd_add ih (xtime_iter_dvd hn c a m)).trans (dvd_of_eq ?_)
      ring

/-- The shift-and-add product is the product of the polynomials modulo `X^n + c`. -/
theorem gfMul_poly {n : Nat} (hn : 0 < n) (c a b : BitVec n) :
    toPoly (gfMul c a b) = (toPoly a * toPoly b) %ₘ modulus c := by
  apply toPoly_eq_of_dvd
  unfold gfMul
  rw [foldl_iterx]
  refine (gfMul_sum_dvd hn c a b n).trans (dvd_of_eq ?_)
  rw [mul_comm (toPoly a)]
  rfl

theorem gfMul_comm {n : Nat} (c a b : BitVec n) : gfMul c a b = gfMul c b a := by
  cases n with
  | zero => exact Subsingleton.elim _ _
  | succ n =>
    apply toPoly_injective
    rw [gfMul_poly (by omega), gfMul_poly (by omega), mul_comm]

theorem gfMul_xor_left {n : Nat} (c a a' b : BitVec n) :
    gfMul c (a ^^^ a') b = gfMul c a b ^^^ gfMul c a' b := by
  cases n with
  | zero => exact Subsingleton.elim _ _
  | succ n =>
    apply toPoly_injective
    rw [toPoly_xor, gfMul_poly (by omega), gfMul_poly (by omega), gfMul_poly (by omega), toPoly_xor, add_mul,
      add_modByMonic]

theorem gfMul_assoc {n : Nat} (c a b d : BitVec n) : gfMul c (gfMul c a b) d = gfMul c a (gfMul c b d) := by
  cases n with
  | zero => exact Subsingleton.elim _ _
  | succ n =>
    apply toPoly_injective
    rw [gfMul_poly (by omega), gfMul_poly (by omega), gfMul_poly (by omega), gfMul_poly (by omega)]
    have h : ∀ f g : (ZMod 2)[X], (f %ₘ modulus c * g) %ₘ modulus c = (f * g) %ₘ modulus c := by
      intro f g
      rw [← sub_eq_zero, ← sub_modByMonic, modByMonic_eq_zero_iff_dvd (modulus_monic c), ← sub_mul]
      apply Dvd.dvd.mul_right
      have := modByMonic_add_div f (modulus c)
      refine ⟨-(f /ₘ modulus c), ?_⟩
      linear_combination this
    rw [h, mul_comm (toPoly a) (toPoly b * toPoly d %ₘ modulus c), h, mul_comm _ (toPoly a), mul_assoc]

end Gost
