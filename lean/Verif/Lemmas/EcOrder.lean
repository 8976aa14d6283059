import Verif.Lemmas.EcCompute
import Verif.Lemmas.EcpEdwards
import Mathlib.FieldTheory.Finite.Basic
import Mathlib.GroupTheory.Perm.Cycle.Type
import Mathlib.GroupTheory.Index
import Mathlib.GroupTheory.Coset.Card
import Mathlib.Tactic.IntervalCases

/-!
# The number of points of a curve

For a curve with a point of prime order `q` the trivial bound `2 p + 1` leaves few multiples of `q`; points of order 2, 4
and 8 decide among them.
-/

namespace Gost

open WeierstrassCurve

/-! ## Curves without a point of order 2 -/

/-- Product of two polynomials of degree at most 2 modulo `x³ + a x + b`, coefficients modulo `p`. -/
def cubMul (p a b : Nat) (c d : Nat × Nat × Nat) : Nat × Nat × Nat :=
  let e0 := c.1 * d.1
  let e1 := c.1 * d.2.1 + c.2.1 * d.1
  let e2 := c.1 * d.2.2 + c.2.1 * d.2.1 + c.2.2 * d.1
  let e3 := c.2.1 * d.2.2 + c.2.2 * d.2.1
  let e4 := c.2.2 * d.2.2
  ((e0 + (p - b) * e3) % p, (e1 + (p - a) * e3 + (p - b) * e4) % p, (e2 + (p - a) * e4) % p)

/-- `x^e` modulo `x³ + a x + b` by repeated squaring. -/
def cubPow (p a b : Nat) : Nat → Nat × Nat × Nat → Nat → Nat × Nat × Nat → Nat × Nat × Nat
  | 0, _, _, acc => acc
  | fuel + 1, c, e, acc => cubPow p a b fuel (cubMul p a b c c) (e / 2) (if e % 2 = 1 then cubMul p a b acc c else acc)

/-- The value of a polynomial of degree at most 2. -/
def cubVal {p : Nat} (t : ZMod p) (c : Nat × Nat × Nat) : ZMod p := c.1 + c.2.1 * t + c.2.2 * t ^ 2

section
variable {p : Nat}

theorem cubMul_val {a b : Nat} (ha : a ≤ p) (hb : b ≤ p) {t : ZMod p} (ht : t ^ 3 + a * t + b = 0) (c d : Nat × Nat × Nat) :
    cubVal t (cubMul p a b c d) = cubVal t c * cubVal t d := by
  simp only [cubVal, cubMul, ZMod.natCast_mod]
  push_cast
  rw [cast_subN (dvd_refl p) ha, cast_subN (dvd_refl p) hb]
  linear_combination (-((c.2.1 : ZMod p) * d.2.2 + c.2.2 * d.2.1) - c.2.2 * d.2.2 * t) * ht

theorem cubPow_val {a b : Nat} (ha : a ≤ p) (hb : b ≤ p) {t : ZMod p} (ht : t ^ 3 + a * t + b = 0) (fuel : Nat)
    (c : Nat × Nat × Nat) (e : Nat) (acc : Nat × Nat × Nat) (he : e < 2 ^ fuel) :
    cubVal t (cubPow p a b fuel c e acc) = cubVal t acc * cubVal t c ^ e := by
  induction fuel generalizing c e acc with
  | zero =>
    have : e = 0 := by simpa using he
    simp [cubPow, this]
  | succ f ih =>
    rw [cubPow, ih _ _ _ (by rw [pow_succ] at he; omega), cubMul_val ha hb ht]
    have h2 : e = 2 * (e / 2) + e % 2 := by omega
    have hs : (cubVal t c * cubVal t c) ^ (e / 2) = cubVal t c ^ (2 * (e / 2)) := by rw [pow_mul, pow_two]
    rw [hs]
    rcases Nat.mod_two_eq_zero_or_one e with h | h
    · rw [if_neg (by omega)]
      conv_rhs => rw [h2, h, Nat.add_zero]
    · rw [if_pos h, cubMul_val ha hb ht]
      conv_rhs => rw [h2, h, pow_succ]
      ring

/-- `v` is an inverse of `x^p - x` modulo `x³ + a x + b`: the polynomial has no root. -/
def noRootCheck (p a b bits : Nat) (v : Nat × Nat × Nat) : Bool :=
  let h := cubPow p a b bits (0, 1, 0) p (1, 0, 0)
  decide (a ≤ p) && decide (b ≤ p) && decide (p < 2 ^ bits) &&
    decide (cubMul p a b v (h.1, h.2.1 + (p - 1), h.2.2) = (1, 0, 0))

theorem noRoot [hp : Fact p.Prime] {a b bits : Nat} {v : Nat × Nat × Nat} (h : noRootCheck p a b bits v = true) (t : ZMod p) :
    t ^ 3 + a * t + b ≠ 0 := by
  intro ht
  simp only [noRootCheck, Bool.and_eq_true, decide_eq_true_eq] at h
  obtain ⟨⟨⟨ha, hb⟩, hbits⟩, hv⟩ := h
  have h1 := congrArg (cubVal t) hv
  rw [cubMul_val ha hb ht] at h1
  have h2 := cubPow_val ha hb ht bits (0, 1, 0) p (1, 0, 0) hbits
  have e1 : cubVal t (0, 1, 0) = t := by simp [cubVal]
  have e2 : cubVal t (1, 0, 0) = 1 := by simp [cubVal]
  rw [e1, e2, one_mul, ZMod.pow_card] at h2
  rw [e2] at h1
  generalize cubPow p a b bits (0, 1, 0) p (1, 0, 0) = w at h1 h2
  have h3 : cubVal t (w.1, w.2.1 + (p - 1), w.2.2) = 0 := by
    have : cubVal t (w.1, w.2.1 + (p - 1), w.2.2) = cubVal t w - t := by
      simp only [cubVal]
      push_cast
      rw [cast_subN (dvd_refl p) hp.out.one_lt.le]
      push_cast
      ring
    rw [this, h2, sub_self]
  rw [h3, mul_zero] at h1
  exact zero_ne_one h1

/-- Number of points when there is no point of order 2. -/
theorem card_of_noRoot [hp : Fact p.Prime] {a b : ZMod p} (h2 : (2 : ZMod p) ≠ 0) (hno : ∀ x : ZMod p, x ^ 3 + a * x + b ≠ 0) {q : Nat} (hq : q.Prime)
    (hb : 2 * p + 1 < 3 * q) {G : CurvePoint a b} (hG : q • G = 0) (hG0 : G ≠ 0) : Nat.card (CurvePoint a b) = q := by
  obtain ⟨hfin, hcard⟩ := card_le a b
  have hord : addOrderOf G = q := by
    rcases (Nat.dvd_prime hq).1 (addOrderOf_dvd_of_nsmul_eq_zero hG) with h' | h'
    · exact absurd (AddMonoid.addOrderOf_eq_one_iff.1 h') hG0
    · exact h'
  have hdvd : q ∣ Nat.card (CurvePoint a b) := hord ▸ addOrderOf_dvd_natCard G
  obtain ⟨k, hk⟩ := hdvd
  have hpos : 0 < Nat.card (CurvePoint a b) := Nat.card_pos
  have hodd : ¬ 2 ∣ Nat.card (CurvePoint a b) := by
    intro hd
    have : Fact (Nat.Prime 2) := ⟨Nat.prime_two⟩
    obtain ⟨P, hP⟩ := exists_prime_addOrderOf_dvd_card' 2 hd
    have hP2 : 2 • P = 0 := by rw [← hP]; exact addOrderOf_nsmul_eq_zero P
    cases P with
    | zero =>
      have h1 : addOrderOf (0 : CurvePoint a b) = 2 := hP
      rw [addOrderOf_zero] at h1
      exact absurd h1 (by decide)
    | some x y hn =>
      by_cases hy : y = 0
      · have := shortW_equation hn
        rw [hy] at this
        exact hno x (by linear_combination -this)
      · have hne : y ≠ (shortW a b).toAffine.negY x y := by
          rw [shortW_negY]
          intro hc
          apply hy
          have : 2 * y = 0 := by linear_combination hc
          exact (mul_eq_zero.1 this).resolve_left h2
        rw [two_nsmul, Affine.Point.add_self_of_Y_ne hne] at hP2
        exact absurd hP2 (Affine.Point.some_ne_zero _)
  have hk3 : k < 3 := by
    by_contra hc
    have : 3 * q ≤ q * k := by nlinarith [hq.pos]
    omega
  have hk0 : k ≠ 0 := by rintro rfl; omega
  have hk2 : k ≠ 2 := by rintro rfl; exact hodd ⟨q, by omega⟩
  have : k = 1 := by omega
  rw [hk, this, mul_one]

end

/-! ## Curves in Edwards form -/

section
variable {p : Nat} [hp : Fact p.Prime] {S T d : ZMod p}

theorem ed_double (h : EdParams S T d) {x y : ZMod p} (hn : (shortW (edA S T) (edB S T)).toAffine.Nonsingular x y) (hy : y ≠ 0) :
    ∃ (x' y' : ZMod p) (hn' : (shortW (edA S T) (edB S T)).toAffine.Nonsingular x' y'),
      2 • (Affine.Point.some x y hn : CurvePoint (edA S T) (edB S T)) = .some x' y' hn' ∧
      (x' - T) * (2 * y) ^ 2 = ((x - T) ^ 2 - S ^ 2) ^ 2 := by
  have hne : y ≠ (shortW (edA S T) (edB S T)).toAffine.negY x y := by
    rw [shortW_negY]
    intro hc
    apply hy
    have : 2 * y = 0 := by linear_combination hc
    exact (mul_eq_zero.1 this).resolve_left h.two
  refine ⟨_, _, _, by rw [two_nsmul, Affine.Point.add_self_of_Y_ne hne], ?_⟩
  rw [Affine.slope_of_Y_ne rfl hne, shortW_negY]
  have h2y : y - -y ≠ 0 := by
    intro hc
    apply hy
    have : 2 * y = 0 := by linear_combination hc
    exact (mul_eq_zero.1 this).resolve_left h.two
  have e := ed_equation h hn
  simp only [Affine.addX, mul_zero, zero_mul, add_zero, sub_zero]
  have h2 := h.two
  have key : ((3 * x ^ 2 + (S ^ 2 - 3 * T ^ 2)) / (y - -y)) * (2 * y) = 3 * x ^ 2 + (S ^ 2 - 3 * T ^ 2) := by
    have : y - -y = 2 * y := by ring
    rw [this, div_mul_cancel₀]
    rw [this] at h2y; exact h2y
  generalize (3 * x ^ 2 + (S ^ 2 - 3 * T ^ 2)) / (y - -y) = l at key
  rw [← h.T3] at e
  linear_combination (l * (2 * y) + (3 * x ^ 2 + (S ^ 2 - 3 * T ^ 2))) * key - 4 * (2 * x + T) * e

/-- The points killed by 2. -/
theorem ed_two (h : EdParams S T d) (P : CurvePoint (edA S T) (edB S T)) (hP : 2 • P = 0) :
    P = 0 ∨ ∃ x y hn, P = .some x y hn ∧ x = T ∧ y = 0 := by
  cases P with
  | zero => exact .inl rfl
  | some x y hn =>
    by_cases hy : y = 0
    · have e := ed_equation h hn
      rw [hy] at e
      have := ed_y_zero h (M := x - T) (by linear_combination e)
      exact .inr ⟨x, y, hn, rfl, by linear_combination this, hy⟩
    · obtain ⟨x', y', hn', e1, _⟩ := ed_double h hn hy
      rw [e1] at hP
      exact absurd hP (Affine.Point.some_ne_zero _)

/-- The points killed by 4. -/
theorem ed_four (h : EdParams S T d) (P : CurvePoint (edA S T) (edB S T)) (hP : 4 • P = 0) :
    P = 0 ∨ (∃ x y hn, P = .some x y hn ∧ x = T ∧ y = 0) ∨
    (∃ x y hn, P = .some x y hn ∧ x = T + S ∧ y = S) ∨ (∃ x y hn, P = .some x y hn ∧ x = T + S ∧ y = -S) := by
  have h22 : 2 • (2 • P) = 0 := by rw [← mul_nsmul]; exact hP
  rcases ed_two h (2 • P) h22 with h0 | ⟨x', y', hn', e1, e2, e3⟩
  · rcases ed_two h P h0 with h1 | h1
    · exact .inl h1
    · exact .inr (.inl h1)
  · cases P with
    | zero => exact .inl rfl
    | some x y hn =>
      by_cases hy : y = 0
      · have h0 : 2 • (Affine.Point.some x y hn : CurvePoint (edA S T) (edB S T)) = 0 := by
          rw [two_nsmul, Affine.Point.add_self_of_Y_eq (by rw [shortW_negY, hy, neg_zero])]
        rcases ed_two h _ h0 with h1 | h1
        · exact .inl h1
        · exact .inr (.inl h1)
      · obtain ⟨x2, y2, hn2, f1, f2⟩ := ed_double h hn hy
        rw [f1] at e1
        have hx2 : x2 = x' := by injection e1
        rw [hx2, e2, sub_self, zero_mul] at f2
        have f3 : (x - T) ^ 2 - S ^ 2 = 0 := by
          have := pow_eq_zero_iff (two_ne_zero) |>.1 f2.symm
          exact this
        have e := ed_equation h hn
        have hMS := ed_MS_ne h e
        have hM : x - T = S := by
          have : (x - T - S) * (x - T + S) = 0 := by linear_combination f3
          have := (mul_eq_zero.1 this).resolve_right hMS
          linear_combination this
        have hx : x = T + S := by linear_combination hM
        rw [hM] at e
        have hyy : (y - S) * (y + S) = 0 := by linear_combination e
        rcases mul_eq_zero.1 hyy with hy' | hy'
        · exact .inr (.inr (.inl ⟨x, y, hn, rfl, hx, by linear_combination hy'⟩))
        · exact .inr (.inr (.inr ⟨x, y, hn, rfl, hx, by linear_combination hy'⟩))

/-- A point killed by 8 is killed by 4, if `S` is not a square. -/
theorem ed_eight (h : EdParams S T d) (hS : ¬ IsSquare S) (P : CurvePoint (edA S T) (edB S T)) (hP : 8 • P = 0) : 4 • P = 0 := by
  have h42 : 4 • (2 • P) = 0 := by rw [← mul_nsmul]; exact hP
  have key : ∀ x' y' hn', 2 • P = (.some x' y' hn' : CurvePoint (edA S T) (edB S T)) → x' ≠ T + S := by
    intro x' y' hn' e1 e2
    cases P with
    | zero =>
      have : (2 : Nat) • (0 : CurvePoint (edA S T) (edB S T)) = 0 := smul_zero 2
      have e1' : (2 : Nat) • (0 : CurvePoint (edA S T) (edB S T)) = .some x' y' hn' := e1
      rw [this] at e1'
      exact absurd e1'.symm (Affine.Point.some_ne_zero _)
    | some x y hn =>
      by_cases hy : y = 0
      · have h0 : 2 • (Affine.Point.some x y hn : CurvePoint (edA S T) (edB S T)) = 0 := by
          rw [two_nsmul, Affine.Point.add_self_of_Y_eq (by rw [shortW_negY, hy, neg_zero])]
        rw [h0] at e1
        exact absurd e1.symm (Affine.Point.some_ne_zero _)
      · obtain ⟨x2, y2, hn2, f1, f2⟩ := ed_double h hn hy
        rw [f1] at e1
        have hx2 : x2 = x' := by injection e1
        rw [hx2, e2] at f2
        apply hS
        have h2y : 2 * y ≠ 0 := mul_ne_zero h.two hy
        refine ⟨((x - T) ^ 2 - S ^ 2) / (2 * y), ?_⟩
        have hSe : S = ((x - T) ^ 2 - S ^ 2) ^ 2 / (2 * y) ^ 2 := by
          rw [eq_div_iff (pow_ne_zero 2 h2y)]
          linear_combination f2
        rw [div_mul_div_comm, ← pow_two, ← pow_two]
        exact hSe
  have h4 : 4 • P = 2 • (2 • P) := by rw [← mul_nsmul]
  rcases ed_four h (2 • P) h42 with h0 | ⟨x, y, hn, e1, e2, e3⟩ | ⟨x, y, hn, e1, e2, e3⟩ | ⟨x, y, hn, e1, e2, e3⟩
  · rw [h4, h0, smul_zero]
  · rw [h4, e1, two_nsmul, Affine.Point.add_self_of_Y_eq (by rw [shortW_negY, e3, neg_zero])]
  · exact absurd e2 (key _ _ _ e1)
  · exact absurd e2 (key _ _ _ e1)

/-- At most four points are killed by 8. -/
theorem ed_eight_card (h : EdParams S T d) (hS : ¬ IsSquare S) (A : AddSubgroup (CurvePoint (edA S T) (edB S T)))
    (hA : ∀ P ∈ A, 8 • P = 0) : Nat.card A ≤ 4 := by
  classical
  let f : A → Fin 4 := fun P =>
    match P.1 with
    | .zero => 0
    | .some _ y _ => if y = 0 then 1 else if y = S then 2 else 3
  have hf : Function.Injective f := by
    rintro ⟨P, hP⟩ ⟨Q, hQ⟩ hPQ
    have h1 := ed_four h P (ed_eight h hS P (hA P hP))
    have h2 := ed_four h Q (ed_eight h hS Q (hA Q hQ))
    have hS0 := h.S_ne
    have hSS : -S ≠ S := by
      intro hc
      have : 2 * S = 0 := by linear_combination -hc
      exact hS0 ((mul_eq_zero.1 this).resolve_left h.two)
    have hS0' : -S ≠ 0 := neg_ne_zero.2 hS0
    apply Subtype.ext
    simp only
    rcases h1 with rfl | ⟨x, y, hn, rfl, rfl, rfl⟩ | ⟨x, y, hn, rfl, rfl, rfl⟩ | ⟨x, y, hn, rfl, rfl, rfl⟩ <;>
    rcases h2 with rfl | ⟨x', y', hn', rfl, rfl, rfl⟩ | ⟨x', y', hn', rfl, rfl, rfl⟩ | ⟨x', y', hn', rfl, rfl, rfl⟩ <;>
    first
      | rfl
      | (exfalso; revert hPQ; simp [f, hS0, hSS, hS0']; done)
  have := Nat.card_le_card_of_injective f hf
  simpa using this

/-- Number of points of a curve in Edwards form with a point of prime order. -/
theorem card_of_edwards (h : EdParams S T d) (hS : ¬ IsSquare S) {q : Nat} (hq : q.Prime) (hq8 : 8 < q)
    (hb : 2 * p + 1 < 9 * q) {G : CurvePoint (edA S T) (edB S T)} (hG : q • G = 0) (hG0 : G ≠ 0) :
    Nat.card (CurvePoint (edA S T) (edB S T)) = 4 * q := by
  obtain ⟨hfin, hcard⟩ := card_le (edA S T) (edB S T)
  have hord : addOrderOf G = q := by
    rcases (Nat.dvd_prime hq).1 (addOrderOf_dvd_of_nsmul_eq_zero hG) with h' | h'
    · exact absurd (AddMonoid.addOrderOf_eq_one_iff.1 h') hG0
    · exact h'
  have hdvd : q ∣ Nat.card (CurvePoint (edA S T) (edB S T)) := hord ▸ addOrderOf_dvd_natCard G
  obtain ⟨k, hk⟩ := hdvd
  have hpos : 0 < Nat.card (CurvePoint (edA S T) (edB S T)) := Nat.card_pos
  have hk0 : k ≠ 0 := by rintro rfl; omega
  have hk9 : k < 9 := by
    by_contra hc
    have : 9 * q ≤ q * k := by nlinarith [hq.pos]
    omega
  -- a point of order 4
  have hS0 := h.S_ne
  have hn4 : (shortW (edA S T) (edB S T)).toAffine.Nonsingular (T + S) S := by
    rw [Affine.nonsingular_iff]
    refine ⟨?_, .inr ?_⟩
    · rw [Affine.equation_iff]
      simp only [edA, edB]
      have := h.T3
      linear_combination (S ^ 2) * (-this)
    · simp only [zero_mul, sub_zero]
      intro hc
      have : 2 * S = 0 := by linear_combination hc
      exact hS0 ((mul_eq_zero.1 this).resolve_left h.two)
  obtain ⟨x', y', hn', f1, f2⟩ := ed_double h hn4 hS0
  have hx' : x' = T := by
    have : (x' - T) * (2 * S) ^ 2 = 0 := by rw [f2]; ring
    have := (mul_eq_zero.1 this).resolve_right (pow_ne_zero 2 (mul_ne_zero h.two hS0))
    linear_combination this
  have hy' : y' = 0 := by
    have e := ed_equation h hn'
    rw [hx'] at e
    have : y' ^ 2 = 0 := by linear_combination e
    exact pow_eq_zero_iff (two_ne_zero) |>.1 this
  have h44 : (2 ^ (1 + 1)) • (Affine.Point.some _ _ hn4 : CurvePoint (edA S T) (edB S T)) = 0 := by
    have : (2 ^ (1 + 1)) • (Affine.Point.some _ _ hn4 : CurvePoint (edA S T) (edB S T)) =
      2 • (2 • (Affine.Point.some _ _ hn4 : CurvePoint (edA S T) (edB S T))) := by rw [← mul_nsmul]; norm_num
    rw [this, f1, two_nsmul, Affine.Point.add_self_of_Y_eq (by rw [shortW_negY, hy', neg_zero])]
  have h42 : ¬ (2 ^ 1) • (Affine.Point.some _ _ hn4 : CurvePoint (edA S T) (edB S T)) = 0 := by
    rw [pow_one, f1]
    exact Affine.Point.some_ne_zero _
  have : Fact (Nat.Prime 2) := ⟨Nat.prime_two⟩
  have hord4 : addOrderOf (Affine.Point.some _ _ hn4 : CurvePoint (edA S T) (edB S T)) = 2 ^ (1 + 1) :=
    addOrderOf_eq_prime_pow h42 h44
  have h4n : 2 ^ (1 + 1) ∣ Nat.card (CurvePoint (edA S T) (edB S T)) := hord4 ▸ addOrderOf_dvd_natCard _
  have hcop : Nat.Coprime (2 ^ (1 + 1)) q := by
    apply Nat.Coprime.pow_left
    exact (Nat.coprime_primes Nat.prime_two hq).2 (by omega)
  have h4k : 2 ^ (1 + 1) ∣ k := by
    rw [hk] at h4n
    exact hcop.dvd_of_dvd_mul_left h4n
  have hk8 : k ∣ 8 := by
    have : k = 4 ∨ k = 8 := by omega
    rcases this with rfl | rfl <;> decide
  -- the multiples by `q` are killed by 8
  let φ : CurvePoint (edA S T) (edB S T) →+ CurvePoint (edA S T) (edB S T) := nsmulAddMonoidHom q
  have hφ : ∀ P, φ P = q • P := fun P => rfl
  have hrange : Nat.card φ.range ≤ 4 := by
    refine ed_eight_card h hS _ ?_
    rintro _ ⟨P, rfl⟩
    obtain ⟨c, hc⟩ := hk8
    rw [hφ, hc, mul_comm k c, mul_nsmul', ← mul_nsmul P q k, ← hk, card_nsmul_eq_zero', nsmul_zero]
  have hker : Nat.card φ.ker ≤ q := by
    have hdv : Nat.card φ.ker ∣ q * k := by rw [← hk]; exact AddSubgroup.card_addSubgroup_dvd_card φ.ker
    have hne : Nat.card φ.ker ≠ 0 := Nat.card_pos.ne'
    have hpw := Nat.eq_prime_pow_of_unique_prime_dvd (p := q) hne (by
      intro r hr hrd
      have : Fact r.Prime := ⟨hr⟩
      obtain ⟨⟨P, hP⟩, hPo⟩ := exists_prime_addOrderOf_dvd_card' r hrd
      have hPq : q • (⟨P, hP⟩ : φ.ker) = 0 := Subtype.ext hP
      have := addOrderOf_dvd_of_nsmul_eq_zero hPq
      rw [hPo] at this
      exact (Nat.prime_dvd_prime_iff_eq hr hq).1 this)
    rw [hpw] at hdv ⊢
    generalize (Nat.card φ.ker).primeFactorsList.length = m at hdv
    rcases Nat.lt_or_ge m 2 with hm | hm
    · calc q ^ m ≤ q ^ 1 := Nat.pow_le_pow_right hq.pos (by omega)
        _ = q := pow_one q
    · exfalso
      have h2 : q ^ 2 ∣ q * k := dvd_trans (pow_dvd_pow q hm) hdv
      rw [pow_two] at h2
      have := Nat.dvd_of_mul_dvd_mul_left hq.pos h2
      have := Nat.le_of_dvd (by omega) this
      omega
  have hprod : Nat.card (CurvePoint (edA S T) (edB S T)) = Nat.card φ.range * Nat.card φ.ker := by
    rw [AddSubgroup.card_eq_card_quotient_mul_card_addSubgroup φ.ker,
      Nat.card_congr (QuotientAddGroup.quotientKerEquivRange φ).toEquiv]
  have hle : q * k ≤ 4 * q := by
    rw [← hk, hprod]
    exact Nat.mul_le_mul hrange hker
  have : k ≤ 4 := by
    by_contra hc
    nlinarith [hq.pos]
  have : k = 4 := by omega
  rw [hk, this, mul_comm]

end

end Gost
