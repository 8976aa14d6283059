import Verif.Lemmas.EcOrder
import Verif.Lemmas.Pocklington
import Verif.Spec.EcParams
import Mathlib.NumberTheory.LegendreSymbol.Basic

/-!
# From computed checks to the conditions of the standard
-/

namespace Gost

open WeierstrassCurve
open Spec (GostCurve)

/-- `p^t % q ≠ 1` for `t = 1 .. n`. -/
def movCheck (p q : Nat) : Nat → Nat → Bool
  | 0, _ => true
  | n + 1, acc => decide (acc * p % q ≠ 1) && movCheck p q n (acc * p % q)

theorem movCheck_spec {p q : Nat} (n : Nat) (acc i : Nat) (hacc : acc % q = p ^ i % q) (h : movCheck p q n acc = true) (t : Nat)
    (h1 : i < t) (h2 : t ≤ i + n) : p ^ t % q ≠ 1 := by
  induction n generalizing acc i with
  | zero => omega
  | succ n ih =>
    rw [movCheck, Bool.and_eq_true, decide_eq_true_eq] at h
    have e : acc * p % q = p ^ (i + 1) % q := by rw [pow_succ, Nat.mul_mod, hacc, ← Nat.mul_mod]
    rcases Nat.lt_or_ge (i + 1) t with hlt | hge
    · exact ih (acc * p % q) (i + 1) (by rw [e, Nat.mod_mod]) h.2 hlt (by omega)
    · have : t = i + 1 := by omega
      rw [this, ← e]; exact h.1

/-- The conditions that are computed directly. -/
def sizeCheck (p a b q x y cofactor : Nat) : Bool :=
  ((decide (2 ^ 254 < q) && decide (q < 2 ^ 256)) || (decide (2 ^ 508 < q) && decide (q < 2 ^ 512))) &&
  decide (a < p) && decide (b < p) && decide (x < p) && decide (y < p) && decide (a ≠ 0) && decide (b ≠ 0) &&
  decide (cofactor * q ≠ p) && movCheck p q (if q < 2 ^ 256 then 31 else 131) 1

theorem gostCurve_of {p a b q x y cofactor bits fuel : Nat} (hp : p.Prime) (hq : q.Prime)
    (hc : ecCheck p a b x y q bits fuel = true) (hs : sizeCheck p a b q x y cofactor = true)
    (hcard : ∀ _ : Fact p.Prime, Nat.card (CurvePoint (a : ZMod p) (b : ZMod p)) = cofactor * q) :
    GostCurve p a b q x y cofactor := by
  simp only [sizeCheck, Bool.and_eq_true, Bool.or_eq_true, decide_eq_true_eq] at hs
  obtain ⟨⟨⟨⟨⟨⟨⟨⟨h1, h2⟩, h3⟩, h4⟩, h5⟩, h6⟩, h7⟩, h8⟩, h9⟩ := hs
  exact {
    prime_p := hp
    prime_q := hq
    size_q := h1
    reduced := ⟨h2, h3, h4, h5⟩
    invariant := ⟨h6, h7⟩
    discriminant := by
      intro hd
      have : Fact p.Prime := ⟨hp⟩
      have h0 := (ecCheck_order hc (dvd_refl p)).1
      apply h0
      rw [← ZMod.natCast_eq_zero_iff] at hd
      push_cast at hd
      rw [hd, mul_zero]
    point := fun _ => (ecCheck_order hc (dvd_refl p)).2
    points := hcard
    not_anomalous := h8
    embedding := fun t ht1 ht2 => movCheck_spec _ 1 0 (by simp) h9 t (by omega) (by omega) }

theorem two_ne_zero_of {p : Nat} [hp : Fact p.Prime] (h : p % 2 = 1) : (2 : ZMod p) ≠ 0 := by
  have : ((2 : Nat) : ZMod p) ≠ 0 := by
    rw [Ne, ZMod.natCast_eq_zero_iff]
    intro hd
    have := Nat.le_of_dvd (by omega) hd
    have := hp.out.two_le
    omega
  simpa using this

/-- A curve without points of order 2. -/
theorem gostCurve_of_noRoot {p a b q x y cofactor bits fuel pb : Nat} {v : Nat × Nat × Nat} (hp : p.Prime) (hq : q.Prime)
    (hc : ecCheck p a b x y q bits fuel = true) (hn : noRootCheck p a b pb v = true)
    (hs : (sizeCheck p a b q x y cofactor && decide (cofactor = 1) && decide (p % 2 = 1) && decide (2 * p + 1 < 3 * q)) = true) :
    GostCurve p a b q x y cofactor := by
  simp only [Bool.and_eq_true, decide_eq_true_eq] at hs
  obtain ⟨⟨⟨h1, h2⟩, h3⟩, h4⟩ := hs
  refine gostCurve_of hp hq hc h1 ?_
  intro hF
  obtain ⟨_, hno, ho⟩ := ecCheck_order hc (dvd_refl p)
  rw [h2, one_mul]
  exact card_of_noRoot (two_ne_zero_of h3) (noRoot hn) hq h4 ho (Affine.Point.some_ne_zero _)

/-- The constants of the Edwards form, and that `d` and `S` are not squares. -/
def edCheck (p a b bits S T d : Nat) : Bool :=
  decide (p % 2 = 1) && decide (p < 2 ^ bits) && decide ((3 * T + 2 * S) % p = 1) && decide ((d + 4 * S) % p = 1) &&
  decide ((a + 3 * T * T) % p = S * S % p) && decide ((b + T * S * S) % p = 2 * T * T * T % p) &&
  decide (powMod p bits d (p / 2) + 1 = p) && decide (powMod p bits S (p / 2) + 1 = p)

theorem not_square_of {p : Nat} [hp : Fact p.Prime] (h2 : p % 2 = 1) {bits s : Nat} (hb : p < 2 ^ bits)
    (h : powMod p bits s (p / 2) + 1 = p) : ¬ IsSquare (s : ZMod p) := by
  have e : (s : ZMod p) ^ (p / 2) = -1 := by
    rw [← powMod_eq p bits s (p / 2) (lt_of_le_of_lt (Nat.div_le_self _ _) hb)]
    have := congrArg (fun t : Nat => (t : ZMod p)) h
    simp only [Nat.cast_add, Nat.cast_one, CharP.cast_eq_zero] at this
    linear_combination this
  have h2' := two_ne_zero_of (p := p) h2
  have hne : (-1 : ZMod p) ≠ 1 := by
    intro hc
    apply h2'
    linear_combination -hc
  have h0 : (s : ZMod p) ≠ 0 := by
    intro hc
    rw [hc, zero_pow (by have := hp.out.two_le; omega)] at e
    have : (1 : ZMod p) = 0 := by linear_combination e
    exact one_ne_zero this
  rw [ZMod.euler_criterion p h0, e]
  exact hne

theorem edCheck_spec {p a b bits S T d : Nat} [hp : Fact p.Prime] (h : edCheck p a b bits S T d = true) :
    EdParams (S : ZMod p) (T : ZMod p) (d : ZMod p) ∧ ¬ IsSquare (S : ZMod p) ∧
    edA (S : ZMod p) (T : ZMod p) = a ∧ edB (S : ZMod p) (T : ZMod p) = b := by
  simp only [edCheck, Bool.and_eq_true, decide_eq_true_eq] at h
  obtain ⟨⟨⟨⟨⟨⟨⟨h1, h2⟩, h3⟩, h4⟩, h5⟩, h6⟩, h7⟩, h8⟩ := h
  have e3 := congrArg (fun t : Nat => (t : ZMod p)) h3
  have e4 := congrArg (fun t : Nat => (t : ZMod p)) h4
  have e5 := congrArg (fun t : Nat => (t : ZMod p)) h5
  have e6 := congrArg (fun t : Nat => (t : ZMod p)) h6
  simp only [ZMod.natCast_mod, Nat.cast_mul, Nat.cast_one, Nat.cast_add, Nat.cast_ofNat] at e3 e4 e5 e6
  refine ⟨⟨two_ne_zero_of h1, by linear_combination e3, by linear_combination e4, not_square_of h1 h2 h7⟩, not_square_of h1 h2 h8, ?_, ?_⟩
  · simp only [edA]; linear_combination -e5
  · simp only [edB]; linear_combination -e6

/-- A curve in Edwards form. -/
theorem gostCurve_of_edwards {p a b q x y cofactor bits fuel pb S T d : Nat} (hp : p.Prime) (hq : q.Prime)
    (hc : ecCheck p a b x y q bits fuel = true) (hn : edCheck p a b pb S T d = true)
    (hs : (sizeCheck p a b q x y cofactor && decide (cofactor = 4) && decide (8 < q) && decide (2 * p + 1 < 9 * q)) = true) :
    GostCurve p a b q x y cofactor := by
  simp only [Bool.and_eq_true, decide_eq_true_eq] at hs
  obtain ⟨⟨⟨h1, h2⟩, h3⟩, h4⟩ := hs
  refine gostCurve_of hp hq hc h1 ?_
  intro hF
  obtain ⟨_, hno, ho⟩ := ecCheck_order hc (dvd_refl p)
  obtain ⟨e1, e2, e3, e4⟩ := edCheck_spec hn
  rw [h2]
  revert hno ho
  rw [← e3, ← e4]
  intro hno ho
  exact card_of_edwards e1 e2 hq h3 h4 ho (Affine.Point.some_ne_zero _)

end Gost
