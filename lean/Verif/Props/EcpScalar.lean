import Verif.Model.EcpScalar
import Verif.Spec.Digits
import Verif.Lemmas.StreebogCore
import Mathlib.Tactic.Ring
import Mathlib.Tactic.Linarith

/-!
# C44: the scalar recodings are exact
-/

namespace Gost

open Spec (leNat digitsValue)

theorem int8_of_range (x : Int) (h1 : -128 ≤ x) (h2 : x < 128) : int8 x = x := by
  unfold int8; omega

theorem int8_of_nat (n : Nat) (h2 : n < 128) : int8 (n : Int) = n := int8_of_range _ (by omega) (by omega)

theorem leNat_byte (b : Bytes) (i : Nat) : (at_ b i).toNat = leNat b / 256 ^ i % 256 := by
  induction b generalizing i with
  | nil => simp [leNat]
  | cons x b ih =>
    cases i with
    | zero =>
      have := x.isLt
      simp only [at_, List.getD_cons_zero, leNat, Nat.pow_zero, Nat.div_one]
      omega
    | succ i =>
      have h1 : at_ (x :: b) (i + 1) = at_ b i := rfl
      rw [h1, ih i, leNat, Nat.pow_succ, Nat.mul_comm (256 ^ i), ← Nat.div_div_eq_div_mul]
      have := x.isLt
      congr 2
      omega

/-- The bit fetched is the bit of the number; bits beyond the scalar are 0. -/
theorem get_bit_eq (nb : Nat) (inb : Bytes) (h : inb.length = nb) (k : Nat) :
    scalar_get_bit nb inb (k : Int) = ((leNat inb / 2 ^ k % 2 : Nat) : Int) := by
  have hlt : leNat inb < 2 ^ (8 * nb) := by
    have := leNat_lt inb
    rw [h] at this
    rwa [show (256 : Nat) = 2 ^ 8 from rfl, ← Nat.pow_mul] at this
  unfold scalar_get_bit
  simp only
  split
  · rename_i hc
    have : leNat inb / 2 ^ k = 0 := by
      apply Nat.div_eq_of_lt
      apply lt_of_lt_of_le hlt
      apply Nat.pow_le_pow_right (by omega)
      omega
    simp [this]
  · rename_i hc
    have e1 : ((k : Int) / 8).toNat = k / 8 := by omega
    have e2 : ((k : Int) % 8).toNat = k % 8 := by omega
    rw [e1, e2, leNat_byte, Nat.shiftRight_eq_div_pow]
    congr 1
    have e4 : k = k / 8 * 8 + k % 8 := by omega
    have h8 : k % 8 < 8 := by omega
    have e5 : 256 ^ (k / 8) = 2 ^ (k / 8 * 8) := by rw [show (256 : Nat) = 2 ^ 8 from rfl, ← Nat.pow_mul, Nat.mul_comm]
    have e6 : leNat inb / 2 ^ k = leNat inb / 256 ^ (k / 8) / 2 ^ (k % 8) := by
      rw [Nat.div_div_eq_div_mul, e5, ← Nat.pow_add, ← e4]
    rw [e6]
    generalize leNat inb / 256 ^ (k / 8) = y
    interval_cases (k % 8) <;> omega

/-! ## Regular recoding -/

/-- Window of the regular recoding at digit `i`. -/
def rwindow (s i : Nat) : Nat := 1 + 2 * (s / 2 ^ (5 * i + 1) % 32)

theorem rwindow_step (nb : Nat) (inb : Bytes) (h : inb.length = nb) (fuel i : Nat) :
    rwnafLoop nb inb (fuel + 1) i (rwindow (leNat inb) i)
      = ((rwindow (leNat inb) i : Int) - 32) :: rwnafLoop nb inb fuel (i + 1) (rwindow (leNat inb) (i + 1)) := by
  have hw : rwindow (leNat inb) i < 64 := by unfold rwindow; omega
  have hb : ∀ j : Nat, scalar_get_bit nb inb (((i : Int) + 1) * 5 + (j : Int))
      = ((leNat inb / 2 ^ (5 * (i + 1) + 1) / 2 ^ (j - 1) % 2 : Nat) : Int) ∨ j = 0 := by
    intro j
    by_cases hj : j = 0
    · exact Or.inr hj
    left
    have e : ((i : Int) + 1) * 5 + (j : Int) = ((5 * (i + 1) + 1 + (j - 1) : Nat) : Int) := by push_cast; omega
    rw [e, get_bit_eq nb inb h, Nat.div_div_eq_div_mul, ← Nat.pow_add]
  have b1 := (hb 1).resolve_right (by omega)
  have b2 := (hb 2).resolve_right (by omega)
  have b3 := (hb 3).resolve_right (by omega)
  have b4 := (hb 4).resolve_right (by omega)
  have b5 := (hb 5).resolve_right (by omega)
  rw [rwnafLoop]
  have e0 : int8 ((rwindow (leNat inb) i : Int) % 64 - 32) = (rwindow (leNat inb) i : Int) - 32 := by
    rw [int8_of_range _ (by omega) (by omega)]; omega
  rw [e0]
  have e1 : ((rwindow (leNat inb) i : Int) - ((rwindow (leNat inb) i : Int) - 32)) / 32 = 1 := by omega
  rw [e1]
  have b1' : scalar_get_bit nb inb (((i : Int) + 1) * 5 + 1) = _ := b1
  have b2' : scalar_get_bit nb inb (((i : Int) + 1) * 5 + 2) = _ := b2
  have b3' : scalar_get_bit nb inb (((i : Int) + 1) * 5 + 3) = _ := b3
  have b4' : scalar_get_bit nb inb (((i : Int) + 1) * 5 + 4) = _ := b4
  have b5' : scalar_get_bit nb inb (((i : Int) + 1) * 5 + 5) = _ := b5
  rw [b1', b2', b3', b4', b5']
  have hr : (rwindow (leNat inb) (i + 1) : Int) = 1 + 2 * ((leNat inb / 2 ^ (5 * (i + 1) + 1) % 32 : Nat) : Int) := by
    unfold rwindow; push_cast; ring
  congr 2
  rw [hr]
  generalize leNat inb / 2 ^ (5 * (i + 1) + 1) = y
  simp only [Nat.sub_self, Nat.pow_zero, Nat.div_one, Nat.reduceSub, Nat.reducePow]
  have hsum : y % 32 = y % 2 + 2 * (y / 2 % 2) + 4 * (y / 4 % 2) + 8 * (y / 8 % 2) + 16 * (y / 16 % 2) := by omega
  rw [hsum]
  have c1 : y % 2 < 2 := Nat.mod_lt _ (by omega)
  have c2 : y / 2 % 2 < 2 := Nat.mod_lt _ (by omega)
  have c3 : y / 4 % 2 < 2 := Nat.mod_lt _ (by omega)
  have c4 : y / 8 % 2 < 2 := Nat.mod_lt _ (by omega)
  have c5 : y / 16 % 2 < 2 := Nat.mod_lt _ (by omega)
  generalize y % 2 = x1 at *
  generalize y / 2 % 2 = x2 at *
  generalize y / 4 % 2 = x3 at *
  generalize y / 8 % 2 = x4 at *
  generalize y / 16 % 2 = x5 at *
  rw [int8_of_range 1 (by omega) (by omega), int8_of_range (1 + _) (by omega) (by omega), int8_of_range (1 + _ + _) (by omega) (by omega),
    int8_of_range (1 + _ + _ + _) (by omega) (by omega), int8_of_range (1 + _ + _ + _ + _) (by omega) (by omega),
    int8_of_range (1 + _ + _ + _ + _ + _) (by omega) (by omega)]
  push_cast
  ring

theorem rwnafLoop_eq (nb : Nat) (inb : Bytes) (h : inb.length = nb) (fuel i : Nat) :
    (rwnafLoop nb inb fuel i (rwindow (leNat inb) i)).length = fuel + 1 ∧
    digitsValue 32 (rwnafLoop nb inb fuel i (rwindow (leNat inb) i))
      = 1 + 2 * ((leNat inb / 2 ^ (5 * i + 1) % 32 ^ (fuel + 1) : Nat) : Int) ∧
    (∀ k < fuel, ∃ d, (rwnafLoop nb inb fuel i (rwindow (leNat inb) i))[k]? = some d ∧ d % 2 = 1 ∧ -31 ≤ d ∧ d ≤ 31) ∧
    (rwnafLoop nb inb fuel i (rwindow (leNat inb) i))[fuel]? = some (rwindow (leNat inb) (i + fuel) : Int) := by
  induction fuel generalizing i with
  | zero =>
    refine ⟨rfl, ?_, by omega, rfl⟩
    simp [rwnafLoop, digitsValue, rwindow]
  | succ fuel ih =>
    obtain ⟨h1, h2, h3, h4⟩ := ih (i + 1)
    rw [rwindow_step nb inb h]
    refine ⟨by simp [h1], ?_, ?_, ?_⟩
    · rw [digitsValue, h2]
      have e : leNat inb / 2 ^ (5 * (i + 1) + 1) = leNat inb / 2 ^ (5 * i + 1) / 32 := by
        rw [Nat.div_div_eq_div_mul, show (32 : Nat) = 2 ^ 5 from rfl, ← Nat.pow_add]
        congr 2
      rw [e, Nat.pow_succ 32 (fuel + 1), Nat.mul_comm (32 ^ (fuel + 1)) 32, Nat.mod_mul]
      unfold rwindow
      push_cast
      ring
    · intro k hk
      cases k with
      | zero =>
        refine ⟨_, rfl, ?_, ?_, ?_⟩ <;> unfold rwindow <;> push_cast <;> omega
      | succ k => exact h3 k (by omega)
    · rw [show i + (fuel + 1) = i + 1 + fuel by omega]
      exact h4

theorem rwnaf_start (inb : Bytes) : int8 (((((at_ inb 0).toNat % 64) ||| 1 : Nat)) : Int) = (rwindow (leNat inb) 0 : Int) := by
  have h0 := leNat_byte inb 0
  simp only [Nat.pow_zero, Nat.div_one] at h0
  have hor : ∀ x : Nat, x < 64 → x ||| 1 = 1 + 2 * (x / 2) := by decide +kernel
  rw [hor _ (by omega), int8_of_nat _ (by omega)]
  unfold rwindow
  have : (at_ inb 0).toNat % 64 / 2 = leNat inb / 2 ^ (5 * 0 + 1) % 32 := by
    rw [h0]; simp only [Nat.mul_zero, Nat.zero_add, Nat.pow_one]; omega
  rw [this]

/-- **C44**: the regular recoding of a scalar of `nb` bytes with `n + 1` digits, where `5 n + 6` covers all bits, evaluates in
base 32 to the scalar with its lowest bit set; all digits are odd and lie in -31..31, the highest one is positive. -/
theorem C44_rwnaf (nb n : Nat) (inb : Bytes) (h : inb.length = nb) (hn : 8 * nb ≤ 5 * n + 6) :
    (scalar_rwnaf nb n inb).length = n + 1 ∧
    digitsValue 32 (scalar_rwnaf nb n inb) = ((leNat inb ||| 1 : Nat) : Int) ∧
    (∀ d ∈ (scalar_rwnaf nb n inb).take n, d % 2 = 1 ∧ -31 ≤ d ∧ d ≤ 31) ∧
    ∃ t : Int, (scalar_rwnaf nb n inb)[n]? = some t ∧ t % 2 = 1 ∧ 1 ≤ t ∧ t ≤ 63 ∧ (8 * nb ≤ 5 * n + 5 → t ≤ 31) := by
  have hlt : leNat inb < 2 ^ (8 * nb) := by
    have := leNat_lt inb
    rw [h] at this
    rwa [show (256 : Nat) = 2 ^ 8 from rfl, ← Nat.pow_mul] at this
  unfold scalar_rwnaf
  rw [rwnaf_start]
  obtain ⟨h1, h2, h3, h4⟩ := rwnafLoop_eq nb inb h n 0
  refine ⟨h1, ?_, ?_, _, h4, ?_, ?_, ?_, ?_⟩
  · rw [h2]
    have hm : leNat inb / 2 ^ (5 * 0 + 1) % 32 ^ (n + 1) = leNat inb / 2 := by
      rw [Nat.mod_eq_of_lt]
      · simp
      · simp only [Nat.mul_zero, Nat.zero_add, Nat.pow_one]
        apply Nat.div_lt_of_lt_mul
        apply lt_of_lt_of_le hlt
        rw [show (32 : Nat) = 2 ^ 5 from rfl, ← Nat.pow_mul, Nat.mul_comm 2, ← Nat.pow_succ]
        exact Nat.pow_le_pow_right (by omega) (by omega)
    rw [hm]
    have hor : leNat inb ||| 1 = 1 + 2 * (leNat inb / 2) := by
      have h1 : (leNat inb ||| 1) / 2 = leNat inb / 2 := by
        rw [Nat.or_div_two]; simp
      have h2 : (leNat inb ||| 1) % 2 = 1 := by
        have := Nat.or_mod_two_eq_one (a := leNat inb) (b := 1)
        exact this.2 (Or.inr rfl)
      omega
    rw [hor]; push_cast; ring
  · intro d hd
    obtain ⟨k, hk, hk2⟩ := List.mem_iff_getElem?.1 hd
      |>.imp (fun k hk => (⟨by
          by_contra hc
          rw [List.getElem?_eq_none (by simp; omega)] at hk
          simp at hk, hk⟩ : k < n ∧ _))
    rw [List.getElem?_take_of_lt hk] at hk2
    obtain ⟨d', e1, e2⟩ := h3 k hk
    rw [hk2] at e1
    have := Option.some.inj e1
    rw [this]; exact e2
  · unfold rwindow; push_cast; omega
  · unfold rwindow; push_cast; omega
  · unfold rwindow; push_cast; omega
  · intro hs
    have : leNat inb / 2 ^ (5 * (0 + n) + 1) < 16 := by
      apply Nat.div_lt_of_lt_mul
      apply lt_of_lt_of_le hlt
      rw [show (16 : Nat) = 2 ^ 4 from rfl, ← Nat.pow_add]
      exact Nat.pow_le_pow_right (by omega) (by omega)
    have h2 : rwindow (leNat inb) (0 + n) ≤ 31 := by
      unfold rwindow
      generalize leNat inb / 2 ^ (5 * (0 + n) + 1) = y at *
      omega
    exact_mod_cast h2

/-! ## Width-5 NAF -/

theorem wnafDigit_spec (w : Int) (h0 : 0 ≤ w) (h1 : w ≤ 64) :
    (wnafDigit w = 0 ∨ (wnafDigit w % 2 = 1 ∧ -31 ≤ wnafDigit w ∧ wnafDigit w ≤ 31)) ∧ (w - wnafDigit w) % 2 = 0 ∧
      0 ≤ (w - wnafDigit w) / 2 ∧ (w - wnafDigit w) / 2 ≤ 32 ∧
      (w ≤ 32 → wnafDigit w = if w % 2 = 0 then 0 else w) := by
  unfold wnafDigit int8
  simp only
  by_cases hc : w % 2 ≠ 0
  · rw [if_pos hc]
    split <;> refine ⟨?_, ?_, ?_, ?_, ?_⟩ <;> first | omega | (intro; split <;> omega)
  · rw [if_neg hc]
    refine ⟨?_, ?_, ?_, ?_, ?_⟩ <;> first | omega | (intro; split <;> omega)

theorem wnaf_window (nb : Nat) (inb : Bytes) (h : inb.length = nb) (i : Nat) (w : Int) (h0 : 0 ≤ w) (h1 : w ≤ 64) :
    int8 (int8 ((w - wnafDigit w) / 2) + scalar_get_bit nb inb ((i : Int) + 1 + 5) * 32)
      = (w - wnafDigit w) / 2 + ((leNat inb / 2 ^ (i + 6) % 2 : Nat) : Int) * 32 := by
  obtain ⟨-, -, d3, d4, -⟩ := wnafDigit_spec w h0 h1
  have hb : scalar_get_bit nb inb ((i : Int) + 1 + 5) = ((leNat inb / 2 ^ (i + 6) % 2 : Nat) : Int) := by
    have := get_bit_eq nb inb h (i + 6)
    rw [← this]; congr 1
  have hb2 : leNat inb / 2 ^ (i + 6) % 2 < 2 := Nat.mod_lt _ (by omega)
  rw [hb]
  generalize leNat inb / 2 ^ (i + 6) % 2 = c at *
  rw [int8_of_range ((w - wnafDigit w) / 2) (by omega) (by omega), int8_of_range _ (by omega) (by omega)]

theorem wnafLoop_digits (nb : Nat) (inb : Bytes) (h : inb.length = nb) (fuel : Nat) :
    ∀ (i : Nat) (w : Int), 0 ≤ w → w ≤ 64 →
      (wnafLoop nb inb fuel i w).length = fuel ∧
      (∀ d ∈ wnafLoop nb inb fuel i w, d = 0 ∨ (d % 2 = 1 ∧ -31 ≤ d ∧ d ≤ 31)) := by
  induction fuel with
  | zero => intro i w _ _; exact ⟨rfl, by simp [wnafLoop]⟩
  | succ fuel ih =>
    intro i w h0 h1
    obtain ⟨d1, d2, d3, d4, d5⟩ := wnafDigit_spec w h0 h1
    have hb2 : leNat inb / 2 ^ (i + 6) % 2 < 2 := Nat.mod_lt _ (by omega)
    unfold wnafLoop
    simp only [wnaf_window nb inb h i w h0 h1]
    obtain ⟨g1, g2⟩ := ih (i + 1) ((w - wnafDigit w) / 2 + ((leNat inb / 2 ^ (i + 6) % 2 : Nat) : Int) * 32) (by omega) (by omega)
    refine ⟨by rw [List.length_cons, g1], ?_⟩
    intro d hd
    rcases List.mem_cons.1 hd with rfl | hd
    · exact d1
    · exact g2 d hd

theorem wnafLoop_tail (nb : Nat) (inb : Bytes) (h : inb.length = nb) (fuel : Nat) :
    ∀ (i : Nat) (w : Int), 8 * nb ≤ i + 6 → 0 ≤ w → (w ≤ 32 ∧ w < 2 ^ fuel) ∨ (w ≤ 64 ∧ 7 ≤ fuel) →
      digitsValue 2 (wnafLoop nb inb fuel i w) = w := by
  have hlt : leNat inb < 2 ^ (8 * nb) := by
    have := leNat_lt inb
    rw [h] at this
    rwa [show (256 : Nat) = 2 ^ 8 from rfl, ← Nat.pow_mul] at this
  induction fuel with
  | zero =>
    intro i w hi h0 hw
    simp only [wnafLoop, digitsValue]
    simp only [pow_zero] at hw
    omega
  | succ fuel ih =>
    intro i w hi h0 hw
    obtain ⟨d1, d2, d3, d4, d5⟩ := wnafDigit_spec w h0 (by omega)
    have hz : leNat inb / 2 ^ (i + 6) = 0 :=
      Nat.div_eq_of_lt (lt_of_lt_of_le hlt (Nat.pow_le_pow_right (by omega) hi))
    unfold wnafLoop
    simp only [wnaf_window nb inb h i w h0 (by omega), hz, digitsValue]
    rw [ih (i + 1) _ (by omega) (by simp; omega)]
    · simp; omega
    · left
      simp only [Nat.zero_mod, Nat.cast_zero, Int.zero_mul, Int.add_zero]
      refine ⟨d4, ?_⟩
      rcases hw with ⟨a, b⟩ | ⟨a, b⟩
      · have := d5 a
        rw [this]
        have e : (2 : Int) ^ (fuel + 1) = 2 * 2 ^ fuel := by ring
        rw [e] at b
        split
        · omega
        · have : (0 : Int) < 2 ^ fuel := by positivity
          simp
      · have : (2 : Int) ^ 6 ≤ 2 ^ fuel := pow_le_pow_right₀ (by omega) (by omega)
        omega

theorem wnafLoop_value (nb : Nat) (inb : Bytes) (h : inb.length = nb) (k : Nat) :
    ∀ (i : Nat) (w : Int), 0 ≤ w → w ≤ 64 → k + 7 + i = 8 * nb + 1 →
      digitsValue 2 (wnafLoop nb inb (k + 7) i w) = w + 64 * ((leNat inb / 2 ^ (i + 6) : Nat) : Int) := by
  have hlt : leNat inb < 2 ^ (8 * nb) := by
    have := leNat_lt inb
    rw [h] at this
    rwa [show (256 : Nat) = 2 ^ 8 from rfl, ← Nat.pow_mul] at this
  induction k with
  | zero =>
    intro i w h0 h1 hi
    rw [wnafLoop_tail nb inb h _ i w (by omega) h0 (Or.inr ⟨h1, by omega⟩)]
    have hz : leNat inb / 2 ^ (i + 6) = 0 :=
      Nat.div_eq_of_lt (lt_of_lt_of_le hlt (Nat.pow_le_pow_right (by omega) (by omega)))
    rw [hz]; simp
  | succ k ih =>
    intro i w h0 h1 hi
    obtain ⟨d1, d2, d3, d4, d5⟩ := wnafDigit_spec w h0 h1
    have hb2 : leNat inb / 2 ^ (i + 6) % 2 < 2 := Nat.mod_lt _ (by omega)
    rw [show k + 1 + 7 = (k + 7) + 1 by omega, wnafLoop]
    simp only [wnaf_window nb inb h i w h0 h1, digitsValue]
    rw [ih (i + 1) _ (by omega) (by omega) (by omega)]
    have e : leNat inb / 2 ^ (i + 1 + 6) = leNat inb / 2 ^ (i + 6) / 2 := by
      rw [Nat.div_div_eq_div_mul, ← Nat.pow_succ]
    rw [e]
    omega

/-- **C44**: the windowed NAF of a scalar of `nb` bytes (`8 nb + 1` digits) evaluates in base 2 to the scalar; every digit is
zero or odd in -31..31. -/
theorem C44_wnaf (nb : Nat) (hnb : 0 < nb) (inb : Bytes) (h : inb.length = nb) :
    (scalar_wnaf nb (8 * nb + 1) inb).length = 8 * nb + 1 ∧
    digitsValue 2 (scalar_wnaf nb (8 * nb + 1) inb) = (leNat inb : Int) ∧
    ∀ d ∈ scalar_wnaf nb (8 * nb + 1) inb, d = 0 ∨ (d % 2 = 1 ∧ -31 ≤ d ∧ d ≤ 31) := by
  have h0 := leNat_byte inb 0
  simp only [Nat.pow_zero, Nat.div_one] at h0
  unfold scalar_wnaf
  rw [int8_of_nat _ (by omega)]
  obtain ⟨a, b⟩ := wnafLoop_digits nb inb h (8 * nb + 1) 0 (((at_ inb 0).toNat % 64 : Nat) : Int) (by omega) (by omega)
  refine ⟨a, ?_, b⟩
  have := wnafLoop_value nb inb h (8 * nb - 6) 0 (((at_ inb 0).toNat % 64 : Nat) : Int) (by omega) (by omega) (by omega)
  rw [show 8 * nb - 6 + 7 = 8 * nb + 1 by omega] at this
  rw [this, h0]
  simp only [Nat.zero_add, Nat.reducePow]
  omega

/-- **C44**, for the 32-byte scalars of the 256-bit curves. -/
theorem C44_256 (inb : Bytes) (h : inb.length = 32) :
    digitsValue 32 (scalar_rwnaf 32 51 inb) = ((leNat inb ||| 1 : Nat) : Int) ∧ digitsValue 2 (scalar_wnaf 32 257 inb) = leNat inb :=
  ⟨(C44_rwnaf 32 51 inb h (by omega)).2.1, (C44_wnaf 32 (by omega) inb h).2.1⟩

/-- **C44**, for the 64-byte scalars of the 512-bit curves. -/
theorem C44_512 (inb : Bytes) (h : inb.length = 64) :
    digitsValue 32 (scalar_rwnaf 64 102 inb) = ((leNat inb ||| 1 : Nat) : Int) ∧ digitsValue 2 (scalar_wnaf 64 513 inb) = leNat inb :=
  ⟨(C44_rwnaf 64 102 inb h (by omega)).2.1, (C44_wnaf 64 (by omega) inb h).2.1⟩

/-- Two recodings of a 32-byte scalar (12345), evaluated. -/
example : (scalar_wnaf 32 257 (0x39 :: 0x30 :: zeros 30)).take 14 = [-7, 0, 0, 0, 0, 0, 1, 0, 0, 0, 0, 0, 3, 0] ∧
    (scalar_rwnaf 32 51 (0x39 :: 0x30 :: zeros 30)).take 4 = [25, -31, -19, -31] := by decide +kernel

end Gost
