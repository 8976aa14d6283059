import Verif.Lemmas.EcpProgs
import Verif.Spec.EcPoint
import Mathlib.Tactic.FieldSimp

/-!
# The complete addition formulas and the group of a curve

For a short Weierstrass curve without points of order 2 the polynomials `rcbX`, `rcbY`, `rcbZ` compute the group law of
Mathlib's `WeierstrassCurve.Affine.Point` on projective coordinates, for all pairs of points.
-/

namespace Gost

open WeierstrassCurve

set_option linter.unusedSectionVars false

variable {F : Type} [Field F] [DecidableEq F]

/-- Projective coordinates of a point. -/
def ProjRep (a b X Y Z : F) : CurvePoint a b → Prop
  | .zero => X = 0 ∧ Y ≠ 0 ∧ Z = 0
  | .some x y _ => Z ≠ 0 ∧ X = x * Z ∧ Y = y * Z

variable {a b : F}

theorem shortW_equation {x y : F} (h : (shortW a b).toAffine.Nonsingular x y) : y ^ 2 = x ^ 3 + a * x + b := by
  have := ((shortW a b).toAffine.equation_iff x y).1 h.1
  simp at this
  linear_combination this

theorem shortW_negY (x y : F) : (shortW a b).toAffine.negY x y = -y := by simp [Affine.negY]

theorem rcb_homog (k l X1 Y1 Z1 X2 Y2 Z2 : F) :
    rcbX a b (X1 * k) (Y1 * k) (Z1 * k) (X2 * l) (Y2 * l) (Z2 * l) = rcbX a b X1 Y1 Z1 X2 Y2 Z2 * (k ^ 2 * l ^ 2) ∧
    rcbY a b (X1 * k) (Y1 * k) (Z1 * k) (X2 * l) (Y2 * l) (Z2 * l) = rcbY a b X1 Y1 Z1 X2 Y2 Z2 * (k ^ 2 * l ^ 2) ∧
    rcbZ a b (X1 * k) (Y1 * k) (Z1 * k) (X2 * l) (Y2 * l) (Z2 * l) = rcbZ a b X1 Y1 Z1 X2 Y2 Z2 * (k ^ 2 * l ^ 2) := by
  simp only [rcbX, rcbY, rcbZ]
  refine ⟨?_, ?_, ?_⟩ <;> ring

theorem ProjRep.scale {X Y Z : F} {P : CurvePoint a b} (h : ProjRep a b X Y Z P) {k : F} (hk : k ≠ 0) :
    ProjRep a b (X * k) (Y * k) (Z * k) P := by
  cases P with
  | zero => obtain ⟨h1, h2, h3⟩ := h; exact ⟨by rw [h1, zero_mul], mul_ne_zero h2 hk, by rw [h3, zero_mul]⟩
  | some x y hn => obtain ⟨h1, h2, h3⟩ := h; exact ⟨mul_ne_zero h1 hk, by rw [h2]; ring, by rw [h3]; ring⟩

/-- Different `x` coordinates. -/
theorem rcb_add_ne {x1 y1 x2 y2 : F} (hx : x1 - x2 ≠ 0) (e1 : y1 ^ 2 = x1 ^ 3 + a * x1 + b) (e2 : y2 ^ 2 = x2 ^ 3 + a * x2 + b) :
    let l := (y1 - y2) / (x1 - x2)
    let x3 := l ^ 2 - x1 - x2
    let y3 := l * (x1 - x3) - y1
    let m := (y1 + y2) / (x1 - x2)
    let x4 := m ^ 2 - x1 - x2
    let y4 := m * (x1 - x4) - y1
    rcbX a b x1 y1 1 x2 y2 1 = x3 * rcbZ a b x1 y1 1 x2 y2 1 ∧ rcbY a b x1 y1 1 x2 y2 1 = y3 * rcbZ a b x1 y1 1 x2 y2 1 ∧
    rcbZ a b x1 y1 1 x2 y2 1 = - y4 * (x1 - x2) ^ 3 ∧ y4 ^ 2 = x4 ^ 3 + a * x4 + b := by
  have ha : a = (y1 ^ 2 - y2 ^ 2 - x1 ^ 3 + x2 ^ 3) / (x1 - x2) := by
    field_simp; linear_combination -e1 + e2
  have hb : b = y1 ^ 2 - x1 ^ 3 - a * x1 := by linear_combination -e1
  rw [hb, ha]
  simp only [rcbX, rcbY, rcbZ]
  refine ⟨?_, ?_, ?_, ?_⟩
  · field_simp; ring
  · field_simp; ring
  · field_simp; ring
  · field_simp; ring

/-- Doubling. -/
theorem rcb_double {x y : F} (h2 : (2 : F) ≠ 0) (hy : y ≠ 0) (e : y ^ 2 = x ^ 3 + a * x + b) :
    let l := (3 * x ^ 2 + a) / (y + y)
    let x3 := l ^ 2 - x - x
    let y3 := l * (x - x3) - y
    rcbX a b x y 1 x y 1 = x3 * (8 * y ^ 3) ∧ rcbY a b x y 1 x y 1 = y3 * (8 * y ^ 3) ∧ rcbZ a b x y 1 x y 1 = 8 * y ^ 3 ∧
    rcbX a b x y 1 x (-y) 1 = 0 ∧ rcbY a b x y 1 x (-y) 1 = y3 * (8 * y ^ 3) ∧ rcbZ a b x y 1 x (-y) 1 = 0 ∧
    y3 ^ 2 = x3 ^ 3 + a * x3 + b := by
  have hb : b = y ^ 2 - x ^ 3 - a * x := by linear_combination -e
  have hyy : y + y ≠ 0 := by rw [← two_mul]; exact mul_ne_zero h2 hy
  rw [hb]
  simp only [rcbX, rcbY, rcbZ]
  have e2 : y + y = 2 * y := by ring
  rw [e2]
  refine ⟨?_, ?_, ?_, ?_, ?_, ?_, ?_⟩
  all_goals field_simp
  all_goals ring

/-- The complete formulas compute the sum of any two points. -/
theorem rcb_add (h2 : (2 : F) ≠ 0) (hno : ∀ x : F, x ^ 3 + a * x + b ≠ 0) {X1 Y1 Z1 X2 Y2 Z2 : F} {P Q : CurvePoint a b}
    (hP : ProjRep a b X1 Y1 Z1 P) (hQ : ProjRep a b X2 Y2 Z2 Q) :
    ProjRep a b (rcbX a b X1 Y1 Z1 X2 Y2 Z2) (rcbY a b X1 Y1 Z1 X2 Y2 Z2) (rcbZ a b X1 Y1 Z1 X2 Y2 Z2) (P + Q) := by
  have hy0 : ∀ {x y : F}, y ^ 2 = x ^ 3 + a * x + b → y ≠ 0 := by
    intro x y h hy
    exact hno x (by rw [← h, hy]; ring)
  cases P with
  | zero =>
    obtain ⟨p1, p2, p3⟩ := hP
    subst p1 p3
    change ProjRep a b _ _ _ (0 + Q)
    rw [zero_add]
    have hc : rcbX a b 0 Y1 0 X2 Y2 Z2 = X2 * (Y1 ^ 2 * Y2) ∧ rcbY a b 0 Y1 0 X2 Y2 Z2 = Y2 * (Y1 ^ 2 * Y2) ∧
        rcbZ a b 0 Y1 0 X2 Y2 Z2 = Z2 * (Y1 ^ 2 * Y2) := by
      simp only [rcbX, rcbY, rcbZ]; refine ⟨?_, ?_, ?_⟩ <;> ring
    rw [hc.1, hc.2.1, hc.2.2]
    apply hQ.scale
    refine mul_ne_zero (pow_ne_zero 2 p2) ?_
    cases Q with
    | zero => exact hQ.2.1
    | some x y hn => obtain ⟨q1, q2, q3⟩ := hQ; rw [q3]; exact mul_ne_zero (hy0 (shortW_equation hn)) q1
  | some x1 y1 hn1 =>
    have e1 := shortW_equation hn1
    cases Q with
    | zero =>
      obtain ⟨p1, p2, p3⟩ := hQ
      subst p1 p3
      change ProjRep a b _ _ _ (_ + 0)
      rw [add_zero]
      have hc : rcbX a b X1 Y1 Z1 0 Y2 0 = X1 * (Y2 ^ 2 * Y1) ∧ rcbY a b X1 Y1 Z1 0 Y2 0 = Y1 * (Y2 ^ 2 * Y1) ∧
          rcbZ a b X1 Y1 Z1 0 Y2 0 = Z1 * (Y2 ^ 2 * Y1) := by
        simp only [rcbX, rcbY, rcbZ]; refine ⟨?_, ?_, ?_⟩ <;> ring
      rw [hc.1, hc.2.1, hc.2.2]
      apply hP.scale
      refine mul_ne_zero (pow_ne_zero 2 p2) ?_
      obtain ⟨q1, q2, q3⟩ := hP; rw [q3]; exact mul_ne_zero (hy0 e1) q1
    | some x2 y2 hn2 =>
      have e2 := shortW_equation hn2
      obtain ⟨p1, p2, p3⟩ := hP
      obtain ⟨q1, q2, q3⟩ := hQ
      have hh := rcb_homog (a := a) (b := b) Z1 Z2 x1 y1 1 x2 y2 1
      rw [one_mul, one_mul, ← p2, ← p3, ← q2, ← q3] at hh
      rw [hh.1, hh.2.1, hh.2.2]
      apply ProjRep.scale _ (mul_ne_zero (pow_ne_zero 2 p1) (pow_ne_zero 2 q1))
      by_cases hx : x1 = x2
      · subst hx
        have hyy : y1 = y2 ∨ y1 = -y2 := by
          have : (y1 - y2) * (y1 + y2) = 0 := by linear_combination e1 - e2
          rcases mul_eq_zero.1 this with h | h
          · left; linear_combination h
          · right; linear_combination h
        have hd := rcb_double h2 (hy0 e1) e1
        simp only at hd
        obtain ⟨d1, d2, d3, d4, d5, d6, d7⟩ := hd
        have h8 : (8 : F) ≠ 0 := by
          have : (8 : F) = 2 ^ 3 := by norm_num
          rw [this]; exact pow_ne_zero 3 h2
        by_cases hneg : y1 = -y2
        · have hy2 : y2 = -y1 := by rw [hneg, neg_neg]
          rw [Affine.Point.add_of_Y_eq rfl (by rw [shortW_negY]; exact hneg), hy2]
          rw [d4, d5, d6]
          refine ⟨rfl, ?_, rfl⟩
          refine mul_ne_zero (hy0 d7) (mul_ne_zero h8 (pow_ne_zero 3 (hy0 e1)))
        · have hy : y1 = y2 := hyy.resolve_right hneg
          subst hy
          have hne : y1 ≠ (shortW a b).toAffine.negY x1 y1 := by rw [shortW_negY]; exact hneg
          rw [Affine.Point.add_self_of_Y_ne hne]
          have hl : (shortW a b).toAffine.slope x1 x1 y1 y1 = (3 * x1 ^ 2 + a) / (y1 + y1) := by
            rw [Affine.slope_of_Y_ne rfl hne, shortW_negY]
            simp
          refine ⟨?_, ?_, ?_⟩
          · rw [d3]; exact mul_ne_zero h8 (pow_ne_zero 3 (hy0 e1))
          · rw [d1, d3, hl]; simp only [Affine.addX]; ring
          · rw [d2, d3, hl]; simp only [Affine.addY, Affine.negAddY, Affine.addX, Affine.negY]; ring
      · have hx' : x1 - x2 ≠ 0 := sub_ne_zero.2 hx
        have hd := rcb_add_ne hx' e1 e2
        simp only at hd
        obtain ⟨d1, d2, d3, d4⟩ := hd
        rw [Affine.Point.add_of_X_ne hx]
        have hl : (shortW a b).toAffine.slope x1 x2 y1 y2 = (y1 - y2) / (x1 - x2) := Affine.slope_of_X_ne hx
        refine ⟨?_, ?_, ?_⟩
        · rw [d3]
          exact mul_ne_zero (neg_ne_zero.2 (hy0 d4)) (pow_ne_zero 3 hx')
        · rw [d1, hl]; simp only [Affine.addX]; ring
        · rw [d2, hl]; simp only [Affine.addY, Affine.negAddY, Affine.addX, Affine.negY]; ring

/-- The `Z` coordinate of the doubling program. -/
theorem rcbZ_double {X Y Z : F} {P : CurvePoint a b} (hP : ProjRep a b X Y Z P) : rcbZ a b X Y Z X Y Z = 8 * Y ^ 3 * Z := by
  cases P with
  | zero => obtain ⟨h1, h2, h3⟩ := hP; subst h1 h3; simp only [rcbZ]; ring
  | some x y hn =>
    obtain ⟨h1, h2, h3⟩ := hP
    have e := shortW_equation hn
    rw [h2, h3]
    simp only [rcbZ]
    linear_combination (-6 * y * Z ^ 4) * e

theorem ProjRep.neg {X Y Z : F} {P : CurvePoint a b} (hP : ProjRep a b X Y Z P) : ProjRep a b X (-Y) Z (-P) := by
  cases P with
  | zero => exact ⟨hP.1, neg_ne_zero.2 hP.2.1, hP.2.2⟩
  | some x y hn =>
    rw [Affine.Point.neg_some]
    refine ⟨hP.1, hP.2.1, ?_⟩
    rw [hP.2.2, shortW_negY]; ring

end Gost
