import Verif.Lemmas.EcpCurve

/-!
# Edwards coordinates and the group of a curve

The curve `u² + v² = 1 + d u² v²` with `d` not a square, and the curve in short Weierstrass form it is birationally
equivalent to by the map of RFC 7836, section 5.2.  The addition formulas of the Edwards form compute the group law of
Mathlib's `WeierstrassCurve.Affine.Point` for all pairs of points.
-/

namespace Gost

open WeierstrassCurve

set_option linter.unusedSectionVars false

variable {F : Type} [Field F] [DecidableEq F]

/-- The constants of an Edwards curve (RFC 7836: `s = (e - d) / 4`, `t = (e + d) / 6` with `e = 1`). -/
structure EdParams (S T d : F) : Prop where
  two : (2 : F) ≠ 0
  T3 : 3 * T = 1 - 2 * S
  d_eq : d = 1 - 4 * S
  nonsq : ¬ IsSquare d

/-- The coefficient `a` of the Weierstrass form. -/
@[reducible] def edA (S T : F) : F := S ^ 2 - 3 * T ^ 2
/-- The coefficient `b`. -/
@[reducible] def edB (S T : F) : F := 2 * T ^ 3 - T * S ^ 2

/-- Edwards coordinates of a point of the Weierstrass form. -/
def edw (S T : F) : CurvePoint (edA S T) (edB S T) → F × F
  | .zero => (0, 1)
  | .some x y _ => if y = 0 then (0, -1) else ((x - T) / y, (x - T - S) / (x - T + S))

variable {S T d : F}

theorem EdParams.S_ne (h : EdParams S T d) : S ≠ 0 := by
  intro hs
  apply h.nonsq
  rw [h.d_eq, hs]
  exact ⟨1, by ring⟩

theorem EdParams.d_ne (h : EdParams S T d) : d ≠ 0 := by
  intro hs
  apply h.nonsq
  rw [hs]
  exact ⟨0, by ring⟩

/-- The equation in terms of `x - T`. -/
theorem ed_equation (h : EdParams S T d) {x y : F} (hn : (shortW (edA S T) (edB S T)).toAffine.Nonsingular x y) :
    y ^ 2 = (x - T) ^ 3 + (1 - 2 * S) * (x - T) ^ 2 + S ^ 2 * (x - T) := by
  have := shortW_equation hn
  simp only [edA, edB] at this
  rw [← h.T3, this]
  ring

theorem not_sq (h : EdParams S T d) {p q : F} (e : p ^ 2 = d * q ^ 2) : q = 0 := by
  by_contra hq
  apply h.nonsq
  refine ⟨p / q, ?_⟩
  field_simp
  linear_combination -e

theorem ed_MS_ne (h : EdParams S T d) {M y : F} (e : y ^ 2 = M ^ 3 + (1 - 2 * S) * M ^ 2 + S ^ 2 * M) : M + S ≠ 0 := by
  intro hM
  have hM' : M = -S := by linear_combination hM
  apply h.S_ne
  apply not_sq h (p := y)
  rw [e, hM', h.d_eq]
  ring

theorem ed_y_zero (h : EdParams S T d) {M : F} (e : 0 = M ^ 3 + (1 - 2 * S) * M ^ 2 + S ^ 2 * M) : M = 0 := by
  by_contra hM
  have e2 : M ^ 2 + (1 - 2 * S) * M + S ^ 2 = 0 := by
    have : M * (M ^ 2 + (1 - 2 * S) * M + S ^ 2) = 0 := by linear_combination -e
    exact (mul_eq_zero.1 this).resolve_left hM
  have := not_sq h (p := 2 * M + (1 - 2 * S)) (q := 1) (by rw [h.d_eq]; linear_combination 4 * e2)
  exact one_ne_zero this

/-- The denominators of the addition formulas are never 0. -/
theorem ed_denominators (h : EdParams S T d) {u1 v1 u2 v2 : F} (e1 : u1 ^ 2 + v1 ^ 2 = 1 + d * u1 ^ 2 * v1 ^ 2)
    (e2 : u2 ^ 2 + v2 ^ 2 = 1 + d * u2 ^ 2 * v2 ^ 2) :
    1 + d * u1 * u2 * v1 * v2 ≠ 0 ∧ 1 - d * u1 * u2 * v1 * v2 ≠ 0 := by
  have main : ∀ e : F, e ^ 2 = 1 → e = d * u1 * u2 * v1 * v2 → False := by
    intro e he hed
    have he0 : e ≠ 0 := by intro h0; rw [h0] at he; simp at he
    have hu1 : u1 ≠ 0 := by rintro rfl; apply he0; rw [hed]; ring
    have hv1 : v1 ≠ 0 := by rintro rfl; apply he0; rw [hed]; ring
    have k1 : (u1 + e * v1) ^ 2 = d * (u1 * v1 * (u2 + v2)) ^ 2 := by
      have : e ^ 2 = (d * u1 * u2 * v1 * v2) ^ 2 := by rw [hed]
      linear_combination e1 + (v1 ^ 2 - 1) * he + this + 2 * u1 * v1 * hed - d * u1 ^ 2 * v1 ^ 2 * e2
    have k2 : (u1 - e * v1) ^ 2 = d * (u1 * v1 * (u2 - v2)) ^ 2 := by
      have : e ^ 2 = (d * u1 * u2 * v1 * v2) ^ 2 := by rw [hed]
      linear_combination e1 + (v1 ^ 2 - 1) * he + this - 2 * u1 * v1 * hed - d * u1 ^ 2 * v1 ^ 2 * e2
    have j1 := not_sq h k1
    have j2 := not_sq h k2
    have n1 := (mul_eq_zero.1 j1).resolve_left (mul_ne_zero hu1 hv1)
    have n2 := (mul_eq_zero.1 j2).resolve_left (mul_ne_zero hu1 hv1)
    have hu2 : u2 = 0 := by
      have : 2 * u2 = 0 := by linear_combination n1 + n2
      exact (mul_eq_zero.1 this).resolve_left h.two
    apply he0; rw [hed, hu2]; ring
  constructor
  · intro h0
    exact main (-1) (by ring) (by linear_combination -h0)
  · intro h0
    exact main 1 (by ring) (by linear_combination h0)

/-- The coordinates satisfy the Edwards equation. -/
theorem edw_curve (h : EdParams S T d) (P : CurvePoint (edA S T) (edB S T)) :
    (edw S T P).1 ^ 2 + (edw S T P).2 ^ 2 = 1 + d * (edw S T P).1 ^ 2 * (edw S T P).2 ^ 2 := by
  cases P with
  | zero => simp [edw]
  | some x y hn =>
    have e := ed_equation h hn
    have hs := ed_MS_ne h e
    by_cases hy : y = 0
    · simp [edw, hy]
    · simp only [edw, if_neg hy]
      have hd := h.d_eq
      generalize x - T = M at *
      rw [hd]
      field_simp
      linear_combination (-4 * S * M) * e

theorem ed_key1 {M1 M2 y1 y2 S : F} (e1 : y1 ^ 2 = M1 ^ 3 + (1 - 2 * S) * M1 ^ 2 + S ^ 2 * M1)
    (e2 : y2 ^ 2 = M2 ^ 3 + (1 - 2 * S) * M2 ^ 2 + S ^ 2 * M2) :
    let N := (y1 - y2) ^ 2 - (1 - 2 * S + M1 + M2) * (M1 - M2) ^ 2
    let Y := (y1 - y2) * (M1 * (M1 - M2) ^ 2 - N) - y1 * (M1 - M2) ^ 3
    (M1 * (M2 - S) * y2 * (M1 + S) + M2 * (M1 - S) * y1 * (M2 + S)) * Y =
      N * (M1 - M2) * (y1 * y2 * (M1 + S) * (M2 + S) + (1 - 4 * S) * M1 * M2 * (M1 - S) * (M2 - S)) := by
  intro N Y
  linear_combination (
      2 * M1 * M2 * S * y1 * y2 + (-1) * M1 * M2 * S * y1 ^ 2 + 1 * M1 * M2 * S ^ 4 + 3 * M1 * M2 ^ 2 * S ^ 2 + (-7) * M1 *
      M2 ^ 2 * S ^ 3 + 4 * M1 * M2 ^ 2 * y1 * y2 + (-1) * M1 * M2 ^ 2 * y1 ^ 2 + (-5) * M1 * M2 ^ 2 * y2 ^ 2 + 2 * M1 * M2 ^
      3 * S + 1 * M1 * M2 ^ 3 * S ^ 2 + 1 * M1 * M2 ^ 4 + 3 * M1 * M2 ^ 4 * S + 2 * M1 * M2 ^ 5 + (-1) * M1 * S ^ 2 * y2 ^ 2
      + (-1) * M1 ^ 2 * M2 * S ^ 2 + 3 * M1 ^ 2 * M2 * S ^ 3 + (-2) * M1 ^ 2 * M2 * y1 * y2 + 5 * M1 ^ 2 * M2 * y2 ^ 2 +
      (-2) * M1 ^ 2 * M2 ^ 2 * S + 3 * M1 ^ 2 * M2 ^ 2 * S ^ 2 + (-1) * M1 ^ 2 * M2 ^ 3 + (-3) * M1 ^ 2 * M2 ^ 3 * S + (-3)
      * M1 ^ 2 * M2 ^ 4 + (-1) * M1 ^ 2 * S * y2 ^ 2 + 1 * M1 ^ 3 * M2 * S + (-4) * M1 ^ 3 * M2 * S ^ 2 + (-1) * M1 ^ 3 * M2
      ^ 2 + 4 * M1 ^ 3 * M2 ^ 2 * S + (-2) * M2 * S ^ 2 * y1 * y2 + 1 * M2 * S ^ 2 * y1 ^ 2 + 1 * M2 * S ^ 2 * y2 ^ 2 + (-2)
      * M2 ^ 2 * S * y1 * y2 + 1 * M2 ^ 2 * S * y1 ^ 2 + 1 * M2 ^ 2 * S * y2 ^ 2 + (-1) * M2 ^ 3 * S ^ 2 + 2 * M2 ^ 3 * S ^
      3 + (-1) * M2 ^ 4 * S + (-2) * M2 ^ 5 * S) * e1 + (
      (-2) * M1 * M2 * S * y1 * y2 + 1 * M1 * M2 * S * y2 ^ 2 + 1 * M1 * M2 ^ 2 * S ^ 2 + (-2) * M1 * M2 ^ 2 * S ^ 3 + 2 *
      M1 * M2 ^ 2 * y1 * y2 + (-1) * M1 * M2 ^ 3 * S + 4 * M1 * M2 ^ 3 * S ^ 2 + 2 * M1 * S ^ 2 * y1 * y2 + (-1) * M1 * S ^
      2 * y2 ^ 2 + (-2) * M1 ^ 2 * M2 * S ^ 2 + 5 * M1 ^ 2 * M2 * S ^ 3 + (-4) * M1 ^ 2 * M2 * y1 * y2 + 1 * M1 ^ 2 * M2 *
      y2 ^ 2 + 3 * M1 ^ 2 * M2 ^ 2 * S + (-10) * M1 ^ 2 * M2 ^ 2 * S ^ 2 + 1 * M1 ^ 2 * M2 ^ 3 + (-4) * M1 ^ 2 * M2 ^ 3 * S
      + 2 * M1 ^ 2 * S * y1 * y2 + (-1) * M1 ^ 2 * S * y2 ^ 2 + (-1) * M1 ^ 2 * S ^ 4 + (-2) * M1 ^ 3 * M2 * S + 5 * M1 ^ 3
      * M2 * S ^ 2 + (-4) * M1 ^ 3 * M2 ^ 2 + 14 * M1 ^ 3 * M2 ^ 2 * S + (-1) * M1 ^ 3 * S ^ 3 + 4 * M1 ^ 4 * M2 + (-13) *
      M1 ^ 4 * M2 * S + (-2) * M1 ^ 4 * M2 ^ 2 + 1 * M1 ^ 4 * S ^ 2 + 3 * M1 ^ 5 * M2 + 1 * M1 ^ 5 * S) * e2

theorem ed_key2 {M1 M2 y1 y2 S : F} (e1 : y1 ^ 2 = M1 ^ 3 + (1 - 2 * S) * M1 ^ 2 + S ^ 2 * M1)
    (e2 : y2 ^ 2 = M2 ^ 3 + (1 - 2 * S) * M2 ^ 2 + S ^ 2 * M2) :
    let N := (y1 - y2) ^ 2 - (1 - 2 * S + M1 + M2) * (M1 - M2) ^ 2
    ((M1 - S) * (M2 - S) * y1 * y2 - M1 * M2 * (M1 + S) * (M2 + S)) * (N + S * (M1 - M2) ^ 2) =
      (N - S * (M1 - M2) ^ 2) * (y1 * y2 * (M1 + S) * (M2 + S) - (1 - 4 * S) * M1 * M2 * (M1 - S) * (M2 - S)) := by
  intro N
  linear_combination (
      (-4) * M1 * M2 * S ^ 3 + (-2) * M1 * M2 ^ 2 * S + 4 * M1 * M2 ^ 2 * S ^ 2 + (-2) * M1 * S * y1 * y2 + 4 * M1 * S * y2
      ^ 2 + (-2) * M1 ^ 2 * M2 * S + 4 * M1 ^ 2 * M2 * S ^ 2 + (-4) * M1 ^ 2 * M2 ^ 2 * S + (-2) * M2 * S * y1 * y2 + 4 * M2
      * S * y2 ^ 2) * e1 + (
      (-2) * M1 * M2 ^ 2 * S + 4 * M1 * M2 ^ 2 * S ^ 2 + (-2) * M1 * S * y1 * y2 + 2 * M1 ^ 2 * M2 * S + (-4) * M1 ^ 2 * M2
      * S ^ 2 + (-4) * M1 ^ 2 * M2 ^ 2 * S + 4 * M1 ^ 2 * S ^ 3 + 4 * M1 ^ 3 * M2 * S + 4 * M1 ^ 3 * S + (-8) * M1 ^ 3 * S ^
      2 + 4 * M1 ^ 4 * S + (-2) * M2 * S * y1 * y2) * e2

theorem ed_key3 {M y S : F} (e : y ^ 2 = M ^ 3 + (1 - 2 * S) * M ^ 2 + S ^ 2 * M) :
    let L := 3 * M ^ 2 + 2 * (1 - 2 * S) * M + S ^ 2
    let N := L ^ 2 - (1 - 2 * S + 2 * M) * (4 * y ^ 2)
    let Y := L * (4 * y ^ 2 * M - N) - 8 * y ^ 4
    M * (M - S) * (M + S) * Y = N * (y ^ 2 * (M + S) ^ 2 + (1 - 4 * S) * M ^ 2 * (M - S) ^ 2) := by
  intro L N Y
  linear_combination (
      8 * M * S * y ^ 2 + (-4) * M * S ^ 4 + 6 * M * S ^ 5 + 8 * M ^ 2 * S * y ^ 2 + (-4) * M ^ 2 * S ^ 2 + 8 * M ^ 2 * S ^
      3 + (-3) * M ^ 2 * S ^ 4 + 4 * M ^ 2 * y ^ 2 + (-8) * M ^ 3 * S + 32 * M ^ 3 * S ^ 2 + (-44) * M ^ 3 * S ^ 3 + 12 * M
      ^ 4 + (-72) * M ^ 4 * S + 105 * M ^ 4 * S ^ 2 + 36 * M ^ 5 + (-90) * M ^ 5 * S + 27 * M ^ 6 + 4 * S ^ 2 * y ^ 2 + (-8)
      * S ^ 3 * y ^ 2 + (-1) * S ^ 6) * e

theorem ed_key4 {M y S : F} (e : y ^ 2 = M ^ 3 + (1 - 2 * S) * M ^ 2 + S ^ 2 * M) :
    let L := 3 * M ^ 2 + 2 * (1 - 2 * S) * M + S ^ 2
    let N := L ^ 2 - (1 - 2 * S + 2 * M) * (4 * y ^ 2)
    ((M - S) ^ 2 * y ^ 2 - M ^ 2 * (M + S) ^ 2) * (N + 4 * y ^ 2 * S) =
      (N - 4 * y ^ 2 * S) * (y ^ 2 * (M + S) ^ 2 - (1 - 4 * S) * M ^ 2 * (M - S) ^ 2) := by
  intro L N
  linear_combination (
      16 * M * S * y ^ 2 + (-32) * M * S ^ 2 * y ^ 2 + 4 * M * S ^ 5 + 40 * M ^ 2 * S * y ^ 2 + 16 * M ^ 2 * S ^ 3 + (-32) *
      M ^ 2 * S ^ 4 + 16 * M ^ 3 * S + (-64) * M ^ 3 * S ^ 2 + 88 * M ^ 3 * S ^ 3 + 48 * M ^ 4 * S + (-96) * M ^ 4 * S ^ 2 +
      36 * M ^ 5 * S + 8 * S ^ 3 * y ^ 2) * e

/-- Coordinates of a point `(M + T, y)` from two equations that hold whether or not `y` is 0. -/
theorem edw_of (h : EdParams S T d) {x y u v : F} (hn : (shortW (edA S T) (edB S T)).toAffine.Nonsingular x y)
    (hc : u ^ 2 + v ^ 2 = 1 + d * u ^ 2 * v ^ 2) (k1 : u * y = x - T) (k2 : v * (x - T + S) = x - T - S) :
    edw S T (.some x y hn) = (u, v) := by
  have e := ed_equation h hn
  have hs := ed_MS_ne h e
  by_cases hy : y = 0
  · rw [hy] at e
    have hM : x - T = 0 := ed_y_zero h (by linear_combination e)
    rw [hM] at k2
    have hv : v = -1 := by
      have : S * (v + 1) = 0 := by linear_combination k2
      linear_combination (mul_eq_zero.1 this).resolve_left h.S_ne
    have hu : u = 0 := by
      rw [hv] at hc
      have : (4 * S) * u ^ 2 = 0 := by rw [h.d_eq] at hc; linear_combination hc
      have h4 : (4 : F) * S ≠ 0 := mul_ne_zero (by have : (4 : F) = 2 * 2 := by norm_num
                                                   rw [this]; exact mul_ne_zero h.two h.two) h.S_ne
      exact pow_eq_zero_iff (two_ne_zero) |>.1 ((mul_eq_zero.1 this).resolve_left h4)
    simp [edw, hy, hu, hv]
  · simp only [edw, if_neg hy, ← k1]
    rw [mul_div_assoc, div_self hy, mul_one]
    rw [k1, ← k2, mul_div_assoc, div_self hs, mul_one]

/-- The sum on the Edwards curve lies on it. -/
theorem ed_closed (h : EdParams S T d) {u1 v1 u2 v2 : F} (e1 : u1 ^ 2 + v1 ^ 2 = 1 + d * u1 ^ 2 * v1 ^ 2)
    (e2 : u2 ^ 2 + v2 ^ 2 = 1 + d * u2 ^ 2 * v2 ^ 2) :
    let u := (u1 * v2 + v1 * u2) / (1 + d * u1 * u2 * v1 * v2)
    let v := (v1 * v2 - u1 * u2) / (1 - d * u1 * u2 * v1 * v2)
    u ^ 2 + v ^ 2 = 1 + d * u ^ 2 * v ^ 2 := by
  obtain ⟨n1, n2⟩ := ed_denominators h e1 e2
  intro u v
  simp only [u, v]
  have f1 : u1 ^ 2 + v1 ^ 2 - (u2 ^ 2 + v2 ^ 2) * (d * u1 ^ 2 * v1 ^ 2) = 1 - d ^ 2 * u1 ^ 2 * v1 ^ 2 * u2 ^ 2 * v2 ^ 2 := by
    linear_combination e1 - d * u1 ^ 2 * v1 ^ 2 * e2
  have f2 : u2 ^ 2 + v2 ^ 2 - (u1 ^ 2 + v1 ^ 2) * (d * u2 ^ 2 * v2 ^ 2) = 1 - d ^ 2 * u1 ^ 2 * v1 ^ 2 * u2 ^ 2 * v2 ^ 2 := by
    linear_combination e2 - d * u2 ^ 2 * v2 ^ 2 * e1
  obtain ⟨D1, hD1⟩ : ∃ D, D = 1 + d * u1 * u2 * v1 * v2 := ⟨_, rfl⟩
  obtain ⟨D2, hD2⟩ : ∃ D, D = 1 - d * u1 * u2 * v1 * v2 := ⟨_, rfl⟩
  rw [← hD1] at n1
  rw [← hD2] at n2
  rw [← hD1, ← hD2]
  field_simp
  rw [hD1, hD2]
  linear_combination (u2 ^ 2 + v2 ^ 2 - (u1 ^ 2 + v1 ^ 2) * (d * u2 ^ 2 * v2 ^ 2)) * f1 + (1 - d ^ 2 * u1 ^ 2 * v1 ^ 2 * u2 ^ 2 * v2 ^ 2) * f2

/-- The addition of Edwards coordinates. -/
def edAdd (d : F) (p q : F × F) : F × F :=
  ((p.1 * q.2 + p.2 * q.1) / (1 + d * p.1 * q.1 * p.2 * q.2), (p.2 * q.2 - p.1 * q.1) / (1 - d * p.1 * q.1 * p.2 * q.2))

theorem edAdd_comm (p q : F × F) : edAdd d p q = edAdd d q p := by
  unfold edAdd
  ext <;> simp only <;> congr 1 <;> ring

/-- Edwards coordinates of the point of order 2. -/
theorem edw_order2 (h : EdParams S T d) {x : F} (hn : (shortW (edA S T) (edB S T)).toAffine.Nonsingular x 0) : x = T := by
  have e := ed_equation h hn
  have := ed_y_zero h (M := x - T) (by linear_combination e)
  linear_combination this

theorem edw_add_order2 (h : EdParams S T d) {x x2 y2 : F} (hn : (shortW (edA S T) (edB S T)).toAffine.Nonsingular x 0)
    (hn2 : (shortW (edA S T) (edB S T)).toAffine.Nonsingular x2 y2) :
    edw S T (.some x 0 hn + .some x2 y2 hn2) = edAdd d (edw S T (.some x 0 hn)) (edw S T (.some x2 y2 hn2)) := by
  have hx := edw_order2 h hn
  subst hx
  by_cases hy : y2 = 0
  · subst hy
    have hx2 := edw_order2 h hn2
    subst hx2
    rw [Affine.Point.add_of_Y_eq rfl (by rw [shortW_negY]; simp)]
    simp [edw, edAdd]
  · have e := ed_equation h hn2
    have hs := ed_MS_ne h e
    have hxx : x ≠ x2 := by
      rintro rfl
      apply hy
      have : y2 ^ 2 = 0 := by rw [e]; ring
      exact pow_eq_zero_iff two_ne_zero |>.1 this
    have hM : x2 - x ≠ 0 := sub_ne_zero.2 (Ne.symm hxx)
    rw [Affine.Point.add_of_X_ne hxx]
    have hl : (shortW (edA S x) (edB S x)).toAffine.slope x x2 0 y2 = y2 / (x2 - x) := by
      rw [Affine.slope_of_X_ne hxx]
      rw [show (0 : F) - y2 = -y2 by ring, show x - x2 = -(x2 - x) by ring, neg_div_neg_eq]
    have hT := h.T3
    have hX : (shortW (edA S x) (edB S x)).toAffine.addX x x2 (y2 / (x2 - x)) - x = S ^ 2 / (x2 - x) := by
      simp only [Affine.addX]
      field_simp
      linear_combination e - (x2 - x) ^ 2 * hT
    have hY : (shortW (edA S x) (edB S x)).toAffine.addY x x2 0 (y2 / (x2 - x)) = - (S ^ 2 * y2 / (x2 - x) ^ 2) := by
      have hX' : (shortW (edA S x) (edB S x)).toAffine.addX x x2 (y2 / (x2 - x)) = S ^ 2 / (x2 - x) + x := by linear_combination hX
      simp only [Affine.addY, Affine.negAddY, Affine.negY, hX']
      field_simp
      ring
    have hr : edAdd d (edw S x (.some x 0 hn)) (edw S x (.some x2 y2 hn2)) = (-((x2 - x) / y2), -((x2 - x - S) / (x2 - x + S))) := by
      simp [edAdd, edw, hy]
    rw [hr]
    have hc := edw_curve h (.some x2 y2 hn2)
    simp only [edw, if_neg hy] at hc
    apply edw_of h
    · linear_combination hc
    · rw [hl, hX, hY]
      field_simp
    · rw [hl, hX]
      field_simp
      ring

theorem ed_add_aux {M1 M2 y1 y2 S T d : F} (hT : 3 * T = 1 - 2 * S) (e1 : y1 ^ 2 = M1 ^ 3 + (1 - 2 * S) * M1 ^ 2 + S ^ 2 * M1)
    (e2 : y2 ^ 2 = M2 ^ 3 + (1 - 2 * S) * M2 ^ 2 + S ^ 2 * M2) (hd : d = 1 - 4 * S) (hy1 : y1 ≠ 0) (hy2 : y2 ≠ 0)
    (hs1 : M1 + S ≠ 0) (hs2 : M2 + S ≠ 0) (hM : M1 - M2 ≠ 0) :
    let u1 := M1 / y1
    let v1 := (M1 - S) / (M1 + S)
    let u2 := M2 / y2
    let v2 := (M2 - S) / (M2 + S)
    let l := (y1 - y2) / (M1 - M2)
    let M3 := l ^ 2 - 3 * T - M1 - M2
    let y3 := l * (M1 - M3) - y1
    (u1 * v2 + v1 * u2) * y3 = M3 * (1 + d * u1 * u2 * v1 * v2) ∧
    (v1 * v2 - u1 * u2) * (M3 + S) = (M3 - S) * (1 - d * u1 * u2 * v1 * v2) := by
  have k1 := ed_key1 e1 e2
  have k2 := ed_key2 e1 e2
  simp only at k1 k2 ⊢
  rw [hd, hT]
  constructor
  · field_simp
    linear_combination k1
  · field_simp
    linear_combination k2

theorem ed_dbl_aux {M y S T d : F} (hT : 3 * T = 1 - 2 * S) (e : y ^ 2 = M ^ 3 + (1 - 2 * S) * M ^ 2 + S ^ 2 * M) (hd : d = 1 - 4 * S) (hy : y ≠ 0)
    (hs : M + S ≠ 0) (h2 : (2 : F) ≠ 0) :
    let u := M / y
    let v := (M - S) / (M + S)
    let l := (3 * M ^ 2 + 2 * (1 - 2 * S) * M + S ^ 2) / (2 * y)
    let M3 := l ^ 2 - 3 * T - M - M
    let y3 := l * (M - M3) - y
    (u * v + v * u) * y3 = M3 * (1 + d * u * u * v * v) ∧
    (v * v - u * u) * (M3 + S) = (M3 - S) * (1 - d * u * u * v * v) := by
  have k1 := ed_key3 e
  have k2 := ed_key4 e
  simp only at k1 k2 ⊢
  rw [hd, hT]
  constructor
  · field_simp
    linear_combination 2 * k1
  · field_simp
    linear_combination k2

theorem edw_add (h : EdParams S T d) (P Q : CurvePoint (edA S T) (edB S T)) :
    edw S T (P + Q) = edAdd d (edw S T P) (edw S T Q) := by
  cases P with
  | zero =>
    change edw S T (0 + Q) = edAdd d (0, 1) _
    rw [zero_add]
    simp [edAdd]
  | some x1 y1 hn1 =>
    cases Q with
    | zero =>
      change edw S T (_ + 0) = edAdd d _ (0, 1)
      rw [add_zero]
      simp [edAdd]
    | some x2 y2 hn2 =>
      by_cases hy1 : y1 = 0
      · subst hy1; exact edw_add_order2 h hn1 hn2
      by_cases hy2 : y2 = 0
      · subst hy2; rw [add_comm, edAdd_comm]; exact edw_add_order2 h hn2 hn1
      have e1 := ed_equation h hn1
      have e2 := ed_equation h hn2
      have hs1 := ed_MS_ne h e1
      have hs2 := ed_MS_ne h e2
      have c1 := edw_curve h (.some x1 y1 hn1)
      have c2 := edw_curve h (.some x2 y2 hn2)
      have hcl := ed_closed h c1 c2
      obtain ⟨n1, n2⟩ := ed_denominators h c1 c2
      have hT := h.T3
      have hd := h.d_eq
      have hp1 : edw S T (.some x1 y1 hn1) = ((x1 - T) / y1, (x1 - T - S) / (x1 - T + S)) := by simp only [edw, if_neg hy1]
      have hp2 : edw S T (.some x2 y2 hn2) = ((x2 - T) / y2, (x2 - T - S) / (x2 - T + S)) := by simp only [edw, if_neg hy2]
      by_cases hx : x1 = x2
      · subst hx
        have hyy : y1 = y2 ∨ y1 = -y2 := by
          have : (y1 - y2) * (y1 + y2) = 0 := by linear_combination e1 - e2
          rcases mul_eq_zero.1 this with h | h
          · left; linear_combination h
          · right; linear_combination h
        by_cases hneg : y1 = -y2
        · subst hneg
          rw [Affine.Point.add_of_Y_eq rfl (by rw [shortW_negY])]
          simp only [edw, edAdd, if_neg hy1, if_neg hy2] at *
          ext
          · simp only
            rw [eq_comm, div_eq_zero_iff]
            left
            field_simp
            ring
          · simp only
            rw [eq_comm, div_eq_one_iff_eq n2]
            have : (x1 - T) / -y2 = -((x1 - T) / y2) := by rw [div_neg]
            rw [this]
            linear_combination c2
        · have hy : y1 = y2 := hyy.resolve_right hneg
          subst hy
          have hne : y1 ≠ (shortW (edA S T) (edB S T)).toAffine.negY x1 y1 := by rw [shortW_negY]; exact hneg
          rw [Affine.Point.add_self_of_Y_ne hne]
          have hl : (shortW (edA S T) (edB S T)).toAffine.slope x1 x1 y1 y1 = (3 * (x1 - T) ^ 2 + 2 * (1 - 2 * S) * (x1 - T) + S ^ 2) / (2 * y1) := by
            rw [Affine.slope_of_Y_ne rfl hne, shortW_negY, show y1 - -y1 = 2 * y1 by ring]
            congr 1
            simp only [edA]
            linear_combination (2 * (x1 - T)) * hT
          obtain ⟨k3, k4⟩ := ed_dbl_aux hT e1 hd hy1 hs1 h.two
          rw [hp1] at n1 n2 hcl ⊢
          apply edw_of h
          · exact hcl
          · rw [hl]
            simp only [Affine.addX, Affine.addY, Affine.negAddY, Affine.negY]
            rw [div_mul_eq_mul_div, div_eq_iff n1]
            linear_combination k3
          · rw [hl]
            simp only [Affine.addX]
            rw [div_mul_eq_mul_div, div_eq_iff n2]
            linear_combination k4
      · have hM : (x1 - T) - (x2 - T) ≠ 0 := by
          intro h0; apply hx; linear_combination h0
        obtain ⟨k3, k4⟩ := ed_add_aux hT e1 e2 hd hy1 hy2 hs1 hs2 hM
        rw [Affine.Point.add_of_X_ne hx]
        have hl : (shortW (edA S T) (edB S T)).toAffine.slope x1 x2 y1 y2 = (y1 - y2) / (x1 - T - (x2 - T)) := by
          rw [Affine.slope_of_X_ne hx]
          congr 1; ring
        rw [hp1, hp2] at n1 n2 hcl ⊢
        apply edw_of h
        · exact hcl
        · rw [hl]
          simp only [Affine.addX, Affine.addY, Affine.negAddY, Affine.negY]
          rw [div_mul_eq_mul_div, div_eq_iff n1]
          linear_combination k3
        · rw [hl]
          simp only [Affine.addX]
          rw [div_mul_eq_mul_div, div_eq_iff n2]
          linear_combination k4

end Gost
