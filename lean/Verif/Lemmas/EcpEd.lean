import Verif.Lemmas.EcpEdwards
import Verif.Lemmas.EcpW

/-!
# Scalar multiplication in Edwards coordinates
-/

namespace Gost

open WeierstrassCurve
open Spec (leNat leBytes)

section
variable {F : Type} [Field F] [DecidableEq F] {S T d : F}

/-- Extended coordinates of a point of the curve. -/
def EdRep (S T X Y Z W : F) (g : CurvePoint (edA S T) (edB S T)) : Prop :=
  Z ≠ 0 ∧ X = (edw S T g).1 * Z ∧ Y = (edw S T g).2 * Z ∧ W = (edw S T g).1 * (edw S T g).2 * Z

theorem ed_add_rep (h : EdParams S T d) {X1 Y1 Z1 W1 X2 Y2 Z2 W2 : F} {P Q : CurvePoint (edA S T) (edB S T)}
    (hP : EdRep S T X1 Y1 Z1 W1 P) (hQ : EdRep S T X2 Y2 Z2 W2 Q) :
    EdRep S T ((X1 * Y2 + Y1 * X2) * (Z1 * Z2 - d * W1 * W2)) ((Z1 * Z2 + d * W1 * W2) * (Y1 * Y2 - X1 * X2))
      ((Z1 * Z2 - d * W1 * W2) * (Z1 * Z2 + d * W1 * W2)) ((X1 * Y2 + Y1 * X2) * (Y1 * Y2 - X1 * X2)) (P + Q) := by
  obtain ⟨p1, p2, p3, p4⟩ := hP
  obtain ⟨q1, q2, q3, q4⟩ := hQ
  obtain ⟨n1, n2⟩ := ed_denominators h (edw_curve h P) (edw_curve h Q)
  unfold EdRep
  rw [edw_add h]
  unfold edAdd
  generalize edw S T P = p at *
  generalize edw S T Q = q at *
  obtain ⟨u1, v1⟩ := p
  obtain ⟨u2, v2⟩ := q
  simp only at *
  subst p2 p3 p4 q2 q3 q4
  have m1 : Z1 * Z2 - d * (u1 * v1 * Z1) * (u2 * v2 * Z2) = Z1 * Z2 * (1 - d * u1 * u2 * v1 * v2) := by ring
  have m2 : Z1 * Z2 + d * (u1 * v1 * Z1) * (u2 * v2 * Z2) = Z1 * Z2 * (1 + d * u1 * u2 * v1 * v2) := by ring
  rw [m1, m2]
  generalize 1 - d * u1 * u2 * v1 * v2 = D2 at *
  generalize 1 + d * u1 * u2 * v1 * v2 = D1 at *
  refine ⟨mul_ne_zero (mul_ne_zero (mul_ne_zero p1 q1) n2) (mul_ne_zero (mul_ne_zero p1 q1) n1), ?_, ?_, ?_⟩
  · field_simp
  · field_simp
  · field_simp

theorem ed_double_rep (h : EdParams S T d) {X1 Y1 Z1 W1 : F} {P : CurvePoint (edA S T) (edB S T)}
    (hP : EdRep S T X1 Y1 Z1 W1 P) :
    EdRep S T (2 * X1 * Y1 * (X1 ^ 2 + Y1 ^ 2 - 2 * Z1 ^ 2)) ((X1 ^ 2 + Y1 ^ 2) * (X1 ^ 2 - Y1 ^ 2))
      ((X1 ^ 2 + Y1 ^ 2 - 2 * Z1 ^ 2) * (X1 ^ 2 + Y1 ^ 2)) (2 * X1 * Y1 * (X1 ^ 2 - Y1 ^ 2)) (P + P) := by
  obtain ⟨p1, p2, p3, p4⟩ := hP
  have hc := edw_curve h P
  obtain ⟨n1, n2⟩ := ed_denominators h hc hc
  unfold EdRep
  rw [edw_add h]
  unfold edAdd
  generalize edw S T P = p at *
  obtain ⟨u1, v1⟩ := p
  simp only at *
  subst p2 p3 p4
  have m1 : (u1 * Z1) ^ 2 + (v1 * Z1) ^ 2 = Z1 ^ 2 * (1 + d * u1 * u1 * v1 * v1) := by linear_combination Z1 ^ 2 * hc
  have m2 : Z1 ^ 2 * (1 + d * u1 * u1 * v1 * v1) - 2 * Z1 ^ 2 = - Z1 ^ 2 * (1 - d * u1 * u1 * v1 * v1) := by ring
  rw [m1, m2]
  generalize 1 - d * u1 * u1 * v1 * v1 = D2 at *
  generalize 1 + d * u1 * u1 * v1 * v1 = D1 at *
  have z2 : Z1 ^ 2 ≠ 0 := pow_ne_zero 2 p1
  refine ⟨mul_ne_zero (mul_ne_zero (neg_ne_zero.2 z2) n2) (mul_ne_zero z2 n1), ?_, ?_, ?_⟩
  · field_simp; ring
  · field_simp; ring
  · field_simp; ring

theorem edw_neg (P : CurvePoint (edA S T) (edB S T)) : edw S T (-P) = (-(edw S T P).1, (edw S T P).2) := by
  cases P with
  | zero =>
    change edw S T (-0) = _
    rw [neg_zero]
    change (0, 1) = (-0, 1)
    rw [neg_zero]
  | some x y hn =>
    rw [Affine.Point.neg_some]
    simp only [edw, shortW_negY, neg_eq_zero]
    split
    · simp
    · simp [div_neg]

theorem EdRep.neg {X Y Z W : F} {P : CurvePoint (edA S T) (edB S T)} (hP : EdRep S T X Y Z W P) :
    EdRep S T (-X) Y Z (-W) (-P) := by
  obtain ⟨p1, p2, p3, p4⟩ := hP
  unfold EdRep
  rw [edw_neg]
  refine ⟨p1, ?_, p3, ?_⟩
  · rw [p2]; ring
  · rw [p4]; ring

/-- The conversion from Weierstrass coordinates; not for the point of order 2. -/
theorem ed_of_legacy (h : EdParams S T d) {x y : F} (hn : (shortW (edA S T) (edB S T)).toAffine.Nonsingular x y) (hy : y ≠ 0) :
    EdRep S T ((x - T) * (x - T + S) * (y * (x - T + S))) (y * (x - T - S) * (y * (x - T + S))) ((y * (x - T + S)) ^ 2)
      ((x - T) * (x - T + S) * (y * (x - T - S))) (.some x y hn) := by
  have hs := ed_MS_ne h (ed_equation h hn)
  simp only [EdRep, edw, if_neg hy]
  refine ⟨pow_ne_zero 2 (mul_ne_zero hy hs), ?_, ?_, ?_⟩ <;> field_simp

/-- The conversion to Weierstrass coordinates. -/
theorem ed_to_legacy (h : EdParams S T d) {X Y Z W : F} {P : CurvePoint (edA S T) (edB S T)} (hP : EdRep S T X Y Z W P) :
    let X' := X * (S * (Z + Y) + T * (Z - Y))
    let Y' := Z * S * (Z + Y)
    let Z' := X * (Z - Y)
    match P with
    | .zero => X' * Z'⁻¹ = 0 ∧ Y' * Z'⁻¹ = 0
    | .some x y _ => if y = 0 then X' * Z'⁻¹ = 0 ∧ Y' * Z'⁻¹ = 0 else X' * Z'⁻¹ = x ∧ Y' * Z'⁻¹ = y := by
  obtain ⟨p1, p2, p3, p4⟩ := hP
  cases P with
  | zero =>
    have e0 : (edw S T (Affine.Point.zero : CurvePoint (edA S T) (edB S T))).1 = 0 := rfl
    have : X = 0 := by rw [p2, e0, zero_mul]
    simp [this]
  | some x y hn =>
    have e := ed_equation h hn
    have hs := ed_MS_ne h e
    simp only
    split
    · rename_i hy
      simp only [edw, if_pos hy] at *
      have : X = 0 := by rw [p2]; ring
      simp [this]
    · rename_i hy
      simp only [edw, if_neg hy] at *
      have hS := h.S_ne
      have hM : x - T ≠ 0 := by
        intro h0
        rw [h0] at e
        apply hy
        have : y ^ 2 = 0 := by rw [e]; ring
        exact pow_eq_zero_iff two_ne_zero |>.1 this
      have a1 : Z + Y = 2 * (x - T) * Z / (x - T + S) := by rw [p3]; field_simp; ring
      have a2 : Z - Y = 2 * S * Z / (x - T + S) := by rw [p3]; field_simp; ring
      rw [a1, a2, p2]
      have h2 := h.two
      constructor
      · field_simp; ring
      · field_simp

end

section
variable {K : Type} {O : FeOps K} {p nb : Nat} [Fact p.Prime] {ok : K → Prop} {val : K → ZMod p} {S T d : ZMod p}

/-- The constants of a file with Edwards coordinates. -/
structure EdFits (O : FeOps K) (val : K → ZMod p) (S T d : ZMod p) : Prop where
  d : val O.const_d = d
  S : val O.const_S = S
  T : val O.const_T = T

/-- Coordinates standing for a point. -/
def ERep (ok : K → Prop) (val : K → ZMod p) (S T : ZMod p) (P : PtE K) (g : CurvePoint (edA S T) (edB S T)) : Prop :=
  (ok P.X ∧ ok P.Y ∧ ok P.T ∧ ok P.Z) ∧ EdRep S T (val P.X) (val P.Y) (val P.Z) (val P.T) g

/-- The same for table entries. -/
def ERepA (ok : K → Prop) (val : K → ZMod p) (S T : ZMod p) (P : AffE K) (g : CurvePoint (edA S T) (edB S T)) : Prop :=
  (ok P.X ∧ ok P.Y ∧ ok P.T) ∧ EdRep S T (val P.X) (val P.Y) 1 (val P.T) g

theorem e_double (h : O.Sound p nb ok val) (hc : EdParams S T d) (P : PtE K) (g : CurvePoint (edA S T) (edB S T))
    (hP : ERep ok val S T P g) : ERep ok val S T (eDouble O locId P) (g + g) := by
  obtain ⟨⟨k1, k2, k3, k4⟩, hP⟩ := hP
  have hz := h.zero.1
  obtain ⟨i1, i2⟩ := feInit_val h k1 k2 k4 k3 hz hz hz hz
  obtain ⟨r1, r2⟩ := runF_val h locId ed_point_double _ i1
  unfold eDouble
  refine ⟨⟨r1 .X3, r1 .Y3, r1 .T3, r1 .Z3⟩, ?_⟩
  simp only
  rw [r2, r2, r2, r2, i2]
  have he := ed_double_eval (val O.const_a) (val O.const_b) (val O.const_b3) (val O.const_d) (val O.const_S) (val O.const_T)
    (val P.X) (val P.Y) (val P.Z) (val P.T) (val O.zero) (val O.zero) (val O.zero) (val O.zero)
  change EdRep _ _ (runF _ _ _ _ .X3) (runF _ _ _ _ .Y3) (runF _ _ _ _ .Z3) (runF _ _ _ _ .T3) _
  simp only [idealOf]
  rw [he.1, he.2.1, he.2.2.1, he.2.2.2]
  exact ed_double_rep hc hP

theorem e_add_proj (h : O.Sound p nb ok val) (hO : EdFits O val S T d) (hc : EdParams S T d) (P Q : PtE K)
    (g g' : CurvePoint (edA S T) (edB S T)) (hP : ERep ok val S T P g) (hQ : ERep ok val S T Q g') :
    ERep ok val S T (eAddProj O locId P Q) (g + g') := by
  obtain ⟨⟨k1, k2, k3, k4⟩, hP⟩ := hP
  obtain ⟨⟨l1, l2, l3, l4⟩, hQ⟩ := hQ
  obtain ⟨i1, i2⟩ := feInit_val h k1 k2 k4 k3 l1 l2 l4 l3
  obtain ⟨r1, r2⟩ := runF_val h locId ed_point_add_proj _ i1
  unfold eAddProj
  refine ⟨⟨r1 .X3, r1 .Y3, r1 .T3, r1 .Z3⟩, ?_⟩
  simp only
  rw [r2, r2, r2, r2, i2]
  have he := ed_proj_eval (val O.const_a) (val O.const_b) (val O.const_b3) (val O.const_d) (val O.const_S) (val O.const_T)
    (val P.X) (val P.Y) (val P.Z) (val P.T) (val Q.X) (val Q.Y) (val Q.Z) (val Q.T)
  change EdRep _ _ (runF _ _ _ _ .X3) (runF _ _ _ _ .Y3) (runF _ _ _ _ .Z3) (runF _ _ _ _ .T3) _
  simp only [idealOf]
  rw [he.1, he.2.1, he.2.2.1, he.2.2.2, hO.d]
  exact ed_add_rep hc hP hQ

theorem e_add_mixed (h : O.Sound p nb ok val) (hO : EdFits O val S T d) (hc : EdParams S T d) (P : PtE K) (Q : AffE K)
    (g g' : CurvePoint (edA S T) (edB S T)) (hP : ERep ok val S T P g) (hQ : ERepA ok val S T Q g') :
    ERep ok val S T (eAddMixed O locId P Q) (g + g') := by
  obtain ⟨⟨k1, k2, k3, k4⟩, hP⟩ := hP
  obtain ⟨⟨l1, l2, l3⟩, hQ⟩ := hQ
  obtain ⟨i1, i2⟩ := feInit_val h k1 k2 k4 k3 l1 l2 h.zero.1 l3
  obtain ⟨r1, r2⟩ := runF_val h locId ed_point_add_mixed _ i1
  unfold eAddMixed
  refine ⟨⟨r1 .X3, r1 .Y3, r1 .T3, r1 .Z3⟩, ?_⟩
  simp only
  rw [r2, r2, r2, r2, i2]
  have he := ed_mixed_eval (val O.const_a) (val O.const_b) (val O.const_b3) (val O.const_d) (val O.const_S) (val O.const_T)
    (val P.X) (val P.Y) (val P.Z) (val P.T) (val Q.X) (val Q.Y) (val O.zero) (val Q.T)
  change EdRep _ _ (runF _ _ _ _ .X3) (runF _ _ _ _ .Y3) (runF _ _ _ _ .Z3) (runF _ _ _ _ .T3) _
  simp only [idealOf]
  rw [he.1, he.2.1, he.2.2.1, he.2.2.2, hO.d]
  have := ed_add_rep hc hP hQ
  simp only [mul_one] at this
  exact this

/-- The operations on Edwards coordinates satisfy what the scalar multiplications need. -/
theorem eCode_sound (h : O.Sound p nb ok val) (hO : EdFits O val S T d) (hc : EdParams S T d)
    (lut : Nat → Nat → AffE K) (n rows cols : Nat) (gen : CurvePoint (edA S T) (edB S T))
    (hlut : ∀ j k, j < rows → k < 16 → ERepA ok val S T (lut j k) (((2 * k + 1) * 32 ^ (cols * j)) • gen))
    (hr : 0 < rows) (hcl : 0 < cols) (hs : n < rows * cols) (hb : 8 * nb ≤ 5 * n + 5) (hnb : 0 < nb) :
    (eCode O lut nb n rows cols).Sound (ERep ok val S T) (ERepA ok val S T) gen where
  double P g hP := e_double h hc P g hP
  add_proj P g Q g' hP hQ := e_add_proj h hO hc P Q g g' hP hQ
  add_mixed P g Q g' hP hQ := e_add_mixed h hO hc P Q g g' hP hQ
  opp P g hP := by
    obtain ⟨⟨k1, k2, k3, k4⟩, hP⟩ := hP
    refine ⟨⟨(h.opp _ k1).1, k2, (h.opp _ k3).1, k4⟩, ?_⟩
    change EdRep S T (val (O.opp P.X)) (val P.Y) (val P.Z) (val (O.opp P.T)) (-g)
    rw [(h.opp _ k1).2, (h.opp _ k3).2]
    exact hP.neg
  sub_mixed Q g' P g hQ hP := by
    obtain ⟨⟨k1, k2, k3⟩, hP⟩ := hP
    refine e_add_mixed h hO hc Q ⟨O.opp P.X, P.Y, O.opp P.T⟩ g' (-g) hQ ⟨⟨(h.opp _ k1).1, k2, (h.opp _ k3).1⟩, ?_⟩
    change EdRep S T (val (O.opp P.X)) (val P.Y) 1 (val (O.opp P.T)) (-g)
    rw [(h.opp _ k1).2, (h.opp _ k3).2]
    exact hP.neg
  ofAff P g hP := by
    obtain ⟨⟨k1, k2, k3⟩, hP⟩ := hP
    refine ⟨⟨k1, k2, k3, h.one.1⟩, ?_⟩
    change EdRep S T (val P.X) (val P.Y) (val O.one) (val P.T) g
    rw [h.one.2]
    exact hP
  inf := by
    refine ⟨⟨h.zero.1, h.one.1, h.zero.1, h.one.1⟩, ?_⟩
    change EdRep S T (val O.zero) (val O.one) (val O.one) (val O.zero) .zero
    rw [h.zero.2, h.one.2]
    refine ⟨one_ne_zero, ?_, ?_, ?_⟩
    · change (0 : ZMod p) = 0 * 1; ring
    · change (1 : ZMod p) = 1 * 1; ring
    · change (0 : ZMod p) = 0 * 1 * 1; ring
  lut := hlut
  rows := hr
  cols := hcl
  shape := hs
  bits := hb
  nb := hnb

/-- A point that is not the point of order 2. -/
def notOrder2 {a b : ZMod p} : CurvePoint a b → Prop
  | .zero => True
  | .some _ y _ => y ≠ 0

/-- The point of order 2 comes out of the conversion as `(0, 0)`, every other point as `affCoords` says. -/
theorem e_toLeg (h : O.Sound p nb ok val) (hO : EdFits O val S T d) (hc : EdParams S T d)
    (lut : Nat → Nat → AffE K) (n rows cols : Nat) (P : PtE K) (g : CurvePoint (edA S T) (edB S T)) (hP : ERep ok val S T P g) :
    let R := (eCode O lut nb n rows cols).toLeg P
    (notOrder2 g → O.toBytes R.X = leBytes nb (affCoords g).1.val ∧ O.toBytes R.Y = leBytes nb (affCoords g).2.val) ∧
      (¬ notOrder2 g → O.toBytes R.X = leBytes nb (0 : ZMod p).val ∧ O.toBytes R.Y = leBytes nb (0 : ZMod p).val) := by
  obtain ⟨⟨k1, k2, k3, k4⟩, hP⟩ := hP
  have hz := h.zero.1
  obtain ⟨i1, i2⟩ := feInit_val h k1 k2 k4 k3 hz hz hz hz
  obtain ⟨r1, r2⟩ := runF_val h locId ed_point_edwards2legacy _ i1
  have he := ed_e2l_eval (val O.const_a) (val O.const_b) (val O.const_b3) (val O.const_d) (val O.const_S) (val O.const_T)
    (val P.X) (val P.Y) (val P.Z) (val P.T) (val O.zero) (val O.zero) (val O.zero) (val O.zero)
  simp only at he
  have hx := r2 .X3
  have hy := r2 .Y3
  have hzz := r2 .Z3
  rw [i2] at hx hy hzz
  simp only [idealOf] at hx hy hzz
  rw [he.1] at hx
  rw [he.2.1] at hy
  rw [he.2.2] at hzz
  rw [hO.S, hO.T] at hx
  rw [hO.S] at hy
  have ox := r1 .X3
  have oy := r1 .Y3
  have oz := r1 .Z3
  have ht := ed_to_legacy hc hP
  have hR : (eCode O lut nb n rows cols).toLeg P = ⟨O.mul (runF O locId ed_point_edwards2legacy (feInit O P.X P.Y P.Z P.T O.zero O.zero O.zero O.zero) .X3) (O.inv (runF O locId ed_point_edwards2legacy (feInit O P.X P.Y P.Z P.T O.zero O.zero O.zero O.zero) .Z3)),
      O.mul (runF O locId ed_point_edwards2legacy (feInit O P.X P.Y P.Z P.T O.zero O.zero O.zero O.zero) .Y3) (O.inv (runF O locId ed_point_edwards2legacy (feInit O P.X P.Y P.Z P.T O.zero O.zero O.zero O.zero) .Z3))⟩ := rfl
  rw [hR]
  clear hR
  generalize runF O locId ed_point_edwards2legacy (feInit O P.X P.Y P.Z P.T O.zero O.zero O.zero O.zero) = σ at *
  obtain ⟨v1, v2⟩ := h.inv _ oz
  refine ⟨?_, ?_⟩
  · intro hg
    simp only
    rw [h.toBytes _ _ ox v1, h.toBytes _ _ oy v1, v2, hx, hy, hzz]
    cases g with
    | zero => rw [ht.1, ht.2]; exact ⟨rfl, rfl⟩
    | some x y hn => simp only [if_neg (show y ≠ 0 from hg)] at ht; rw [ht.1, ht.2]; exact ⟨rfl, rfl⟩
  · intro hg
    simp only
    rw [h.toBytes _ _ ox v1, h.toBytes _ _ oy v1, v2, hx, hy, hzz]
    cases g with
    | zero => exact absurd trivial hg
    | some x y hn =>
      have hy0 : y = 0 := by by_contra hne; exact hg hne
      simp only [if_pos hy0] at ht; rw [ht.1, ht.2]; exact ⟨rfl, rfl⟩

/-- The operand converted: any point except infinity and the point of order 2. -/
theorem e_ofLeg (h : O.Sound p nb ok val) (hO : EdFits O val S T d) (hc : EdParams S T d)
    (lut : Nat → Nat → AffE K) (n rows cols : Nat) (P : AffW K) (x y : ZMod p)
    (hn : (shortW (edA S T) (edB S T)).toAffine.Nonsingular x y) (hy : y ≠ 0) (o1 : ok P.X) (o2 : ok P.Y) (e1 : val P.X = x) (e2 : val P.Y = y) :
    ERep ok val S T ((eCode O lut nb n rows cols).ofLeg P) (.some x y hn) := by
  have hz := h.zero.1
  obtain ⟨i1, i2⟩ := feInit_val h o1 o2 hz hz hz hz hz hz
  obtain ⟨r1, r2⟩ := runF_val h locId ed_point_legacy2edwards _ i1
  have he := ed_l2e_eval (val O.const_a) (val O.const_b) (val O.const_b3) (val O.const_d) (val O.const_S) (val O.const_T)
    (val P.X) (val P.Y) (val O.zero) (val O.zero) (val O.zero) (val O.zero) (val O.zero) (val O.zero)
  change ERep ok val S T (legacy2edwards O P) _
  unfold legacy2edwards
  refine ⟨⟨r1 .X3, r1 .Y3, r1 .T3, r1 .Z3⟩, ?_⟩
  simp only
  rw [r2, r2, r2, r2, i2]
  simp only [idealOf]
  rw [he.1, he.2.1, he.2.2.1, he.2.2.2, hO.S, hO.T, e1, e2]
  exact ed_of_legacy hc hn hy

/-- The point of order 2 as operand: all coordinates are 0, and stay so. -/
def EZero (ok : K → Prop) (val : K → ZMod p) (P : PtE K) (_ : PUnit) : Prop :=
  (ok P.X ∧ ok P.Y ∧ ok P.T ∧ ok P.Z) ∧ val P.X = 0 ∧ val P.Y = 0 ∧ val P.T = 0 ∧ val P.Z = 0

theorem eZero_sound (h : O.Sound p nb ok val) (lut : Nat → Nat → AffE K) (n rows cols : Nat) (hb : 8 * nb ≤ 5 * n + 5) :
    (eCode O lut nb n rows cols).VSound (G := PUnit) (EZero ok val) where
  double P g hP := by
    obtain ⟨⟨k1, k2, k3, k4⟩, z1, z2, z3, z4⟩ := hP
    have hz := h.zero.1
    obtain ⟨i1, i2⟩ := feInit_val h k1 k2 k4 k3 hz hz hz hz
    obtain ⟨r1, r2⟩ := runF_val h locId ed_point_double _ i1
    have he := ed_double_eval (val O.const_a) (val O.const_b) (val O.const_b3) (val O.const_d) (val O.const_S) (val O.const_T)
      (val P.X) (val P.Y) (val P.Z) (val P.T) (val O.zero) (val O.zero) (val O.zero) (val O.zero)
    change EZero ok val (eDouble O locId P) _
    unfold eDouble
    refine ⟨⟨r1 .X3, r1 .Y3, r1 .T3, r1 .Z3⟩, ?_⟩
    simp only
    rw [r2, r2, r2, r2, i2]
    change runF _ _ _ _ .X3 = 0 ∧ runF _ _ _ _ .Y3 = 0 ∧ runF _ _ _ _ .T3 = 0 ∧ runF _ _ _ _ .Z3 = 0
    simp only [idealOf]
    rw [he.1, he.2.1, he.2.2.1, he.2.2.2, z1, z2, z4]
    refine ⟨?_, ?_, ?_, ?_⟩ <;> ring
  add_proj P g Q g' hP hQ := by
    obtain ⟨⟨k1, k2, k3, k4⟩, z1, z2, z3, z4⟩ := hP
    obtain ⟨⟨l1, l2, l3, l4⟩, y1, y2, y3, y4⟩ := hQ
    obtain ⟨i1, i2⟩ := feInit_val h k1 k2 k4 k3 l1 l2 l4 l3
    obtain ⟨r1, r2⟩ := runF_val h locId ed_point_add_proj _ i1
    have he := ed_proj_eval (val O.const_a) (val O.const_b) (val O.const_b3) (val O.const_d) (val O.const_S) (val O.const_T)
      (val P.X) (val P.Y) (val P.Z) (val P.T) (val Q.X) (val Q.Y) (val Q.Z) (val Q.T)
    change EZero ok val (eAddProj O locId P Q) _
    unfold eAddProj
    refine ⟨⟨r1 .X3, r1 .Y3, r1 .T3, r1 .Z3⟩, ?_⟩
    simp only
    rw [r2, r2, r2, r2, i2]
    change runF _ _ _ _ .X3 = 0 ∧ runF _ _ _ _ .Y3 = 0 ∧ runF _ _ _ _ .T3 = 0 ∧ runF _ _ _ _ .Z3 = 0
    simp only [idealOf]
    rw [he.1, he.2.1, he.2.2.1, he.2.2.2, z1, z2, z3, z4]
    refine ⟨?_, ?_, ?_, ?_⟩ <;> ring
  opp P g hP := by
    obtain ⟨⟨k1, k2, k3, k4⟩, z1, z2, z3, z4⟩ := hP
    refine ⟨⟨(h.opp _ k1).1, k2, (h.opp _ k3).1, k4⟩, ?_⟩
    change val (O.opp P.X) = 0 ∧ val P.Y = 0 ∧ val (O.opp P.T) = 0 ∧ val P.Z = 0
    rw [(h.opp _ k1).2, (h.opp _ k3).2, z1, z3]
    exact ⟨neg_zero, z2, neg_zero, z4⟩
  bits := hb

theorem eZero_ofLeg (h : O.Sound p nb ok val) (lut : Nat → Nat → AffE K) (n rows cols : Nat) (P : AffW K)
    (o1 : ok P.X) (o2 : ok P.Y) (hx : val P.X = val O.const_T) (hy : val P.Y = 0) :
    EZero ok val ((eCode O lut nb n rows cols).ofLeg P) ⟨⟩ := by
  have hz := h.zero.1
  obtain ⟨i1, i2⟩ := feInit_val h o1 o2 hz hz hz hz hz hz
  obtain ⟨r1, r2⟩ := runF_val h locId ed_point_legacy2edwards _ i1
  have he := ed_l2e_eval (val O.const_a) (val O.const_b) (val O.const_b3) (val O.const_d) (val O.const_S) (val O.const_T)
    (val P.X) (val P.Y) (val O.zero) (val O.zero) (val O.zero) (val O.zero) (val O.zero) (val O.zero)
  change EZero ok val (legacy2edwards O P) _
  unfold legacy2edwards
  refine ⟨⟨r1 .X3, r1 .Y3, r1 .T3, r1 .Z3⟩, ?_⟩
  simp only
  rw [r2, r2, r2, r2, i2]
  simp only [idealOf]
  rw [he.1, he.2.1, he.2.2.1, he.2.2.2, hx, hy]
  refine ⟨?_, ?_, ?_, ?_⟩ <;> ring

theorem eZero_toLeg (h : O.Sound p nb ok val) (lut : Nat → Nat → AffE K) (n rows cols : Nat) (P : PtE K)
    (hP : EZero ok val P ⟨⟩) :
    let R := (eCode O lut nb n rows cols).toLeg P
    O.toBytes R.X = leBytes nb (0 : ZMod p).val ∧ O.toBytes R.Y = leBytes nb (0 : ZMod p).val := by
  obtain ⟨⟨k1, k2, k3, k4⟩, z1, z2, z3, z4⟩ := hP
  have hz := h.zero.1
  obtain ⟨i1, i2⟩ := feInit_val h k1 k2 k4 k3 hz hz hz hz
  obtain ⟨r1, r2⟩ := runF_val h locId ed_point_edwards2legacy _ i1
  have he := ed_e2l_eval (val O.const_a) (val O.const_b) (val O.const_b3) (val O.const_d) (val O.const_S) (val O.const_T)
    (val P.X) (val P.Y) (val P.Z) (val P.T) (val O.zero) (val O.zero) (val O.zero) (val O.zero)
  simp only at he
  have hx := r2 .X3
  have hy := r2 .Y3
  rw [i2] at hx hy
  simp only [idealOf] at hx hy
  rw [he.1, z1, zero_mul] at hx
  rw [he.2.1, z4, zero_mul, zero_mul] at hy
  have ox := r1 .X3
  have oy := r1 .Y3
  have oz := r1 .Z3
  have hR : (eCode O lut nb n rows cols).toLeg P = ⟨O.mul (runF O locId ed_point_edwards2legacy (feInit O P.X P.Y P.Z P.T O.zero O.zero O.zero O.zero) .X3) (O.inv (runF O locId ed_point_edwards2legacy (feInit O P.X P.Y P.Z P.T O.zero O.zero O.zero O.zero) .Z3)),
      O.mul (runF O locId ed_point_edwards2legacy (feInit O P.X P.Y P.Z P.T O.zero O.zero O.zero O.zero) .Y3) (O.inv (runF O locId ed_point_edwards2legacy (feInit O P.X P.Y P.Z P.T O.zero O.zero O.zero O.zero) .Z3))⟩ := rfl
  rw [hR]
  clear hR
  generalize runF O locId ed_point_edwards2legacy (feInit O P.X P.Y P.Z P.T O.zero O.zero O.zero O.zero) = σ at *
  obtain ⟨v1, v2⟩ := h.inv _ oz
  refine ⟨?_, ?_⟩
  · simp only; rw [h.toBytes _ _ ox v1, hx, zero_mul]
  · simp only; rw [h.toBytes _ _ oy v1, hy, zero_mul]

end

section
variable {F : Type} [Field F] [DecidableEq F] {S T d : F}

/-- When `S` is not a square, no multiple of 4 of a point is the point of order 2. -/
theorem four_nsmul_ne_order2 (h : EdParams S T d) (hS : ¬ IsSquare S) (P : CurvePoint (edA S T) (edB S T)) {x : F}
    (hn : (shortW (edA S T) (edB S T)).toAffine.Nonsingular x 0) : 4 • P ≠ .some x 0 hn := by
  intro he
  have e4 : 4 • P = (P + P) + (P + P) := by rw [← two_nsmul, ← two_nsmul, ← mul_nsmul]
  have e : edw S T ((P + P) + (P + P)) = (0, -1) := by rw [← e4, he]; simp [edw]
  have hc := edw_curve h P
  have hcc := edw_curve h (P + P)
  obtain ⟨a1, a2⟩ := ed_denominators h hc hc
  obtain ⟨b1, b2⟩ := ed_denominators h hcc hcc
  rw [edw_add h (P + P)] at e
  have hq := edw_add h P P
  unfold edAdd at e hq
  generalize edw S T (P + P) = q at *
  generalize edw S T P = r at *
  obtain ⟨u, v⟩ := q
  obtain ⟨s, t⟩ := r
  simp only [Prod.mk.injEq] at *
  obtain ⟨e1, e2⟩ := e
  obtain ⟨q1, q2⟩ := hq
  have h2 := h.two
  have huv : u * v = 0 := by
    rw [div_eq_zero_iff] at e1
    have := e1.resolve_right b1
    have : 2 * (u * v) = 0 := by linear_combination this
    exact (mul_eq_zero.1 this).resolve_left h2
  have hv : v = 0 := by
    rcases mul_eq_zero.1 huv with hu | hv
    · exfalso
      rw [hu] at e2 hcc
      simp only [mul_zero, zero_mul, sub_zero, div_one] at e2
      have hv2 : v ^ 2 = 1 := by linear_combination hcc
      apply h2
      linear_combination e2 - hv2
    · exact hv
  rw [hv, eq_comm, div_eq_zero_iff] at q2
  have hst := q2.resolve_right a2
  -- t² = s², so 2 s² = 1 + d s⁴ and 1 - d = 4 S is a square
  apply hS
  refine ⟨(d * s ^ 2 - 1) / 2, ?_⟩
  have ht2 : t ^ 2 = s ^ 2 := by linear_combination hst
  have h3 : 2 * s ^ 2 = 1 + d * s ^ 2 * s ^ 2 := by rw [ht2] at hc; linear_combination hc
  field_simp
  rw [h.d_eq] at h3 ⊢
  linear_combination (1 - 4 * S) * h3

end

end Gost
