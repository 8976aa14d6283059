import Verif.Lemmas.EcpCurve
import Verif.Lemmas.EcpSmul
import Mathlib.Data.ZMod.Basic

/-!
# Scalar multiplication in Weierstrass coordinates
-/

namespace Gost

open WeierstrassCurve
open Spec (leNat leBytes)

/-- What is required of the field implementation: elements in the range the functions expect (`ok`) stand for elements of the
field with `p` elements, every function computes the operation of its name, and the conversions are little-endian of `nb`
bytes; the conversion to bytes is applied to products only, and is canonical on them. -/
structure FeOps.Sound {T : Type} (O : FeOps T) (p nb : Nat) [Fact p.Prime] (ok : T → Prop) (val : T → ZMod p) : Prop where
  mul : ∀ x y, ok x → ok y → ok (O.mul x y) ∧ val (O.mul x y) = val x * val y
  sq : ∀ x, ok x → ok (O.sq x) ∧ val (O.sq x) = val x * val x
  add : ∀ x y, ok x → ok y → ok (O.add x y) ∧ val (O.add x y) = val x + val y
  sub : ∀ x y, ok x → ok y → ok (O.sub x y) ∧ val (O.sub x y) = val x - val y
  opp : ∀ x, ok x → ok (O.opp x) ∧ val (O.opp x) = -val x
  inv : ∀ x, ok x → ok (O.inv x) ∧ val (O.inv x) = (val x)⁻¹
  zero : ok O.zero ∧ val O.zero = 0
  one : ok O.one ∧ val O.one = 1
  fromBytes : ∀ n, n < p → ok (O.fromBytes (leBytes nb n)) ∧ val (O.fromBytes (leBytes nb n)) = n
  toBytes : ∀ x y, ok x → ok y → O.toBytes (O.mul x y) = leBytes nb (val x * val y).val
  const_a : ok O.const_a
  const_b : ok O.const_b
  const_b3 : ok O.const_b3
  const_d : ok O.const_d
  const_S : ok O.const_S
  const_T : ok O.const_T

section
variable {T : Type} {O : FeOps T} {p nb : Nat} [Fact p.Prime] {ok : T → Prop} {val : T → ZMod p}

/-- The field operations with the constants of an implementation. -/
noncomputable def idealOf (O : FeOps T) (val : T → ZMod p) : FeOps (ZMod p) :=
  idealOps (val O.const_a) (val O.const_b) (val O.const_b3) (val O.const_d) (val O.const_S) (val O.const_T)

theorem exec_val (h : O.Sound p nb ok val) (loc : FReg → FReg) (i : FInstr) (σ : FReg → T) (hσ : ∀ r, ok (σ r)) :
    (∀ r, ok (i.exec O loc σ r)) ∧ ∀ r, val (i.exec O loc σ r) = i.exec (idealOf O val) loc (fun r => val (σ r)) r := by
  cases i <;> constructor <;> intro r <;> simp only [FInstr.exec, idealOf, idealOps] <;> split
  all_goals first | exact hσ _ | rfl | skip
  · exact (h.mul _ _ (hσ _) (hσ _)).1
  · exact (h.mul _ _ (hσ _) (hσ _)).2
  · exact (h.sq _ (hσ _)).1
  · exact (h.sq _ (hσ _)).2
  · exact (h.add _ _ (hσ _) (hσ _)).1
  · exact (h.add _ _ (hσ _) (hσ _)).2
  · exact (h.sub _ _ (hσ _) (hσ _)).1
  · exact (h.sub _ _ (hσ _) (hσ _)).2

theorem runF_val (h : O.Sound p nb ok val) (loc : FReg → FReg) (prog : List FInstr) : ∀ (σ : FReg → T), (∀ r, ok (σ r)) →
    (∀ r, ok (runF O loc prog σ r)) ∧ ∀ r, val (runF O loc prog σ r) = runF (idealOf O val) loc prog (fun r => val (σ r)) r := by
  induction prog with
  | nil => intro σ hσ; exact ⟨hσ, fun r => rfl⟩
  | cons i prog ih =>
    intro σ hσ
    obtain ⟨h1, h2⟩ := exec_val h loc i σ hσ
    obtain ⟨h3, h4⟩ := ih _ h1
    refine ⟨h3, fun r => ?_⟩
    rw [runF, h4, runF]
    congr 1
    funext r
    exact h2 r

theorem feInit_val (h : O.Sound p nb ok val) {x1 y1 z1 t1 x2 y2 z2 t2 : T} (h1 : ok x1) (h2 : ok y1) (h3 : ok z1) (h4 : ok t1)
    (h5 : ok x2) (h6 : ok y2) (h7 : ok z2) (h8 : ok t2) :
    (∀ r, ok (feInit O x1 y1 z1 t1 x2 y2 z2 t2 r)) ∧ (fun r => val (feInit O x1 y1 z1 t1 x2 y2 z2 t2 r)) =
      feInit (idealOf O val) (val x1) (val y1) (val z1) (val t1) (val x2) (val y2) (val z2) (val t2) := by
  have hz := h.zero.2
  constructor
  · intro r
    cases r <;> simp only [feInit] <;> first | assumption | exact h.zero.1 | exact h.const_a | exact h.const_b | exact h.const_b3 | exact h.const_d | exact h.const_S | exact h.const_T
  · funext r
    cases r <;> simp only [feInit] <;> first | rfl | exact hz

end

/-- The programs fit the constants: `a = -3` and `b`, or `a` and `3 b`. -/
def WProgs.Fits {T : Type} (W : WProgs) (O : FeOps T) {p : Nat} (val : T → ZMod p) (a b : ZMod p) : Prop :=
  (W = am3Progs ∧ a = -3 ∧ val O.const_b = b) ∨ (W = genProgs ∧ val O.const_a = a ∧ val O.const_b3 = 3 * b)

section
variable {T : Type} {O : FeOps T} {p nb : Nat} [Fact p.Prime] {ok : T → Prop} {val : T → ZMod p} {W : WProgs} {a b : ZMod p}

/-- Coordinates standing for a point. -/
def WRep (ok : T → Prop) (val : T → ZMod p) (a b : ZMod p) (P : PtW T) (g : CurvePoint a b) : Prop :=
  (ok P.X ∧ ok P.Y ∧ ok P.Z) ∧ ProjRep a b (val P.X) (val P.Y) (val P.Z) g

/-- The same for table entries; the test for zero in the addition of a table entry must not mistake `Y` or its opposite for
zero. -/
def WRepA (O : FeOps T) (ok : T → Prop) (val : T → ZMod p) (a b : ZMod p) (P : AffW T) (g : CurvePoint a b) : Prop :=
  (ok P.X ∧ ok P.Y) ∧ (O.nonzero P.Y = true ∧ O.nonzero (O.opp P.Y) = true) ∧ ProjRep a b (val P.X) (val P.Y) 1 g

theorem WProgs.Fits.dbl_eval (hW : W.Fits O val a b) (X1 Y1 Z1 T1 X2 Y2 Z2 T2 : ZMod p) :
    let σ := runF (idealOf O val) locId W.dbl (feInit (idealOf O val) X1 Y1 Z1 T1 X2 Y2 Z2 T2)
    σ .X3 = rcbX a b X1 Y1 Z1 X1 Y1 Z1 ∧ σ .Y3 = rcbY a b X1 Y1 Z1 X1 Y1 Z1 ∧ σ .Z3 = 8 * Y1 ^ 3 * Z1 := by
  rcases hW with ⟨rfl, rfl, rfl⟩ | ⟨rfl, rfl, hb⟩
  · exact am3_double_eval ..
  · simp only [idealOf, hb]
    exact gen_double_eval ..

theorem WProgs.Fits.mixed_eval (hW : W.Fits O val a b) (X1 Y1 Z1 T1 X2 Y2 Z2 T2 : ZMod p) :
    let σ := runF (idealOf O val) locId W.mixed (feInit (idealOf O val) X1 Y1 Z1 T1 X2 Y2 Z2 T2)
    σ .X3 = rcbX a b X1 Y1 Z1 X2 Y2 1 ∧ σ .Y3 = rcbY a b X1 Y1 Z1 X2 Y2 1 ∧ σ .Z3 = rcbZ a b X1 Y1 Z1 X2 Y2 1 := by
  rcases hW with ⟨rfl, rfl, rfl⟩ | ⟨rfl, rfl, hb⟩
  · exact am3_mixed_eval ..
  · simp only [idealOf, hb]
    exact gen_mixed_eval ..

theorem WProgs.Fits.proj_eval (hW : W.Fits O val a b) (X1 Y1 Z1 T1 X2 Y2 Z2 T2 : ZMod p) :
    let σ := runF (idealOf O val) locId W.proj (feInit (idealOf O val) X1 Y1 Z1 T1 X2 Y2 Z2 T2)
    σ .X3 = rcbX a b X1 Y1 Z1 X2 Y2 Z2 ∧ σ .Y3 = rcbY a b X1 Y1 Z1 X2 Y2 Z2 ∧ σ .Z3 = rcbZ a b X1 Y1 Z1 X2 Y2 Z2 := by
  rcases hW with ⟨rfl, rfl, rfl⟩ | ⟨rfl, rfl, hb⟩
  · exact am3_proj_eval ..
  · simp only [idealOf, hb]
    exact gen_proj_eval ..

theorem w_double (h : O.Sound p nb ok val) (hW : W.Fits O val a b) (h2 : (2 : ZMod p) ≠ 0) (hno : ∀ x : ZMod p, x ^ 3 + a * x + b ≠ 0)
    (P : PtW T) (g : CurvePoint a b) (hP : WRep ok val a b P g) : WRep ok val a b (wDouble O W locId P) (g + g) := by
  obtain ⟨⟨k1, k2, k3⟩, hP⟩ := hP
  have hz := h.zero.1
  obtain ⟨i1, i2⟩ := feInit_val h k1 k2 k3 hz hz hz hz hz
  obtain ⟨r1, r2⟩ := runF_val h locId W.dbl _ i1
  have hadd := rcb_add h2 hno hP hP
  rw [rcbZ_double hP] at hadd
  unfold wDouble
  refine ⟨⟨r1 _, r1 _, r1 _⟩, ?_⟩
  simp only
  rw [r2, r2, r2, i2]
  have he := hW.dbl_eval (val P.X) (val P.Y) (val P.Z) (val O.zero) (val O.zero) (val O.zero) (val O.zero) (val O.zero)
  change ProjRep _ _ (runF _ _ _ _ .X3) (runF _ _ _ _ .Y3) (runF _ _ _ _ .Z3) _
  rw [he.1, he.2.1, he.2.2]
  exact hadd

theorem w_add_proj (h : O.Sound p nb ok val) (hW : W.Fits O val a b) (h2 : (2 : ZMod p) ≠ 0) (hno : ∀ x : ZMod p, x ^ 3 + a * x + b ≠ 0)
    (P Q : PtW T) (g g' : CurvePoint a b) (hP : WRep ok val a b P g) (hQ : WRep ok val a b Q g') :
    WRep ok val a b (wAddProj O W locId P Q) (g + g') := by
  obtain ⟨⟨k1, k2, k3⟩, hP⟩ := hP
  obtain ⟨⟨l1, l2, l3⟩, hQ⟩ := hQ
  have hz := h.zero.1
  obtain ⟨i1, i2⟩ := feInit_val h k1 k2 k3 hz l1 l2 l3 hz
  obtain ⟨r1, r2⟩ := runF_val h locId W.proj _ i1
  have hadd := rcb_add h2 hno hP hQ
  unfold wAddProj
  refine ⟨⟨r1 _, r1 _, r1 _⟩, ?_⟩
  simp only
  rw [r2, r2, r2, i2]
  have he := hW.proj_eval (val P.X) (val P.Y) (val P.Z) (val O.zero) (val Q.X) (val Q.Y) (val Q.Z) (val O.zero)
  change ProjRep _ _ (runF _ _ _ _ .X3) (runF _ _ _ _ .Y3) (runF _ _ _ _ .Z3) _
  rw [he.1, he.2.1, he.2.2]
  exact hadd

theorem w_add_mixed (h : O.Sound p nb ok val) (hW : W.Fits O val a b) (h2 : (2 : ZMod p) ≠ 0) (hno : ∀ x : ZMod p, x ^ 3 + a * x + b ≠ 0)
    (P : PtW T) (Q : AffW T) (g g' : CurvePoint a b) (hP : WRep ok val a b P g) (l1 : ok Q.X) (l2 : ok Q.Y) (hnz : O.nonzero Q.Y = true)
    (hQ : ProjRep a b (val Q.X) (val Q.Y) 1 g') :
    WRep ok val a b (wAddMixed O W P Q) (g + g') := by
  obtain ⟨⟨k1, k2, k3⟩, hP⟩ := hP
  have hz := h.zero.1
  obtain ⟨i1, i2⟩ := feInit_val h k1 k2 k3 hz l1 l2 hz hz
  obtain ⟨r1, r2⟩ := runF_val h locId W.mixed _ i1
  have hadd := rcb_add h2 hno hP hQ
  unfold wAddMixed
  simp only [hnz, if_true]
  refine ⟨⟨r1 _, r1 _, r1 _⟩, ?_⟩
  simp only
  rw [r2, r2, r2, i2]
  have he := hW.mixed_eval (val P.X) (val P.Y) (val P.Z) (val O.zero) (val Q.X) (val Q.Y) (val O.zero) (val O.zero)
  simp only at he
  rw [he.1, he.2.1, he.2.2]
  exact hadd

/-- The operations on Weierstrass coordinates satisfy what the scalar multiplications need. -/
theorem wCode_sound (h : O.Sound p nb ok val) (hW : W.Fits O val a b) (h2 : (2 : ZMod p) ≠ 0) (hno : ∀ x : ZMod p, x ^ 3 + a * x + b ≠ 0)
    (lut : Nat → Nat → AffW T) (n rows cols : Nat) (gen : CurvePoint a b)
    (hlut : ∀ j k, j < rows → k < 16 → WRepA O ok val a b (lut j k) (((2 * k + 1) * 32 ^ (cols * j)) • gen))
    (hr : 0 < rows) (hc : 0 < cols) (hs : n < rows * cols) (hb : 8 * nb ≤ 5 * n + 5) (hnb : 0 < nb) :
    (wCode O W lut nb n rows cols).Sound (WRep ok val a b) (WRepA O ok val a b) gen where
  double P g hP := w_double h hW h2 hno P g hP
  add_proj P g Q g' hP hQ := w_add_proj h hW h2 hno P Q g g' hP hQ
  add_mixed P g Q g' hP hQ := w_add_mixed h hW h2 hno P Q g g' hP hQ.1.1 hQ.1.2 hQ.2.1.1 hQ.2.2
  opp P g hP := by
    obtain ⟨⟨k1, k2, k3⟩, hP⟩ := hP
    refine ⟨⟨k1, (h.opp _ k2).1, k3⟩, ?_⟩
    change ProjRep a b (val P.X) (val (O.opp P.Y)) (val P.Z) (-g)
    rw [(h.opp _ k2).2]
    exact hP.neg
  sub_mixed P g Q g' hP hQ := by
    obtain ⟨⟨k1, k2⟩, ⟨n1, n2⟩, hQ⟩ := hQ
    refine w_add_mixed h hW h2 hno P ⟨Q.X, O.opp Q.Y⟩ g (-g') hP k1 (h.opp _ k2).1 n2 ?_
    change ProjRep a b (val Q.X) (val (O.opp Q.Y)) 1 (-g')
    rw [(h.opp _ k2).2]
    exact hQ.neg
  ofAff P g hP := by
    obtain ⟨⟨k1, k2⟩, _, hP⟩ := hP
    refine ⟨⟨k1, k2, h.one.1⟩, ?_⟩
    change ProjRep a b (val P.X) (val P.Y) (val O.one) g
    rw [h.one.2]
    exact hP
  inf := by
    refine ⟨⟨h.zero.1, h.one.1, h.zero.1⟩, ?_⟩
    change ProjRep a b (val O.zero) (val O.one) (val O.zero) .zero
    rw [h.zero.2, h.one.2]
    exact ⟨rfl, one_ne_zero, rfl⟩
  lut := hlut
  rows := hr
  cols := hc
  shape := hs
  bits := hb
  nb := hnb

/-- Affine coordinates of a point, `(0, 0)` at infinity: what the conversion at the end of the scalar multiplications gives. -/
def affCoords : CurvePoint a b → ZMod p × ZMod p
  | .zero => (0, 0)
  | .some x y _ => (x, y)

theorem w_toLeg (h : O.Sound p nb ok val) (lut : Nat → Nat → AffW T) (n rows cols : Nat) (P : PtW T) (g : CurvePoint a b)
    (hP : WRep ok val a b P g) :
    let R := (wCode O W lut nb n rows cols).toLeg P
    O.toBytes R.X = leBytes nb (affCoords g).1.val ∧ O.toBytes R.Y = leBytes nb (affCoords g).2.val := by
  obtain ⟨⟨k1, k2, k3⟩, hP⟩ := hP
  obtain ⟨j1, j2⟩ := h.inv _ k3
  refine ⟨?_, ?_⟩
  · change O.toBytes (O.mul P.X (O.inv P.Z)) = _
    rw [h.toBytes _ _ k1 j1, j2]
    congr 2
    cases g with
    | zero => rw [hP.1, zero_mul]; rfl
    | some x y hn => rw [hP.2.1, mul_assoc, mul_inv_cancel₀ hP.1, mul_one]; rfl
  · change O.toBytes (O.mul P.Y (O.inv P.Z)) = _
    rw [h.toBytes _ _ k2 j1, j2]
    congr 2
    cases g with
    | zero => rw [hP.2.2, inv_zero, mul_zero]; rfl
    | some x y hn => rw [hP.2.2, mul_assoc, mul_inv_cancel₀ hP.1, mul_one]; rfl

end

end Gost
