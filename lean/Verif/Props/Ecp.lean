import Verif.Lemmas.EcpEd
import Verif.Lemmas.Ec
import Verif.Lemmas.StreebogCore
import Verif.Spec.EcPoint

/-!
# C45: the point multiplications of the curve files
-/

namespace Gost

open WeierstrassCurve
open Spec (leNat leBytes ecOf onCurve)

section Wrap
variable {p nb : Nat} [Fact p.Prime] {a b : ZMod p}

theorem leBytes_zero_iff (v : Nat) (hv : v < 256 ^ nb) : leBytes nb v = zeros nb ↔ v = 0 := by
  constructor
  · intro h
    have h1 := leNat_leBytes nb v
    rw [h] at h1
    rw [Nat.mod_eq_of_lt hv] at h1
    rw [← h1]
    exact leNat_replicate_zero nb
  · rintro rfl
    have : leBytes nb (leNat (zeros nb)) = zeros nb := by
      exact leBytes_leNat nb (zeros nb) List.length_replicate
    rwa [show leNat (zeros nb) = 0 from leNat_replicate_zero nb] at this

/-- The end of the wrappers, for the coordinates of a point that is not of order 2. -/
theorem ecpResult_eq (hp : p ≤ 256 ^ nb) (g : CurvePoint a b) (hg : notOrder2 g) :
    ecpResult (onCurve a b) nb (leBytes nb (affCoords g).1.val, leBytes nb (affCoords g).2.val) = some (ecOf g) := by
  have hlt : ∀ x : ZMod p, x.val < 256 ^ nb := fun x => lt_of_lt_of_le (ZMod.val_lt x) hp
  unfold ecpResult
  simp only
  simp only [leBytes_zero_iff _ (hlt _)]
  rw [leNat_leBytes, leNat_leBytes, Nat.mod_eq_of_lt (hlt _), Nat.mod_eq_of_lt (hlt _)]
  cases g with
  | zero => rw [if_pos (by simp [affCoords])]; rfl
  | some x y hn =>
    have hy : y ≠ 0 := hg
    rw [if_neg (fun hc => hy ((ZMod.val_eq_zero y).1 hc.2))]
    change (if onCurve a b x.val y.val = true then some (some (x.val, y.val)) else none) = _
    have : onCurve a b x.val y.val = true := by
      unfold onCurve
      rw [ZMod.natCast_zmod_val, ZMod.natCast_zmod_val]
      simpa using shortW_equation hn
    rw [if_pos this]
    rfl

theorem ecpResult_zero :
    ecpResult (onCurve a b) nb (leBytes nb (0 : ZMod p).val, leBytes nb (0 : ZMod p).val) = some none := by
  have hz : (0 : ZMod p).val < 256 ^ nb := by rw [ZMod.val_zero]; positivity
  unfold ecpResult
  simp only
  rw [if_pos ⟨(leBytes_zero_iff _ hz).2 ZMod.val_zero, (leBytes_zero_iff _ hz).2 ZMod.val_zero⟩]

theorem lebinpad_some {len v : Nat} (h : v < 256 ^ len) : lebinpad len v = some (leBytes len v) := if_pos h
theorem lebinpad_none {len v : Nat} (h : ¬ v < 256 ^ len) : lebinpad len v = none := if_neg h

end Wrap

/-! ## Curves with Weierstrass coordinates -/

section W
variable {T : Type} {O : FeOps T} {p nb : Nat} [Fact p.Prime] {ok : T → Prop} {val : T → ZMod p} {W : WProgs} {a b : ZMod p}

/-- The curves of the files with Weierstrass coordinates: the field arithmetic is right, the programs fit the curve, the
curve has no point of order 2, the table holds the multiples of the base point it should, and the comb covers the scalar. -/
structure WCurve (O : FeOps T) (W : WProgs) (lut : Nat → Nat → AffW T) (p nb n rows cols : Nat) [Fact p.Prime] (ok : T → Prop)
    (val : T → ZMod p) (a b : ZMod p) (gen : CurvePoint a b) : Prop where
  field : O.Sound p nb ok val
  fits : W.Fits O val a b
  odd : (2 : ZMod p) ≠ 0
  no_order2 : ∀ x : ZMod p, x ^ 3 + a * x + b ≠ 0
  table : ∀ j k, j < rows → k < 16 → WRepA O ok val a b (lut j k) (((2 * k + 1) * 32 ^ (cols * j)) • gen)
  rows_pos : 0 < rows
  cols_pos : 0 < cols
  comb : n < rows * cols
  digits : 8 * nb ≤ 5 * n + 5
  nb_pos : 0 < nb
  size : p ≤ 256 ^ nb

variable {lut : Nat → Nat → AffW T} {n rows cols : Nat} {gen : CurvePoint a b}

theorem WCurve.sound (h : WCurve O W lut p nb n rows cols ok val a b gen) :
    (wCode O W lut nb n rows cols).Sound (WRep ok val a b) (WRepA O ok val a b) gen :=
  wCode_sound h.field h.fits h.odd h.no_order2 lut n rows cols gen h.table h.rows_pos h.cols_pos h.comb h.digits h.nb_pos

theorem WCurve.notOrder2 (h : WCurve O W lut p nb n rows cols ok val a b gen) (g : CurvePoint a b) : notOrder2 g := by
  cases g with
  | zero => trivial
  | some x y hn =>
    intro hy
    have := shortW_equation hn
    exact h.no_order2 x (by rw [← this, hy]; ring)

theorem w_ofLeg (h : WCurve O W lut p nb n rows cols ok val a b gen) (x y : ZMod p)
    (hn : (shortW a b).toAffine.Nonsingular x y) :
    WRep ok val a b ((wCode O W lut nb n rows cols).ofLeg ⟨O.fromBytes (leBytes nb x.val), O.fromBytes (leBytes nb y.val)⟩) (.some x y hn) := by
  obtain ⟨o1, e1⟩ := h.field.fromBytes _ (ZMod.val_lt x)
  obtain ⟨o2, e2⟩ := h.field.fromBytes _ (ZMod.val_lt y)
  rw [ZMod.natCast_zmod_val] at e1 e2
  refine ⟨⟨o1, o2, h.field.one.1⟩, ?_⟩
  change ProjRep a b (val (O.fromBytes _)) (val (O.fromBytes _)) (val O.one) _
  rw [e1, e2, h.field.one.2]
  exact ⟨one_ne_zero, by ring, by ring⟩

theorem w_result (h : WCurve O W lut p nb n rows cols ok val a b gen) (P : PtW T) (g : CurvePoint a b) (hP : WRep ok val a b P g) :
    ecpResult (onCurve a b) nb (O.toBytes ((wCode O W lut nb n rows cols).toLeg P).X, O.toBytes ((wCode O W lut nb n rows cols).toLeg P).Y) =
      some (ecOf g) := by
  obtain ⟨e1, e2⟩ := w_toLeg (W := W) h.field lut n rows cols P g hP
  rw [e1, e2]
  exact ecpResult_eq h.size g (h.notOrder2 g)

/-- **C45**, base point: for every number that fits the scalar buffer the result is that multiple of the base point; other
numbers are refused. -/
theorem C45_mul_g (h : WCurve O W lut p nb n rows cols ok val a b gen) (k : Nat) :
    ecp_mul_g O (wCode O W lut nb n rows cols) (onCurve a b) k = if k < 256 ^ nb then some (ecOf (k • gen)) else none := by
  unfold ecp_mul_g
  by_cases hk : k < 256 ^ nb
  · rw [if_pos hk, show (wCode O W lut nb n rows cols).nb = nb from rfl, lebinpad_some hk]
    have hr := fixed_smul_rep h.sound (leBytes nb k) (leBytes_length _ _)
    rw [leNat_leBytes, Nat.mod_eq_of_lt hk] at hr
    exact w_result h _ _ hr
  · rw [if_neg hk, show (wCode O W lut nb n rows cols).nb = nb from rfl, lebinpad_none hk]
    rfl

/-- **C45**, any point: for every point except infinity and every number that fits the scalar buffer, the result is the
multiple of the point; infinity and other numbers are refused. -/
theorem C45_mul (h : WCurve O W lut p nb n rows cols ok val a b gen) (P : CurvePoint a b) (k : Nat) :
    ecp_mul O (wCode O W lut nb n rows cols) (onCurve a b) (ecOf P) k =
      if P ≠ 0 ∧ k < 256 ^ nb then some (ecOf (k • P)) else none := by
  unfold ecp_mul
  cases P with
  | zero => rw [if_neg (by simp; intro hc; exact absurd rfl hc)]; rfl
  | some x y hn =>
    have hx : x.val < 256 ^ nb := lt_of_lt_of_le (ZMod.val_lt x) h.size
    have hy : y.val < 256 ^ nb := lt_of_lt_of_le (ZMod.val_lt y) h.size
    by_cases hk : k < 256 ^ nb
    · rw [if_pos ⟨Affine.Point.some_ne_zero _, hk⟩]
      simp only [ecOf, Option.bind_eq_bind, Option.bind_some, show (wCode O W lut nb n rows cols).nb = nb from rfl, lebinpad_some hx,
        lebinpad_some hy, lebinpad_some hk]
      have hr := var_smul_rep h.sound.toVSound (leBytes nb k) (leBytes_length _ _) _ _ (w_ofLeg h x y hn)
      rw [leNat_leBytes, Nat.mod_eq_of_lt hk, show (wCode O W lut nb n rows cols).finalDoubles = 0 from rfl, pow_zero, one_mul] at hr
      exact w_result h _ _ hr
    · rw [if_neg (by tauto)]
      simp only [ecOf, Option.bind_eq_bind, Option.bind_some, show (wCode O W lut nb n rows cols).nb = nb from rfl, lebinpad_some hx,
        lebinpad_some hy, lebinpad_none hk, Option.bind_none]

/-- **C45**, both at once: for every point except infinity and all numbers that fit the buffers the result is the sum of the
two multiples. -/
theorem C45_mul_two (h : WCurve O W lut p nb n rows cols ok val a b gen) (P : CurvePoint a b) (k m : Nat) :
    ecp_mul_two O (wCode O W lut nb n rows cols) (onCurve a b) k (ecOf P) m =
      if P ≠ 0 ∧ k < 256 ^ nb ∧ m < 256 ^ nb then some (ecOf (k • gen + m • P)) else none := by
  unfold ecp_mul_two
  cases P with
  | zero => rw [if_neg (by simp; intro hc; exact absurd rfl hc)]; rfl
  | some x y hn =>
    have hx : x.val < 256 ^ nb := lt_of_lt_of_le (ZMod.val_lt x) h.size
    have hy : y.val < 256 ^ nb := lt_of_lt_of_le (ZMod.val_lt y) h.size
    simp only [ecOf, Option.bind_eq_bind, Option.bind_some, show (wCode O W lut nb n rows cols).nb = nb from rfl, lebinpad_some hx,
      lebinpad_some hy]
    by_cases hk : k < 256 ^ nb
    · by_cases hm : m < 256 ^ nb
      · rw [if_pos ⟨Affine.Point.some_ne_zero _, hk, hm⟩, lebinpad_some hk, lebinpad_some hm]
        have hr := var_two_rep h.sound (leBytes nb k) (leBytes nb m) (leBytes_length _ _) (leBytes_length _ _) _ _ (w_ofLeg h x y hn)
        rw [leNat_leBytes, leNat_leBytes, Nat.mod_eq_of_lt hk, Nat.mod_eq_of_lt hm] at hr
        exact w_result h _ _ hr
      · rw [if_neg (by tauto), lebinpad_some hk, lebinpad_none hm]; rfl
    · rw [if_neg (by tauto), lebinpad_none hk]; rfl

end W

/-! ## Curves with Edwards coordinates -/

section Ed
variable {K : Type} {O : FeOps K} {p nb : Nat} [Fact p.Prime] {ok : K → Prop} {val : K → ZMod p} {S T d : ZMod p}

/-- The curves of the files with Edwards coordinates: the field arithmetic is right, the constants belong to an Edwards
curve, `S` is not a square, the order of the base point is odd, the table holds the multiples of the base point it should,
and the comb covers the scalar. -/
structure ECurve (O : FeOps K) (lut : Nat → Nat → AffE K) (p nb n rows cols : Nat) [Fact p.Prime] (ok : K → Prop)
    (val : K → ZMod p) (S T d : ZMod p) (gen : CurvePoint (edA S T) (edB S T)) (q : Nat) : Prop where
  field : O.Sound p nb ok val
  fits : EdFits O val S T d
  params : EdParams S T d
  S_nonsq : ¬ IsSquare S
  order : q • gen = 0
  order_odd : q % 2 = 1
  table : ∀ j k, j < rows → k < 16 → ERepA ok val S T (lut j k) (((2 * k + 1) * 32 ^ (cols * j)) • gen)
  rows_pos : 0 < rows
  cols_pos : 0 < cols
  comb : n < rows * cols
  digits : 8 * nb ≤ 5 * n + 5
  nb_pos : 0 < nb
  size : p ≤ 256 ^ nb

variable {lut : Nat → Nat → AffE K} {n rows cols : Nat} {gen : CurvePoint (edA S T) (edB S T)} {q : Nat}

theorem ECurve.sound (h : ECurve O lut p nb n rows cols ok val S T d gen q) :
    (eCode O lut nb n rows cols).Sound (ERep ok val S T) (ERepA ok val S T) gen :=
  eCode_sound h.field h.fits h.params lut n rows cols gen h.table h.rows_pos h.cols_pos h.comb h.digits h.nb_pos

/-- Points killed by an odd number are not of order 2. -/
theorem notOrder2_of_odd {a b : ZMod p} {g : CurvePoint a b} {q : Nat} (hq : q % 2 = 1) (hg : q • g = 0) : notOrder2 g := by
  cases g with
  | zero => trivial
  | some x y hn =>
    intro hy
    subst hy
    have h2 : (2 : Nat) • (Affine.Point.some x 0 hn : CurvePoint a b) = 0 := by
      rw [two_nsmul, Affine.Point.add_of_Y_eq rfl (by rw [shortW_negY, neg_zero])]
    have hq' : q = 2 * (q / 2) + 1 := by omega
    rw [hq', add_nsmul, mul_nsmul, h2, nsmul_zero, zero_add, one_nsmul] at hg
    exact Affine.Point.some_ne_zero _ hg

theorem e_result (h : ECurve O lut p nb n rows cols ok val S T d gen q) (P : PtE K) (g : CurvePoint (edA S T) (edB S T))
    (hP : ERep ok val S T P g) (hg : notOrder2 g) :
    ecpResult (onCurve (edA S T) (edB S T)) nb (O.toBytes ((eCode O lut nb n rows cols).toLeg P).X, O.toBytes ((eCode O lut nb n rows cols).toLeg P).Y) =
      some (ecOf g) := by
  obtain ⟨e, _⟩ := e_toLeg h.field h.fits h.params lut n rows cols P g hP
  rw [(e hg).1, (e hg).2]
  exact ecpResult_eq h.size g hg

theorem e_result_order2 (h : ECurve O lut p nb n rows cols ok val S T d gen q) (P : PtE K) (g : CurvePoint (edA S T) (edB S T))
    (hP : ERep ok val S T P g) (hg : ¬ notOrder2 g) :
    ecpResult (onCurve (edA S T) (edB S T)) nb (O.toBytes ((eCode O lut nb n rows cols).toLeg P).X, O.toBytes ((eCode O lut nb n rows cols).toLeg P).Y) =
      some none := by
  obtain ⟨_, e⟩ := e_toLeg h.field h.fits h.params lut n rows cols P g hP
  rw [(e hg).1, (e hg).2]
  exact ecpResult_zero

theorem ECurve.ofLeg (h : ECurve O lut p nb n rows cols ok val S T d gen q) (x y : ZMod p)
    (hn : (shortW (edA S T) (edB S T)).toAffine.Nonsingular x y) (hy : y ≠ 0) :
    ERep ok val S T ((eCode O lut nb n rows cols).ofLeg ⟨O.fromBytes (leBytes nb x.val), O.fromBytes (leBytes nb y.val)⟩) (.some x y hn) := by
  obtain ⟨o1, e1⟩ := h.field.fromBytes _ (ZMod.val_lt x)
  obtain ⟨o2, e2⟩ := h.field.fromBytes _ (ZMod.val_lt y)
  rw [ZMod.natCast_zmod_val] at e1 e2
  exact e_ofLeg h.field h.fits h.params lut n rows cols _ x y hn hy o1 o2 e1 e2

/-- **C45**, base point, Edwards coordinates. -/
theorem C45_ed_mul_g (h : ECurve O lut p nb n rows cols ok val S T d gen q) (k : Nat) :
    ecp_mul_g O (eCode O lut nb n rows cols) (onCurve (edA S T) (edB S T)) k = if k < 256 ^ nb then some (ecOf (k • gen)) else none := by
  unfold ecp_mul_g
  by_cases hk : k < 256 ^ nb
  · rw [if_pos hk, show (eCode O lut nb n rows cols).nb = nb from rfl, lebinpad_some hk]
    have hr := fixed_smul_rep h.sound (leBytes nb k) (leBytes_length _ _)
    rw [leNat_leBytes, Nat.mod_eq_of_lt hk] at hr
    refine e_result h _ _ hr (notOrder2_of_odd h.order_odd ?_)
    rw [nsmul_left_comm, h.order, nsmul_zero]
  · rw [if_neg hk, show (eCode O lut nb n rows cols).nb = nb from rfl, lebinpad_none hk]
    rfl

/-- **C45**, any point, Edwards coordinates: the result is 4 (the cofactor) times the multiple of the point, for every point
except infinity. -/
theorem C45_ed_mul (h : ECurve O lut p nb n rows cols ok val S T d gen q) (P : CurvePoint (edA S T) (edB S T)) (k : Nat) :
    ecp_mul O (eCode O lut nb n rows cols) (onCurve (edA S T) (edB S T)) (ecOf P) k =
      if P ≠ 0 ∧ k < 256 ^ nb then some (ecOf ((4 * k) • P)) else none := by
  unfold ecp_mul
  cases P with
  | zero => rw [if_neg (by simp; intro hc; exact absurd rfl hc)]; rfl
  | some x y hn =>
    have hx : x.val < 256 ^ nb := lt_of_lt_of_le (ZMod.val_lt x) h.size
    have hy : y.val < 256 ^ nb := lt_of_lt_of_le (ZMod.val_lt y) h.size
    by_cases hk : k < 256 ^ nb
    · rw [if_pos ⟨Affine.Point.some_ne_zero _, hk⟩]
      simp only [ecOf, Option.bind_eq_bind, Option.bind_some, show (eCode O lut nb n rows cols).nb = nb from rfl, lebinpad_some hx,
        lebinpad_some hy, lebinpad_some hk]
      by_cases hy0 : y = 0
      · subst hy0
        have hxT := edw_order2 h.params hn
        subst hxT
        obtain ⟨o1, e1⟩ := h.field.fromBytes _ (ZMod.val_lt x)
        obtain ⟨o2, e2⟩ := h.field.fromBytes _ (ZMod.val_lt (0 : ZMod p))
        rw [ZMod.natCast_zmod_val] at e1 e2
        have hz := eZero_ofLeg h.field lut n rows cols ⟨O.fromBytes (leBytes nb x.val), O.fromBytes (leBytes nb (0 : ZMod p).val)⟩
          o1 o2 (by rw [e1, h.fits.T]) e2
        have hr := var_smul_rep (eZero_sound h.field lut n rows cols h.digits) (leBytes nb k) (leBytes_length _ _) _ PUnit.unit hz
        obtain ⟨p3, p4⟩ := eZero_toLeg h.field lut n rows cols _ hr
        have h2 : (2 : Nat) • (Affine.Point.some x 0 hn : CurvePoint (edA S x) (edB S x)) = 0 := by
          rw [two_nsmul, Affine.Point.add_of_Y_eq rfl (by rw [shortW_negY, neg_zero])]
        rw [show 4 * k = 2 * (2 * k) by ring, mul_nsmul, h2, nsmul_zero]
        unfold point_mul var_smul_rwnaf
        simp only
        rw [p3, p4]
        exact ecpResult_zero
      · have hr := var_smul_rep h.sound.toVSound (leBytes nb k) (leBytes_length _ _) _ _ (h.ofLeg x y hn hy0)
        rw [leNat_leBytes, Nat.mod_eq_of_lt hk, show (eCode O lut nb n rows cols).finalDoubles = 2 from rfl, show 2 ^ 2 = 4 by norm_num] at hr
        refine e_result h _ _ hr ?_
        rw [mul_nsmul']
        generalize k • (Affine.Point.some x y hn : CurvePoint (edA S T) (edB S T)) = Q
        cases hQ : 4 • Q with
        | zero => trivial
        | some x' y' hn' =>
          intro hy'
          subst hy'
          exact four_nsmul_ne_order2 h.params h.S_nonsq Q hn' hQ
    · rw [if_neg (by tauto)]
      simp only [ecOf, Option.bind_eq_bind, Option.bind_some, show (eCode O lut nb n rows cols).nb = nb from rfl, lebinpad_some hx,
        lebinpad_some hy, lebinpad_none hk, Option.bind_none]

/-- **C45**, both at once, Edwards coordinates: for every point except infinity and the point of order 2, whenever the sum is
not the point of order 2 (in particular for all points of the subgroup, `C45_ed_mul_two_subgroup`). -/
theorem C45_ed_mul_two (h : ECurve O lut p nb n rows cols ok val S T d gen q) (P : CurvePoint (edA S T) (edB S T)) (k m : Nat)
    (hP : notOrder2 P) (hR : notOrder2 (k • gen + m • P)) :
    ecp_mul_two O (eCode O lut nb n rows cols) (onCurve (edA S T) (edB S T)) k (ecOf P) m =
      if P ≠ 0 ∧ k < 256 ^ nb ∧ m < 256 ^ nb then some (ecOf (k • gen + m • P)) else none := by
  unfold ecp_mul_two
  cases P with
  | zero => rw [if_neg (by simp; intro hc; exact absurd rfl hc)]; rfl
  | some x y hn =>
    have hx : x.val < 256 ^ nb := lt_of_lt_of_le (ZMod.val_lt x) h.size
    have hy : y.val < 256 ^ nb := lt_of_lt_of_le (ZMod.val_lt y) h.size
    simp only [ecOf, Option.bind_eq_bind, Option.bind_some, show (eCode O lut nb n rows cols).nb = nb from rfl, lebinpad_some hx,
      lebinpad_some hy]
    by_cases hk : k < 256 ^ nb
    · by_cases hm : m < 256 ^ nb
      · rw [if_pos ⟨Affine.Point.some_ne_zero _, hk, hm⟩, lebinpad_some hk, lebinpad_some hm]
        have hr := var_two_rep h.sound (leBytes nb k) (leBytes nb m) (leBytes_length _ _) (leBytes_length _ _) _ _ (h.ofLeg x y hn hP)
        rw [leNat_leBytes, leNat_leBytes, Nat.mod_eq_of_lt hk, Nat.mod_eq_of_lt hm] at hr
        exact e_result h _ _ hr hR
      · rw [if_neg (by tauto), lebinpad_some hk, lebinpad_none hm]; rfl
    · rw [if_neg (by tauto), lebinpad_none hk]; rfl

/-- **C45**: in the subgroup of the base point's order the simultaneous multiplication is right without exception. -/
theorem C45_ed_mul_two_subgroup (h : ECurve O lut p nb n rows cols ok val S T d gen q) (P : CurvePoint (edA S T) (edB S T)) (k m : Nat)
    (hP : q • P = 0) :
    ecp_mul_two O (eCode O lut nb n rows cols) (onCurve (edA S T) (edB S T)) k (ecOf P) m =
      if P ≠ 0 ∧ k < 256 ^ nb ∧ m < 256 ^ nb then some (ecOf (k • gen + m • P)) else none := by
  apply C45_ed_mul_two h P k m (notOrder2_of_odd h.order_odd hP)
  apply notOrder2_of_odd h.order_odd
  rw [nsmul_add, nsmul_left_comm, h.order, nsmul_left_comm, hP, nsmul_zero, nsmul_zero, add_zero]

/-- **C45**, where the simultaneous multiplication is wrong: a sum equal to the point of order 2 is reported as infinity. -/
theorem C45_two_reports_order2_as_infinity (h : ECurve O lut p nb n rows cols ok val S T d gen q)
    (P : CurvePoint (edA S T) (edB S T)) (k m : Nat) (hP0 : P ≠ 0) (hP : notOrder2 P) (hk : k < 256 ^ nb) (hm : m < 256 ^ nb)
    (hR : ¬ notOrder2 (k • gen + m • P)) :
    ecp_mul_two O (eCode O lut nb n rows cols) (onCurve (edA S T) (edB S T)) k (ecOf P) m = some none ∧
      k • gen + m • P ≠ 0 := by
  constructor
  · unfold ecp_mul_two
    cases P with
    | zero => exact absurd rfl hP0
    | some x y hn =>
      have hx : x.val < 256 ^ nb := lt_of_lt_of_le (ZMod.val_lt x) h.size
      have hy : y.val < 256 ^ nb := lt_of_lt_of_le (ZMod.val_lt y) h.size
      simp only [ecOf, Option.bind_eq_bind, Option.bind_some, show (eCode O lut nb n rows cols).nb = nb from rfl, lebinpad_some hx,
        lebinpad_some hy, lebinpad_some hk, lebinpad_some hm]
      have hr := var_two_rep h.sound (leBytes nb k) (leBytes nb m) (leBytes_length _ _) (leBytes_length _ _) _ _ (h.ofLeg x y hn hP)
      rw [leNat_leBytes, leNat_leBytes, Nat.mod_eq_of_lt hk, Nat.mod_eq_of_lt hm] at hr
      exact e_result_order2 h _ _ hr hR
  · intro h0
    rw [h0] at hR
    exact hR trivial

end Ed

end Gost
