import Verif.Lemmas.EcpCurve
import Mathlib.AlgebraicGeometry.EllipticCurve.Affine.Point
import Mathlib.Data.ZMod.Basic
import Mathlib.GroupTheory.OrderOfElement
import Mathlib.Data.Fintype.Option
import Mathlib.Data.Fintype.Prod
import Mathlib.Data.Set.Card
import Mathlib.SetTheory.Cardinal.Finite

/-!
# Computing in the group of a curve with numbers

Affine arithmetic modulo `N` on pairs of numbers, every inverse being checked, so that the result is right modulo every prime
divisor of `N`.  Two uses: the order of a generator is established by computation, and `N` itself is shown to be prime (as
in the elliptic curve primality proof of Goldwasser and Kilian, with the trivial bound `2 r + 1` on the number of points).
-/

namespace Gost

open WeierstrassCurve

/-- The extended Euclidean algorithm. -/
def egcdAux (N : Nat) : Nat → Nat → Nat → Nat → Nat → Nat
  | 0, _, _, _, _ => 0
  | fuel + 1, r0, r1, t0, t1 =>
    if r1 = 0 then t0 else egcdAux N fuel r1 (r0 % r1) t1 ((t0 + (N - r0 / r1 * t1 % N)) % N)

/-- A candidate for the inverse of `d` modulo `N`. -/
def invCand (N fuel d : Nat) : Nat := egcdAux N fuel N d 0 1

/-- The third point of the line with slope `l` through `(x1, y1)` and a point with abscissa `x2`, reflected. -/
def affChord (N l x1 y1 x2 : Nat) : Nat × Nat :=
  let x3 := (l * l + (N - x1) + (N - x2)) % N
  (x3, (l * (x1 + (N - x3)) + (N - y1)) % N)

/-- The sum of two points with coordinates below `N`; `none` if an inverse could not be found. -/
def affAdd (N fuel a : Nat) : Option (Nat × Nat) → Option (Nat × Nat) → Option (Option (Nat × Nat))
  | none, Q => some Q
  | some P, none => some (some P)
  | some (x1, y1), some (x2, y2) =>
    if x1 = x2 then
      if (y1 + y2) % N = 0 then some none
      else if y1 = y2 then
        let d := 2 * y1 % N
        let w := invCand N fuel d
        if w * d % N = 1 then some (some (affChord N ((3 * x1 * x1 + a) * w % N) x1 y1 x1)) else none
      else none
    else
      let d := (x2 + (N - x1)) % N
      let w := invCand N fuel d
      if w * d % N = 1 then some (some (affChord N ((y2 + (N - y1)) * w % N) x1 y1 x2)) else none

/-- `k • G` by doubling and adding, from the top bit of `k` (`k < 2^bits`). -/
def affMulAux (N fuel a : Nat) (G : Nat × Nat) (k : Nat) : Nat → Option (Nat × Nat) → Option (Option (Nat × Nat))
  | 0, R => some R
  | i + 1, R =>
    match affAdd N fuel a R R with
    | none => none
    | some R2 =>
      if k / 2 ^ i % 2 = 1 then
        match affAdd N fuel a R2 (some G) with
        | none => none
        | some R3 => affMulAux N fuel a G k i R3
      else affMulAux N fuel a G k i R2

/-- `k • G` (`k < 2^bits`). -/
def affMul (N fuel a : Nat) (G : Nat × Nat) (k bits : Nat) : Option (Option (Nat × Nat)) :=
  affMulAux N fuel a G k bits none

section
variable {r : Nat} [Fact r.Prime] {a b : ZMod r}

/-- Numbers below `N` as coordinates of a point modulo a prime divisor of `N`. -/
def AffRep (N : Nat) (a b : ZMod r) : Option (Nat × Nat) → CurvePoint a b → Prop
  | none, P => P = 0
  | some (x, y), P => x < N ∧ y < N ∧ ∃ h : (shortW a b).toAffine.Nonsingular (x : ZMod r) (y : ZMod r), P = .some _ _ h

theorem cast_of_dvd {N r : Nat} (h : r ∣ N) : (N : ZMod r) = 0 := by
  rwa [ZMod.natCast_eq_zero_iff]

theorem cast_modN {N r : Nat} (h : r ∣ N) (x : Nat) : ((x % N : Nat) : ZMod r) = x := by
  conv_rhs => rw [← Nat.div_add_mod x N]
  push_cast
  rw [cast_of_dvd h]; ring

theorem cast_subN {N r : Nat} (h : r ∣ N) {x : Nat} (hx : x ≤ N) : ((N - x : Nat) : ZMod r) = -x := by
  rw [Nat.cast_sub hx, cast_of_dvd h]; ring

theorem affChord_lt {N : Nat} (hN : 0 < N) (l x1 y1 x2 : Nat) : (affChord N l x1 y1 x2).1 < N ∧ (affChord N l x1 y1 x2).2 < N :=
  ⟨Nat.mod_lt _ hN, Nat.mod_lt _ hN⟩

theorem affChord_cast {N : Nat} (hN : 0 < N) (hr : r ∣ N) (l x1 y1 x2 : Nat) (h1 : x1 < N) (h2 : y1 < N) (h3 : x2 < N) :
    ((affChord N l x1 y1 x2).1 : ZMod r) = (shortW a b).toAffine.addX (x1 : ZMod r) (x2 : ZMod r) (l : ZMod r) ∧
    ((affChord N l x1 y1 x2).2 : ZMod r) = (shortW a b).toAffine.addY (x1 : ZMod r) (x2 : ZMod r) (y1 : ZMod r) (l : ZMod r) := by
  have e1 : ((affChord N l x1 y1 x2).1 : ZMod r) = (l : ZMod r) ^ 2 - x1 - x2 := by
    simp only [affChord]
    rw [cast_modN hr]
    push_cast
    rw [cast_subN hr h1.le, cast_subN hr h3.le]; ring
  have e2 : ((affChord N l x1 y1 x2).2 : ZMod r) = (l : ZMod r) * (x1 - ((l : ZMod r) ^ 2 - x1 - x2)) - y1 := by
    rw [← e1]
    simp only [affChord]
    rw [cast_modN hr]
    push_cast
    rw [cast_subN hr (Nat.mod_lt _ hN).le, cast_subN hr h2.le]; ring
  rw [e1, e2]
  constructor
  · simp [Affine.addX]
  · simp [Affine.addY, Affine.negAddY, Affine.addX, Affine.negY]; ring

theorem affAdd_rep {N fuel an : Nat} (hN : 0 < N) (hr : r ∣ N) (ha : (an : ZMod r) = a) {P Q R : Option (Nat × Nat)}
    {A B : CurvePoint a b} (hP : AffRep N a b P A) (hQ : AffRep N a b Q B) (h : affAdd N fuel an P Q = some R) :
    AffRep N a b R (A + B) := by
  match P, Q with
  | none, Q =>
    simp only [affAdd, Option.some.injEq] at h
    have : A = 0 := hP
    rw [this, zero_add, ← h]; exact hQ
  | some (x1, y1), none =>
    simp only [affAdd, Option.some.injEq] at h
    have : B = 0 := hQ
    rw [this, add_zero, ← h]; exact hP
  | some (x1, y1), some (x2, y2) =>
    obtain ⟨hx1, hy1, n1, rfl⟩ := hP
    obtain ⟨hx2, hy2, n2, rfl⟩ := hQ
    simp only [affAdd] at h
    split at h
    · rename_i hx
      subst hx
      split at h
      · rename_i hz
        simp only [Option.some.injEq] at h
        subst h
        refine Affine.Point.add_of_Y_eq rfl ?_
        rw [shortW_negY]
        have := congrArg (fun t : Nat => (t : ZMod r)) hz
        simp only [cast_modN hr, Nat.cast_add, Nat.cast_zero] at this
        linear_combination this
      · split at h
        · rename_i hy
          subst hy
          split at h
          · rename_i hw
            simp only [Option.some.injEq] at h
            have hw' := congrArg (fun t : Nat => (t : ZMod r)) hw
            simp only [cast_modN hr, Nat.cast_mul, Nat.cast_one, Nat.cast_ofNat] at hw'
            have hne : (y1 : ZMod r) ≠ (shortW a b).toAffine.negY (x1 : ZMod r) (y1 : ZMod r) := by
              rw [shortW_negY]
              intro hc
              have : (2 : ZMod r) * y1 = 0 := by linear_combination hc
              rw [this, mul_zero] at hw'
              exact zero_ne_one hw'
            have hsl : (shortW a b).toAffine.slope (x1 : ZMod r) x1 y1 y1 =
                ((((3 * x1 * x1 + an) * invCand N fuel (2 * y1 % N) % N : Nat)) : ZMod r) := by
              rw [Affine.slope_of_Y_ne rfl hne, shortW_negY, cast_modN hr]
              push_cast
              rw [ha]
              have hd : (y1 : ZMod r) - -y1 ≠ 0 := by
                intro hc
                apply hne; rw [shortW_negY]; linear_combination hc
              rw [div_eq_iff hd]
              simp only [mul_zero, zero_mul, add_zero, sub_zero]
              linear_combination (-(3 * (x1 : ZMod r) ^ 2 + a)) * hw'
            obtain ⟨c1, c2⟩ := affChord_cast (a := a) (b := b) hN hr
              ((3 * x1 * x1 + an) * invCand N fuel (2 * y1 % N) % N) x1 y1 x1 hx1 hy1 hx1
            obtain ⟨l1, l2⟩ := affChord_lt hN ((3 * x1 * x1 + an) * invCand N fuel (2 * y1 % N) % N) x1 y1 x1
            generalize affChord N _ _ _ _ = c at h c1 c2 l1 l2
            obtain ⟨cx, cy⟩ := c
            subst h
            simp only at c1 c2 l1 l2
            refine ⟨l1, l2, ?_⟩
            refine ⟨?_, ?_⟩
            · rw [c1, c2, ← hsl]
              exact Affine.nonsingular_add n1 n1 fun hxy => hne hxy.right
            · rw [Affine.Point.add_of_Y_ne hne]
              congr 1
              · rw [c1, hsl]
              · rw [c2, hsl]
          · exact absurd h (by simp)
        · exact absurd h (by simp)
    · split at h
      · rename_i hw
        simp only [Option.some.injEq] at h
        have hw' := congrArg (fun t : Nat => (t : ZMod r)) hw
        simp only [cast_modN hr, Nat.cast_mul, Nat.cast_one, Nat.cast_add, cast_subN hr hx1.le] at hw'
        have hne : (x1 : ZMod r) ≠ x2 := by
          intro hc
          rw [hc] at hw'
          have : (x2 : ZMod r) + -x2 = 0 := by ring
          rw [this, mul_zero] at hw'
          exact zero_ne_one hw'
        have hsl : (shortW a b).toAffine.slope (x1 : ZMod r) x2 y1 y2 =
            ((((y2 + (N - y1)) * invCand N fuel ((x2 + (N - x1)) % N) % N : Nat)) : ZMod r) := by
          rw [Affine.slope_of_X_ne hne, cast_modN hr]
          push_cast
          rw [cast_subN hr hy1.le]
          have hd : (x1 : ZMod r) - x2 ≠ 0 := sub_ne_zero.2 hne
          rw [div_eq_iff hd]
          linear_combination ((y2 : ZMod r) - y1) * hw'
        obtain ⟨c1, c2⟩ := affChord_cast (a := a) (b := b) hN hr
          ((y2 + (N - y1)) * invCand N fuel ((x2 + (N - x1)) % N) % N) x1 y1 x2 hx1 hy1 hx2
        obtain ⟨l1, l2⟩ := affChord_lt hN ((y2 + (N - y1)) * invCand N fuel ((x2 + (N - x1)) % N) % N) x1 y1 x2
        generalize affChord N _ _ _ _ = c at h c1 c2 l1 l2
        obtain ⟨cx, cy⟩ := c
        subst h
        simp only at c1 c2 l1 l2
        refine ⟨l1, l2, ?_, ?_⟩
        · rw [c1, c2, ← hsl]
          exact Affine.nonsingular_add n1 n2 fun hxy => hne hxy.left
        · rw [Affine.Point.add_of_X_ne hne]
          congr 1
          · rw [c1, hsl]
          · rw [c2, hsl]
      · exact absurd h (by simp)

theorem affMulAux_rep {N fuel an : Nat} (hN : 0 < N) (hr : r ∣ N) (ha : (an : ZMod r) = a) {G : Nat × Nat} {P : CurvePoint a b}
    (hG : AffRep N a b (some G) P) (k i : Nat) (j : Nat) (R R' : Option (Nat × Nat)) (hj : AffRep N a b R (j • P))
    (h : affMulAux N fuel an G k i R = some R') : AffRep N a b R' ((j * 2 ^ i + k % 2 ^ i) • P) := by
  induction i generalizing j R with
  | zero =>
    simp only [affMulAux, Option.some.injEq] at h
    subst h
    simpa [Nat.mod_one] using hj
  | succ i ih =>
    rw [affMulAux] at h
    have hbit : k % 2 ^ (i + 1) = k / 2 ^ i % 2 * 2 ^ i + k % 2 ^ i := by
      rw [pow_succ, Nat.mod_mul]; ring
    cases hd : affAdd N fuel an R R with
    | none => rw [hd] at h; exact absurd h (by simp)
    | some R2 =>
      rw [hd] at h
      have h2 := affAdd_rep hN hr ha hj hj hd
      rw [← add_nsmul] at h2
      simp only at h
      split at h
      · rename_i hb
        cases hs : affAdd N fuel an R2 (some G) with
        | none => rw [hs] at h; exact absurd h (by simp)
        | some R3 =>
          rw [hs] at h
          have h3 := affAdd_rep hN hr ha h2 hG hs
          rw [← succ_nsmul] at h3
          have := ih (j + j + 1) R3 h3 h
          rw [hbit, hb, one_mul]
          convert this using 2
          rw [pow_succ]; ring
      · rename_i hb
        have hb' : k / 2 ^ i % 2 = 0 := by omega
        have := ih (j + j) R2 h2 h
        rw [hbit, hb', zero_mul, zero_add]
        convert this using 2
        rw [pow_succ]; ring

/-- The computation gives the multiple of the point, modulo every prime divisor of `N`. -/
theorem affMul_rep {N fuel an : Nat} (hN : 0 < N) (hr : r ∣ N) (ha : (an : ZMod r) = a) {G : Nat × Nat} {P : CurvePoint a b}
    (hG : AffRep N a b (some G) P) {k bits : Nat} (hk : k < 2 ^ bits) {R : Option (Nat × Nat)}
    (h : affMul N fuel an G k bits = some R) : AffRep N a b R (k • P) := by
  have := affMulAux_rep hN hr ha hG k bits 0 none R (by simp [AffRep]) h
  rwa [zero_mul, zero_add, Nat.mod_eq_of_lt hk] at this

end

/-- What is computed about a curve and a point: the coordinates satisfy the equation of the curve, the curve has no singular
point modulo any prime divisor of `N`, and the point is sent to infinity by `q`. -/
def ecCheck (N a b x y q bits fuel : Nat) : Bool :=
  let D := 16 * (4 * a * a * a + 27 * b * b) % N
  decide (1 < N) && decide (x < N) && decide (y < N) && decide (q < 2 ^ bits) &&
    decide ((x * x * x + a * x + b) % N = y * y % N) && decide (invCand N fuel D * D % N = 1) &&
    decide (affMul N fuel a (x, y) q bits = some none)

theorem shortW_nonsingular_of {r : Nat} [Fact r.Prime] {a b x y : ZMod r} (he : y ^ 2 = x ^ 3 + a * x + b)
    (hd : 16 * (4 * a ^ 3 + 27 * b ^ 2) ≠ 0) : (shortW a b).toAffine.Nonsingular x y := by
  rw [Affine.nonsingular_iff]
  refine ⟨?_, ?_⟩
  · rw [Affine.equation_iff]; simp; linear_combination he
  · by_contra hc
    push Not at hc
    obtain ⟨h1, h2⟩ := hc
    simp only [zero_mul, mul_zero, add_zero, zero_add, sub_zero] at h1 h2
    have h1' : 3 * x ^ 2 + a = 0 := by linear_combination -h1
    have h2' : 2 * y = 0 := by linear_combination h2
    apply hd
    -- 4a³+27b² with b = y² - x³ - a x
    have hb : b = y ^ 2 - x ^ 3 - a * x := by linear_combination -he
    have ha : a = -3 * x ^ 2 := by linear_combination h1'
    rw [hb, ha]
    linear_combination (216 * y * (y ^ 2 + 4 * x ^ 3)) * h2'

theorem ecCheck_order {N an bn x y q bits fuel : Nat} (h : ecCheck N an bn x y q bits fuel = true) {r : Nat} [Fact r.Prime]
    (hr : r ∣ N) : (16 * (4 * (an : ZMod r) ^ 3 + 27 * (bn : ZMod r) ^ 2) ≠ 0) ∧
    ∃ hn : (shortW (an : ZMod r) (bn : ZMod r)).toAffine.Nonsingular (x : ZMod r) (y : ZMod r),
      q • (Affine.Point.some _ _ hn : CurvePoint (an : ZMod r) (bn : ZMod r)) = 0 := by
  simp only [ecCheck, Bool.and_eq_true, decide_eq_true_eq] at h
  obtain ⟨⟨⟨⟨⟨⟨h1, h2⟩, h3⟩, h4⟩, h5⟩, h6⟩, h7⟩ := h
  have e5 := congrArg (fun t : Nat => (t : ZMod r)) h5
  have e6 := congrArg (fun t : Nat => (t : ZMod r)) h6
  simp only [cast_modN hr, Nat.cast_mul, Nat.cast_one, Nat.cast_add, Nat.cast_ofNat] at e5 e6
  have hd : 16 * (4 * (an : ZMod r) ^ 3 + 27 * (bn : ZMod r) ^ 2) ≠ 0 := by
    intro hc
    have : 16 * (4 * (an : ZMod r) * an * an + 27 * bn * bn) = 0 := by linear_combination hc
    rw [this, mul_zero] at e6
    exact zero_ne_one e6
  refine ⟨hd, shortW_nonsingular_of (by linear_combination -e5) hd, ?_⟩
  exact affMul_rep (by omega) hr rfl (G := (x, y)) ⟨h2, h3, _, rfl⟩ h4 h7

section
variable {r : Nat} [Fact r.Prime] {a b : ZMod r}

/-- A point is determined by its abscissa and a bit. -/
theorem card_le (a b : ZMod r) : Finite (CurvePoint a b) ∧ Nat.card (CurvePoint a b) ≤ 2 * r + 1 := by
  classical
  have hr : 0 < r := (Fact.out : r.Prime).pos
  have : NeZero r := ⟨by omega⟩
  -- the bit says whether the ordinate is the one chosen for the abscissa
  let c : ZMod r → ZMod r := fun x => if h : ∃ y, (shortW a b).toAffine.Nonsingular x y then h.choose else 0
  let f : CurvePoint a b → Option (ZMod r × Bool) := fun P =>
    match P with
    | .zero => none
    | .some x y _ => some (x, decide (y = c x))
  have hf : Function.Injective f := by
    intro P Q h
    match P, Q with
    | .zero, .zero => rfl
    | .zero, .some .. => exact absurd h (by simp [f])
    | .some .., .zero => exact absurd h (by simp [f])
    | .some x1 y1 n1, .some x2 y2 n2 =>
      simp only [f, Option.some.injEq, Prod.mk.injEq] at h
      obtain ⟨rfl, h2⟩ := h
      have hex : ∃ y, (shortW a b).toAffine.Nonsingular x1 y := ⟨y1, n1⟩
      have hc : (shortW a b).toAffine.Nonsingular x1 (c x1) := by
        simp only [c, dif_pos hex]; exact hex.choose_spec
      have s1 := shortW_equation n1
      have s2 := shortW_equation n2
      have s3 := shortW_equation hc
      have f1 : (y1 - c x1) * (y1 + c x1) = 0 := by linear_combination s1 - s3
      have f2 : (y2 - c x1) * (y2 + c x1) = 0 := by linear_combination s2 - s3
      have : y1 = y2 := by
        by_cases hy : y1 = c x1
        · have : y2 = c x1 := by simpa [hy] using h2
          rw [hy, this]
        · have hy2 : y2 ≠ c x1 := by simpa [hy] using h2
          have g1 : y1 + c x1 = 0 := (mul_eq_zero.1 f1).resolve_left (sub_ne_zero.2 hy)
          have g2 : y2 + c x1 = 0 := (mul_eq_zero.1 f2).resolve_left (sub_ne_zero.2 hy2)
          linear_combination g1 - g2
      subst this
      rfl
  have hfin : Finite (CurvePoint a b) := Finite.of_injective f hf
  refine ⟨hfin, ?_⟩
  have := Nat.card_le_card_of_injective f hf
  refine this.trans ?_
  rw [Nat.card_eq_fintype_card, Fintype.card_option, Fintype.card_prod, ZMod.card, Fintype.card_bool]
  omega

end

/-- A prime `q` greater than `2 √N + 1` that sends a point other than infinity to infinity shows that `N` is prime. -/
theorem ecpp {N : Nat} (a b x y q bits fuel : Nat) (hq : q.Prime) (hb : 4 * N < (q - 1) * (q - 1))
    (h : ecCheck N a b x y q bits fuel = true) : N.Prime := by
  by_contra hnp
  have h1 : 1 < N := by
    simp only [ecCheck, Bool.and_eq_true, decide_eq_true_eq] at h
    exact h.1.1.1.1.1.1
  have hr := Nat.minFac_prime (by omega : N ≠ 1)
  have hle : N.minFac ^ 2 ≤ N := Nat.minFac_sq_le_self (by omega) hnp
  have : Fact N.minFac.Prime := ⟨hr⟩
  obtain ⟨_, hn, ho⟩ := ecCheck_order h (Nat.minFac_dvd N)
  obtain ⟨hfin, hcard⟩ := card_le (a : ZMod N.minFac) (b : ZMod N.minFac)
  have hord : addOrderOf (Affine.Point.some _ _ hn : CurvePoint (a : ZMod N.minFac) (b : ZMod N.minFac)) = q := by
    have hdvd := addOrderOf_dvd_of_nsmul_eq_zero ho
    rcases (Nat.dvd_prime hq).1 hdvd with h' | h'
    · exact absurd (AddMonoid.addOrderOf_eq_one_iff.1 h') (Affine.Point.some_ne_zero hn)
    · exact h'
  have hle2 : q ≤ 2 * N.minFac + 1 := by
    rw [← hord]
    exact (addOrderOf_le_card).trans hcard
  have : (q - 1) * (q - 1) ≤ (2 * N.minFac) * (2 * N.minFac) := Nat.mul_le_mul (by omega) (by omega)
  nlinarith

end Gost
