import Verif.Props.Ecp

/-!
# C45: the signature code over the curve files

The point multiplications of the curve files satisfy what the signature and key agreement code (`Verif/Props/EcSign.lean`,
`Verif/Props/EcKeyx.lean`) requires of them.
-/

namespace Gost

open WeierstrassCurve
open Spec (leNat leBytes ecOf onCurve)

section
variable {p nb : Nat} [Fact p.Prime] {a b : ZMod p}

open Classical in
/-- The point with given coordinates. -/
noncomputable def pointOf (a b : ZMod p) : EcPoint → Option (CurvePoint a b)
  | none => some 0
  | some (x, y) => if h : (shortW a b).toAffine.Nonsingular (x : ZMod p) (y : ZMod p) then some (.some _ _ h) else none

theorem pointOf_ecOf (P : CurvePoint a b) : pointOf a b (ecOf P) = some P := by
  cases P with
  | zero => rfl
  | some x y hn =>
    unfold pointOf
    simp only [ecOf]
    have hn' : (shortW a b).toAffine.Nonsingular ((x.val : Nat) : ZMod p) ((y.val : Nat) : ZMod p) := by
      rw [ZMod.natCast_zmod_val, ZMod.natCast_zmod_val]; exact hn
    rw [dif_pos hn']
    congr 2 <;> exact ZMod.natCast_zmod_val _

/-- An `EC_GROUP` of the engine whose multiplications are the functions of a curve file (`gost_ec_point_mul`,
`/repo/gost_ec_sign.c` lines 500-591, chooses them by the name of the curve); points are those of the curve, handed over and
taken back as coordinates. -/
noncomputable def ecpGroup {T prj aff : Type} (O : FeOps T) (C : SmulCode prj aff (AffW T)) (a b : ZMod p) (gen : CurvePoint a b)
    (q cofactor : Nat) : EcGroup (CurvePoint a b) where
  gen := gen
  order := q
  field := p
  cofactor := cofactor
  coords := ecOf
  mulTwo n Q m := (ecp_mul_two O C (onCurve a b) n (ecOf Q) m).bind (pointOf a b)
  mulG n := (ecp_mul_g O C (onCurve a b) n).bind (pointOf a b)
  mulVar Q m := (ecp_mul O C (onCurve a b) (ecOf Q) m).bind (pointOf a b)

end

section
variable {T : Type} {O : FeOps T} {p nb : Nat} [Fact p.Prime] {ok : T → Prop} {val : T → ZMod p} {W : WProgs} {a b : ZMod p}
  {lut : Nat → Nat → AffW T} {n rows cols : Nat} {gen : CurvePoint a b}

/-- **C45**: with a file in Weierstrass coordinates, signing, verifying and key agreement work in the group of the curve. -/
theorem C45_group_sound (h : WCurve O W lut p nb n rows cols ok val a b gen) (q : Nat) (hq : q.Prime) (hg : q • gen = 0)
    (hg0 : gen ≠ 0) (hnb : BN_num_bytes p = nb) (hqs : q ≤ 256 ^ nb) :
    (ecpGroup O (wCode O W lut nb n rows cols) a b gen q 1).Sound where
  prime := hq
  gen_order := hg
  gen_ne := hg0
  fits := by change q ≤ 256 ^ BN_num_bytes p; rw [hnb]; exact hqs
  coords_zero := rfl
  coords_some P hP := by
    cases P with
    | zero => exact absurd rfl hP
    | some x y hn => exact ⟨_, _, rfl, ZMod.val_lt x, ZMod.val_lt y⟩
  mulG k hk := by
    change k < 256 ^ BN_num_bytes p at hk
    rw [hnb] at hk
    change (ecp_mul_g O (wCode O W lut nb n rows cols) (onCurve a b) k).bind (pointOf a b) = some (k • gen)
    rw [C45_mul_g h, if_pos hk]
    exact pointOf_ecOf _
  mulTwo k Q m hk hm hQ _ := by
    change (ecp_mul_two O (wCode O W lut nb n rows cols) (onCurve a b) k (ecOf Q) m).bind (pointOf a b) = some (k • gen + m • Q)
    rw [C45_mul_two h, if_pos ⟨hQ, lt_of_lt_of_le hk hqs, lt_of_lt_of_le hm hqs⟩]
    exact pointOf_ecOf _
  mulVar Q m hm hQ := by
    change (ecp_mul O (wCode O W lut nb n rows cols) (onCurve a b) (ecOf Q) m).bind (pointOf a b) = some ((1 * m) • Q)
    rw [C45_mul h, if_pos ⟨hQ, lt_of_lt_of_le hm hqs⟩, one_mul]
    exact pointOf_ecOf _
  cofactor := by
    change ¬ q ∣ 1
    intro hd
    exact hq.one_lt.ne' (Nat.dvd_one.1 hd)

end

section
variable {K : Type} {O : FeOps K} {p nb : Nat} [Fact p.Prime] {ok : K → Prop} {val : K → ZMod p} {S T d : ZMod p}
  {lut : Nat → Nat → AffE K} {n rows cols : Nat} {gen : CurvePoint (edA S T) (edB S T)} {q : Nat}

/-- **C45**: the same with a file in Edwards coordinates; the cofactor is 4. -/
theorem C45_ed_group_sound (h : ECurve O lut p nb n rows cols ok val S T d gen q) (hq : q.Prime) (hg0 : gen ≠ 0)
    (hnb : BN_num_bytes p = nb) (hqs : q ≤ 256 ^ nb) :
    (ecpGroup O (eCode O lut nb n rows cols) (edA S T) (edB S T) gen q 4).Sound where
  prime := hq
  gen_order := h.order
  gen_ne := hg0
  fits := by change q ≤ 256 ^ BN_num_bytes p; rw [hnb]; exact hqs
  coords_zero := rfl
  coords_some P hP := by
    cases P with
    | zero => exact absurd rfl hP
    | some x y hn => exact ⟨_, _, rfl, ZMod.val_lt x, ZMod.val_lt y⟩
  mulG k hk := by
    change k < 256 ^ BN_num_bytes p at hk
    rw [hnb] at hk
    change (ecp_mul_g O (eCode O lut nb n rows cols) (onCurve _ _) k).bind (pointOf _ _) = some (k • gen)
    rw [C45_ed_mul_g h, if_pos hk]
    exact pointOf_ecOf _
  mulTwo k Q m hk hm hQ hQq := by
    change (ecp_mul_two O (eCode O lut nb n rows cols) (onCurve _ _) k (ecOf Q) m).bind (pointOf _ _) = some (k • gen + m • Q)
    rw [C45_ed_mul_two_subgroup h Q k m hQq, if_pos ⟨hQ, lt_of_lt_of_le hk hqs, lt_of_lt_of_le hm hqs⟩]
    exact pointOf_ecOf _
  mulVar Q m hm hQ := by
    change (ecp_mul O (eCode O lut nb n rows cols) (onCurve _ _) (ecOf Q) m).bind (pointOf _ _) = some ((4 * m) • Q)
    rw [C45_ed_mul h, if_pos ⟨hQ, lt_of_lt_of_le hm hqs⟩]
    exact pointOf_ecOf _
  cofactor := by
    change ¬ q ∣ 4
    intro hd
    have h1 := h.order_odd
    have h2 := Nat.le_of_dvd (by norm_num) hd
    have h3 := hq.one_lt
    have : q = 3 := by omega
    rw [this] at hd
    exact absurd hd (by decide)

end

end Gost
