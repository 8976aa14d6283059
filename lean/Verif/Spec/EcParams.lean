import Verif.Spec.EcPoint
import Mathlib.Data.Nat.Prime.Basic
import Mathlib.SetTheory.Cardinal.Finite

/-!
# What GOST R 34.10-2012, section 5.2, requires of the parameters of a signature scheme
-/

namespace Gost.Spec

open WeierstrassCurve

/-- The parameters of GOST R 34.10-2012, section 5.2: a prime `p`; a curve `y² = x³ + a x + b` over the field with `p` elements
whose invariant is neither 0 nor 1728 (so `a` and `b` are not 0); the number `m` of its points, `m = cofactor * q`, `q` prime
of 255-256 or 509-512 bits; `m ≠ p`; `p^t ≠ 1 (mod q)` for `t = 1 .. B`, with `B` 31 or 131; a point with coordinates
`(x, y)` other than infinity that `q` sends to infinity. The curve is not singular. -/
structure GostCurve (p a b q x y cofactor : Nat) : Prop where
  prime_p : p.Prime
  prime_q : q.Prime
  size_q : (2 ^ 254 < q ∧ q < 2 ^ 256) ∨ (2 ^ 508 < q ∧ q < 2 ^ 512)
  reduced : a < p ∧ b < p ∧ x < p ∧ y < p
  invariant : a ≠ 0 ∧ b ≠ 0
  discriminant : ¬ p ∣ 4 * a ^ 3 + 27 * b ^ 2
  point : ∀ _ : Fact p.Prime, ∃ h : (shortW (a : ZMod p) (b : ZMod p)).toAffine.Nonsingular (x : ZMod p) (y : ZMod p),
    q • (Affine.Point.some _ _ h : CurvePoint (a : ZMod p) (b : ZMod p)) = 0
  points : ∀ _ : Fact p.Prime, Nat.card (CurvePoint (a : ZMod p) (b : ZMod p)) = cofactor * q
  not_anomalous : cofactor * q ≠ p
  embedding : ∀ t, 1 ≤ t → t ≤ (if q < 2 ^ 256 then 31 else 131) → p ^ t % q ≠ 1

end Gost.Spec
