import Mathlib.AlgebraicGeometry.EllipticCurve.Affine.Point
import Mathlib.Algebra.Field.ZMod

/-!
# Points of a curve as pairs of numbers

The group of a curve is Mathlib's `WeierstrassCurve.Affine.Point`.
-/

namespace Gost

/-- The curve `y² = x³ + a x + b`. -/
@[reducible] def shortW {F : Type} [Field F] (a b : F) : WeierstrassCurve F := ⟨0, 0, 0, a, b⟩

/-- Points of the curve, with Mathlib's group law. -/
abbrev CurvePoint {F : Type} [Field F] (a b : F) := (shortW a b).toAffine.Point

namespace Spec

/-- The affine coordinates of a point of the curve `y² = x³ + a x + b` over the field with `p` elements as numbers below
`p`; none for the point at infinity. -/
def ecOf {p : Nat} [Fact p.Prime] {a b : ZMod p} : CurvePoint a b → Option (Nat × Nat)
  | .zero => none
  | .some x y _ => some (x.val, y.val)

/-- Whether a pair of numbers satisfies the equation of the curve. -/
def onCurve {p : Nat} (a b : ZMod p) (x y : Nat) : Bool := decide ((y : ZMod p) ^ 2 = (x : ZMod p) ^ 3 + a * x + b)

end Spec

end Gost
