import Mathlib.Algebra.Polynomial.Div
import Mathlib.Data.ZMod.Defs
import Mathlib.Algebra.Field.ZMod

/-!
# Bit vectors as polynomials over GF(2)

The independent meaning of the field multiplications: a bit vector is a polynomial over `ZMod 2`.
-/

namespace Gost.Spec
open Polynomial

/-- The polynomial `Σ a_i X^i` of the bit vector `a`. -/
noncomputable def toPoly {n : Nat} (a : BitVec n) : (ZMod 2)[X] :=
  ∑ i ∈ Finset.range n, if a.getLsbD i then X ^ i else 0

/-- The modulus `X^n + c(X)`. -/
noncomputable def modulus {n : Nat} (c : BitVec n) : (ZMod 2)[X] := X ^ n + toPoly c

end Gost.Spec
