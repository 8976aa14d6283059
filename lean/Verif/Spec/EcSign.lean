import Verif.Spec.Gost28147
import Mathlib.Algebra.Group.Basic
import Mathlib.Data.ZMod.Basic
import Mathlib.Data.Nat.Prime.Basic

/-!
# GOST R 34.10-2012: signatures and key agreement, as in the standards

Written over an arbitrary commutative group with a partial x-coordinate; independent of the model of the C code.
-/

namespace Gost.Spec

/-- The number `e` of a digest (GOST R 34.10-2012, 6.1 step 2): the digest, read little-endian, modulo `q`, 0 replaced
by 1. -/
def digestNumber (q : Nat) (dgst : List (BitVec 8)) : Nat := if q ∣ leNat dgst then 1 else leNat dgst % q

variable {G : Type} [AddCommGroup G]

/-- `(r, s)` is the signature the standard forms for the digest number `e` under the private key `d` with nonce `k`
(6.1, steps 3-6): `C = kP`, `r = x_C mod q`, `s = (rd + ke) mod q`, neither of them 0. -/
def SignsWith (P : G) (q : Nat) (xc : G → Option Nat) (d e k r s : Nat) : Prop :=
  (∃ x, xc (k • P) = some x ∧ r = x % q) ∧ (s : ZMod q) = r * d + k * e ∧ s < q ∧ r ≠ 0 ∧ s ≠ 0

/-- The verification of the standard (6.2): `0 < r, s < q`, `z1 = s/e`, `z2 = -r/e`, `C = z1 P + z2 Q`, accepted when
`x_C mod q = r`. -/
def Verifies (P : G) (q : Nat) (xc : G → Option Nat) (Q : G) (e : Nat) (r s : Int) : Prop :=
  0 < r ∧ r < q ∧ 0 < s ∧ s < q ∧
    ∃ z1 z2 : ℕ, (z1 : ZMod q) * e = s ∧ (z2 : ZMod q) * e = -r ∧
      ∃ x, xc (z1 • P + z2 • Q) = some x ∧ ((x % q : Nat) : Int) = r

/-- The shared point of VKO (R 50.1.113-2016, 4.3): `(m/q · UKM · x mod q) · (y·P)`, cofactor `m/q`. -/
def vkoPoint (cofactor ukm x : Nat) (Q : G) : G := (cofactor * ukm * x) • Q

end Gost.Spec
