import Verif.Model.KeyTransport

/-!
# Checking a key: `EVP_PKEY_check` and `EVP_PKEY_public_check`

OpenSSL's `EC_KEY_check_key` is modelled by what it does (crypto/ec/ec_key.c: `ossl_ec_key_simple_check_key`, that is
`ossl_ec_key_public_check`, and for a key with a private number `ossl_ec_key_private_check` and `ossl_ec_key_pairwise_check`); its
point multiplication is a parameter.
-/

namespace Gost

/-- OpenSSL's `EC_POINT_mul` of one point: the group, the number, the point. -/
abbrev OsslMul := EcGroupRec → Nat → EcPoint → EcPoint

/-- OpenSSL's `ossl_ec_key_public_check`: not infinity, coordinates in range, on the curve, killed by the order. -/
def publicCheck (mul : OsslMul) (g : EcGroupRec) : EcPoint → Bool
  | none => false
  | some (x, y) => decide (x < g.p) && decide (y < g.p) && g.setAffine x y && (mul g g.q (some (x, y))).isNone

/-- OpenSSL's `ossl_ec_key_private_check` and `ossl_ec_key_pairwise_check`. -/
def privateCheck (mul : OsslMul) (g : EcGroupRec) (Q : EcPoint) (d : Nat) : Bool :=
  decide (1 ≤ d) && decide (d < g.q) && decide (mul g d (some (g.x, g.y)) = Q)

/-- `pkey_gost_check`, `/repo/gost_pmeth.c` lines 1039-1043: the callback of both checks, lines 1070-1071, 1090-1091, 1110-1111. -/
def pkey_gost_check (mul : OsslMul) (pk : EvpPkey) : Nat :=
  match pk.group, pk.pub with
  | some g, some Q =>
    if publicCheck mul g Q then
      match pk.priv with
      | none => 1
      | some d => if privateCheck mul g Q d then 1 else 0
    else 0
  | _, _ => 0

end Gost
