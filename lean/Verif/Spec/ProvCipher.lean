import Verif.Spec.Modes

/-! # The padding of OpenSSL's EVP ciphers (RFC 5652, section 6.3) -/

namespace Gost.Spec

/-- `n` bytes of value `n`, `1 ≤ n ≤ b`, so many that the length becomes a multiple of `b`. -/
def pkcs7 (b : Nat) (x : Blk) : Blk :=
  x ++ List.replicate (b - x.length % b) (BitVec.ofNat 8 (b - x.length % b))

end Gost.Spec
