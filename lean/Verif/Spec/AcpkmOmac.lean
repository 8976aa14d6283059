import Verif.Spec.KeyExp
/-!
# Specification of CTR-ACPKM with OMAC

Written from R 1323565.1.025-2019 (CMS): the key and a seed give an encryption key and a MAC key through KDF_TREE; the message and its OMAC
are encrypted as one string in CTR-ACPKM mode.
-/

namespace Gost.Spec

/-- The encryption key and the MAC key: `KDF_TREE(K, "kdf tree", seed, R = 1)`, 64 bytes. -/
def acpkmOmacKeyPair (hmac : Bytes → Bytes → Bytes) (key seed : Bytes) : Bytes × Bytes :=
  let k := kdfTree hmac key 1 ("kdf tree".toUTF8.toList.map fun b => BitVec.ofNat 8 b.toNat) seed 2
  (k.take 32, k.drop 32)

/-- CTR-ACPKM with sections of `sec` bytes and a half-block initialisation vector. -/
def acpkmCrypt (E : OmacCipher → Bytes → Bytes → Bytes) (n : OmacCipher) (sec : Nat) (key iv m : Bytes) : Bytes :=
  xorStream n.block (ctrAcpkmGamma n.block (E n) (acpkm n.block (E n)) sec key (iv ++ List.replicate (n.block / 2) 0)) m

/-- The ciphertext followed by the encrypted MAC. -/
def acpkmOmacSeal (E cmac : OmacCipher → Bytes → Bytes → Bytes) (hmac : Bytes → Bytes → Bytes) (n : OmacCipher) (sec : Nat)
    (key seed iv m : Bytes) : Bytes :=
  acpkmCrypt E n sec (acpkmOmacKeyPair hmac key seed).1 iv (m ++ cmac n (acpkmOmacKeyPair hmac key seed).2 m)

end Gost.Spec
