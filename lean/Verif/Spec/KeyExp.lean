import Verif.Spec.Stream
import Verif.Spec.Modes
import Verif.Model.KeyExp
/-!
# Specification of key export, KDF_TREE and TLSTREE

Written from R 1323565.1.017-2018 (KExp15, KImp15), R 50.1.113-2016 (KDF_TREE_GOSTR3411_2012_256) and
R 1323565.1.020-2018 / RFC 9189 (TLSTREE), over the block ciphers, CMAC and HMAC as parameters.
-/

namespace Gost.Spec

/-- CTR encryption (and decryption) with a half-block initialisation vector, over the block cipher `E n key`. -/
def ctrCrypt (E : OmacCipher → Bytes → Bytes → Bytes) (n : OmacCipher) (key iv m : Bytes) : Bytes :=
  xorStream n.block (ctrGamma n.block (E n key) (iv ++ List.replicate (n.block / 2) 0)) m

/-- `KExp15(S, K_mac, K_enc, IV) = CTR(K_enc, IV, S || OMAC(K_mac, IV || S))`. -/
def kexp15 (E cmac : OmacCipher → Bytes → Bytes → Bytes) (n : OmacCipher) (s kmac kenc iv : Bytes) : Bytes :=
  ctrCrypt E n kenc iv (s ++ cmac n kmac (iv ++ s))

/-- The shortest big-endian representation of a number. -/
def beMin (n : Nat) : Bytes := if _h : n = 0 then [] else beMin (n / 256) ++ [BitVec.ofNat 8 n]
  termination_by n
  decreasing_by omega

/-- The input of the `i`-th HMAC of `KDF_TREE(K, label, seed, R)` with an output of `L` bits:
`[i]_R || label || 0x00 || seed || [L]`. -/
def kdfTreeInput (R : Nat) (label seed : Bytes) (L i : Nat) : Bytes :=
  beBytes R i ++ label ++ [0] ++ seed ++ beMin L

/-- `KDF_TREE`, `blocks` blocks of 32 bytes. -/
def kdfTree (hmac : Bytes → Bytes → Bytes) (key : Bytes) (R : Nat) (label seed : Bytes) (blocks : Nat) : Bytes :=
  (List.range blocks).flatMap fun i => hmac key (kdfTreeInput R label seed (blocks * 256) (i + 1))

/-- `KDF(K, label, seed) = HMAC(K, 0x01 || label || 0x00 || seed || 0x01 || 0x00)`. -/
def kdf256 (hmac : Bytes → Bytes → Bytes) (key label seed : Bytes) : Bytes :=
  hmac key ([1] ++ label ++ [0] ++ seed ++ [1, 0])

/-- The number of low bits of the sequence number the three constants `C_1`, `C_2`, `C_3` of the TLS 1.2 cipher suites
clear (RFC 9189, 4.1 and appendix: `C_1 = FFFFFFC000000000`, `C_2 = FFFFFFFFFE000000`, `C_3 = FFFFFFFFFFFFF000` for Magma,
`FFFFFFFF00000000`, `FFFFFFFFFFF80000`, `FFFFFFFFFFFFFFC0` for Kuznyechik). -/
def tlsShifts : OmacCipher → Nat × Nat × Nat
  | .magma => (38, 25, 12)
  | .kuznyechik => (32, 19, 6)

/-- `STR_8(i AND C)` for the constant clearing the `s` low bits. -/
def tlsSeed (seqno s : Nat) : Bytes := beBytes 8 (seqno / 2^s * 2^s)

/-- `TLSTREE(K, i)`; the labels are `"level1"`, `"level2"`, `"level3"`. -/
def tlstree (hmac : Bytes → Bytes → Bytes) (n : OmacCipher) (key : Bytes) (seqno : Nat) : Bytes :=
  let lbl (d : Byte) : Bytes := [0x6c, 0x65, 0x76, 0x65, 0x6c, d]
  let k1 := kdf256 hmac key (lbl 0x31) (tlsSeed seqno (tlsShifts n).1)
  let k2 := kdf256 hmac k1 (lbl 0x32) (tlsSeed seqno (tlsShifts n).2.1)
  kdf256 hmac k2 (lbl 0x33) (tlsSeed seqno (tlsShifts n).2.2)

end Gost.Spec
