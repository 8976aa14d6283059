import Verif.Spec.Imit

/-!
# Specification of the CryptoPro key diversification and key wrap (RFC 4357, sections 6.3 to 6.5)

`E key block` is the GOST 28147-89 encryption, `M key state block` the 16-round MAC step.
-/

namespace Gost.Spec.KeyWrap

/-- The 32-bit little-endian words K[0..7] of a key. -/
def word (K : Blk) (j : Nat) : Nat := leNat ((K.drop (4 * j)).take 4)

/-- S[i] = ((a[0]*K[0] + ...) mod 2^32) | (((~a[0])*K[0] + ...) mod 2^32), with a[j] bit number j of the UKM byte. -/
def S (K : Blk) (u : BitVec 8) : Blk :=
  leBytes 4 (((List.range 8).filter fun j => u.getLsbD j).map (word K)).sum ++
  leBytes 4 (((List.range 8).filter fun j => !u.getLsbD j).map (word K)).sum

/-- K[i+1] = encryptCFB (S[i], K[i], K[i]). -/
def step (E : Blk → Blk → Blk) (K : Blk) (u : BitVec 8) : Blk := (cfbPlainEnc (E K) (S K u) (blocks 8 K)).flatten

/-- The diversified key KEK(UKM). -/
def diversify (E : Blk → Blk → Blk) (kek ukm : Blk) : Blk := ukm.foldl (step E) kek

/-- CEK_MAC: the first four bytes of the MAC of the CEK under KEK(UKM), started from the UKM. -/
def mac (E : Blk → Blk → Blk) (M : Blk → Blk → Blk → Blk) (kek ukm cek : Blk) : Blk :=
  (macFold (M (diversify E kek ukm)) ukm (blocks 8 cek)).take 4

/-- Wrapping: UKM | encryptECB (KEK(UKM), CEK) | CEK_MAC. -/
def wrap (E : Blk → Blk → Blk) (M : Blk → Blk → Blk → Blk) (kek ukm cek : Blk) : Blk :=
  ukm ++ ecb 8 (E (diversify E kek ukm)) cek ++ mac E M kek ukm cek

end Gost.Spec.KeyWrap
