import Verif.Model.Gost89

/-!
# CryptoPro key wrap (`/repo/gost_keywrap.c`)
-/

namespace Gost

/-- `u4 k = outputKey[4j] | ... << 24`, `/repo/gost_keywrap.c` lines 37-38. -/
def keyWord (k : Bytes) (j : Nat) : W32 := le32 (at_ k (4 * j)) (at_ k (4 * j + 1)) (at_ k (4 * j + 2)) (at_ k (4 * j + 3))

/-- The loop over `j` with `mask = 1 << j` in `keyDiversifyCryptoPro`, `/repo/gost_keywrap.c` lines 35-44: the sums `s1`
(bits of `u = ukm[i]` set) and `s2`. -/
def divSums (k : Bytes) (u : Byte) : W32 × W32 :=
  (List.range 8).foldl (fun (s : W32 × W32) j =>
    if (1 <<< j) &&& u.toNat ≠ 0 then (s.1 + keyWord k j, s.2) else (s.1, s.2 + keyWord k j)) (0, 0)

/-- One iteration of the outer loop of `keyDiversifyCryptoPro`, `/repo/gost_keywrap.c` lines 28-56. -/
def divStep (s : Ctx × Bytes) (u : Byte) : Ctx × Bytes :=
  let w := divSums s.2 u
  let S := [byteOf w.1 0, byteOf w.1 1, byteOf w.1 2, byteOf w.1 3, byteOf w.2 0, byteOf w.2 1, byteOf w.2 2, byteOf w.2 3]
  let c := gost_key s.1 s.2
  (c, gost_enc_cfb c S s.2 4)

/-- `keyDiversifyCryptoPro`, `/repo/gost_keywrap.c` lines 23-58: the cipher context and `outputKey`. -/
def keyDiversifyCryptoPro (c : Ctx) (inputKey ukm : Bytes) : Ctx × Bytes :=
  ((List.range 8).map (at_ ukm)).foldl divStep (c, inputKey.take 32)

/-- `keyWrapCryptoPro`, `/repo/gost_keywrap.c` lines 69-81: the cipher context and the 44 bytes of `wrappedKey`. -/
def keyWrapCryptoPro (c : Ctx) (kek ukm sessionKey : Bytes) : Ctx × Bytes :=
  let d := keyDiversifyCryptoPro c kek ukm
  let c := gost_key d.1 d.2
  (c, ukm.take 8 ++ gost_enc c sessionKey 4 ++ gost_mac_iv c 32 ukm (sessionKey.take 32))

/-- `keyUnwrapCryptoPro`, `/repo/gost_keywrap.c` lines 94-111: the cipher context, `sessionKey` and the value returned. -/
def keyUnwrapCryptoPro (c : Ctx) (kek wrappedKey : Bytes) : Ctx × Bytes × Int :=
  let d := keyDiversifyCryptoPro c kek wrappedKey
  let c := gost_key d.1 d.2
  let sessionKey := gost_dec c (wrappedKey.drop 8) 4
  let cek_mac := gost_mac_iv c 32 wrappedKey sessionKey
  (c, sessionKey, if cek_mac ≠ (wrappedKey.drop 40).take 4 then 0 else 1)

end Gost
