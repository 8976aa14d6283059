import Verif.Model.StreebogBE
import Verif.Model.Mgm
import Verif.Model.KeyExp

/-!
# Big-endian hosts: the remaining byte-order dependent functions

The branches taken when `L_ENDIAN` is not defined of `gf64_mul`, `gf128_mul_uint64`, `gost_mgm128_finish`, `be32` and
`gost_tlstree`.
-/

namespace Gost

/-- `gf64_mul`, `/repo/gost_crypt.c` lines 572-613, the `#else` branches. -/
def gf64_mulBE (arg1 arg2 : Bytes) : Bytes :=
  let s : Gf64St := { t := ldBE64 arg2, X0 := ldBE64 arg1, Z0 := 0 }
  let s := rounds gf64Body 63 s
  let Z0 := if s.t &&& 1#64 ≠ 0 then s.Z0 ^^^ s.X0 else s.Z0
  stBE64 Z0

/-- `gf128_mul_uint64`, `/repo/gost_grasshopper_cipher.c` lines 391-469, the `#else` branches. -/
def gf128_mul_uint64BE (arg1 arg2 : Bytes) : Bytes :=
  let s : Gf128St :=
    { t := ldBE64 (arg2.drop 8), X0 := ldBE64 (arg1.drop 8), X1 := ldBE64 arg1, Z0 := 0, Z1 := 0 }
  let s := rounds gf128Body 64 s
  let s := { s with t := ldBE64 arg2 }
  let s := rounds gf128Body 63 s
  let z := if s.t &&& 1#64 ≠ 0 then (s.Z0 ^^^ s.X0, s.Z1 ^^^ s.X1) else (s.Z0, s.Z1)
  stBE64 z.2 ++ stBE64 z.1

/-- The length block of `gost_mgm128_finish`, `/repo/gost_gost2015.c` lines 443-444, 460-474, without the swaps and with
`(alen << 32) | clen` (line 471) for 8-byte blocks. -/
def mgmLenBlockBE (bl lenA lenM : Nat) : Bytes :=
  let alen : W64 := BitVec.ofNat 64 lenA <<< 3
  let clen : W64 := BitVec.ofNat 64 lenM <<< 3
  if bl = 16 then stBE64 alen ++ stBE64 clen else stBE64 ((alen <<< 32) ||| clen)

/-- The four bytes a `uint32_t` occupies. -/
def st32 (bigEndian : Bool) (w : W32) : Bytes :=
  if bigEndian then [byteOf w 3, byteOf w 2, byteOf w 1, byteOf w 0] else [byteOf w 0, byteOf w 1, byteOf w 2, byteOf w 3]

/-- `be32`, `/repo/gost_keyexpimp.c` lines 17-27. -/
def be32 (bigEndian : Bool) (host : W32) : W32 :=
  if bigEndian then host
  else ((host &&& 0xff000000#32) >>> 24) ||| ((host &&& 0x00ff0000#32) >>> 8) |||
    ((host &&& 0x0000ff00#32) <<< 8) ||| ((host &&& 0x000000ff#32) <<< 24)

/-- `gost_tlstree`, `/repo/gost_keyexpimp.c` lines 261-305, on a big-endian host: `BUF_reverse` puts the reversed sequence
number into `seq` (line 288), the masks are applied to the value, and the seeds are the bytes the three words occupy
(lines 296-302). -/
def gost_tlstreeBE (X : Crypto) (nid : OmacCipher) (key tlsseq : Bytes) : Option Bytes := do
  let (c1, c2, c3) := tlsMasks nid
  let seq := ldBE64 (tlsseq.take 8).reverse
  let seed1 := stBE64 (seq &&& c1)
  let seed2 := stBE64 (seq &&& c2)
  let seed3 := stBE64 (seq &&& c3)
  let ko1 ← gost_kdftree2012_256 X 32 key [0x6c, 0x65, 0x76, 0x65, 0x6c, 0x31] seed1 1
  let ko2 ← gost_kdftree2012_256 X 32 ko1 [0x6c, 0x65, 0x76, 0x65, 0x6c, 0x32] seed2 1
  gost_kdftree2012_256 X 32 ko2 [0x6c, 0x65, 0x76, 0x65, 0x6c, 0x33] seed3 1

end Gost
