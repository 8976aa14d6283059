import Verif.Model.Basic

/-!
# The field multiplications of MGM

`gf64_mul` (`/repo/gost_crypt.c`) and `gf128_mul_uint64` (`/repo/gost_grasshopper_cipher.c`), for a little-endian
platform (`L_ENDIAN`).  An operand is the memory it occupies, a buffer of 8 or 16 bytes.
-/

namespace Gost

/-- Reading a `uint64_t` at a byte pointer on a little-endian platform (`*arg`, `*(arg + 1)` is the read 8 bytes on). -/
def ldLE64 (b : Bytes) : W64 :=
  (at_ b 0).setWidth 64 ||| ((at_ b 1).setWidth 64 <<< 8) ||| ((at_ b 2).setWidth 64 <<< 16) |||
  ((at_ b 3).setWidth 64 <<< 24) ||| ((at_ b 4).setWidth 64 <<< 32) ||| ((at_ b 5).setWidth 64 <<< 40) |||
  ((at_ b 6).setWidth 64 <<< 48) ||| ((at_ b 7).setWidth 64 <<< 56)

/-- Storing a `uint64_t` on a little-endian platform. -/
def stLE64 (w : W64) : Bytes := (List.range 8).map fun i => (w >>> (8 * i)).setWidth 8

/-- The macro `BSWAP64`, `/repo/gost_gost2015.h` lines 22-30. -/
def BSWAP64 (x : W64) : W64 :=
  ((x &&& 0xFF00000000000000#64) >>> 56) ||| ((x &&& 0x00FF000000000000#64) >>> 40) |||
  ((x &&& 0x0000FF0000000000#64) >>> 24) ||| ((x &&& 0x000000FF00000000#64) >>> 8) |||
  ((x &&& 0x00000000FF000000#64) <<< 8) ||| ((x &&& 0x0000000000FF0000#64) <<< 24) |||
  ((x &&& 0x000000000000FF00#64) <<< 40) ||| ((x &&& 0x00000000000000FF#64) <<< 56)

/-- Variables `t`, `X0`, `Z0` of `gf64_mul`. -/
structure Gf64St where
  t : W64
  X0 : W64
  Z0 : W64

/-- Body of the loop of `gf64_mul`, `/repo/gost_crypt.c` lines 590-602. -/
def gf64Body (s : Gf64St) : Gf64St :=
  let Z0 := if s.t &&& 1#64 ≠ 0 then s.Z0 ^^^ s.X0 else s.Z0
  let t := s.t >>> 1
  let X0 := if s.X0 &&& 0x8000000000000000#64 ≠ 0 then (s.X0 <<< 1) ^^^ 0x1b#64 else s.X0 <<< 1
  { t := t, X0 := X0, Z0 := Z0 }

/-- `n` rounds of a loop body. -/
def rounds {S : Type} (f : S → S) : Nat → S → S
  | 0, s => s
  | n + 1, s => rounds f n (f s)

/-- `gf64_mul`, `/repo/gost_crypt.c` lines 572-613: the bytes written to `result`. -/
def gf64_mul (arg1 arg2 : Bytes) : Bytes :=
  let s : Gf64St := { t := BSWAP64 (ldLE64 arg2), X0 := BSWAP64 (ldLE64 arg1), Z0 := 0 }
  let s := rounds gf64Body 63 s
  let Z0 := if s.t &&& 1#64 ≠ 0 then s.Z0 ^^^ s.X0 else s.Z0
  stLE64 (BSWAP64 Z0)

/-- Variables `t`, `X0`, `X1`, `Z0`, `Z1` of `gf128_mul_uint64`. -/
structure Gf128St where
  t : W64
  X0 : W64
  X1 : W64
  Z0 : W64
  Z1 : W64

/-- Body of both loops of `gf128_mul_uint64`, `/repo/gost_grasshopper_cipher.c` lines 416-432, 441-457. -/
def gf128Body (s : Gf128St) : Gf128St :=
  let z := if s.t &&& 1#64 ≠ 0 then (s.Z0 ^^^ s.X0, s.Z1 ^^^ s.X1) else (s.Z0, s.Z1)
  let t := s.t >>> 1
  let x := if s.X1 &&& 0x8000000000000000#64 ≠ 0 then
      ((s.X0 <<< 1) ^^^ 0x87#64, (s.X1 <<< 1) ^^^ (s.X0 >>> 63))
    else (s.X0 <<< 1, (s.X1 <<< 1) ^^^ (s.X0 >>> 63))
  { t := t, X0 := x.1, X1 := x.2, Z0 := z.1, Z1 := z.2 }

/-- `gf128_mul_uint64`, `/repo/gost_grasshopper_cipher.c` lines 391-469. -/
def gf128_mul_uint64 (arg1 arg2 : Bytes) : Bytes :=
  let s : Gf128St :=
    { t := BSWAP64 (ldLE64 (arg2.drop 8)), X0 := BSWAP64 (ldLE64 (arg1.drop 8)), X1 := BSWAP64 (ldLE64 arg1),
      Z0 := 0, Z1 := 0 }
  let s := rounds gf128Body 64 s
  let s := { s with t := BSWAP64 (ldLE64 arg2) }
  let s := rounds gf128Body 63 s
  let z := if s.t &&& 1#64 ≠ 0 then (s.Z0 ^^^ s.X0, s.Z1 ^^^ s.X1) else (s.Z0, s.Z1)
  stLE64 (BSWAP64 z.2) ++ stLE64 (BSWAP64 z.1)

end Gost
