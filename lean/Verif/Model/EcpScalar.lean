import Verif.Model.Basic
import Mathlib.Data.Int.ModEq

/-!
# Scalar recodings of the curve files

Model of the functions `scalar_get_bit`, `scalar_rwnaf` and `scalar_wnaf` of the eight files `/repo/ecp_*.c` (each file has
them twice, in its 64-bit and its 32-bit half, with the same text).  Line numbers refer to
`/repo/ecp_id_GostR3410_2001_CryptoPro_A_ParamSet.c` and, for 64-byte scalars, to
`/repo/ecp_id_tc26_gost_3410_2012_512_paramSetA.c`.

C's `int` is modelled by `Int` (no value here comes near the limits of 32 bits); a store into an `int8_t` wraps
(`int8`); `x & (2^k - 1)` is the remainder modulo `2^k` and `x >> k` the quotient rounded down by `2^k`, which is what
two's complement machines compute for negative `x` too.
-/

namespace Gost

/-- Storing an `int` into an `int8_t`. -/
def int8 (x : Int) : Int := (x + 128) % 256 - 128

/-- `scalar_get_bit(in, idx)`, lines 3297-3307 (lines 4326-4336 for 64 bytes): 0 outside the scalar. -/
def scalar_get_bit (nb : Nat) (inb : Bytes) (idx : Int) : Int :=
  let widx := idx / 8
  let rshift := idx % 8
  if idx < 0 ∨ widx ≥ nb then 0
  else ((((at_ inb widx.toNat).toNat >>> rshift.toNat) % 2 : Nat) : Int)

/-- The body and loop of `scalar_rwnaf` from index `i` with the given window, lines 3321-3332: the remaining digits. -/
def rwnafLoop (nb : Nat) (inb : Bytes) : Nat → Nat → Int → List Int
  | 0, _, window => [window]
  | fuel + 1, i, window =>
    let d := int8 (window % 64 - 32)
    let window := int8 ((window - d) / 32)
    let window := int8 (window + scalar_get_bit nb inb (((i : Int) + 1) * 5 + 1) * 2)
    let window := int8 (window + scalar_get_bit nb inb (((i : Int) + 1) * 5 + 2) * 4)
    let window := int8 (window + scalar_get_bit nb inb (((i : Int) + 1) * 5 + 3) * 8)
    let window := int8 (window + scalar_get_bit nb inb (((i : Int) + 1) * 5 + 4) * 16)
    let window := int8 (window + scalar_get_bit nb inb (((i : Int) + 1) * 5 + 5) * 32)
    d :: rwnafLoop nb inb fuel (i + 1) window

/-- `scalar_rwnaf`, lines 3316-3333 (lines 4345-4362 of the 512-bit file): `n` is the bound of the loop (51 or 102). -/
def scalar_rwnaf (nb n : Nat) (inb : Bytes) : List Int :=
  rwnafLoop nb inb n 0 (int8 (((((at_ inb 0).toNat % 64) ||| 1 : Nat)) : Int))

/-- The digit chosen by `scalar_wnaf` for a window, lines 3344-3346. -/
def wnafDigit (window : Int) : Int :=
  let d : Int := 0
  if window % 2 ≠ 0 then
    let d := int8 (window % 64)
    if d / 32 % 2 ≠ 0 then int8 (d - 64) else d
  else d

/-- The loop of `scalar_wnaf`, lines 3343-3350. -/
def wnafLoop (nb : Nat) (inb : Bytes) : Nat → Nat → Int → List Int
  | 0, _, _ => []
  | fuel + 1, i, window =>
    let d := wnafDigit window
    let window := int8 ((window - d) / 2)
    let window := int8 (window + scalar_get_bit nb inb ((i : Int) + 1 + 5) * 32)
    d :: wnafLoop nb inb fuel (i + 1) window

/-- `scalar_wnaf`, lines 3338-3351 (lines 4367-4380 of the 512-bit file): `n` is the bound of the loop (257 or 513). -/
def scalar_wnaf (nb n : Nat) (inb : Bytes) : List Int :=
  wnafLoop nb inb n 0 (int8 (((at_ inb 0).toNat % 64 : Nat) : Int))

end Gost
