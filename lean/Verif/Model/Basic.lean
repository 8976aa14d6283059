/-!
# Bytes, buffers and words

Conventions shared by all model files.  A C `unsigned char` is `Byte`, a C
`word32`/`uint32_t` is `W32`.  A buffer is a list of bytes.
-/

namespace Gost

/-- C `unsigned char` / `byte` (`/repo/gost89.h` line 20). -/
abbrev Byte := BitVec 8

/-- A buffer of bytes. -/
abbrev Bytes := List Byte

/-- C `word32` / `u4` (`/repo/gost89.h`): 32-bit unsigned, arithmetic modulo 2^32. -/
abbrev W32 := BitVec 32

/-- C `uint64_t`. -/
abbrev W64 := BitVec 64

/-- `buf[i]` for a buffer `buf`; reads outside the buffer never happen for
buffers of the expected length, the default 0 is arbitrary. -/
abbrev at_ (b : Bytes) (i : Nat) : Byte := b.getD i 0

/-- The loop `for (j...) out[j] = a[j] ^ b[j]`: byte-wise XOR. -/
def xorB (a b : Bytes) : Bytes := List.zipWith (· ^^^ ·) a b

/-- `memset(p, 0, n)`: a buffer of `n` zero bytes. -/
def zeros (n : Nat) : Bytes := List.replicate n 0

/-- The C expression `b0 | (b1 << 8) | (b2 << 16) | ((word32) b3 << 24)`. -/
def le32 (b0 b1 b2 b3 : Byte) : W32 :=
  b0.setWidth 32 ||| (b1.setWidth 32 <<< 8) ||| (b2.setWidth 32 <<< 16) ||| (b3.setWidth 32 <<< 24)

/-- The C cast `(byte) ((w >> 8*i) & 0xff)`. -/
def byteOf (w : W32) (i : Nat) : Byte := (w >>> (8 * i)).setWidth 8

end Gost
