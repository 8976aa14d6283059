import Verif.Spec.Modes

/-!
# Specification of OMAC-ACPKM (R 1323565.1.017-2018, RFC 8645 section 6.3.6)

`n = 16` bytes is the block size, `N` the section size in bytes (a multiple of `n`), `T` the section size of the
ACPKM-Master keystream.
-/

namespace Gost.Spec

/-- Multiplication by `x` in GF(2^128) with `x^128 + x^7 + x^2 + x + 1` on a 16-byte string read big-endian: the
derivation of the second OMAC key from the first. -/
def dbl128 (k : Blk) : Blk :=
  let v := 2 * beNat k
  beBytes 16 (if v < 2^128 then v else Nat.xor (v - 2^128) 0x87)

/-- Key material number `i` (48 bytes, `K^i || K^i_1`): bytes `48 i .. 48 i + 47` of the CTR-ACPKM gamma under the master
key with the IV `1^64 || 0^64`. -/
def omacMaterial (E : Blk → Blk → Blk) (T : Nat) (key : Blk) (i : Nat) : Blk :=
  let gamma : Nat → Blk := fun j =>
    E (iter (acpkm 16 E) (16 * j / T) key) (ctrBlock 16 (List.replicate 8 0xff ++ List.replicate 8 0) j)
  gamma (3 * i) ++ gamma (3 * i + 1) ++ gamma (3 * i + 2)

/-- CBC-MAC state over blocks numbered from `j`: block `j` is processed under key number `⌊16 j / N⌋`. -/
def omacFold (E : Blk → Blk → Blk) (N : Nat) (km : Nat → Blk) (j : Nat) (s : Blk) : List Blk → Blk
  | [] => s
  | b :: bs => omacFold E N km (j + 1) (E ((km (16 * j / N)).take 32) (xor s b)) bs

/-- The message split into all blocks but the last and the last block (1 to 16 bytes, or empty for an empty message). -/
def omacSplit (m : Blk) : List Blk × Blk :=
  let full := (m.length - 1) / 16
  (blocks 16 (m.take (16 * full)), m.drop (16 * full))

/-- The tag (16 bytes). -/
def omacAcpkm (E : Blk → Blk → Blk) (N T : Nat) (key m : Blk) : Blk :=
  let km := omacMaterial E T key
  let bs := (omacSplit m).1
  let last := (omacSplit m).2
  let k := km (16 * bs.length / N)
  let fin := if last.length = 16 then xor last (k.drop 32)
    else xor (last ++ [0x80] ++ List.replicate (15 - last.length) 0) (dbl128 (k.drop 32))
  E (k.take 32) (xor (omacFold E N km 0 (List.replicate 16 0) bs) fin)

end Gost.Spec
