import Verif.Spec.Modes

/-!
# Specification of MGM (Multilinear Galois Mode, R 1323565.1.026-2019, RFC 9058)

Written from the standard, for a block cipher `E` on blocks of `bl` bytes and a multiplication `mul` in GF(2^n), `n = 8 bl`.
-/

namespace Gost.Spec

/-- `incr_r`: the right half of the block, as an integer, plus 1 modulo `2^(n/2)`. -/
def incrR (bl : Nat) (b : Blk) : Blk := b.take (bl / 2) ++ beBytes (bl / 2) (beNat (b.drop (bl / 2)) + 1)

/-- `incr_l`: the left half plus 1. -/
def incrL (bl : Nat) (b : Blk) : Blk := beBytes (bl / 2) (beNat (b.take (bl / 2)) + 1) ++ b.drop (bl / 2)

/-- `0^1 || ICN`: the nonce with its first bit set to 0. -/
def nonce0 : Blk → Blk
  | [] => []
  | x :: xs => (x &&& 0x7f#8) :: xs

/-- `1^1 || ICN`: the nonce with its first bit set to 1. -/
def nonce1 : Blk → Blk
  | [] => []
  | x :: xs => (x ||| 0x80#8) :: xs

/-- Pad with zeros to a full number of blocks, and split. -/
def padBlocks (bl : Nat) (d : Blk) : List Blk := (blocks bl d).map fun b => b ++ List.replicate (bl - b.length) 0

/-- `len(A) || len(C)`: the bit lengths on half a block each. -/
def lenBlock (bl a c : Nat) : Blk := beBytes (bl / 2) (8 * a) ++ beBytes (bl / 2) (8 * c)

/-- Gamma block `i` of the encryption: `E(Y_{i+1})`, `Y_1 = E(0 || ICN)`, `Y_{i+1} = incr_r(Y_i)`. -/
def mgmGamma (bl : Nat) (E : Blk → Blk) (nonce : Blk) (i : Nat) : Blk := E (iter (incrR bl) i (E (nonce0 nonce)))

/-- `H_{i+1} = E(Z_{i+1})`, `Z_{i+1} = incr_l(Z_i)`, from the starting value `Z_1 = z`. -/
def mgmH (bl : Nat) (E : Blk → Blk) (z : Blk) (i : Nat) : Blk := E (iter (incrL bl) i z)

/-- `⊕ H_i ⊗ B_i` over the list of blocks. -/
def mgmSum (bl : Nat) (E : Blk → Blk) (mul : Blk → Blk → Blk) (z : Blk) (bs : List Blk) : Blk :=
  (bs.mapIdx fun i b => mul (mgmH bl E z i) b).foldl xor (List.replicate bl 0)

/-- The full-length tag for the starting value `z` of the authentication counter. -/
def mgmTagFrom (bl : Nat) (E : Blk → Blk) (mul : Blk → Blk → Blk) (z a c : Blk) : Blk :=
  E (mgmSum bl E mul z (padBlocks bl a ++ padBlocks bl c ++ [lenBlock bl a.length c.length]))

/-- The full-length tag of MGM: `Z_1 = E(1 || ICN)`. -/
def mgmTag (bl : Nat) (E : Blk → Blk) (mul : Blk → Blk → Blk) (nonce a c : Blk) : Blk :=
  mgmTagFrom bl E mul (E (nonce1 nonce)) a c

/-- MGM encryption: the ciphertext. -/
def mgmCrypt (bl : Nat) (E : Blk → Blk) (nonce p : Blk) : Blk := xorStream bl (mgmGamma bl E nonce) p

end Gost.Spec

namespace Gost.Spec

/-- The per-nonce limit in bytes: `2^(n/2)` bits. -/
def mgmLimit (bl : Nat) : Nat := 2 ^ (bl * 4 - 3)

/-- Which of a sequence of calls are accepted — associated data (`false`) before any message data, everything within the
limit `L` —, with the associated data and the message accepted in total and the return value of each call (the number of bytes,
or -1 for a refused call). -/
def mgmAccepted (L : Nat) : Blk → Blk → List (Bool × Blk) → Blk × Blk × List Int
  | a, p, [] => (a, p, [])
  | a, p, (false, d) :: cs =>
    if p = [] ∧ a.length + d.length ≤ L then
      let r := mgmAccepted L (a ++ d) p cs
      (r.1, r.2.1, d.length :: r.2.2)
    else
      let r := mgmAccepted L a p cs
      (r.1, r.2.1, -1 :: r.2.2)
  | a, p, (true, d) :: cs =>
    if a.length + p.length + d.length ≤ L then
      let r := mgmAccepted L a (p ++ d) cs
      (r.1, r.2.1, d.length :: r.2.2)
    else
      let r := mgmAccepted L a p cs
      (r.1, r.2.1, -1 :: r.2.2)

end Gost.Spec
