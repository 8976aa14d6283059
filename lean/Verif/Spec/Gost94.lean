import Verif.Spec.Modes

/-!
# Specification of GOST R 34.11-94 (RFC 5831)

`E key block` is the GOST 28147-89 block encryption.  A 256-bit vector is a list of 32 bytes, least significant first.
-/

namespace Gost.Spec.G94

/-- A(x4 || x3 || x2 || x1) = (x1 ⊕ x2) || x4 || x3 || x2 (64-bit words). -/
def A (x : Blk) : Blk := x.drop 8 ++ xor (x.take 8) ((x.drop 8).take 8)

/-- P: byte `φ(i + 1 + 4(k-1)) = 8i + k`, `i = 0..3`, `k = 1..8`. -/
def P (x : Blk) : Blk := (List.range 32).map fun n => x.getD (8 * (n % 4) + n / 4) 0

/-- The constant C_3 (C_2 = C_4 = 0). -/
def C3 : Blk := leBytes 32 0xff00ffff000000ffff0000ff00ffff0000ff00ff00ff00ffff00ff00ff00ff00

/-- The pairs (U, V) the four keys are made of: (H, M), (A(H), A²(M)), (A²(H) ⊕ C_3, A⁴(M)), (A(A²(H) ⊕ C_3), A⁶(M)). -/
def UV (H M : Blk) : List (Blk × Blk) :=
  let u2 := A H
  let v2 := A (A M)
  let u3 := xor (A u2) C3
  let v3 := A (A v2)
  let u4 := A u3
  let v4 := A (A v3)
  [(H, M), (u2, v2), (u3, v3), (u4, v4)]

/-- The keys K_j = P(U_j ⊕ V_j). -/
def keys (H M : Blk) : List Blk := (UV H M).map fun p => P (xor p.1 p.2)

/-- The enciphering transformation: each quarter of H under its key. -/
def cipher (E : Blk → Blk → Blk) (H M : Blk) : Blk :=
  (List.zipWith E (keys H M) [H.take 8, (H.drop 8).take 8, (H.drop 16).take 8, H.drop 24]).flatten

/-- ψ: the 16-bit words move down, the new upper word is y1 ⊕ y2 ⊕ y3 ⊕ y4 ⊕ y13 ⊕ y16. -/
def psi (y : Blk) : Blk :=
  let w (i : Nat) := (y.drop (2 * (i - 1))).take 2
  y.drop 2 ++ xor (xor (xor (xor (xor (w 1) (w 2)) (w 3)) (w 4)) (w 13)) (w 16)

/-- The step function χ(M, H) = ψ^61(H ⊕ ψ(M ⊕ ψ^12(S))). -/
def chi (E : Blk → Blk → Blk) (H M : Blk) : Blk :=
  iter psi 61 (xor H (psi (xor M (iter psi 12 (cipher E H M)))))

/-- The blocks of a message: padded with zeros to a multiple of 32 bytes; the empty message has one block. -/
def msgBlocks (m : Blk) : List Blk :=
  if m = [] then [List.replicate 32 0] else blocks 32 (m ++ List.replicate ((32 - m.length % 32) % 32) 0)

/-- The hash: all blocks, then the bit length, then the sum of the blocks modulo 2^256; start value 0. -/
def hash (E : Blk → Blk → Blk) (m : Blk) : Blk :=
  let h := (msgBlocks m).foldl (chi E) (List.replicate 32 0)
  let h := chi E h (leBytes 32 (8 * m.length))
  chi E h (leBytes 32 (((msgBlocks m).map leNat).sum))

end Gost.Spec.G94
