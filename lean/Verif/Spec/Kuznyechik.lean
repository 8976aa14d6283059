import Verif.Spec.Modes

/-!
# Specification of Kuznyechik (GOST R 34.12-2015, section 5) and of multiplication in GF(2^n)

Written from the standard; independent of the model of the code.  A 128-bit block
`a_15 || ... || a_0` is the list `[a_15, ..., a_0]`.
-/

namespace Gost.Spec

/-- Multiplication by `x` in GF(2)[x] modulo `x^n + c(x)`. -/
def xtime {n : Nat} (c a : BitVec n) : BitVec n := (a <<< 1) ^^^ (if a.msb then c else 0)

/-- Multiplication modulo `x^n + c(x)`: the sum of `b_i · x^i · a`. (`C06_`/`C22_` theorems relate it to
multiplication of polynomials over `ZMod 2`.) -/
def gfMul {n : Nat} (c a b : BitVec n) : BitVec n :=
  ((List.range n).foldl (fun s i => (if b.getLsbD i then s.1 ^^^ s.2 else s.1, xtime c s.2)) (0, a)).1

namespace Kuz

/-- The field of the transformation ℓ: GF(2)[x]/(x^8 + x^7 + x^6 + x + 1). -/
abbrev mul (a b : BitVec 8) : BitVec 8 := gfMul 0xC3#8 a b

/-- The substitution π' of section 5.1.1. -/
def piTable : List (BitVec 8) :=
  [252, 238, 221, 17, 207, 110, 49, 22, 251, 196, 250, 218, 35, 197, 4, 77, 233, 119, 240, 219, 147, 46, 153, 186,
   23, 54, 241, 187, 20, 205, 95, 193, 249, 24, 101, 90, 226, 92, 239, 33, 129, 28, 60, 66, 139, 1, 142, 79, 5, 132,
   2, 174, 227, 106, 143, 160, 6, 11, 237, 152, 127, 212, 211, 31, 235, 52, 44, 81, 234, 200, 72, 171, 242, 42, 104,
   162, 253, 58, 206, 204, 181, 112, 14, 86, 8, 12, 118, 18, 191, 114, 19, 71, 156, 183, 93, 135, 21, 161, 150, 41,
   16, 123, 154, 199, 243, 145, 120, 111, 157, 158, 178, 177, 50, 117, 25, 61, 255, 53, 138, 126, 109, 84, 198, 128,
   195, 189, 13, 87, 223, 245, 36, 169, 62, 168, 67, 201, 215, 121, 214, 246, 124, 34, 185, 3, 224, 15, 236, 222,
   122, 148, 176, 188, 220, 232, 40, 80, 78, 51, 10, 74, 167, 151, 96, 115, 30, 0, 98, 68, 26, 184, 56, 130, 100,
   159, 38, 65, 173, 69, 70, 146, 39, 94, 85, 47, 140, 163, 165, 125, 105, 213, 149, 59, 7, 88, 179, 64, 134, 172,
   29, 247, 48, 55, 107, 228, 136, 217, 231, 137, 225, 27, 131, 73, 76, 63, 248, 254, 141, 83, 170, 144, 202, 216,
   133, 97, 32, 113, 103, 164, 45, 43, 9, 91, 203, 155, 37, 208, 190, 229, 108, 82, 89, 166, 116, 210, 230, 244,
   180, 192, 209, 102, 175, 194, 57, 75, 99, 182]

def pi (x : BitVec 8) : BitVec 8 := piTable.getD x.toNat 0

/-- Coefficients of ℓ for `a_15, ..., a_0` (section 5.1.2). -/
def lCoef : List (BitVec 8) := [148, 32, 133, 16, 194, 192, 1, 251, 1, 192, 194, 16, 133, 32, 148, 1]

/-- ℓ(a_15, ..., a_0). -/
def ell (a : Blk) : BitVec 8 := (List.zipWith mul a lCoef).foldl (· ^^^ ·) 0

/-- R(a_15 || ... || a_0) = ℓ(a_15, ..., a_0) || a_15 || ... || a_1. -/
def R (a : Blk) : Blk := ell a :: a.take 15

/-- L = R^16. -/
def L (a : Blk) : Blk := iter R 16 a

/-- S. -/
def S (a : Blk) : Blk := a.map pi

/-- X[k]. -/
def X (k a : Blk) : Blk := xor k a

/-- LSX[k]. -/
def LSX (k a : Blk) : Blk := L (S (X k a))

/-- The iteration constants C_i = L(Vec_128(i)). -/
def C (i : Nat) : Blk := L (beBytes 16 i)

/-- F[k](a_1, a_0) = (LSX[k](a_1) ⊕ a_0, a_1). -/
def F (k : Blk) (p : Blk × Blk) : Blk × Blk := (xor (LSX k p.1) p.2, p.1)

/-- The pair (K_{2j+1}, K_{2j+2}). -/
def keyPair (key : Blk) : Nat → Blk × Blk
  | 0 => (key.take 16, key.drop 16)
  | j + 1 => (List.range' (8 * j + 1) 8).foldl (fun p i => F (C i) p) (keyPair key j)

/-- The iteration key K_n, 1 ≤ n ≤ 10. -/
def K (key : Blk) (n : Nat) : Blk := if n % 2 = 1 then (keyPair key ((n - 1) / 2)).1 else (keyPair key ((n - 1) / 2)).2

/-- E(a) = X[K_10] LSX[K_9] ... LSX[K_1](a). -/
def encrypt (key a : Blk) : Blk :=
  X (K key 10) ((List.range' 1 9).foldl (fun a n => LSX (K key n) a) a)

end Kuz

end Gost.Spec
