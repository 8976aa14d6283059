import Verif.Model.Basic

/-!
# Independent specification of GOST 28147-89 / GOST R 34.12-2015 (Magma)

Written from the standard, not from the code: substitution of eight nibbles,
rotation by 11, a 32-round Feistel network with the key order
k0..k7, k0..k7, k0..k7, k7..k0 and no swap in the last round.
Nothing here refers to the model of the C code.
-/

namespace Gost.Spec

/-- Eight substitution rows; row `i` substitutes nibble `i` (nibble 0 is the least significant). -/
abbrev Subst := Fin 8 → BitVec 4 → BitVec 4

/-- Nibble `i` of a word (bits `4i .. 4i+3`). -/
def nibble (w : BitVec 32) (i : Fin 8) : BitVec 4 := w.extractLsb' (4 * i.val) 4

/-- The substitution layer, defined by its effect on nibbles. -/
def IsSubst (S : Subst) (x y : BitVec 32) : Prop := ∀ i, nibble y i = S i (nibble x i)

/-- One Feistel round of the standard: `(a1, a0) ↦ (a0, a1 ⊕ g(a0 + k))`. -/
def round (g : BitVec 32 → BitVec 32) (s : BitVec 32 × BitVec 32) (k : BitVec 32) :
    BitVec 32 × BitVec 32 :=
  (s.2, s.1 ^^^ g (s.2 + k))

/-- The 32 round keys in order. -/
def roundKeys (k : Fin 8 → BitVec 32) : List (BitVec 32) :=
  [k 0, k 1, k 2, k 3, k 4, k 5, k 6, k 7, k 0, k 1, k 2, k 3, k 4, k 5, k 6, k 7,
   k 0, k 1, k 2, k 3, k 4, k 5, k 6, k 7, k 7, k 6, k 5, k 4, k 3, k 2, k 1, k 0]

/-- Encryption of `(a1, a0)` (high word, low word): 32 rounds, halves exchanged at the end
because the last round of the standard does not swap. -/
def encrypt (g : BitVec 32 → BitVec 32) (k : Fin 8 → BitVec 32) (a1 a0 : BitVec 32) :
    BitVec 32 × BitVec 32 :=
  ((roundKeys k).foldl (round g) (a1, a0)).swap

/-- Four bytes of a word, most significant first. -/
def wordBE (w : BitVec 32) : List (BitVec 8) :=
  [w.extractLsb' 24 8, w.extractLsb' 16 8, w.extractLsb' 8 8, w.extractLsb' 0 8]

/-- Four bytes of a word, least significant first. -/
def wordLE (w : BitVec 32) : List (BitVec 8) :=
  [w.extractLsb' 0 8, w.extractLsb' 8 8, w.extractLsb' 16 8, w.extractLsb' 24 8]

/-- The integer encoded by a byte string, most significant byte first. -/
def beNat : List (BitVec 8) → Nat := List.foldl (fun n b => 256 * n + b.toNat) 0

/-- The integer encoded by a byte string, least significant byte first. -/
def leNat : List (BitVec 8) → Nat
  | [] => 0
  | b :: bs => b.toNat + 256 * leNat bs

end Gost.Spec
