import Verif.Spec.Modes

/-!
# Specification of the GOST 28147-89 MAC (imitovstavka)

`M k s b` is the MAC step: 16 rounds of the cipher under key `k` applied to `s ⊕ b`.
-/

namespace Gost.Spec

/-- 16 rounds of the network (the MAC step): keys `k0..k7, k0..k7`.  Input and result `(a1, a0)`. -/
def macRounds (g : BitVec 32 → BitVec 32) (k : Fin 8 → BitVec 32) (a1 a0 : BitVec 32) : BitVec 32 × BitVec 32 :=
  ((roundKeys k).take 16).foldl (round g) (a1, a0)

/-- MAC state over a list of blocks, without key meshing. -/
def macFold (M : Blk → Blk → Blk) (s : Blk) (bs : List Blk) : Blk := bs.foldl M s

/-- MAC state over a list of blocks with CryptoPro key meshing of the key before the blocks starting at byte
`1024·k`, `k ≥ 1` (the state is not meshed); `j` is the number of the next block. -/
def macMeshFold (M : Blk → Blk → Blk → Blk) (mesh : Blk → Blk) (k : Blk) (j : Nat) (s : Blk) : List Blk → Blk
  | [] => s
  | b :: bs =>
    let k := if j ≠ 0 ∧ (8 * j) % 1024 = 0 then mesh k else k
    macMeshFold M mesh k (j + 1) (M k s b) bs

/-- The blocks MACed for a message: the message padded with zeros to whole blocks; a one-block message (that is,
of 1 to 8 bytes) is followed by a zero block. -/
def macBlocks (m : Blk) : List Blk :=
  let padded := m ++ List.replicate ((8 - m.length % 8) % 8) 0
  blocks 8 padded ++ (if 0 < m.length ∧ m.length ≤ 8 then [List.replicate 8 0] else [])

end Gost.Spec
