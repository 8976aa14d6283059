import Verif.Model.KuzTables

/-!
# Kuznyechik (`/repo/gost_grasshopper_core.c`, `/repo/gost_grasshopper_math.h`)

A `grasshopper_w128_t` is the list of its 16 bytes `b[0] .. b[15]`.  The copies and XORs done in
64-bit parts are byte-wise copies and XORs.
-/

namespace Gost

/-- `table[i]` for a packed byte table. -/
def tab8 (packed : Nat) (i : Nat) : Byte := BitVec.ofNat 8 (packed >>> (8 * i))

/-- The 16 bytes of entry `x` of a packed row. -/
def tab128 (packed : Nat) (x : Nat) : Bytes :=
  (List.range 16).map fun j => BitVec.ofNat 8 (packed >>> (128 * x + 8 * j))

/-- `grasshopper_pi[x]`, `/repo/gost_grasshopper_defines.c` lines 14-47. -/
def grasshopper_pi (x : Byte) : Byte := tab8 grasshopper_pi_packed x.toNat
/-- `grasshopper_pi_inv[x]`, `/repo/gost_grasshopper_defines.c` lines 51-84. -/
def grasshopper_pi_inv (x : Byte) : Byte := tab8 grasshopper_pi_inv_packed x.toNat
/-- `grasshopper_lvec[i]`, `/repo/gost_grasshopper_defines.c` lines 87-91. -/
def grasshopper_lvec (i : Nat) : Byte := tab8 grasshopper_lvec_packed i
/-- `grasshopper_pil_enc128[i][x]`, `/repo/gost_grasshopper_precompiled.c` line 10. -/
def grasshopper_pil_enc128 (i : Nat) (x : Byte) : Bytes := tab128 (grasshopper_pil_enc128_rows i) x.toNat
/-- `grasshopper_pil_dec128[i][x]`, `/repo/gost_grasshopper_precompiled.c` line 12332. -/
def grasshopper_pil_dec128 (i : Nat) (x : Byte) : Bytes := tab128 (grasshopper_pil_dec128_rows i) x.toNat
/-- `grasshopper_l_dec128[i][x]`, `/repo/gost_grasshopper_precompiled.c` line 24654. -/
def grasshopper_l_dec128 (i : Nat) (x : Byte) : Bytes := tab128 (grasshopper_l_dec128_rows i) x.toNat

/-- `grasshopper_galois_mul`, `/repo/gost_grasshopper_math.h` lines 127-134. -/
def grasshopper_galois_mul (x y : Byte) : Byte :=
  if x ≠ 0 ∧ y ≠ 0 then
    tab8 grasshopper_galois_alpha_to_packed
      (((tab8 grasshopper_galois_index_of_packed x.toNat).toNat +
        (tab8 grasshopper_galois_index_of_packed y.toNat).toNat) % 255)
  else 0

/-- Body of the loop `for (i = 14; i >= 0; i--)` of `grasshopper_l`,
`/repo/gost_grasshopper_core.c` lines 26-29; state: the block and `x`. -/
def lInner (s : Bytes × Byte) (i : Nat) : Bytes × Byte :=
  (s.1.set (i + 1) (at_ s.1 i), s.2 ^^^ grasshopper_galois_mul (at_ s.1 i) (grasshopper_lvec i))

/-- One of the 16 rounds of `grasshopper_l`, `/repo/gost_grasshopper_core.c` lines 20-31. -/
def lRound (w : Bytes) : Bytes :=
  let r := [14, 13, 12, 11, 10, 9, 8, 7, 6, 5, 4, 3, 2, 1, 0].foldl lInner (w, at_ w 15)
  r.1.set 0 r.2

/-- `grasshopper_l`, `/repo/gost_grasshopper_core.c` lines 15-32. -/
def grasshopper_l (w : Bytes) : Bytes :=
  (List.range 16).foldl (fun w _ => lRound w) w

/-- Body of the loop `for (i = 0; i < 15; i++)` of `grasshopper_l_inv`,
`/repo/gost_grasshopper_core.c` lines 41-44. -/
def lInvInner (s : Bytes × Byte) (i : Nat) : Bytes × Byte :=
  let w := s.1.set i (at_ s.1 (i + 1))
  (w, s.2 ^^^ grasshopper_galois_mul (at_ w i) (grasshopper_lvec i))

/-- One of the 16 rounds of `grasshopper_l_inv`, `/repo/gost_grasshopper_core.c` lines 39-46. -/
def lInvRound (w : Bytes) : Bytes :=
  let r := [0, 1, 2, 3, 4, 5, 6, 7, 8, 9, 10, 11, 12, 13, 14].foldl lInvInner (w, at_ w 0)
  r.1.set 15 r.2

/-- `grasshopper_l_inv`, `/repo/gost_grasshopper_core.c` lines 34-47. -/
def grasshopper_l_inv (w : Bytes) : Bytes :=
  (List.range 16).foldl (fun w _ => lInvRound w) w

/-- `grasshopper_convert128`, `/repo/gost_grasshopper_math.h` lines 113-118. -/
def grasshopper_convert128 (x : Bytes) (array : Byte → Byte) : Bytes := x.map array

/-- `grasshopper_plus128multi` (and `grasshopper_append128multi`, which stores the result in `x`),
`/repo/gost_grasshopper_math.h` lines 98-111. -/
def grasshopper_append128multi (x : Bytes) (array : Nat → Byte → Bytes) : Bytes :=
  (List.range 16).foldl (fun result i => xorB result (array i (at_ x i))) (zeros 16)

/-- State of the key schedule loop: `x`, `y` and the round keys stored so far. -/
abbrev KsState := Bytes × Bytes × (Nat → Bytes)

/-- The round constant: `c` with `c.b[15] = i`, then L. `/repo/gost_grasshopper_core.c` lines 66-69. -/
def ksConst (i : Nat) : Bytes := grasshopper_l ((zeros 16).set 15 (BitVec.ofNat 8 i))

/-- Body of the loop `for (i = 1; i <= 32; i++)`, `/repo/gost_grasshopper_core.c` lines 63-84. -/
def ksRound (s : KsState) (i : Nat) : KsState :=
  let (x, y, subkeys) := s
  let z := xorB x (ksConst i)
  let z := grasshopper_convert128 z grasshopper_pi
  let z := grasshopper_l z
  let z := xorB z y
  let y := x
  let x := z
  if i % 8 = 0 then
    let k := i / 4
    (x, y, fun n => if n = k + 1 then y else if n = k then x else subkeys n)
  else (x, y, subkeys)

/-- `grasshopper_set_encrypt_key`, `/repo/gost_grasshopper_core.c` lines 51-91: the ten round keys. -/
def grasshopper_set_encrypt_key (key : Bytes) : Nat → Bytes :=
  let x := key.take 16
  let y := (key.drop 16).take 16
  let subkeys : Nat → Bytes := fun n => if n = 1 then y else if n = 0 then x else zeros 16
  ((List.range' 1 32).foldl ksRound (x, y, subkeys)).2.2

/-- `grasshopper_set_decrypt_key`, `/repo/gost_grasshopper_core.c` lines 93-100. -/
def grasshopper_set_decrypt_key (key : Bytes) : Nat → Bytes :=
  let subkeys := grasshopper_set_encrypt_key key
  fun i => if 1 ≤ i ∧ i < 10 then grasshopper_l_inv (subkeys i) else subkeys i

/-- `grasshopper_encrypt_block`, `/repo/gost_grasshopper_core.c` lines 102-113. -/
def grasshopper_encrypt_block (subkeys : Nat → Bytes) (source : Bytes) : Bytes :=
  let target := (List.range 9).foldl (fun target i =>
    grasshopper_append128multi (xorB target (subkeys i)) grasshopper_pil_enc128) source
  xorB target (subkeys 9)

/-- `grasshopper_decrypt_block`, `/repo/gost_grasshopper_core.c` lines 115-130. -/
def grasshopper_decrypt_block (subkeys : Nat → Bytes) (source : Bytes) : Bytes :=
  let target := grasshopper_append128multi source grasshopper_l_dec128
  let target := [9, 8, 7, 6, 5, 4, 3, 2].foldl (fun target i =>
    grasshopper_append128multi (xorB target (subkeys i)) grasshopper_pil_dec128) target
  let target := xorB target (subkeys 1)
  let target := grasshopper_convert128 target grasshopper_pi_inv
  xorB target (subkeys 0)

end Gost
