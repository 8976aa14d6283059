import Verif.Model.Gost89
import Verif.Model.Kuznyechik

/-!
# What an observer of the memory accesses sees of the block ciphers

`gostcrypt`, `magmacrypt` (`/repo/gost89.c`) and `grasshopper_encrypt_block` (`/repo/gost_grasshopper_core.c`) have no branch that
depends on data, but they read tables at indices computed from the key.  Here they are written with the list of their table
accesses, in the order of the C code (each `|` and each round from left to right; C leaves the order within one expression
open).  The words of the key, the mask and the buffers are at fixed places; those accesses are not listed.
-/

namespace Gost

/-- An access to a table of substitutions: which table, and the index. -/
inductive Lookup where
  /-- `c->k87[i]`, `c->k65[i]`, `c->k43[i]`, `c->k21[i]` -/
  | k87 (i : Byte)
  | k65 (i : Byte)
  | k43 (i : Byte)
  | k21 (i : Byte)
  /-- `grasshopper_pil_enc128[row][i]` -/
  | pil (row : Nat) (i : Byte)
  deriving DecidableEq, Repr

/-- `f`, `/repo/gost89.c` lines 269-275, with its accesses. -/
def fT (c : KBox) (x : W32) : W32 × List Lookup :=
  let i87 : Byte := (x >>> 24 &&& 255).setWidth 8
  let i65 : Byte := (x >>> 16 &&& 255).setWidth 8
  let i43 : Byte := (x >>> 8 &&& 255).setWidth 8
  let i21 : Byte := (x &&& 255).setWidth 8
  let y := c.k87 i87 ||| c.k65 i65 ||| c.k43 i43 ||| c.k21 i21
  (y <<< 11 ||| y >>> (32 - 11), [.k87 i87, .k65 i65, .k43 i43, .k21 i21])

/-- One pair of lines of the round sequence, `/repo/gost89.c` lines 285-286, with its accesses appended. -/
def round2T (c : Ctx) (a : (W32 × W32) × List Lookup) (ij : Fin 8 × Fin 8) : (W32 × W32) × List Lookup :=
  let n1 := a.1.1
  let n2 := a.1.2
  let r := fT c.box (n1 + c.key ij.1 + c.mask ij.1)
  let n2 := n2 ^^^ r.1
  let r' := fT c.box (n2 + c.key ij.2 + c.mask ij.2)
  let n1 := n1 ^^^ r'.1
  ((n1, n2), a.2 ++ r.2 ++ r'.2)

/-- `gostcrypt`, `/repo/gost89.c` lines 278-329: the output block and the accesses. -/
def gostcryptT (c : Ctx) (inp : Bytes) : Bytes × List Lookup :=
  let s := encSched.foldl (round2T c) (loadLE inp, [])
  (storeLE s.1.2 s.1.1, s.2)

/-- `magmacrypt`, `/repo/gost89.c` lines 332-383. -/
def magmacryptT (c : Ctx) (inp : Bytes) : Bytes × List Lookup :=
  let s := encSched.foldl (round2T c) (loadBE inp, [])
  (storeBE s.1.2 s.1.1, s.2)

/-- `grasshopper_append128multi` with the table `grasshopper_pil_enc128`, `/repo/gost_grasshopper_math.h` lines 98-111. -/
def append128multiT (x : Bytes) : Bytes × List Lookup :=
  (List.range 16).foldl (fun a i =>
    (xorB a.1 (grasshopper_pil_enc128 i (at_ x i)), a.2 ++ [Lookup.pil i (at_ x i)])) (zeros 16, [])

/-- `grasshopper_encrypt_block`, `/repo/gost_grasshopper_core.c` lines 102-113. -/
def grasshopper_encrypt_blockT (subkeys : Nat → Bytes) (source : Bytes) : Bytes × List Lookup :=
  let s := (List.range 9).foldl (fun (a : Bytes × List Lookup) i =>
    let r := append128multiT (xorB a.1 (subkeys i))
    (r.1, a.2 ++ r.2)) (source, [])
  (xorB s.1 (subkeys 9), s.2)

end Gost
