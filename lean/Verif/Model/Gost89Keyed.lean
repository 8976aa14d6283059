import Verif.Model.Gost89

/-!
# The block functions of the library as functions of a 32-byte key

Used to state the properties of the modes: `gost_key_nomask`/`magma_key` with mask 0, then the
block function (`/repo/gost89.c` lines 278-490, 576-592).  C02 and C03 show that any mask gives
the same functions, C54 that they are the ones of the standard.
-/

namespace Gost

/-- A context holding the 32-byte key `k` without mask. -/
def keyCtx (box : KBox) (k : Bytes) : Ctx :=
  gost_key_nomask { key := fun _ => 0, mask := fun _ => 0, box := box, rng := fun _ _ => 0 } k

/-- A context holding the 32-byte Magma key `k`, mask 0. -/
def magmaKeyCtx (box : KBox) (k : Bytes) : Ctx :=
  magma_key { key := fun _ => 0, mask := fun _ => 0, box := box, rng := fun _ _ => 0 } k

/-- GOST 28147-89 block encryption under a 32-byte key. -/
@[irreducible] def E89 (box : KBox) (k b : Bytes) : Bytes := gostcrypt (keyCtx box k) b
/-- GOST 28147-89 block decryption under a 32-byte key. -/
@[irreducible] def D89 (box : KBox) (k b : Bytes) : Bytes := gostdecrypt (keyCtx box k) b
/-- Magma block encryption under a 32-byte key. -/
@[irreducible] def EMagma (box : KBox) (k b : Bytes) : Bytes := magmacrypt (magmaKeyCtx box k) b
/-- Magma block decryption under a 32-byte key. -/
@[irreducible] def DMagma (box : KBox) (k b : Bytes) : Bytes := magmadecrypt (magmaKeyCtx box k) b
/-- MAC step (`mac_block`) under a 32-byte key: state, block. -/
@[irreducible] def M89 (box : KBox) (k s b : Bytes) : Bytes := mac_block (keyCtx box k) s b

end Gost
