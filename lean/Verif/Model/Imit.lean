import Verif.Model.GostModes

/-!
# The GOST 28147-89 MAC digest (`gost_imit_*` in `/repo/gost_crypt.c`)
-/

namespace Gost

/-- `struct ossl_gost_imit_ctx`, `/repo/gost_lcl.h` lines 226-235. -/
structure ImitCtx where
  cctx : Ctx
  buffer : Bytes
  partial_block : Bytes
  count : Nat
  key_meshing : Bool
  bytes_left : Nat
  key_set : Bool
  dgst_size : Nat

/-- `gost_imit_init`, `/repo/gost_crypt.c` lines 1487-1498 (`key_set` is not touched). -/
def gost_imit_init (c : ImitCtx) (block : SubstBlock) : ImitCtx :=
  { c with buffer := zeros 8, partial_block := zeros 8, count := 0, bytes_left := 0, key_meshing := true,
           dgst_size := 4, cctx := gost_init c.cctx block }

/-- `mac_block_mesh`, `/repo/gost_crypt.c` lines 1510-1524. -/
def mac_block_mesh (c : ImitCtx) (data : Bytes) : ImitCtx :=
  let c := if c.key_meshing = true ∧ c.count = 1024 then { c with cctx := cryptopro_key_meshing_noiv c.cctx } else c
  { c with buffer := mac_block c.cctx c.buffer data, count := c.count % 1024 + 8 }

/-- The loop filling `partial_block`, `/repo/gost_crypt.c` lines 1537-1539: returns the final `i`, the buffer,
the unread input. -/
def imitFill : Nat → Bytes → Bytes → Nat × Bytes × Bytes
  | i, pb, [] => (i, pb, [])
  | i, pb, x :: xs => if i < 8 then imitFill (i + 1) (pb.set i x) xs else (i, pb, x :: xs)

/-- The loop `while (bytes > 8)`, `/repo/gost_crypt.c` lines 1547-1551. -/
def imitLoop (c : ImitCtx) (p : Bytes) : ImitCtx × Bytes :=
  if _h : 8 < p.length then imitLoop (mac_block_mesh c (p.take 8)) (p.drop 8) else (c, p)
termination_by p.length
decreasing_by simp; omega

/-- Lines 1547-1556 of `gost_imit_update`. -/
def imitRest (c : ImitCtx) (p : Bytes) : ImitCtx :=
  let r := imitLoop c p
  { r.1 with partial_block := r.2 ++ r.1.partial_block.drop r.2.length, bytes_left := r.2.length }

/-- `gost_imit_update`, `/repo/gost_crypt.c` lines 1526-1557: new context and return value. -/
def gost_imit_update (c : ImitCtx) (data : Bytes) : ImitCtx × Int :=
  if ¬ c.key_set then (c, 0)
  else if c.bytes_left ≠ 0 then
    let r := imitFill c.bytes_left c.partial_block data
    let c := { c with partial_block := r.2.1 }
    if r.1 = 8 then (imitRest (mac_block_mesh c c.partial_block) r.2.2, 1)
    else ({ c with bytes_left := r.1 }, 1)
  else (imitRest c data, 1)

/-- `gost_imit_final`, `/repo/gost_crypt.c` lines 1559-1580: `none` without a key, else the MAC. -/
def gost_imit_final (c : ImitCtx) : Option Bytes :=
  if ¬ c.key_set then none
  else
    let c := if c.count = 0 ∧ c.bytes_left ≠ 0 then (gost_imit_update c (zeros 8)).1 else c
    let c := if c.bytes_left ≠ 0 then
        let c := { c with partial_block := c.partial_block.take c.bytes_left ++ zeros (8 - c.bytes_left) }
        mac_block_mesh c c.partial_block
      else c
    some (get_mac c.buffer (8 * c.dgst_size))

/-- `gost_imit_ctrl`, `EVP_MD_CTRL_SET_KEY`, `/repo/gost_crypt.c` lines 1588-1621: initialise again, then set
the key: with `arg == 0` a `gost_mac_key` (key and optional parameter set), with `arg == 32` raw key bytes
(`param = none`). `initBlock` is the S-box block of the digest's own init callback. -/
def gost_imit_set_key (c : ImitCtx) (initBlock : SubstBlock) (param : Option SubstBlock) (key : Bytes) : ImitCtx :=
  let c := gost_imit_init c initBlock
  let c := match param with
    | some b => { c with cctx := gost_init c.cctx b }
    | none => c
  { c with cctx := gost_key c.cctx key, key_set := true }

/-- `gost_imit_ctrl`, `EVP_MD_CTRL_XOF_LEN`, `/repo/gost_crypt.c` lines 1622-1631. -/
def gost_imit_set_len (c : ImitCtx) (arg : Int) : ImitCtx × Int :=
  if arg < 1 ∨ arg > 8 then (c, 0) else ({ c with dgst_size := arg.toNat }, 1)

/-- A digest context as EVP allocates it. -/
def freshImit (rng : Nat → Fin 8 → W32) : ImitCtx where
  cctx := { key := fun _ => 0, mask := fun _ => 0, rng := rng
            box := { k87 := fun _ => 0, k65 := fun _ => 0, k43 := fun _ => 0, k21 := fun _ => 0 } }
  buffer := zeros 8
  partial_block := zeros 8
  count := 0
  key_meshing := false
  bytes_left := 0
  key_set := false
  dgst_size := 0

end Gost
