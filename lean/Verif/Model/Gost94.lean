import Verif.Model.Gost89
import Verif.Model.SBoxes
import Verif.Model.Loops

/-!
# GOST R 34.11-94

`/repo/gosthash.c`, `/repo/gosthash.h`, `/repo/gost_md.c`.
-/

namespace Gost

/-- `swap_bytes`, `/repo/gosthash.c` lines 32-39 (all of `k` is overwritten). -/
def swap_bytes (w : Bytes) : Bytes :=
  (List.range 4).foldl (fun k i => (List.range 8).foldl (fun (k : Bytes) j => k.set (i + 4 * j) (at_ w (8 * i + j))) k) (zeros 32)

/-- `circle_xor8`, `/repo/gosthash.c` lines 42-50: the new contents of `k` (also when `k` is `w`). -/
def circle_xor8 (w : Bytes) : Bytes :=
  let buf := w.take 8
  let k := (w.drop 8).take 24
  k ++ (List.range 8).map fun i => at_ buf i ^^^ at_ k i

/-- `transform_3`, `/repo/gosthash.c` lines 53-61. -/
def transform_3 (data : Bytes) : Bytes :=
  let acc : BitVec 16 :=
    (at_ data 0 ^^^ at_ data 2 ^^^ at_ data 4 ^^^ at_ data 6 ^^^ at_ data 24 ^^^ at_ data 30).setWidth 16 |||
    ((at_ data 1 ^^^ at_ data 3 ^^^ at_ data 5 ^^^ at_ data 7 ^^^ at_ data 25 ^^^ at_ data 31).setWidth 16 <<< 8)
  (data.drop 2).take 30 ++ [(acc &&& 0xff#16).setWidth 8, (acc >>> 8).setWidth 8]

/-- `add_blocks`, `/repo/gosthash.c` lines 64-74: the new contents of `left` and the carry returned. -/
def add_blocks : Nat → Nat → Bytes → Bytes → Bytes × Nat
  | 0, carry, left, _ => (left, carry)
  | n + 1, carry, l :: ls, r :: rs =>
    let sum := l.toNat + r.toNat + carry
    let t := add_blocks n (sum >>> 8) ls rs
    (BitVec.ofNat 8 (sum &&& 0xff) :: t.1, t.2)
  | _ + 1, carry, left, _ => (left, carry)

/-- `xor_blocks`, `/repo/gosthash.c` lines 77-83. -/
def xor_blocks (a b : Bytes) (len : Nat) : Bytes := (List.range len).map fun i => at_ a i ^^^ at_ b i

/-- The complemented bytes of `U`, `/repo/gosthash.c` lines 108-123. -/
def complU (U : Bytes) : Bytes :=
  [31, 29, 28, 24, 23, 20, 18, 17, 14, 12, 10, 8, 7, 5, 3, 1].foldl (fun U i => U.set i (~~~ (at_ U i))) U

/-- `n` calls of `transform_3` (the loops of lines 138-139 and 143-144). -/
def transformN : Nat → Bytes → Bytes
  | 0, S => S
  | n + 1, S => transformN n (transform_3 S)

/-- The last part of `hash_step`, lines 138-145: the new `H`. -/
def mixStep (S H M : Bytes) : Bytes :=
  let S := transformN 12 S
  let S := xor_blocks S M 32
  let S := transform_3 S
  let S := xor_blocks S H 32
  transformN 61 S

/-- `hash_step`, `/repo/gosthash.c` lines 89-147: the cipher context (its key changes) and the new `H`. -/
def hash_step (c : Ctx) (H M : Bytes) : Ctx × Bytes :=
  let W := xor_blocks H M 32
  let Key := swap_bytes W
  let r1 := gost_enc_with_key c Key (H.take 8)
  let U := circle_xor8 H
  let V := circle_xor8 M
  let V := circle_xor8 V
  let W := xor_blocks U V 32
  let Key := swap_bytes W
  let r2 := gost_enc_with_key r1.1 Key ((H.drop 8).take 8)
  let U := circle_xor8 U
  let U := complU U
  let V := circle_xor8 V
  let V := circle_xor8 V
  let W := xor_blocks U V 32
  let Key := swap_bytes W
  let r3 := gost_enc_with_key r2.1 Key ((H.drop 16).take 8)
  let U := circle_xor8 U
  let V := circle_xor8 V
  let V := circle_xor8 V
  let W := xor_blocks U V 32
  let Key := swap_bytes W
  let r4 := gost_enc_with_key r3.1 Key ((H.drop 24).take 8)
  let S := r1.2 ++ r2.2 ++ r3.2 ++ r4.2
  (r4.1, mixStep S H M)

/-- `gost_hash_ctx`, `/repo/gosthash.h` (with the cipher context it points to): `len` is a 64-bit integer. -/
structure HashCtx where
  len : W64
  cctx : Ctx
  left : Nat
  H : Bytes
  S : Bytes
  remainder : Bytes

/-- `start_hash`, `/repo/gosthash.c` lines 183-192 (with a cipher context present). -/
def start_hash (c : HashCtx) : HashCtx := { c with H := zeros 32, S := zeros 32, len := 0, left := 0 }

/-- `init_gost_hash_ctx`, `/repo/gosthash.c` lines 153-164, with `gost_init`, `/repo/gost89.c` lines 623-629 (no block
given: the test parameter set); `c` is the freshly allocated cipher context (its contents are indeterminate). -/
def init_gost_hash_ctx (c : Ctx) (b : Option SubstBlock) : HashCtx :=
  { len := 0, cctx := { c with box := kboxinit (b.getD GostR3411_94_TestParamSet) }, left := 0, H := zeros 32, S := zeros 32
    remainder := zeros 32 }

/-- `gost_digest_init`, `/repo/gost_md.c` lines 81-88: `memset` of the hash context, then `gost_init`, which fills the
substitution tables of the cipher context (`c` is the cipher context found there, `/repo/gost89.c` lines 623-629). -/
def gost94_digest_init (c : Ctx) : HashCtx :=
  { len := 0, cctx := { c with box := kboxinit GostR3411_94_CryptoProParamSet }, left := 0, H := zeros 32, S := zeros 32
    remainder := zeros 32 }

/-- One block in `hash_block`: `/repo/gosthash.c` lines 216-218 and 222-225. -/
def hash_one (c : HashCtx) (blk : Bytes) : HashCtx :=
  let r := hash_step c.cctx c.H blk
  { c with cctx := r.1, H := r.2, S := (add_blocks 32 0 c.S blk).1, len := c.len + 32 }

/-- Lines 221-232 of `hash_block`. -/
def hash_tail (c : HashCtx) (block : Bytes) : HashCtx :=
  let r := whileBlocks 32 (fun c b => (hash_one c b, [])) c block
  if r.2.2.length ≠ 0 then
    { r.1 with remainder := r.2.2 ++ r.1.remainder.drop r.2.2.length, left := r.2.2.length }
  else r.1

/-- `hash_block`, `/repo/gosthash.c` lines 199-233 (`gost_digest_update`, `/repo/gost_md.c` lines 90-93). -/
def hash_block (c : HashCtx) (block : Bytes) : HashCtx :=
  if c.left ≠ 0 then
    let add_bytes := if 32 - c.left > block.length then block.length else 32 - c.left
    let c := { c with remainder := c.remainder.take c.left ++ block.take add_bytes ++ c.remainder.drop (c.left + add_bytes),
                      left := c.left + add_bytes }
    if c.left < 32 then c
    else hash_tail { hash_one c c.remainder with left := 0 } (block.drop add_bytes)
  else hash_tail c block

/-- The loop storing the bit length, `/repo/gosthash.c` lines 261-264: `fin_len` is signed (`>>=` of a positive value). -/
def finLen (x : W64) : Bytes :=
  if _h : 0 < x.toInt then (x &&& 0xFF#64).setWidth 8 :: finLen (x >>> 8) else []
termination_by x.toNat
decreasing_by
  rw [BitVec.toNat_ushiftRight, Nat.shiftRight_eq_div_pow]
  have : x.toNat ≠ 0 := by
    intro h0
    have : x = 0#64 := BitVec.eq_of_toNat_eq (by simpa using h0)
    subst this
    simp at _h
  omega

/-- The last block and the lengths in `finish_hash`, lines 247-258: cipher context, `H`, `S`, `fin_len`. -/
def finishRest (c : HashCtx) : Ctx × Bytes × Bytes × W64 :=
  let (cc, H, S, fin_len) :=
    if c.left ≠ 0 then
      let buf := c.remainder.take c.left ++ zeros (32 - c.left)
      let r := hash_step c.cctx c.H buf
      (r.1, r.2, (add_blocks 32 0 c.S buf).1, c.len + BitVec.ofNat 64 c.left)
    else (c.cctx, c.H, c.S, c.len)
  if fin_len = 0 then
    let r := hash_step cc H (zeros 32)
    (r.1, r.2, S, fin_len)
  else (cc, H, S, fin_len)

/-- `finish_hash`, `/repo/gosthash.c` lines 240-269 (`gost_digest_final`, `/repo/gost_md.c` lines 95-99): the context and
the digest.  (`fin_len <<= 3` is taken modulo 2^64.) -/
def finish_hash (c : HashCtx) : HashCtx × Bytes :=
  let t := finishRest c
  let bits := finLen (t.2.2.2 <<< 3)
  let buf := bits ++ zeros (32 - bits.length)
  let r := hash_step t.1 t.2.1 buf
  let r := hash_step r.1 r.2 t.2.2.1
  ({ c with cctx := r.1 }, r.2)

end Gost
