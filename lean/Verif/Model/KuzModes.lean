import Verif.Model.Kuznyechik
import Verif.Model.Loops

/-!
# Kuznyechik EVP cipher modes (`/repo/gost_grasshopper_cipher.c`)

One structure holds the fields of `EVP_CIPHER_CTX` that the callbacks touch and the fields of
`gost_grasshopper_cipher_ctx` / `gost_grasshopper_cipher_ctx_ctr`
(`/repo/gost_grasshopper_cipher.h` lines 22-40).  The scratch field `buffer` (written by the block functions,
never read by the mode functions) is not modelled; `kdf_seed`, `tag` and `omac_ctx` are modelled with the
MAC-ed modes, not here.
-/

namespace Gost

/-- Copy `n` bytes out of a C pointer: `memcpy(dst, src, n)` with `dst` of exactly `n` bytes. -/
def copyN (n : Nat) (src : Bytes) : Bytes := (List.range n).map (at_ src)

/-- The `GRASSHOPPER_CIPHER_*` values of `type`, `/repo/gost_grasshopper_cipher.c` lines 21-29. -/
inductive KType where
  | ecb | cbc | ofb | cfb | ctr | ctracpkm | ctracpkmomac
  deriving DecidableEq

/-- The context.
* `iv`, `oiv`: the 16 bytes of the two IV buffers;
* `buf`, `stash`: bytes 0..15 and 16..31 of `EVP_CIPHER_CTX_buf_noconst`;
* `num`: `EVP_CIPHER_CTX_num`, read as `unsigned int`;
* `section_size`: `unsigned int`. -/
structure KCtx where
  type : KType
  masterKey : Bytes
  key : Bytes
  encrypt_round_keys : Nat → Bytes
  decrypt_round_keys : Nat → Bytes
  iv : Bytes
  oiv : Bytes
  buf : Bytes
  stash : Bytes
  num : Nat
  partial_buffer : Bytes
  section_size : Nat
  appData : Bool
  encrypting : Bool

/-- A context as EVP allocates it: all bytes zero. -/
def freshKCtx : KCtx where
  type := .ecb
  masterKey := zeros 32
  key := zeros 32
  encrypt_round_keys := fun _ => zeros 16
  decrypt_round_keys := fun _ => zeros 16
  iv := zeros 16
  oiv := zeros 16
  buf := zeros 16
  stash := zeros 16
  num := 0
  partial_buffer := zeros 16
  section_size := 0
  appData := false
  encrypting := false

/-- `gost_grasshopper_cipher_key`, `/repo/gost_grasshopper_cipher.c` lines 181-192. -/
def gost_grasshopper_cipher_key (c : KCtx) (k : Bytes) : KCtx :=
  let key := copyN 32 k
  { c with key := key
           encrypt_round_keys := grasshopper_set_encrypt_key key
           decrypt_round_keys := grasshopper_set_decrypt_key key }

/-- `gost_grasshopper_master_key`, `/repo/gost_grasshopper_cipher.c` lines 195-203. -/
def gost_grasshopper_master_key (c : KCtx) (k : Bytes) : KCtx := { c with masterKey := copyN 32 k }

/-- `ACPKM_D_2018`, `/repo/gost_grasshopper_cipher.c` lines 155-160. -/
def KUZ_ACPKM_D_2018 : Bytes :=
  [0x80, 0x81, 0x82, 0x83, 0x84, 0x85, 0x86, 0x87, 0x88, 0x89, 0x8a, 0x8b, 0x8c, 0x8d, 0x8e, 0x8f,
   0x90, 0x91, 0x92, 0x93, 0x94, 0x95, 0x96, 0x97, 0x98, 0x99, 0x9a, 0x9b, 0x9c, 0x9d, 0x9e, 0x9f]

/-- `acpkm_next`, `/repo/gost_grasshopper_cipher.c` lines 162-178. -/
def acpkm_next (c : KCtx) : KCtx :=
  let newkey := (List.range 2).foldl (fun acc n =>
    acc ++ grasshopper_encrypt_block c.encrypt_round_keys (copyN 16 (KUZ_ACPKM_D_2018.drop (n * 16)))) []
  gost_grasshopper_cipher_key c newkey

/-- Overwrite the first `n` bytes of `dst`: `memcpy(dst, src, n)`. -/
def memcpyTo (dst src : Bytes) (n : Nat) : Bytes := src.take n ++ dst.drop n

/-- `gost_grasshopper_cipher_init`, `/repo/gost_grasshopper_cipher.c` lines 235-266; `ivLen` is the
`iv_length` of the cipher (16 for CBC, OFB, CFB; 8 for the CTR ciphers; 0 for ECB). The random
`kdf_seed` drawn for CTR-ACPKM encryption is not modelled here. -/
def gost_grasshopper_cipher_init (c : KCtx) (key iv : Option Bytes) (enc : Bool) (ivLen : Nat) : KCtx :=
  let c := { c with encrypting := enc, appData := true }
  let c := match key with
    | some k => gost_grasshopper_master_key (gost_grasshopper_cipher_key c k) k
    | none => c
  let c := match iv with
    | some v => { c with oiv := memcpyTo c.oiv v ivLen }
    | none => c
  { c with iv := memcpyTo c.iv c.oiv ivLen }

/-- `gost_grasshopper_cipher_init_ecb`, `/repo/gost_grasshopper_cipher.c` lines 268-276. -/
def gost_grasshopper_cipher_init_ecb (c : KCtx) (key iv : Option Bytes) (enc : Bool) : KCtx :=
  gost_grasshopper_cipher_init { c with type := .ecb } key iv enc 0

/-- `gost_grasshopper_cipher_init_cbc`, `/repo/gost_grasshopper_cipher.c` lines 278-286. -/
def gost_grasshopper_cipher_init_cbc (c : KCtx) (key iv : Option Bytes) (enc : Bool) : KCtx :=
  gost_grasshopper_cipher_init { c with type := .cbc } key iv enc 16

/-- `gost_grasshopper_cipher_init_ofb`, `/repo/gost_grasshopper_cipher.c` lines 288-296. -/
def gost_grasshopper_cipher_init_ofb (c : KCtx) (key iv : Option Bytes) (enc : Bool) : KCtx :=
  gost_grasshopper_cipher_init { c with type := .ofb } key iv enc 16

/-- `gost_grasshopper_cipher_init_cfb`, `/repo/gost_grasshopper_cipher.c` lines 298-306. -/
def gost_grasshopper_cipher_init_cfb (c : KCtx) (key iv : Option Bytes) (enc : Bool) : KCtx :=
  gost_grasshopper_cipher_init { c with type := .cfb } key iv enc 16

/-- `gost_grasshopper_cipher_init_ctr`, `/repo/gost_grasshopper_cipher.c` lines 308-321. -/
def gost_grasshopper_cipher_init_ctr (c : KCtx) (key iv : Option Bytes) (enc : Bool) : KCtx :=
  gost_grasshopper_cipher_init { c with type := .ctr, num := 0, partial_buffer := zeros 16 } key iv enc 8

/-- `gost_grasshopper_cipher_init_ctracpkm`, `/repo/gost_grasshopper_cipher.c` lines 323-337. -/
def gost_grasshopper_cipher_init_ctracpkm (c : KCtx) (key iv : Option Bytes) (enc : Bool) : KCtx :=
  gost_grasshopper_cipher_init { c with type := .ctracpkm, num := 0, section_size := 4096 } key iv enc 8

/-- Loop body of `gost_grasshopper_cipher_do_ecb`, `/repo/gost_grasshopper_cipher.c` lines 522-536. -/
def kEcbBody (c : KCtx) (blk : Bytes) : KCtx × Bytes :=
  if c.encrypting then (c, grasshopper_encrypt_block c.encrypt_round_keys blk)
  else (c, grasshopper_decrypt_block c.decrypt_round_keys blk)

/-- `gost_grasshopper_cipher_do_ecb`, `/repo/gost_grasshopper_cipher.c` lines 511-539. -/
def gost_grasshopper_cipher_do_ecb (c : KCtx) (inp : Bytes) : KCtx × Bytes :=
  let r := whileBlocks 16 kEcbBody c inp
  (r.1, r.2.1)

/-- Loop body of `gost_grasshopper_cipher_do_cbc`, `/repo/gost_grasshopper_cipher.c` lines 556-576. -/
def kCbcBody (c : KCtx) (blk : Bytes) : KCtx × Bytes :=
  if c.encrypting then
    let currentBlock := xorB c.iv blk
    let out := grasshopper_encrypt_block c.encrypt_round_keys currentBlock
    ({ c with iv := out }, out)
  else
    let tmp := blk
    let out := grasshopper_decrypt_block c.decrypt_round_keys blk
    let out := xorB out c.iv
    ({ c with iv := tmp }, out)

/-- `gost_grasshopper_cipher_do_cbc`, `/repo/gost_grasshopper_cipher.c` lines 541-579. -/
def gost_grasshopper_cipher_do_cbc (c : KCtx) (inp : Bytes) : KCtx × Bytes :=
  let r := whileBlocks 16 kCbcBody c inp
  (r.1, r.2.1)

/-- The loop `while (n && lasted)` of `gost_grasshopper_cipher_do_ctr`,
`/repo/gost_grasshopper_cipher.c` lines 619-623. -/
def kCtrPart (pb : Bytes) : Nat → Bytes → Nat × Bytes × Bytes
  | n, [] => (n, [], [])
  | n, x :: xs =>
    if n ≠ 0 then
      let t := kCtrPart pb ((n + 1) % 16) xs
      (t.1, (x ^^^ at_ pb n) :: t.2.1, t.2.2)
    else (n, [], x :: xs)

/-- Loop body of `gost_grasshopper_cipher_do_ctr`, `/repo/gost_grasshopper_cipher.c` lines 630-641. -/
def kCtrBody (c : KCtx) (blk : Bytes) : KCtx × Bytes :=
  let pb := grasshopper_encrypt_block c.encrypt_round_keys c.iv
  ({ c with partial_buffer := pb, iv := inc_counter c.iv 16 }, xorB pb blk)

/-- `gost_grasshopper_cipher_do_ctr`, `/repo/gost_grasshopper_cipher.c` lines 602-657. -/
def gost_grasshopper_cipher_do_ctr (c : KCtx) (inp : Bytes) : KCtx × Bytes :=
  let p := kCtrPart c.partial_buffer c.num inp
  let c := { c with num := p.1 }
  let r := whileBlocks 16 kCtrBody c p.2.2
  let c := r.1
  let rest := r.2.2
  let t : KCtx × Bytes :=
    if 0 < rest.length then
      let pb := grasshopper_encrypt_block c.encrypt_round_keys c.iv
      ({ c with partial_buffer := pb, num := rest.length, iv := inc_counter c.iv 16 },
        xorB (pb.take rest.length) rest)
    else (c, [])
  (t.1, p.2.1 ++ r.2.1 ++ t.2)

/-- `apply_acpkm_grasshopper`, `/repo/gost_grasshopper_cipher.c` lines 660-667. -/
def apply_acpkm_grasshopper (c : KCtx) : KCtx :=
  if c.section_size = 0 ∨ c.num < c.section_size then c
  else { acpkm_next c with num := c.num % 16 }

/-- The statements shared by the block loop and the tail of `gost_grasshopper_cipher_do_ctracpkm`
(`/repo/gost_grasshopper_cipher.c` lines 693-701 and 710-716): rekey if due, new gamma block, increment
the counter. -/
def kAcpkmGamma (c : KCtx) : KCtx :=
  let c := apply_acpkm_grasshopper c
  { c with partial_buffer := grasshopper_encrypt_block c.encrypt_round_keys c.iv
           iv := inc_counter c.iv 16 }

/-- Loop body of `gost_grasshopper_cipher_do_ctracpkm`, `/repo/gost_grasshopper_cipher.c` lines 692-706. -/
def kAcpkmBody (c : KCtx) (blk : Bytes) : KCtx × Bytes :=
  let c := kAcpkmGamma c
  ({ c with num := (c.num + 16) % 2^32 }, xorB c.partial_buffer blk)

/-- The loop `while ((num & 15) && lasted)` of `gost_grasshopper_cipher_do_ctracpkm`,
`/repo/gost_grasshopper_cipher.c` lines 683-687. -/
def kAcpkmPart (pb : Bytes) : Nat → Bytes → Nat × Bytes × Bytes
  | num, [] => (num, [], [])
  | num, x :: xs =>
    if num % 16 ≠ 0 then
      let t := kAcpkmPart pb ((num + 1) % 2^32) xs
      (t.1, (x ^^^ at_ pb (num % 16)) :: t.2.1, t.2.2)
    else (num, [], x :: xs)

/-- `gost_grasshopper_cipher_do_ctracpkm`, `/repo/gost_grasshopper_cipher.c` lines 671-720. -/
def gost_grasshopper_cipher_do_ctracpkm (c : KCtx) (inp : Bytes) : KCtx × Bytes :=
  let p := kAcpkmPart c.partial_buffer c.num inp
  let c := { c with num := p.1 }
  let r := whileBlocks 16 kAcpkmBody c p.2.2
  let c := r.1
  let rest := r.2.2
  let t : KCtx × Bytes :=
    if 0 < rest.length then
      let c := kAcpkmGamma c
      ({ c with num := (c.num + rest.length) % 2^32 }, xorB (c.partial_buffer.take rest.length) rest)
    else (c, [])
  (t.1, p.2.1 ++ r.2.1 ++ t.2)

/-- `gost_grasshopper_cnt_next`, `/repo/gost_grasshopper_cipher.c` lines 806-815. -/
def gost_grasshopper_cnt_next (c : KCtx) : KCtx :=
  let buf := grasshopper_encrypt_block c.encrypt_round_keys c.iv
  { c with buf := buf, iv := buf }

/-- The loop `for (; i + bl < inl; ...)`: process blocks while *more* than a block remains. -/
def whileBlocksLt {S : Type} (bl : Nat) (body : S → Bytes → S × Bytes) (s : S) (inp : Bytes) :
    S × Bytes × Bytes :=
  if _h : 0 < bl ∧ bl < inp.length then
    let r := body s (inp.take bl)
    let t := whileBlocksLt bl body r.1 (inp.drop bl)
    (t.1, r.2 ++ t.2.1, t.2.2)
  else (s, [], inp)
termination_by inp.length
decreasing_by simp; omega

/-- Loop body of `gost_grasshopper_cipher_do_ofb`, `/repo/gost_grasshopper_cipher.c` lines 845-864. -/
def kOfbBody (c : KCtx) (blk : Bytes) : KCtx × Bytes :=
  let c := gost_grasshopper_cnt_next c
  (c, xorB c.buf blk)

/-- Lines 845-877 of `gost_grasshopper_cipher_do_ofb`: whole blocks and rest. -/
def kOfbMain (c : KCtx) (inp : Bytes) : KCtx × Bytes :=
  let r := whileBlocksLt 16 kOfbBody c inp
  let c := r.1
  let rest := r.2.2
  if 0 < rest.length then
    let c := gost_grasshopper_cnt_next c
    ({ c with num := rest.length }, r.2.1 ++ xorB (c.buf.take rest.length) rest)
  else ({ c with num := 0 }, r.2.1)

/-- `gost_grasshopper_cipher_do_ofb`, `/repo/gost_grasshopper_cipher.c` lines 817-879. -/
def gost_grasshopper_cipher_do_ofb (c : KCtx) (inp : Bytes) : KCtx × Bytes :=
  if c.num > 0 then
    let p := xorPart 16 c.buf c.num inp
    if p.1 = 16 then
      let r := kOfbMain { c with num := 0 } p.2.2
      (r.1, p.2.1 ++ r.2)
    else ({ c with num := p.1 }, p.2.1)
  else kOfbMain c inp

/-- The partial-block loop of `gost_grasshopper_cipher_do_cfb`, `/repo/gost_grasshopper_cipher.c`
lines 897-907: returns the final `j`, the new contents of `buf + 16`, the output, the rest of the input. -/
def kCfbPart (enc : Bool) (buf : Bytes) : Nat → Bytes → Bytes → Nat × Bytes × Bytes × Bytes
  | j, stash, [] => (j, stash, [], [])
  | j, stash, x :: xs =>
    if j < 16 then
      let stash := if enc then stash else stash.set j x
      let out := at_ buf j ^^^ x
      let stash := if enc then stash.set j out else stash
      let t := kCfbPart enc buf (j + 1) stash xs
      (t.1, t.2.1, out :: t.2.2.1, t.2.2.2)
    else (j, stash, [], x :: xs)

/-- Loop body of `gost_grasshopper_cipher_do_cfb`, `/repo/gost_grasshopper_cipher.c` lines 917-943. -/
def kCfbBody (c : KCtx) (blk : Bytes) : KCtx × Bytes :=
  let c := { c with buf := grasshopper_encrypt_block c.encrypt_round_keys c.iv }
  let c := if c.encrypting then c else { c with iv := blk }
  let out := xorB c.buf blk
  (if c.encrypting then { c with iv := out } else c, out)

/-- Lines 917-963 of `gost_grasshopper_cipher_do_cfb`: whole blocks and rest. -/
def kCfbMain (c : KCtx) (inp : Bytes) : KCtx × Bytes :=
  let r := whileBlocksLt 16 kCfbBody c inp
  let c := r.1
  let rest := r.2.2
  if 0 < rest.length then
    let c := { c with buf := grasshopper_encrypt_block c.encrypt_round_keys c.iv }
    let c := if c.encrypting then c else { c with stash := memcpyTo c.stash rest rest.length }
    let out := xorB (c.buf.take rest.length) rest
    let c := { c with num := rest.length }
    let c := if c.encrypting then { c with stash := memcpyTo c.stash out rest.length } else c
    (c, r.2.1 ++ out)
  else ({ c with num := 0 }, r.2.1)

/-- `gost_grasshopper_cipher_do_cfb`, `/repo/gost_grasshopper_cipher.c` lines 881-965. -/
def gost_grasshopper_cipher_do_cfb (c : KCtx) (inp : Bytes) : KCtx × Bytes :=
  if c.num > 0 then
    let p := kCfbPart c.encrypting c.buf c.num c.stash inp
    let c := { c with stash := p.2.1 }
    if p.1 = 16 then
      let r := kCfbMain { c with iv := c.stash, num := 0 } p.2.2.2
      (r.1, p.2.2.1 ++ r.2)
    else ({ c with num := p.1 }, p.2.2.1)
  else kCfbMain c inp

/-- `gost_grasshopper_cipher_ctl`, command `EVP_CTRL_KEY_MESH`, `/repo/gost_grasshopper_cipher.c` lines
1105-1116; `arg` is a C `int`, `arg % 16` is C's truncated remainder (`Int.tmod`), the assignment to the
`unsigned int` field is modulo `2^32`. -/
def gost_grasshopper_cipher_ctl_key_mesh (c : KCtx) (arg : Int) : KCtx × Int :=
  if (c.type ≠ .ctracpkm ∧ c.type ≠ .ctracpkmomac) ∨ arg = 0 ∨ arg.tmod 16 ≠ 0 then (c, -1)
  else ({ c with section_size := (arg % 2^32).toNat }, 1)

/-- Kuznyechik block encryption as a function of a 32-byte key and a 16-byte block (reading exactly
32 and 16 bytes). -/
def EKuz (k b : Bytes) : Bytes :=
  grasshopper_encrypt_block (grasshopper_set_encrypt_key (copyN 32 k)) (copyN 16 b)

/-- Kuznyechik block decryption as a function of a 32-byte key and a 16-byte block. -/
def DKuz (k b : Bytes) : Bytes :=
  grasshopper_decrypt_block (grasshopper_set_decrypt_key (copyN 32 k)) (copyN 16 b)

theorem EKuz_def (k b : Bytes) :
    EKuz k b = grasshopper_encrypt_block (grasshopper_set_encrypt_key (copyN 32 k)) (copyN 16 b) := rfl

theorem DKuz_def (k b : Bytes) :
    DKuz k b = grasshopper_decrypt_block (grasshopper_set_decrypt_key (copyN 32 k)) (copyN 16 b) := rfl

attribute [irreducible] EKuz DKuz

end Gost
