import Verif.Model.GF
import Verif.Model.Loops
import Verif.Model.GostModes
import Verif.Model.KuzModes

/-!
# MGM (`/repo/gost_gost2015.c` lines 207-493) and its two EVP ciphers

The core is parameterised by the block cipher (`ctx->block` applied to `ctx->key`), the field multiplication
(`ctx->mul_gf`) and the block length (`ctx->blocklen`); `MgmAlg` bundles them for the EVP layer.  The 16-byte unions of
`mgm128_context` are represented by their first `bl` bytes (for Magma the rest stays zero: it is only ever XORed with zeros).
-/

namespace Gost

/-- `mgm128_context`, `/repo/gost_gost2015.h` lines 34-46. `lenA`, `lenM` are `len.u[0]`, `len.u[1]` (bytes of associated
data and of message so far); what `gost_mgm128_finish` leaves in `len` is `lenBlock`. -/
structure Mgm where
  nonce : Bytes
  Yi : Bytes
  Zi : Bytes
  EKi : Bytes
  Hi : Bytes
  ACi : Bytes
  mul : Bytes
  sum : Bytes
  tag : Bytes
  lenBlock : Bytes
  lenA : Nat
  lenM : Nat
  mres : Nat
  ares : Nat

/-- `gost_mgm128_init`, `/repo/gost_gost2015.c` lines 207-218. -/
def gost_mgm128_init (bl : Nat) : Mgm where
  nonce := zeros bl
  Yi := zeros bl
  Zi := zeros bl
  EKi := zeros bl
  Hi := zeros bl
  ACi := zeros bl
  mul := zeros bl
  sum := zeros bl
  tag := zeros bl
  lenBlock := zeros bl
  lenA := 0
  lenM := 0
  mres := 0
  ares := 0

/-- `c[0] &= 0x7f`. -/
def clrTop (b : Bytes) : Bytes := b.set 0 (at_ b 0 &&& 0x7f)

/-- `c[0] |= 0x80`. -/
def setTop (b : Bytes) : Bytes := b.set 0 (at_ b 0 ||| 0x80)

/-- `gost_mgm128_setiv`, `/repo/gost_gost2015.c` lines 220-236: `blocklen` bytes of `iv` are used. -/
def gost_mgm128_setiv (bl : Nat) (c : Mgm) (iv : Bytes) : Mgm :=
  { c with lenA := 0, lenM := 0, ares := 0, mres := 0, ACi := zeros bl, sum := zeros bl, nonce := clrTop (copyN bl iv) }

section
variable (E : Bytes → Bytes) (M : Bytes → Bytes → Bytes) (bl : Nat)

/-- `block(Zi, Hi); mul_gf(mul, Hi, b); sum ^= mul; inc_counter(Zi, bl / 2)`
(e.g. `/repo/gost_gost2015.c` lines 278-282, 289-293, 344-348, 363-367). -/
def mgmAbsorb (c : Mgm) (b : Bytes) : Mgm :=
  let Hi := E c.Zi
  let mul := M Hi b
  { c with Hi := Hi, mul := mul, sum := xorB c.sum mul, Zi := inc_counter c.Zi (bl / 2) }

/-- The loop `while (n && len)`, `/repo/gost_gost2015.c` lines 272-276: fills `ACi`; returns it, the new `n` and the rest of
the input. -/
def aadPart : Bytes → Nat → Bytes → Bytes × Nat × Bytes
  | aci, n, [] => (aci, n, [])
  | aci, n, x :: xs => if n ≠ 0 then aadPart (aci.set n x) ((n + 1) % bl) xs else (aci, n, x :: xs)

/-- The lines after the partial block, `/repo/gost_gost2015.c` lines 288-304: full blocks, then the tail into `ACi`. -/
def aadMain (c : Mgm) (n : Nat) (inp : Bytes) : Mgm :=
  let r := whileBlocks bl (fun c b => (mgmAbsorb E M bl c b, [])) c inp
  let c := r.1
  let rest := r.2.2
  if rest ≠ [] then { c with ACi := memcpyTo c.ACi rest rest.length, ares := rest.length }
  else { c with ares := n }

/-- `gost_mgm128_aad`, `/repo/gost_gost2015.c` lines 238-305. -/
def gost_mgm128_aad (c : Mgm) (aad : Bytes) : Mgm × Int :=
  if c.lenM ≠ 0 then (c, -2)
  else
    let c := if c.lenA = 0 then { c with nonce := setTop c.nonce, Zi := E (setTop c.nonce) } else c
    let alen := (c.lenA + aad.length) % 2^64
    if alen > 2^(bl * 4 - 3) ∨ alen < aad.length then (c, -1)
    else
      let c := { c with lenA := alen }
      if c.ares ≠ 0 then
        let p := aadPart bl c.ACi c.ares aad
        let c := { c with ACi := p.1 }
        if p.2.1 = 0 then (aadMain E M bl (mgmAbsorb E M bl c c.ACi) 0 p.2.2, 0)
        else ({ c with ares := p.2.1 }, 0)
      else (aadMain E M bl c 0 aad, 0)

/-- The length checks of `gost_mgm128_encrypt`/`gost_mgm128_decrypt`, `/repo/gost_gost2015.c` lines 330-332, 393-395. -/
def mgmTooLong (alen mlen len : Nat) : Prop :=
  mlen > 2^(bl * 4 - 3) ∨ mlen < len ∨ (mlen + alen) % 2^64 > 2^(bl * 4 - 3)

instance (alen mlen len : Nat) : Decidable (mgmTooLong bl alen mlen len) := by unfold mgmTooLong; infer_instance

/-- "First call to encrypt finalizes AAD", `/repo/gost_gost2015.c` lines 341-351, 404-414. -/
def mgmCloseAad (c : Mgm) : Mgm :=
  if c.ares ≠ 0 then
    let aci := c.ACi.take c.ares ++ zeros (bl - c.ares)
    { mgmAbsorb E M bl { c with ACi := aci } aci with ares := 0 }
  else c

/-- Body of the byte loop, `/repo/gost_gost2015.c` lines 356-368 (encryption), 420-433 (decryption), with `n` and `mres` in
`mres` (they are equal after every byte). Returns the output byte. -/
def mgmByte (enc : Bool) (c : Mgm) (x : Byte) : Mgm × Byte :=
  let n := c.mres
  let c := if n = 0 then
      { c with EKi := E c.Yi, Yi := c.Yi.take (bl / 2) ++ inc_counter (c.Yi.drop (bl / 2)) (bl / 2) }
    else c
  let y := x ^^^ at_ c.EKi n
  let c := { c with ACi := c.ACi.set n (if enc then y else x) }
  let n := (n + 1) % bl
  let c := { c with mres := n }
  let c := if n = 0 then mgmAbsorb E M bl c c.ACi else c
  (c, y)

/-- The loop over the input bytes. -/
def mgmBytes (enc : Bool) : Mgm → Bytes → Mgm × Bytes
  | c, [] => (c, [])
  | c, x :: xs =>
    let r := mgmByte E M bl enc c x
    let t := mgmBytes enc r.1 xs
    (t.1, r.2 :: t.2)

/-- The start of an encryption, `/repo/gost_gost2015.c` lines 319-326: `Z_1` if there were no associated data, and `Y_1`. -/
def mgmEncStart (c : Mgm) : Mgm :=
  if c.lenM = 0 then
    let c := if c.lenA = 0 then { c with nonce := setTop c.nonce, Zi := E (setTop c.nonce) } else c
    { c with nonce := clrTop c.nonce, Yi := E (clrTop c.nonce) }
  else c

/-- The start of a decryption, `/repo/gost_gost2015.c` lines 387-390: `Y_1` only. -/
def mgmDecStart (c : Mgm) : Mgm :=
  if c.lenM = 0 then { c with nonce := clrTop c.nonce, Yi := E (clrTop c.nonce) } else c

/-- `gost_mgm128_encrypt`, `/repo/gost_gost2015.c` lines 307-373. (`n = mres % bl`; `mres` is always below `bl`, the reduction
is kept.) -/
def gost_mgm128_encrypt (c : Mgm) (inp : Bytes) : Mgm × Bytes × Int :=
  let c := mgmEncStart E c
  let mlen := (c.lenM + inp.length) % 2^64
  if mgmTooLong bl c.lenA mlen inp.length then (c, [], -1)
  else
    let c := mgmCloseAad E M bl { c with lenM := mlen }
    let r := mgmBytes E M bl true { c with mres := c.mres % bl } inp
    (r.1, r.2, 0)

/-- `gost_mgm128_decrypt`, `/repo/gost_gost2015.c` lines 375-438. -/
def gost_mgm128_decrypt (c : Mgm) (inp : Bytes) : Mgm × Bytes × Int :=
  let c := mgmDecStart E c
  let mlen := (c.lenM + inp.length) % 2^64
  if mgmTooLong bl c.lenA mlen inp.length then (c, [], -1)
  else
    let c := mgmCloseAad E M bl { c with lenM := mlen }
    let r := mgmBytes E M bl false { c with mres := c.mres % bl } inp
    (r.1, r.2, 0)

/-- The length block, `/repo/gost_gost2015.c` lines 443-444, 460-474 (little-endian platform): for 16-byte blocks two
big-endian 64-bit numbers; for 8-byte blocks the word `(BSWAP64(alen) >> 32) | BSWAP64(clen)`. -/
def mgmLenBlock (lenA lenM : Nat) : Bytes :=
  let alen : W64 := BitVec.ofNat 64 lenA <<< 3
  let clen : W64 := BitVec.ofNat 64 lenM <<< 3
  let alen := BSWAP64 alen
  let clen := BSWAP64 clen
  if bl = 16 then stLE64 alen ++ stLE64 clen else stLE64 ((alen >>> 32) ||| clen)

/-- `gost_mgm128_finish` up to the comparison, `/repo/gost_gost2015.c` lines 440-480. (The partial block is zero-padded from
`ares + mres` on; the last `inc_counter` is the one of the absorption, after the length block the counter is not stepped.) -/
def mgmFinal (c : Mgm) : Mgm :=
  let lb := mgmLenBlock bl c.lenA c.lenM
  let c := if c.mres ≠ 0 ∨ c.ares ≠ 0 then
      let aci := c.ACi.take (c.ares + c.mres) ++ zeros (bl - (c.ares + c.mres))
      mgmAbsorb E M bl { c with ACi := aci } aci
    else c
  let Hi := E c.Zi
  let mul := M Hi lb
  let sum := xorB c.sum mul
  { c with lenBlock := lb, Hi := Hi, mul := mul, sum := sum, tag := E sum }

/-- `gost_mgm128_finish`, `/repo/gost_gost2015.c` lines 440-486: 0 if the first `len` bytes of tag and computed tag agree.
`none` is a NULL `tag`. (`sizeof(ctx->tag)` is 16.) -/
def gost_mgm128_finish (c : Mgm) (tag : Option Bytes) (len : Nat) : Mgm × Int :=
  let c := mgmFinal E M bl c
  match tag with
  | some t => if len ≤ 16 then (c, if c.tag.take len = t.take len then 0 else 1) else (c, -1)
  | none => (c, -1)

/-- `gost_mgm128_tag`, `/repo/gost_gost2015.c` lines 488-493: the bytes copied to `tag` (`len <= 16`). -/
def gost_mgm128_tag (c : Mgm) (len : Nat) : Mgm × Bytes :=
  let c := (gost_mgm128_finish E M bl c none 0).1
  (c, c.tag.take len)

end

/-! ## The EVP ciphers -/

/-- What the two MGM ciphers differ in: the key schedule type, keying, the block function, the multiplication, the block
length (which is also the IV length and the tag length). -/
structure MgmAlg where
  KS : Type
  setKey : KS → Bytes → KS
  block : KS → Bytes → Bytes
  mul : Bytes → Bytes → Bytes
  bl : Nat

/-- Kuznyechik-MGM, `/repo/gost_grasshopper_cipher.c` lines 125-140, 375-381, 482-485. -/
def kuzMgm : MgmAlg where
  KS := KCtx
  setKey := gost_grasshopper_cipher_key
  block := fun c b => grasshopper_encrypt_block c.encrypt_round_keys (copyN 16 b)
  mul := gf128_mul_uint64
  bl := 16

/-- `gost_magma_encrypt_wrap`, `/repo/gost_crypt.c` lines 552-564: `gostcrypt` between two byte reversals. -/
def gost_magma_encrypt_wrap (c : Ctx) (inp : Bytes) : Bytes := (gostcrypt c (copyN 8 inp).reverse).reverse

/-- Magma-MGM, `/repo/gost_crypt.c` lines 254-267, 552-564, 624-630. -/
def magmaMgm : MgmAlg where
  KS := CipherCtx
  setKey := fun e k => let e := gost_cipher_set_param e .tc26Z; { e with cctx := magma_key e.cctx k }
  block := fun e b => gost_magma_encrypt_wrap e.cctx b
  mul := gf64_mul
  bl := 8

/-- `gost_mgm_ctx` (`/repo/gost_gost2015.h` lines 48-60) with the EVP fields the code uses: `buf` is
`EVP_CIPHER_CTX_buf_noconst`, `iv` the buffer `mctx->iv` points to. -/
structure MgmCtx (alg : MgmAlg) where
  ks : alg.KS
  key_set : Bool
  iv_set : Bool
  mgm : Mgm
  iv : Bytes
  ivlen : Nat
  taglen : Int
  buf : Bytes
  encrypting : Bool

variable {alg : MgmAlg}

/-- `EVP_CTRL_INIT`, `/repo/gost_grasshopper_cipher.c` lines 1041-1049, `/repo/gost_crypt.c` lines 1100-1108. -/
def mgm_ctrl_init (c : MgmCtx alg) : MgmCtx alg :=
  { c with key_set := false, iv_set := false, ivlen := alg.bl, taglen := -1 }

/-- `gost_grasshopper_cipher_init_mgm`, `/repo/gost_grasshopper_cipher.c` lines 471-509, and `gost_magma_cipher_init_mgm`,
`/repo/gost_crypt.c` lines 615-654. EVP sets `encrypting`. -/
def cipher_init_mgm (c : MgmCtx alg) (key iv : Option Bytes) (enc : Bool) : MgmCtx alg :=
  let c := { c with encrypting := enc }
  match key, iv with
  | none, none => c
  | some k, iv =>
    let c := { c with ks := alg.setKey c.ks k, mgm := gost_mgm128_init alg.bl }
    let iv := match iv with
      | some v => some v
      | none => if c.iv_set then some c.iv else none
    let c := match iv with
      | some v => { c with mgm := gost_mgm128_setiv alg.bl c.mgm v, iv_set := true }
      | none => c
    { c with key_set := true }
  | none, some v =>
    let c := if c.key_set then { c with mgm := gost_mgm128_setiv alg.bl c.mgm v }
      else { c with iv := memcpyTo c.iv v c.ivlen }
    { c with iv_set := true }

/-- `gost_grasshopper_cipher_do_mgm`, `/repo/gost_grasshopper_cipher.c` lines 752-801, and `gost_magma_cipher_do_mgm`,
`/repo/gost_crypt.c` lines 900-947. `inp = none`: the final call; `out`: whether an output buffer is given (associated data
are passed without one). Returns the context, the output and the return value. -/
def cipher_do_mgm (c : MgmCtx alg) (out : Bool) (inp : Option Bytes) : MgmCtx alg × Bytes × Int :=
  if ¬ c.key_set then (c, [], -1)
  else if ¬ c.iv_set then (c, [], -1)
  else match inp with
    | some d =>
      if ¬ out then
        let r := gost_mgm128_aad (alg.block c.ks) alg.mul alg.bl c.mgm d
        ({ c with mgm := r.1 }, [], if r.2 ≠ 0 then -1 else d.length)
      else if c.encrypting then
        let r := gost_mgm128_encrypt (alg.block c.ks) alg.mul alg.bl c.mgm d
        ({ c with mgm := r.1 }, r.2.1, if r.2.2 ≠ 0 then -1 else d.length)
      else
        let r := gost_mgm128_decrypt (alg.block c.ks) alg.mul alg.bl c.mgm d
        ({ c with mgm := r.1 }, r.2.1, if r.2.2 ≠ 0 then -1 else d.length)
    | none =>
      if ¬ c.encrypting then
        if c.taglen < 0 then (c, [], -1)
        else
          let r := gost_mgm128_finish (alg.block c.ks) alg.mul alg.bl c.mgm (some c.buf) c.taglen.toNat
          if r.2 ≠ 0 then ({ c with mgm := r.1 }, [], -1)
          else ({ c with mgm := r.1, iv_set := false }, [], 0)
      else
        let r := gost_mgm128_tag (alg.block c.ks) alg.mul alg.bl c.mgm alg.bl
        ({ c with mgm := r.1, buf := memcpyTo c.buf r.2 alg.bl, taglen := alg.bl, iv_set := false }, [], 0)

/-- `EVP_CTRL_AEAD_SET_IVLEN`, `/repo/gost_grasshopper_cipher.c` lines 1055-1063, `/repo/gost_crypt.c` lines 1114-1122
(`EVP_MAX_IV_LENGTH` is 16). -/
def mgm_ctrl_set_ivlen (c : MgmCtx alg) (arg : Int) : MgmCtx alg × Int :=
  if arg ≤ 0 then (c, 0)
  else if arg > 16 ∧ arg > c.ivlen then (c, 0)
  else ({ c with ivlen := arg.toNat }, 1)

/-- `EVP_CTRL_AEAD_SET_TAG`, `/repo/gost_grasshopper_cipher.c` lines 1065-1075, `/repo/gost_crypt.c` lines 1124-1134. -/
def mgm_ctrl_set_tag (c : MgmCtx alg) (arg : Int) (ptr : Bytes) : MgmCtx alg × Int :=
  if arg ≤ 0 ∨ arg ≠ alg.bl ∨ c.encrypting then (c, 0)
  else ({ c with buf := memcpyTo c.buf ptr arg.toNat, taglen := arg }, 1)

/-- `EVP_CTRL_AEAD_GET_TAG`, `/repo/gost_grasshopper_cipher.c` lines 1077-1086, `/repo/gost_crypt.c` lines 1136-1145. -/
def mgm_ctrl_get_tag (c : MgmCtx alg) (arg : Int) : Option Bytes :=
  if arg ≤ 0 ∨ arg > alg.bl ∨ ¬ c.encrypting ∨ c.taglen < 0 then none
  else some (c.buf.take arg.toNat)

end Gost
