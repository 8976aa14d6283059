import Verif.Model.GostModes
import Verif.Model.KuzModes

/-!
# The ciphers of the provider, and the EVP functions they are used through

Models `/repo/gost_prov_cipher.c` for the ciphers that are not AEAD and carry no MAC (13 of the 17 of its table), with the functions of
OpenSSL 3.0 it calls for a cipher made by `EVP_CIPHER_meth_new` (`crypto/evp/evp_enc.c`: `EVP_CipherInit_ex`, `EVP_CipherUpdate`,
`EVP_CipherFinal`, `EVP_CIPHER_CTX_set_padding`, `EVP_CIPHER_CTX_ctrl`, `EVP_CIPHER_CTX_copy`).  An engine user calls the same functions
directly.

Simplified: allocation never fails; input and output do not overlap; the parameters of `OSSL_PARAM` arrays have the types asked for;
the parameter `alg_id_param` is not given (the ASN.1 methods are in `Model/CipherAsn1.lean`).
The block buffer `ctx->buf` of EVP and the keystream buffer of the same name of the stream modes are kept apart: EVP uses it for ciphers
with a block size above 1 only, the ciphers of the repository with block size 1 only.
-/

namespace Gost

/-- A cipher as `GOST_init_cipher` makes it, `/repo/gost_crypt.c` lines 91-132: all ciphers here have `EVP_CIPH_ALWAYS_CALL_INIT`, and
`EVP_CIPH_CUSTOM_IV` if they have an IV, so that EVP always calls `init` and leaves the IV to it.
`fresh`: cipher data and EVP fields of a new context, all zero.  `init` gets key, IV and direction; `false`: it returns 0.
`doCipher` returns a value that is not 0 for input that is not empty.  `keyMesh`: the control `EVP_CTRL_KEY_MESH`. -/
structure EvpMeth (σ : Type) where
  blockSize : Nat
  keyLen : Nat
  ivLen : Nat
  fresh : σ
  init : σ → Option Bytes → Option Bytes → Bool → σ × Bool
  doCipher : σ → Bytes → σ × Bytes
  keyMesh : σ → Int → σ × Int
  iv : σ → Bytes

variable {σ : Type}

/-- `EVP_CIPHER_CTX`: `data = none`: no cipher set; `buf`: the first `buf_len` bytes of `buf`; `noPadding`: `EVP_CIPH_NO_PADDING`. -/
structure EvpCtx (σ : Type) where
  data : Option σ
  encrypt : Bool
  buf : Bytes
  final : Bytes
  finalUsed : Bool
  noPadding : Bool

/-- `EVP_CIPHER_CTX_new`. -/
def EvpCtx.new : EvpCtx σ := { data := none, encrypt := false, buf := [], final := [], finalUsed := false, noPadding := false }

/-- `EVP_CipherInit_ex` with a cipher and an engine.  A context that has this cipher already is only initialised again: its cipher data
and flags stay. -/
def evpCipherInit (M : EvpMeth σ) (c : EvpCtx σ) (key iv : Option Bytes) (enc : Bool) : EvpCtx σ × Bool :=
  let noPad := match c.data with
    | none => false
    | some _ => c.noPadding
  let r := M.init (c.data.getD M.fresh) key iv enc
  if r.2 then ({ data := some r.1, encrypt := enc, buf := [], final := c.final, finalUsed := false, noPadding := noPad }, true)
  else ({ c with data := some r.1, encrypt := enc, noPadding := noPad }, false)

/-- `INT_MAX`. -/
def intMax : Nat := 2147483647

/-- `evp_EncryptDecryptUpdate` for `0 < inl`: cipher data and block buffer; `none`: it returns 0. -/
def evpEncryptDecryptUpdate (M : EvpMeth σ) (s : σ) (buf inp : Bytes) : Option (σ × Bytes × Bytes) :=
  if buf.length = 0 ∧ inp.length % M.blockSize = 0 then
    let r := M.doCipher s inp
    some (r.1, [], r.2)
  else if buf.length ≠ 0 ∧ inp.length < M.blockSize - buf.length then some (s, buf ++ inp, [])
  else if buf.length ≠ 0 ∧ intMax - M.blockSize <
      (inp.length - (M.blockSize - buf.length)) - (inp.length - (M.blockSize - buf.length)) % M.blockSize then none
  else
    let first : σ × Bytes × Bytes :=
      if buf.length ≠ 0 then
        let j := M.blockSize - buf.length
        let r := M.doCipher s (buf ++ inp.take j)
        (r.1, r.2, inp.drop j)
      else (s, [], inp)
    let rest := first.2.2
    let i := rest.length % M.blockSize
    let main : σ × Bytes :=
      if 0 < rest.length - i then M.doCipher first.1 (rest.take (rest.length - i)) else (first.1, [])
    some (main.1, rest.drop (rest.length - i), first.2.1 ++ main.2)

/-- `EVP_EncryptUpdate` for a context with cipher data `s`. -/
def evpEncryptUpdate (M : EvpMeth σ) (c : EvpCtx σ) (s : σ) (inp : Bytes) : EvpCtx σ × Bytes × Bool :=
  match evpEncryptDecryptUpdate M s c.buf inp with
  | none => (c, [], false)
  | some (s, buf, out) => ({ c with data := some s, buf := buf }, out, true)

/-- `EVP_DecryptUpdate`: with padding the last whole block is held back. -/
def evpDecryptUpdate (M : EvpMeth σ) (c : EvpCtx σ) (s : σ) (inp : Bytes) : EvpCtx σ × Bytes × Bool :=
  if c.noPadding then evpEncryptUpdate M c s inp
  else if c.finalUsed ∧ intMax - M.blockSize < inp.length - inp.length % M.blockSize then (c, [], false)
  else
    match evpEncryptDecryptUpdate M s c.buf inp with
    | none => (c, [], false)
    | some (s, buf, out) =>
      let held := if c.finalUsed then c.final else []
      if 1 < M.blockSize ∧ buf.length = 0 then
        ({ c with data := some s, buf := buf, finalUsed := true, final := out.drop (out.length - M.blockSize) },
         held ++ out.take (out.length - M.blockSize), true)
      else ({ c with data := some s, buf := buf, finalUsed := false }, held ++ out, true)

/-- `EVP_CipherUpdate`; `inl` is an `int`. -/
def evpCipherUpdate (M : EvpMeth σ) (c : EvpCtx σ) (inp : Bytes) (inl : Int) : EvpCtx σ × Bytes × Bool :=
  match c.data with
  | none => (c, [], false)
  | some s =>
    if inl ≤ 0 then (c, [], inl == 0)
    else if c.encrypt then evpEncryptUpdate M c s (inp.take inl.toNat)
    else evpDecryptUpdate M c s (inp.take inl.toNat)

/-- `EVP_EncryptFinal`. -/
def evpEncryptFinal (M : EvpMeth σ) (c : EvpCtx σ) (s : σ) : EvpCtx σ × Bytes × Bool :=
  if M.blockSize = 1 then (c, [], true)
  else if c.noPadding then (c, [], c.buf.length == 0)
  else
    let n := M.blockSize - c.buf.length
    let r := M.doCipher s (c.buf ++ List.replicate n (BitVec.ofNat 8 n))
    ({ c with data := some r.1 }, r.2, true)

/-- `EVP_DecryptFinal`. -/
def evpDecryptFinal (M : EvpMeth σ) (c : EvpCtx σ) : EvpCtx σ × Bytes × Bool :=
  if c.noPadding then (c, [], c.buf.length == 0)
  else if 1 < M.blockSize then
    if c.buf.length ≠ 0 ∨ c.finalUsed = false then (c, [], false)
    else
      let n := (at_ c.final (M.blockSize - 1)).toNat
      if n = 0 ∨ M.blockSize < n then (c, [], false)
      else if (List.range n).all fun i => at_ c.final (M.blockSize - 1 - i) == BitVec.ofNat 8 n then
        (c, c.final.take (M.blockSize - n), true)
      else (c, [], false)
  else (c, [], true)

/-- `EVP_CipherFinal`. -/
def evpCipherFinal (M : EvpMeth σ) (c : EvpCtx σ) : EvpCtx σ × Bytes × Bool :=
  match c.data with
  | none => (c, [], false)
  | some s => if c.encrypt then evpEncryptFinal M c s else evpDecryptFinal M c

/-- `EVP_CIPHER_CTX_set_padding`: without a cipher the flag is written and 0 returned. -/
def evpSetPadding (c : EvpCtx σ) (pad : Nat) : EvpCtx σ × Bool := ({ c with noPadding := pad == 0 }, c.data.isSome)

/-- `EVP_CIPHER_CTX_ctrl` with `EVP_CTRL_KEY_MESH`: whether the value returned is positive. -/
def evpKeyMesh (M : EvpMeth σ) (c : EvpCtx σ) (arg : Int) : EvpCtx σ × Bool :=
  match c.data with
  | none => (c, false)
  | some s =>
    let r := M.keyMesh s arg
    ({ c with data := some r.1 }, decide (0 < r.2))

/-! ## The provider -/

/-- A `size_t` converted to `int`. -/
def intOfSize (n : Nat) : Int := if n % 2^32 < 2^31 then (n % 2^32 : Nat) else ((n % 2^32 : Nat) : Int) - 2^32

/-- The parameters of `cipher_set_ctx_params` (`none`: not in the array). -/
structure PcParams where
  padding : Option Nat
  keyMesh : Option Nat
  ivlen : Option Nat
  tag : Option Bytes

/-- An empty array, or NULL. -/
def PcParams.none : PcParams := { padding := Option.none, keyMesh := Option.none, ivlen := Option.none, tag := Option.none }

/-- The parameter `padding` of `cipher_set_ctx_params`, `/repo/gost_prov_cipher.c` lines 174-180. -/
def pcSetPadding (c : EvpCtx σ) : Option Nat → EvpCtx σ × Bool
  | none => (c, true)
  | some p => evpSetPadding c p

/-- The parameter `key-mesh`, `/repo/gost_prov_cipher.c` lines 181-188. -/
def pcSetKeyMesh (M : EvpMeth σ) (c : EvpCtx σ) : Option Nat → EvpCtx σ × Bool
  | none => (c, true)
  | some n => evpKeyMesh M c (intOfSize n)

/-- `cipher_set_ctx_params`, `/repo/gost_prov_cipher.c` lines 156-208.  The controls `EVP_CTRL_AEAD_SET_IVLEN` and
`EVP_CTRL_AEAD_SET_TAG` are refused by every cipher modelled here (`default` of their control functions). -/
def prov_cipher_set_ctx_params (M : EvpMeth σ) (c : EvpCtx σ) (p : PcParams) : EvpCtx σ × Bool :=
  let r := pcSetPadding c p.padding
  if r.2 then
    let m := pcSetKeyMesh M r.1 p.keyMesh
    if m.2 then (m.1, p.ivlen.isNone && p.tag.isNone) else (m.1, false)
  else (r.1, false)

/-- `cipher_encrypt_init`, `cipher_decrypt_init`, `/repo/gost_prov_cipher.c` lines 210-239: `keylen` and `ivlen` are the lengths the
caller states (0 for NULL). -/
def prov_cipher_init (M : EvpMeth σ) (c : EvpCtx σ) (key iv : Option Bytes) (keylen ivlen : Nat) (p : PcParams) (enc : Bool) :
    EvpCtx σ × Bool :=
  let r := prov_cipher_set_ctx_params M c p
  if r.2 then
    if M.keyLen < keylen ∨ M.ivLen < ivlen then (r.1, false) else evpCipherInit M r.1 key iv enc
  else (r.1, false)

/-- `cipher_update`, `/repo/gost_prov_cipher.c` lines 241-252: `outsize` is not looked at. -/
def prov_cipher_update (M : EvpMeth σ) (c : EvpCtx σ) (inp : Bytes) : EvpCtx σ × Bytes × Bool :=
  evpCipherUpdate M c inp (intOfSize inp.length)

/-- `cipher_final`, `/repo/gost_prov_cipher.c` lines 254-264. -/
def prov_cipher_final (M : EvpMeth σ) (c : EvpCtx σ) : EvpCtx σ × Bytes × Bool := evpCipherFinal M c

/-- `cipher_newctx`, `/repo/gost_prov_cipher.c` lines 67-85. -/
def prov_cipher_newctx : EvpCtx σ := EvpCtx.new

/-- `cipher_dupctx`, `/repo/gost_prov_cipher.c` lines 87-96: `EVP_CIPHER_CTX_copy` of a context without a cipher fails, the result is not
looked at, and the copy is a new context. -/
def prov_cipher_dupctx (c : EvpCtx σ) : EvpCtx σ :=
  match c.data with
  | none => EvpCtx.new
  | some _ => c

/-- `cipher_get_ctx_params` with `updated-iv`, `/repo/gost_prov_cipher.c` lines 136-143; without a cipher the length is 0. -/
def prov_cipher_updated_iv (M : EvpMeth σ) (c : EvpCtx σ) : Bytes :=
  match c.data with
  | none => []
  | some s => (M.iv s).take M.ivLen

/-! ## The ciphers -/

/-- `Option` result of an init function as a context: on failure only the direction was changed. -/
def initOr (e : CipherCtx) (enc : Bool) : Option CipherCtx → CipherCtx × Bool
  | some e => (e, true)
  | none => ({ e with encrypting := enc }, false)

/-- The control `EVP_CTRL_KEY_MESH` of `gost_cipher_ctl`: the `int` is stored. -/
def gostKeyMesh (e : CipherCtx) (arg : Int) : CipherCtx × Int := gost_cipher_ctl e (.keyMesh (arg % 2^32).toNat)

/-- `Gost28147_89_cipher` (CFB), `/repo/gost_crypt.c` lines 156-164; `rng`: random masks, `env`: `CRYPT_PARAMS`. -/
def methGostCfb (rng : Nat → Fin 8 → W32) (env : Option (Option ParamNID)) : EvpMeth CipherCtx where
  blockSize := 1
  keyLen := 32
  ivLen := 8
  fresh := freshCtx rng false
  init e key iv enc := initOr e enc (gost_cipher_init_param e key iv enc env)
  doCipher := gost_cipher_do_cfb
  keyMesh := gostKeyMesh
  iv e := e.iv

/-- `Gost28147_89_cbc_cipher`, `/repo/gost_crypt.c` lines 166-172. -/
def methGostCbc (rng : Nat → Fin 8 → W32) (env : Option (Option ParamNID)) : EvpMeth CipherCtx where
  blockSize := 8
  keyLen := 32
  ivLen := 8
  fresh := freshCtx rng false
  init e key iv enc := initOr e enc (gost_cipher_init_param e key iv enc env)
  doCipher := gost_cipher_do_cbc
  keyMesh := gostKeyMesh
  iv e := e.iv

/-- `Gost28147_89_cnt_cipher` with CryptoPro-A and `Gost28147_89_cnt_12_cipher` with TC26-Z, `/repo/gost_crypt.c` lines 174-192, 459-469. -/
def methGostCnt (rng : Nat → Fin 8 → W32) (block : SubstBlock) : EvpMeth CipherCtx where
  blockSize := 1
  keyLen := 32
  ivLen := 8
  fresh := freshCtx rng false
  init e key iv enc := (gost_cipher_init_cnt e key iv enc block, true)
  doCipher := gost_cipher_do_cnt
  keyMesh := gostKeyMesh
  iv e := e.iv

/-- `magma_ctr_cipher`, `magma_ctr_acpkm_cipher`, `/repo/gost_crypt.c` lines 194-228.  (A random generator that fails when the KDF seed is
drawn makes `init` return -1, which EVP takes for success; not modelled.) -/
def methMagmaCtr (rng : Nat → Fin 8 → W32) (acpkm : Bool) : EvpMeth CipherCtx where
  blockSize := 1
  keyLen := 32
  ivLen := 4
  fresh := freshCtx rng false
  init e key iv enc := (magma_cipher_init e key iv enc 4 acpkm, true)
  doCipher := magma_cipher_do_ctr
  keyMesh e arg := magma_cipher_ctl_key_mesh e (arg % 2^32).toNat
  iv e := e.iv

/-- `magma_ecb_cipher`, `/repo/gost_crypt.c` lines 246-252 (of the engine, not of the provider). -/
def methMagmaEcb (rng : Nat → Fin 8 → W32) : EvpMeth CipherCtx where
  blockSize := 8
  keyLen := 32
  ivLen := 0
  fresh := freshCtx rng false
  init e key iv enc := (magma_cipher_init e key iv enc 0 false, true)
  doCipher := magma_cipher_do_ecb
  keyMesh e arg := magma_cipher_ctl_key_mesh e (arg % 2^32).toNat
  iv e := e.iv

/-- `magma_cbc_cipher`, `/repo/gost_crypt.c` lines 280-288: the control function of its template is `gost_cipher_ctl`. -/
def methMagmaCbc (rng : Nat → Fin 8 → W32) : EvpMeth CipherCtx where
  blockSize := 8
  keyLen := 32
  ivLen := 8
  fresh := freshCtx rng false
  init e key iv enc := (magma_cipher_init e key iv enc 8 false, true)
  doCipher := magma_cipher_do_cbc
  keyMesh := gostKeyMesh
  iv e := e.iv

/-- The ciphers of `/repo/gost_grasshopper_cipher.c` lines 33-126 that have the control function of the template. -/
def methKuz (blockSize ivLen : Nat) (init : KCtx → Option Bytes → Option Bytes → Bool → KCtx) (doCipher : KCtx → Bytes → KCtx × Bytes) :
    EvpMeth KCtx where
  blockSize := blockSize
  keyLen := 32
  ivLen := ivLen
  fresh := freshKCtx
  init c key iv enc := (init c key iv enc, true)
  doCipher := doCipher
  keyMesh := gost_grasshopper_cipher_ctl_key_mesh
  iv c := c.iv

/-- `grasshopper_ecb_cipher`, `/repo/gost_grasshopper_cipher.c` lines 45-51. -/
def methKuzEcb : EvpMeth KCtx := methKuz 16 0 gost_grasshopper_cipher_init_ecb gost_grasshopper_cipher_do_ecb
/-- `grasshopper_cbc_cipher`, `/repo/gost_grasshopper_cipher.c` lines 53-61. -/
def methKuzCbc : EvpMeth KCtx := methKuz 16 16 gost_grasshopper_cipher_init_cbc gost_grasshopper_cipher_do_cbc
/-- `grasshopper_ofb_cipher`, `/repo/gost_grasshopper_cipher.c` lines 63-73. -/
def methKuzOfb : EvpMeth KCtx := methKuz 1 16 gost_grasshopper_cipher_init_ofb gost_grasshopper_cipher_do_ofb
/-- `grasshopper_cfb_cipher`, `/repo/gost_grasshopper_cipher.c` lines 75-85. -/
def methKuzCfb : EvpMeth KCtx := methKuz 1 16 gost_grasshopper_cipher_init_cfb gost_grasshopper_cipher_do_cfb
/-- `grasshopper_ctr_cipher`, `/repo/gost_grasshopper_cipher.c` lines 87-98. -/
def methKuzCtr : EvpMeth KCtx := methKuz 1 8 gost_grasshopper_cipher_init_ctr gost_grasshopper_cipher_do_ctr
/-- `grasshopper_ctr_acpkm_cipher`, `/repo/gost_grasshopper_cipher.c` lines 100-111. -/
def methKuzCtrAcpkm : EvpMeth KCtx := methKuz 1 8 gost_grasshopper_cipher_init_ctracpkm gost_grasshopper_cipher_do_ctracpkm

end Gost
