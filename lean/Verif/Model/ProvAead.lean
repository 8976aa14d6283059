import Verif.Model.Mgm
import Verif.Model.ProvCipher

/-!
# The AEAD ciphers of the provider

Models `/repo/gost_prov_cipher.c` for `magma_mgm_cipher` and `grasshopper_mgm_cipher`, the two ciphers of its table with
`EVP_CIPH_FLAG_AEAD_CIPHER`, with the functions of OpenSSL 3.0 it calls for them: both have `EVP_CIPH_FLAG_CUSTOM_CIPHER`, so that
`EVP_CipherUpdate` and `EVP_CipherFinal` hand everything to the cipher and turn a negative result into 0, and `EVP_CIPH_CTRL_INIT`, so that
the control `EVP_CTRL_INIT` is called when the cipher is first set.

`cipher_dupctx` is not modelled here: what a copy of an MGM context shares with its original is in `Model/MgmHeap.lean`.

Simplified: allocation never fails; the parameters have the types asked for; `alg_id_param` is not given; a call with
more than `INT_MAX` bytes (`EVP_CipherUpdate` of the application takes an `int`) is refused in the model without any other effect.
-/

namespace Gost

variable {alg : MgmAlg}

/-- The EVP context of a provider context for an MGM cipher; `data = none`: no cipher set yet. -/
structure AeadCtx (alg : MgmAlg) where
  data : Option (MgmCtx alg)

/-- The zeroed cipher data and EVP fields of a new context, before `EVP_CTRL_INIT`; `ks0`: the zeroed key schedule. -/
def mgmZero (ks0 : alg.KS) : MgmCtx alg where
  ks := ks0
  key_set := false
  iv_set := false
  mgm := gost_mgm128_init alg.bl
  iv := zeros 16
  ivlen := 0
  taglen := 0
  buf := zeros 32
  encrypting := false

/-- `cipher_newctx`, `/repo/gost_prov_cipher.c` lines 67-85. -/
def prov_aead_newctx : AeadCtx alg := { data := none }

/-- `EVP_CIPHER_CTX_ctrl` with `EVP_CTRL_AEAD_SET_IVLEN`: whether the result is positive.  Parameter `ivlen` of
`cipher_set_ctx_params`, `/repo/gost_prov_cipher.c` lines 189-196. -/
def paSetIvlen (c : MgmCtx alg) : Option Nat → MgmCtx alg × Bool
  | none => (c, true)
  | some n =>
    let r := mgm_ctrl_set_ivlen c (intOfSize n)
    (r.1, decide (0 < r.2))

/-- Parameter `tag`, `/repo/gost_prov_cipher.c` lines 197-206: a value of more than 1024 bytes is refused by
`OSSL_PARAM_get_octet_string`. -/
def paSetTag (c : MgmCtx alg) : Option Bytes → MgmCtx alg × Bool
  | none => (c, true)
  | some t =>
    if 1024 < t.length then (c, false)
    else
      let r := mgm_ctrl_set_tag c (t.length : Nat) t
      (r.1, decide (0 < r.2))

/-- Parameters `ivlen` and `tag`, in this order. -/
def paSetAead (c : MgmCtx alg) (p : PcParams) : MgmCtx alg × Bool :=
  let r := paSetIvlen c p.ivlen
  if r.2 then paSetTag r.1 p.tag else r

/-- `cipher_set_ctx_params`, `/repo/gost_prov_cipher.c` lines 156-208.  Every control of a context without a cipher fails; `padding` has
no effect on a custom cipher; the MGM ciphers refuse `EVP_CTRL_KEY_MESH` (`default` of their control functions). -/
def prov_aead_set_ctx_params (c : AeadCtx alg) (p : PcParams) : AeadCtx alg × Bool :=
  match c.data with
  | none => (c, p.padding.isNone && p.keyMesh.isNone && p.ivlen.isNone && p.tag.isNone)
  | some s =>
    if p.keyMesh.isSome then (c, false)
    else
      let r := paSetAead s p
      ({ data := some r.1 }, r.2)

/-- `EVP_CipherInit_ex` with the cipher and the engine: `EVP_CTRL_INIT` for a context without a cipher, then the init function. -/
def evpAeadInit (ks0 : alg.KS) (c : AeadCtx alg) (key iv : Option Bytes) (enc : Bool) : AeadCtx alg :=
  let s := match c.data with
    | none => mgm_ctrl_init (mgmZero ks0)
    | some s => s
  { data := some (cipher_init_mgm s key iv enc) }

/-- `cipher_encrypt_init`, `cipher_decrypt_init`, `/repo/gost_prov_cipher.c` lines 210-239: `keylen` and `ivlen` are the lengths the caller
states; only lengths above the cipher's (32, and the block length) are refused. -/
def prov_aead_init (ks0 : alg.KS) (c : AeadCtx alg) (key iv : Option Bytes) (keylen ivlen : Nat) (p : PcParams) (enc : Bool) :
    AeadCtx alg × Bool :=
  let r := prov_aead_set_ctx_params c p
  if r.2 then
    if 32 < keylen ∨ alg.bl < ivlen then (r.1, false) else (evpAeadInit ks0 r.1 key iv enc, true)
  else r

/-- A call of `do_cipher` by EVP: a negative result is a failure. -/
def paDo (s : MgmCtx alg) (out : Bool) (inp : Option Bytes) : AeadCtx alg × Bytes × Bool :=
  let r := cipher_do_mgm s out inp
  ({ data := some r.1 }, r.2.1, decide (0 ≤ r.2.2))

/-- `cipher_update`, `/repo/gost_prov_cipher.c` lines 241-252; `out = false`: no output buffer (associated data).  `inp = none`: NULL as
input, which the ciphers take for the final call. -/
def prov_aead_update (c : AeadCtx alg) (out : Bool) (inp : Option Bytes) : AeadCtx alg × Bytes × Bool :=
  match c.data with
  | none => (c, [], false)
  | some s =>
    match inp with
    | none => paDo s out none
    | some d => if intMax < d.length then (c, [], false) else paDo s out (some d)

/-- `cipher_final`, `/repo/gost_prov_cipher.c` lines 254-264. -/
def prov_aead_final (c : AeadCtx alg) : AeadCtx alg × Bytes × Bool :=
  match c.data with
  | none => (c, [], false)
  | some s => paDo s true none

/-- `cipher_get_ctx_params` with `tag` (`OSSL_CIPHER_PARAM_AEAD_TAG`), `/repo/gost_prov_cipher.c` lines 144-152: `n` is the size of the
caller's buffer; `none`: it returns 0. -/
def prov_aead_get_tag (c : AeadCtx alg) (n : Nat) : Option Bytes :=
  match c.data with
  | none => none
  | some s => mgm_ctrl_get_tag s (intOfSize n)

/-- `cipher_get_params` with `ivlen`, `/repo/gost_prov_cipher.c` lines 98-114: that of the cipher, whatever the context has. -/
def prov_aead_ivlen (alg : MgmAlg) : Nat := alg.bl

end Gost
