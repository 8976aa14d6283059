import Verif.Model.CipherAsn1
import Verif.Model.ProvAead

/-!
# Algorithm parameters through the provider

The parameter `alg_id_param` of `cipher_get_ctx_params` and `cipher_set_ctx_params` (`/repo/gost_prov_cipher.c` lines 116-172), and the
ASN.1 methods the MGM ciphers inherit from their templates.

Not modelled: OpenSSL's DER functions for `ASN1_TYPE`: `d2i_ASN1_TYPE` is a function `decAny`; the encoding of a `SEQUENCE` is its DER
bytes.  Allocation does not fail.  `EVP_CIPHER_param_to_asn1` and `EVP_CIPHER_asn1_to_param` of a context without a cipher fail.
-/

namespace Gost

variable {σ : Type}

/-- The ASN.1 methods of a cipher: `set_asn1_parameters` (code, context, what it put into the `ASN1_TYPE`: `none`, untouched) and
`get_asn1_parameters`. -/
structure AsnMeth (σ : Type) where
  store : σ → Int × σ × Option AsnType
  load : σ → AsnType → AsnOutcome σ

/-- What a parameter of the caller's array is filled with: the length, and the bytes if there is a buffer. -/
structure ParamOut where
  len : Nat
  bytes : Option Bytes
  deriving DecidableEq

/-- `OSSL_PARAM_set_octet_string(p, val, len)`; `cap`: the size of the caller's buffer, `none`: NULL (the length is asked for). `mem n`: the byte at
`val + n`. -/
def setOctetString (cap : Option Nat) (mem : Nat → Byte) (len : Nat) : Option ParamOut :=
  match cap with
  | none => some ⟨len, none⟩
  | some n => if n < len then none else some ⟨len, some ((List.range len).map mem)⟩

/-- `cipher_get_ctx_params` with `alg_id_param`, `/repo/gost_prov_cipher.c` lines 123-135: the address given to
`OSSL_PARAM_set_octet_string` is `&der`, that of the variable, so that the bytes are taken from the stack: `stack n` is the byte at
`(unsigned char *)&der + n`. `none`: it returns 0. -/
def prov_get_algid (A : AsnMeth σ) (stack : Nat → Byte) (c : EvpCtx σ) (cap : Option Nat) : EvpCtx σ × Option ParamOut :=
  match c.data with
  | none => (c, none)
  | some s =>
    let r := A.store s
    if r.1 ≤ 0 then ({ c with data := some r.2.1 }, none)
    else
      match r.2.2 with
      | some (.seq der) => ({ c with data := some r.2.1 }, setOctetString cap stack der.length)
      | _ => ({ c with data := some r.2.1 }, none)

/-- What `cipher_set_ctx_params` does with `alg_id_param`, `/repo/gost_prov_cipher.c` lines 161-173. `AsnOutcome.nullDeref`: the process ends. -/
def prov_set_algid (A : AsnMeth σ) (decAny : Bytes → Option AsnType) (c : EvpCtx σ) (der : Bytes) : AsnOutcome (EvpCtx σ) :=
  match decAny der, c.data with
  | some t, some s =>
    match A.load s t with
    | .ret code s => .ret (if 0 < code then 1 else 0) { c with data := some s }
    | .nullDeref => .nullDeref
  | _, _ => .ret 0 c

/-- `cipher_set_ctx_params`, `/repo/gost_prov_cipher.c` lines 156-208, with all parameters it looks for: after `alg_id_param` it returns. -/
def prov_set_params (M : EvpMeth σ) (A : AsnMeth σ) (decAny : Bytes → Option AsnType) (c : EvpCtx σ) (algid : Option Bytes) (p : PcParams) :
    AsnOutcome (EvpCtx σ) :=
  match algid with
  | some der => prov_set_algid A decAny c der
  | none =>
    let r := prov_cipher_set_ctx_params M c p
    .ret (if r.2 then 1 else 0) r.1

/-- The methods of the Kuznyechik ciphers (`/repo/gost_grasshopper_cipher.c` lines 39-40); the KDF seed of the contexts, which these ciphers do not use, is
`seed`. -/
def kuzAsn (cd : Asn1Codec) (seed : Bytes) : AsnMeth KCtx where
  store c := gost_grasshopper_set_asn1_parameters cd c seed
  load c t := .ret (gost_grasshopper_get_asn1_parameters cd c seed t).1 (gost_grasshopper_get_asn1_parameters cd c seed t).2.1

/-- The methods of `magma_template_cipher` (`/repo/gost_crypt.c` lines 202-203). -/
def magmaAsn (cd : Asn1Codec) (seed : Bytes) : AsnMeth CipherCtx where
  store e := ((magma_set_asn1_parameters cd e seed).1, (magma_set_asn1_parameters cd e seed).2.1, some (magma_set_asn1_parameters cd e seed).2.2)
  load e t := .ret (magma_get_asn1_parameters cd e seed t).1 (magma_get_asn1_parameters cd e seed t).2.1

/-- The methods of `gost_template_cipher` (`/repo/gost_crypt.c` lines 151-152); `paramNID` of the contexts is `nid`. -/
def gost89Asn (cd : Asn1Codec) (nid : Option ParamNID) : AsnMeth CipherCtx where
  store e := ((gost89_set_asn1_parameters cd e nid).1, e, some (gost89_set_asn1_parameters cd e nid).2)
  load e t :=
    match gost89_get_asn1_parameters cd e nid t with
    | .ret code (e, _) => .ret code e
    | .nullDeref => .nullDeref

/-! ## Magma MGM -/

/-- An EVP context of `magma_mgm_cipher` as the methods of `magma_template_cipher` see it: the cipher data `gost_mgm_ctx` begin with a
`struct ossl_gost_cipher_ctx` (`/repo/gost_gost2015.h` lines 49-62), whose `key_meshing` and `kdf_seed` the methods use; `oiv`: the field `oiv` of
`EVP_CIPHER_CTX`, which nobody writes for a cipher with `EVP_CIPH_CUSTOM_IV` but the cipher itself. -/
structure MagmaMgmCtx where
  mgm : MgmCtx magmaMgm
  oiv : Bytes
  kdf_seed : Bytes
  key_meshing : Nat

/-- `EVP_CipherInit_ex` on a new context: zeroed memory, `EVP_CTRL_INIT`, then `gost_magma_cipher_init_mgm` (`/repo/gost_crypt.c` lines 615-654,
which touches neither `oiv` nor the two fields; `gost_cipher_set_param` sets `key_meshing`, `/repo/gost_crypt.c` lines 360-380, here left at 1). -/
def magmaMgmInit (ks0 : magmaMgm.KS) (key iv : Option Bytes) (enc : Bool) : MagmaMgmCtx :=
  ⟨cipher_init_mgm (mgm_ctrl_init (mgmZero ks0)) key iv enc, zeros 16, zeros 8, 1⟩

/-- `EVP_CipherInit_ex` again. -/
def magmaMgmReinit (c : MagmaMgmCtx) (key iv : Option Bytes) (enc : Bool) : MagmaMgmCtx := { c with mgm := cipher_init_mgm c.mgm key iv enc }

/-- `magma_set_asn1_parameters` on such a context, `/repo/gost_crypt.c` lines 1460-1467. -/
def magma_mgm_set_asn1 (cd : Asn1Codec) (c : MagmaMgmCtx) : Int × MagmaMgmCtx × AsnType :=
  let r := gost2015_set_asn1_params cd c.oiv 4 c.kdf_seed
  (r.1, { c with key_meshing := 8192 }, r.2)

/-- `magma_get_asn1_parameters` on such a context, `/repo/gost_crypt.c` lines 1469-1486. -/
def magma_mgm_get_asn1 (cd : Asn1Codec) (c : MagmaMgmCtx) (params : AsnType) : Int × MagmaMgmCtx :=
  let r := gost2015_get_asn1_params cd params 12 4 c.kdf_seed
  if r.1 < 0 then (-1, { c with key_meshing := 8192, kdf_seed := r.2.2 })
  else (1, { mgm := { c.mgm with iv := memcpyTo c.mgm.iv r.2.1 16 }, oiv := memcpyTo c.oiv r.2.1 16, kdf_seed := r.2.2, key_meshing := 8192 })

end Gost
