import Verif.Model.GostModes
import Verif.Model.KuzModes

/-!
# Algorithm parameters of the ciphers (ASN.1)

Models `gost2015_get_asn1_params`, `gost2015_set_asn1_params` (`/repo/gost_gost2015.c`) and the
`set_asn1_parameters` / `get_asn1_parameters` callbacks of the ciphers (`/repo/gost_crypt.c`,
`/repo/gost_grasshopper_cipher.c`).

Not modelled: OpenSSL's DER encoder and decoder.  They are the functions of an arbitrary `Asn1Codec`;
the theorems assume of them only `Asn1Codec.Sound` (what was encoded is decoded to the same value).
Memory allocation never fails.  The contexts of the mode models have no `kdf_seed` and no
`paramNID`; those two fields are carried separately here.
-/

namespace Gost

/-- What an `ASN1_TYPE` holds, as far as the callbacks look: a `SEQUENCE` with its DER bytes, or
anything else (including nothing). -/
inductive AsnType where
  | seq (der : Bytes)
  | other

/-- An OBJECT IDENTIFIER as `OBJ_obj2nid` sees it: the parameter sets of `gost_cipher_list`, an
identifier known to OpenSSL that is not in that list, or an unknown one (`NID_undef`). -/
inductive AsnObj where
  | known (p : ParamNID)
  | foreign
  | undef
  deriving DecidableEq

/-- OpenSSL's DER functions for `GOST2015_CIPHER_PARAMS ::= SEQUENCE { ukm OCTET STRING }` and
`GOST_CIPHER_PARAMS ::= SEQUENCE { iv OCTET STRING, enc_param_set OBJECT }`
(`/repo/gost_asn1.c` lines 44-54).  `dec…` returns `none` when `d2i` returns NULL. -/
structure Asn1Codec where
  enc2015 : Bytes → Bytes
  dec2015 : Bytes → Option Bytes
  enc89 : Bytes → Option ParamNID → Bytes
  dec89 : Bytes → Option (Bytes × AsnObj)

/-- What is assumed of OpenSSL's DER functions: short strings are decoded to what was encoded, and
an encoded structure whose object is "undefined" is not decoded to a known object. -/
structure Asn1Codec.Sound (cd : Asn1Codec) : Prop where
  r2015 : ∀ u, u.length ≤ 16 → cd.dec2015 (cd.enc2015 u) = some u
  r89 : ∀ iv p, iv.length ≤ 16 → cd.dec89 (cd.enc89 iv (some p)) = some (iv, .known p)
  r89undef : ∀ iv, cd.dec89 (cd.enc89 iv none) = none ∨ ∃ iv', cd.dec89 (cd.enc89 iv none) = some (iv', .undef)

/-- `gost2015_get_asn1_params`, `/repo/gost_gost2015.c` lines 52-87.  Returns the code, the 16-byte
`iv` buffer and the `kdf_seed` buffer. -/
def gost2015_get_asn1_params (cd : Asn1Codec) (params : AsnType) (ukm_size ukm_offset : Nat) (kdf_seed : Bytes) :
    Int × Bytes × Bytes :=
  let iv := zeros 16
  match params with
  | .other => (0, iv, kdf_seed)
  | .seq der =>
    match cd.dec2015 der with
    | none => (0, iv, kdf_seed)
    | some ukm =>
      if ukm.length ≠ ukm_size then (0, iv, kdf_seed)
      else (1, memcpy iv ukm ukm_offset, memcpy kdf_seed (ukm.drop ukm_offset) 8)

/-- `gost2015_set_asn1_params`, `/repo/gost_gost2015.c` lines 89-130. -/
def gost2015_set_asn1_params (cd : Asn1Codec) (iv : Bytes) (iv_size : Nat) (kdf_seed : Bytes) : Int × AsnType :=
  (1, .seq (cd.enc2015 (iv.take iv_size ++ kdf_seed.take 8)))

/-- `EVP_CIPHER_CTX_mode(ctx) == EVP_CIPH_CTR_MODE` for the Kuznyechik ciphers,
`/repo/gost_grasshopper_cipher.c` lines 45-128 (the flags). -/
def kuzIsCtr : KType → Bool
  | .ctr | .ctracpkm | .ctracpkmomac => true
  | .ecb | .cbc | .ofb | .cfb => false

/-- `gost_grasshopper_set_asn1_parameters`, `/repo/gost_grasshopper_cipher.c` lines 983-995: code,
context, and the parameters written (`none` = `params` untouched). -/
def gost_grasshopper_set_asn1_parameters (cd : Asn1Codec) (c : KCtx) (kdf_seed : Bytes) :
    Int × KCtx × Option AsnType :=
  if kuzIsCtr c.type then
    let c := { c with section_size := 256 * 1024 }
    let r := gost2015_set_asn1_params cd c.oiv 8 kdf_seed
    (r.1, c, some r.2)
  else (0, c, none)

/-- `gost_grasshopper_get_asn1_parameters`, `/repo/gost_grasshopper_cipher.c` lines 997-1018. -/
def gost_grasshopper_get_asn1_parameters (cd : Asn1Codec) (c : KCtx) (kdf_seed : Bytes) (params : AsnType) :
    Int × KCtx × Bytes :=
  if kuzIsCtr c.type then
    let r := gost2015_get_asn1_params cd params 16 8 kdf_seed
    if r.1 = 0 then (0, c, r.2.2)
    else (1, { c with iv := memcpyTo c.iv r.2.1 16, oiv := memcpyTo c.oiv r.2.1 16, section_size := 256 * 1024 }, r.2.2)
  else (0, c, kdf_seed)

/-- `magma_set_asn1_parameters`, `/repo/gost_crypt.c` lines 1460-1467. -/
def magma_set_asn1_parameters (cd : Asn1Codec) (e : CipherCtx) (kdf_seed : Bytes) : Int × CipherCtx × AsnType :=
  let e := { e with key_meshing := 8192 }
  let r := gost2015_set_asn1_params cd e.oiv 4 kdf_seed
  (r.1, e, r.2)

/-- `magma_get_asn1_parameters`, `/repo/gost_crypt.c` lines 1469-1486.  The C code copies 16 bytes
into the two IV buffers (which have 16 bytes); the model's buffers hold the first 8 of them, the
only ones the ciphers use. -/
def magma_get_asn1_parameters (cd : Asn1Codec) (e : CipherCtx) (kdf_seed : Bytes) (params : AsnType) :
    Int × CipherCtx × Bytes :=
  let e := { e with key_meshing := 8192 }
  let r := gost2015_get_asn1_params cd params 12 4 kdf_seed
  if r.1 < 0 then (-1, e, r.2.2)
  else (1, { e with iv := memcpy e.iv r.2.1 8, oiv := memcpy e.oiv r.2.1 8, key_meshing := 8192 }, r.2.2)

/-- The outcome of a call that may dereference a null pointer. -/
inductive AsnOutcome (σ : Type) where
  | ret (code : Int) (s : σ)
  | nullDeref

/-- `gost89_set_asn1_parameters`, `/repo/gost_crypt.c` lines 1369-1411: the current IV (8 bytes) and
the parameter-set identifier; `paramNID = none` models the value 0 (`NID_undef`) of a context whose
parameter set was never recorded. -/
def gost89_set_asn1_parameters (cd : Asn1Codec) (e : CipherCtx) (paramNID : Option ParamNID) : Int × AsnType :=
  (1, .seq (cd.enc89 (e.iv.take 8) paramNID))

/-- `gost89_get_asn1_parameters`, `/repo/gost_crypt.c` lines 1414-1457: the state is the context and
`paramNID`.  `gcp` is used without a check, so a decoding failure is a null dereference. -/
def gost89_get_asn1_parameters (cd : Asn1Codec) (e : CipherCtx) (paramNID : Option ParamNID) (params : AsnType) :
    AsnOutcome (CipherCtx × Option ParamNID) :=
  match params with
  | .other => .ret (-1) (e, paramNID)
  | .seq der =>
    match cd.dec89 der with
    | none => .nullDeref
    | some (iv, obj) =>
      if iv.length ≠ 8 then .ret (-1) (e, paramNID)
      else match obj with
        | .undef => .ret (-1) (e, paramNID)
        | .foreign => .ret (-1) (e, paramNID)
        | .known p =>
          let e := gost_cipher_set_param e p
          .ret 1 ({ e with oiv := memcpy e.oiv iv 8 }, some p)

/-- The `paramNID` field after an initialisation of a fresh context: `gost_cipher_init_param` records
it (`/repo/gost_crypt.c` lines 401-413, 416-425); `gost_cipher_init_cnt` (lines 438-457) does not, so it
stays 0. -/
def paramNIDAfterInit (cnt : Bool) (env : Option (Option ParamNID)) : Option ParamNID :=
  if cnt then none else get_encryption_params none env

end Gost
