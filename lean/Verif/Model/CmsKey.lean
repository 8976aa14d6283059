import Verif.Model.KeyTransport

/-!
# Signer and recipient information of CMS and PKCS#7

Models `pkey_ctrl_gost` and the functions it calls, `/repo/gost_ameth.c` lines 227-537, on contexts of `Model/KeyTransport`.

Not modelled: OpenSSL's CMS structures beyond the fields these functions read and write.  `EVP_get_cipherbynid` is assumed to find the
two wrap ciphers, which the engine registers.  Allocation never fails.
-/

namespace Gost

/-- Algorithm identifiers met in a recipient information. -/
inductive CmsNid where
  | key (n : PkeyNid)
  | kexp15 (n : OmacCipher)
  | other (k : Nat)
  deriving DecidableEq

/-- `X509_ALGOR` of a recipient information. -/
structure CmsAlg where
  nid : CmsNid
  params : AsnType

/-- The algorithms set for a signature, `/repo/gost_ameth.c` lines 421-461 (`ASN1_PKEY_CTRL_PKCS7_SIGN` and `ASN1_PKEY_CTRL_CMS_SIGN`
with `arg1 = 0`; both with parameter NULL): digest and signature algorithm. -/
def signerAlgs (pkey : EvpPkey) : DgstNid × PkeyNid := (defaultDigest pkey.nid, pkey.nid)

/-- `ASN1_PKEY_CTRL_PKCS7_ENCRYPT` with `arg1 = 0`, `/repo/gost_ameth.c` lines 462-472; `none` for −1. -/
def pkcs7_encrypt_alg (D : KeyDer) (pkey : EvpPkey) : Option CmsAlg :=
  match encode_gost_algor_params D pkey with
  | none => none
  | some der => some ⟨.key pkey.nid, .seq der⟩

/-- The key agreement algorithm named in the parameters (992 and 993 are OpenSSL's numbers for the two identifiers),
`/repo/gost_ameth.c` lines 496-498 and `gost_encode_cms_params`, lines 378-411. -/
def gost_encode_cms_params (D : KeyDer) (nid : PkeyNid) : Bytes :=
  D.encParams { key_params := .other (if nid = .gost2012_256 then 992 else 993), hash_params := none }

/-- `ASN1_PKEY_CTRL_CMS_ENVELOPE` with `arg1 = 0`, `/repo/gost_ameth.c` lines 474-512, for a key transport recipient: the algorithm set;
`none` for −1. -/
def cms_envelope_alg (D : KeyDer) (c : PkeyCtx) : Option CmsAlg :=
  match c.data.cipher_nid with
  | .magma_ctr => some ⟨.kexp15 .magma, .seq (gost_encode_cms_params D c.pkey.nid)⟩
  | .kuznyechik_ctr => some ⟨.kexp15 .kuznyechik, .seq (gost_encode_cms_params D c.pkey.nid)⟩
  | _ => pkcs7_encrypt_alg D c.pkey

/-- `gost_cms_set_ktri_shared_info`, `/repo/gost_ameth.c` lines 332-361: the context and the value returned. -/
def gost_cms_set_ktri_shared_info (c : PkeyCtx) (alg : CmsAlg) : PkeyCtx × Int :=
  match alg.nid with
  | .kexp15 .kuznyechik => ({ c with data := { c.data with cipher_nid := .kuznyechik_ctr } }, 1)
  | .kexp15 .magma => ({ c with data := { c.data with cipher_nid := .magma_ctr } }, 1)
  | .key _ => ({ c with data := { c.data with cipher_nid := .gost28147_89 } }, 1)
  | .other _ => (c, 0)

/-- A key agreement recipient information: the algorithm, the UKM (`none` when absent), the originator's public key when the structure
has it, and the cipher context.  `beyond` is what lies in memory after the bytes of the UKM. -/
structure Kari where
  alg : CmsAlg
  ukm : Option Bytes
  orig : Option KeyInfo
  ctx : WrapCtx
  beyond : Bytes

/-- The outcome for a key agreement recipient: NULL is used, or the contexts, the value returned, and whether the originator's key inside
the recipient information was freed (`X509_PUBKEY_free(tmp)` frees what `X509_PUBKEY_set0_param` took from it). -/
inductive KariRes where
  | crash
  | ret (c : PkeyCtx) (ctx : WrapCtx) (code : Int) (freed : Bool)

/-- The originator's key becomes the peer key, `/repo/gost_ameth.c` lines 278-309; `none` for an error. -/
def kariPeer (D : KeyDer) (cache : GroupCache) (c : PkeyCtx) (orig : Option KeyInfo) : Option PkeyCtx :=
  match orig with
  | none => some c
  | some ki =>
    match (pub_decode D cache ki).2 with
    | none => none
    | some peer => derive_set_peer c peer

/-- `gost_cms_set_kari_shared_info`, `/repo/gost_ameth.c` lines 234-330; `junk` is the initial contents of `shared_key`. -/
def gost_cms_set_kari_shared_info (v : KxEnv) (cache : GroupCache) (c : PkeyCtx) (ri : Kari) (junk : Bytes) : KariRes :=
  match ri.alg.params with
  | .other => .ret c ri.ctx 0 false
  | .seq _ =>
    match ri.alg.nid with
    | .kexp15 n =>
      match ri.ukm with
      | none => .crash
      | some ukm =>
        let r := pkey_gost_ctrl (some c.pkey) c.data (.setIv ukm.length (some ukm))
        if r.2 ≤ 0 then .ret c ri.ctx 0 false
        else
          let c := { c with data := r.1 }
          match kariPeer v.der cache c ri.orig with
          | none => .ret c ri.ctx 0 ri.orig.isSome
          | some c =>
            match pkey_gost_ec_derive v c false with
            | .key k => .ret c (wrap_init n ri.ctx (some (k ++ junk.drop k.length)) (some ((ukm ++ ri.beyond).drop 24)) false) 1 false
            | _ => .ret c ri.ctx 0 ri.orig.isSome
    | _ => .ret c ri.ctx 0 false

/-- A recipient information. -/
inductive RecipientInfo where
  | trans (alg : CmsAlg)
  | agree (k : Kari)
  | other

/-- `ASN1_PKEY_CTRL_CMS_RI_TYPE` and `ASN1_PKEY_CTRL_CMS_IS_RI_TYPE_SUPPORTED`, `/repo/gost_ameth.c` lines 516-527:
`CMS_RECIPINFO_TRANS` is 0, `CMS_RECIPINFO_AGREE` is 1. -/
def cmsRiType : Int := 0
def cmsRiSupported (type : Int) : Bool := type = 0 ∨ type = 1

end Gost
