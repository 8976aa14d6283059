import Verif.Model.Ec
import Verif.Model.EcpFiles
import Verif.Model.CipherAsn1

/-!
# Keys as OpenSSL objects: algorithm parameters, SubjectPublicKeyInfo, PKCS#8, parameter and key generation

Models `/repo/gost_ameth.c` (algorithm parameters, public and private key codecs, copying and comparing parameters) and the
parameter and key generation of `/repo/gost_pmeth.c`, on top of the models of the curve tables (`EcParams`), of the point
multiplications (`EcpFiles`) and of the raw key encodings (`Ec`).

Not modelled: OpenSSL's DER functions, which are the fields of an arbitrary `KeyDer`; allocation never fails; an `EVP_PKEY` whose
type the engine does not serve.
-/

namespace Gost

open Spec (leNat beNat leBytes beBytes)

/-- An `EVP_PKEY` of the engine: its type and the fields of its `EC_KEY`. -/
structure EvpPkey where
  nid : PkeyNid
  group : Option EcGroupRec
  priv : Option Nat
  pub : Option EcPoint
  deriving DecidableEq

/-- The digest parameter of a key, `/repo/gost_ameth.c` lines 68-98; `other` is any other identifier. -/
inductive HashNid where
  | r3411_94_CryptoPro | r3411_2012_256 | r3411_2012_512 | other
  deriving DecidableEq

/-- `GOST_KEY_PARAMS ::= SEQUENCE { key_params OBJECT, hash_params OBJECT OPTIONAL, cipher_params OBJECT OPTIONAL }`,
`/repo/gost_asn1.c` lines 43-49.  The third field is neither written nor looked at and is left out. -/
structure KeyParams where
  key_params : CurveNid
  hash_params : Option HashNid
  deriving DecidableEq

/-- OpenSSL's DER functions for the structures of a key: `GOST_KEY_PARAMS`, OCTET STRING, INTEGER, `MASKED_GOST_KEY` (only the
field `masked_priv_key`) and OBJECT IDENTIFIER.  `dec…` returns `none` when `d2i` returns NULL. -/
structure KeyDer where
  encParams : KeyParams → Bytes
  decParams : Bytes → Option KeyParams
  encOctet : Bytes → Bytes
  decOctet : Bytes → Option Bytes
  encObject : CurveNid → Bytes
  decObject : Bytes → Option CurveNid
  decInteger : Bytes → Option Nat
  decMasked : Bytes → Option Bytes

/-- What is assumed of OpenSSL's DER functions: what was encoded is decoded to the same value (for the named curves and strings of
less than 64 KiB), and an OCTET STRING of less than 128 bytes has the two-byte header of DER. -/
structure KeyDer.Sound (D : KeyDer) : Prop where
  params : ∀ v : KeyParams, (∀ n, v.key_params ≠ .other n) → D.decParams (D.encParams v) = some v
  octet : ∀ x : Bytes, x.length < 65536 → D.decOctet (D.encOctet x) = some x
  octet_header : ∀ x : Bytes, x.length < 128 → D.encOctet x = 4 :: BitVec.ofNat 8 x.length :: x
  object : ∀ c : CurveNid, (∀ n, c ≠ .other n) → D.decObject (D.encObject c) = some c

/-- `X509_ALGOR`: the algorithm (`none`: not one of the engine's key types) and its parameter. -/
structure X509Algor where
  alg : Option PkeyNid
  params : AsnType

/-- `X509_PUBKEY` and `PKCS8_PRIV_KEY_INFO`: an algorithm and the key octets. -/
structure KeyInfo where
  algor : X509Algor
  key : Bytes

/-- The `switch` of `encode_gost_algor_params` that sets `hash_params`, `/repo/gost_ameth.c` lines 68-99. -/
def hashParams (nid : PkeyNid) (curve : CurveNid) : Option HashNid :=
  match nid with
  | .gost2012_256 =>
    match curve with
    | .Test | .CryptoPro_A | .CryptoPro_B | .CryptoPro_C | .CryptoPro_XchA | .CryptoPro_XchB => some .r3411_2012_256
    | _ => none
  | .gost2012_512 =>
    match curve with
    | .tc26_512_paramSetTest | .tc26_512_paramSetA | .tc26_512_paramSetB => some .r3411_2012_512
    | _ => none
  | .gost2001 | .gost2001DH => some .r3411_94_CryptoPro

/-- `encode_gost_algor_params`, `/repo/gost_ameth.c` lines 56-122: the bytes of the SEQUENCE, `none` for NULL.  The code reads the
curve name of the group without checking that there is a group; a key without one is mapped to `none` here. -/
def encode_gost_algor_params (D : KeyDer) (key : EvpPkey) : Option Bytes :=
  match key.group with
  | none => none
  | some g =>
    if g.name = .other 0 then none
    else some (D.encParams { key_params := g.name, hash_params := hashParams key.nid g.name })

/-- `gost_decode_nid_params`, `/repo/gost_ameth.c` lines 124-144. -/
def gost_decode_nid_params (cache : GroupCache) (pkey : EvpPkey) (param_nid : CurveNid) : GroupCache × Option EvpPkey :=
  match fill_GOST_EC_params cache param_nid with
  | (cache, none) => (cache, none)
  | (cache, some g) => (cache, some { pkey with group := some g })

/-- `decode_gost_algor_params`, `/repo/gost_ameth.c` lines 150-184: `EVP_PKEY_set_type` empties the key. -/
def decode_gost_algor_params (D : KeyDer) (cache : GroupCache) (palg : X509Algor) : GroupCache × Option EvpPkey :=
  match palg.params with
  | .other => (cache, none)
  | .seq der =>
    match D.decParams der with
    | none => (cache, none)
    | some gkp =>
      match palg.alg with
      | none => (cache, none)
      | some nid => gost_decode_nid_params cache { nid := nid, group := none, priv := none, pub := none } gkp.key_params

/-- OpenSSL's `EC_POINT_set_affine_coordinates`: coordinates are reduced modulo `p`; they must satisfy the equation. -/
def EcGroupRec.point (g : EcGroupRec) (x y : Nat) : Option EcPoint :=
  if g.setAffine x y then some (some (x % g.p, y % g.p)) else none

/-- `pub_decode_gost_ec`, `/repo/gost_ameth.c` lines 905-962. -/
def pub_decode (D : KeyDer) (cache : GroupCache) (pub : KeyInfo) : GroupCache × Option EvpPkey :=
  match decode_gost_algor_params D cache pub.algor with
  | (cache, none) => (cache, none)
  | (cache, some pk) =>
    match pk.group with
    | none => (cache, none)
    | some g =>
      match D.decOctet pub.key with
      | none => (cache, none)
      | some octet =>
        match pub_decode_gost_ec g.point octet with
        | none => (cache, none)
        | some pub_key => (cache, some { pk with pub := some pub_key })

/-- `pub_encode_gost_ec`, `/repo/gost_ameth.c` lines 964-1045.  (When the parameters cannot be encoded the code continues with a
NULL parameter; it is mapped to failure here.) -/
def pub_encode (D : KeyDer) (ws : WordSize) (ossl : EcpFile) (pk : EvpPkey) : Option KeyInfo :=
  match encode_gost_algor_params D pk, pk.group, pk.pub with
  | some params, some g, some pub_key =>
    match pub_encode_gost_ec (engineGroup ws ossl g) pub_key with
    | none => none
    | some octet => some { algor := { alg := some pk.nid, params := .seq params }, key := D.encOctet octet }
  | _, _, _ => none

/-- `gost_ec_compute_public` on a key, `/repo/gost_ec_sign.c` lines 449-498; `none` for 0. -/
def computePublic (ws : WordSize) (ossl : EcpFile) (pk : EvpPkey) : Option EvpPkey :=
  match pk.group, pk.priv with
  | some g, some d =>
    match gost_ec_compute_public (engineGroup ws ossl g) d with
    | none => none
    | some Q => some { pk with pub := some Q }
  | _, _ => none

/-- `gost_set_priv_key`, `/repo/gost_ameth.c` lines 186-209. -/
def gost_set_priv_key (ws : WordSize) (ossl : EcpFile) (pk : EvpPkey) (priv : Nat) : Option EvpPkey :=
  let pk := { pk with priv := some priv }
  match pk.group with
  | some _ => computePublic ws ossl pk
  | none => some pk

/-- The DER decoders handed to the decoder of the private key octets. -/
def KeyDer.priv (D : KeyDer) : DerIn where
  d2i_octet := D.decOctet
  d2i_integer := D.decInteger
  d2i_masked := D.decMasked

/-- `priv_decode_gost`, `/repo/gost_ameth.c` lines 588-667 (`priv_decode_gost` of the model `Ec` is its part on the octets). -/
def priv_decode (D : KeyDer) (ws : WordSize) (ossl : EcpFile) (cache : GroupCache) (p8 : KeyInfo) : GroupCache × Option EvpPkey :=
  match decode_gost_algor_params D cache p8.algor with
  | (cache, none) => (cache, none)
  | (cache, some pk) =>
    match pk.group with
    | none => (cache, none)
    | some g =>
      match priv_decode_gost D.priv g.q pk.nid p8.key with
      | none => (cache, none)
      | some d => (cache, gost_set_priv_key ws ossl pk d)

/-- `priv_encode_gost`, `/repo/gost_ameth.c` lines 670-722; `wrap` is the setting `GOST_PK_FORMAT = LEGACY_PK_WRAP`, `buf0` the
contents of the buffer allocated. -/
def priv_encode (D : KeyDer) (wrap : Bool) (pk : EvpPkey) (buf0 : Bytes) : Option KeyInfo :=
  match pk.priv with
  | none => none
  | some d =>
    match priv_encode_gost D.encOctet wrap pk.nid d buf0, encode_gost_algor_params D pk with
    | some octets, some params => some { algor := { alg := some pk.nid, params := .seq params }, key := octets }
    | _, _ => none

/-- `param_missing_gost_ec`, `/repo/gost_ameth.c` lines 841-849. -/
def param_missing (pk : EvpPkey) : Int := if pk.group = none then 1 else 0

/-- `param_copy_gost_ec`, `/repo/gost_ameth.c` lines 851-883: the new destination, or `none` for 0. -/
def param_copy (ws : WordSize) (ossl : EcpFile) (dst src : EvpPkey) : Option EvpPkey :=
  if src.nid ≠ dst.nid then none
  else
    match src.group with
    | none => none
    | some g =>
      let dst := { dst with group := some g }
      match dst.priv with
      | some _ => computePublic ws ossl dst
      | none => some dst

/-- `param_cmp_gost_ec`, `/repo/gost_ameth.c` lines 885-902. -/
def param_cmp (a b : EvpPkey) : Int :=
  match a.group, b.group with
  | some g, some h => if g.name = h.name then 1 else 0
  | _, _ => 0

/-- `pub_cmp_gost_ec`, `/repo/gost_ameth.c` lines 1047-1059.  `EC_POINT_cmp` refuses (−1) a point of a group with another name. -/
def pub_cmp (a b : EvpPkey) : Int :=
  match a.group, b.group, a.pub, b.pub with
  | some g, some h, some P, some Q => if g.name = h.name ∧ P = Q then 1 else 0
  | _, _, _, _ => 0

/-- `gost2001_param_encode`, `/repo/gost_ameth.c` lines 1133-1139 (of a key with a group). -/
def gost2001_param_encode (D : KeyDer) (g : EcGroupRec) : Bytes := D.encObject g.name

/-- `gost2001_param_decode`, `/repo/gost_ameth.c` lines 1141-1153: a key of type 2001 (the key object is assigned anew when it had
no `EC_KEY`; `pk` is the key before, if it had one). -/
def gost2001_param_decode (D : KeyDer) (cache : GroupCache) (pk : Option EvpPkey) (der : Bytes) : GroupCache × Option EvpPkey :=
  match D.decObject der with
  | none => (cache, none)
  | some nid => gost_decode_nid_params cache (pk.getD { nid := .gost2001, group := none, priv := none, pub := none }) nid

/-! ## Parameter and key generation -/

/-- `pkey_gost2001_paramgen`, `/repo/gost_pmeth.c` lines 373-390; `sign_param_nid = none` is `NID_undef`. -/
def pkey_gost2001_paramgen (cache : GroupCache) (sign_param_nid : Option CurveNid) : GroupCache × Option EvpPkey :=
  match sign_param_nid with
  | none => (cache, none)
  | some nid => gost_decode_nid_params cache { nid := .gost2001, group := none, priv := none, pub := none } nid

/-- The second `switch` of `pkey_gost2012_paramgen`, `/repo/gost_pmeth.c` lines 409-434. -/
def paramgenType : CurveNid → Option PkeyNid
  | .tc26_512_paramSetA | .tc26_512_paramSetB | .tc26_512_paramSetC | .tc26_512_paramSetTest => some .gost2012_512
  | .CryptoPro_A | .CryptoPro_B | .CryptoPro_C | .CryptoPro_XchA | .CryptoPro_XchB | .Test
  | .tc26_256_paramSetA | .tc26_256_paramSetB | .tc26_256_paramSetC | .tc26_256_paramSetD => some .gost2012_256
  | .other _ => none

/-- `pkey_gost2012_paramgen`, `/repo/gost_pmeth.c` lines 392-440. -/
def pkey_gost2012_paramgen (cache : GroupCache) (sign_param_nid : Option CurveNid) : GroupCache × Option EvpPkey :=
  match sign_param_nid with
  | none => (cache, none)
  | some nid =>
    match fill_GOST_EC_params cache nid with
    | (cache, none) => (cache, none)
    | (cache, some g) =>
      match paramgenType nid with
      | none => (cache, none)
      | some t => (cache, some { nid := t, group := some g, priv := none, pub := none })

/-- `gost_ec_keygen` on a key, `/repo/gost_ec_sign.c` lines 599-643: the key afterwards and the value returned.  `draws` are the
results of `BN_rand_range`; when they run out it has failed. -/
def keygenKey (ws : WordSize) (ossl : EcpFile) (draws : List Nat) (pk : EvpPkey) : EvpPkey × Int :=
  match pk.group with
  | none => (pk, 0)
  | some g =>
    match keygenLoop draws with
    | none => (pk, 0)
    | some d =>
      let pk := { pk with priv := some d }
      match gost_ec_compute_public (engineGroup ws ossl g) d with
      | none => (pk, 0)
      | some Q => ({ pk with pub := some Q }, 1)

/-- `pkey_gost2001cp_keygen` (`two = false`) and `pkey_gost2012cp_keygen` (`two = true`), `/repo/gost_pmeth.c` lines 444-462: the
value of `gost_ec_keygen` is not looked at. -/
def pkey_gost_keygen (two : Bool) (ws : WordSize) (ossl : EcpFile) (cache : GroupCache) (sign_param_nid : Option CurveNid) (draws : List Nat) :
    GroupCache × Option EvpPkey :=
  match if two then pkey_gost2012_paramgen cache sign_param_nid else pkey_gost2001_paramgen cache sign_param_nid with
  | (cache, none) => (cache, none)
  | (cache, some pk) => (cache, some (keygenKey ws ossl draws pk).1)

end Gost
