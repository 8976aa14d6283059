import Verif.Model.Ameth
import Verif.Model.KeyWrap
import Verif.Model.KeyExp

/-!
# The `EVP_PKEY_CTX` of the engine: controls, key derivation and key transport

Models `/repo/gost_pmeth.c` (context data, control functions) and `/repo/gost_ec_keyx.c` (`pkey_gost_ec_derive`,
`pkey_GOST_ECcp_encrypt`, `pkey_gost2018_encrypt` and their counterparts) on keys of `Model/Ameth`.

Not modelled: the DER functions of OpenSSL for the two key transport structures, which are the fields of an arbitrary `KtDer`;
allocation never fails; error queues.  The cache of curve groups is an argument of the functions that decode a public key and is not
returned (what is found in it does not depend on the history: C46).
-/

namespace Gost

/-! ## Context data -/

/-- Values of `cipher_nid`, as far as the code tells them apart. -/
inductive CipherNid where
  | undef | gost28147_89
  | magma_ctr | magma_ctr_acpkm | magma_ctr_acpkm_omac
  | kuznyechik_ctr | kuznyechik_ctr_acpkm | kuznyechik_ctr_acpkm_omac
  | other (n : Nat)
  deriving DecidableEq

/-- Digest identifiers; `undef` is 0. -/
inductive DgstNid where
  | undef | r3411_94 | r3411_2012_256 | r3411_2012_512 | other (n : Nat)
  deriving DecidableEq

/-- `struct gost_pmeth_data`, `/repo/gost_lcl.h` lines 79-88; `shared_ukm` always has 32 bytes.  `sign_param_nid = none` and
`md = .undef` are 0. -/
structure PmethData where
  sign_param_nid : Option CurveNid
  md : DgstNid
  shared_ukm : Bytes
  shared_ukm_size : Nat
  peer_key_used : Int
  cipher_nid : CipherNid
  vko_dgst_nid : DgstNid
  deriving DecidableEq

/-- The data of a new context: `memset(data, 0, sizeof(*data))`, `/repo/gost_pmeth.c` line 38. -/
def PmethData.zero : PmethData :=
  { sign_param_nid := none, md := .undef, shared_ukm := zeros 32, shared_ukm_size := 0, peer_key_used := 0, cipher_nid := .undef,
    vko_dgst_nid := .undef }

/-- `pkey_gost_init`, `/repo/gost_pmeth.c` lines 30-61: `pkey` is the key of the context, if there is one. -/
def pkey_gost_init (pkey : Option EvpPkey) : Option PmethData :=
  match pkey with
  | none => some .zero
  | some k =>
    match k.group with
    | none => none
    | some g => some { PmethData.zero with sign_param_nid := some g.name }

/-- `pkey_gost_copy`, `/repo/gost_pmeth.c` lines 64-78: `dstKey` is the key of the destination. -/
def pkey_gost_copy (dstKey : Option EvpPkey) (src : PmethData) : Option PmethData :=
  match pkey_gost_init dstKey with
  | none => none
  | some _ => some src

/-- The calls of `pkey_gost_ctrl` that look at their arguments; `ignored` are those that return 1 without doing anything, `unknown` all
others. -/
inductive PkeyCtrl where
  | md (nid : DgstNid)
  | paramset (nid : Option CurveNid)
  | setIv (p1 : Int) (p2 : Option Bytes)
  | setVko (nid : DgstNid)
  | cipher (nid : CipherNid)
  | peerKey (p1 : Int)
  | ignored
  | unknown

/-- Key types that go with a digest, `/repo/gost_pmeth.c` lines 105-129. -/
def mdAllowed (pkey : Option EvpPkey) (nid : DgstNid) : Bool :=
  match nid, pkey with
  | .r3411_94, some k => k.nid == .gost2001 || k.nid == .gost2001DH
  | .r3411_2012_256, some k => k.nid == .gost2012_256
  | .r3411_2012_512, some k => k.nid == .gost2012_512
  | _, _ => false

/-- The cipher recorded for a control `EVP_PKEY_CTRL_CIPHER`, `/repo/gost_pmeth.c` lines 173-187. -/
def ctrlCipher : CipherNid → CipherNid
  | .magma_ctr_acpkm | .magma_ctr_acpkm_omac | .magma_ctr => .magma_ctr
  | .kuznyechik_ctr_acpkm | .kuznyechik_ctr_acpkm_omac | .kuznyechik_ctr => .kuznyechik_ctr
  | n => n

/-- `pkey_gost_ctrl`, `/repo/gost_pmeth.c` lines 90-200.  (`p1 > sizeof(...)` is a comparison of unsigned numbers: negative `p1` is
refused.) -/
def pkey_gost_ctrl (pkey : Option EvpPkey) (d : PmethData) (op : PkeyCtrl) : PmethData × Int :=
  match op with
  | .md nid => if mdAllowed pkey nid then ({ d with md := nid }, 1) else (d, 0)
  | .paramset nid => ({ d with sign_param_nid := nid }, 1)
  | .setIv p1 p2 =>
    match p2 with
    | none => (d, 0)
    | some b =>
      if p1 < 0 ∨ p1 > 32 then (d, 0)
      else ({ d with shared_ukm := memcpy d.shared_ukm b p1.toNat, shared_ukm_size := p1.toNat }, 1)
  | .setVko nid =>
    match nid with
    | .undef | .r3411_2012_256 | .r3411_2012_512 => ({ d with vko_dgst_nid := nid }, 1)
    | _ => (d, 0)
  | .cipher nid => ({ d with cipher_nid := ctrlCipher nid }, 1)
  | .peerKey p1 =>
    if p1 = 0 ∨ p1 = 1 then (d, 1)
    else if p1 = 2 then (d, d.peer_key_used)
    else if p1 = 3 then ({ d with peer_key_used := 1 }, 1)
    else (d, -2)
  | .ignored => (d, 1)
  | .unknown => (d, -2)

/-! ## What the functions need from their surroundings -/

/-- The digests of the engine: GOST R 34.11-94 and the two lengths of GOST R 34.11-2012. -/
structure Digests where
  md94 : Bytes → Bytes
  md256 : Bytes → Bytes
  md512 : Bytes → Bytes
  len94 : ∀ m, (md94 m).length = 32
  len256 : ∀ m, (md256 m).length = 32
  len512 : ∀ m, (md512 m).length = 64

/-- `EVP_get_digestbynid` for the digests of the engine. -/
def Digests.get (H : Digests) : DgstNid → Option (Bytes → Bytes)
  | .r3411_94 => some H.md94
  | .r3411_2012_256 => some H.md256
  | .r3411_2012_512 => some H.md512
  | _ => none

/-- `GOST_KEY_TRANSPORT` with its two parts, `/repo/gost_asn1.c` lines 14-37. -/
structure KtInfo where
  encrypted_key : Bytes
  imit : Bytes
  cipher : AsnObj
  ephem : Option KeyInfo
  eph_iv : Bytes

/-- `PSKeyTransport_gost`, `/repo/gost_asn1.c` lines 80-86. -/
structure PsInfo where
  psexp : Bytes
  ephem : KeyInfo
  ukm : Option Bytes

/-- OpenSSL's DER functions for the two structures; `dec…` returns `none` when `d2i` returns NULL. -/
structure KtDer where
  encKt : KtInfo → Bytes
  decKt : Bytes → Option KtInfo
  encPs : PsInfo → Bytes
  decPs : Bytes → Option PsInfo

/-- Everything the functions below take from elsewhere: word size of the curve files, OpenSSL's point multiplication for the curve
without a file, DER, CMAC and HMAC, digests and the masks of the GOST 28147-89 key schedule. -/
structure KxEnv where
  ws : WordSize
  ossl : EcpFile
  der : KeyDer
  kt : KtDer
  crypto : Crypto
  md : Digests
  rng : Nat → Fin 8 → W32

/-- An `EVP_PKEY_CTX` in use. -/
structure PkeyCtx where
  pkey : EvpPkey
  peerkey : Option EvpPkey
  data : PmethData
  deriving DecidableEq

/-- `VKO_compute_key` on keys.  A point of a group with another name is refused by OpenSSL when its coordinates are taken.  (Keys
without a group, public point or private number would be used as NULL; they give `none` here.) -/
def vkoOn (v : KxEnv) (nid : DgstNid) (peer mine : EvpPkey) (ukm : Bytes) : Option Bytes :=
  match v.md.get nid, peer.group, peer.pub, mine.group, mine.priv with
  | some md, some gp, some Q, some g, some d =>
    if gp.name = g.name then VKO_compute_key (engineGroup v.ws v.ossl g) md Q d ukm else none
  | _, _, _, _, _ => none

/-- `gost_keg` on keys, with the same remarks. -/
def kegOn (v : KxEnv) (ukm : Bytes) (nid : PkeyNid) (peer mine : EvpPkey) : Option Bytes :=
  match peer.group, peer.pub, mine.group, mine.priv with
  | some gp, some Q, some g, some d =>
    if gp.name = g.name then gost_keg (engineGroup v.ws v.ossl g) v.crypto v.md.md256 v.md.md512 ukm nid Q d else none
  | _, _, _, _ => none

/-- `ASN1_PKEY_CTRL_DEFAULT_MD_NID`, `/repo/gost_ameth.c` lines 421-435 and 528-530. -/
def defaultDigest : PkeyNid → DgstNid
  | .gost2012_512 => .r3411_2012_512
  | .gost2012_256 => .r3411_2012_256
  | .gost2001 | .gost2001DH => .r3411_94

/-- The digest of a 32-byte VKO: `if (dgst_nid == NID_id_GostR3411_2012_512) dgst_nid = NID_id_GostR3411_2012_256`,
`/repo/gost_ec_keyx.c` lines 229-230, 324-325, 628-629. -/
def vko32Digest (n : PkeyNid) : DgstNid :=
  if defaultDigest n = .r3411_2012_512 then .r3411_2012_256 else defaultDigest n

/-! ## Derivation -/

/-- The outcome of `EVP_PKEY_derive`: failure, the size asked for with a NULL buffer, or the key. -/
inductive DeriveRes where
  | fail
  | size (n : Nat)
  | key (b : Bytes)
  deriving DecidableEq

def DeriveRes.ofKey : Option Bytes → DeriveRes
  | some k => .key k
  | none => .fail

/-- `pkey_gost_ec_derive`, `/repo/gost_ec_keyx.c` lines 189-265; `null` says that `key` is NULL. -/
def pkey_gost_ec_derive (v : KxEnv) (c : PkeyCtx) (null : Bool) : DeriveRes :=
  if c.data.shared_ukm_size = 0 then .fail
  else if c.data.vko_dgst_nid ≠ .undef then
    if null then .size (if c.data.vko_dgst_nid = .r3411_2012_256 then 32 else 64)
    else
      match c.peerkey with
      | none => .fail
      | some peer => .ofKey (vkoOn v c.data.vko_dgst_nid peer c.pkey (c.data.shared_ukm.take c.data.shared_ukm_size))
  else if c.data.shared_ukm_size = 8 then
    if null then .size 32
    else
      match c.peerkey with
      | none => .fail
      | some peer => .ofKey (vkoOn v (vko32Digest c.pkey.nid) peer c.pkey (c.data.shared_ukm.take 8))
  else if c.data.shared_ukm_size = 32 then
    if null then .size 64
    else
      match c.peerkey with
      | none => .fail
      | some peer => .ofKey (kegOn v c.data.shared_ukm c.pkey.nid peer c.pkey)
  else .fail

/-- OpenSSL's `EVP_PKEY_derive_set_peer` with this method: the context afterwards, or `none` for an error. -/
def derive_set_peer (c : PkeyCtx) (peer : EvpPkey) : Option PkeyCtx :=
  if c.pkey.nid ≠ peer.nid then none
  else if peer.group ≠ none ∧ param_cmp c.pkey peer ≠ 1 then none
  else some { c with peerkey := some peer }

/-! ## Key transport -/

/-- The outcome of `EVP_PKEY_encrypt`: an error code, the size asked for, the structure written, or a pointer freed twice. -/
inductive EncRes where
  | ret (code : Int)
  | size (n : Nat)
  | data (b : Bytes)
  | doubleFree
  deriving DecidableEq

/-- The S-box set of a key type, `/repo/gost_ec_keyx.c` lines 285-289. -/
def transportParam : PkeyNid → ParamNID
  | .gost2001 | .gost2001DH => .cryptoProA
  | _ => .tc26Z

/-- A new key of the type and parameters of `pubk`, `/repo/gost_ec_keyx.c` lines 311-319 and 465-471: `EVP_PKEY_assign`,
`EVP_PKEY_copy_parameters`, `gost_ec_keygen`. -/
def ephemeralKey (v : KxEnv) (pubk : EvpPkey) (draws : List Nat) : Option EvpPkey :=
  match param_copy v.ws v.ossl { nid := pubk.nid, group := none, priv := none, pub := none } pubk with
  | none => none
  | some sec =>
    match keygenKey v.ws v.ossl draws sec with
    | (sec, 1) => some sec
    | _ => none

/-- A new cipher context with the S-boxes of a parameter set: `gost_init(&cctx, param->sblock)`. -/
def transportCtx (v : KxEnv) (p : ParamNID) : Ctx := gost_init (freshCtx v.rng true).cctx (gost_cipher_list p).1

/-- Lines 359-375 of `/repo/gost_ec_keyx.c`: the structure that is sent.  `crypted_key` is the 44-byte buffer (uninitialised when only
the size is asked for). -/
def ktOf (ukm crypted_key : Bytes) (p : ParamNID) (ephem : Option KeyInfo) : KtInfo :=
  { encrypted_key := (crypted_key.drop 8).take 32, imit := (crypted_key.drop 40).take 4, cipher := .known p, ephem := ephem,
    eph_iv := ukm }

/-- The end of `pkey_GOST_ECcp_encrypt`, `/repo/gost_ec_keyx.c` lines 345-407, once `sec_key` (if any) and `crypted_key` are known. -/
def ktFinish (v : KxEnv) (c : PkeyCtx) (out : Option Nat) (ephemeral : Bool) (sec_key : Option EvpPkey) (ukm crypted_key : Bytes) :
    PkeyCtx × EncRes :=
  let p := transportParam c.pkey.nid
  let send (ki : Option KeyInfo) : PkeyCtx × EncRes :=
    let c := if ephemeral then c else { c with data := (pkey_gost_ctrl (some c.pkey) c.data (.peerKey 3)).1 }
    let der := v.kt.encKt (ktOf ukm crypted_key p ki)
    match out with
    | none => (c, .size der.length)
    | some cap =>
      if der.length > cap then (c, if ephemeral then .doubleFree else .ret (-1))
      else (c, .data der)
  if ephemeral then
    match pub_encode v.der v.ws v.ossl (match out, sec_key with | some _, some s => s | _, _ => c.pkey) with
    | none => (c, .ret (-1))
    | some ki => send (some ki)
  else send none

/-- `pkey_GOST_ECcp_encrypt`, `/repo/gost_ec_keyx.c` lines 277-407.  `rand` is the result of `RAND_bytes` for the UKM, `draws` those of
`BN_rand_range`, `out` the size of the output buffer (`none` for NULL), `junk` the initial contents of `crypted_key`. -/
def pkey_GOST_ECcp_encrypt (v : KxEnv) (c : PkeyCtx) (rand : Option Bytes) (draws : List Nat) (out : Option Nat) (key junk : Bytes) :
    PkeyCtx × EncRes :=
  match (if c.data.shared_ukm_size ≠ 0 then some (c.data.shared_ukm.take 8) else rand) with
  | none => (c, .ret 0)
  | some ukm =>
    match c.peerkey with
    | some sec =>
      match sec.priv with
      | none => (c, .ret (-1))
      | some _ =>
        match out with
        | none => ktFinish v c out false (some sec) ukm junk
        | some _ =>
          match vkoOn v (vko32Digest c.pkey.nid) c.pkey sec ukm with
          | none => (c, .ret (-1))
          | some shared_key =>
            ktFinish v c out false (some sec) ukm (keyWrapCryptoPro (transportCtx v (transportParam c.pkey.nid)) shared_key ukm key).2
    | none =>
      match out with
      | none => ktFinish v c out true none ukm junk
      | some _ =>
        match ephemeralKey v c.pkey draws with
        | none => (c, .ret (-1))
        | some sec =>
          match vkoOn v (vko32Digest c.pkey.nid) c.pkey sec ukm with
          | none => (c, .ret (-1))
          | some shared_key =>
            ktFinish v c out true (some sec) ukm (keyWrapCryptoPro (transportCtx v (transportParam c.pkey.nid)) shared_key ukm key).2

/-- The first `switch` of `pkey_gost2018_encrypt` and of `pkey_gost2018_decrypt`, `/repo/gost_ec_keyx.c` lines 431-447 and 686-700: the
cipher of KExp15 with its MAC, the length of its MAC and of its IV. -/
def transport2018 : CipherNid → Option (KexpNid × OmacCipher × Nat × Nat)
  | .magma_ctr => some (.magma_ctr, .magma, 8, 4)
  | .kuznyechik_ctr => some (.grasshopper_ctr, .kuznyechik, 16, 8)
  | _ => none

/-- The key of the sender: the peer key of the context, or a new one, `/repo/gost_ec_keyx.c` lines 448-472. -/
def senderKey (v : KxEnv) (c : PkeyCtx) (draws : List Nat) : Option EvpPkey :=
  match c.peerkey with
  | some s => some s
  | none => ephemeralKey v c.pkey draws

/-- The UKM drawn when none is set, `/repo/gost_ec_keyx.c` lines 474-481. -/
def drawUkm (d : PmethData) (rand : Option Bytes) : Option PmethData :=
  if d.shared_ukm_size = 0 then
    match rand with
    | none => none
    | some r => some { d with shared_ukm := memcpy d.shared_ukm r 32, shared_ukm_size := 32 }
  else some d

/-- `pkey_gost2018_encrypt`, `/repo/gost_ec_keyx.c` lines 413-551; `rand` is the result of `RAND_bytes(…, 32)`. -/
def pkey_gost2018_encrypt (v : KxEnv) (c : PkeyCtx) (rand : Option Bytes) (draws : List Nat) (out : Option Nat) (key : Bytes) :
    PkeyCtx × EncRes :=
  match transport2018 c.data.cipher_nid with
  | none => (c, .ret (-1))
  | some (cn, mac, mac_len, iv_len) =>
    match senderKey v c draws with
    | none => (c, .ret 0)
    | some sec_key =>
      match drawUkm c.data rand with
      | none => (c, .ret 0)
      | some data =>
        let c := { c with data := data }
        match kegOn v data.shared_ukm c.pkey.nid c.pkey sec_key with
        | none => (c, .ret 0)
        | some expkeys =>
          match gost_kexp15 v.crypto v.rng key cn ((expkeys.drop 32).take 32) mac (expkeys.take 32) ((data.shared_ukm.drop 24).take iv_len)
              (key.length + mac_len) with
          | none => (c, .ret 0)
          | some exp_buf =>
            match pub_encode v.der v.ws v.ossl (match out with | some _ => sec_key | none => c.pkey) with
            | none => (c, .ret 0)
            | some ki =>
              let der := v.kt.encPs { psexp := exp_buf, ephem := ki, ukm := some (data.shared_ukm.take data.shared_ukm_size) }
              match out with
              | none => (c, .size der.length)
              | some cap => if der.length > cap then (c, .ret 0) else (c, .data der)

/-- `pkey_gost_encrypt`, `/repo/gost_ec_keyx.c` lines 553-571.  One argument `rand` for the UKM: `RAND_bytes` fills 8 or 32 bytes, of
which the first call uses the first 8. -/
def pkey_gost_encrypt (v : KxEnv) (c : PkeyCtx) (rand : Option Bytes) (draws : List Nat) (out : Option Nat) (key junk : Bytes) :
    PkeyCtx × EncRes :=
  match c.data.cipher_nid with
  | .gost28147_89 | .undef => pkey_GOST_ECcp_encrypt v c (rand.map (·.take 8)) draws out key junk
  | .kuznyechik_ctr | .magma_ctr => pkey_gost2018_encrypt v c rand draws out key
  | _ => (c, .ret (-1))

/-- The outcome of `EVP_PKEY_decrypt`: the process is aborted by `OPENSSL_assert`, or a code with the contents of the buffer `key` and
the value of `*key_len` afterwards. -/
inductive DecRes where
  | abort
  | ret (code : Int) (key : Bytes) (key_len : Nat)
  deriving DecidableEq

/-- `pkey_GOST_ECcp_decrypt` from `peerkey = …` on, `/repo/gost_ec_keyx.c` lines 609-658. -/
def ktOpen (v : KxEnv) (c : PkeyCtx) (gkt : KtInfo) (buf : Bytes) (key_len : Nat) : DecRes :=
  match c.peerkey with
  | none => .ret 0 buf key_len
  | some peer =>
    match gkt.cipher with
    | .known p =>
      if gkt.eph_iv.length ≠ 8 then .abort
      else if gkt.encrypted_key.length ≠ 32 then .abort
      else if gkt.imit.length ≠ 4 then .abort
      else
        let wrappedKey := gkt.eph_iv ++ gkt.encrypted_key ++ gkt.imit
        match vkoOn v (vko32Digest c.pkey.nid) peer c.pkey (wrappedKey.take 8) with
        | none => .ret 0 buf key_len
        | some sharedKey =>
          let r := (keyUnwrapCryptoPro (transportCtx v p) sharedKey wrappedKey).2
          if r.2 = 0 then .ret 0 (r.1 ++ buf.drop 32) key_len
          else .ret 1 (r.1 ++ buf.drop 32) 32
    | _ => .ret 0 buf key_len

/-- `pkey_GOST_ECcp_decrypt`, `/repo/gost_ec_keyx.c` lines 577-658.  `buf` is the output buffer (of at least 32 bytes).
`X509_PUBKEY_get` returns NULL both when there is no key and when it cannot be decoded. -/
def pkey_GOST_ECcp_decrypt (v : KxEnv) (cache : GroupCache) (c : PkeyCtx) (buf : Bytes) (key_len : Nat) (inp : Bytes) : PkeyCtx × DecRes :=
  match v.kt.decKt inp with
  | none => (c, .ret (-1) buf key_len)
  | some gkt =>
    match gkt.ephem.bind fun ki => (pub_decode v.der cache ki).2 with
    | some eph_key =>
      match derive_set_peer c eph_key with
      | none => (c, .ret 0 buf key_len)
      | some c => (c, ktOpen v c gkt buf key_len)
    | none =>
      let c := { c with data := (pkey_gost_ctrl (some c.pkey) c.data (.peerKey 3)).1 }
      (c, ktOpen v c gkt buf key_len)

/-- The UKM of the structure is set in a context without one, `/repo/gost_ec_keyx.c` lines 730-736.  Only a negative value of the control
counts as an error. -/
def takeUkm (pkey : EvpPkey) (d : PmethData) (ukm : Option Bytes) : Option PmethData :=
  if d.shared_ukm_size = 0 then
    match ukm with
    | some u => if (pkey_gost_ctrl (some pkey) d (.setIv u.length (some u))).2 < 0 then none
                else some (pkey_gost_ctrl (some pkey) d (.setIv u.length (some u))).1
    | none => some d
  else some d

/-- `pkey_gost2018_decrypt`, `/repo/gost_ec_keyx.c` lines 664-759; `out0` is the contents of the local buffer of `gost_kimp15`. -/
def pkey_gost2018_decrypt (v : KxEnv) (cache : GroupCache) (c : PkeyCtx) (buf : Bytes) (key_len : Nat) (inp out0 : Bytes) :
    PkeyCtx × DecRes :=
  match transport2018 c.data.cipher_nid with
  | none => (c, .ret (-1) buf key_len)
  | some (cn, mac, _, iv_len) =>
    match v.kt.decPs inp with
    | none => (c, .ret (-1) buf key_len)
    | some pst =>
      match (pub_decode v.der cache pst.ephem).2 with
      | none => (c, .ret 0 buf key_len)
      | some eph_key =>
        match takeUkm c.pkey c.data pst.ukm with
        | none => (c, .ret 0 buf key_len)
        | some data =>
          let c := { c with data := data }
          match kegOn v data.shared_ukm c.pkey.nid eph_key c.pkey with
          | none => (c, .ret 0 buf key_len)
          | some expkeys =>
            let r := gost_kimp15 v.crypto v.rng out0 pst.psexp cn ((expkeys.drop 32).take 32) mac (expkeys.take 32)
              ((data.shared_ukm.drop 24).take iv_len) buf
            if r.2 ≤ 0 then (c, .ret 0 r.1 key_len) else (c, .ret 1 r.1 32)

/-- `pkey_gost_decrypt`, `/repo/gost_ec_keyx.c` lines 761-788; `buf = none` is a NULL buffer. -/
def pkey_gost_decrypt (v : KxEnv) (cache : GroupCache) (c : PkeyCtx) (buf : Option Bytes) (key_len : Nat) (inp out0 : Bytes) :
    PkeyCtx × DecRes :=
  match buf with
  | none => (c, .ret 1 [] 32)
  | some buf =>
    if key_len < 32 then (c, .ret 0 buf key_len)
    else
      match c.data.cipher_nid with
      | .gost28147_89 | .undef => pkey_GOST_ECcp_decrypt v cache c buf key_len inp
      | .kuznyechik_ctr | .magma_ctr => pkey_gost2018_decrypt v cache c buf key_len inp out0
      | _ => (c, .ret (-1) buf key_len)

end Gost
