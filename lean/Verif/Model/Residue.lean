import Verif.Model.KeyTransport
import Verif.Model.MacPkey
import Verif.Model.AcpkmOmac

/-!
# What calls leave behind in memory

The buffers with secrets that live on the stack of a call, and the blocks a call frees, with their contents when the call returns.
The functions are those modelled elsewhere for their results; here their local buffers are added.  `junk` arguments are the contents
a buffer has before it is written.

Not modelled: buffers of libcrypto, registers and spilled copies, buffers without secrets.
-/

namespace Gost
open Spec (leNat)

/-- `OPENSSL_cleanse(b, sizeof(b))`. -/
def wipe (b : Bytes) : Bytes := b.map fun _ => 0

/-- `OPENSSL_cleanse(b, n)`. -/
def cleanse (b : Bytes) (n : Nat) : Bytes := wipe (b.take n) ++ b.drop n

/-! ## Key export and import -/

/-- `gost_kexp15`, `/repo/gost_keyexpimp.c` lines 34-109, with `mac_buf`: the result and the buffer after `err:` (line 104). -/
def kexp15Exit (X : Crypto) (rng : Nat → Fin 8 → W32) (shared_key : Bytes) (cipher_nid : KexpNid) (cipher_key : Bytes)
    (mac_nid : OmacCipher) (mac_key iv : Bytes) (out_len : Nat) (junk : Bytes) : Option Bytes × Bytes :=
  let mac_len := kexpMacLen cipher_nid
  if mac_len = 0 then (none, cleanse junk mac_len)
  else if shared_key.length + mac_len > out_len then (none, cleanse junk mac_len)
  else
    let iv_full := iv ++ zeros (16 - iv.length)
    match kexpMac X mac_nid mac_key iv shared_key mac_len with
    | none => (none, cleanse junk mac_len)
    | some m =>
      let mac_buf := m ++ junk.drop m.length
      (some (kexpCtr rng cipher_nid true cipher_key iv_full [shared_key, m]), cleanse mac_buf mac_len)

/-- `gost_kimp15`, `/repo/gost_keyexpimp.c` lines 115-199, with `out`: the result and the buffer after `err:` (line 195). -/
def kimp15Exit (X : Crypto) (rng : Nat → Fin 8 → W32) (out0 expkey : Bytes) (cipher_nid : KexpNid) (cipher_key : Bytes)
    (mac_nid : OmacCipher) (mac_key iv shared_key : Bytes) : (Bytes × Int) × Bytes :=
  let mac_len := kexpMacLen cipher_nid
  if mac_len = 0 then ((shared_key, 0), wipe out0)
  else if expkey.length > 48 then ((shared_key, 0), wipe out0)
  else if iv.length > 16 then ((shared_key, 0), wipe out0)
  else
    let iv_full := iv ++ zeros (16 - iv.length)
    let dec := kexpCtr rng cipher_nid false cipher_key iv_full [expkey]
    let out := dec ++ out0.drop dec.length
    match kexpMac X mac_nid mac_key iv (out.take 32) mac_len with
    | none => ((shared_key, 0), wipe out)
    | some mac_buf =>
      if mac_buf.take mac_len ≠ (out.drop 32).take mac_len then ((shared_key, 0), wipe out)
      else ((out.take 32 ++ shared_key.drop 32, 1), wipe out)

/-! ## Key agreement -/

/-- `databuf` of `VKO_compute_key`, `/repo/gost_ec_keyx.c` lines 89-101, when it is freed (line 123): `none` if it was not
allocated. -/
def vkoFreed {G : Type} (E : EcGroup G) (pub_key : G) (priv_key : Nat) (ukm junk : Bytes) : Option Bytes :=
  match gost_ec_point_mul E none (some pub_key) (some (leNat ukm * priv_key % E.order)) with
  | none => none
  | some pnt =>
    match E.coords pnt with
    | none => none
    | some xy =>
      match BN_bn2lebinpad xy.1 (BN_num_bytes E.field) with
      | none => some junk
      | some x =>
        match BN_bn2lebinpad xy.2 (BN_num_bytes E.field) with
        | none => some (x ++ junk.drop x.length)
        | some y => some (x ++ y)

/-- `gost_keg`, `/repo/gost_ec_keyx.c` lines 132-180, with `tmpkey`: the result and the buffer on return. -/
def kegExit {G : Type} (E : EcGroup G) (X : Crypto) (md256 md512 : Bytes → Bytes) (ukm_source : Bytes) (nid : PkeyNid) (pub_key : G)
    (priv_key : Nat) (junk : Bytes) : Option Bytes × Bytes :=
  match nid with
  | .gost2012_512 => (VKO_compute_key E md512 pub_key priv_key (kegUkm ukm_source), junk)
  | .gost2012_256 =>
    match VKO_compute_key E md256 pub_key priv_key (kegUkm ukm_source) with
    | none => (none, junk)
    | some k =>
      let tmpkey := k ++ junk.drop k.length
      (gost_kdftree2012_256 X 64 (tmpkey.take 32) kdfTreeLabel ((ukm_source.drop 16).take 8) 1, cleanse tmpkey 32)
  | _ => (none, junk)

/-! ## Key transport -/

/-- The local buffers of `pkey_GOST_ECcp_decrypt` and `pkey_GOST_ECcp_encrypt`: the 32 bytes of the shared key and the cipher
context. -/
structure CpFrame where
  shared : Bytes
  cctx : Ctx

/-- `pkey_GOST_ECcp_decrypt` from `peerkey = …` on with its buffers, `/repo/gost_ec_keyx.c` lines 609-658; `none` when the process is
aborted. -/
def ktOpenExit (v : KxEnv) (c : PkeyCtx) (gkt : KtInfo) (f : CpFrame) : Option CpFrame :=
  match c.peerkey with
  | none => some { f with shared := wipe f.shared }
  | some peer =>
    match gkt.cipher with
    | .known p =>
      if gkt.eph_iv.length ≠ 8 then none
      else if gkt.encrypted_key.length ≠ 32 then none
      else if gkt.imit.length ≠ 4 then none
      else
        let wrappedKey := gkt.eph_iv ++ gkt.encrypted_key ++ gkt.imit
        match vkoOn v (vko32Digest c.pkey.nid) peer c.pkey (wrappedKey.take 8) with
        | none => some ⟨wipe f.shared, transportCtx v p⟩
        | some sharedKey =>
          some ⟨wipe (sharedKey ++ f.shared.drop sharedKey.length), (keyUnwrapCryptoPro (transportCtx v p) sharedKey wrappedKey).1⟩
    | _ => some { f with shared := wipe f.shared }

/-- `pkey_GOST_ECcp_decrypt`, `/repo/gost_ec_keyx.c` lines 577-658: its buffers on return (lines 593-597 return without touching them,
all other paths pass line 654). -/
def eccpDecryptExit (v : KxEnv) (cache : GroupCache) (c : PkeyCtx) (inp : Bytes) (f : CpFrame) : Option CpFrame :=
  match v.kt.decKt inp with
  | none => some f
  | some gkt =>
    match gkt.ephem.bind fun ki => (pub_decode v.der cache ki).2 with
    | some eph_key =>
      match derive_set_peer c eph_key with
      | none => some { f with shared := wipe f.shared }
      | some c => ktOpenExit v c gkt f
    | none => ktOpenExit v { c with data := (pkey_gost_ctrl (some c.pkey) c.data (.peerKey 3)).1 } gkt f

/-- The buffers of `pkey_GOST_ECcp_encrypt` once the keys are known, `/repo/gost_ec_keyx.c` lines 320-338: whatever follows ends with
`OPENSSL_cleanse(shared_key)` (line 398 or 402). -/
def eccpWrapExit (v : KxEnv) (c : PkeyCtx) (sec : EvpPkey) (ukm key : Bytes) (f : CpFrame) : CpFrame :=
  match vkoOn v (vko32Digest c.pkey.nid) c.pkey sec ukm with
  | none => { f with shared := wipe f.shared }
  | some shared_key =>
    ⟨wipe (shared_key ++ f.shared.drop shared_key.length),
      (keyWrapCryptoPro (transportCtx v (transportParam c.pkey.nid)) shared_key ukm key).1⟩

/-- `pkey_GOST_ECcp_encrypt`, `/repo/gost_ec_keyx.c` lines 277-407: its buffers on return (a failing random generator returns at line
303). -/
def eccpEncryptExit (v : KxEnv) (c : PkeyCtx) (rand : Option Bytes) (draws : List Nat) (out : Option Nat) (key : Bytes) (f : CpFrame) :
    CpFrame :=
  match (if c.data.shared_ukm_size ≠ 0 then some (c.data.shared_ukm.take 8) else rand) with
  | none => f
  | some ukm =>
    match c.peerkey with
    | some sec =>
      match sec.priv with
      | none => { f with shared := wipe f.shared }
      | some _ =>
        match out with
        | none => { f with shared := wipe f.shared }
        | some _ => eccpWrapExit v c sec ukm key f
    | none =>
      match out with
      | none => { f with shared := wipe f.shared }
      | some _ =>
        match ephemeralKey v c.pkey draws with
        | none => { f with shared := wipe f.shared }
        | some sec => eccpWrapExit v c sec ukm key f

/-- `expkeys` of `pkey_gost2018_encrypt`, `/repo/gost_ec_keyx.c` lines 413-551, on return: written by `gost_keg` (line 483), wiped at
line 544 on all paths but the one at line 445. -/
def enc2018Exit (v : KxEnv) (c : PkeyCtx) (rand : Option Bytes) (draws : List Nat) (junk : Bytes) : Bytes :=
  match transport2018 c.data.cipher_nid with
  | none => junk
  | some _ =>
    match senderKey v c draws with
    | none => wipe junk
    | some sec_key =>
      match drawUkm c.data rand with
      | none => wipe junk
      | some data =>
        match kegOn v data.shared_ukm c.pkey.nid c.pkey sec_key with
        | none => wipe junk
        | some expkeys => wipe (expkeys ++ junk.drop expkeys.length)

/-- `expkeys` of `pkey_gost2018_decrypt`, `/repo/gost_ec_keyx.c` lines 664-759, on return: written by `gost_keg` (line 738), wiped at
line 755 on all paths but those at lines 698 and 706. -/
def dec2018Exit (v : KxEnv) (cache : GroupCache) (c : PkeyCtx) (inp junk : Bytes) : Bytes :=
  match transport2018 c.data.cipher_nid with
  | none => junk
  | some _ =>
    match v.kt.decPs inp with
    | none => junk
    | some pst =>
      match (pub_decode v.der cache pst.ephem).2 with
      | none => wipe junk
      | some eph_key =>
        match takeUkm c.pkey c.data pst.ukm with
        | none => wipe junk
        | some data =>
          match kegOn v data.shared_ukm c.pkey.nid eph_key c.pkey with
          | none => wipe junk
          | some expkeys => wipe (expkeys ++ junk.drop expkeys.length)

/-! ## New keys of a message -/

/-- `cryptopro_key_meshing`, `/repo/gost89.c` lines 750-766, with an IV: the result, `newkey` and `newiv` on return. -/
def meshExit (c : Ctx) (iv : Bytes) : (Ctx × Bytes) × Bytes × Bytes :=
  let newkey := gost_dec c CryptoProKeyMeshingKey 4
  let c := gost_key c newkey
  let newiv := gostcrypt c iv
  ((c, newiv), wipe newkey, wipe newiv)

/-- `acpkm_magma_key_meshing`, `/repo/gost89.c` lines 768-778: the result and `newkey` on return. -/
def acpkmMagmaExit (c : Ctx) : Ctx × Bytes :=
  let newkey := (List.range 4).flatMap fun i => magmacrypt c ((ACPKM_D_const.drop (8 * i)).take 8)
  (magma_key c newkey, wipe newkey)

/-- `acpkm_next`, `/repo/gost_grasshopper_cipher.c` lines 162-178: the result and `newkey` on return. -/
def acpkmNextExit (c : KCtx) : KCtx × Bytes :=
  let newkey := (List.range 2).foldl (fun acc n =>
    acc ++ grasshopper_encrypt_block c.encrypt_round_keys (copyN 16 (KUZ_ACPKM_D_2018.drop (n * 16)))) []
  (gost_grasshopper_cipher_key c newkey, newkey)

/-- `keys` of `gost2015_acpkm_omac_init`, `/repo/gost_gost2015.c` lines 156-194, on return, once the seed is known: wiped at line 191
unless the KDF failed. -/
def acpkmOmacExit (X : Crypto) (inkey seed junk : Bytes) : Bytes :=
  match gost_kdftree2012_256 X 64 (inkey.take 32) aoKdfLabel (seed.take 8) 1 with
  | none => junk
  | some keys => wipe (keys ++ junk.drop keys.length)

/-! ## Contexts and keys given up -/

/-- `gost_destroy`, `/repo/gost89.c` lines 632-637, on the cipher context and the master key. -/
def gost_destroy (c : Ctx) (master_key : Bytes) : Ctx × Bytes := ({ c with key := fun _ => 0, mask := fun _ => 0 }, wipe master_key)

/-- `gost_cipher_cleanup`, `/repo/gost_crypt.c` lines 1071-1078. -/
def gost_cipher_cleanup (e : CipherCtx) : CipherCtx :=
  { e with cctx := (gost_destroy e.cctx e.masterKey).1, masterKey := (gost_destroy e.cctx e.masterKey).2, appData := false }

/-- `gost_grasshopper_cipher_cleanup`, `/repo/gost_grasshopper_cipher.c` lines 967-981 and 223-233; `ctr` says whether the mode is CTR. -/
def gost_grasshopper_cipher_cleanup (c : KCtx) (ctr : Bool) : KCtx :=
  { (if ctr then { c with partial_buffer := zeros 16 } else c) with appData := false }

/-- The block `pkey_gost_mac_cleanup`, `/repo/gost_pmeth.c` lines 628-633, frees: the method data as they are. -/
def pkey_gost_mac_cleanup (d : MacData) : MacData := d

/-- The block `mackey_free_gost`, `/repo/gost_ameth.c` lines 1080-1083, frees: the key data as they are. -/
def mackey_free_gost (k : GostMacKey) : GostMacKey := k

/-- The method data OpenSSL's `EVP_PKEY_new_mac_key` has made freed again before it returns, as `EVP_PKEY_CTX_free` calls the cleanup
function. -/
def newMacKeyFreed (k : MacKind) (key : Bytes) : MacData :=
  pkey_gost_mac_cleanup (macCtrl k (macPmethInit k none) (.setMacKey key.length key)).1

end Gost
