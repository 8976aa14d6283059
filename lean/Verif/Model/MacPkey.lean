import Verif.Model.Imit
import Verif.Model.OmacAcpkm
import Verif.Model.KeyExp

/-!
# MAC keys

Models the methods of the engine's MAC keys, `/repo/gost_pmeth.c` lines 571-1035 and 1112-1152 (GOST 28147-89 MAC with both parameter
defaults, Magma OMAC, Kuznyechik OMAC and OMAC-ACPKM), and the use OpenSSL makes of them in `EVP_PKEY_new_mac_key`,
`EVP_DigestSignInit` and `EVP_DigestSignFinal` with engines.

Simplified: allocation never fails, so the method data are never NULL; texts are not NULL; `short int` fields are naturals (every
value stored is between 1 and 16).
-/

namespace Gost

/-- The digests a MAC key may be used with, and `other` for any other. -/
inductive MacNid where
  | gost28147_mac | gost_mac_12 | magma_mac | grasshopper_mac | kuz_omac_acpkm | magma_omac_acpkm | other
  deriving DecidableEq

/-- `struct gost_mac_key`, `/repo/gost_lcl.h` lines 98-102; `none` is `NID_undef`. -/
structure GostMacKey where
  mac_param_nid : Option ParamNID
  key : Bytes
  mac_size : Nat
  deriving DecidableEq

/-- `struct gost_mac_pmeth_data`, `/repo/gost_lcl.h` lines 90-96. -/
structure MacData where
  key_set : Bool
  mac_size : Nat
  mac_param_nid : Option ParamNID
  md : Option MacNid
  key : Bytes
  deriving DecidableEq

/-- The five registered key types, `/repo/gost_pmeth.c` lines 1112-1152 (the last two share their methods). -/
inductive MacKind where
  | mac | mac12 | magma | kuznyechik | kuzAcpkm
  deriving DecidableEq

/-- `pkey_gost_mac_init` and `pkey_gost_omac_init`, `/repo/gost_pmeth.c` lines 572-616: the second is the first with another default
size. -/
def pkey_gost_mac_init_size (mac_size : Nat) (pkey : Option GostMacKey) : MacData :=
  match pkey with
  | none => { key_set := false, mac_size := mac_size, mac_param_nid := none, md := none, key := zeros 32 }
  | some k => { key_set := false, mac_size := k.mac_size, mac_param_nid := k.mac_param_nid, md := none, key := zeros 32 }

/-- The size each key type starts with: `/repo/gost_pmeth.c` lines 580, 618-626 and the table at lines 1112-1152. -/
def MacKind.defaultSize : MacKind → Nat
  | .mac | .mac12 => 4
  | .magma => 8
  | .kuznyechik | .kuzAcpkm => 16

/-- The init method of a key type, `/repo/gost_pmeth.c` lines 1119, 1129, 1139, 1150. -/
def macPmethInit (k : MacKind) (pkey : Option GostMacKey) : MacData := pkey_gost_mac_init_size k.defaultSize pkey

/-- The commands of the control functions that change the method data (`digestInit` is separate). -/
inductive MacCtrl where
  | md (nid : MacNid)
  | pkcs7
  | setMacKey (p1 : Int) (p2 : Bytes)
  | paramset (p : ParamNID)
  | macLen (p1 : Int)
  | other
  deriving DecidableEq

/-- `pkey_gost_mac_ctrl`, `/repo/gost_pmeth.c` lines 650-729, but for `EVP_PKEY_CTRL_DIGESTINIT`. -/
def pkey_gost_mac_ctrl (d : MacData) : MacCtrl → MacData × Int
  | .md nid => if nid ≠ .gost28147_mac ∧ nid ≠ .gost_mac_12 then (d, 0) else ({ d with md := some nid }, 1)
  | .pkcs7 => (d, 1)
  | .setMacKey p1 p2 => if p1 ≠ 32 then (d, 0) else ({ d with key := p2.take 32, key_set := true }, 1)
  | .paramset p => ({ d with mac_param_nid := some p }, 1)
  | .macLen p1 => if p1 < 1 ∨ p1 > 8 then (d, 0) else ({ d with mac_size := p1.toNat }, 1)
  | .other => (d, -2)

/-- `pkey_gost_omac_ctrl`, `/repo/gost_pmeth.c` lines 789-862, but for `EVP_PKEY_CTRL_DIGESTINIT`.  `EVP_PKEY_CTRL_GOST_PARAMSET` is not one
of its commands. -/
def pkey_gost_omac_ctrl (max_size : Nat) (d : MacData) : MacCtrl → MacData × Int
  | .md nid =>
    if nid ≠ .magma_mac ∧ nid ≠ .grasshopper_mac ∧ nid ≠ .kuz_omac_acpkm ∧ nid ≠ .magma_omac_acpkm then (d, 0)
    else ({ d with md := some nid }, 1)
  | .pkcs7 => (d, 1)
  | .setMacKey p1 p2 => if p1 ≠ 32 then (d, 0) else ({ d with key := p2.take 32, key_set := true }, 1)
  | .paramset _ => (d, -2)
  | .macLen p1 => if p1 < 1 ∨ p1 > max_size then (d, 0) else ({ d with mac_size := p1.toNat }, 1)
  | .other => (d, -2)

/-- The control method of a key type: `/repo/gost_pmeth.c` lines 864-872 and the table at lines 1112-1152. -/
def macCtrl : MacKind → MacData → MacCtrl → MacData × Int
  | .mac | .mac12 => pkey_gost_mac_ctrl
  | .magma => pkey_gost_omac_ctrl 8
  | .kuznyechik | .kuzAcpkm => pkey_gost_omac_ctrl 16

/-! ## Controls given as text -/

/-- What the text controls take from OpenSSL: `OPENSSL_hexstr2buf` (under the name `string_to_hex`), and `OBJ_txt2obj` followed by
`get_encryption_params`; `none`: NULL. -/
structure MacTextFns where
  hexstr2buf : List Char → Option Bytes
  txt2param : List Char → Option ParamNID

/-- `isspace` in the C locale. -/
def strtolSpace (c : Char) : Bool := c = ' ' || c = '\t' || c = '\n' || c = '\x0b' || c = '\x0c' || c = '\r'

/-- The digits read by `strtol` with base 10: the number, how many there were, and the rest of the text. -/
def strtolDigits : List Char → Nat → Nat → Nat × Nat × List Char
  | [], n, k => (n, k, [])
  | c :: cs, n, k => if c.isDigit then strtolDigits cs (10 * n + (c.toNat - 48)) (k + 1) else (n, k, c :: cs)

/-- The sign read by `strtol`: negative or not, and the rest. -/
def strtolSign : List Char → Bool × List Char
  | '-' :: cs => (true, cs)
  | '+' :: cs => (false, cs)
  | cs => (false, cs)

/-- A value cut to the range of a 64-bit `long`. -/
def clampLong (v : Int) : Int := if v > 2^63 - 1 then 2^63 - 1 else if v < -2^63 then -2^63 else v

/-- `strtol(value, &endptr, 10)` on a platform with 64-bit `long`: the value and the text at `endptr`. -/
def cStrtol (s : List Char) : Int × List Char :=
  let sg := strtolSign (s.dropWhile strtolSpace)
  let r := strtolDigits sg.2 0 0
  if r.2.1 = 0 then (0, s)
  else (clampLong (if sg.1 then -(r.1 : Int) else r.1), r.2.2)

/-- The conversion of a `long` argument to an `int` parameter (two's complement). -/
def longToInt (v : Int) : Int := (v + 2^31) % 2^32 - 2^31

/-- The key given as text, `/repo/gost_pmeth.c` lines 734-755 and 877-898: the bytes of the text itself, or hexadecimal. -/
def macTextKey (T : MacTextFns) (hex : Bool) (value : List Char) : Option Bytes :=
  if hex then
    match T.hexstr2buf value with
    | none => none
    | some b => if b.length ≠ 32 then none else some b
  else if value.length ≠ 32 then none else some (value.map fun c => BitVec.ofNat 8 c.toNat)

/-- `pkey_gost_mac_ctrl_str`, `/repo/gost_pmeth.c` lines 731-787. -/
def pkey_gost_mac_ctrl_str (T : MacTextFns) (d : MacData) (type value : List Char) : MacData × Int :=
  if type = ['k', 'e', 'y'] then
    match macTextKey T false value with
    | none => (d, 0)
    | some b => pkey_gost_mac_ctrl d (.setMacKey 32 b)
  else if type = ['h', 'e', 'x', 'k', 'e', 'y'] then
    match macTextKey T true value with
    | none => (d, 0)
    | some b => pkey_gost_mac_ctrl d (.setMacKey 32 b)
  else if type = ['s', 'i', 'z', 'e'] then
    let r := cStrtol value
    if r.2 ≠ [] then (d, 0) else pkey_gost_mac_ctrl d (.macLen (longToInt r.1))
  else if type = ['p', 'a', 'r', 'a', 'm', 's', 'e', 't'] then
    match T.txt2param value with
    | none => (d, 0)
    | some p => pkey_gost_mac_ctrl d (.paramset p)
  else (d, -2)

/-- `pkey_gost_omac_ctrl_str`, `/repo/gost_pmeth.c` lines 874-909. -/
def pkey_gost_omac_ctrl_str (T : MacTextFns) (max_size : Nat) (d : MacData) (type value : List Char) : MacData × Int :=
  if type = ['k', 'e', 'y'] then
    match macTextKey T false value with
    | none => (d, 0)
    | some b => pkey_gost_mac_ctrl d (.setMacKey 32 b)
  else if type = ['h', 'e', 'x', 'k', 'e', 'y'] then
    match macTextKey T true value with
    | none => (d, 0)
    | some b => pkey_gost_mac_ctrl d (.setMacKey 32 b)
  else if type = ['s', 'i', 'z', 'e'] then
    let r := cStrtol value
    if r.2 ≠ [] then (d, 0) else pkey_gost_omac_ctrl max_size d (.macLen (longToInt r.1))
  else (d, -2)

/-- The text control of a key type: `/repo/gost_pmeth.c` lines 911-921 and the table at lines 1112-1152. -/
def macCtrlStr : MacKind → MacTextFns → MacData → List Char → List Char → MacData × Int
  | .mac | .mac12 => pkey_gost_mac_ctrl_str
  | .magma => fun T => pkey_gost_omac_ctrl_str T 8
  | .kuznyechik | .kuzAcpkm => fun T => pkey_gost_omac_ctrl_str T 8

/-! ## Generation, copying -/

/-- `pkey_gost_mac_keygen_base`, `/repo/gost_pmeth.c` lines 923-940: the key data, `none` for a return value of 0. -/
def pkey_gost_mac_keygen_base (d : MacData) : Option GostMacKey :=
  if !d.key_set then none
  else some { key := d.key, mac_param_nid := d.mac_param_nid, mac_size := d.mac_size }

/-- The type of the generated key, `/repo/gost_pmeth.c` lines 942-960 with the table at lines 1112-1152: a key generated with the
OMAC-ACPKM type is a Kuznyechik MAC key. -/
def MacKind.generated : MacKind → MacKind
  | .kuzAcpkm => .kuznyechik
  | k => k

/-- `pkey_gost_mac_copy`, `/repo/gost_pmeth.c` lines 635-648. -/
def pkey_gost_mac_copy (_pkey : Option GostMacKey) (src : MacData) : MacData := src

/-! ## The digests -/

/-- A digest context of one of the MAC digests; for the GOST 28147-89 MAC with the substitution block of its own init callback. -/
inductive MacMd where
  | imit (c : ImitCtx) (initBlock : SubstBlock)
  | omac (c : OmacDigestCtx)
  | acpkm (c : OmacCtx)

/-- The key argument of `EVP_MD_CTRL_SET_KEY`: a `struct gost_mac_key` (`arg` 0) or 32 bytes (`arg` 32). -/
inductive MacSetKey where
  | macKey (k : GostMacKey)
  | raw (b : Bytes)

/-- The parameter set applied by `gost_imit_ctrl`, `/repo/gost_crypt.c` lines 1598-1618: only a `struct gost_mac_key` has one. -/
def MacSetKey.param : MacSetKey → Option SubstBlock
  | .macKey k => k.mac_param_nid.map fun p => (gost_cipher_list p).1
  | .raw _ => none

def MacSetKey.bytes : MacSetKey → Bytes
  | .macKey k => k.key
  | .raw b => b

def MacSetKey.arg : MacSetKey → Int
  | .macKey _ => 0
  | .raw _ => 32

/-- `EVP_MD_CTRL_SET_KEY` of the digests: `gost_imit_ctrl`, `omac_imit_ctrl`, `omac_acpkm_imit_ctrl` (see the models of those). -/
def MacMd.setKey (m : MacMd) (k : MacSetKey) : MacMd × Int :=
  match m with
  | .imit c b => (.imit (gost_imit_set_key c b k.param k.bytes) b, 1)
  | .omac c => (.omac (omac_set_key c k.arg k.bytes).1, (omac_set_key c k.arg k.bytes).2)
  | .acpkm c => (.acpkm (omac_acpkm_set_key c k.bytes).1, (omac_acpkm_set_key c k.bytes).2)

/-- `EVP_MD_CTRL_XOF_LEN` of the digests. -/
def MacMd.xofLen (m : MacMd) (n : Int) : MacMd × Int :=
  match m with
  | .imit c b => (.imit (gost_imit_set_len c n).1 b, (gost_imit_set_len c n).2)
  | .omac c => (.omac (omac_xof_len c n).1, (omac_xof_len c n).2)
  | .acpkm c => (.acpkm (omac_acpkm_set_len c n).1, (omac_acpkm_set_len c n).2)

/-- The update callbacks: the context and the value returned. -/
def MacMd.update (m : MacMd) (d : Bytes) : MacMd × Int :=
  match m with
  | .imit c b => (.imit (gost_imit_update c d).1 b, (gost_imit_update c d).2)
  | .omac c => (.omac (omac_imit_update c d).1, (omac_imit_update c d).2)
  | .acpkm c =>
    match omac_acpkm_imit_update c d with
    | none => (.acpkm c, 0)
    | some c => (.acpkm c, 1)

/-- The final callbacks: the bytes written, `none` for a return value of 0. -/
def MacMd.final (X : Crypto) (m : MacMd) : Option Bytes :=
  match m with
  | .imit c _ => gost_imit_final c
  | .omac c => omac_imit_final X c
  | .acpkm c => omac_acpkm_imit_final c

/-- The init callbacks of the digests (`rng`: the masks drawn by a fresh GOST 28147-89 context): `/repo/gost_crypt.c` lines 1500-1508,
`/repo/gost_omac.c` lines 61-69, `/repo/gost_omac_acpkm.c` lines 327-330.  `none`: the digest is not registered. -/
def MacNid.fresh (rng : Nat → Fin 8 → W32) : MacNid → Option MacMd
  | .gost28147_mac => some (.imit (gost_imit_init (freshImit rng) Gost28147_CryptoProParamSetA) Gost28147_CryptoProParamSetA)
  | .gost_mac_12 => some (.imit (gost_imit_init (freshImit rng) Gost28147_TC26ParamSetZ) Gost28147_TC26ParamSetZ)
  | .magma_mac => some (.omac (omac_init .magma))
  | .grasshopper_mac => some (.omac (omac_init .kuznyechik))
  | .kuz_omac_acpkm => some (.acpkm omac_acpkm_init)
  | .magma_omac_acpkm | .other => none

/-! ## Signing -/

/-- `EVP_PKEY_CTRL_DIGESTINIT`, `/repo/gost_pmeth.c` lines 691-717 and 824-850. -/
def macDigestInit (d : MacData) (pkey : Option GostMacKey) (m : MacMd) : MacMd × Int :=
  if !d.key_set then
    match pkey with
    | none => (m, 0)
    | some k => m.setKey (.macKey k)
  else m.setKey (.raw d.key)

/-- `pkey_gost_mac_signctx` with a buffer, `/repo/gost_pmeth.c` lines 1013-1035: the bytes written, the length reported, the value
returned.  The result of the length control is not looked at. -/
def pkey_gost_mac_signctx (X : Crypto) (d : MacData) (m : MacMd) : Bytes × Nat × Int :=
  match (m.xofLen d.mac_size).1.final X with
  | some b => (b, d.mac_size, 1)
  | none => ([], d.mac_size, 0)

/-- `pkey_gost_mac_signctx` without a buffer, `/repo/gost_pmeth.c` lines 1025-1028. -/
def pkey_gost_mac_signctx_size (d : MacData) : Nat := d.mac_size

/-- `EVP_PKEY_new_mac_key(type, e, key, keylen)` of OpenSSL: a generation context, `EVP_PKEY_CTRL_SET_MAC_KEY`, generation. -/
def EVP_PKEY_new_mac_key (k : MacKind) (key : Bytes) : Option GostMacKey :=
  if (macCtrl k (macPmethInit k none) (.setMacKey key.length key)).2 ≤ 0 then none
  else pkey_gost_mac_keygen_base (macCtrl k (macPmethInit k none) (.setMacKey key.length key)).1

/-- A signing operation of OpenSSL: the method data and the digest context. -/
structure MacSign where
  d : MacData
  pkey : Option GostMacKey
  m : MacMd

/-- `EVP_DigestSignInit(ctx, &pctx, md, e, pkey)` of OpenSSL with an engine's methods: a method context for the key, the sign
context (`pkey_gost_*_signctx_init`, `/repo/gost_pmeth.c` lines 962-1011, which find the data there), the digest is told to the method, the
digest is allocated, and `EVP_PKEY_CTRL_DIGESTINIT`; the init callback of the digest is not called again, since the digest controls set
`EVP_MD_CTX_FLAG_NO_INIT`. -/
def EVP_DigestSignInit (rng : Nat → Fin 8 → W32) (k : MacKind) (pkey : GostMacKey) (md : MacNid) : Option MacSign :=
  let d := macPmethInit k (some pkey)
  let r := macCtrl k d (.md md)
  if r.2 ≤ 0 then none
  else
    match md.fresh rng with
    | none => none
    | some m =>
      let q := macDigestInit r.1 (some pkey) m
      if q.2 ≤ 0 then none else some { d := r.1, pkey := some pkey, m := q.1 }

/-- `EVP_DigestSignUpdate`. -/
def MacSign.update (s : MacSign) (x : Bytes) : MacSign × Int := ({ s with m := (s.m.update x).1 }, (s.m.update x).2)

/-- `EVP_DigestSignFinal` with a buffer, which works on a copy of the digest and method contexts. -/
def MacSign.final (X : Crypto) (s : MacSign) : Bytes × Nat × Int :=
  pkey_gost_mac_signctx X (pkey_gost_mac_copy s.pkey s.d) s.m

end Gost
