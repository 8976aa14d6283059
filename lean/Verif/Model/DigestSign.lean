import Verif.Model.KeyTransport
import Verif.Model.MacPkey

/-!
# Signing and verifying messages with keys of the engine

`EVP_PKEY_sign` / `EVP_PKEY_verify` of gost_pmeth.c and gost_ec_sign.c with everything the caller sees (return code, length, memory from the
output pointer on, end of the process by `OPENSSL_assert`), what a key says about itself (gost_ameth.c), and the use OpenSSL makes of both in
`EVP_DigestSign` / `EVP_DigestVerify` (crypto/evp/m_sigver.c, engine path).  The key type GOST R 34.10-94 is left out (no method is
registered for it).
-/

namespace Gost

open Spec (leNat beNat leBytes beBytes)

/-- The outcome of a call: the process is ended by `OPENSSL_assert`, or the call returns. -/
inductive Call (α : Type) where
  | abort
  | done (a : α)
  deriving DecidableEq

/-- What a signing call leaves: the memory from the pointer `sig` on (`none` for NULL), `*siglen` and the value returned. -/
structure SignRet where
  mem : Option Bytes
  siglen : Nat
  code : Int
  deriving DecidableEq

/-- `pkey_size_gost` (`EVP_PKEY_get_size`), `/repo/gost_ameth.c` lines 1061-1077. -/
def pkey_size_gost (pk : EvpPkey) : Int :=
  match pk.nid with
  | .gost2001 | .gost2001DH | .gost2012_256 => 64
  | .gost2012_512 => 128

/-- `pkey_bits_gost` (`EVP_PKEY_get_bits`, `EVP_PKEY_get_security_bits`), `/repo/gost_ameth.c` lines 39-54 and 1177-1200. -/
def pkey_bits_gost (pk : EvpPkey) : Int :=
  match pk.nid with
  | .gost2001 | .gost2001DH | .gost2012_256 => 256
  | .gost2012_512 => 512

/-- `ASN1_PKEY_CTRL_DEFAULT_MD_NID` of `pkey_ctrl_gost`, `/repo/gost_ameth.c` lines 421-437 and 528-530: the digest stored and the value
returned. -/
def ctrl_default_md (pk : EvpPkey) : DgstNid × Int := (defaultDigest pk.nid, 2)

/-- `gost_ec_sign` on a key, `/repo/gost_ec_sign.c` lines 175-310, with its assertion on the length of the digest (line 205). -/
def gost_ec_sign_key (v : KxEnv) (pk : EvpPkey) (tbs : Bytes) (draws : List Nat) : Call (Option (Nat × Nat)) :=
  if tbs.length ≠ 32 ∧ tbs.length ≠ 64 then .abort
  else
    match pk.group, pk.priv with
    | some g, some d => .done (gost_ec_sign (engineGroup v.ws v.ossl g) tbs d draws)
    | _, _ => .done none

/-- The memory from `sig` on after `b` was written to it. -/
def writeTo (mem b : Bytes) : Bytes := b ++ mem.drop b.length

/-- `pkey_gost_ec_cp_sign`, `/repo/gost_pmeth.c` lines 481-516.  `*siglen` is not read. -/
def pkey_sign (v : KxEnv) (pk : EvpPkey) (sig : Option Bytes) (siglen : Nat) (tbs : Bytes) (draws : List Nat) : Call SignRet :=
  let order := pk.nid.sigLen
  match sig with
  | none => .done ⟨none, order, 1⟩
  | some mem =>
    match gost_ec_sign_key v pk tbs draws with
    | .abort => .abort
    | .done none => .done ⟨some mem, siglen, 0⟩
    | .done (some rs) => .done ⟨some (writeTo mem (pack_sign_cp rs (order / 2))), order, 1⟩

/-- `gost_ec_verify` on a key, `/repo/gost_ec_sign.c` lines 316-442, with its assertions (lines 338 and 374). -/
def gost_ec_verify_key (v : KxEnv) (pk : EvpPkey) (tbs : Bytes) (r s : Nat) : Call Int :=
  match pk.group with
  | none => .abort
  | some g =>
    match pk.pub with
    | none => .done 0
    | some Q =>
      if s = 0 ∨ r = 0 ∨ s ≥ g.q ∨ r ≥ g.q then .done 0
      else if tbs.length ≠ 32 ∧ tbs.length ≠ 64 then .abort
      else .done (gost_ec_verify (engineGroup v.ws v.ossl g) tbs r s Q)

/-- `pkey_gost_ec_cp_verify`, `/repo/gost_pmeth.c` lines 536-557. -/
def pkey_verify (v : KxEnv) (pk : EvpPkey) (sig tbs : Bytes) : Call Int :=
  gost_ec_verify_key v pk tbs (unpack_cp_signature sig).1 (unpack_cp_signature sig).2

/-- The digest `do_sigver_init` uses: the one given, or the default of the key. -/
def sigNid (pk : EvpPkey) : Option DgstNid → DgstNid
  | some t => t
  | none => if (ctrl_default_md pk).2 > 0 then (ctrl_default_md pk).1 else .undef

/-- OpenSSL's `do_sigver_init` for these keys: a context for the key (`pkey_gost_init`), the digest given or the default of the key, and
`EVP_PKEY_CTX_set_signature_md` (`pkey_gost_ctrl`); the digest in use, or `none` for an error. -/
def sigverInit (v : KxEnv) (pk : EvpPkey) (type : Option DgstNid) : Option (Bytes → Bytes) :=
  match pkey_gost_init (some pk) with
  | none => none
  | some data => if (pkey_gost_ctrl (some pk) data (.md (sigNid pk type))).2 > 0 then v.md.get (sigNid pk type) else none

/-- OpenSSL's `EVP_DigestSignInit`, `EVP_DigestSignUpdate`, `EVP_DigestSignFinal`. -/
def digestSign (v : KxEnv) (pk : EvpPkey) (type : Option DgstNid) (msg : Bytes) (sig : Option Bytes) (siglen : Nat) (draws : List Nat) :
    Call SignRet :=
  match sigverInit v pk type with
  | none => .done ⟨sig, siglen, 0⟩
  | some md => pkey_sign v pk sig siglen (md msg) draws

/-- OpenSSL's `EVP_DigestVerifyInit`, `EVP_DigestVerifyUpdate`, `EVP_DigestVerifyFinal`. -/
def digestVerify (v : KxEnv) (pk : EvpPkey) (type : Option DgstNid) (msg sig : Bytes) : Call Int :=
  match sigverInit v pk type with
  | none => .done 0
  | some md => pkey_verify v pk sig (md msg)

/-- `mac_ctrl_gost`, `mac_ctrl_gost_12`, `mac_ctrl_magma`, `mac_ctrl_grasshopper` for `ASN1_PKEY_CTRL_DEFAULT_MD_NID`, `/repo/gost_ameth.c` lines
1085-1131, as registered at lines 1202-1217; `none`: no control function is registered (there are no keys of that type, see
`MacKind.generated`). -/
def mac_default_md : MacKind → Option (MacNid × Int)
  | .mac => some (.gost28147_mac, 2)
  | .mac12 => some (.gost_mac_12, 2)
  | .magma => some (.magma_mac, 2)
  | .kuznyechik => some (.grasshopper_mac, 2)
  | .kuzAcpkm => none

end Gost
