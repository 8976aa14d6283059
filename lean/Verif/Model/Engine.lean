import Verif.Model.Basic

/-!
# The engine's tables, callbacks and parameters

`/repo/gost_ctl.c`, `/repo/gost_eng.c`, and the descriptors of the ciphers and digests.  Memory allocation is taken to
succeed.  Function pointers are represented only by whether they are set.
-/

namespace Gost

/-! ## Engine parameters -/

/-- A C string. -/
abbrev CStr := List Byte

/-- The environment: `getenv`. -/
abbrev Env := String → Option CStr

/-- `gost_envnames`, `/repo/gost_ctl.c` lines 18-19. -/
def gost_envnames : List String := ["CRYPT_PARAMS", "GOST_PBE_HMAC", "GOST_PK_FORMAT"]

/-- `gost_params[GOST_PARAM_MAX + 1]`, `/repo/gost_ctl.c` line 17 (`GOST_PARAM_MAX` is 3, `/repo/gost_lcl.h` line 27):
NULL or an allocated string. -/
abbrev EngParams := List (Option CStr)

/-- The initial array. -/
def gost_params_init : EngParams := [none, none, none, none]

/-- `gost_param_free`, `/repo/gost_ctl.c` lines 21-30. -/
def gost_param_free (s : EngParams) : EngParams := s.map fun _ => none

/-- `gost_set_default_param`, `/repo/gost_ctl.c` lines 60-77 (`BUF_strdup(NULL)` is NULL). -/
def gost_set_default_param (env : Env) (s : EngParams) (param : Int) (value : Option CStr) : EngParams × Int :=
  if param < 0 ∨ param ≥ 3 then (s, 0)
  else
    let tmp := env (gost_envnames.getD param.toNat "")
    let tmp := match tmp with
      | none => value
      | some t => some t
    (s.set param.toNat tmp, 1)

/-- `gost_control_func`, `/repo/gost_ctl.c` lines 32-41; `cmd` counts from `ENGINE_CMD_BASE`. -/
def gost_control_func (env : Env) (s : EngParams) (param : Int) (p : Option CStr) : EngParams × Int :=
  if param < 0 ∨ param > 3 then (s, -1) else gost_set_default_param env s param p

/-- `get_gost_engine_param`, `/repo/gost_ctl.c` lines 43-58. -/
def get_gost_engine_param (env : Env) (s : EngParams) (param : Int) : EngParams × Option CStr :=
  if param < 0 ∨ param ≥ 3 then (s, none)
  else
    match s.getD param.toNat none with
    | some v => (s, some v)
    | none =>
      match env (gost_envnames.getD param.toNat "") with
      | some t => (s.set param.toNat (some t), some t)
      | none => (s, none)

/-! ## Object identifiers -/

/-- The NIDs named in `/repo/gost_eng.c` and the descriptors; `new k` is an NID created at run time with `OBJ_new_nid`. -/
inductive Nid where
  | undef
  | id_GostR3410_2001 | id_GostR3410_2001DH | id_Gost28147_89_MAC | id_GostR3410_2012_256 | id_GostR3410_2012_512
  | gost_mac_12 | magma_mac | grasshopper_mac | magma_ctracpkm_omac | kuznyechik_ctracpkm_omac
  | id_GostR3411_94 | id_GostR3411_2012_256 | id_GostR3411_2012_512
  | id_Gost28147_89 | gost89_cnt | gost89_cnt_12 | gost89_cbc
  | grasshopper_ecb | grasshopper_cbc | grasshopper_cfb | grasshopper_ofb | grasshopper_ctr
  | magma_ecb | magma_cbc | magma_ctr | magma_ctr_acpkm | magma_ctr_acpkm_omac
  | kuznyechik_ctr_acpkm | kuznyechik_ctr_acpkm_omac | magma_kexp15 | kuznyechik_kexp15
  | new (k : Nat)
  deriving DecidableEq

/-! ## Descriptors -/

/-- `GOST_cipher`, `/repo/gost_lcl.h` lines 322-340: a descriptor, or a template; absent fields are 0 (for function pointers:
`false`). -/
structure CDesc where
  block_size : Nat := 0
  key_len : Nat := 0
  iv_len : Nat := 0
  flags : BitVec 32 := 0
  init : Bool := false
  do_cipher : Bool := false
  cleanup : Bool := false
  ctx_size : Bool := false
  ctrl : Bool := false

/-- The bits of `<openssl/evp.h>` used (`EVP_CIPH_*`). -/
def ciphMode : BitVec 32 := 0xF0007
def ciphEcb : BitVec 32 := 0x1
def ciphCbc : BitVec 32 := 0x2
def ciphCfb : BitVec 32 := 0x3
def ciphOfb : BitVec 32 := 0x4
def ciphCtr : BitVec 32 := 0x5
def ciphWrap : BitVec 32 := 0x10002
def ciphCustomIv : BitVec 32 := 0x10
def ciphAlwaysInit : BitVec 32 := 0x20
def ciphCtrlInit : BitVec 32 := 0x40
def ciphNoPadding : BitVec 32 := 0x100
def ciphRandKey : BitVec 32 := 0x200
def ciphCustomCopy : BitVec 32 := 0x400
def ciphDefaultAsn1 : BitVec 32 := 0x1000
def ciphCustomCipher : BitVec 32 := 0x100000
def ciphAead : BitVec 32 := 0x200000
def ciphWithMac : BitVec 32 := 0x8000000

/-- `gost_template_cipher`, `/repo/gost_crypt.c` lines 142-154. -/
def gost_template_cipher : CDesc :=
  { block_size := 8, key_len := 32, iv_len := 8, flags := ciphCustomIv ||| ciphRandKey ||| ciphAlwaysInit, cleanup := true
    ctx_size := true, ctrl := true }

/-- `magma_template_cipher`, `/repo/gost_crypt.c` lines 194-206. -/
def magma_template_cipher : CDesc :=
  { block_size := 8, key_len := 32, flags := ciphRandKey ||| ciphAlwaysInit, cleanup := true, ctx_size := true
    do_cipher := true, ctrl := true }

/-- `grasshopper_template_cipher`, `/repo/gost_grasshopper_cipher.c` lines 32-42. -/
def grasshopper_template_cipher : CDesc :=
  { block_size := 16, key_len := 32, flags := ciphRandKey ||| ciphAlwaysInit, cleanup := true, ctx_size := true, ctrl := true }

/-- `wrap_template_cipher`, `/repo/gost_keyexpimp.c` lines 307, 442-447. -/
def wrap_template_cipher : CDesc :=
  { key_len := 64, flags := ciphCtrlInit ||| ciphWrap ||| ciphCustomIv ||| ciphCustomCipher ||| ciphDefaultAsn1, ctx_size := true
    ctrl := true }

/-- A descriptor with its NID and its template. -/
structure GCipher where
  nid : Nid
  tpl : CDesc
  d : CDesc

/-- `gost_cipher_array`, `/repo/gost_eng.c` lines 85-106, with the descriptors of `/repo/gost_crypt.c` lines 156-192, 208-289,
`/repo/gost_grasshopper_cipher.c` lines 44-141 and `/repo/gost_keyexpimp.c` lines 449-465.  `kuzMgm` and `magmaMgm` are the
NIDs of the MGM ciphers, set at load time. -/
def gost_cipher_array (kuzMgm magmaMgm : Nid) : List GCipher := [
  ⟨.id_Gost28147_89, gost_template_cipher,
    { block_size := 1, flags := ciphCfb ||| ciphNoPadding, init := true, do_cipher := true }⟩,
  ⟨.gost89_cnt, gost_template_cipher, { block_size := 1, flags := ciphOfb ||| ciphNoPadding, init := true, do_cipher := true }⟩,
  ⟨.gost89_cnt_12, gost_template_cipher, { block_size := 1, flags := ciphOfb ||| ciphNoPadding, init := true, do_cipher := true }⟩,
  ⟨.gost89_cbc, gost_template_cipher, { flags := ciphCbc, init := true, do_cipher := true }⟩,
  ⟨.grasshopper_ecb, grasshopper_template_cipher, { flags := ciphEcb, init := true, do_cipher := true }⟩,
  ⟨.grasshopper_cbc, grasshopper_template_cipher,
    { iv_len := 16, flags := ciphCbc ||| ciphCustomIv, init := true, do_cipher := true }⟩,
  ⟨.grasshopper_cfb, grasshopper_template_cipher,
    { block_size := 1, iv_len := 16, flags := ciphCfb ||| ciphNoPadding ||| ciphCustomIv, init := true, do_cipher := true }⟩,
  ⟨.grasshopper_ofb, grasshopper_template_cipher,
    { block_size := 1, iv_len := 16, flags := ciphOfb ||| ciphNoPadding ||| ciphCustomIv, init := true, do_cipher := true }⟩,
  ⟨.grasshopper_ctr, grasshopper_template_cipher,
    { block_size := 1, iv_len := 8, flags := ciphCtr ||| ciphNoPadding ||| ciphCustomIv, init := true, do_cipher := true
      ctx_size := true }⟩,
  ⟨.magma_ecb, magma_template_cipher, { flags := ciphEcb, init := true, do_cipher := true }⟩,
  ⟨kuzMgm, grasshopper_template_cipher,
    { block_size := 1, iv_len := 16, flags := ciphNoPadding ||| ciphCustomIv ||| ciphCustomCipher ||| ciphCtrlInit ||| ciphAead
      cleanup := true, ctrl := true, init := true, do_cipher := true, ctx_size := true }⟩,
  ⟨.magma_cbc, gost_template_cipher, { iv_len := 8, flags := ciphCbc ||| ciphCustomIv, init := true, do_cipher := true }⟩,
  ⟨.magma_ctr, magma_template_cipher,
    { block_size := 1, iv_len := 4, flags := ciphCtr ||| ciphCustomIv ||| ciphNoPadding, init := true }⟩,
  ⟨.magma_ctr_acpkm, magma_template_cipher,
    { block_size := 1, iv_len := 4, flags := ciphCtr ||| ciphCustomIv ||| ciphNoPadding, init := true }⟩,
  ⟨.magma_ctr_acpkm_omac, magma_template_cipher,
    { block_size := 1, iv_len := 4
      flags := ciphCtr ||| ciphCustomIv ||| ciphNoPadding ||| ciphCustomCopy ||| ciphCustomCipher ||| ciphWithMac
      init := true, do_cipher := true, ctrl := true }⟩,
  ⟨magmaMgm, magma_template_cipher,
    { block_size := 1, iv_len := 8, flags := ciphNoPadding ||| ciphCustomIv ||| ciphCustomCipher ||| ciphCtrlInit ||| ciphAead
      init := true, do_cipher := true, ctrl := true, cleanup := true, ctx_size := true }⟩,
  ⟨.kuznyechik_ctr_acpkm, grasshopper_template_cipher,
    { block_size := 1, iv_len := 8, flags := ciphCtr ||| ciphNoPadding ||| ciphCustomIv, init := true, do_cipher := true
      ctx_size := true }⟩,
  ⟨.kuznyechik_ctr_acpkm_omac, grasshopper_template_cipher,
    { block_size := 1, iv_len := 8
      flags := ciphCtr ||| ciphNoPadding ||| ciphCustomIv ||| ciphCustomCipher ||| ciphWithMac ||| ciphCustomCopy
      init := true, do_cipher := true, ctx_size := true }⟩,
  ⟨.magma_kexp15, wrap_template_cipher, { block_size := 8, iv_len := 4, init := true, do_cipher := true }⟩,
  ⟨.kuznyechik_kexp15, wrap_template_cipher, { block_size := 16, iv_len := 8, init := true, do_cipher := true }⟩]

/-- What `EVP_CIPHER_meth_*` are given: the method object. -/
structure EvpCipher where
  nid : Nid
  block_size : Nat
  key_len : Nat
  iv_len : Nat
  flags : BitVec 32
  init : Bool
  do_cipher : Bool
  cleanup : Bool
  ctx_size : Bool
  ctrl : Bool
  deriving DecidableEq

/-- `TPL(st,field)` on a number, `/repo/gost_crypt.c` lines 83-89. -/
def tplN (a b : Nat) : Nat := if a ≠ 0 then a else b

/-- The checks of `GOST_init_cipher`, `/repo/gost_crypt.c` lines 96-114 (`OPENSSL_assert` ends the program when one fails). -/
def cipherAsserts (c : GCipher) : Bool :=
  let flags := c.d.flags ||| c.tpl.flags
  let block_size := tplN c.d.block_size c.tpl.block_size
  let mode := flags &&& ciphMode
  (if mode = ciphCbc ∨ mode = ciphEcb ∨ mode = ciphWrap then
    block_size ≠ 1 && flags &&& ciphNoPadding = 0
  else block_size = 1 && flags &&& ciphNoPadding ≠ 0) &&
  (if tplN c.d.iv_len c.tpl.iv_len ≠ 0 then flags &&& ciphCustomIv ≠ 0 else flags &&& ciphCustomIv = 0)

/-- `GOST_init_cipher`, `/repo/gost_crypt.c` lines 91-132, without the cache: none if an assertion fails. -/
def GOST_init_cipher (c : GCipher) : Option EvpCipher :=
  if cipherAsserts c then
    some { nid := c.nid, block_size := tplN c.d.block_size c.tpl.block_size, key_len := tplN c.d.key_len c.tpl.key_len
           iv_len := tplN c.d.iv_len c.tpl.iv_len, flags := c.d.flags ||| c.tpl.flags, init := c.d.init || c.tpl.init
           do_cipher := c.d.do_cipher || c.tpl.do_cipher, cleanup := c.d.cleanup || c.tpl.cleanup
           ctx_size := c.d.ctx_size || c.tpl.ctx_size, ctrl := c.d.ctrl || c.tpl.ctrl }
  else none

/-- `gost_digest_array`, `/repo/gost_eng.c` lines 74-83, with the result sizes of the descriptors: `/repo/gost_md.c` line 25,
`/repo/gost_crypt.c` lines 304-328, `/repo/gost_md2012.c` lines 41-57, `/repo/gost_omac.c` lines 275-287,
`/repo/gost_omac_acpkm.c` lines 517-529 (with `MAX_GOST_OMAC_ACPKM_SIZE` = 16). -/
def gost_digest_array : List (Nid × Nat) := [
  (.id_GostR3411_94, 32), (.id_Gost28147_89_MAC, 4), (.id_GostR3411_2012_256, 32), (.id_GostR3411_2012_512, 64),
  (.gost_mac_12, 4), (.magma_mac, 8), (.grasshopper_mac, 16), (.kuznyechik_ctracpkm_omac, 16)]

/-- `gost_meth_array`, `/repo/gost_eng.c` lines 114-186: the NIDs (every entry has its own method variables). -/
def gost_meth_array : List Nid := [
  .id_GostR3410_2001, .id_GostR3410_2001DH, .id_Gost28147_89_MAC, .id_GostR3410_2012_256, .id_GostR3410_2012_512,
  .gost_mac_12, .magma_mac, .grasshopper_mac, .magma_ctracpkm_omac, .kuznyechik_ctracpkm_omac]

/-! ## The engine -/

/-- The engine's variables: for each entry of `gost_meth_array` the method pointers (NULL or a method made for an NID), and
the MGM cipher NIDs. -/
structure EngState where
  pmeth : List (Option Nid)
  ameth : List (Option Nid)
  kuzMgm : Nid
  magmaMgm : Nid
  deriving DecidableEq

/-- The variables when the module is mapped: `/repo/gost_eng.c` lines 58-72, `.nid = NID_undef`. -/
def engInit : EngState := ⟨List.replicate 10 none, List.replicate 10 none, .undef, .undef⟩

/-- `register_ameth_gost`, `/repo/gost_ameth.c` lines 1156-1220: the new value of the variable and the result. -/
def register_ameth_gost (nid : Nid) : Option Nid × Int := (some nid, 1)

/-- `register_pmeth_gost`, `/repo/gost_pmeth.c` lines 1046-1166: the cases of its `switch`; others are refused (the variable
keeps the bare method). -/
def register_pmeth_gost (nid : Nid) : Option Nid × Int :=
  match nid with
  | .id_GostR3410_2001 | .id_GostR3410_2001DH | .id_GostR3410_2012_256 | .id_GostR3410_2012_512 | .id_Gost28147_89_MAC
  | .gost_mac_12 | .magma_mac | .grasshopper_mac | .kuznyechik_ctracpkm_omac => (some nid, 1)
  | n => (some n, 0)

/-- The registration loop of `populate_gost_engine`, `/repo/gost_eng.c` lines 419-431, on entries with the current contents
of their variables. -/
def registerLoop : List (Nid × Option Nid × Option Nid) → List (Option Nid × Option Nid) × Int
  | [] => ([], 1)
  | (nid, p, a) :: rest =>
    if nid = .magma_ctracpkm_omac then
      let t := registerLoop rest
      ((p, a) :: t.1, t.2)
    else
      let ra := register_ameth_gost nid
      if ra.2 = 0 then ((p, ra.1) :: rest.map fun e => e.2, 0)
      else
        let rp := register_pmeth_gost nid
        if rp.2 = 0 then ((rp.1, ra.1) :: rest.map fun e => e.2, 0)
        else
          let t := registerLoop rest
          ((rp.1, ra.1) :: t.1, t.2)

/-- `populate_gost_engine` with `create_NIDs`, `/repo/gost_eng.c` lines 338-353, 365-436, the `ENGINE_set_*` calls succeeding:
`fresh` is the number `OBJ_new_nid` returned; Kuznyechik MGM is first in `missing_NIDs`. -/
def populate_gost_engine (fresh : Nat) (s : EngState) : EngState × Int :=
  let s := { s with kuzMgm := .new fresh, magmaMgm := .new (fresh + 1) }
  let r := registerLoop (gost_meth_array.zip (s.pmeth.zip s.ameth))
  ({ s with pmeth := r.1.map (·.1), ameth := r.1.map (·.2) }, r.2)

/-- `gost_engine_destroy`, `/repo/gost_eng.c` lines 302-326, on these variables. -/
def gost_engine_destroy (s : EngState) : EngState :=
  { s with pmeth := s.pmeth.map fun _ => none, ameth := s.ameth.map fun _ => none }

/-- `check_gost_engine`, `/repo/gost_eng.c` lines 466-475 (with the right name): refuses a second load. -/
def check_gost_engine (s : EngState) : Bool := (s.ameth.getD 0 none).isNone

/-- `make_gost_engine`, `/repo/gost_eng.c` lines 477-482 (`bind_gost_engine` succeeding). -/
def make_gost_engine (fresh : Nat) (s : EngState) : EngState × Int :=
  if check_gost_engine s then populate_gost_engine fresh s else (s, 0)

/-- `gost_meth_nids`, `/repo/gost_eng.c` lines 245-254. -/
def gost_meth_nids : List Nid := gost_meth_array

/-- The search loop of the callbacks. -/
def lookupNid (nid : Nid) : List (Nid × Option Nid) → Option (Option Nid)
  | [] => none
  | (n, m) :: rest => if nid = n then some m else lookupNid nid rest

/-- `gost_pkey_meths` with a method wanted, `/repo/gost_eng.c` lines 265-271: the result and the method. -/
def gost_pkey_meths (s : EngState) (nid : Nid) : Int × Option Nid :=
  match lookupNid nid (gost_meth_array.zip s.pmeth) with
  | some m => (1, m)
  | none => (0, none)

/-- `gost_pkey_asn1_meths` with a method wanted, `/repo/gost_eng.c` lines 283-289. -/
def gost_pkey_asn1_meths (s : EngState) (nid : Nid) : Int × Option Nid :=
  match lookupNid nid (gost_meth_array.zip s.ameth) with
  | some m => (1, m)
  | none => (0, none)

/-- `gost_ciphers` listing the NIDs, `/repo/gost_eng.c` lines 227-234. -/
def gost_cipher_nids (s : EngState) : List Nid := (gost_cipher_array s.kuzMgm s.magmaMgm).map (·.nid)

/-- `gost_ciphers` with a cipher wanted, `/repo/gost_eng.c` lines 236-242. -/
def gost_ciphers (s : EngState) (nid : Nid) : Int × Option EvpCipher :=
  match (gost_cipher_array s.kuzMgm s.magmaMgm).find? (fun c => nid = c.nid) with
  | some c => (1, GOST_init_cipher c)
  | none => (0, none)

/-- `gost_digests` with a digest wanted, `/repo/gost_eng.c` lines 212-218: the result, the NID and the size of the digest. -/
def gost_digests (nid : Nid) : Int × Option (Nid × Nat) :=
  match gost_digest_array.find? (fun d => nid = d.1) with
  | some d => (1, some d)
  | none => (0, none)

end Gost
