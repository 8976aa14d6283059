import Verif.Model.MacPkey

/-!
# The MACs of the provider

Models `/repo/gost_prov_mac.c`: contexts over the five MAC digests, with the `EVP_MD_CTX` functions of OpenSSL they use
(`EVP_DigestInit_ex`, `EVP_MD_CTX_ctrl`, `EVP_DigestUpdate`, `EVP_DigestFinal_ex`, `EVP_MD_CTX_copy` on a digest made by
`EVP_MD_meth_new`).

Results are `Option`s; `none` is undefined behaviour (a read outside an object, or a NULL pointer).

Simplified: allocation never fails; the cipher of the OMACs is found and its setting up succeeds.  `size_t` has 64 bits and `int` 32.
-/

namespace Gost

/-- `struct gost_prov_mac_ctx_st`, `/repo/gost_prov_mac.c` lines 40-62.  `nid` stands for the descriptor and the digest; `m` is what
`dctx` holds; `cleaned`: the digest data were wiped by `EVP_DigestFinal_ex`, and no key was set since. -/
structure ProvMacCtx where
  nid : MacNid
  mac_size : Nat
  xof_mode : Int
  m : MacMd
  cleaned : Bool

/-- `initial_mac_size`, `/repo/gost_prov_mac.c` lines 329-333. -/
def provMacSize : MacNid → Nat
  | .gost28147_mac | .gost_mac_12 => 4
  | .magma_mac => 8
  | .grasshopper_mac | .kuz_omac_acpkm => 16
  | .magma_omac_acpkm | .other => 0

/-- `mac_newctx`, `/repo/gost_prov_mac.c` lines 78-98; `none`: not one of the provider's MACs. -/
def prov_mac_newctx (rng : Nat → Fin 8 → W32) (nid : MacNid) : Option ProvMacCtx :=
  (nid.fresh rng).map fun m => { nid := nid, mac_size := provMacSize nid, xof_mode := 0, m := m, cleaned := false }

/-- `mac_dupctx`, `/repo/gost_prov_mac.c` lines 100-109: a new context, into which the digest context is copied. -/
def prov_mac_dupctx (g : ProvMacCtx) : ProvMacCtx :=
  { nid := g.nid, mac_size := provMacSize g.nid, xof_mode := 0, m := g.m, cleaned := g.cleaned }

/-- The init callback of the digest, which `EVP_MD_CTRL_SET_KEY` calls before it looks at the length of the key:
`/repo/gost_crypt.c` lines 1487-1498 (the key and `key_set` stay), `/repo/gost_omac.c` lines 41-59, `/repo/gost_omac_acpkm.c` lines
311-325. -/
def MacMd.reinit : MacMd → MacMd
  | .imit c b => .imit (gost_imit_init c b) b
  | .omac c => .omac (omac_init c.cipher_name)
  | .acpkm _ => .acpkm omac_acpkm_init

/-- `EVP_MD_CTX_ctrl(dctx, EVP_MD_CTRL_SET_KEY, (int)keylen, key)`: `/repo/gost_crypt.c` lines 1588-1621, `/repo/gost_omac.c` lines
163-213, `/repo/gost_omac_acpkm.c` lines 425-465.  With length 0 the pointer is taken for a `struct gost_mac_key`, which the caller's
bytes are not: `none`. -/
def provSetKey (g : ProvMacCtx) (key : Bytes) : Option (ProvMacCtx × Bool) :=
  if longToInt key.length = 32 then
    some ({ g with m := (g.m.setKey (.raw (key.take 32))).1, cleaned := false }, decide ((g.m.setKey (.raw (key.take 32))).2 > 0))
  else if longToInt key.length = 0 then none
  else some ({ g with m := g.m.reinit, cleaned := false }, false)

/-- `EVP_MD_CTX_ctrl(dctx, EVP_CTRL_KEY_MESH, N, &T)`: unknown to `gost_imit_ctrl` and `omac_imit_ctrl`. -/
def provKeyMesh (g : ProvMacCtx) (N T : Int) : Option (ProvMacCtx × Bool) :=
  match g.m with
  | .imit _ _ | .omac _ => some (g, false)
  | .acpkm c =>
    match omac_acpkm_key_mesh c N T with
    | none => none
    | some r => some ({ g with m := .acpkm r.1 }, decide (r.2 > 0))

/-- The parameters `mac_set_ctx_params` looks for: absent, present with a value that cannot be read as the type wanted
(`some none`), or a value. -/
structure ProvMacParams where
  size : Option (Option Nat) := none
  key : Option (Option Bytes) := none
  xof : Option (Option Int) := none
  keyMesh : Option (Option Nat) := none
  cipherKeyMesh : Option (Option Nat) := none

/-- `/repo/gost_prov_mac.c` lines 231-233: "size". -/
def provParamSize (g : ProvMacCtx) : Option (Option Nat) → ProvMacCtx × Bool
  | none => (g, true)
  | some none => (g, false)
  | some (some n) => ({ g with mac_size := n }, true)

/-- `/repo/gost_prov_mac.c` lines 234-246: "key" (`EVP_MD_CTX_ctrl` never returns -2 here). -/
def provParamKey (g : ProvMacCtx) : Option (Option Bytes) → Option (ProvMacCtx × Bool)
  | none => some (g, true)
  | some none => some (g, false)
  | some (some k) => provSetKey g k

/-- `/repo/gost_prov_mac.c` lines 247-250: "xof" (every one of the digests has the flag). -/
def provParamXof (g : ProvMacCtx) : Option (Option Int) → ProvMacCtx × Bool
  | none => (g, true)
  | some none => (g, false)
  | some (some n) => ({ g with xof_mode := n }, true)

/-- `/repo/gost_prov_mac.c` lines 251-273: "key-mesh", with "cipher-key-mesh" or without. -/
def provParamMesh (g : ProvMacCtx) (mesh cipherMesh : Option (Option Nat)) : Option (ProvMacCtx × Bool) :=
  match mesh, cipherMesh with
  | none, _ => some (g, true)
  | some none, _ => some (g, false)
  | some (some _), some none => some (g, false)
  | some (some N), some (some T) => provKeyMesh g (longToInt N) (longToInt T)
  | some (some N), none => provKeyMesh g (longToInt N) 0

/-- The last two parameters. -/
def provSetParams2 (g : ProvMacCtx) (p : ProvMacParams) : Option (ProvMacCtx × Bool) :=
  if (provParamXof g p.xof).2 then provParamMesh (provParamXof g p.xof).1 p.keyMesh p.cipherKeyMesh
  else some ((provParamXof g p.xof).1, false)

/-- `mac_set_ctx_params`, `/repo/gost_prov_mac.c` lines 226-275. -/
def prov_mac_set_ctx_params (g : ProvMacCtx) (p : ProvMacParams) : Option (ProvMacCtx × Bool) :=
  if (provParamSize g p.size).2 then
    match provParamKey (provParamSize g p.size).1 p.key with
    | none => none
    | some (g, false) => some (g, false)
    | some (g, true) => provSetParams2 g p
  else some ((provParamSize g p.size).1, false)

/-- `mac_init`, `/repo/gost_prov_mac.c` lines 111-120; `key = none`: a NULL pointer. -/
def prov_mac_init (g : ProvMacCtx) (key : Option Bytes) (p : ProvMacParams) : Option (ProvMacCtx × Bool) :=
  match prov_mac_set_ctx_params g p with
  | none => none
  | some (g, false) => some (g, false)
  | some (g, true) =>
    match key with
    | none => some (g, true)
    | some k => provSetKey g k

/-- `mac_update`, `/repo/gost_prov_mac.c` lines 122-127; `EVP_DigestUpdate` with no data does nothing and succeeds. -/
def prov_mac_update (g : ProvMacCtx) (d : Bytes) : ProvMacCtx × Bool :=
  if d = [] then (g, true)
  else ({ g with m := (g.m.update d).1 }, decide ((g.m.update d).2 > 0))

/-- The digest data wiped: the cleanup callback and `OPENSSL_cleanse` in `EVP_DigestFinal_ex`, whatever the final callback returned. -/
def MacMd.wipe : MacMd → MacMd
  | .imit c b => .imit (freshImit c.cctx.rng) b
  | .omac c => .omac { cmac_ctx := none, dgst_size := 0, cipher_name := c.cipher_name, key_set := false, key := zeros 32 }
  | .acpkm _ => .acpkm { cmac := none, dgst_size := 0, key_set := false }

/-- `EVP_MD_CTX_ctrl(dctx, EVP_MD_CTRL_XOF_LEN, mac_size, NULL)` (the `size_t` becomes an `int`); on wiped data of an OMAC digest the
name of the cipher is a NULL pointer, which `OBJ_txt2nid` reads: `none`. -/
def provXofLen (g : ProvMacCtx) : Option MacMd :=
  match g.m, g.cleaned with
  | .omac _, true | .acpkm _, true => none
  | m, _ => some (m.xofLen (longToInt g.mac_size)).1

/-- What a final call does: the context left, the bytes written into the caller's buffer, the length reported, success. -/
structure ProvMacOut where
  ctx : ProvMacCtx
  written : Bytes
  outl : Nat
  ok : Bool

/-- `mac_final` with a buffer, `/repo/gost_prov_mac.c` lines 129-153. -/
def prov_mac_final (X : Crypto) (g : ProvMacCtx) : Option ProvMacOut :=
  match provXofLen g with
  | none => none
  | some m =>
    some { ctx := { g with m := m.wipe, cleaned := true }, written := (m.final X).getD [], outl := g.mac_size,
           ok := (m.final X).isSome }

/-- `mac_get_ctx_params`, `/repo/gost_prov_mac.c` lines 201-224: size, key length, XOF mode. -/
def prov_mac_get_ctx_params (g : ProvMacCtx) : Nat × Nat × Int := (g.mac_size, 32, g.xof_mode)

end Gost
