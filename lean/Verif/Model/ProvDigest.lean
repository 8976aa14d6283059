import Verif.Model.Gost94
import Verif.Model.Streebog
import Verif.Model.MacPkey

/-!
# The digests of the provider

Models `/repo/gost_prov_digest.c` and the digest methods of `/repo/gost_md.c` and `/repo/gost_md2012.c` it uses, with the `EVP_MD_CTX`
functions of OpenSSL for a digest made by `EVP_MD_meth_new` (`EVP_DigestInit_ex`, `EVP_DigestUpdate`, `EVP_DigestFinal`,
`EVP_MD_CTX_copy`).

Results are `Option`s; `none` is undefined behaviour (a read outside an object, or a call through a NULL pointer).

Simplified: allocation never fails.  `size_t` has 64 bits and `int` 32.
-/

namespace Gost

/-- The three entries of `GOST_prov_digests`, `/repo/gost_prov_digest.c` lines 170-187. -/
inductive DigestKind where
  | gost94 | sb256 | sb512

/-- `result_size`: `/repo/gost_md.c` line 25, `/repo/gost_md2012.c` lines 45 and 54. -/
def DigestKind.size : DigestKind → Nat
  | .gost94 | .sb256 => 32
  | .sb512 => 64

/-- `input_blocksize`: `/repo/gost_md.c` line 26, `/repo/gost_md2012.c` line 33. -/
def DigestKind.block : DigestKind → Nat
  | .gost94 => 32
  | .sb256 | .sb512 => 64

/-- The digest data of an initialised `EVP_MD_CTX`. -/
inductive DigestMd where
  | g94 (c : HashCtx)
  | sb (c : SbCtx)

/-- `struct gost_prov_crypt_ctx_st`, `/repo/gost_prov_digest.c` lines 28-48; `kind` stands for the descriptor and the digest; `dctx = none`:
the `EVP_MD_CTX` is new or reset. -/
structure ProvDigestCtx where
  kind : DigestKind
  dctx : Option DigestMd

/-- `digest_newctx`, `/repo/gost_prov_digest.c` lines 63-81. -/
def prov_digest_newctx (k : DigestKind) : ProvDigestCtx := { kind := k, dctx := none }

/-- `digest_dupctx`, `/repo/gost_prov_digest.c` lines 83-92, with the copy methods, `/repo/gost_md.c` lines 101-110 (the pointer to the
cipher context is set to the copy's own) and `/repo/gost_md2012.c` lines 86-93. -/
def prov_digest_dupctx (g : ProvDigestCtx) : ProvDigestCtx := { kind := g.kind, dctx := g.dctx }

/-- The cipher context the init method of GOST R 34.11-94 finds in the digest data: those of the context, or new (zeroed) ones. -/
def DigestMd.cipherCtx (rng : Nat → Fin 8 → W32) : Option DigestMd → Ctx
  | some (.g94 c) => c.cctx
  | _ => (freshImit rng).cctx

/-- The init methods: `/repo/gost_md.c` lines 81-88, `/repo/gost_md2012.c` lines 59-71. -/
def DigestMd.init (rng : Nat → Fin 8 → W32) (old : Option DigestMd) : DigestKind → DigestMd
  | .gost94 => .g94 (gost94_digest_init (DigestMd.cipherCtx rng old))
  | .sb256 => .sb (init_gost2012_hash_ctx 256)
  | .sb512 => .sb (init_gost2012_hash_ctx 512)

/-- The update methods: `/repo/gost_md.c` lines 90-93, `/repo/gost_md2012.c` lines 73-78. -/
def DigestMd.update (b : SbBuild) (d : Bytes) : DigestMd → DigestMd
  | .g94 c => .g94 (hash_block c d)
  | .sb c => .sb (gost2012_hash_block b c d)

/-- The final methods: `/repo/gost_md.c` lines 95-99, `/repo/gost_md2012.c` lines 80-84. -/
def DigestMd.final (b : SbBuild) : DigestMd → Bytes
  | .g94 c => (finish_hash c).2
  | .sb c => (gost2012_finish_hash b c).2

/-- `digest_get_params`, `/repo/gost_prov_digest.c` lines 94-106: block size, size, XOF flag. -/
def prov_digest_get_params (k : DigestKind) : Nat × Nat × Nat := (k.block, k.size, 0)

/-- `digest_init`, `/repo/gost_prov_digest.c` lines 108-113: `EVP_DigestInit_ex` calls the init method in every state. -/
def prov_digest_init (rng : Nat → Fin 8 → W32) (g : ProvDigestCtx) : ProvDigestCtx × Bool :=
  ({ g with dctx := some (DigestMd.init rng g.dctx g.kind) }, true)

/-- `digest_update`, `/repo/gost_prov_digest.c` lines 115-120.  The length becomes an `int`, and a `size_t` again: `EVP_DigestUpdate`
does nothing for 0 bytes; a negative number becomes more than `2^63` bytes.  Without an initialised digest the method is a NULL pointer. -/
def prov_digest_update (b : SbBuild) (g : ProvDigestCtx) (d : Bytes) : Option (ProvDigestCtx × Bool) :=
  if longToInt d.length = 0 then some (g, true)
  else if longToInt d.length < 0 then none
  else
    match g.dctx with
    | none => none
    | some m => some ({ g with dctx := some (m.update b (d.take (longToInt d.length).toNat)) }, true)

/-- `digest_final`, `/repo/gost_prov_digest.c` lines 122-132: the context, the bytes written, the length reported, success.
`EVP_DigestFinal` resets the `EVP_MD_CTX`. -/
def prov_digest_final (b : SbBuild) (g : ProvDigestCtx) : Option (ProvDigestCtx × Bytes × Nat × Bool) :=
  match g.dctx with
  | none => none
  | some m => some ({ g with dctx := none }, m.final b, g.kind.size, true)

end Gost
