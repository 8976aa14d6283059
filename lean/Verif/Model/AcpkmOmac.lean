import Verif.Model.MacPkey
import Verif.Model.CipherAsn1
import Verif.Model.KuzModes
import Verif.Model.GostModes

/-!
# CTR-ACPKM with OMAC (`/repo/gost_gost2015.c`, `/repo/gost_crypt.c`, `/repo/gost_grasshopper_cipher.c`)

The ciphers `magma-ctr-acpkm-omac` and `kuznyechik-ctr-acpkm-omac`: two keys are derived from the key and a random seed, the data are
encrypted in CTR-ACPKM mode, the OMAC of the plaintext is encrypted behind them and kept as a tag, which travels as an unprotected
attribute of a CMS message.

The fields `kdf_seed`, `tag` and `omac_ctx` left out of the contexts of `Model/GostModes.lean` and `Model/KuzModes.lean` are added here.
Allocation of memory and of the digest context succeeds.  `RAND_bytes` takes the next element of `draws` and fails when there is none.
A digest context replaced by another one is a leak, which is not modelled.
-/

namespace Gost

/-- The cipher data of a mode with context `σ`, with `kdf_seed`, `tag` (8 or 16 bytes) and `omac_ctx` (`none`: NULL) of
`struct ossl_gost_cipher_ctx` (`/repo/gost_lcl.h` lines 210-218) and `gost_grasshopper_cipher_ctx_ctr`
(`/repo/gost_grasshopper_cipher.h` lines 31-40). -/
structure AoCtx (σ : Type) where
  c : σ
  omac_ctx : Option MacSign
  kdf_seed : Bytes
  tag : Bytes

/-- Outcome of a cipher call: a null pointer is dereferenced, or the context, the bytes written to `out` and the value returned. -/
inductive AoRes (σ : Type) where
  | nullDeref
  | ret (a : AoCtx σ) (out : Bytes) (r : Int)

/-- `KUZNYECHIK_MAC_MAX_SIZE` and `MAGMA_MAC_MAX_SIZE`, `/repo/gost_lcl.h`. -/
def aoMacSize : OmacCipher → Nat
  | .magma => 8
  | .kuznyechik => 16

/-- The key type of the NID given to `EVP_PKEY_new_mac_key`. -/
def aoKind : OmacCipher → MacKind
  | .magma => .magma
  | .kuznyechik => .kuznyechik

/-- The digest of that NID. -/
def aoNid : OmacCipher → MacNid
  | .magma => .magma_mac
  | .kuznyechik => .grasshopper_mac

/-- `RAND_bytes(kdf_seed, 8)`: the new contents of the buffer and the draws left, or failure. -/
def randSeed : List Bytes → Option (Bytes × List Bytes)
  | [] => none
  | d :: ds => some (d.take 8, ds)

/-- `"kdf tree"`, `/repo/gost_gost2015.c` line 175. -/
def aoKdfLabel : Bytes := [0x6b, 0x64, 0x66, 0x20, 0x74, 0x72, 0x65, 0x65]

/-- The part of `gost2015_acpkm_omac_init` after the seed is known, `/repo/gost_gost2015.c` lines 174-187: the digest context and
`outkey`. -/
def acpkmOmacKeys (X : Crypto) (rng : Nat → Fin 8 → W32) (n : OmacCipher) (inkey seed : Bytes) : Option (MacSign × Bytes) :=
  match gost_kdftree2012_256 X 64 (inkey.take 32) aoKdfLabel (seed.take 8) 1 with
  | none => none
  | some keys =>
    match EVP_PKEY_new_mac_key (aoKind n) ((keys.drop 32).take 32) with
    | none => none
    | some pk =>
      match EVP_DigestSignInit rng (aoKind n) pk (aoNid n) with
      | none => none
      | some s => some (s, keys.take 32)

/-- The seed after `gost2015_acpkm_omac_init`, `/repo/gost_gost2015.c` lines 169-172, and the draws left; `none`: the generator failed. -/
def acpkmOmacSeed (enc : Bool) (seed : Bytes) (draws : List Bytes) : Option (Bytes × List Bytes) :=
  if enc then randSeed draws else some (seed, draws)

/-- `init_zero_kdf_seed`, `/repo/gost_gost2015.c` lines 196-205. -/
def init_zero_kdf_seed (seed : Bytes) (draws : List Bytes) : Option (Bytes × List Bytes) :=
  if (seed.take 8).all (· == 0) then randSeed draws else some (seed, draws)

/-! ## Initialisation -/

/-- `magma_cipher_init` for NID `magma_ctr_acpkm_omac`, `/repo/gost_crypt.c` lines 490-521, with the seed: a context without
application data that is to encrypt gets a random seed if its seed is zero. -/
def magma_cipher_init_seed (a : AoCtx CipherCtx) (key iv : Option Bytes) (enc : Bool) (draws : List Bytes) :
    AoCtx CipherCtx × Int × List Bytes :=
  if !a.c.appData && enc then
    match init_zero_kdf_seed a.kdf_seed draws with
    | none => ({ a with c := { gost_cipher_set_param { a.c with encrypting := enc } .tc26Z with appData := true } }, -1, draws)
    | some (seed, ds) => ({ a with c := magma_cipher_init a.c key iv enc 4 true, kdf_seed := seed }, 1, ds)
  else ({ a with c := magma_cipher_init a.c key iv enc 4 true }, 1, draws)

/-- `magma_cipher_init_ctr_acpkm_omac`, `/repo/gost_crypt.c` lines 524-550.  `EVP` sets `encrypting` before the call. -/
def magma_cipher_init_ctr_acpkm_omac (X : Crypto) (rng : Nat → Fin 8 → W32) (a : AoCtx CipherCtx) (key iv : Option Bytes) (enc : Bool)
    (draws : List Bytes) : AoCtx CipherCtx × Int × List Bytes :=
  match key with
  | none => magma_cipher_init_seed a none iv enc draws
  | some k =>
    match acpkmOmacSeed enc a.kdf_seed draws with
    | none => ({ a with c := { a.c with encrypting := enc }, omac_ctx := none }, 0, draws)
    | some (seed, ds) =>
      match acpkmOmacKeys X rng .magma k seed with
      | none => ({ a with c := { a.c with encrypting := enc }, omac_ctx := none, kdf_seed := seed }, 0, ds)
      | some (s, ck) => magma_cipher_init_seed { a with omac_ctx := some s, kdf_seed := seed } (some ck) iv enc ds

/-- `gost_grasshopper_cipher_init_ctracpkm_omac`, `/repo/gost_grasshopper_cipher.c` lines 339-372. -/
def gost_grasshopper_cipher_init_ctracpkm_omac (X : Crypto) (rng : Nat → Fin 8 → W32) (a : AoCtx KCtx) (key iv : Option Bytes)
    (enc : Bool) (draws : List Bytes) : AoCtx KCtx × Int × List Bytes :=
  let c := { a.c with type := .ctracpkmomac, num := 0, section_size := 4096 }
  match key with
  | none => ({ a with c := gost_grasshopper_cipher_init c none iv enc 8 }, 1, draws)
  | some k =>
    match acpkmOmacSeed enc a.kdf_seed draws with
    | none => ({ a with c := { c with encrypting := enc }, omac_ctx := none }, 0, draws)
    | some (seed, ds) =>
      match acpkmOmacKeys X rng .kuznyechik k seed with
      | none => ({ a with c := { c with encrypting := enc }, omac_ctx := none, kdf_seed := seed }, 0, ds)
      | some (s, ck) =>
        ({ a with c := gost_grasshopper_cipher_init c (some ck) iv enc 8, omac_ctx := some s, kdf_seed := seed }, 1, ds)

/-! ## Encryption and decryption -/

/-- `gost2015_final_call`, `/repo/gost_gost2015.c` lines 15-45, for a context with digest `s`.  The result of `EVP_DigestSignFinal` is
not looked at, but its length replaces `mac_size`.  `do_cipher` returns the length of its input. -/
def gost2015_final_call {σ : Type} (X : Crypto) (doCipher : σ → Bytes → σ × Bytes) (encrypting : Bool) (a : AoCtx σ) (s : MacSign) :
    AoRes σ :=
  let f := s.final X
  let calculated := memcpy (zeros 16) f.1 f.1.length
  if encrypting then
    let r := doCipher a.c (calculated.take f.2.1)
    if f.2.1 = 0 then .ret { a with c := r.1 } [] (-1)
    else .ret { a with c := r.1, tag := memcpy a.tag r.2 f.2.1 } [] 0
  else
    let r := doCipher a.c (a.tag.take f.2.1)
    if f.2.1 = 0 then .ret { a with c := r.1 } [] (-1)
    else if r.2 ≠ calculated.take f.2.1 then .ret { a with c := r.1 } [] (-1)
    else .ret { a with c := r.1 } [] 0

/-- `gost_grasshopper_cipher_do_ctracpkm_omac` with data, `/repo/gost_grasshopper_cipher.c` lines 722-748.  The results of the digest
are not looked at. -/
def gost_grasshopper_cipher_do_ctracpkm_omac (a : AoCtx KCtx) (inp : Bytes) : AoRes KCtx :=
  match a.omac_ctx with
  | none => .nullDeref
  | some s =>
    let r := gost_grasshopper_cipher_do_ctracpkm a.c inp
    let s := (s.update (if a.c.encrypting then inp else r.2)).1
    .ret { a with c := r.1, omac_ctx := some s } r.2 inp.length

/-- The same with `in == NULL && inl == 0`; when encrypting, the digest is first given no bytes. -/
def gost_grasshopper_cipher_final_ctracpkm_omac (X : Crypto) (a : AoCtx KCtx) : AoRes KCtx :=
  match a.omac_ctx with
  | none => .nullDeref
  | some s =>
    let s := if a.c.encrypting then (s.update []).1 else s
    gost2015_final_call X gost_grasshopper_cipher_do_ctracpkm a.c.encrypting { a with omac_ctx := some s } s

/-- `magma_cipher_do_ctr_acpkm_omac` with data, `/repo/gost_crypt.c` lines 875-899. -/
def magma_cipher_do_ctr_acpkm_omac (a : AoCtx CipherCtx) (inp : Bytes) : AoRes CipherCtx :=
  match a.omac_ctx with
  | none => .nullDeref
  | some s =>
    let r := magma_cipher_do_ctr a.c inp
    let s := (s.update (if a.c.encrypting then inp else r.2)).1
    .ret { a with c := r.1, omac_ctx := some s } r.2 inp.length

/-- The same with `in == NULL && inl == 0`. -/
def magma_cipher_final_ctr_acpkm_omac (X : Crypto) (a : AoCtx CipherCtx) : AoRes CipherCtx :=
  match a.omac_ctx with
  | none => .nullDeref
  | some s => gost2015_final_call X magma_cipher_do_ctr a.c.encrypting a s

/-! ## Controls -/

/-- `gost2015_process_unprotected_attributes` for decryption, `/repo/gost_gost2015.c` lines 137-147; `attr` is the octet string found
among the attributes, if any. -/
def process_unprotected_dec {σ : Type} (n : OmacCipher) (a : AoCtx σ) (attr : Option Bytes) : AoCtx σ × Int :=
  match attr with
  | none => (a, -1)
  | some b => if b.length ≠ aoMacSize n then (a, -1) else ({ a with tag := memcpy a.tag b b.length }, 1)

/-- The same for encryption, `/repo/gost_gost2015.c` lines 147-154, with a list of attributes: the octet string added. -/
def process_unprotected_enc {σ : Type} (n : OmacCipher) (a : AoCtx σ) : Bytes := a.tag.take (aoMacSize n)

/-- `EVP_CTRL_COPY`, `/repo/gost_crypt.c` lines 1348-1361 and `/repo/gost_grasshopper_cipher.c` lines 1200-1217, after
`EVP_CIPHER_CTX_copy` of OpenSSL copied the cipher data byte by byte: the copy, whose digest context is a copy of its own, and the value
returned.  `EVP_MD_CTX_copy` with a NULL source reports failure, and then `EVP_CIPHER_CTX_copy` does. -/
def acpkm_omac_copy {σ : Type} (a : AoCtx σ) : AoCtx σ × Int :=
  match a.omac_ctx with
  | some s => ({ a with omac_ctx := some { s with d := pkey_gost_mac_copy s.pkey s.d } }, 1)
  | none => (a, 0)

end Gost
