import Verif.Model.AcpkmOmac
import Verif.Model.OmacHeap

/-!
# The memory of the CTR-ACPKM-OMAC ciphers

The methods of the ciphers `magma-ctr-acpkm-omac` and `kuznyechik-ctr-acpkm-omac` with the member `omac_ctx` of their data as a pointer to
an `EVP_MD_CTX` on a heap, and the functions of OpenSSL that call them and copy and free contexts: `EVP_CipherInit_ex` with the cipher,
`EVP_CipherUpdate`, `EVP_CipherFinal`, `EVP_CIPHER_CTX_ctrl`, `EVP_CIPHER_param_to_asn1`, `EVP_CIPHER_asn1_to_param`,
`EVP_CIPHER_CTX_copy`, `EVP_CIPHER_CTX_reset`, `EVP_CIPHER_CTX_free` for an engine's cipher.

`none` is undefined behaviour: memory used after it was freed or freed twice, a NULL pointer, or the use of a freed context by the caller.

Simplified: allocation never fails; addresses are not used again; the block of `cipher_data` itself, which OpenSSL allocates and frees, is
part of the context.  What is in the `EVP_MD_CTX` is by value (its own pointers are the subject of `Model/OmacHeap.lean`).
-/

namespace Gost

/-- The digest contexts: `none` for one without a digest, as `EVP_MD_CTX_new` makes it. -/
abbrev MdHeap : Type := Heap (Option MacSign)

/-- `AoCtx` with the pointer. -/
structure AoData (σ : Type) where
  c : σ
  omac_ctx : Option Nat
  kdf_seed : Bytes
  tag : Bytes

variable {σ : Type}

/-- The data as by-value data, for the functions that do not look at `omac_ctx`. -/
def AoData.bare (d : AoData σ) : AoCtx σ := { c := d.c, omac_ctx := none, kdf_seed := d.kdf_seed, tag := d.tag }

/-- `magma_cipher_init_ctr_acpkm_omac`, `/repo/gost_crypt.c` lines 524-550. -/
def magmaPtrInit (X : Crypto) (rng : Nat → Fin 8 → W32) (h : MdHeap) (d : AoData CipherCtx) (key iv : Option Bytes) (enc : Bool)
    (draws : List Bytes) : Option (MdHeap × AoData CipherCtx × Int × List Bytes) :=
  match key with
  | none =>
    let r := magma_cipher_init_seed d.bare none iv enc draws
    some (h, { d with c := r.1.c, kdf_seed := r.1.kdf_seed }, r.2.1, r.2.2)
  | some k =>
    let a := h.alloc none
    match acpkmOmacSeed enc d.kdf_seed draws with
    | none => (a.1.free (some a.2)).map fun h => (h, { d with c := { d.c with encrypting := enc }, omac_ctx := none }, 0, draws)
    | some (seed, ds) =>
      match acpkmOmacKeys X rng .magma k seed with
      | none =>
        (a.1.free (some a.2)).map fun h =>
          (h, { d with c := { d.c with encrypting := enc }, omac_ctx := none, kdf_seed := seed }, 0, ds)
      | some (s, ck) =>
        let r := magma_cipher_init_seed { d.bare with kdf_seed := seed } (some ck) iv enc ds
        some (a.1.write a.2 (some s), { d with c := r.1.c, omac_ctx := some a.2, kdf_seed := r.1.kdf_seed }, r.2.1, r.2.2)

/-- `gost_grasshopper_cipher_init_ctracpkm_omac`, `/repo/gost_grasshopper_cipher.c` lines 339-372. -/
def kuzPtrInit (X : Crypto) (rng : Nat → Fin 8 → W32) (h : MdHeap) (d : AoData KCtx) (key iv : Option Bytes) (enc : Bool)
    (draws : List Bytes) : Option (MdHeap × AoData KCtx × Int × List Bytes) :=
  let c := { d.c with type := .ctracpkmomac, num := 0, section_size := 4096 }
  match key with
  | none => some (h, { d with c := gost_grasshopper_cipher_init c none iv enc 8 }, 1, draws)
  | some k =>
    let a := h.alloc none
    match acpkmOmacSeed enc d.kdf_seed draws with
    | none => (a.1.free (some a.2)).map fun h => (h, { d with c := { c with encrypting := enc }, omac_ctx := none }, 0, draws)
    | some (seed, ds) =>
      match acpkmOmacKeys X rng .kuznyechik k seed with
      | none =>
        (a.1.free (some a.2)).map fun h =>
          (h, { d with c := { c with encrypting := enc }, omac_ctx := none, kdf_seed := seed }, 0, ds)
      | some (s, ck) =>
        some (a.1.write a.2 (some s),
          { d with c := gost_grasshopper_cipher_init c (some ck) iv enc 8, omac_ctx := some a.2, kdf_seed := seed }, 1, ds)

/-- `magma_cipher_do_ctr_acpkm_omac` with data, `/repo/gost_crypt.c` lines 875-899. -/
def magmaPtrUpdate (h : MdHeap) (d : AoData CipherCtx) (inp : Bytes) : Option (MdHeap × AoData CipherCtx × Int × Bytes) :=
  match d.omac_ctx with
  | none => none
  | some p =>
    match h.obj p with
    | some (some s) =>
      let r := magma_cipher_do_ctr d.c inp
      some (h.write p (some (s.update (if d.c.encrypting then inp else r.2)).1), { d with c := r.1 }, inp.length, r.2)
    | _ => none

/-- `gost_grasshopper_cipher_do_ctracpkm_omac` with data, `/repo/gost_grasshopper_cipher.c` lines 722-748. -/
def kuzPtrUpdate (h : MdHeap) (d : AoData KCtx) (inp : Bytes) : Option (MdHeap × AoData KCtx × Int × Bytes) :=
  match d.omac_ctx with
  | none => none
  | some p =>
    match h.obj p with
    | some (some s) =>
      let r := gost_grasshopper_cipher_do_ctracpkm d.c inp
      some (h.write p (some (s.update (if d.c.encrypting then inp else r.2)).1), { d with c := r.1 }, inp.length, r.2)
    | _ => none

/-- What `gost2015_final_call` (`/repo/gost_gost2015.c` lines 15-45) leaves in the data; the digest `s` is only read. -/
def aoPtrFinal (h : MdHeap) (d : AoData σ) : AoRes σ → Option (MdHeap × AoData σ × Int × Bytes)
  | .nullDeref => none
  | .ret a o r => some (h, { d with c := a.c, tag := a.tag }, r, o)

/-- `magma_cipher_do_ctr_acpkm_omac` at the end, `/repo/gost_crypt.c` lines 881-884. -/
def magmaPtrFinal (X : Crypto) (h : MdHeap) (d : AoData CipherCtx) : Option (MdHeap × AoData CipherCtx × Int × Bytes) :=
  match d.omac_ctx with
  | none => none
  | some p =>
    match h.obj p with
    | some (some s) => aoPtrFinal h d (gost2015_final_call X magma_cipher_do_ctr d.c.encrypting d.bare s)
    | _ => none

/-- `gost_grasshopper_cipher_do_ctracpkm_omac` at the end, `/repo/gost_grasshopper_cipher.c` lines 728-737. -/
def kuzPtrFinal (X : Crypto) (h : MdHeap) (d : AoData KCtx) : Option (MdHeap × AoData KCtx × Int × Bytes) :=
  match d.omac_ctx with
  | none => none
  | some p =>
    match h.obj p with
    | some (some s) =>
      let s := if d.c.encrypting then (s.update []).1 else s
      aoPtrFinal (h.write p (some s)) d (gost2015_final_call X gost_grasshopper_cipher_do_ctracpkm d.c.encrypting d.bare s)
    | _ => none

/-- `EVP_MD_CTX_copy(out, in)` of OpenSSL with the method `copy` of the key: 0 for a NULL source. -/
def mdCtxCopy (h : MdHeap) (out inp : Option Nat) : Option (MdHeap × Int) :=
  match inp with
  | none => some (h, 0)
  | some p =>
    match h.obj p, out with
    | some m, some q =>
      (h.obj q).map fun _ => (h.write q (m.map fun s => { s with d := pkey_gost_mac_copy s.pkey s.d }), 1)
    | _, _ => none

/-- `EVP_CTRL_COPY`, `/repo/gost_crypt.c` lines 1348-1361, `/repo/gost_grasshopper_cipher.c` lines 1200-1217: `ok` is the test of
Kuznyechik's type (always true for Magma). The heap, the data of the copy and the value returned. -/
def aoCtrlCopy (ok : σ → Bool) (h : MdHeap) (inp out : AoData σ) : Option (MdHeap × AoData σ × Int) :=
  if ok inp.c = false then some (h, out, -1)
  else if inp.omac_ctx = out.omac_ctx then
    let a := h.alloc none
    (mdCtxCopy a.1 (some a.2) inp.omac_ctx).map fun r => (r.1, { out with omac_ctx := some a.2 }, r.2)
  else (mdCtxCopy h out.omac_ctx inp.omac_ctx).map fun r => (r.1, out, r.2)

/-- The methods of a cipher. -/
structure AoOps (σ : Type) where
  fresh : AoData σ
  init : MdHeap → AoData σ → Option Bytes → Option Bytes → Bool → List Bytes → Option (MdHeap × AoData σ × Int × List Bytes)
  update : MdHeap → AoData σ → Bytes → Option (MdHeap × AoData σ × Int × Bytes)
  final : MdHeap → AoData σ → Option (MdHeap × AoData σ × Int × Bytes)
  getParams : AoData σ → AsnType → AoData σ × Int
  setParams : AoData σ → AoData σ × Option AsnType × Int
  mesh : AoData σ → Nat → AoData σ × Int
  macSize : OmacCipher
  copyOk : σ → Bool

/-- `magma_ctr_acpkm_omac_cipher`, `/repo/gost_crypt.c` lines 220-244; `c0` is the zeroed context of the mode. -/
def magmaAo (X : Crypto) (rng : Nat → Fin 8 → W32) (cd : Asn1Codec) (c0 : CipherCtx) : AoOps CipherCtx where
  fresh := { c := c0, omac_ctx := none, kdf_seed := zeros 8, tag := zeros 8 }
  init := magmaPtrInit X rng
  update := magmaPtrUpdate
  final := magmaPtrFinal X
  getParams d p := ({ d with c := (magma_get_asn1_parameters cd d.c d.kdf_seed p).2.1,
                             kdf_seed := (magma_get_asn1_parameters cd d.c d.kdf_seed p).2.2 },
                    (magma_get_asn1_parameters cd d.c d.kdf_seed p).1)
  setParams d := ({ d with c := (magma_set_asn1_parameters cd d.c d.kdf_seed).2.1 },
                  some (magma_set_asn1_parameters cd d.c d.kdf_seed).2.2, (magma_set_asn1_parameters cd d.c d.kdf_seed).1)
  mesh d m := ({ d with c := (magma_cipher_ctl_key_mesh d.c m).1 }, (magma_cipher_ctl_key_mesh d.c m).2)
  macSize := .magma
  copyOk _ := true

/-- `grasshopper_ctr_acpkm_omac_cipher`, `/repo/gost_grasshopper_cipher.c` lines 112-128. -/
def kuzAo (X : Crypto) (rng : Nat → Fin 8 → W32) (cd : Asn1Codec) (c0 : KCtx) : AoOps KCtx where
  fresh := { c := c0, omac_ctx := none, kdf_seed := zeros 8, tag := zeros 16 }
  init := kuzPtrInit X rng
  update := kuzPtrUpdate
  final := kuzPtrFinal X
  getParams d p := ({ d with c := (gost_grasshopper_get_asn1_parameters cd d.c d.kdf_seed p).2.1,
                             kdf_seed := (gost_grasshopper_get_asn1_parameters cd d.c d.kdf_seed p).2.2 },
                    (gost_grasshopper_get_asn1_parameters cd d.c d.kdf_seed p).1)
  setParams d := ({ d with c := (gost_grasshopper_set_asn1_parameters cd d.c d.kdf_seed).2.1 },
                  (gost_grasshopper_set_asn1_parameters cd d.c d.kdf_seed).2.2,
                  (gost_grasshopper_set_asn1_parameters cd d.c d.kdf_seed).1)
  mesh d m := ({ d with c := (gost_grasshopper_cipher_ctl_key_mesh d.c m).1 }, (gost_grasshopper_cipher_ctl_key_mesh d.c m).2)
  macSize := .kuznyechik
  copyOk c := c.type == .ctracpkmomac

/-! ## OpenSSL -/

/-- Memory: the contexts (`none`: freed; `some none`: no cipher set), the digest contexts, and the random draws left. -/
structure AoMem (σ : Type) where
  ctx : Nat → Option (Option (AoData σ))
  heap : MdHeap
  draws : List Bytes

/-- The calls; `attr` and `unprot` are `EVP_CTRL_PROCESS_UNPROTECTED` for decryption and encryption. -/
inductive AoCall where
  | init (i : Nat) (key iv : Option Bytes) (enc : Bool)
  | update (i : Nat) (x : Bytes)
  | final (i : Nat)
  | attr (i : Nat) (b : Option Bytes)
  | unprot (i : Nat)
  | getParams (i : Nat) (p : AsnType)
  | setParams (i : Nat)
  | mesh (i : Nat) (m : Nat)
  | copy (i j : Nat)
  | reset (i : Nat)
  | free (i : Nat)

/-- The bytes of parameters. -/
def asnBytes : Option AsnType → Bytes
  | some (.seq der) => der
  | _ => []

/-- `EVP_CIPHER_CTX_reset`: `gost_cipher_cleanup`, `/repo/gost_crypt.c` lines 1070-1078, or `gost_grasshopper_cipher_cleanup` with
`gost_grasshopper_cipher_destroy_ctr`, `/repo/gost_grasshopper_cipher.c` lines 223-233, 967-981, then the context is zeroed. -/
def aoReset (s : AoMem σ) (i : Nat) : Option (AoData σ) → Option (AoMem σ)
  | none => some { s with ctx := setCtx s.ctx i (some none) }
  | some d => (s.heap.free d.omac_ctx).map fun h => { s with ctx := setCtx s.ctx i (some none), heap := h }

/-- `EVP_CIPHER_CTX_copy` from data `d` to a context `j` just reset: the data are copied byte by byte, then `EVP_CTRL_COPY`; if that returns 0
the copy is left without a cipher. -/
def aoEvpCopy (O : AoOps σ) (s : AoMem σ) (d : AoData σ) (j : Nat) : Option (AoMem σ × Int × Bytes) :=
  match aoCtrlCopy O.copyOk s.heap d d with
  | none => none
  | some (h, out, r) =>
    if r = 0 then some ({ s with heap := h, ctx := setCtx s.ctx j (some none) }, 0, [])
    else some ({ s with heap := h, ctx := setCtx s.ctx j (some (some out)) }, 1, [])

/-- A call of a method on the context `i`. Without a cipher the functions of OpenSSL return 0. -/
def aoOn (s : AoMem σ) (i : Nat) (f : AoData σ → Option (MdHeap × AoData σ × Int × Bytes)) : Option (AoMem σ × Int × Bytes) :=
  match s.ctx i with
  | none => none
  | some none => some (s, 0, [])
  | some (some d) => (f d).map fun r => ({ s with ctx := setCtx s.ctx i (some (some r.2.1)), heap := r.1 }, r.2.2.1, r.2.2.2)

/-- One call. -/
def aoMemStep (O : AoOps σ) (s : AoMem σ) : AoCall → Option (AoMem σ × Int × Bytes)
  | .init i key iv enc =>
    match s.ctx i with
    | none => none
    | some x =>
      (O.init s.heap (x.getD O.fresh) key iv enc s.draws).map fun r =>
        ({ ctx := setCtx s.ctx i (some (some r.2.1)), heap := r.1, draws := r.2.2.2 }, r.2.2.1, [])
  | .update i x => aoOn s i fun d => O.update s.heap d x
  | .final i => aoOn s i fun d => O.final s.heap d
  | .attr i b => aoOn s i fun d =>
      some (s.heap, { d with tag := (process_unprotected_dec O.macSize d.bare b).1.tag }, (process_unprotected_dec O.macSize d.bare b).2, [])
  | .unprot i => aoOn s i fun d => some (s.heap, d, 1, process_unprotected_enc O.macSize d.bare)
  | .getParams i p => aoOn s i fun d => some (s.heap, (O.getParams d p).1, (O.getParams d p).2, [])
  | .setParams i => aoOn s i fun d => some (s.heap, (O.setParams d).1, (O.setParams d).2.2, asnBytes (O.setParams d).2.1)
  | .mesh i m => aoOn s i fun d => some (s.heap, (O.mesh d m).1, (O.mesh d m).2, [])
  | .copy i j =>
    if i = j then none
    else
      match s.ctx i, s.ctx j with
      | some (some d), some y => (aoReset s j y).bind fun s => aoEvpCopy O s d j
      | some none, some _ => some (s, 0, [])
      | _, _ => none
  | .reset i =>
    match s.ctx i with
    | none => none
    | some x => (aoReset s i x).map fun s => (s, 1, [])
  | .free i =>
    match s.ctx i with
    | none => none
    | some x => (aoReset s i x).map fun s => ({ s with ctx := setCtx s.ctx i none }, 1, [])

/-- A history of calls. -/
def aoMemRun (O : AoOps σ) : AoMem σ → List AoCall → Option (AoMem σ × List (Int × Bytes))
  | s, [] => some (s, [])
  | s, o :: os => (aoMemStep O s o).bind fun r => (aoMemRun O r.1 os).map fun t => (t.1, r.2 :: t.2)

/-- Before anything happened: all contexts are as `EVP_CIPHER_CTX_new` makes them. -/
def aoMemStart (draws : List Bytes) : AoMem σ where
  ctx := fun _ => some none
  heap := { obj := fun _ => none, next := 0 }
  draws := draws

end Gost
