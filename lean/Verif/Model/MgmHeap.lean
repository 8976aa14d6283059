import Verif.Model.Mgm
import Verif.Model.OmacHeap

/-!
# The memory of the MGM ciphers

The methods of the two MGM ciphers with the two pointers of their data as pointers: `mctx->iv`, which `EVP_CTRL_INIT` points at the IV
buffer inside the `EVP_CIPHER_CTX`, and `mctx->mgm.key`, which the initialisation with a key points at the key schedule inside the data
itself; and the functions of OpenSSL that call them and copy and free contexts: `EVP_CipherInit_ex`, `EVP_CipherUpdate`,
`EVP_CipherFinal`, `EVP_CIPHER_CTX_ctrl`, `EVP_CIPHER_CTX_copy`, `EVP_CIPHER_CTX_reset`, `EVP_CIPHER_CTX_free` for an engine's cipher.

`none` is undefined behaviour: memory used after it was freed, memory freed that was not allocated, a NULL pointer, or the use of a freed
context by the caller.

Simplified: allocation never fails; addresses are not used again; a key pointer counts as dereferenced by every data or final call that
finds key and IV set (a call with no data that only adds nothing would not).
-/

namespace Gost

variable {alg : MgmAlg}

/-- `gost_mgm_ctx`, `/repo/gost_gost2015.h` lines 48-60, with its pointers: `key` is `mgm.key`, as the address of the `gost_mgm_ctx`
whose `ks` it points to (`none`: NULL); `iv` is the number of the `EVP_CIPHER_CTX` whose IV buffer it points to. -/
structure MgmData (alg : MgmAlg) where
  ks : alg.KS
  key_set : Bool
  iv_set : Bool
  mgm : Mgm
  key : Option Nat
  iv : Nat
  ivlen : Nat
  taglen : Int

/-- `EVP_CIPHER_CTX`: `data` is `cipher_data`, `none` before a cipher is set; `iv`, `buf` are the buffers in the structure. -/
structure EvpMgm where
  data : Option Nat
  iv : Bytes
  buf : Bytes
  encrypting : Bool

/-- `memset(ctx, 0, sizeof(*ctx))`. -/
def EvpMgm.zero : EvpMgm := { data := none, iv := zeros 16, buf := zeros 32, encrypting := false }

/-- Memory: the contexts (`none`: freed) and the `gost_mgm_ctx` objects. -/
structure MgmMem (alg : MgmAlg) where
  ctx : Nat → Option EvpMgm
  heap : Heap (MgmData alg)

/-- The calls. The contexts are those the caller got from `EVP_CIPHER_CTX_new`. -/
inductive MgmCall where
  | init (i : Nat) (key iv : Option Bytes) (enc : Bool)
  | update (i : Nat) (out : Bool) (d : Bytes)
  | final (i : Nat) (out : Bool)
  | setIvlen (i : Nat) (arg : Int)
  | setTag (i : Nat) (arg : Int) (tag : Bytes)
  | getTag (i : Nat) (arg : Int)
  | copy (i j : Nat)
  | reset (i : Nat)
  | free (i : Nat)

/-- A fresh `gost_mgm_ctx` (`OPENSSL_zalloc`; `ks0` is the zeroed key schedule) after `EVP_CTRL_INIT`,
`/repo/gost_grasshopper_cipher.c` lines 1041-1049, `/repo/gost_crypt.c` lines 1100-1108. -/
def mgmDataNew (ks0 : alg.KS) (i : Nat) : MgmData alg where
  ks := ks0
  key_set := false
  iv_set := false
  mgm := gost_mgm128_init alg.bl
  key := none
  iv := i
  ivlen := alg.bl
  taglen := -1

/-- The initialisation of the data `d` at the address `p` with a key, and the IV it takes from the caller or from memory:
`/repo/gost_grasshopper_cipher.c` lines 482-499, `/repo/gost_crypt.c` lines 625-644. -/
def mgmDataKey (p : Nat) (d : MgmData alg) (key : Bytes) (iv : Option Bytes) : MgmData alg :=
  let d := { d with ks := alg.setKey d.ks key, mgm := gost_mgm128_init alg.bl, key := some p }
  let d := match iv with
    | some v => { d with mgm := gost_mgm128_setiv alg.bl d.mgm v, iv_set := true }
    | none => d
  { d with key_set := true }

/-- `gost_grasshopper_cipher_init_mgm`, `/repo/gost_grasshopper_cipher.c` lines 471-509, and `gost_magma_cipher_init_mgm`,
`/repo/gost_crypt.c` lines 615-654, for data `d` at the address `p`: the new data and, if an IV is written to the buffer `mctx->iv` points
to, the number of its context and the IV. -/
def mgmPtrInit (ctx : Nat → Option EvpMgm) (p : Nat) (d : MgmData alg) (key iv : Option Bytes) :
    Option (MgmData alg × (Nat → Option EvpMgm)) :=
  match key, iv with
  | none, none => some (d, ctx)
  | some k, some v => some (mgmDataKey p d k (some v), ctx)
  | some k, none =>
    if d.iv_set then (ctx d.iv).map fun e => (mgmDataKey p d k (some e.iv), ctx)
    else some (mgmDataKey p d k none, ctx)
  | none, some v =>
    if d.key_set then some ({ d with mgm := gost_mgm128_setiv alg.bl d.mgm v, iv_set := true }, ctx)
    else
      (ctx d.iv).map fun e => ({ d with iv_set := true }, setCtx ctx d.iv (some { e with iv := memcpyTo e.iv v d.ivlen }))

/-- The data of a context and the context as one by-value context with the key schedule `ks` that `mgm.key` points to. `iv` is not used by
`cipher_do_mgm`. -/
def mgmView (e : EvpMgm) (d : MgmData alg) (ks : alg.KS) : MgmCtx alg where
  ks := ks
  key_set := d.key_set
  iv_set := d.iv_set
  mgm := d.mgm
  iv := e.iv
  ivlen := d.ivlen
  taglen := d.taglen
  buf := e.buf
  encrypting := e.encrypting

/-- `gost_grasshopper_cipher_do_mgm`, `gost_magma_cipher_do_mgm` (`cipher_do_mgm`) on the context `i`, with the key schedule behind the
pointer. -/
def mgmPtrDo (s : MgmMem alg) (i : Nat) (e : EvpMgm) (p : Nat) (d : MgmData alg) (out : Bool) (inp : Option Bytes) :
    Option (MgmMem alg × Int × Bytes) :=
  if d.key_set = true ∧ d.iv_set = true then
    match s.heap.deref d.key with
    | none => none
    | some k =>
      let r := cipher_do_mgm (mgmView e d k.ks) out inp
      some ({ ctx := setCtx s.ctx i (some { e with buf := r.1.buf }),
              heap := s.heap.write p { d with mgm := r.1.mgm, iv_set := r.1.iv_set, taglen := r.1.taglen } }, r.2.2, r.2.1)
  else some (s, -1, [])

/-- `EVP_CIPHER_CTX_reset`: the method `cleanup` — `gost_grasshopper_mgm_cleanup`, `/repo/gost_grasshopper_cipher.c` lines 1020-1031,
which frees `mctx->iv` unless it is the context's own IV buffer (`freesIv`), or `gost_magma_mgm_cleanup`, `/repo/gost_crypt.c` lines
1080-1090, which does not — then the data are freed and the context is zeroed. The buffer of another context is no allocated block: freeing
it is undefined. -/
def mgmReset (freesIv : Bool) (s : MgmMem alg) (i : Nat) (e : EvpMgm) : Option (MgmMem alg) :=
  match e.data with
  | none => some { s with ctx := setCtx s.ctx i (some EvpMgm.zero) }
  | some p =>
    match s.heap.obj p with
    | none => none
    | some d =>
      if freesIv = true ∧ d.iv ≠ i then none
      else (s.heap.free (some p)).map fun h => { ctx := setCtx s.ctx i (some EvpMgm.zero), heap := h }

/-- One call. The number is what the function returns (for data and final calls: what the `do_cipher` method returns). -/
def mgmMemStep (freesIv : Bool) (ks0 : alg.KS) (s : MgmMem alg) : MgmCall → Option (MgmMem alg × Int × Bytes)
  | .init i key iv enc =>
    match s.ctx i with
    | none => none
    | some e =>
      match e.data with
      | none =>
        let a := s.heap.alloc (mgmDataNew ks0 i)
        (mgmPtrInit (setCtx s.ctx i (some { e with data := some a.2, encrypting := enc })) a.2 (mgmDataNew ks0 i) key iv).map fun r =>
          ({ ctx := r.2, heap := a.1.write a.2 r.1 }, 1, [])
      | some p =>
        match s.heap.obj p with
        | none => none
        | some d =>
          (mgmPtrInit (setCtx s.ctx i (some { e with encrypting := enc })) p d key iv).map fun r =>
            ({ ctx := r.2, heap := s.heap.write p r.1 }, 1, [])
  | .update i out x =>
    match s.ctx i with
    | none => none
    | some e =>
      match e.data with
      | none => some (s, 0, [])
      | some p =>
        match s.heap.obj p with
        | none => none
        | some d => mgmPtrDo s i e p d out (some x)
  | .final i out =>
    match s.ctx i with
    | none => none
    | some e =>
      match e.data with
      | none => some (s, 0, [])
      | some p =>
        match s.heap.obj p with
        | none => none
        | some d => mgmPtrDo s i e p d out none
  | .setIvlen i arg =>
    match s.ctx i with
    | none => none
    | some e =>
      match e.data with
      | none => some (s, 0, [])
      | some p =>
        match s.heap.obj p with
        | none => none
        | some d =>
          let r := mgm_ctrl_set_ivlen (mgmView e d d.ks) arg
          some ({ s with heap := s.heap.write p { d with ivlen := r.1.ivlen } }, r.2, [])
  | .setTag i arg tag =>
    match s.ctx i with
    | none => none
    | some e =>
      match e.data with
      | none => some (s, 0, [])
      | some p =>
        match s.heap.obj p with
        | none => none
        | some d =>
          let r := mgm_ctrl_set_tag (mgmView e d d.ks) arg tag
          some ({ ctx := setCtx s.ctx i (some { e with buf := r.1.buf }), heap := s.heap.write p { d with taglen := r.1.taglen } }, r.2, [])
  | .getTag i arg =>
    match s.ctx i with
    | none => none
    | some e =>
      match e.data with
      | none => some (s, 0, [])
      | some p =>
        match s.heap.obj p with
        | none => none
        | some d =>
          match mgm_ctrl_get_tag (mgmView e d d.ks) arg with
          | none => some (s, 0, [])
          | some t => some (s, 1, t)
  | .copy i j =>
    if i = j then none
    else
      match s.ctx i, s.ctx j with
      | some e, some f =>
        match e.data with
        | none => some (s, 0, [])
        | some p =>
          match mgmReset freesIv s j f with
          | none => none
          | some s' =>
            match s'.heap.obj p with
            | none => none
            | some d =>
              let a := s'.heap.alloc d
              some ({ ctx := setCtx s'.ctx j (some { e with data := some a.2 }), heap := a.1 }, 1, [])
      | _, _ => none
  | .reset i =>
    match s.ctx i with
    | none => none
    | some e => (mgmReset freesIv s i e).map fun s => (s, 1, [])
  | .free i =>
    match s.ctx i with
    | none => none
    | some e => (mgmReset freesIv s i e).map fun s => ({ s with ctx := setCtx s.ctx i none }, 1, [])

/-- A history of calls. -/
def mgmMemRun (freesIv : Bool) (ks0 : alg.KS) : MgmMem alg → List MgmCall → Option (MgmMem alg × List (Int × Bytes))
  | s, [] => some (s, [])
  | s, o :: os => (mgmMemStep freesIv ks0 s o).bind fun r => (mgmMemRun freesIv ks0 r.1 os).map fun t => (t.1, r.2 :: t.2)

/-- Before anything happened: all contexts are as `EVP_CIPHER_CTX_new` makes them. -/
def mgmMemStart : MgmMem alg where
  ctx := fun _ => some EvpMgm.zero
  heap := { obj := fun _ => none, next := 0 }

end Gost
