/-!
# The provider's dispatch tables and the lives of its instances

`/repo/gost_prov.c`, with the constructors and destructors of `/repo/gost_prov_cipher.c`, `/repo/gost_prov_digest.c` and
`/repo/gost_prov_mac.c`, the caches of `/repo/gost_crypt.c` and `/repo/gost_md.c`, and `populate_gost_engine` and
`gost_engine_destroy` of `/repo/gost_eng.c`.

The variables of the module are shared by every library context into which the provider is loaded.  The model follows the
objects: each allocation gives a new address or fails, freeing or using an address that is not allocated is a fault.  What is
inside the objects is modelled elsewhere (C61, C63, C64, C66, C70).
-/
namespace Gost.Life

/-! ## Dispatch tables -/

/-- The function of an entry of a dispatch table (`OSSL_FUNC_*`); `stop` is the entry `{ 0, NULL }`. -/
inductive Fn where
  | stop | newctx | dupctx | freectx | getParams | getCtxParams | setCtxParams | gettableParams | gettableCtxParams
  | settableCtxParams | init | encryptInit | decryptInit | update | final | query | reasonStrings | teardown
  deriving DecidableEq, Repr

/-- `name##_functions`, `/repo/gost_prov_cipher.c` lines 300-312: the same list for every cipher. -/
def cipher_functions : List Fn :=
  [.getParams, .newctx, .dupctx, .freectx, .getCtxParams, .setCtxParams, .encryptInit, .decryptInit, .update, .final, .stop]

/-- `name##_functions`, `/repo/gost_prov_digest.c` lines 155-163. -/
def digest_functions : List Fn := [.getParams, .newctx, .dupctx, .freectx, .init, .update, .final]

/-- `name##_functions`, `/repo/gost_prov_mac.c` lines 307-324. -/
def mac_functions : List Fn :=
  [.gettableParams, .getParams, .newctx, .dupctx, .freectx, .init, .update, .final, .gettableCtxParams, .getCtxParams,
    .settableCtxParams, .setCtxParams]

/-- `provider_functions`, `/repo/gost_prov.c` lines 133-139. -/
def provider_functions : List Fn := [.query, .reasonStrings, .getParams, .teardown, .stop]

/-- Positions in `gost_cipher_array` (`/repo/gost_eng.c` lines 85-106) of the descriptors behind `GOST_prov_ciphers`,
`/repo/gost_prov_cipher.c` lines 334-363, in the order of that table. -/
def GOST_prov_ciphers : List Nat := [0, 1, 2, 3, 4, 5, 6, 7, 8, 11, 12, 13, 14, 15, 16, 17, 10]

/-- Positions in `gost_digest_array` (`/repo/gost_eng.c` lines 74-83) behind `GOST_prov_digests`,
`/repo/gost_prov_digest.c` lines 170-187. -/
def GOST_prov_digests : List Nat := [2, 3, 0]

/-- Positions in `gost_digest_array` behind `GOST_prov_macs`, `/repo/gost_prov_mac.c` lines 336-346. -/
def GOST_prov_macs : List Nat := [1, 4, 5, 6, 7]

/-- An operation number (`OSSL_OP_*`). -/
inductive Op where
  | cipher | digest | mac | other
  deriving DecidableEq, Repr

/-- `gost_operation`, `/repo/gost_prov.c` lines 86-99: the dispatch table of each algorithm listed for an operation. -/
def gost_operation : Op → List (List Fn)
  | .cipher => GOST_prov_ciphers.map fun _ => cipher_functions
  | .digest => GOST_prov_digests.map fun _ => digest_functions
  | .mac => GOST_prov_macs.map fun _ => mac_functions
  | .other => []

/-! ## Objects -/

abbrev Ptr := Nat

/-- The allocated objects, the next address, the number of allocations asked for, and whether an object that is not allocated was
used or freed. -/
structure Mem where
  live : List Ptr
  next : Ptr
  calls : Nat
  fault : Bool
  deriving DecidableEq, Repr

/-- `OPENSSL_zalloc`, `ENGINE_new` and so on; `ok n` says whether the `n`-th one succeeds. -/
def alloc (ok : Nat → Bool) (m : Mem) : Option Ptr × Mem :=
  if ok m.calls then (some m.next, ⟨m.next :: m.live, m.next + 1, m.calls + 1, m.fault⟩)
  else (none, ⟨m.live, m.next, m.calls + 1, m.fault⟩)

/-- A call that may fail and gives no object (`OBJ_add_object`). -/
def attempt (ok : Nat → Bool) (m : Mem) : Bool × Mem := (ok m.calls, ⟨m.live, m.next, m.calls + 1, m.fault⟩)

/-- Freeing an object. -/
def release (m : Mem) (p : Ptr) : Mem :=
  if p ∈ m.live then ⟨m.live.erase p, m.next, m.calls, m.fault⟩ else ⟨m.live, m.next, m.calls, true⟩

/-- Freeing what a pointer points to; the free functions of OpenSSL accept NULL. -/
def releaseOpt (m : Mem) : Option Ptr → Mem
  | none => m
  | some p => release m p

/-- Reading or writing an object. -/
def touch (m : Mem) (p : Ptr) : Mem := if p ∈ m.live then m else ⟨m.live, m.next, m.calls, true⟩

/-- The same through a pointer that may be NULL. -/
def touchOpt (m : Mem) : Option Ptr → Mem
  | none => ⟨m.live, m.next, m.calls, true⟩
  | some p => touch m p

/-- Freeing each of a list of pointers. -/
def releaseAll (m : Mem) : List (Option Ptr) → Mem
  | [] => m
  | p :: r => releaseAll (releaseOpt m p) r

/-! ## State -/

/-- `PROV_CTX`, `/repo/gost_prov.h` lines 13-27: the object itself, the error handle, the library context, the ENGINE. -/
structure Inst where
  self : Ptr
  proverr : Ptr
  libctx : Ptr
  e : Ptr
  deriving DecidableEq, Repr

/-- An algorithm of the provider: a row of one of the three tables. -/
inductive Kind where
  | cipher (row : Nat) | digest (row : Nat) | mac (row : Nat)
  deriving DecidableEq, Repr

/-- Is it a MAC? -/
def Kind.isMac : Kind → Bool
  | .mac _ => true
  | _ => false

/-- `GOST_CTX`, `/repo/gost_prov_cipher.c` lines 31-51 (and the same in the other two files): its instance, the descriptor, the object,
the method, the EVP context, the data of the EVP context, and whether the EVP context has its method. -/
structure Ctx where
  owner : Inst
  kind : Kind
  self : Ptr
  meth : Ptr
  cctx : Ptr
  data : Option Ptr
  started : Bool
  deriving DecidableEq, Repr

/-- The variables of the module (`err_handle`, `/repo/gost_prov.c` line 29; the `asn1` members of `missing_NIDs`, the `ameth_*` and
`pmeth_*` variables, the `cipher` and `digest` members of the descriptors, in `/repo/gost_eng.c` lines 58-106, 333-336), and what
libcrypto holds: the loaded instances and the contexts. -/
structure PState where
  mem : Mem
  err_handle : Option Ptr
  asn1 : List (Option Ptr)
  meths : List (Option Ptr × Option Ptr)
  ciphers : List (Option Ptr)
  digests : List (Option Ptr)
  insts : List Inst
  ctxs : List Ctx
  deriving DecidableEq, Repr

/-- The state when the module has been mapped. -/
def pInit : PState :=
  ⟨⟨[], 0, 0, false⟩, none, [none, none], List.replicate 10 (none, none), List.replicate 20 none, List.replicate 8 none, [], []⟩

/-! ## Caches -/

/-- `GOST_init_cipher`, `/repo/gost_crypt.c` lines 91-132, `GOST_init_digest`, `/repo/gost_md.c` lines 47-71: on the cache and
position; the `EVP_*_meth_*` calls are one allocation. -/
def initMeth (ok : Nat → Bool) (m : Mem) (cache : List (Option Ptr)) (i : Nat) : Option Ptr × Mem × List (Option Ptr) :=
  match cache.getD i none with
  | some p => (some p, m, cache)
  | none => ((alloc ok m).1, (alloc ok m).2, cache.set i (alloc ok m).1)

/-- `GOST_deinit_cipher`, `/repo/gost_crypt.c` lines 134-140, `GOST_deinit_digest`, `/repo/gost_md.c` lines 73-79, on each of
a list of positions. -/
def deinitMeths (m : Mem) (cache : List (Option Ptr)) : List Nat → Mem × List (Option Ptr)
  | [] => (m, cache)
  | i :: r => deinitMeths (releaseOpt m (cache.getD i none)) (cache.set i none) r

/-- The list of `GOST_prov_deinit_ciphers`, `/repo/gost_prov_cipher.c` lines 366-384. -/
def deinit_ciphers_list : List Nat := [0, 1, 2, 3, 4, 5, 6, 7, 8, 11, 12, 13, 14, 15, 16, 17, 10]

/-- The list of `GOST_prov_deinit_digests`, `/repo/gost_prov_digest.c` lines 190-194. -/
def deinit_digests_list : List Nat := [0, 2, 3]

/-- The list of `GOST_prov_deinit_mac_digests`, `/repo/gost_prov_mac.c` lines 349-355. -/
def deinit_mac_digests_list : List Nat := [1, 4, 5, 6, 7]

/-! ## The engine inside the provider -/

/-- `create_NIDs`, `/repo/gost_eng.c` lines 338-353, on the `asn1` members: their new contents and whether it succeeds.  The numbers
are not followed (C52 does). -/
def createNIDs (ok : Nat → Bool) (m : Mem) : List (Option Ptr) → Mem × List (Option Ptr) × Bool
  | [] => (m, [], true)
  | _ :: r =>
    match alloc ok m with
    | (none, m1) => (m1, none :: r, false)
    | (some p, m1) =>
      match attempt ok m1 with
      | (false, m2) => (release m2 p, some p :: r, false)
      | (true, m2) => ((createNIDs ok m2 r).1, some p :: (createNIDs ok m2 r).2.1, (createNIDs ok m2 r).2.2)

/-- Which entries of `gost_meth_array` the loop of `populate_gost_engine` skips, `/repo/gost_eng.c` lines 422-424. -/
def skipped : List Bool := [false, false, false, false, false, false, false, false, true, false]

/-- The registration loop, `/repo/gost_eng.c` lines 419-431, with `register_ameth_gost` and `register_pmeth_gost` each one allocation
stored in the variable. -/
def registerMeths (ok : Nat → Bool) (m : Mem) :
    List (Bool × Option Ptr × Option Ptr) → Mem × List (Option Ptr × Option Ptr) × Bool
  | [] => (m, [], true)
  | (true, s) :: r => ((registerMeths ok m r).1, s :: (registerMeths ok m r).2.1, (registerMeths ok m r).2.2)
  | (false, s) :: r =>
    match alloc ok m with
    | (none, m1) => (m1, (none, s.2) :: r.map (·.2), false)
    | (some a, m1) =>
      match alloc ok m1 with
      | (none, m2) => (m2, (some a, none) :: r.map (·.2), false)
      | (some p, m2) =>
        ((registerMeths ok m2 r).1, (some a, some p) :: (registerMeths ok m2 r).2.1, (registerMeths ok m2 r).2.2)

/-- `populate_gost_engine`, `/repo/gost_eng.c` lines 365-436, with an ENGINE: the state, whether the callbacks and the destroy
function have been set in the ENGINE, and the result.  The `ENGINE_set_*` functions do not fail on an ENGINE. -/
def populate (ok : Nat → Bool) (s : PState) : PState × Bool × Bool :=
  match createNIDs ok s.mem s.asn1 with
  | (m1, a, false) => ({ s with mem := m1, asn1 := a }, false, false)
  | (m1, a, true) =>
    ({ s with
        mem := (registerMeths ok m1 (skipped.zip s.meths)).1
        asn1 := a
        meths := (registerMeths ok m1 (skipped.zip s.meths)).2.1 },
      true, (registerMeths ok m1 (skipped.zip s.meths)).2.2)

/-- `gost_engine_destroy`, `/repo/gost_eng.c` lines 302-326, with `free_NIDs`, lines 355-361 (the `asn1` members keep their
values).  The groups cached (C74) and the engine parameters (C51) are not followed. -/
def destroyEngine (s : PState) : PState :=
  let d := deinitMeths s.mem s.digests (List.range s.digests.length)
  let c := deinitMeths d.1 s.ciphers (List.range s.ciphers.length)
  { s with
    mem := releaseAll c.1 s.asn1
    digests := d.2
    ciphers := c.2
    meths := s.meths.map fun _ => (none, none) }

/-- `ENGINE_free` on the last reference (contexts of the instance hold references, but libcrypto does not end an instance that has
contexts): `engine_free_util` frees the methods the callbacks give (`engine_pkey_meths_free`, `engine_pkey_asn1_meths_free`), calls
the destroy function, and frees the ENGINE. -/
def engineFree (s : PState) (e : Ptr) (bound : Bool) : PState :=
  if bound then
    let s1 := destroyEngine { s with mem := releaseAll (releaseAll s.mem (s.meths.map (·.2))) (s.meths.map (·.1)) }
    { s1 with mem := release s1.mem e }
  else { s with mem := release s.mem e }

/-! ## `gost_prov.c` -/

/-- `ERR_GOST_error`, `/repo/gost_prov.c` lines 32-37. -/
def raiseError (s : PState) : PState := { s with mem := touchOpt s.mem s.err_handle }

/-- `provider_ctx_free`, `/repo/gost_prov.c` lines 45-53, of a complete context. -/
def providerCtxFree (s : PState) (i : Inst) : PState :=
  let s1 := engineFree s i.e true
  { s1 with mem := release (release (release s1.mem i.proverr) i.libctx) i.self }

/-- `provider_ctx_new`, `/repo/gost_prov.c` lines 56-75, with `OSSL_provider_init`, lines 157-166: a complete context is added to the
instances; otherwise what was made is freed again. -/
def providerLoad (ok : Nat → Bool) (s : PState) : PState :=
  match alloc ok s.mem with
  | (none, m1) => { s with mem := m1 }
  | (some c, m1) =>
  match alloc ok m1 with
  | (none, m2) => { s with mem := release m2 c }
  | (some h, m2) =>
  match alloc ok m2 with
  | (none, m3) => { s with mem := release (release m3 h) c }
  | (some l, m3) =>
  match alloc ok m3 with
  | (none, m4) => { s with mem := release (release (release m4 h) l) c }
  | (some e, m4) =>
  match populate ok { s with mem := m4 } with
  | (s5, _, true) => { s5 with err_handle := some h, insts := ⟨c, h, l, e⟩ :: s5.insts }
  | (s5, bound, false) =>
    let s6 := engineFree s5 e bound
    { s6 with mem := release (release (release s6.mem h) l) c }

/-- `gost_teardown`, `/repo/gost_prov.c` lines 124-130. -/
def gostTeardown (s : PState) (i : Inst) : PState :=
  let c := deinitMeths s.mem s.ciphers deinit_ciphers_list
  let d := deinitMeths c.1 s.digests deinit_digests_list
  let d2 := deinitMeths d.1 d.2 deinit_mac_digests_list
  providerCtxFree { s with mem := d2.1, ciphers := c.2, digests := d2.2 } i

/-! ## Contexts -/

/-- `cipher_freectx`, `/repo/gost_prov_cipher.c` lines 54-65, `digest_freectx`, `/repo/gost_prov_digest.c` lines 50-61, `mac_freectx`,
`/repo/gost_prov_mac.c` lines 65-76: `EVP_CIPHER_CTX_free` and `EVP_MD_CTX_free` call the cleanup function of the method, if there
is one. -/
def freectx (m : Mem) (c : Ctx) : Mem :=
  let m1 := if c.started then touch m c.meth else m
  release (release (releaseOpt m1 c.data) c.cctx) c.self

/-- `EVP_CipherInit_ex` or `EVP_DigestInit_ex` with the method and the ENGINE of the instance: uses the objects; the data are
allocated the first time.  When that fails an `EVP_CIPHER_CTX` gives up the method and an `EVP_MD_CTX` keeps it; the model keeps it
in both cases. -/
def startCtx (ok : Nat → Bool) (m : Mem) (c : Ctx) : Mem × Ctx :=
  let m1 := touch (touch (touch (touch (touch m c.self) c.owner.self) c.owner.e) c.cctx) c.meth
  match c.data with
  | some d => (touch m1 d, c)
  | none => ((alloc ok m1).2, { c with data := (alloc ok m1).1, started := true })

/-- The method of a kind: from the cache (`GOST_init_cipher(&name)`, `GOST_init_digest(&name)`). -/
def kindMeth (ok : Nat → Bool) (s : PState) : Kind → Option Ptr × PState
  | .cipher row =>
    match GOST_prov_ciphers[row]? with
    | none => (none, s)
    | some i =>
      ((initMeth ok s.mem s.ciphers i).1,
        { s with mem := (initMeth ok s.mem s.ciphers i).2.1, ciphers := (initMeth ok s.mem s.ciphers i).2.2 })
  | .digest row =>
    match GOST_prov_digests[row]? with
    | none => (none, s)
    | some i =>
      ((initMeth ok s.mem s.digests i).1,
        { s with mem := (initMeth ok s.mem s.digests i).2.1, digests := (initMeth ok s.mem s.digests i).2.2 })
  | .mac row =>
    match GOST_prov_macs[row]? with
    | none => (none, s)
    | some i =>
      ((initMeth ok s.mem s.digests i).1,
        { s with mem := (initMeth ok s.mem s.digests i).2.1, digests := (initMeth ok s.mem s.digests i).2.2 })

/-- `cipher_newctx`, `/repo/gost_prov_cipher.c` lines 67-86, `digest_newctx`, `/repo/gost_prov_digest.c` lines 63-81, and `mac_newctx`,
`/repo/gost_prov_mac.c` lines 78-98, which also starts the digest.  The new context, if any, is returned. -/
def newctx (ok : Nat → Bool) (s : PState) (i : Inst) (k : Kind) : Option Ctx × PState :=
  match alloc ok s.mem with
  | (none, m1) => (none, { s with mem := m1 })
  | (some g, m1) =>
  match kindMeth ok { s with mem := m1 } k with
  | (none, s2) =>
    (none, { s2 with mem := release (releaseOpt (alloc ok s2.mem).2 (alloc ok s2.mem).1) g })
  | (some meth, s2) =>
  match alloc ok s2.mem with
  | (none, m3) => (none, { s2 with mem := release m3 g })
  | (some c, m3) =>
    if k.isMac then
      let r := startCtx ok m3 ⟨i, k, g, meth, c, none, false⟩
      if r.2.data.isSome then (some r.2, { s2 with mem := r.1 }) else (none, { s2 with mem := freectx r.1 r.2 })
    else (some ⟨i, k, g, meth, c, none, false⟩, { s2 with mem := m3 })

/-- `EVP_CIPHER_CTX_copy` or `EVP_MD_CTX_copy` onto a new context: what it had is given up, the data are copied, and the EVP
context has the method of the other. -/
def copyCtx (ok : Nat → Bool) (m : Mem) (dst src : Ctx) : Mem × Ctx :=
  if src.started then
    let m0 := touch (touch m src.cctx) src.meth
    let m1 := if dst.started then releaseOpt (touch m0 dst.meth) dst.data else m0
    match src.data with
    | none => (m1, { dst with meth := src.meth, data := none, started := true })
    | some d =>
      let m2 := touch m1 d
      ((alloc ok m2).2, { dst with meth := src.meth, data := (alloc ok m2).1, started := (alloc ok m2).1.isSome })
  else (touch m src.cctx, dst)

/-! ## Histories -/

/-- What libcrypto asks of the module: load it into one more library context; unload the `n`-th instance; fetch an algorithm of
an instance (which reads the parameters of its method); make a context; and, with the `n`-th context, duplicate, initialise, use,
free; report an error. -/
inductive Ev where
  | load
  | unload (n : Nat)
  | fetch (n : Nat) (k : Kind)
  | newctx (n : Nat) (k : Kind)
  | dup (n : Nat)
  | init (n : Nat)
  | update (n : Nat)
  | free (n : Nat)
  | error (n : Nat)
  deriving DecidableEq, Repr

/-- One event; `.dup` is `cipher_dupctx`, `/repo/gost_prov_cipher.c` lines 87-97, and the same in the other two files; `.fetch` is
`name##_get_params`, lines 289-294.  libcrypto keeps references: an instance with contexts is not unloaded; other calls need the object they name. -/
def pStep (ok : Nat → Bool) (s : PState) : Ev → PState
  | .load => providerLoad ok s
  | .unload n =>
    match s.insts[n]? with
    | none => s
    | some i =>
      if s.ctxs.any (fun c => c.owner.self = i.self) then s
      else gostTeardown { s with insts := s.insts.eraseIdx n } i
  | .fetch n k =>
    match s.insts[n]? with
    | none => s
    | some _ =>
      match kindMeth ok s k with
      | (none, s1) => s1
      | (some p, s1) => { s1 with mem := touch s1.mem p }
  | .newctx n k =>
    match s.insts[n]? with
    | none => s
    | some i =>
      match newctx ok s i k with
      | (none, s1) => s1
      | (some c, s1) => { s1 with ctxs := c :: s1.ctxs }
  | .dup n =>
    match s.ctxs[n]? with
    | none => s
    | some c =>
      match newctx ok { s with mem := touch s.mem c.self } c.owner c.kind with
      | (none, s1) => s1
      | (some d, s1) =>
        { s1 with mem := (copyCtx ok s1.mem d c).1, ctxs := (copyCtx ok s1.mem d c).2 :: s1.ctxs }
  | .init n =>
    match s.ctxs[n]? with
    | none => s
    | some c => { s with mem := (startCtx ok s.mem c).1, ctxs := s.ctxs.set n (startCtx ok s.mem c).2 }
  | .update n =>
    match s.ctxs[n]? with
    | none => s
    | some c =>
      if c.started then
        let m1 := touch (touch (touch s.mem c.self) c.cctx) c.meth
        { s with mem := match c.data with | none => m1 | some d => touch m1 d }
      else { s with mem := touch (touch s.mem c.self) c.cctx }
  | .free n =>
    match s.ctxs[n]? with
    | none => s
    | some c => { s with mem := freectx s.mem c, ctxs := s.ctxs.eraseIdx n }
  | .error n =>
    match s.insts[n]? with
    | none => s
    | some _ => raiseError s

/-- A history. -/
def pRun (ok : Nat → Bool) (s : PState) (evs : List Ev) : PState := evs.foldl (pStep ok) s

end Gost.Life
