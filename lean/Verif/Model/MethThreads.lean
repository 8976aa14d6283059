import Verif.Model.Engine

/-!
# Several threads that use an algorithm for the first time (`/repo/gost_crypt.c` lines 91-132, `/repo/gost_md.c` lines 47-71)

The provider makes the method object of a cipher or digest when it is first needed: in `newctx` (`/repo/gost_prov_cipher.c` line 76,
`/repo/gost_prov_digest.c` line 72, `/repo/gost_prov_mac.c` line 86) and in `get_params` (`/repo/gost_prov_cipher.c` line 293,
`/repo/gost_prov_digest.c` line 148), on whatever thread that runs.  The member `cipher` or `digest` of the descriptor is shared, without
a lock.  Every access to it and every `EVP_*_meth_*` call is a step; the steps of any number of threads interleave in any order
(sequential consistency: what the memory model of C allows beyond that is left out).  `EVP_add_digest_alias` (`/repo/gost_md.c` line 68) is
left out.
-/

namespace Gost

/-- A descriptor: what `EVP_*_meth_new` makes, what the `EVP_*_meth_set_*` calls change, in order, and whether the function ends with
`return c->cipher` (`GOST_init_cipher`) or with `return md` (`GOST_init_digest`). -/
structure MethDesc (β : Type) where
  fresh : β
  sets : List (β → β)
  rereads : Bool

/-- The object after the first `k` of the calls. -/
def MethDesc.upTo {β : Type} (d : MethDesc β) (k : Nat) : β := (d.sets.take k).foldl (fun o f => f o) d.fresh

/-- The shared member (NULL is `none`, a pointer an index into the heap) and the method objects (`none`: freed). -/
structure MethMem (β : Type) where
  var : Option Nat
  heap : List (Option β)

/-- Which `EVP_*_meth_*` call of a function call fails, if it makes them: 0 is `EVP_*_meth_new`. -/
abbrev MethFail := Option Nat

inductive MethPc where
  | idle
  /-- `return c->cipher`, `return d->digest`: the member is read again. -/
  | again
  /-- `EVP_CIPHER_meth_new`, `EVP_MD_meth_new`. -/
  | create (f : MethFail)
  /-- The object `p` was made and `k` settings were put into it. -/
  | fill (p k : Nat) (f : MethFail)
  /-- `EVP_*_meth_free` after a failure. -/
  | discard (p : Nat)
  /-- `c->cipher = cipher`, `d->digest = md`. -/
  | store (l : Option Nat)
  /-- The thread wrote to or freed memory that was freed. -/
  | fault
  deriving DecidableEq

/-- A thread: the calls it has yet to make, where it is, and the pointers it got from the calls made. -/
structure MethThread where
  todo : List MethFail
  pc : MethPc
  held : List (Option Nat)
  deriving DecidableEq

structure MethState (β : Type) where
  mem : MethMem β
  threads : List MethThread

/-- One step of a thread: `GOST_init_cipher`, `/repo/gost_crypt.c` lines 91-132, and `GOST_init_digest`, `/repo/gost_md.c` lines 47-71. -/
def methStep {β : Type} (d : MethDesc β) (m : MethMem β) (t : MethThread) : MethMem β × MethThread :=
  match t.pc with
  | .idle =>
    match t.todo with
    | [] => (m, t)
    | f :: rest => (m, { t with todo := rest, pc := if m.var.isSome then .again else .create f })
  | .again => (m, { t with pc := .idle, held := t.held ++ [m.var] })
  | .create f =>
    if f = some 0 then (m, { t with pc := .store none })
    else ({ m with heap := m.heap ++ [some d.fresh] }, { t with pc := .fill m.heap.length 0 f })
  | .fill p k f =>
    match d.sets[k]? with
    | none => (m, { t with pc := .store (some p) })
    | some g =>
      if f = some (k + 1) then (m, { t with pc := .discard p })
      else
        match m.heap[p]? with
        | some (some o) => ({ m with heap := m.heap.set p (some (g o)) }, { t with pc := .fill p (k + 1) f })
        | _ => (m, { t with pc := .fault })
  | .discard p =>
    match m.heap[p]? with
    | some (some _) => ({ m with heap := m.heap.set p none }, { t with pc := .store none })
    | _ => (m, { t with pc := .fault })
  | .store l =>
    ({ m with var := l }, if d.rereads then { t with pc := .again } else { t with pc := .idle, held := t.held ++ [l] })
  | .fault => (m, t)

/-- Thread number `i` makes a step. -/
def MethState.step {β : Type} (d : MethDesc β) (s : MethState β) (i : Nat) : MethState β :=
  match s.threads[i]? with
  | none => s
  | some t => ⟨(methStep d s.mem t).1, s.threads.set i (methStep d s.mem t).2⟩

/-- The threads run in the order given by the schedule. -/
def MethState.run {β : Type} (d : MethDesc β) (s : MethState β) (schedule : List Nat) : MethState β := schedule.foldl (MethState.step d) s

/-- No method was made yet; the threads are going to make the given calls. -/
def methThreads {β : Type} (calls : List (List MethFail)) : MethState β := ⟨⟨none, []⟩, calls.map fun c => ⟨c, .idle, []⟩⟩

/-- The calls of `GOST_init_cipher`, `/repo/gost_crypt.c` lines 117-126 (the functions for algorithm parameters are not members of the
model's methods, so those two calls change nothing). -/
def cipherDesc (c : GCipher) : MethDesc EvpCipher where
  fresh := { nid := c.nid, block_size := tplN c.d.block_size c.tpl.block_size, key_len := tplN c.d.key_len c.tpl.key_len
             iv_len := 0, flags := 0, init := false, do_cipher := false, cleanup := false, ctx_size := false, ctrl := false }
  sets := [
    fun e => { e with iv_len := tplN c.d.iv_len c.tpl.iv_len },
    fun e => { e with flags := c.d.flags ||| c.tpl.flags },
    fun e => { e with init := c.d.init || c.tpl.init },
    fun e => { e with do_cipher := c.d.do_cipher || c.tpl.do_cipher },
    fun e => { e with cleanup := c.d.cleanup || c.tpl.cleanup },
    fun e => { e with ctx_size := c.d.ctx_size || c.tpl.ctx_size },
    id, id,
    fun e => { e with ctrl := c.d.ctrl || c.tpl.ctrl }]
  rereads := true

end Gost
