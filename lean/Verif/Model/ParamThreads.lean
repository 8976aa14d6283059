import Verif.Model.Engine

/-!
# Several threads that use the engine's parameters (`/repo/gost_ctl.c` lines 43-77)

`gost_params` is shared by all threads, without a lock.  The accesses to it and to the strings it points to are separate steps;
the steps of any number of threads interleave in any order (sequential consistency).  Strings are heap objects; an object that
was freed stays in the list, marked.  The user of a lookup (`get_encryption_params`, `/repo/gost_crypt.c` lines 371-395;
`gost_cipher_ctl`, lines 1167-1178; `priv_encode_gost`, `/repo/gost_ameth.c` lines 677-713) reads the string after
`get_gost_engine_param` has returned the pointer: that is a step of its own.  The environment does not change.
-/

namespace Gost

/-- A call: a lookup whose result is then read, or `ENGINE_ctrl` with a parameter command. -/
inductive ParamCall where
  | lookup (k : Nat)
  | set (k : Nat) (v : Option CStr)

/-- `gost_params` (a pointer is an index into the heap; NULL is `none`) and the heap of strings (`none`: freed). -/
structure ParamMem where
  table : Nat → Option Nat
  heap : List (Option CStr)

inductive ParamPc where
  | idle
  /-- Line 49: `return gost_params[param]`. -/
  | again (k : Nat)
  /-- Line 53: `OPENSSL_free(gost_params[param])` in a lookup; `tmp` is the value of the environment. -/
  | freeOld (k : Nat) (tmp : CStr)
  /-- Line 54: `gost_params[param] = BUF_strdup(tmp)`. -/
  | storeNew (k : Nat) (tmp : CStr)
  /-- The caller of the lookup has the pointer and is about to read the string. -/
  | use (k : Nat) (ptr : Option Nat)
  /-- Line 73: `OPENSSL_free(gost_params[param])` in `gost_set_default_param`. -/
  | setFree (k : Nat) (tmp : Option CStr)
  /-- Line 74: `gost_params[param] = BUF_strdup(tmp)`. -/
  | setStore (k : Nat) (tmp : Option CStr)
  /-- The thread read or freed memory that was already freed. -/
  | fault
  deriving DecidableEq

/-- A thread: calls to make, where it is, and the texts its lookups gave it. -/
structure ParamThread where
  todo : List ParamCall
  pc : ParamPc
  got : List (Nat × Option CStr)

structure ParamState where
  mem : ParamMem
  threads : List ParamThread

/-- `getenv(gost_envnames[param])`. -/
def envOf (env : Env) (k : Nat) : Option CStr := env (gost_envnames.getD k "")

/-- `OPENSSL_free(gost_params[param])`: `none` if the string was freed before. -/
def freeAt (m : ParamMem) (k : Nat) : Option ParamMem :=
  match m.table k with
  | none => some m
  | some ptr =>
    match m.heap[ptr]? with
    | some (some _) => some { m with heap := m.heap.set ptr none }
    | _ => none

/-- `gost_params[param] = BUF_strdup(tmp)`: a new string (`BUF_strdup(NULL)` is NULL). -/
def storeAt (m : ParamMem) (k : Nat) (tmp : Option CStr) : ParamMem :=
  match tmp with
  | none => { m with table := fun j => if j = k then none else m.table j }
  | some t => ⟨fun j => if j = k then some m.heap.length else m.table j, m.heap ++ [some t]⟩

/-- One step of a thread: `get_gost_engine_param`, `/repo/gost_ctl.c` lines 43-58, with the caller's use of the result, and
`gost_set_default_param`, lines 60-77. -/
def paramStep (env : Env) (m : ParamMem) (t : ParamThread) : ParamMem × ParamThread :=
  match t.pc with
  | .idle =>
    match t.todo with
    | [] => (m, t)
    | .lookup k :: rest =>
      -- lines 46-47, the test in line 48, and (if it was NULL) `getenv` in line 51
      if k ≥ 3 then (m, { t with todo := rest, got := t.got ++ [(k, none)] })
      else if (m.table k).isSome then (m, { t with todo := rest, pc := .again k })
      else
        match envOf env k with
        | some tmp => (m, { t with todo := rest, pc := .freeOld k tmp })
        | none => (m, { t with todo := rest, got := t.got ++ [(k, none)] })
    | .set k v :: rest =>
      -- lines 63-72
      if k ≥ 3 then (m, { t with todo := rest })
      else (m, { t with todo := rest, pc := .setFree k ((envOf env k).or v) })
  | .again k => (m, { t with pc := .use k (m.table k) })
  | .freeOld k tmp =>
    match freeAt m k with
    | none => (m, { t with pc := .fault })
    | some m' => (m', { t with pc := .storeNew k tmp })
  | .storeNew k tmp => (storeAt m k (some tmp), { t with pc := .again k })
  | .use k ptr =>
    match ptr with
    | none => (m, { t with pc := .idle, got := t.got ++ [(k, none)] })
    | some p =>
      match m.heap[p]? with
      | some (some text) => (m, { t with pc := .idle, got := t.got ++ [(k, some text)] })
      | _ => (m, { t with pc := .fault })
  | .setFree k tmp =>
    match freeAt m k with
    | none => (m, { t with pc := .fault })
    | some m' => (m', { t with pc := .setStore k tmp })
  | .setStore k tmp => (storeAt m k tmp, { t with pc := .idle })
  | .fault => (m, t)

/-- Thread number `i` makes a step. -/
def ParamState.step (env : Env) (s : ParamState) (i : Nat) : ParamState :=
  match s.threads[i]? with
  | none => s
  | some t => ⟨(paramStep env s.mem t).1, s.threads.set i (paramStep env s.mem t).2⟩

/-- The threads run in the order given by the schedule. -/
def ParamState.run (env : Env) (s : ParamState) (schedule : List Nat) : ParamState := schedule.foldl (ParamState.step env) s

/-- Threads that start with the given contents of `gost_params`. -/
def paramThreads (m : ParamMem) (calls : List (List ParamCall)) : ParamState := ⟨m, calls.map (fun c => ⟨c, .idle, []⟩)⟩

/-- Nothing was looked up or set yet. -/
def coldMem : ParamMem := ⟨fun _ => none, []⟩

end Gost
