import Verif.Model.EcParams

/-!
# Several threads in `fill_GOST_EC_params` (`/repo/gost_ec_sign.c` lines 90-175)

The function works on the two tables of `/repo/gost_params.c`, which are shared by all threads of the process, without a lock.
Here its accesses to shared memory are separate steps, and the steps of any number of threads interleave in any order
(sequential consistency: one access at a time, in the order of the program.  The C standard gives no meaning at all to these
unsynchronised accesses).  OpenSSL's functions on one object are one step; `EC_KEY_set_group` copies the group.
`free_cached_groups` (run when the engine is destroyed) is not among the steps.
-/

namespace Gost

/-- An `EC_GROUP` on the heap; `owner` is the number of the thread that made it and `entry` the table entry it was made for (both
are only recorded, no step reads them). -/
structure GroupObj where
  grp : EcGroupRec
  owner : Nat
  entry : CurveNid

/-- What the threads share: the field `group` of every table entry (by the NID of the entry; a pointer is an index into the heap)
and the heap of groups. -/
structure FillMem where
  cache : CurveNid → Option Nat
  heap : List GroupObj

/-- Where a thread is in `fill_GOST_EC_params`, with the local variables that matter from there. -/
inductive FillPc where
  /-- Not in the function. -/
  | idle
  /-- Line 106: `params->group` was not NULL; `EC_GROUP_set_curve_name(params->group, nid)` comes next. -/
  | rename (nid : CurveNid) (e : EcParams)
  /-- Line 107: `EC_KEY_set_group(eckey, params->group)` comes next. -/
  | copyCached (nid : CurveNid) (e : EcParams)
  /-- Lines 114-164: `params->group` was NULL; the thread builds its own group. -/
  | build (nid : CurveNid) (e : EcParams)
  /-- Line 165: `params->group = grp` comes next. -/
  | store (nid : CurveNid) (e : EcParams) (grp : Nat)
  /-- Line 166: `EC_KEY_set_group(eckey, grp)` comes next. -/
  | copyOwn (nid : CurveNid) (grp : Nat)
  /-- The thread used a NULL pointer. -/
  | fault
  deriving DecidableEq

/-- A thread: the parameter sets it still has to ask for, where it is, and what it was given (the NID it asked for and the copy of
the group in the key; `none` for the return value 0). -/
structure FillThread where
  todo : List CurveNid
  pc : FillPc
  got : List (CurveNid × Option EcGroupRec)

structure FillState where
  mem : FillMem
  threads : List FillThread

/-- `EC_GROUP_set_curve_name` on a heap object. -/
def renameObj (heap : List GroupObj) (ptr : Nat) (nid : CurveNid) : List GroupObj :=
  match heap[ptr]? with
  | some o => heap.set ptr { o with grp := { o.grp with name := nid } }
  | none => heap

/-- The end of a call: what the key was given is recorded. -/
def FillThread.finish (t : FillThread) (nid : CurveNid) (r : Option EcGroupRec) : FillThread :=
  { t with pc := .idle, got := t.got ++ [(nid, r)] }

/-- The group made by lines 129-164. -/
def newGroup (e : EcParams) (nid : CurveNid) : EcGroupRec :=
  { p := e.p, a := e.a, b := e.b, x := e.x, y := e.y, q := e.q, cofactor := e.cofactor, name := nid }

/-- One step of thread number `i`, `/repo/gost_ec_sign.c` lines 90-175. -/
def fillStep (i : Nat) (m : FillMem) (t : FillThread) : FillMem × FillThread :=
  match t.pc with
  | .idle =>
    -- the call; lines 92, 100-103, and the test in line 105
    match t.todo with
    | [] => (m, t)
    | nid :: rest =>
      match gost_nid2params nid with
      | none => (m, ({ t with todo := rest }).finish nid none)
      | some e =>
        match m.cache e.nid with
        | some _ => (m, { t with todo := rest, pc := .rename nid e })
        | none => (m, { t with todo := rest, pc := .build nid e })
  | .rename nid e =>
    -- line 106 reads `params->group` again
    match m.cache e.nid with
    | none => (m, { t with pc := .fault })
    | some ptr => ({ m with heap := renameObj m.heap ptr nid }, { t with pc := .copyCached nid e })
  | .copyCached nid e =>
    -- line 107 reads it a third time
    match m.cache e.nid with
    | none => (m, { t with pc := .fault })
    | some ptr =>
      match m.heap[ptr]? with
      | none => (m, { t with pc := .fault })
      | some o => (m, t.finish nid (some o.grp))
  | .build nid e =>
    -- lines 114-164: nothing shared is touched
    if opensslAccepts e then
      ({ m with heap := m.heap ++ [⟨newGroup e nid, i, e.nid⟩] }, { t with pc := .store nid e m.heap.length })
    else (m, t.finish nid none)
  | .store nid e grp =>
    -- line 165
    ({ m with cache := fun n => if n = e.nid then some grp else m.cache n }, { t with pc := .copyOwn nid grp })
  | .copyOwn nid grp =>
    -- line 166 uses the local pointer
    match m.heap[grp]? with
    | none => (m, { t with pc := .fault })
    | some o => (m, t.finish nid (some o.grp))
  | .fault => (m, t)

/-- Thread number `i` makes a step. -/
def FillState.step (s : FillState) (i : Nat) : FillState :=
  match s.threads[i]? with
  | none => s
  | some t => ⟨(fillStep i s.mem t).1, s.threads.set i (fillStep i s.mem t).2⟩

/-- The threads run in the order given by the schedule. -/
def FillState.run (s : FillState) (schedule : List Nat) : FillState := schedule.foldl FillState.step s

/-- The state after loading the engine: no group is cached; every thread has its list of requests. -/
def fillInit (requests : List (List CurveNid)) : FillState :=
  ⟨⟨fun _ => none, []⟩, requests.map (fun r => ⟨r, .idle, []⟩)⟩

end Gost
