import Verif.Model.ProvLife

/-!
# Loading and unloading the engine

`ENGINE_load_gost`, `make_gost_engine`, `check_gost_engine` and `bind_gost_engine` of `/repo/gost_eng.c` lines 439-512 (the engine
built as a library), on top of `populate_gost_engine` and `gost_engine_destroy` (`Model/ProvLife.lean`), with what libcrypto keeps:
the list of engines, the tables of engines by algorithm (which have the engines without a reference), and the table of names.

The variables are those of `PState`, whose `insts`, `ctxs` and `err_handle` are not used here.  The entries of the tables of libcrypto
are not followed as objects; their allocation may fail.
-/
namespace Gost.Life

/-- A name of an algorithm: of a digest or a cipher, its position in `gost_digest_array` or `gost_cipher_array`, and whether it is the
long name.  The names are distinct (C52). -/
structure AlgName where
  digest : Bool
  pos : Nat
  long : Bool
  deriving DecidableEq, Repr

/-- The names of the algorithms of the engine: `/repo/gost_eng.c` lines 74-106. -/
def AlgName.valid (n : AlgName) : Bool := if n.digest then decide (n.pos < 8) else decide (n.pos < 20)

/-- The state: the variables of the module; the ENGINE that was loaded and is not yet freed; whether it is in the list; the piles that
keep a functional reference to it (by kind and position); the methods contexts work with, each with a functional reference; the ENGINEs
in the piles in order; the table of names, newest first; whether the process has crashed. -/
structure EState where
  p : PState
  eng : Option Ptr
  listed : Bool
  functs : List (Bool × Nat)
  users : List Ptr
  piles : List Ptr
  names : List (AlgName × Ptr)
  crashed : Bool
  deriving DecidableEq, Repr

/-- Before the first load. -/
def eInit : EState := ⟨pInit, none, false, [], [], [], [], false⟩

/-- `OBJ_NAME_get`. -/
def getName : List (AlgName × Ptr) → AlgName → Option Ptr
  | [], _ => none
  | (k, p) :: r, n => if k = n then some p else getName r n

/-- How `bind_gost_engine` ends. -/
inductive BindEnd where
  | bound | failed | crashed
  deriving DecidableEq, Repr

/-- The two `OBJ_NAME_add` of `EVP_add_cipher` and `EVP_add_digest`: short name, long name. -/
def addNames (ok : Nat → Bool) (m : Mem) (names : List (AlgName × Ptr)) (digest : Bool) (i : Nat) (p : Ptr) :
    Mem × List (AlgName × Ptr) × Bool :=
  match attempt ok m with
  | (false, m1) => (m1, names, false)
  | (true, m1) =>
    match attempt ok m1 with
    | (false, m2) => (m2, (⟨digest, i, false⟩, p) :: names, false)
    | (true, m2) => (m2, (⟨digest, i, true⟩, p) :: (⟨digest, i, false⟩, p) :: names, true)

/-- The loops over the ciphers and over the digests, `/repo/gost_eng.c` lines 448-451 and 453-456, with the cache of the methods:
`EVP_add_cipher(NULL)` gives 0, `EVP_add_digest(NULL)` reads through the pointer. -/
def addMeths (ok : Nat → Bool) (digest : Bool) (m : Mem) (cache : List (Option Ptr)) (names : List (AlgName × Ptr)) :
    List Nat → Mem × List (Option Ptr) × List (AlgName × Ptr) × BindEnd
  | [] => (m, cache, names, .bound)
  | i :: r =>
    match initMeth ok m cache i with
    | (none, m1, c) => (m1, c, names, if digest then .crashed else .failed)
    | (some p, m1, c) =>
      match addNames ok m1 names digest i p with
      | (m2, n2, false) => (m2, c, n2, .failed)
      | (m2, n2, true) => addMeths ok digest m2 c n2 r

/-- `bind_gost_engine`, `/repo/gost_eng.c` lines 439-464, after the registration in the piles. -/
def bindNames (ok : Nat → Bool) (s : PState) (names : List (AlgName × Ptr)) : PState × List (AlgName × Ptr) × BindEnd :=
  match addMeths ok false s.mem s.ciphers names (List.range 20) with
  | (m1, c, n1, .bound) =>
    match addMeths ok true m1 s.digests n1 (List.range 8) with
    | (m2, d, n2, e) => ({ s with mem := m2, ciphers := c, digests := d }, n2, e)
  | (m1, c, n1, e) => ({ s with mem := m1, ciphers := c }, n1, e)

/-- `ENGINE_load_gost`, `/repo/gost_eng.c` lines 502-512, with `make_gost_engine`, lines 477-482, and `check_gost_engine`, lines 466-475.
`ENGINE_register_ciphers`, `ENGINE_register_digests` and `ENGINE_register_pkey_meths` (lines 442-445) put the ENGINE at the end of the
piles, also when they fail half-way. -/
def engineLoad (ok : Nat → Bool) (s : EState) : EState :=
  match alloc ok s.p.mem with
  | (none, m1) => { s with p := { s.p with mem := m1 } }
  | (some e, m1) =>
    if (s.p.meths.getD 0 (none, none)).1.isSome then { s with p := engineFree { s.p with mem := m1 } e false }
    else
      match populate ok { s.p with mem := m1 } with
      | (p2, isBound, false) => { s with p := engineFree p2 e isBound }
      | (p2, _, true) =>
        match attempt ok p2.mem with
        | (false, m3) => { s with p := engineFree { p2 with mem := m3 } e true, piles := s.piles ++ [e] }
        | (true, m3) =>
          match bindNames ok { p2 with mem := m3 } s.names with
          | (p4, n4, .bound) => { s with p := p4, names := n4, piles := s.piles ++ [e], eng := some e, listed := true }
          | (p4, n4, .failed) => { s with p := engineFree p4 e true, names := n4, piles := s.piles ++ [e] }
          | (p4, n4, .crashed) => { s with p := p4, names := n4, crashed := true }

/-- `ENGINE_free` or `ENGINE_finish` when a reference has been given up: the ENGINE goes with its last reference. -/
def dropEngine (s : EState) : EState :=
  match s.eng with
  | none => s
  | some e => if !s.listed && s.functs.isEmpty && s.users.isEmpty then { s with p := engineFree s.p e true, eng := none } else s

/-- `GOST_init_cipher` or `GOST_init_digest` through `gost_ciphers` or `gost_digests`, `/repo/gost_eng.c` lines 197-243. -/
def algMeth (ok : Nat → Bool) (s : PState) (digest : Bool) (i : Nat) : Option Ptr × PState :=
  if digest then
    ((initMeth ok s.mem s.digests i).1,
      { s with mem := (initMeth ok s.mem s.digests i).2.1, digests := (initMeth ok s.mem s.digests i).2.2 })
  else
    ((initMeth ok s.mem s.ciphers i).1,
      { s with mem := (initMeth ok s.mem s.ciphers i).2.1, ciphers := (initMeth ok s.mem s.ciphers i).2.2 })

/-- A context starts to work with an algorithm of the ENGINE `e`. -/
def startUser (ok : Nat → Bool) (s : EState) (e : Ptr) (n : AlgName) : EState :=
  let s1 := { s with p := { s.p with mem := touch s.p.mem e } }
  match algMeth ok s1.p n.digest n.pos with
  | (none, p2) => { s1 with p := p2 }
  | (some q, p2) => { s1 with p := { p2 with mem := touch p2.mem q }, users := q :: s1.users }

/-- What a program does: load the engine; remove it from the list; look a name up and read the method; start a context with a method
found by name, giving the ENGINE or leaving the choice to libcrypto; use the `k`-th context; free it. -/
inductive EEv where
  | load
  | remove
  | lookup (n : AlgName)
  | openWith (n : AlgName)
  | openDefault (n : AlgName)
  | use (k : Nat)
  | close (k : Nat)
  deriving DecidableEq, Repr

/-- Reading the method a name stands for. -/
def readName (s : EState) (n : AlgName) : EState :=
  match getName s.names n with
  | none => s
  | some q => { s with p := { s.p with mem := touch s.p.mem q } }

/-- One event.  `openDefault`: `engine_table_select` takes the functional reference of the pile, otherwise the first ENGINE of the pile
(`gost_engine_init`, `/repo/gost_eng.c` lines 291-293, always succeeds) and keeps a functional reference.  `openWith` needs the ENGINE
to be there (`ENGINE_by_id`). -/
def eStep (ok : Nat → Bool) (s : EState) (ev : EEv) : EState :=
  if s.crashed then s
  else match ev with
  | .load => engineLoad ok s
  | .remove => dropEngine { s with listed := false }
  | .lookup n => readName s n
  | .openWith n =>
    match getName s.names n, s.eng with
    | some _, some e => if s.listed then startUser ok (readName s n) e n else readName s n
    | _, _ => readName s n
  | .openDefault n =>
    match getName s.names n with
    | none => s
    | some _ =>
      let s1 := readName s n
      match s1.piles with
      | [] => s1
      | t :: _ =>
        if (n.digest, n.pos) ∈ s1.functs then
          match s1.eng with
          | none => s1
          | some e => startUser ok s1 e n
        else startUser ok { s1 with functs := (n.digest, n.pos) :: s1.functs } t n
  | .use k =>
    match s.users[k]? with
    | none => s
    | some q => { s with p := { s.p with mem := touch s.p.mem q } }
  | .close k =>
    match s.users[k]? with
    | none => s
    | some q => dropEngine { s with p := { s.p with mem := touch s.p.mem q }, users := s.users.eraseIdx k }

/-- A history. -/
def eRun (ok : Nat → Bool) (s : EState) (evs : List EEv) : EState := evs.foldl (eStep ok) s

end Gost.Life
