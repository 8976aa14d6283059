import Verif.Model.Gost94
import Verif.Model.Streebog

/-!
# The command-line tools `gostsum` and `gost12sum`

`/repo/gostsum.c` and `/repo/gost12sum.c`.  The operating system is represented by what it returns: opening and reading a
file gives the sequence of results of `read`, the checksum file is the sequence of its bytes.  Messages on the standard
error are not modelled, except through the counters they print.  Reads outside a buffer and `strlen(NULL)` are undefined
behaviour: the model returns `LineRes.ub` there.
-/

namespace Gost

/-- The results of the `read` calls on an open file: the data blocks (each not empty) up to the end of the file or to an
error. -/
structure ReadRun where
  chunks : List Bytes
  err : Bool

/-- What the operating system shows the program: for every file name, failure to open it or the results of reading. -/
abbrev Files := Bytes → Option ReadRun

/-- `sprintf(p, "%02x", b)`: two lower-case hexadecimal digits (ASCII). -/
def hexDigit (n : Nat) : Byte := if n < 10 then BitVec.ofNat 8 (0x30 + n) else BitVec.ofNat 8 (0x57 + n)

/-- The loops printing the digest, `/repo/gostsum.c` lines 186-188, `/repo/gost12sum.c` lines 244-246. -/
def hexOf (b : Bytes) : Bytes := b.flatMap fun x => [hexDigit (x.toNat / 16), hexDigit (x.toNat % 16)]

/-- `hash_stream`, `/repo/gostsum.c` lines 173-190: the context and the text of the digest (none: a read error).  The
digest is printed from its last byte. -/
def hash_stream94 (c : HashCtx) (r : ReadRun) : HashCtx × Option Bytes :=
  let c := r.chunks.foldl hash_block (start_hash c)
  if r.err then (c, none)
  else
    let f := finish_hash c
    (f.1, some (hexOf ((List.range 32).map fun i => at_ f.2 (31 - i))))

/-- `hash_file`, `/repo/gostsum.c` lines 157-171. -/
def hash_file94 (fs : Files) (c : HashCtx) (name : Bytes) : HashCtx × Option Bytes :=
  match fs name with
  | none => (c, none)
  | some r => hash_stream94 c r

/-- `hash_stream`, `/repo/gost12sum.c` lines 231-248, with `start_hash`, `hash_block` and `finish_hash` of lines 58-74:
`hashsize` is 32 or 64 bytes; every call initialises the context anew. -/
def hash_stream12 (b : SbBuild) (hashsize : Nat) (r : ReadRun) : Option Bytes :=
  let c := r.chunks.foldl (gost2012_hash_block b) (init_gost2012_hash_ctx (hashsize * 8))
  if r.err then none
  else some (hexOf ((gost2012_finish_hash b c).2.take hashsize))

/-- `hash_file`, `/repo/gost12sum.c` lines 214-229. -/
def hash_file12 (b : SbBuild) (fs : Files) (name : Bytes) (hashsize : Nat) : Option Bytes :=
  match fs name with
  | none => none
  | some r => hash_stream12 b hashsize r

/-- `printf("%s %s\n", sum, name)`, `/repo/gostsum.c` line 151, `/repo/gost12sum.c` lines 189, 207. -/
def sumLine (sum name : Bytes) : Bytes := sum ++ 0x20 :: name ++ [0x0a]

/-- The loop generating checksums, `/repo/gostsum.c` lines 146-153: the context, the standard output and the number of
errors. -/
def gen94 (fs : Files) : HashCtx → List Bytes → HashCtx × Bytes × Nat
  | c, [] => (c, [], 0)
  | c, name :: names =>
    let r := hash_file94 fs c name
    let t := gen94 fs r.1 names
    match r.2 with
    | none => (t.1, t.2.1, t.2.2 + 1)
    | some sum => (t.1, sumLine sum name ++ t.2.1, t.2.2)

/-- The loop generating checksums, `/repo/gost12sum.c` lines 202-209: the standard output and the number of errors. -/
def gen12 (b : SbBuild) (fs : Files) (hashsize : Nat) : List Bytes → Bytes × Nat
  | [] => ([], 0)
  | name :: names =>
    let t := gen12 b fs hashsize names
    match hash_file12 b fs name hashsize with
    | none => (t.1, t.2 + 1)
    | some sum => (sumLine sum name ++ t.1, t.2)

/-- The characters `fgets` takes: at most `n`, up to and including a line feed; the rest of the file. -/
def fgetsGo : Nat → Bytes → Bytes × Bytes
  | 0, f => ([], f)
  | _ + 1, [] => ([], [])
  | n + 1, c :: f => if c = 0x0a then ([c], f) else ((c :: (fgetsGo n f).1), (fgetsGo n f).2)

/-- `fgets(buf, PATH_MAX, f)` with `PATH_MAX` = 4096: none (NULL) at the end of the file. -/
def fgets (f : Bytes) : Option (Bytes × Bytes) := if f = [] then none else some (fgetsGo 4095 f)

/-- The C string in a buffer: what is before the first NUL. -/
def cstr (b : Bytes) : Bytes := b.takeWhile (· ≠ 0)

/-- `\n` or `\r`. -/
def isNl (c : Byte) : Bool := c = 0x0a || c = 0x0d

/-- `i = strlen(s); while (s[--i] == '\n' || s[i] == '\r') s[i] = 0;`: the string without line ends.  None: the index
became -1. -/
def stripNl (s : Bytes) : Option Bytes :=
  let r := s.reverse.dropWhile isNl
  if r = [] then none else some r.reverse

/-- The test of a hexadecimal digit, `/repo/gostsum.c` lines 199-200, `/repo/gost12sum.c` lines 277-278.  (Characters above
127 are refused whether `char` is signed or not.) -/
def notHex (c : Byte) : Bool := c < 0x30 || (0x39 < c && c < 0x41) || (0x46 < c && c < 0x61) || 0x66 < c

/-- The result of reading a line of the checksum file. -/
inductive LineRes where
  | stop
  | ub
  | line (hash name rest : Bytes)
  deriving DecidableEq

/-- `get_line`, `/repo/gostsum.c` lines 192-213. -/
def get_line94 (f : Bytes) : LineRes :=
  if f.length < 64 then .stop
  else
    let hash := f.take 64
    if hash.any notHex then .stop
    else
      match f.drop 64 with
      | [] => .stop
      | c :: f =>
        if c ≠ 0x20 then .stop
        else
          match fgets f with
          | none => .ub
          | some (line, rest) =>
            match stripNl (cstr line) with
            | none => .ub
            | some name => .line hash name rest

theorem fgetsGo_le (n : Nat) (f : Bytes) : (fgetsGo n f).2.length ≤ f.length := by
  induction n generalizing f with
  | zero => simp [fgetsGo]
  | succ n ih =>
    cases f with
    | nil => simp [fgetsGo]
    | cons c f =>
      rw [fgetsGo]
      split
      · simp
      · have := ih f
        simp only [List.length_cons]
        omega

theorem fgets_lt (f l r : Bytes) (h : fgets f = some (l, r)) : r.length < f.length := by
  unfold fgets at h
  split at h
  · simp at h
  · rename_i h0
    cases f with
    | nil => exact absurd rfl h0
    | cons c f =>
      simp only [Option.some.injEq] at h
      have : r = (fgetsGo 4095 (c :: f)).2 := by rw [h]
      rw [this, fgetsGo]
      split
      · simp
      · have := fgetsGo_le 4094 f
        simp only [List.length_cons]
        omega

theorem get_line94_lt (f hash name rest : Bytes) (h : get_line94 f = .line hash name rest) : rest.length < f.length := by
  unfold get_line94 at h
  simp only at h
  split at h
  · cases h
  split at h
  · cases h
  split at h
  · cases h
  · rename_i c f' hd
    split at h
    · cases h
    · split at h
      · cases h
      · rename_i line r hg
        split at h
        · cases h
        · cases h
          have h1 := fgets_lt _ _ _ hg
          have h2 : (f.drop 64).length = f'.length + 1 := by rw [hd]; rfl
          simp only [List.length_drop] at h2
          omega

/-- The counters of the checking loop. -/
structure CheckRes where
  failcount : Nat
  errors : Nat
  count : Nat
  deriving DecidableEq

/-- The exit status of the checking mode: `exit((failcount || errors) ? 1 : 0)`, `/repo/gostsum.c` line 130,
`/repo/gost12sum.c` line 175. -/
def CheckRes.exit (r : CheckRes) : Nat := if r.failcount ≠ 0 ∨ r.errors ≠ 0 then 1 else 0

/-- The checking loop, `/repo/gostsum.c` lines 98-117 (none: undefined behaviour on the way). -/
def check94 (fs : Files) (c : HashCtx) (f : Bytes) : Option CheckRes :=
  match h : get_line94 f with
  | .stop => some ⟨0, 0, 0⟩
  | .ub => none
  | .line hash name rest =>
    have := get_line94_lt f hash name rest h
    let r := hash_file94 fs c name
    match check94 fs r.1 rest with
    | none => none
    | some t =>
      match r.2 with
      | none => some { t with errors := t.errors + 1, count := t.count + 1 }
      | some sum =>
        if sum = hash then some { t with count := t.count + 1 }
        else some { t with failcount := t.failcount + 1, count := t.count + 1 }
termination_by f.length

/-- `gostsum [files]`, `/repo/gostsum.c` lines 86, 146-154: standard output and exit status.  `c` is the cipher context
allocated by `init_gost_hash_ctx`. -/
def gostsum_gen (c : Ctx) (b : SubstBlock) (fs : Files) (names : List Bytes) : Bytes × Nat :=
  let r := gen94 fs (init_gost_hash_ctx c (some b)) names
  (r.2.1, if r.2.2 ≠ 0 then 1 else 0)

/-- `gostsum -c`, `/repo/gostsum.c` lines 86-130. -/
def gostsum_check (c : Ctx) (b : SubstBlock) (fs : Files) (f : Bytes) : Option CheckRes :=
  check94 fs (init_gost_hash_ctx c (some b)) f

/-- One pass of the loop of `get_line`, `/repo/gost12sum.c` lines 256-297, on the line `filename`: none for `nextline`.
`.line hash name rest` with an empty hash is the case `*size = 0` (a digest of another length). -/
def line12 (filename rest : Bytes) : Option LineRes :=
  let s := cstr filename
  let ptr := s.dropWhile (· = 0x20)
  match stripNl ptr with
  | none =>
    -- the index became -1: `ptr[-1]` is the space before `ptr`, or outside the buffer
    if ptr.length < s.length then none else some .ub
  | some ptr =>
    if ptr.length = 1 then none
    else
      let hash := ptr.takeWhile (· ≠ 0x20)
      match ptr.drop hash.length with
      | [] => none
      | _ :: name =>
        if name = [] then none
        else if hash.any notHex then none
        else if hash.length ≠ 64 ∧ hash.length ≠ 128 then some (.line [] name rest)
        else some (.line hash name rest)

/-- `get_line`, `/repo/gost12sum.c` lines 250-299.  (`feof` is only set when no character is left; then `fgets` returns NULL
as well and the result is the same.) -/
def get_line12 (f : Bytes) : LineRes :=
  match h : fgets f with
  | none => .stop
  | some (filename, rest) =>
    have := fgets_lt _ _ _ h
    match line12 filename rest with
    | none => get_line12 rest
    | some r => r
termination_by f.length

theorem line12_rest (filename r hash name rest : Bytes) (h : line12 filename r = some (.line hash name rest)) : rest = r := by
  unfold line12 at h
  simp only at h
  split at h
  · split at h <;> simp at h
  · split at h
    · simp at h
    · split at h
      · simp at h
      · split at h
        · simp at h
        · split at h
          · simp at h
          · split at h
            · simp at h; exact h.2.2.symm
            · simp at h; exact h.2.2.symm

theorem get_line12_lt (f hash name rest : Bytes) (h : get_line12 f = .line hash name rest) : rest.length < f.length := by
  induction hn : f.length using Nat.strongRecOn generalizing f with
  | _ n ih =>
    rw [get_line12] at h
    split at h
    · cases h
    · rename_i filename r hg
      have hlt := fgets_lt _ _ _ hg
      split at h
      · have := ih r.length (by omega) r h rfl
        omega
      · rename_i res hl
        rw [h] at hl
        rw [line12_rest _ _ _ _ _ hl]
        omega

/-- The checking loop, `/repo/gost12sum.c` lines 131-160 (none: undefined behaviour on the way). -/
def check12 (b : SbBuild) (fs : Files) (f : Bytes) : Option CheckRes :=
  match h : get_line12 f with
  | .stop => some ⟨0, 0, 0⟩
  | .ub => none
  | .line hash name rest =>
    have := get_line12_lt f hash name rest h
    match check12 b fs rest with
    | none => none
    | some t =>
      if hash = [] then some { t with errors := t.errors + 1, count := t.count + 1 }
      else
        match hash_file12 b fs name (hash.length / 2) with
        | none => some { t with errors := t.errors + 1, count := t.count + 1 }
        | some sum =>
          if sum = hash then some { t with count := t.count + 1 }
          else some { t with failcount := t.failcount + 1, count := t.count + 1 }
termination_by f.length

/-- `gost12sum [-l] [files]`: standard output and exit status, `/repo/gost12sum.c` lines 201-211. -/
def gost12sum_gen (b : SbBuild) (long : Bool) (fs : Files) (names : List Bytes) : Bytes × Nat :=
  let r := gen12 b fs (if long then 64 else 32) names
  (r.1, if r.2 ≠ 0 then 1 else 0)

/-- `gost12sum -x`, the loop of lines 176-191: file names from the standard input (none: undefined behaviour). -/
def gen12x (b : SbBuild) (fs : Files) (hashsize : Nat) (f : Bytes) : Option (Bytes × Nat) :=
  match h : fgets f with
  | none => some ([], 0)
  | some (line, rest) =>
    have := fgets_lt _ _ _ h
    match stripNl (cstr line) with
    | none => none
    | some name =>
      match gen12x b fs hashsize rest with
      | none => none
      | some t =>
        match hash_file12 b fs name hashsize with
        | none => some (t.1, t.2 + 1)
        | some sum => some (sumLine sum name ++ t.1, t.2)
termination_by f.length

end Gost
