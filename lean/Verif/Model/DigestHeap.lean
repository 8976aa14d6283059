import Verif.Model.OmacHeap
import Verif.Model.ProvDigest

/-!
# The memory of digest contexts

The digest data (`md_data`) of `EVP_MD_CTX`s as objects of a heap, with the pointer `cipher_ctx` that the data of GOST R 34.11-94 hold: it
points to the cipher context inside digest data, its own or (if somebody forgot to set it) another one's.  Around the methods of
`/repo/gost_md.c`, `/repo/gost_md2012.c` and the MAC of `/repo/gost_crypt.c`, the functions of OpenSSL 3 that call them for a digest of an
engine (crypto/evp/digest.c): `EVP_DigestInit_ex`, `EVP_DigestUpdate`, `EVP_DigestFinal_ex`, `EVP_MD_CTX_copy_ex`, `EVP_MD_CTX_reset` (and
`EVP_MD_CTX_free`, which calls it).  Every allocation may fail.  `none` is undefined behaviour: memory used after it was freed, freed twice, or a
NULL pointer followed.

Simplified: a method that would follow `cipher_ctx` for long enough data is taken to follow it always; the MAC is used without a key here
(`EVP_MD_CTRL_SET_KEY` is in `Model/MacPkey.lean`).
-/

namespace Gost

deriving instance DecidableEq for DigestKind

/-- The digests: the three hash functions and the GOST 28147-89 MAC. -/
inductive MdKind where
  | dig (k : DigestKind)
  | mac
  deriving DecidableEq

/-- Digest data: `struct ossl_gost_digest_ctx` (`/repo/gost_lcl.h` lines 205-208) with the pointer `cipher_ctx`, the address of the digest
data it points into; `gost2012_hash_ctx`; `struct ossl_gost_imit_ctx`. -/
inductive MdBlock where
  | g94 (c : HashCtx) (cipher : Option Nat)
  | sb (c : SbCtx)
  | mac (c : ImitCtx)

/-- Cleared memory (the random source stands for `RAND_bytes`). -/
def zeroBlock (rng : Nat → Fin 8 → W32) : MdKind → MdBlock
  | .dig .gost94 => .g94 { len := 0, cctx := (freshImit rng).cctx, left := 0, H := zeros 32, S := zeros 32, remainder := zeros 32 } none
  | .dig _ => .sb { init_gost2012_hash_ctx 512 with digest_size := 0 }
  | .mac => .mac (freshImit rng)

/-- An `EVP_MD_CTX`: the digest, `md_data`, and the flag `EVP_MD_CTX_FLAG_CLEANED`. -/
structure EvpMd where
  digest : Option MdKind
  md : Option Nat
  cleaned : Bool

/-- A new or reset context. -/
def EvpMd.empty : EvpMd := ⟨none, none, false⟩

/-- The memory and the contexts of an application (numbered). -/
structure MdMem where
  h : Heap MdBlock
  ctx : Nat → EvpMd

/-- The start: contexts made with `EVP_MD_CTX_new`. -/
def MdMem.start : MdMem := ⟨⟨fun _ => none, 0⟩, fun _ => .empty⟩

def MdMem.set (m : MdMem) (h : Heap MdBlock) (i : Nat) (e : EvpMd) : MdMem := ⟨h, fun j => if j = i then e else m.ctx j⟩

/-- `gost_digest_init` (`/repo/gost_md.c` lines 81-88), `gost_digest_init512`, `gost_digest_init256` (`/repo/gost_md2012.c` lines 59-71) and
`gost_imit_init_cpa` (`/repo/gost_crypt.c` lines 1500-1503) on the data at `p`. -/
def mdInit (h : Heap MdBlock) (p : Nat) : MdKind → Option (Heap MdBlock)
  | .dig .gost94 =>
    match h.obj p with
    | some (.g94 c _) => some (h.write p (.g94 (gost94_digest_init c.cctx) (some p)))
    | _ => none
  | .dig .sb256 =>
    match h.obj p with
    | some (.sb _) => some (h.write p (.sb (init_gost2012_hash_ctx 256)))
    | _ => none
  | .dig .sb512 =>
    match h.obj p with
    | some (.sb _) => some (h.write p (.sb (init_gost2012_hash_ctx 512)))
    | _ => none
  | .mac =>
    match h.obj p with
    | some (.mac c) => some (h.write p (.mac (gost_imit_init c Gost28147_CryptoProParamSetA)))
    | _ => none

/-- The memory after a method of GOST R 34.11-94 worked on the data `c` at `p` with the cipher context at `q`, which held `cq`: the method left
`c'`. -/
def put94 (h : Heap MdBlock) (p q : Nat) (c cq c' : HashCtx) (qq : Option Nat) : Heap MdBlock :=
  if q = p then h.write p (.g94 c' (some p))
  else (h.write p (.g94 { c' with cctx := c.cctx } (some q))).write q (.g94 { cq with cctx := c'.cctx } qq)

/-- `gost_digest_update` (`/repo/gost_md.c` lines 90-93, `/repo/gost_md2012.c` lines 73-78), `gost_imit_update`: memory and return value. -/
def mdUpdate (b : SbBuild) (h : Heap MdBlock) (p : Nat) (d : Bytes) : Option (Heap MdBlock × Int) :=
  match h.obj p with
  | some (.g94 c (some q)) =>
    match h.obj q with
    | some (.g94 cq qq) => some (put94 h p q c cq (hash_block { c with cctx := cq.cctx } d) qq, 1)
    | _ => none
  | some (.sb c) => some (h.write p (.sb (gost2012_hash_block b c d)), 1)
  | some (.mac c) => some (h.write p (.mac (gost_imit_update c d).1), (gost_imit_update c d).2)
  | _ => none

/-- `gost_digest_final` (`/repo/gost_md.c` lines 95-99, `/repo/gost_md2012.c` lines 80-84), `gost_imit_final`: memory, return value, bytes written. -/
def mdFinal (b : SbBuild) (h : Heap MdBlock) (p : Nat) : Option (Heap MdBlock × Int × Bytes) :=
  match h.obj p with
  | some (.g94 c (some q)) =>
    match h.obj q with
    | some (.g94 cq qq) => some (put94 h p q c cq (finish_hash { c with cctx := cq.cctx }).1 qq, 1, (finish_hash { c with cctx := cq.cctx }).2)
    | _ => none
  | some (.sb c) => some (h, 1, (gost2012_finish_hash b c).2)
  | some (.mac c) =>
    match gost_imit_final c with
    | none => some (h, 0, [])
    | some t => some (h, 1, t)
  | _ => none

/-- `gost_digest_cleanup` (`/repo/gost_md.c` lines 112-118, `/repo/gost_md2012.c` lines 95-101) and `gost_imit_cleanup` (`/repo/gost_crypt.c`
lines 1648-1652), which does not look whether there are data. -/
def mdCleanup (rng : Nat → Fin 8 → W32) (h : Heap MdBlock) (md : Option Nat) (k : MdKind) : Option (Heap MdBlock) :=
  match md with
  | some p => (h.obj p).map fun _ => h.write p (zeroBlock rng k)
  | none =>
    match k with
    | .dig _ => some h
    | .mac => none

/-- `gost_digest_copy` (`/repo/gost_md.c` lines 101-110, `/repo/gost_md2012.c` lines 86-93) and `gost_imit_copy` (`/repo/gost_crypt.c` lines
1638-1645) from the data `blk` to those at `p`. -/
def mdCopy (h : Heap MdBlock) (p : Nat) : MdBlock → Heap MdBlock
  | .g94 c _ => h.write p (.g94 c (some p))
  | blk => h.write p blk

/-- OpenSSL's `cleanup_old_md_data`; with `keep` (`EVP_MD_CTX_FLAG_REUSE`) the data are not freed. -/
def cleanupOld (rng : Nat → Fin 8 → W32) (h : Heap MdBlock) (e : EvpMd) (keep : Bool) : Option (Heap MdBlock) :=
  match e.digest with
  | none => some h
  | some k =>
    match (if e.cleaned then some h else mdCleanup rng h e.md k) with
    | none => none
    | some h => if keep then some h else h.free e.md

/-- The calls of an application; `ok`: an allocation, if the call needs one, succeeds. -/
inductive DhOp where
  | init (i : Nat) (k : MdKind) (ok : Bool)
  | update (i : Nat) (d : Bytes)
  | final (i : Nat)
  | copy (dst src : Nat) (ok : Bool)
  | reset (i : Nat)

/-- What a call returns: the value and, for a final call, the bytes. -/
structure MdRet where
  code : Int
  bytes : Bytes
  deriving DecidableEq

/-- The methods called by `EVP_DigestInit_ex` after the data are there. -/
def initAt (m : MdMem) (h : Heap MdBlock) (i p : Nat) (k : MdKind) : Option (MdMem × MdRet) :=
  (mdInit h p k).map fun h => (m.set h i ⟨some k, some p, false⟩, ⟨1, []⟩)

/-- `EVP_MD_CTX_copy_ex` after the destination was reset: its data are `tmp`, if kept. -/
def copyInto (m : MdMem) (h : Heap MdBlock) (dst : Nat) (e : EvpMd) (tmp : Option Nat) (ok : Bool) : Option (MdMem × MdRet) :=
  match e.md with
  | none => some (m.set h dst { e with md := none }, ⟨1, []⟩)
  | some q =>
    match h.obj q with
    | none => none
    | some blk =>
      match tmp with
      | some p => some (m.set (mdCopy (h.write p blk) p blk) dst { e with md := some p }, ⟨1, []⟩)
      | none =>
        if ok then some (m.set (mdCopy (h.alloc blk).1 (h.alloc blk).2 blk) dst { e with md := some (h.alloc blk).2 }, ⟨1, []⟩)
        else some (m.set h dst { e with md := none }, ⟨0, []⟩)

/-- One call. -/
def dhStep (rng : Nat → Fin 8 → W32) (b : SbBuild) (m : MdMem) : DhOp → Option (MdMem × MdRet)
  | .init i k ok =>
    if (m.ctx i).digest = some k then
      match (m.ctx i).md with
      | none => none
      | some p => initAt m m.h i p k
    else
      match cleanupOld rng m.h { m.ctx i with cleaned := false } false with
      | none => none
      | some h =>
        if ok then initAt m (h.alloc (zeroBlock rng k)).1 i (h.alloc (zeroBlock rng k)).2 k
        else some (m.set h i ⟨some k, none, false⟩, ⟨0, []⟩)
  | .update i d =>
    if d = [] then some (m, ⟨1, []⟩)
    else
      match (m.ctx i).md with
      | none => none
      | some p => (mdUpdate b m.h p d).map fun r => (m.set r.1 i (m.ctx i), ⟨r.2, []⟩)
  | .final i =>
    match (m.ctx i).digest, (m.ctx i).md with
    | some k, some p =>
      match mdFinal b m.h p with
      | none => none
      | some r => (mdCleanup rng r.1 (some p) k).map fun h => (m.set h i ⟨some k, some p, true⟩, ⟨r.2.1, r.2.2⟩)
    | _, _ => none
  | .copy dst src ok =>
    match (m.ctx src).digest with
    | none => some (m, ⟨0, []⟩)
    | some k =>
      if (m.ctx dst).digest = some k then
        match cleanupOld rng m.h (m.ctx dst) true with
        | none => none
        | some h => copyInto m h dst (m.ctx src) (m.ctx dst).md ok
      else
        match cleanupOld rng m.h (m.ctx dst) false with
        | none => none
        | some h => copyInto m h dst (m.ctx src) none ok
  | .reset i => (cleanupOld rng m.h (m.ctx i) false).map fun h => (m.set h i .empty, ⟨1, []⟩)

/-- A history of calls: the memory at the end and what the calls returned. -/
def dhRun (rng : Nat → Fin 8 → W32) (b : SbBuild) : MdMem → List DhOp → Option (MdMem × List MdRet)
  | m, [] => some (m, [])
  | m, o :: os =>
    match dhStep rng b m o with
    | none => none
    | some r => (dhRun rng b r.1 os).map fun t => (t.1, r.2 :: t.2)

end Gost
