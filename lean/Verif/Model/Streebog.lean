import Verif.Model.StreebogTables
import Verif.Model.Loops
import Verif.Model.GF
import Verif.Model.StreebogBE

/-!
# Streebog (GOST R 34.11-2012)

`/repo/gosthash2012.c`, `/repo/gosthash2012_ref.h`, `/repo/gosthash2012_sse2.h`, `/repo/gost_md2012.c`.
`union uint512_u` is the 64 bytes it occupies; `QWORD[i]` is the little-endian read of the bytes `8i..8i+7` (the
big-endian core is in `StreebogBE`).
-/

namespace Gost

/-- `u->QWORD[i]` (`/repo/gosthash2012.h` lines 57-60). -/
def qword (u : Bytes) (i : Nat) : W64 := ldLE64 ((u.drop (8 * i)).take 8)

/-- A `union uint512_u` with the given `QWORD`s. -/
def ofQwords (q : List W64) : Bytes := q.flatMap stLE64

/-- `Ax[j][x]` (`/repo/gosthash2012_precalc.h`). -/
def Ax (j : Nat) (x : Byte) : W64 := BitVec.ofNat 64 (Ax_rows j >>> (64 * x.toNat))

/-- `C[i]` (`/repo/gosthash2012_const.h` lines 31-141). -/
def streebogConst (i : Nat) : Bytes := ofQwords (streebogC.getD i [])

/-- `buffer0`, `/repo/gosthash2012_const.h` lines 11-14. -/
def buffer0 : Bytes := ofQwords [0, 0, 0, 0, 0, 0, 0, 0]

/-- `buffer512`, `/repo/gosthash2012_const.h` lines 17-21. -/
def buffer512 : Bytes := ofQwords [0x200, 0, 0, 0, 0, 0, 0, 0]

/-! ## Portable core, `/repo/gosthash2012_ref.h` -/

/-- The macro `X`, `/repo/gosthash2012_ref.h` lines 15-24. -/
def X512 (x y : Bytes) : Bytes := ofQwords ((List.range 8).map fun i => qword x i ^^^ qword y i)

/-- One value of `data->QWORD[_i]` in `XLPS`, lines 48-55: `r` are the registers `r0..r7`. -/
def xlpsRow (r : List W64) : W64 :=
  (List.range 8).foldl (fun acc j => acc ^^^ Ax j ((r.getD j 0 &&& 0xFF#64).setWidth 8)) 0

/-- `n` iterations of the loop of `XLPS`, lines 47-64: a row, then `r >>= 8` in all registers. -/
def xlpsLoop : Nat → List W64 → List W64
  | 0, _ => []
  | n + 1, r => xlpsRow r :: xlpsLoop n (r.map fun (w : W64) => w >>> (8 : Nat))

/-- The macro `XLPS`, `/repo/gosthash2012_ref.h` lines 33-65: the new value of `data` (the registers are loaded
before anything is stored, so `data` may be `x` or `y`). -/
def XLPS (x y : Bytes) : Bytes :=
  ofQwords (xlpsLoop 8 ((List.range 8).map fun i => qword x i ^^^ qword y i))

/-- The macro `ROUND`, `/repo/gosthash2012_ref.h` lines 67-70; state `(Ki, data)`. -/
def streebogRound (s : Bytes × Bytes) (i : Nat) : Bytes × Bytes :=
  let Ki := XLPS s.1 (streebogConst i)
  (Ki, XLPS Ki s.2)

/-- `g`, the portable branch, `/repo/gosthash2012.c` lines 142-161: the new value of `h`. -/
def gRef (h N m : Bytes) : Bytes :=
  let data := XLPS h N
  let Ki := data
  let data := XLPS Ki m
  let s := (List.range 11).foldl streebogRound (Ki, data)
  let Ki := XLPS s.1 (streebogConst 11)
  let data := X512 Ki s.2
  let data := X512 data h
  X512 data m

/-! ## SSE2 core, `/repo/gosthash2012_sse2.h` (64-bit variant) -/

/-- An SSE register. -/
abbrev M128 := BitVec 128

/-- Four registers. -/
structure Xmm4 where
  a : M128
  b : M128
  c : M128
  d : M128

/-- `_mm_load_si128` / `_mm_loadu_si128` / `_mm_lddqu_si128` of the `k`-th 16 bytes. -/
def mmLoad (p : Bytes) (k : Nat) : M128 := qword p (2 * k + 1) ++ qword p (2 * k)

/-- `LOAD`/`ULOAD`, lines 46-71. -/
def mmLoad4 (p : Bytes) : Xmm4 := ⟨mmLoad p 0, mmLoad p 1, mmLoad p 2, mmLoad p 3⟩

/-- The two 64-bit stores `_mm_store_si128` consists of. -/
def mmBytes (x : M128) : Bytes := stLE64 (x.setWidth 64) ++ stLE64 ((x >>> 64).setWidth 64)

/-- `STORE`, lines 73-79. -/
def mmStore4 (x : Xmm4) : Bytes := mmBytes x.a ++ mmBytes x.b ++ mmBytes x.c ++ mmBytes x.d

/-- `X128R`, lines 81-86 (and `X128M`, lines 88-94, with the second operand in memory). -/
def x128 (x y : Xmm4) : Xmm4 := ⟨x.a ^^^ y.a, x.b ^^^ y.b, x.c ^^^ y.c, x.d ^^^ y.d⟩

/-- `(unsigned short) _mm_extract_epi16(x, k)`. -/
def mmExtract16 (x : M128) (k : Nat) : BitVec 16 := (x >>> (16 * k)).setWidth 16

/-- The macro `LO`, line 21. -/
def lo16 (v : BitVec 16) : Byte := v.setWidth 8

/-- The macro `HI`, line 22. -/
def hi16 (v : BitVec 16) : Byte := (v.setWidth 32 >>> 8).setWidth 8

/-- `EXTRACT64`, lines 137-177; `_mm_unpacklo_epi64` puts `r1` into the upper half. -/
def mmExtract (row : Nat) (x : Xmm4) : M128 :=
  let a0 := mmExtract16 x.a (row + 0)
  let a1 := mmExtract16 x.a (row + 4)
  let a2 := mmExtract16 x.b (row + 0)
  let a3 := mmExtract16 x.b (row + 4)
  let a4 := mmExtract16 x.c (row + 0)
  let a5 := mmExtract16 x.c (row + 4)
  let a6 := mmExtract16 x.d (row + 0)
  let a7 := mmExtract16 x.d (row + 4)
  let r0 := Ax 0 (lo16 a0) ^^^ Ax 1 (lo16 a1) ^^^ Ax 2 (lo16 a2) ^^^ Ax 3 (lo16 a3) ^^^
    Ax 4 (lo16 a4) ^^^ Ax 5 (lo16 a5) ^^^ Ax 6 (lo16 a6) ^^^ Ax 7 (lo16 a7)
  let r1 := Ax 0 (hi16 a0) ^^^ Ax 1 (hi16 a1) ^^^ Ax 2 (hi16 a2) ^^^ Ax 3 (hi16 a3) ^^^
    Ax 4 (hi16 a4) ^^^ Ax 5 (hi16 a5) ^^^ Ax 6 (hi16 a6) ^^^ Ax 7 (hi16 a7)
  r1 ++ r0

/-- The four `EXTRACT`s of `XLPS128M`/`XLPS128R`, lines 183-191 and 198-206. -/
def mmExtract4 (x : Xmm4) : Xmm4 := ⟨mmExtract 0 x, mmExtract 1 x, mmExtract 2 x, mmExtract 3 x⟩

/-- `XLPS128M`, lines 179-192, and `XLPS128R`, lines 194-207. -/
def xlps128 (x y : Xmm4) : Xmm4 := mmExtract4 (x128 x y)

/-- `ROUND128`, lines 209-212; state (key registers, data registers). -/
def round128 (s : Xmm4 × Xmm4) (i : Nat) : Xmm4 × Xmm4 :=
  let k := xlps128 s.1 (mmLoad4 (streebogConst i))
  (k, xlps128 s.2 k)

/-- `g`, the SSE2 branch, `/repo/gosthash2012.c` lines 116-141. -/
def gSse2 (h N m : Bytes) : Bytes :=
  let k := mmLoad4 N
  let k := xlps128 k (mmLoad4 h)
  let d := mmLoad4 m
  let d := xlps128 d k
  let s := (List.range 11).foldl round128 (k, d)
  let k := xlps128 s.1 (mmLoad4 (streebogConst 11))
  let k := x128 k s.2
  let k := x128 k (mmLoad4 h)
  let d := mmLoad4 m
  mmStore4 (x128 k d)

/-! ### The 32-bit variant of the SSE2 core -/

/-- One pair of lines of `EXTRACT32`, `/repo/gosthash2012_sse2.h` lines 106-132: `mm0`, `mm1` after the lookups of `ax`. -/
def mmPair (j : Nat) (mm : W64 × W64) (ax : BitVec 16) : W64 × W64 :=
  (mm.1 ^^^ Ax j (lo16 ax), mm.2 ^^^ Ax j (hi16 ax))

/-- `EXTRACT32`, lines 98-135; `_mm_set_epi64(mm1, mm0)` puts `mm1` into the upper half. -/
def mmExtract32 (row : Nat) (x : Xmm4) : M128 :=
  let ax := mmExtract16 x.a (row + 0)
  let mm := (Ax 0 (lo16 ax), Ax 0 (hi16 ax))
  let mm := mmPair 1 mm (mmExtract16 x.a (row + 4))
  let mm := mmPair 2 mm (mmExtract16 x.b (row + 0))
  let mm := mmPair 3 mm (mmExtract16 x.b (row + 4))
  let mm := mmPair 4 mm (mmExtract16 x.c (row + 0))
  let mm := mmPair 5 mm (mmExtract16 x.c (row + 4))
  let mm := mmPair 6 mm (mmExtract16 x.d (row + 0))
  let mm := mmPair 7 mm (mmExtract16 x.d (row + 4))
  mm.2 ++ mm.1

/-- `XLPS128M`/`XLPS128R` with `EXTRACT` being `EXTRACT32` (lines 24-28, 179-207). -/
def xlps128_32 (x y : Xmm4) : Xmm4 :=
  let z := x128 x y
  ⟨mmExtract32 0 z, mmExtract32 1 z, mmExtract32 2 z, mmExtract32 3 z⟩

/-- `ROUND128`, lines 209-212, on a 32-bit x86; state (key registers, data registers). -/
def round128_32 (s : Xmm4 × Xmm4) (i : Nat) : Xmm4 × Xmm4 :=
  let k := xlps128_32 s.1 (mmLoad4 (streebogConst i))
  (k, xlps128_32 s.2 k)

/-- `g`, the SSE2 branch, `/repo/gosthash2012.c` lines 116-141, on a 32-bit x86.  (That `_mm_empty` is not called there,
lines 136-140, although `EXTRACT32` uses the MMX registers, is outside the model.) -/
def gSse2_32 (h N m : Bytes) : Bytes :=
  let k := mmLoad4 N
  let k := xlps128_32 k (mmLoad4 h)
  let d := mmLoad4 m
  let d := xlps128_32 d k
  let s := (List.range 11).foldl round128_32 (k, d)
  let k := xlps128_32 s.1 (mmLoad4 (streebogConst 11))
  let k := x128 k s.2
  let k := x128 k (mmLoad4 h)
  let d := mmLoad4 m
  mmStore4 (x128 k d)

/-! ## 512-bit addition -/

/-- One step of the portable loop of `add512`, `/repo/gosthash2012.c` lines 73-92: returns the new carry and
`x->QWORD[i]`. -/
def addStep (CF : W64) (left y : W64) : W64 × W64 :=
  let sum := left + y + CF
  let CF := if sum ≠ left then (if sum < left then 1 else 0) else CF
  (CF, sum)

/-- The loop of `add512` over the `QWORD`s, for a given step. -/
def addLoop (step : W64 → W64 → W64 → W64 × W64) : W64 → List W64 → List W64 → List W64
  | CF, l :: ls, y :: ys => let r := step CF l y; r.2 :: addLoop step r.1 ls ys
  | _, _, _ => []

/-- `add512`, portable branch, `/repo/gosthash2012.c` lines 66-93: the new value of `x`. -/
def add512 (x y : Bytes) : Bytes :=
  ofQwords (addLoop addStep 0 ((List.range 8).map (qword x)) ((List.range 8).map (qword y)))

/-- `_addcarry_u64(c, a, b, &out)`: the sum of 65 bits. -/
def adcStep (CF : W64) (a b : W64) : W64 × W64 :=
  let s := a.setWidth 65 + b.setWidth 65 + CF.setWidth 65
  (if s.getLsbD 64 then 1 else 0, s.setWidth 64)

/-- `add512` with `HAVE_ADDCARRY_U64`, `/repo/gosthash2012.c` lines 69-71. -/
def add512Adc (x y : Bytes) : Bytes :=
  ofQwords (addLoop adcStep 0 ((List.range 8).map (qword x)) ((List.range 8).map (qword y)))

/-- `add512` on a big-endian platform, `/repo/gosthash2012.c` lines 95-109: `buf` is an `int`, at most
`255 + 255 + 1`. -/
def add512Bytes : Nat → Bytes → Bytes → Bytes
  | buf, x :: xs, y :: ys =>
    let buf := x.toNat + y.toNat + (buf >>> 8)
    BitVec.ofNat 8 (buf &&& 0xFF) :: add512Bytes buf xs ys
  | _, _, _ => []

/-! ## The hash context -/

/-- The compile-time choices: SSE2 or portable `g` (with SSE2: 32-bit or 64-bit x86), `_addcarry_u64` or portable
addition, a big-endian host (`/repo/gosthash2012.h` lines 10-42, `/repo/gosthash2012.c` lines 66-110; SSE2 implies a
little-endian host, so the other choices do not matter for a big-endian one). -/
structure SbBuild where
  sse2 : Bool
  adc : Bool
  i386 : Bool
  bigEndian : Bool

/-- `g` as compiled. -/
def SbBuild.g (b : SbBuild) : Bytes → Bytes → Bytes → Bytes :=
  if b.bigEndian then gRefBE else if b.sse2 then (if b.i386 then gSse2_32 else gSse2) else gRef

/-- `add512` as compiled. -/
def SbBuild.add (b : SbBuild) : Bytes → Bytes → Bytes :=
  if b.bigEndian then add512Bytes 0 else if b.adc then add512Adc else add512

/-- `buffer0` as compiled. -/
def SbBuild.buffer0 (b : SbBuild) : Bytes := if b.bigEndian then buffer0BE else Gost.buffer0

/-- `buffer512` as compiled. -/
def SbBuild.buffer512 (b : SbBuild) : Bytes := if b.bigEndian then buffer512BE else Gost.buffer512

/-- `CTX->buffer.QWORD[0] = CTX->bufsize << 3`, or with `BSWAP64` on a big-endian host, `/repo/gosthash2012.c` lines
180-184: the eight bytes. -/
def SbBuild.sizeWord (b : SbBuild) (bufsize : Nat) : Bytes :=
  if b.bigEndian then stBE64 (BSWAP64 (BitVec.ofNat 64 bufsize <<< 3)) else stLE64 (BitVec.ofNat 64 bufsize <<< 3)

/-- `gost2012_hash_ctx`, `/repo/gosthash2012.h` lines 66-73. -/
structure SbCtx where
  buffer : Bytes
  h : Bytes
  N : Bytes
  Sigma : Bytes
  bufsize : Nat
  digest_size : Nat

/-- `init_gost2012_hash_ctx`, `/repo/gosthash2012.c` lines 39-54 (`memset` sets everything, so the old context
does not matter). -/
def init_gost2012_hash_ctx (digest_size : Nat) : SbCtx :=
  { buffer := zeros 64
    h := if digest_size = 256 then List.replicate 64 1 else zeros 64
    N := zeros 64, Sigma := zeros 64, bufsize := 0, digest_size := digest_size }

/-- `pad`, `/repo/gosthash2012.c` lines 56-61. -/
def sbPad (c : SbCtx) : SbCtx :=
  { c with buffer := (c.buffer.take c.bufsize ++ zeros (64 - c.bufsize)).set c.bufsize 1 }

/-- `stage2`, `/repo/gosthash2012.c` lines 165-171; `data` is always `CTX->buffer`. -/
def stage2 (b : SbBuild) (c : SbCtx) : SbCtx :=
  { c with h := b.g c.h c.N c.buffer, N := b.add c.N b.buffer512, Sigma := b.add c.Sigma c.buffer }

/-- `stage3`, `/repo/gosthash2012.c` lines 173-189. -/
def stage3 (b : SbBuild) (c : SbCtx) : SbCtx :=
  let c := sbPad c
  let c := { c with h := b.g c.h c.N c.buffer }
  let c := { c with Sigma := b.add c.Sigma c.buffer }
  let c := { c with buffer := b.sizeWord c.bufsize ++ zeros 56 }
  let c := { c with N := b.add c.N c.buffer }
  let c := { c with h := b.g c.h b.buffer0 c.N }
  { c with h := b.g c.h b.buffer0 c.Sigma }

/-- Body of the first loop of `gost2012_hash_block`, `/repo/gosthash2012.c` lines 201-204. -/
def sbFull (b : SbBuild) (c : SbCtx) (blk : Bytes) : SbCtx × Bytes := (stage2 b { c with buffer := blk }, [])

/-- The second loop of `gost2012_hash_block`, `/repo/gosthash2012.c` lines 209-224; the local `bufsize` is below 64
throughout (the else branch is the end of the loop). -/
def sbRest (b : SbBuild) (c : SbCtx) (bufsize : Nat) (data : Bytes) : SbCtx × Nat :=
  if _h : data ≠ [] ∧ bufsize < 64 then
    let chunksize := if 64 - bufsize > data.length then data.length else 64 - bufsize
    let c := { c with buffer := c.buffer.take bufsize ++ data.take chunksize ++ c.buffer.drop (bufsize + chunksize) }
    let bufsize := bufsize + chunksize
    if bufsize = 64 then sbRest b (stage2 b c) 0 (data.drop chunksize)
    else sbRest b c bufsize (data.drop chunksize)
  else (c, bufsize)
termination_by data.length
decreasing_by
  all_goals
    have := List.length_pos_iff.mpr _h.1
    simp only [List.length_drop]
    split <;> omega

/-- `gost2012_hash_block`, `/repo/gosthash2012.c` lines 195-226 (`gost_digest_update`, `/repo/gost_md2012.c`
lines 73-78). -/
def gost2012_hash_block (b : SbBuild) (c : SbCtx) (data : Bytes) : SbCtx :=
  let bufsize := c.bufsize
  let r := if bufsize = 0 then whileBlocks 64 (sbFull b) c data else (c, [], data)
  let t := sbRest b r.1 bufsize r.2.2
  { t.1 with bufsize := t.2 }

/-- `gost2012_finish_hash`, `/repo/gosthash2012.c` lines 233-243: the context and the digest. -/
def gost2012_finish_hash (b : SbBuild) (c : SbCtx) : SbCtx × Bytes :=
  let c := stage3 b c
  let c := { c with bufsize := 0 }
  (c, if c.digest_size = 256 then (c.h.drop 32).take 32 else c.h.take 64)

end Gost
