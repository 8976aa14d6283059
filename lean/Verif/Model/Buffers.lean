import Verif.Model.GostModes
import Verif.Model.KuzModes
import Verif.Model.Mgm
import Verif.Model.AcpkmOmac

/-!
# The cipher callbacks on memory

`Model/GostModes.lean`, `Model/KuzModes.lean`, `Model/Mgm.lean` and `Model/AcpkmOmac.lean` describe the callbacks as functions from input
bytes to output bytes.  Here the same C functions are written with their two pointers: they read the caller's memory through `in` and
write it through `out`, statement by statement and (in the byte loops) byte by byte, so that it matters in which order a byte is read and
overwritten when the two pointers are equal.

The memory is a map from addresses to bytes; addresses do not wrap around.  The cipher context (IV, gamma, stash, keys) and the local
variables lie outside the two buffers.
-/

namespace Gost

/-- The caller's memory. -/
abbrev BMem := Nat → Byte

/-- `n` bytes starting at `a`. -/
def memRd (m : BMem) (a n : Nat) : Bytes := (List.range n).map fun k => m (a + k)

/-- `*a = x`. -/
def memSet (m : BMem) (a : Nat) (x : Byte) : BMem := fun y => if y = a then x else m y

/-- `memcpy(a, bs, length of bs)` from outside the memory. -/
def memWr (m : BMem) (a : Nat) (bs : Bytes) : BMem := fun y => if a ≤ y ∧ y < a + bs.length then at_ bs (y - a) else m y

/-- `for (; j < j + n; j++) out[j] = buf[j] ^ in[j]`, `n` turns starting with `j`. -/
def memXorFrom (buf : Bytes) (i o : Nat) : BMem → Nat → Nat → BMem
  | m, _, 0 => m
  | m, j, n + 1 => memXorFrom buf i o (memSet m (o + j) (at_ buf j ^^^ m (i + j))) (j + 1) n

/-- `for (j = 0; j < n; j++) out[j] = buf[j] ^ in[j]`. -/
def memXor (buf : Bytes) (m : BMem) (i o n : Nat) : BMem := memXorFrom buf i o m 0 n

/-- Where a loop stopped: state, memory, the two pointers and the number of bytes left. -/
structure MemAt (S : Type) where
  s : S
  m : BMem
  i : Nat
  o : Nat
  n : Nat

/-- A loop over whole blocks advancing both pointers. -/
def memBlocks {S : Type} (bl : Nat) (body : S → BMem → Nat → Nat → S × BMem) (s : S) (m : BMem) (i o n : Nat) : MemAt S :=
  if _h : 0 < bl ∧ bl ≤ n then
    let r := body s m i o
    memBlocks bl body r.1 r.2 (i + bl) (o + bl) (n - bl)
  else ⟨s, m, i, o, n⟩
termination_by n
decreasing_by omega

/-- The same while more than a block is left (`i + bl < inl`). -/
def memBlocksLt {S : Type} (bl : Nat) (body : S → BMem → Nat → Nat → S × BMem) (s : S) (m : BMem) (i o n : Nat) : MemAt S :=
  if _h : 0 < bl ∧ bl < n then
    let r := body s m i o
    memBlocksLt bl body r.1 r.2 (i + bl) (o + bl) (n - bl)
  else ⟨s, m, i, o, n⟩
termination_by n
decreasing_by omega

/-- `for (j = num, i = 0; j < bl && i < inl; j++, i++, in++, out++) *out = buf[j] ^ *in`
(`/repo/gost_crypt.c` lines 1029-1032, `/repo/gost_grasshopper_cipher.c` lines 832-835); the state is `j`. -/
def memXorPart (bl : Nat) (buf : Bytes) : Nat → BMem → Nat → Nat → Nat → MemAt Nat
  | j, m, i, o, 0 => ⟨j, m, i, o, 0⟩
  | j, m, i, o, n + 1 =>
    if j < bl then memXorPart bl buf (j + 1) (memSet m o (at_ buf j ^^^ m i)) (i + 1) (o + 1) n
    else ⟨j, m, i, o, n + 1⟩

/-- `while ((num & mask) && lasted)` of the CTR functions (`/repo/gost_crypt.c` lines 837-841,
`/repo/gost_grasshopper_cipher.c` lines 619-623, 683-687): `pos` is the position in the gamma block, `next` the new counter; the state is the
counter. -/
def memCtrPart (pos next : Nat → Nat) (buf : Bytes) : Nat → BMem → Nat → Nat → Nat → MemAt Nat
  | num, m, i, o, 0 => ⟨num, m, i, o, 0⟩
  | num, m, i, o, n + 1 =>
    if pos num ≠ 0 then memCtrPart pos next buf (next num) (memSet m o (m i ^^^ at_ buf (pos num))) (i + 1) (o + 1) n
    else ⟨num, m, i, o, n + 1⟩

/-- The partial-block loop of the CFB functions (`/repo/gost_crypt.c` lines 962-969, `/repo/gost_grasshopper_cipher.c` lines 897-907): when
decrypting the input byte is kept before the output byte is written, when encrypting the output byte is read back.  The state is `j` and
the stash. -/
def memCfbPart (bl : Nat) (enc : Bool) (buf : Bytes) : Nat → Bytes → BMem → Nat → Nat → Nat → MemAt (Nat × Bytes)
  | j, stash, m, i, o, 0 => ⟨(j, stash), m, i, o, 0⟩
  | j, stash, m, i, o, n + 1 =>
    if j < bl then
      let stash := if enc then stash else stash.set j (m i)
      let m := memSet m o (at_ buf j ^^^ m i)
      let stash := if enc then stash.set j (m o) else stash
      memCfbPart bl enc buf (j + 1) stash m (i + 1) (o + 1) n
    else ⟨(j, stash), m, i, o, n + 1⟩

/-! ## GOST 28147-89 and Magma, `/repo/gost_crypt.c` -/

/-- Loop body of `gost_cipher_do_cbc`, `/repo/gost_crypt.c` lines 715-740. `gostcrypt` and `gostdecrypt` read their eight input bytes into two
words before they write (`/repo/gost89.c` lines 281-282). -/
def cbcBodyM (e : CipherCtx) (m : BMem) (i o : Nat) : CipherCtx × BMem :=
  if e.encrypting then
    let b := xorB e.iv (memRd m i 8)
    let m := memWr m o (gostcrypt e.cctx b)
    ({ e with iv := memRd m o 8 }, m)
  else
    let b := gostdecrypt e.cctx (memRd m i 8)
    let tmpiv := memRd m i 8
    let m := memWr m o (xorB e.iv b)
    ({ e with iv := tmpiv }, m)

/-- `gost_cipher_do_cbc`, `/repo/gost_crypt.c` lines 706-742; `n` is a multiple of 8. -/
def gost_cipher_do_cbcM (e : CipherCtx) (m : BMem) (i o n : Nat) : CipherCtx × BMem :=
  let r := memBlocks 8 cbcBodyM e m i o n
  (r.s, r.m)

/-- Loop body of `magma_cipher_do_ecb`, `/repo/gost_crypt.c` lines 745-765. -/
def magmaEcbBodyM (e : CipherCtx) (m : BMem) (i o : Nat) : CipherCtx × BMem :=
  if e.encrypting then (e, memWr m o (magmacrypt e.cctx (memRd m i 8))) else (e, memWr m o (magmadecrypt e.cctx (memRd m i 8)))

/-- `magma_cipher_do_ecb`, `/repo/gost_crypt.c` lines 745-765. -/
def magma_cipher_do_ecbM (e : CipherCtx) (m : BMem) (i o n : Nat) : CipherCtx × BMem :=
  let r := memBlocks 8 magmaEcbBodyM e m i o n
  (r.s, r.m)

/-- Loop body of `magma_cipher_do_cbc`, `/repo/gost_crypt.c` lines 779-803: encryption forms the sum in the output buffer and encrypts
it there. -/
def magmaCbcBodyM (e : CipherCtx) (m : BMem) (i o : Nat) : CipherCtx × BMem :=
  if e.encrypting then
    let m := memXor e.iv m i o 8
    let m := memWr m o (magmacrypt e.cctx (memRd m o 8))
    ({ e with iv := memRd m o 8 }, m)
  else
    let b := magmadecrypt e.cctx (memRd m i 8)
    let d := memRd m i 8
    let m := memWr m o (xorB e.iv b)
    ({ e with iv := d }, m)

/-- `magma_cipher_do_cbc`, `/repo/gost_crypt.c` lines 768-805. -/
def magma_cipher_do_cbcM (e : CipherCtx) (m : BMem) (i o n : Nat) : CipherCtx × BMem :=
  let r := memBlocks 8 magmaCbcBodyM e m i o n
  (r.s, r.m)

/-- Loop body of `magma_cipher_do_ctr`, `/repo/gost_crypt.c` lines 844-857. -/
def magmaCtrBodyM (e : CipherCtx) (m : BMem) (i o : Nat) : CipherCtx × BMem :=
  let e := magmaCtrGamma e
  ({ e with num := (e.num + 8) % 2^32 }, memXor e.buf m i o 8)

/-- The tail of `magma_cipher_do_ctr`, `/repo/gost_crypt.c` lines 860-869. -/
def magmaCtrTailM (r : MemAt CipherCtx) : CipherCtx × BMem :=
  if 0 < r.n then
    let e := magmaCtrGamma r.s
    ({ e with num := (e.num + r.n) % 2^32 }, memXor e.buf r.m r.i r.o r.n)
  else (r.s, r.m)

/-- `magma_cipher_do_ctr`, `/repo/gost_crypt.c` lines 825-873. -/
def magma_cipher_do_ctrM (e : CipherCtx) (m : BMem) (i o n : Nat) : CipherCtx × BMem :=
  let p := memCtrPart (· % 8) (fun k => (k + 1) % 2^32) e.buf e.num m i o n
  magmaCtrTailM (memBlocks 8 magmaCtrBodyM { e with num := p.s } p.m p.i p.o p.n)

/-- `magma_cipher_do_ctr_acpkm_omac` with data, `/repo/gost_crypt.c` lines 875-899: the digest is given the input before, or the output
after, `magma_cipher_do_ctr`. -/
def magma_cipher_do_ctr_acpkm_omacM (a : AoCtx CipherCtx) (m : BMem) (i o n : Nat) : Option (AoCtx CipherCtx × BMem) :=
  match a.omac_ctx with
  | none => none
  | some s =>
    let enc := a.c.encrypting
    let s := if enc then (s.update (memRd m i n)).1 else s
    let r := magma_cipher_do_ctrM a.c m i o n
    let s := if enc then s else (s.update (memRd r.2 o n)).1
    some ({ a with c := r.1, omac_ctx := some s }, r.2)

/-- Loop body for whole blocks in `gost_cipher_do_cfb`, `/repo/gost_crypt.c` lines 979-998. -/
def cfbBodyM (e : CipherCtx) (m : BMem) (i o : Nat) : CipherCtx × BMem :=
  let e := gost_crypt_mesh e
  let enc := e.encrypting
  let e := if enc then e else { e with iv := memRd m i 8 }
  let m := memXor e.buf m i o 8
  (if enc then { e with iv := memRd m o 8 } else e, m)

/-- The tail of `gost_cipher_do_cfb`, `/repo/gost_crypt.c` lines 1000-1014. -/
def cfbTailM (r : MemAt CipherCtx) : CipherCtx × BMem :=
  if 0 < r.n then
    let e := gost_crypt_mesh r.s
    let enc := e.encrypting
    let e := if enc then e else { e with stash := memcpy e.stash (memRd r.m r.i r.n) r.n }
    let m := memXor e.buf r.m r.i r.o r.n
    let e := { e with num := r.n }
    (if enc then { e with stash := memcpy e.stash (memRd m r.o r.n) r.n } else e, m)
  else ({ r.s with num := 0 }, r.m)

/-- Lines 979-1014 of `gost_cipher_do_cfb`. -/
def cfbMainM (e : CipherCtx) (m : BMem) (i o n : Nat) : CipherCtx × BMem := cfbTailM (memBlocks 8 cfbBodyM e m i o n)

/-- `gost_cipher_do_cfb`, `/repo/gost_crypt.c` lines 952-1016. -/
def gost_cipher_do_cfbM (e : CipherCtx) (m : BMem) (i o n : Nat) : CipherCtx × BMem :=
  if e.num ≠ 0 then
    let p := memCfbPart 8 e.encrypting e.buf e.num e.stash m i o n
    let e := { e with stash := p.s.2 }
    if p.s.1 = 8 then cfbMainM { e with iv := e.stash, num := 0 } p.m p.i p.o p.n
    else ({ e with num := p.s.1 }, p.m)
  else cfbMainM e m i o n

/-- Loop body for whole blocks in `gost_cipher_do_cnt`, `/repo/gost_crypt.c` lines 1040-1055. -/
def cntBodyM (e : CipherCtx) (m : BMem) (i o : Nat) : CipherCtx × BMem :=
  let e := gost_cnt_next e
  (e, memXor e.buf m i o 8)

/-- The tail of `gost_cipher_do_cnt`, `/repo/gost_crypt.c` lines 1056-1066. -/
def cntTailM (r : MemAt CipherCtx) : CipherCtx × BMem :=
  if 0 < r.n then
    let e := gost_cnt_next r.s
    ({ e with num := r.n }, memXor e.buf r.m r.i r.o r.n)
  else ({ r.s with num := 0 }, r.m)

/-- Lines 1040-1066 of `gost_cipher_do_cnt`. -/
def cntMainM (e : CipherCtx) (m : BMem) (i o n : Nat) : CipherCtx × BMem := cntTailM (memBlocks 8 cntBodyM e m i o n)

/-- `gost_cipher_do_cnt`, `/repo/gost_crypt.c` lines 1018-1068. -/
def gost_cipher_do_cntM (e : CipherCtx) (m : BMem) (i o n : Nat) : CipherCtx × BMem :=
  if e.num ≠ 0 then
    let p := memXorPart 8 e.buf e.num m i o n
    if p.s = 8 then cntMainM { e with num := 0 } p.m p.i p.o p.n
    else ({ e with num := p.s }, p.m)
  else cntMainM e m i o n

/-! ## Kuznyechik, `/repo/gost_grasshopper_cipher.c` -/

/-- `grasshopper_append128(x, y)` with `x` in the memory: `*x ^= *y`, `/repo/gost_grasshopper_math.h`. -/
def memAppend128 (m : BMem) (a : Nat) (y : Bytes) : BMem := memWr m a (xorB (memRd m a 16) y)

/-- Loop body of `gost_grasshopper_cipher_do_ecb`, `/repo/gost_grasshopper_cipher.c` lines 522-536.  The block functions copy the source to
the target first and then work on the target only (`/repo/gost_grasshopper_core.c` lines 102-130). -/
def kEcbBodyM (c : KCtx) (m : BMem) (i o : Nat) : KCtx × BMem :=
  if c.encrypting then (c, memWr m o (grasshopper_encrypt_block c.encrypt_round_keys (memRd m i 16)))
  else (c, memWr m o (grasshopper_decrypt_block c.decrypt_round_keys (memRd m i 16)))

/-- `gost_grasshopper_cipher_do_ecb`, `/repo/gost_grasshopper_cipher.c` lines 511-539. -/
def gost_grasshopper_cipher_do_ecbM (c : KCtx) (m : BMem) (i o n : Nat) : KCtx × BMem :=
  let r := memBlocks 16 kEcbBodyM c m i o n
  (r.s, r.m)

/-- Loop body of `gost_grasshopper_cipher_do_cbc`, `/repo/gost_grasshopper_cipher.c` lines 556-576. -/
def kCbcBodyM (c : KCtx) (m : BMem) (i o : Nat) : KCtx × BMem :=
  if c.encrypting then
    let currentBlock := xorB c.iv (memRd m i 16)
    let m := memWr m o (grasshopper_encrypt_block c.encrypt_round_keys currentBlock)
    ({ c with iv := memRd m o 16 }, m)
  else
    let tmp := memRd m i 16
    let m := memWr m o (grasshopper_decrypt_block c.decrypt_round_keys (memRd m i 16))
    let m := memAppend128 m o c.iv
    ({ c with iv := tmp }, m)

/-- `gost_grasshopper_cipher_do_cbc`, `/repo/gost_grasshopper_cipher.c` lines 541-579. -/
def gost_grasshopper_cipher_do_cbcM (c : KCtx) (m : BMem) (i o n : Nat) : KCtx × BMem :=
  let r := memBlocks 16 kCbcBodyM c m i o n
  (r.s, r.m)

/-- Loop body of `gost_grasshopper_cipher_do_ctr`, `/repo/gost_grasshopper_cipher.c` lines 630-641: the sum is formed in `tmp`. -/
def kCtrBodyM (c : KCtx) (m : BMem) (i o : Nat) : KCtx × BMem :=
  let pb := grasshopper_encrypt_block c.encrypt_round_keys c.iv
  let tmp := xorB pb (memRd m i 16)
  ({ c with partial_buffer := pb, iv := inc_counter c.iv 16 }, memWr m o tmp)

/-- The tail of `gost_grasshopper_cipher_do_ctr`, `/repo/gost_grasshopper_cipher.c` lines 643-654. -/
def kCtrTailM (r : MemAt KCtx) : KCtx × BMem :=
  if 0 < r.n then
    let pb := grasshopper_encrypt_block r.s.encrypt_round_keys r.s.iv
    ({ r.s with partial_buffer := pb, num := r.n, iv := inc_counter r.s.iv 16 }, memXor pb r.m r.i r.o r.n)
  else (r.s, r.m)

/-- `gost_grasshopper_cipher_do_ctr`, `/repo/gost_grasshopper_cipher.c` lines 602-657. -/
def gost_grasshopper_cipher_do_ctrM (c : KCtx) (m : BMem) (i o n : Nat) : KCtx × BMem :=
  let p := memCtrPart id (fun k => (k + 1) % 16) c.partial_buffer c.num m i o n
  kCtrTailM (memBlocks 16 kCtrBodyM { c with num := p.s } p.m p.i p.o p.n)

/-- Loop body of `gost_grasshopper_cipher_do_ctracpkm`, `/repo/gost_grasshopper_cipher.c` lines 692-706. -/
def kAcpkmBodyM (c : KCtx) (m : BMem) (i o : Nat) : KCtx × BMem :=
  let c := kAcpkmGamma c
  let tmp := xorB c.partial_buffer (memRd m i 16)
  ({ c with num := (c.num + 16) % 2^32 }, memWr m o tmp)

/-- The tail of `gost_grasshopper_cipher_do_ctracpkm`, `/repo/gost_grasshopper_cipher.c` lines 709-718. -/
def kAcpkmTailM (r : MemAt KCtx) : KCtx × BMem :=
  if 0 < r.n then
    let c := kAcpkmGamma r.s
    ({ c with num := (c.num + r.n) % 2^32 }, memXor c.partial_buffer r.m r.i r.o r.n)
  else (r.s, r.m)

/-- `gost_grasshopper_cipher_do_ctracpkm`, `/repo/gost_grasshopper_cipher.c` lines 671-720. -/
def gost_grasshopper_cipher_do_ctracpkmM (c : KCtx) (m : BMem) (i o n : Nat) : KCtx × BMem :=
  let p := memCtrPart (· % 16) (fun k => (k + 1) % 2^32) c.partial_buffer c.num m i o n
  kAcpkmTailM (memBlocks 16 kAcpkmBodyM { c with num := p.s } p.m p.i p.o p.n)

/-- `gost_grasshopper_cipher_do_ctracpkm_omac` with data, `/repo/gost_grasshopper_cipher.c` lines 722-748. -/
def gost_grasshopper_cipher_do_ctracpkm_omacM (a : AoCtx KCtx) (m : BMem) (i o n : Nat) : Option (AoCtx KCtx × BMem) :=
  match a.omac_ctx with
  | none => none
  | some s =>
    let enc := a.c.encrypting
    let s := if enc then (s.update (memRd m i n)).1 else s
    let r := gost_grasshopper_cipher_do_ctracpkmM a.c m i o n
    let s := if enc then s else (s.update (memRd r.2 o n)).1
    some ({ a with c := r.1, omac_ctx := some s }, r.2)

/-- Loop body of `gost_grasshopper_cipher_do_ofb`, `/repo/gost_grasshopper_cipher.c` lines 845-864. -/
def kOfbBodyM (c : KCtx) (m : BMem) (i o : Nat) : KCtx × BMem :=
  let c := gost_grasshopper_cnt_next c
  (c, memXor c.buf m i o 16)

/-- The tail of `gost_grasshopper_cipher_do_ofb`, `/repo/gost_grasshopper_cipher.c` lines 866-876. -/
def kOfbTailM (r : MemAt KCtx) : KCtx × BMem :=
  if 0 < r.n then
    let c := gost_grasshopper_cnt_next r.s
    ({ c with num := r.n }, memXor c.buf r.m r.i r.o r.n)
  else ({ r.s with num := 0 }, r.m)

/-- Lines 845-877 of `gost_grasshopper_cipher_do_ofb`. -/
def kOfbMainM (c : KCtx) (m : BMem) (i o n : Nat) : KCtx × BMem := kOfbTailM (memBlocksLt 16 kOfbBodyM c m i o n)

/-- `gost_grasshopper_cipher_do_ofb`, `/repo/gost_grasshopper_cipher.c` lines 817-879. -/
def gost_grasshopper_cipher_do_ofbM (c : KCtx) (m : BMem) (i o n : Nat) : KCtx × BMem :=
  if c.num > 0 then
    let p := memXorPart 16 c.buf c.num m i o n
    if p.s = 16 then kOfbMainM { c with num := 0 } p.m p.i p.o p.n
    else ({ c with num := p.s }, p.m)
  else kOfbMainM c m i o n

/-- Loop body of `gost_grasshopper_cipher_do_cfb`, `/repo/gost_grasshopper_cipher.c` lines 917-943. -/
def kCfbBodyM (c : KCtx) (m : BMem) (i o : Nat) : KCtx × BMem :=
  let c := { c with buf := grasshopper_encrypt_block c.encrypt_round_keys c.iv }
  let enc := c.encrypting
  let c := if enc then c else { c with iv := memRd m i 16 }
  let m := memXor c.buf m i o 16
  (if enc then { c with iv := memRd m o 16 } else c, m)

/-- The tail of `gost_grasshopper_cipher_do_cfb`, `/repo/gost_grasshopper_cipher.c` lines 945-962. -/
def kCfbTailM (r : MemAt KCtx) : KCtx × BMem :=
  if 0 < r.n then
    let c := { r.s with buf := grasshopper_encrypt_block r.s.encrypt_round_keys r.s.iv }
    let enc := c.encrypting
    let c := if enc then c else { c with stash := memcpyTo c.stash (memRd r.m r.i r.n) r.n }
    let m := memXor c.buf r.m r.i r.o r.n
    let c := { c with num := r.n }
    (if enc then { c with stash := memcpyTo c.stash (memRd m r.o r.n) r.n } else c, m)
  else ({ r.s with num := 0 }, r.m)

/-- Lines 917-963 of `gost_grasshopper_cipher_do_cfb`. -/
def kCfbMainM (c : KCtx) (m : BMem) (i o n : Nat) : KCtx × BMem := kCfbTailM (memBlocksLt 16 kCfbBodyM c m i o n)

/-- `gost_grasshopper_cipher_do_cfb`, `/repo/gost_grasshopper_cipher.c` lines 881-965. -/
def gost_grasshopper_cipher_do_cfbM (c : KCtx) (m : BMem) (i o n : Nat) : KCtx × BMem :=
  if c.num > 0 then
    let p := memCfbPart 16 c.encrypting c.buf c.num c.stash m i o n
    let c := { c with stash := p.s.2 }
    if p.s.1 = 16 then kCfbMainM { c with iv := c.stash, num := 0 } p.m p.i p.o p.n
    else ({ c with num := p.s.1 }, p.m)
  else kCfbMainM c m i o n

/-! ## MGM, `/repo/gost_gost2015.c` -/

section
variable (E : Bytes → Bytes) (M : Bytes → Bytes → Bytes) (bl : Nat)

/-- Body of the byte loop, `/repo/gost_gost2015.c` lines 356-368 (`ACi[n] = out[i] = in[i] ^ EKi[n]`) and 420-433
(`ACi[n] = c = in[i]; out[i] = c ^ EKi[n]`). -/
def mgmByteM (enc : Bool) (c : Mgm) (m : BMem) (i o : Nat) : Mgm × BMem :=
  let n := c.mres
  let c := if n = 0 then
      { c with EKi := E c.Yi, Yi := c.Yi.take (bl / 2) ++ inc_counter (c.Yi.drop (bl / 2)) (bl / 2) }
    else c
  let r : Mgm × BMem := if enc then
      let m := memSet m o (m i ^^^ at_ c.EKi n)
      ({ c with ACi := c.ACi.set n (m o) }, m)
    else
      let x := m i
      ({ c with ACi := c.ACi.set n x }, memSet m o (x ^^^ at_ c.EKi n))
  let c := r.1
  let n := (n + 1) % bl
  let c := { c with mres := n }
  let c := if n = 0 then mgmAbsorb E M bl c c.ACi else c
  (c, r.2)

/-- The loop over the input bytes. -/
def mgmBytesM (enc : Bool) : Mgm → BMem → Nat → Nat → Nat → Mgm × BMem
  | c, m, _, _, 0 => (c, m)
  | c, m, i, o, n + 1 =>
    let r := mgmByteM E M bl enc c m i o
    mgmBytesM enc r.1 r.2 (i + 1) (o + 1) n

/-- `gost_mgm128_encrypt`, `/repo/gost_gost2015.c` lines 307-373. -/
def gost_mgm128_encryptM (c : Mgm) (m : BMem) (i o n : Nat) : Mgm × BMem × Int :=
  let c := mgmEncStart E c
  let mlen := (c.lenM + n) % 2^64
  if mgmTooLong bl c.lenA mlen n then (c, m, -1)
  else
    let c := mgmCloseAad E M bl { c with lenM := mlen }
    let r := mgmBytesM E M bl true { c with mres := c.mres % bl } m i o n
    (r.1, r.2, 0)

/-- `gost_mgm128_decrypt`, `/repo/gost_gost2015.c` lines 375-438. -/
def gost_mgm128_decryptM (c : Mgm) (m : BMem) (i o n : Nat) : Mgm × BMem × Int :=
  let c := mgmDecStart E c
  let mlen := (c.lenM + n) % 2^64
  if mgmTooLong bl c.lenA mlen n then (c, m, -1)
  else
    let c := mgmCloseAad E M bl { c with lenM := mlen }
    let r := mgmBytesM E M bl false { c with mres := c.mres % bl } m i o n
    (r.1, r.2, 0)

end

/-- `gost_grasshopper_cipher_do_mgm` and `gost_magma_cipher_do_mgm` with data and an output buffer
(`/repo/gost_grasshopper_cipher.c` lines 752-786, `/repo/gost_crypt.c` lines 900-932). -/
def cipher_do_mgmM {alg : MgmAlg} (c : MgmCtx alg) (m : BMem) (i o n : Nat) : MgmCtx alg × BMem × Int :=
  if ¬ c.key_set then (c, m, -1)
  else if ¬ c.iv_set then (c, m, -1)
  else if c.encrypting then
    let r := gost_mgm128_encryptM (alg.block c.ks) alg.mul alg.bl c.mgm m i o n
    ({ c with mgm := r.1 }, r.2.1, if r.2.2 ≠ 0 then -1 else n)
  else
    let r := gost_mgm128_decryptM (alg.block c.ks) alg.mul alg.bl c.mgm m i o n
    ({ c with mgm := r.1 }, r.2.1, if r.2.2 ≠ 0 then -1 else n)

end Gost
