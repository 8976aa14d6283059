import Verif.Model.Basic

/-!
# GOST 28147-89 / Magma block cipher core (`/repo/gost89.c`)

Simplification: the 8-element C arrays `key[8]`, `mask[8]` are functions from
`Fin 8`; the 256-element tables `k87` .. `k21` are functions from `Byte`.
`RAND_priv_bytes` is modelled by a stream `rng` of future masks stored in the
context: every theorem that mentions a context is therefore quantified over
all outcomes of the random generator.  `OPENSSL_cleanse` is not modelled.
-/

namespace Gost

/-- `gost_subst_block`, `/repo/gost89.h` lines 22-32. -/
structure SubstBlock where
  k8 : List Byte
  k7 : List Byte
  k6 : List Byte
  k5 : List Byte
  k4 : List Byte
  k3 : List Byte
  k2 : List Byte
  k1 : List Byte

/-- Expanded substitution tables: fields `k87`,`k65`,`k43`,`k21` of `gost_ctx`,
`/repo/gost89.h` lines 34-41. -/
structure KBox where
  k87 : Byte → W32
  k65 : Byte → W32
  k43 : Byte → W32
  k21 : Byte → W32

/-- `gost_ctx`, `/repo/gost89.h` lines 34-41 (`master_key` is modelled where it is
used, with TLSTREE), plus the stream of random masks that `RAND_priv_bytes` will return. -/
structure Ctx where
  key  : Fin 8 → W32
  mask : Fin 8 → W32
  box  : KBox
  rng  : Nat → Fin 8 → W32

/-- `kboxinit`, `/repo/gost89.c` lines 255-266. -/
def kboxinit (b : SubstBlock) : KBox where
  k87 i := ((((at_ b.k8 (i >>> 4).toNat).setWidth 32 : W32) <<< 4) |||
            ((at_ b.k7 (i &&& 15).toNat).setWidth 32)) <<< 24
  k65 i := ((((at_ b.k6 (i >>> 4).toNat).setWidth 32 : W32) <<< 4) |||
            ((at_ b.k5 (i &&& 15).toNat).setWidth 32)) <<< 16
  k43 i := ((((at_ b.k4 (i >>> 4).toNat).setWidth 32 : W32) <<< 4) |||
            ((at_ b.k3 (i &&& 15).toNat).setWidth 32)) <<< 8
  k21 i := (((at_ b.k2 (i >>> 4).toNat).setWidth 32 : W32) <<< 4) |||
            ((at_ b.k1 (i &&& 15).toNat).setWidth 32)

/-- `f`, `/repo/gost89.c` lines 269-275. -/
def f (c : KBox) (x : W32) : W32 :=
  let x := c.k87 ((x >>> 24 &&& 255).setWidth 8) ||| c.k65 ((x >>> 16 &&& 255).setWidth 8) |||
           c.k43 ((x >>> 8 &&& 255).setWidth 8) ||| c.k21 ((x &&& 255).setWidth 8)
  x <<< 11 ||| x >>> (32 - 11)

/-- One pair of lines of the round sequence (`/repo/gost89.c` e.g. lines 285-286):
`n2 ^= f(c, n1 + c->key[i] + c->mask[i]); n1 ^= f(c, n2 + c->key[j] + c->mask[j]);` -/
def round2 (c : Ctx) (s : W32 × W32) (ij : Fin 8 × Fin 8) : W32 × W32 :=
  let n1 := s.1
  let n2 := s.2
  let n2 := n2 ^^^ f c.box (n1 + c.key ij.1 + c.mask ij.1)
  let n1 := n1 ^^^ f c.box (n2 + c.key ij.2 + c.mask ij.2)
  (n1, n2)

/-- Round-key indices of `gostcrypt`/`magmacrypt`, `/repo/gost89.c` lines 285-319, 339-373. -/
def encSched : List (Fin 8 × Fin 8) :=
  [(0,1),(2,3),(4,5),(6,7), (0,1),(2,3),(4,5),(6,7), (0,1),(2,3),(4,5),(6,7),
   (7,6),(5,4),(3,2),(1,0)]

/-- Round-key indices of `gostdecrypt`/`magmadecrypt`, `/repo/gost89.c` lines 392-426, 445-479. -/
def decSched : List (Fin 8 × Fin 8) :=
  [(0,1),(2,3),(4,5),(6,7), (7,6),(5,4),(3,2),(1,0), (7,6),(5,4),(3,2),(1,0),
   (7,6),(5,4),(3,2),(1,0)]

/-- Round-key indices of `mac_block`, `/repo/gost89.c` lines 657-673. -/
def macSched : List (Fin 8 × Fin 8) :=
  [(0,1),(2,3),(4,5),(6,7), (0,1),(2,3),(4,5),(6,7)]

/-- Loading `n1` from bytes 0..3 and `n2` from bytes 4..7, `/repo/gost89.c` lines 281-282. -/
def loadLE (b : Bytes) : W32 × W32 :=
  (le32 (at_ b 0) (at_ b 1) (at_ b 2) (at_ b 3), le32 (at_ b 4) (at_ b 5) (at_ b 6) (at_ b 7))

/-- Storing two words, `/repo/gost89.c` lines 321-328: first word little-endian, then the second. -/
def storeLE (a b : W32) : Bytes :=
  [byteOf a 0, byteOf a 1, byteOf a 2, byteOf a 3, byteOf b 0, byteOf b 1, byteOf b 2, byteOf b 3]

/-- Loading with index `7-i`, `/repo/gost89.c` lines 335-336. -/
def loadBE (b : Bytes) : W32 × W32 :=
  (le32 (at_ b (7-0)) (at_ b (7-1)) (at_ b (7-2)) (at_ b (7-3)),
   le32 (at_ b (7-4)) (at_ b (7-5)) (at_ b (7-6)) (at_ b (7-7)))

/-- Storing with index `7-i`, `/repo/gost89.c` lines 375-382. -/
def storeBE (a b : W32) : Bytes :=
  [byteOf b 3, byteOf b 2, byteOf b 1, byteOf b 0, byteOf a 3, byteOf a 2, byteOf a 1, byteOf a 0]

/-- `gostcrypt`, `/repo/gost89.c` lines 278-329. -/
def gostcrypt (c : Ctx) (inp : Bytes) : Bytes :=
  let s := encSched.foldl (round2 c) (loadLE inp)
  storeLE s.2 s.1

/-- `gostdecrypt`, `/repo/gost89.c` lines 386-436. -/
def gostdecrypt (c : Ctx) (inp : Bytes) : Bytes :=
  let s := decSched.foldl (round2 c) (loadLE inp)
  storeLE s.2 s.1

/-- `magmacrypt`, `/repo/gost89.c` lines 332-383. -/
def magmacrypt (c : Ctx) (inp : Bytes) : Bytes :=
  let s := encSched.foldl (round2 c) (loadBE inp)
  storeBE s.2 s.1

/-- `magmadecrypt`, `/repo/gost89.c` lines 439-490. -/
def magmadecrypt (c : Ctx) (inp : Bytes) : Bytes :=
  let s := decSched.foldl (round2 c) (loadBE inp)
  storeBE s.2 s.1

/-- `gost_enc`, `/repo/gost89.c` lines 493-501: `blocks` iterations over `clear`. -/
def gost_enc (c : Ctx) (clear : Bytes) : Nat → Bytes
  | 0 => []
  | n + 1 => gostcrypt c (clear.take 8) ++ gost_enc c (clear.drop 8) n

/-- `gost_dec`, `/repo/gost89.c` lines 504-512. -/
def gost_dec (c : Ctx) (cipher : Bytes) : Nat → Bytes
  | 0 => []
  | n + 1 => gostdecrypt c (cipher.take 8) ++ gost_dec c (cipher.drop 8) n

/-- `gost_enc_cfb`, `/repo/gost89.c` lines 515-530. -/
def gost_enc_cfb (c : Ctx) (iv clear : Bytes) : Nat → Bytes
  | 0 => []
  | n + 1 =>
    let gamma := gostcrypt c iv
    let out := xorB (clear.take 8) gamma
    out ++ gost_enc_cfb c out (clear.drop 8) n

/-- `gost_dec_cfb`, `/repo/gost89.c` lines 533-548. -/
def gost_dec_cfb (c : Ctx) (iv cipher : Bytes) : Nat → Bytes
  | 0 => []
  | n + 1 =>
    let gamma := gostcrypt c iv
    let cur := cipher.take 8
    xorB cur gamma ++ gost_dec_cfb c cur (cipher.drop 8) n

/-- `gost_key_impl`, `/repo/gost89.c` lines 558-566. -/
def gost_key_impl (c : Ctx) (k : Bytes) : Ctx :=
  let word (i : Nat) : W32 := le32 (at_ k (4*i)) (at_ k (4*i+1)) (at_ k (4*i+2)) (at_ k (4*i+3))
  { c with key := fun i => word i.val - c.mask i }

/-- Draw a mask from the random generator (the call `RAND_priv_bytes(c->mask, ...)`,
`/repo/gost89.c` lines 571, 586). -/
def drawMask (c : Ctx) : Ctx := { c with mask := c.rng 0, rng := fun n => c.rng (n + 1) }

/-- `gost_key`, `/repo/gost89.c` lines 569-573. -/
def gost_key (c : Ctx) (k : Bytes) : Ctx := gost_key_impl (drawMask c) k

/-- `gost_key_nomask`, `/repo/gost89.c` lines 576-580. -/
def gost_key_nomask (c : Ctx) (k : Bytes) : Ctx := gost_key_impl { c with mask := fun _ => 0 } k

/-- `gost_enc_with_key`, `/repo/gost89.c` lines 551-556: the context with the new key and the output. -/
def gost_enc_with_key (c : Ctx) (key inblock : Bytes) : Ctx × Bytes :=
  let c := gost_key_nomask c key
  (c, gostcrypt c inblock)

/-- `magma_key`, `/repo/gost89.c` lines 583-592. -/
def magma_key (c : Ctx) (k : Bytes) : Ctx :=
  let c := drawMask c
  let word (i : Nat) : W32 := le32 (at_ k (4*i+3)) (at_ k (4*i+2)) (at_ k (4*i+1)) (at_ k (4*i))
  { c with key := fun i => word i.val - c.mask i }

/-- `gost_get_key`, `/repo/gost89.c` lines 599-608. -/
def gost_get_key (c : Ctx) : Bytes :=
  (List.finRange 8).flatMap fun i =>
    let w := c.key i + c.mask i
    [byteOf w 0, byteOf w 1, byteOf w 2, byteOf w 3]

/-- `magma_get_key`, `/repo/gost89.c` lines 611-620. -/
def magma_get_key (c : Ctx) : Bytes :=
  (List.finRange 8).flatMap fun i =>
    let w := c.key i + c.mask i
    [byteOf w 3, byteOf w 2, byteOf w 1, byteOf w 0]

/-- `mac_block`, `/repo/gost89.c` lines 644-683: new contents of `buffer`. -/
def mac_block (c : Ctx) (buffer block : Bytes) : Bytes :=
  let b := xorB buffer block
  let s := macSched.foldl (round2 c) (loadLE b)
  storeLE s.1 s.2

/-- `get_mac`, `/repo/gost89.c` lines 686-696: the bytes written to `out`.
The C expression `(1 < rembits) - 1` (sic, `<` and not `<<`) is kept. -/
def get_mac (buffer : Bytes) (nbits : Nat) : Bytes :=
  let nbytes := nbits / 8
  let rembits := nbits % 8
  let mask : BitVec 32 := if rembits ≠ 0 then (if 1 < rembits then 1 else 0) - 1 else 0
  buffer.take nbytes ++
    (if rembits ≠ 0 then [at_ buffer nbytes &&& mask.setWidth 8] else [])

/-- The main loop of `gost_mac` and `gost_mac_iv` (`/repo/gost89.c` lines 708-709, 733-734):
`for (i = 0; i + 8 <= data_len; i += 8) mac_block(ctx, buffer, data + i)`,
returning the buffer and the unprocessed rest. -/
def gostMacLoop (c : Ctx) (buffer data : Bytes) : Bytes × Bytes :=
  if _h : 8 ≤ data.length then
    gostMacLoop c (mac_block c buffer (data.take 8)) (data.drop 8)
  else (buffer, data)
termination_by data.length
decreasing_by simp; omega

/-- `gost_mac_iv`, `/repo/gost89.c` lines 725-748.  `i` is the C loop variable after the
loop: the number of processed bytes (rounded up once the tail has been processed). -/
def gost_mac_iv (c : Ctx) (macLen : Nat) (iv data : Bytes) : Bytes :=
  let r := gostMacLoop c (iv.take 8) data
  let buffer := r.1
  let rest := r.2
  let i := data.length - rest.length
  let bi : Bytes × Nat :=
    if i < data.length then (mac_block c buffer (rest ++ zeros (8 - rest.length)), i + 8)
    else (buffer, i)
  let buffer := if bi.2 = 8 then mac_block c bi.1 (zeros 8) else bi.1
  get_mac buffer macLen

/-- `gost_mac`, `/repo/gost89.c` lines 702-722: same code with an all-zero start buffer. -/
def gost_mac (c : Ctx) (macLen : Nat) (data : Bytes) : Bytes :=
  let r := gostMacLoop c (zeros 8) data
  let buffer := r.1
  let rest := r.2
  let i := data.length - rest.length
  let bi : Bytes × Nat :=
    if i < data.length then (mac_block c buffer (rest ++ zeros (8 - rest.length)), i + 8)
    else (buffer, i)
  let buffer := if bi.2 = 8 then mac_block c bi.1 (zeros 8) else bi.1
  get_mac buffer macLen

/-- `CryptoProKeyMeshingKey`, `/repo/gost89.c` lines 240-245. -/
def CryptoProKeyMeshingKey : Bytes :=
  [0x69, 0x00, 0x72, 0x22, 0x64, 0xC9, 0x04, 0x23,
   0x8D, 0x3A, 0xDB, 0x96, 0x46, 0xE9, 0x2A, 0xC4,
   0x18, 0xFE, 0xAC, 0x94, 0x00, 0xED, 0x07, 0x12,
   0xC0, 0x86, 0xDC, 0xC2, 0xEF, 0x4C, 0xA9, 0x2B]

/-- `ACPKM_D_const`, `/repo/gost89.c` lines 247-252. -/
def ACPKM_D_const : Bytes :=
  [0x80, 0x81, 0x82, 0x83, 0x84, 0x85, 0x86, 0x87,
   0x88, 0x89, 0x8A, 0x8B, 0x8C, 0x8D, 0x8E, 0x8F,
   0x90, 0x91, 0x92, 0x93, 0x94, 0x95, 0x96, 0x97,
   0x98, 0x99, 0x9A, 0x9B, 0x9C, 0x9D, 0x9E, 0x9F]

/-- `cryptopro_key_meshing`, `/repo/gost89.c` lines 750-766, with `iv != NULL`. -/
def cryptopro_key_meshing (c : Ctx) (iv : Bytes) : Ctx × Bytes :=
  let newkey := gost_dec c CryptoProKeyMeshingKey 4
  let c := gost_key c newkey
  (c, gostcrypt c iv)

/-- `cryptopro_key_meshing` with `iv == NULL` (as called by `mac_block_mesh`). -/
def cryptopro_key_meshing_noiv (c : Ctx) : Ctx :=
  gost_key c (gost_dec c CryptoProKeyMeshingKey 4)

/-- `acpkm_magma_key_meshing`, `/repo/gost89.c` lines 768-778. -/
def acpkm_magma_key_meshing (c : Ctx) : Ctx :=
  let newkey := (List.range 4).flatMap fun i => magmacrypt c ((ACPKM_D_const.drop (8 * i)).take 8)
  magma_key c newkey

end Gost
