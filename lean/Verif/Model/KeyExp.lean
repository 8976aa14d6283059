import Verif.Spec.Stream
import Verif.Model.GostModes
import Verif.Model.KuzModes
import Verif.Model.GF

/-!
# Key export/import, KDF_TREE, TLSTREE, the OMAC digest and the wrap ciphers

`/repo/gost_keyexpimp.c`, `/repo/gost_omac.c` and the TLSTREE parts of `/repo/gost_crypt.c` and
`/repo/gost_grasshopper_cipher.c`.

OpenSSL's own CMAC and HMAC are not part of the repository; they enter as the functions of `Crypto`, about which only the
output lengths are known.  Memory allocation and lookups of algorithms by name are taken to succeed.
-/

namespace Gost

/-- The two block ciphers known to the OMAC digest. -/
inductive OmacCipher where
  | magma | kuznyechik
  deriving DecidableEq

/-- Block length of the cipher. -/
def OmacCipher.block : OmacCipher → Nat
  | .magma => 8
  | .kuznyechik => 16

/-- The primitives taken from OpenSSL: `CMAC_*` over the given cipher (key, message) and `HMAC_*` with the digest
`NID_id_GostR3411_2012_256` (key, message). -/
structure Crypto where
  cmac : OmacCipher → Bytes → Bytes → Bytes
  hmac : Bytes → Bytes → Bytes
  cmac_length : ∀ n k m, (cmac n k m).length = n.block
  hmac_length : ∀ k m, (hmac k m).length = 32

/-! ## The OMAC digest -/

/-- `OMAC_CTX`, `/repo/gost_omac.c` lines 18-36.  `cmac_ctx` is the `CMAC_CTX`: its key and the data given so far. -/
structure OmacDigestCtx where
  cmac_ctx : Option (Bytes × Bytes)
  dgst_size : Nat
  cipher_name : OmacCipher
  key_set : Bool
  key : Bytes

/-- `omac_init`, `/repo/gost_omac.c` lines 41-59 (called from lines 61-69). -/
def omac_init (n : OmacCipher) : OmacDigestCtx :=
  { cmac_ctx := none, dgst_size := n.block, cipher_name := n, key_set := false, key := zeros 32 }

/-- `omac_imit_update`, `/repo/gost_omac.c` lines 71-80. -/
def omac_imit_update (c : OmacDigestCtx) (data : Bytes) : OmacDigestCtx × Int :=
  if !c.key_set then (c, 0)
  else ({ c with cmac_ctx := c.cmac_ctx.map fun km => (km.1, km.2 ++ data) }, 1)

/-- `omac_imit_final`, `/repo/gost_omac.c` lines 82-97: the bytes written to `md`; `none`: failure. -/
def omac_imit_final (X : Crypto) (c : OmacDigestCtx) : Option Bytes :=
  if !c.key_set then none
  else c.cmac_ctx.map fun km => (X.cmac c.cipher_name km.1 km.2).take c.dgst_size

/-- `omac_key`, `/repo/gost_omac.c` lines 137-154 (`CMAC_Init` succeeding). -/
def omac_key (c : OmacDigestCtx) (key : Bytes) : OmacDigestCtx := { c with cmac_ctx := some (key.take 32, []), key_set := true }

/-- `omac_imit_ctrl` with `EVP_MD_CTRL_SET_KEY`, `arg = 32` (or the `gost_mac_key` form, `arg = 0`),
`/repo/gost_omac.c` lines 163-213: the digest is initialised first. -/
def omac_set_key (c : OmacDigestCtx) (arg : Int) (key : Bytes) : OmacDigestCtx × Int :=
  let c := omac_init c.cipher_name
  if arg = 0 ∨ arg = 32 then ({ omac_key c key with key := key.take 32 }, 1) else (c, 0)

/-- `omac_imit_ctrl` with `EVP_MD_CTRL_XOF_LEN`, `/repo/gost_omac.c` lines 214-236. -/
def omac_xof_len (c : OmacDigestCtx) (arg : Int) : OmacDigestCtx × Int :=
  if arg < 1 ∨ arg > c.cipher_name.block then (c, 0) else ({ c with dgst_size := arg.toNat }, 1)

/-! ## KExp15, KImp15 -/

/-- The `cipher_nid` argument. -/
inductive KexpNid where
  | magma_ctr | grasshopper_ctr | other
  deriving DecidableEq

/-- `mac_len`, `/repo/gost_keyexpimp.c` lines 49-50 and 131-132. -/
def kexpMacLen : KexpNid → Nat
  | .magma_ctr => 8
  | .grasshopper_ctr => 16
  | .other => 0

/-- A CTR session of `EVP_CipherInit_ex` (cipher only), `EVP_CipherInit_ex` (key and IV), `EVP_CipherUpdate` on each chunk,
`/repo/gost_keyexpimp.c` lines 87-92 and 157-161: all output bytes.  `EVP_CipherFinal_ex` produces nothing for these
stream ciphers. -/
def kexpCtr (rng : Nat → Fin 8 → W32) (nid : KexpNid) (enc : Bool) (key iv_full : Bytes) (chunks : List Bytes) : Bytes :=
  match nid with
  | .magma_ctr =>
    let c := magma_cipher_init (freshCtx rng enc) none none enc 4 false
    let c := magma_cipher_init c (some key) (some iv_full) enc 4 false
    (Spec.feed magma_cipher_do_ctr c chunks).2
  | .grasshopper_ctr =>
    let c := gost_grasshopper_cipher_init_ctr freshKCtx none none enc
    let c := gost_grasshopper_cipher_init_ctr c (some key) (some iv_full) enc
    (Spec.feed gost_grasshopper_cipher_do_ctr c chunks).2
  | .other => []

/-- The MAC of `iv || key`, `/repo/gost_keyexpimp.c` lines 71-79 and 174-182 (`EVP_DigestFinalXOF` sets the length again,
then finishes): `none` when one of the calls fails. -/
def kexpMac (X : Crypto) (mac : OmacCipher) (mac_key iv key : Bytes) (mac_len : Nat) : Option Bytes := do
  let c := omac_init mac
  let (c, r) := omac_set_key c 32 mac_key
  if r ≤ 0 then none
  let (c, r) := omac_xof_len c mac_len
  if r ≤ 0 then none
  let (c, r) := omac_imit_update c iv
  if r ≤ 0 then none
  let (c, r) := omac_imit_update c key
  if r ≤ 0 then none
  let (c, r) := omac_xof_len c mac_len
  if r ≤ 0 then none
  omac_imit_final X c

/-- `gost_kexp15`, `/repo/gost_keyexpimp.c` lines 34-109: the bytes written to `out` (whose size is `out_len`), or `none`
for a return value of 0.  `iv` has at most 16 bytes (`memcpy(iv_full, iv, ivlen)` is not checked). -/
def gost_kexp15 (X : Crypto) (rng : Nat → Fin 8 → W32) (shared_key : Bytes) (cipher_nid : KexpNid) (cipher_key : Bytes)
    (mac_nid : OmacCipher) (mac_key iv : Bytes) (out_len : Nat) : Option Bytes :=
  let mac_len := kexpMacLen cipher_nid
  if mac_len = 0 then none
  else if shared_key.length + mac_len > out_len then none
  else
    let iv_full := iv ++ zeros (16 - iv.length)
    match kexpMac X mac_nid mac_key iv shared_key mac_len with
    | none => none
    | some mac_buf => some (kexpCtr rng cipher_nid true cipher_key iv_full [shared_key, mac_buf])

/-- `gost_kimp15`, `/repo/gost_keyexpimp.c` lines 115-199: the contents of `shared_key` and the value returned.  `out0` is
the (indeterminate) contents of the 48-byte local buffer `out`. -/
def gost_kimp15 (X : Crypto) (rng : Nat → Fin 8 → W32) (out0 expkey : Bytes) (cipher_nid : KexpNid) (cipher_key : Bytes)
    (mac_nid : OmacCipher) (mac_key iv shared_key : Bytes) : Bytes × Int :=
  let mac_len := kexpMacLen cipher_nid
  if mac_len = 0 then (shared_key, 0)
  else if expkey.length > 48 then (shared_key, 0)
  else if iv.length > 16 then (shared_key, 0)
  else
    let iv_full := iv ++ zeros (16 - iv.length)
    let dec := kexpCtr rng cipher_nid false cipher_key iv_full [expkey]
    let out := dec ++ out0.drop dec.length
    match kexpMac X mac_nid mac_key iv (out.take 32) mac_len with
    | none => (shared_key, 0)
    | some mac_buf =>
      if mac_buf.take mac_len ≠ (out.drop 32).take mac_len then (shared_key, 0)
      else (out.take 32 ++ shared_key.drop 32, 1)

/-! ## KDF_TREE and TLSTREE -/

/-- `be32` and the view of the result as four bytes, `/repo/gost_keyexpimp.c` lines 17-27 (either byte order of the host):
the big-endian bytes of a 32-bit value. -/
def be32Bytes (w : W32) : Bytes := [byteOf w 3, byteOf w 2, byteOf w 1, byteOf w 0]

/-- `while (*len_ptr == 0) len_ptr++`, `/repo/gost_keyexpimp.c` lines 227-231.  (For a length whose 32-bit value is 0 the C
loop runs past the variable; lengths are below 2^29 bytes in the theorems.) -/
def skipZeros : Bytes → Bytes
  | [] => []
  | b :: bs => if b = 0 then skipZeros bs else b :: bs

/-- The input of the `i`-th HMAC of `gost_kdftree2012_256`, `/repo/gost_keyexpimp.c` lines 234-247. -/
def kdfInput (label seed : Bytes) (keyout_len representation i : Nat) : Bytes :=
  (be32Bytes (BitVec.ofNat 32 i)).drop (4 - representation) ++ label ++ [0] ++ seed ++
    skipZeros (be32Bytes (BitVec.ofNat 32 (keyout_len * 8)))

/-- `gost_kdftree2012_256`, `/repo/gost_keyexpimp.c` lines 201-259: `keyout`, `none` for a return value of 0. -/
def gost_kdftree2012_256 (X : Crypto) (keyout_len : Nat) (key label seed : Bytes) (representation : Nat) : Option Bytes :=
  if keyout_len = 0 ∨ keyout_len % 32 ≠ 0 then none
  else
    let iters := keyout_len / 32
    some ((List.range iters).flatMap fun i => X.hmac key (kdfInput label seed keyout_len representation (i + 1)))

/-- The three masks of `gost_tlstree`, `/repo/gost_keyexpimp.c` lines 264-267, selected by the cipher. -/
def tlsMasks : OmacCipher → W64 × W64 × W64
  | .magma => (0x00000000C0FFFFFF#64, 0x000000FEFFFFFFFF#64, 0x00F0FFFFFFFFFFFF#64)
  | .kuznyechik => (0x00000000FFFFFFFF#64, 0x0000F8FFFFFFFFFF#64, 0xC0FFFFFFFFFFFFFF#64)

/-- `gost_tlstree`, `/repo/gost_keyexpimp.c` lines 261-305, on a little-endian host: the derived key.  (`cipher_nid` other
than the two known ones returns 0; not modelled.)  The labels are "level1", "level2", "level3". -/
def gost_tlstree (X : Crypto) (nid : OmacCipher) (key tlsseq : Bytes) : Option Bytes := do
  let (c1, c2, c3) := tlsMasks nid
  let seq := ldLE64 tlsseq
  let seed1 := stLE64 (seq &&& c1)
  let seed2 := stLE64 (seq &&& c2)
  let seed3 := stLE64 (seq &&& c3)
  let ko1 ← gost_kdftree2012_256 X 32 key [0x6c, 0x65, 0x76, 0x65, 0x6c, 0x31] seed1 1
  let ko2 ← gost_kdftree2012_256 X 32 ko1 [0x6c, 0x65, 0x76, 0x65, 0x6c, 0x32] seed2 1
  gost_kdftree2012_256 X 32 ko2 [0x6c, 0x65, 0x76, 0x65, 0x6c, 0x33] seed3 1

/-! ## TLS record sequence numbers -/

/-- The loop of `decrement_sequence`, `/repo/gost_crypt.c` lines 1242-1251; the argument is `j + 1`. -/
def decrLoop : Nat → Bytes → Bytes
  | 0, seq => seq
  | j + 1, seq => if at_ seq j ≠ 0 then seq.set j (at_ seq j - 1) else decrLoop j (seq.set j 0xff)

/-- `decrement_sequence`, `/repo/gost_crypt.c` lines 1236-1254. -/
def decrement_sequence (seq : Bytes) (decrement : Int) : Bytes × Int :=
  if decrement < 0 ∨ decrement > 1 then (seq, 0)
  else if decrement ≠ 0 then (decrLoop 8 seq, 1)
  else (seq, 1)

/-- The carry loop over `adjusted_iv`, `/repo/gost_crypt.c` lines 1313-1318 (`off = 4`, from `j = 3`) and
`/repo/gost_grasshopper_cipher.c` lines 1150-1155 (`off = 0`, from `j = 7`); the first argument is `j + 1`. -/
def adjLoop (seq : Bytes) (off : Nat) : Nat → Nat → Bytes → Bytes
  | 0, _, iv => iv
  | j + 1, carry, iv =>
    let adj_byte := (at_ iv j).toNat + (at_ seq (j + off)).toNat + carry
    adjLoop seq off j (if adj_byte > 255 then 1 else 0) (iv.set j (BitVec.ofNat 8 (adj_byte &&& 0xff)))

/-- `magma_cipher_ctl` with `EVP_CTRL_TLSTREE`, `/repo/gost_crypt.c` lines 1283-1328; `ctr` says whether the cipher is in CTR
mode, `ptr` points to the sequence number. -/
def magma_cipher_ctl_tlstree (X : Crypto) (e : CipherCtx) (ctr : Bool) (arg : Int) (ptr : Bytes) : CipherCtx × Int :=
  if !ctr then (e, -1)
  else
    let d := decrement_sequence (ptr.take 8) arg
    if d.2 = 0 then (e, -1)
    else match gost_tlstree X .magma e.masterKey d.1 with
      | none => (e, -1)
      | some newkey =>
        let adjusted_iv := adjLoop d.1 4 4 0 (e.oiv.take 4 ++ zeros 4)
        ({ e with num := 0, iv := adjusted_iv, cctx := magma_key e.cctx newkey }, 1)

/-- `gost_grasshopper_cipher_ctl` with `EVP_CTRL_TLSTREE`, `/repo/gost_grasshopper_cipher.c` lines 1115-1164. -/
def gost_grasshopper_cipher_ctl_tlstree (X : Crypto) (c : KCtx) (ctr : Bool) (arg : Int) (ptr : Bytes) : KCtx × Int :=
  if !ctr then (c, -1)
  else
    let d := decrement_sequence (ptr.take 8) arg
    if d.2 = 0 then (c, -1)
    else match gost_tlstree X .kuznyechik c.masterKey d.1 with
      | none => (c, -1)
      | some newkey =>
        let adjusted_iv := adjLoop d.1 0 8 0 (c.oiv.take 8 ++ zeros 8)
        (gost_grasshopper_cipher_key { c with num := 0, iv := adjusted_iv } newkey, 1)

/-- `omac_imit_ctrl` with `EVP_MD_CTRL_TLSTREE`, `/repo/gost_omac.c` lines 237-258. -/
def omac_tlstree (X : Crypto) (c : OmacDigestCtx) (seq : Bytes) : OmacDigestCtx × Int :=
  if c.key_set then
    match gost_tlstree X c.cipher_name c.key seq with
    | some k => (omac_key c k, 1)
    | none => (c, 0)
  else (c, 0)

/-! ## The wrap ciphers -/

/-- `GOST_WRAP_CTX`, `/repo/gost_keyexpimp.c` lines 317-322, with the direction of the EVP context. -/
structure WrapCtx where
  iv : Bytes
  key : Bytes
  wrapped : Bytes
  wrap_count : Nat
  encrypting : Bool

/-- `MAGMA_WRAPPED_KEY_LEN`, `KUZNYECHIK_WRAPPED_KEY_LEN`, `/repo/gost_keyexpimp.c` lines 309-315. -/
def wrappedLen : OmacCipher → Nat
  | .magma => 40
  | .kuznyechik => 48

/-- `magma_wrap_init`, `kuznyechik_wrap_init`, `/repo/gost_keyexpimp.c` lines 324-340 and 377-393. -/
def wrap_init (n : OmacCipher) (c : WrapCtx) (key iv : Option Bytes) (enc : Bool) : WrapCtx :=
  let c := { c with wrapped := zeros 48, wrap_count := 0, encrypting := enc }
  let c := match iv with
    | some v => { c with iv := memcpy (zeros 8) v (n.block / 2) }
    | none => c
  match key with
    | some k => { c with key := k.take 64 }
    | none => c

/-- `magma_wrap_do`, `kuznyechik_wrap_do`, `/repo/gost_keyexpimp.c` lines 342-375 and 395-428, with `out` not NULL: the
context, the buffer `out` and the value returned.  (`NID_kuznyechik_ctr` is `NID_grasshopper_ctr`.) -/
def wrap_do (X : Crypto) (rng : Nat → Fin 8 → W32) (out0 : Bytes) (n : OmacCipher) (c : WrapCtx) (out inp : Bytes) :
    WrapCtx × Bytes × Int :=
  if inp.length ≤ wrappedLen n ∧ c.wrap_count + inp.length > wrappedLen n then (c, out, -1)
  else
    let c := if inp.length ≤ wrappedLen n then
        { c with wrapped := c.wrapped.take c.wrap_count ++ inp ++ c.wrapped.drop (c.wrap_count + inp.length)
                 wrap_count := c.wrap_count + inp.length }
      else c
    if c.wrap_count < wrappedLen n then (c, out, 0)
    else if c.encrypting then (c, out, -1)
    else
      let nid := match n with | .magma => KexpNid.magma_ctr | .kuznyechik => KexpNid.grasshopper_ctr
      let r := gost_kimp15 X rng out0 (c.wrapped.take c.wrap_count) nid ((c.key.drop 32).take 32) n (c.key.take 32)
        (c.iv.take (n.block / 2)) out
      (c, r.1, if r.2 > 0 then 32 else 0)

end Gost
