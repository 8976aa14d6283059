import Verif.Model.Gost89
import Verif.Model.SBoxes
import Verif.Model.Loops

/-!
# GOST 28147-89 and Magma EVP cipher modes (`/repo/gost_crypt.c`)

One structure holds the fields of `EVP_CIPHER_CTX` that the callbacks touch and the fields of
`struct ossl_gost_cipher_ctx` (`/repo/gost_lcl.h` lines 210-218).  `kdf_seed`, `tag` and
`omac_ctx` are modelled with the MAC-ed modes, not here.
-/

namespace Gost

/-- `EVP_CIPHER_CTX` + `struct ossl_gost_cipher_ctx`.
* `iv`, `oiv`: the first 8 bytes of the two IV buffers (the only ones used by 8-byte-block modes);
* `buf`, `stash`: bytes 0..7 and 8..15 of `EVP_CIPHER_CTX_buf_noconst`;
* `num`: `EVP_CIPHER_CTX_num` read as `unsigned int`;
* `count`: `unsigned int`; `key_meshing`: the `int` read as `unsigned int`;
* `appData`: whether `EVP_CIPHER_CTX_get_app_data` is non-NULL;
* `paramNID` is represented by the S-box set it selects, inside `cctx.box`. -/
structure CipherCtx where
  cctx : Ctx
  iv : Bytes
  oiv : Bytes
  buf : Bytes
  stash : Bytes
  num : Nat
  count : Nat
  key_meshing : Nat
  appData : Bool
  encrypting : Bool
  masterKey : Bytes

/-- A context as EVP allocates it: all bytes zero, no application data. `rng` is what the random
generator will produce. -/
def freshCtx (rng : Nat → Fin 8 → W32) (encrypting : Bool) : CipherCtx where
  cctx := { key := fun _ => 0, mask := fun _ => 0, box := ⟨fun _ => 0, fun _ => 0, fun _ => 0, fun _ => 0⟩, rng := rng }
  iv := zeros 8
  oiv := zeros 8
  buf := zeros 8
  stash := zeros 8
  num := 0
  count := 0
  key_meshing := 0
  appData := false
  encrypting := encrypting
  masterKey := zeros 32

/-- `memcpy(dst, src, n)`: overwrite the first `n` bytes of `dst`. -/
def memcpy (dst src : Bytes) (n : Nat) : Bytes := src.take n ++ dst.drop n

/-- One entry of `gost_cipher_list`, `/repo/gost_crypt.c` lines 338-357; the NIDs are
represented by this enumeration, `key_meshing` is 1 in every row. -/
inductive ParamNID where
  | cryptoProA | cryptoProB | cryptoProC | cryptoProD | tc26Z | test
  deriving DecidableEq

/-- `gost_cipher_list`, `/repo/gost_crypt.c` lines 338-357. -/
def gost_cipher_list : ParamNID → SubstBlock × Nat
  | .cryptoProA => (Gost28147_CryptoProParamSetA, 1)
  | .cryptoProB => (Gost28147_CryptoProParamSetB, 1)
  | .cryptoProC => (Gost28147_CryptoProParamSetC, 1)
  | .cryptoProD => (Gost28147_CryptoProParamSetD, 1)
  | .tc26Z => (Gost28147_TC26ParamSetZ, 1)
  | .test => (Gost28147_TestParamSet, 1)

/-- `get_encryption_params(NULL)` followed by the table search, `/repo/gost_crypt.c` lines
366-398: `env` is the looked-up `CRYPT_PARAMS` setting: `none` = unset or empty,
`some none` = a text that is not one of the six names (an error), `some (some n)` = a name. -/
def get_encryption_params (nid : Option ParamNID) (env : Option (Option ParamNID)) : Option ParamNID :=
  match nid with
  | some n => some n
  | none =>
    match env with
    | none => some .tc26Z
    | some e => e

/-- `gost_init`: set up the S-box tables, `/repo/gost89.c` lines 622-627. -/
def gost_init (c : Ctx) (b : SubstBlock) : Ctx := { c with box := kboxinit b }

/-- `gost_cipher_set_param`, `/repo/gost_crypt.c` lines 401-413, for a found parameter set. -/
def gost_cipher_set_param (e : CipherCtx) (p : ParamNID) : CipherCtx :=
  { e with key_meshing := (gost_cipher_list p).2
           count := 0
           cctx := gost_init e.cctx (gost_cipher_list p).1 }

/-- The common tail of the init functions (e.g. `/repo/gost_crypt.c` lines 428-434):
copy the IV into `oiv` if given, then `iv := oiv` (both on `iv_length` bytes). -/
def setIv (e : CipherCtx) (iv : Option Bytes) (ivLen : Nat) : CipherCtx :=
  let oiv := match iv with
    | some v => memcpy e.oiv v ivLen
    | none => e.oiv
  { e with oiv := oiv, iv := memcpy e.iv oiv ivLen }

/-- `gost_cipher_init_param`, `/repo/gost_crypt.c` lines 416-436 (CFB and CBC); `none` = failure. -/
def gost_cipher_init_param (e : CipherCtx) (key iv : Option Bytes) (enc : Bool)
    (env : Option (Option ParamNID)) : Option CipherCtx := do
  let e := { e with encrypting := enc }
  let e ← if e.appData then some e else do
    let p ← get_encryption_params none env
    some { gost_cipher_set_param e p with appData := true }
  let e := match key with
    | some k => { e with cctx := gost_key e.cctx k }
    | none => e
  some (setIv e iv 8)

/-- `gost_cipher_init_cnt`, `/repo/gost_crypt.c` lines 438-457; the callers pass CryptoPro-A
(`gost_cipher_init_cpa`) or TC26-Z (`gost_cipher_init_cp_12`), lines 459-471. -/
def gost_cipher_init_cnt (e : CipherCtx) (key iv : Option Bytes) (enc : Bool) (block : SubstBlock) :
    CipherCtx :=
  let e := { e with encrypting := enc, cctx := gost_init e.cctx block, key_meshing := 1, count := 0 }
  let e := match key with
    | some k => { e with cctx := gost_key e.cctx k }
    | none => e
  setIv e iv 8

/-- `magma_cipher_init`, `/repo/gost_crypt.c` lines 490-523.  `ivLen` is 4 for the CTR ciphers,
8 for CBC and 0 for ECB; `acpkm` says whether the NID is one of the two ACPKM ones. The KDF seed
set for encryption is not modelled here. -/
def magma_cipher_init (e : CipherCtx) (key iv : Option Bytes) (enc : Bool) (ivLen : Nat)
    (acpkm : Bool) : CipherCtx :=
  let e := { e with encrypting := enc }
  let e := if e.appData then e else { gost_cipher_set_param e .tc26Z with appData := true }
  let e := match key with
    | some k => { e with cctx := magma_key e.cctx k, masterKey := k.take 32 }
    | none => e
  let e := setIv e iv ivLen
  { e with key_meshing := if acpkm then 1024 else 0 }

/-- `gost_crypt_mesh`, `/repo/gost_crypt.c` lines 660-669, called with `iv` and `buf` of the
context. -/
def gost_crypt_mesh (e : CipherCtx) : CipherCtx :=
  let e := if e.key_meshing ≠ 0 ∧ e.count = 1024 then
      let r := cryptopro_key_meshing e.cctx e.iv
      { e with cctx := r.1, iv := r.2 }
    else e
  { e with buf := gostcrypt e.cctx e.iv, count := e.count % 1024 + 8 }

/-- Lines 685-698 of `/repo/gost_crypt.c`: the two 32-bit additions on `buf1`. -/
def cntAdd (b : Bytes) : Bytes :=
  let g := le32 (at_ b 0) (at_ b 1) (at_ b 2) (at_ b 3)
  let g := g + 0x01010101#32
  let go := le32 (at_ b 4) (at_ b 5) (at_ b 6) (at_ b 7)
  let h := go + 0x01010104#32
  let h := if go > h then h + 1#32 else h
  [byteOf g 0, byteOf g 1, byteOf g 2, byteOf g 3, byteOf h 0, byteOf h 1, byteOf h 2, byteOf h 3]

/-- `gost_cnt_next`, `/repo/gost_crypt.c` lines 671-703. -/
def gost_cnt_next (e : CipherCtx) : CipherCtx :=
  let e := if e.key_meshing ≠ 0 ∧ e.count = 1024 then
      let r := cryptopro_key_meshing e.cctx e.iv
      { e with cctx := r.1, iv := r.2 }
    else e
  let buf1 := if e.count = 0 then gostcrypt e.cctx e.iv else e.iv
  let buf1 := cntAdd buf1
  { e with iv := buf1, buf := gostcrypt e.cctx buf1, count := e.count % 1024 + 8 }

/-- Loop body of `gost_cipher_do_cbc`, `/repo/gost_crypt.c` lines 715-740. -/
def cbcBody (e : CipherCtx) (blk : Bytes) : CipherCtx × Bytes :=
  if e.encrypting then
    let out := gostcrypt e.cctx (xorB e.iv blk)
    ({ e with iv := out }, out)
  else
    let b := gostdecrypt e.cctx blk
    ({ e with iv := blk }, xorB e.iv b)

/-- `gost_cipher_do_cbc`, `/repo/gost_crypt.c` lines 706-742; the input length is a multiple of 8
(EVP guarantees it, otherwise `inl -= 8` would wrap around). -/
def gost_cipher_do_cbc (e : CipherCtx) (inp : Bytes) : CipherCtx × Bytes :=
  let r := whileBlocks 8 cbcBody e inp
  (r.1, r.2.1)

/-- Loop body of `magma_cipher_do_ecb`, `/repo/gost_crypt.c` lines 745-765. -/
def magmaEcbBody (e : CipherCtx) (blk : Bytes) : CipherCtx × Bytes :=
  if e.encrypting then (e, magmacrypt e.cctx blk) else (e, magmadecrypt e.cctx blk)

/-- `magma_cipher_do_ecb`, `/repo/gost_crypt.c` lines 745-765. -/
def magma_cipher_do_ecb (e : CipherCtx) (inp : Bytes) : CipherCtx × Bytes :=
  let r := whileBlocks 8 magmaEcbBody e inp
  (r.1, r.2.1)

/-- Loop body of `magma_cipher_do_cbc`, `/repo/gost_crypt.c` lines 779-803. -/
def magmaCbcBody (e : CipherCtx) (blk : Bytes) : CipherCtx × Bytes :=
  if e.encrypting then
    let out := magmacrypt e.cctx (xorB e.iv blk)
    ({ e with iv := out }, out)
  else
    let b := magmadecrypt e.cctx blk
    ({ e with iv := blk }, xorB e.iv b)

/-- `magma_cipher_do_cbc`, `/repo/gost_crypt.c` lines 768-805. -/
def magma_cipher_do_cbc (e : CipherCtx) (inp : Bytes) : CipherCtx × Bytes :=
  let r := whileBlocks 8 magmaCbcBody e inp
  (r.1, r.2.1)

/-- `apply_acpkm_magma`, `/repo/gost_crypt.c` lines 815-822. -/
def apply_acpkm_magma (e : CipherCtx) : CipherCtx :=
  if e.key_meshing = 0 ∨ e.num < e.key_meshing then e
  else { e with cctx := acpkm_magma_key_meshing e.cctx, num := e.num % 8 }

/-- The three statements shared by the block loop and the tail of `magma_cipher_do_ctr`
(`/repo/gost_crypt.c` lines 845-852 and 861-868): rekey if due, new gamma block, increment the
counter and `count`. -/
def magmaCtrGamma (e : CipherCtx) : CipherCtx :=
  let e := apply_acpkm_magma e
  { e with buf := magmacrypt e.cctx e.iv, iv := inc_counter e.iv 8, count := (e.count + 8) % 2^32 }

/-- Loop body of `magma_cipher_do_ctr`, `/repo/gost_crypt.c` lines 844-857. -/
def magmaCtrBody (e : CipherCtx) (blk : Bytes) : CipherCtx × Bytes :=
  let e := magmaCtrGamma e
  ({ e with num := (e.num + 8) % 2^32 }, xorB e.buf blk)

/-- The loop `while ((num & 7) && lasted)` of `magma_cipher_do_ctr`,
`/repo/gost_crypt.c` lines 837-841. -/
def magmaCtrPart (buf : Bytes) : Nat → Bytes → Nat × Bytes × Bytes
  | num, [] => (num, [], [])
  | num, x :: xs =>
    if num % 8 ≠ 0 then
      let t := magmaCtrPart buf ((num + 1) % 2^32) xs
      (t.1, (x ^^^ at_ buf (num % 8)) :: t.2.1, t.2.2)
    else (num, [], x :: xs)

/-- `magma_cipher_do_ctr`, `/repo/gost_crypt.c` lines 825-873 (CTR and CTR-ACPKM). -/
def magma_cipher_do_ctr (e : CipherCtx) (inp : Bytes) : CipherCtx × Bytes :=
  let p := magmaCtrPart e.buf e.num inp
  let e := { e with num := p.1 }
  let r := whileBlocks 8 magmaCtrBody e p.2.2
  let e := r.1
  let rest := r.2.2
  let t : CipherCtx × Bytes :=
    if 0 < rest.length then
      let e := magmaCtrGamma e
      ({ e with num := (e.num + rest.length) % 2^32 }, xorB (e.buf.take rest.length) rest)
    else (e, [])
  (t.1, p.2.1 ++ r.2.1 ++ t.2)

/-- The partial-block loop of `gost_cipher_do_cfb`, `/repo/gost_crypt.c` lines 962-969:
returns the final `j`, the new contents of `buf + 8`, the output, the rest of the input. -/
def cfbPart (enc : Bool) (buf : Bytes) : Nat → Bytes → Bytes → Nat × Bytes × Bytes × Bytes
  | j, stash, [] => (j, stash, [], [])
  | j, stash, x :: xs =>
    if j < 8 then
      let out := at_ buf j ^^^ x
      let stash := if enc then stash.set j out else stash.set j x
      let t := cfbPart enc buf (j + 1) stash xs
      (t.1, t.2.1, out :: t.2.2.1, t.2.2.2)
    else (j, stash, [], x :: xs)

/-- Loop body for whole blocks in `gost_cipher_do_cfb`, `/repo/gost_crypt.c` lines 979-998. -/
def cfbBody (e : CipherCtx) (blk : Bytes) : CipherCtx × Bytes :=
  let e := gost_crypt_mesh e
  let out := xorB e.buf blk
  ({ e with iv := if e.encrypting then out else blk }, out)

/-- Lines 979-1014 of `gost_cipher_do_cfb`: whole blocks and tail. -/
def cfbMain (e : CipherCtx) (inp : Bytes) : CipherCtx × Bytes :=
  let r := whileBlocks 8 cfbBody e inp
  let e := r.1
  let rest := r.2.2
  if 0 < rest.length then
    let e := gost_crypt_mesh e
    let out := xorB (e.buf.take rest.length) rest
    let stash := if e.encrypting then memcpy e.stash out rest.length
      else memcpy e.stash rest rest.length
    ({ e with num := rest.length, stash := stash }, r.2.1 ++ out)
  else ({ e with num := 0 }, r.2.1)

/-- `gost_cipher_do_cfb`, `/repo/gost_crypt.c` lines 952-1016. -/
def gost_cipher_do_cfb (e : CipherCtx) (inp : Bytes) : CipherCtx × Bytes :=
  if e.num ≠ 0 then
    let p := cfbPart e.encrypting e.buf e.num e.stash inp
    let e := { e with stash := p.2.1 }
    if p.1 = 8 then
      let r := cfbMain { e with iv := e.stash, num := 0 } p.2.2.2
      (r.1, p.2.2.1 ++ r.2)
    else ({ e with num := p.1 }, p.2.2.1)
  else cfbMain e inp

/-- Loop body for whole blocks in `gost_cipher_do_cnt`, `/repo/gost_crypt.c` lines 1040-1055. -/
def cntBody (e : CipherCtx) (blk : Bytes) : CipherCtx × Bytes :=
  let e := gost_cnt_next e
  (e, xorB e.buf blk)

/-- Lines 1040-1066 of `gost_cipher_do_cnt`: whole blocks and tail. -/
def cntMain (e : CipherCtx) (inp : Bytes) : CipherCtx × Bytes :=
  let r := whileBlocks 8 cntBody e inp
  let e := r.1
  let rest := r.2.2
  if 0 < rest.length then
    let e := gost_cnt_next e
    ({ e with num := rest.length }, r.2.1 ++ xorB (e.buf.take rest.length) rest)
  else ({ e with num := 0 }, r.2.1)

/-- `gost_cipher_do_cnt`, `/repo/gost_crypt.c` lines 1018-1068. -/
def gost_cipher_do_cnt (e : CipherCtx) (inp : Bytes) : CipherCtx × Bytes :=
  if e.num ≠ 0 then
    let p := xorPart 8 e.buf e.num inp
    if p.1 = 8 then
      let r := cntMain { e with num := 0 } p.2.2
      (r.1, p.2.1 ++ r.2)
    else ({ e with num := p.1 }, p.2.1)
  else cntMain e inp

/-- Result of a control call. -/
inductive CtlOp where
  /-- `EVP_CTRL_SET_SBOX`; `none`: the text is not a known name -/
  | setSbox (p : Option ParamNID)
  /-- `EVP_CTRL_KEY_MESH` -/
  | keyMesh (arg : Nat)

/-- `gost_cipher_ctl` for the two state-changing commands, `/repo/gost_crypt.c` lines 1186-1233. -/
def gost_cipher_ctl (e : CipherCtx) : CtlOp → CipherCtx × Int
  | .setSbox p =>
    if e.count ≠ 0 then (e, -1)
    else match p with
      | none => (e, 0)
      | some p =>
        let cur_meshing := e.key_meshing
        ({ gost_cipher_set_param e p with key_meshing := cur_meshing }, 1)
  | .keyMesh arg =>
    if e.count ≠ 0 then (e, -1) else ({ e with key_meshing := arg }, 1)

end Gost

namespace Gost

/-- `magma_cipher_ctl`, command `EVP_CTRL_KEY_MESH`, `/repo/gost_crypt.c` lines 1267-1283. -/
def magma_cipher_ctl_key_mesh (e : CipherCtx) (arg : Nat) : CipherCtx × Int :=
  if e.count ≠ 0 then (e, -1) else ({ e with key_meshing := arg }, 1)

end Gost
