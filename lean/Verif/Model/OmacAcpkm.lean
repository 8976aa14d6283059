import Verif.Model.KuzModes

/-!
# OMAC-ACPKM (`/repo/gost_omac_acpkm.c`)

The only cipher the code accepts is Kuznyechik CBC, so the two inner `EVP_CIPHER_CTX` are `KCtx` and
`EVP_EncryptInit_ex` / `EVP_Cipher` on them are the callbacks of the two ciphers (`EVP_Cipher` hands its input over
unbuffered; a context whose cipher is unchanged is re-initialised in place). Allocation failures are not modelled.
`tbl` only receives the output of `EVP_Cipher` and is never read; it is left out.
-/

namespace Gost

/-- `struct CMAC_ACPKM_CTX_st`, `/repo/gost_omac_acpkm.c` lines 23-38; `nlast_block = none` is -1 (not initialised). -/
structure CmacCtx where
  cctx : KCtx
  actx : KCtx
  km : Bytes
  last_block : Bytes
  nlast_block : Option Nat
  section_size : Nat
  num : Nat

/-- `make_kn`, `/repo/gost_omac_acpkm.c` lines 44-56. -/
def make_kn (l : Bytes) (bl : Nat) : Bytes :=
  let k1 := (List.range bl).map fun i =>
    let b := at_ l i <<< 1
    if i < bl - 1 ∧ at_ l (i + 1) &&& 0x80 ≠ 0 then b ||| 1 else b
  if at_ l 0 &&& 0x80 ≠ 0 then
    k1.set (bl - 1) (at_ k1 (bl - 1) ^^^ (if bl = 16 then 0x87 else 0x1b))
  else k1

/-- `CMAC_ACPKM_CTX_new`, `/repo/gost_omac_acpkm.c` lines 58-78. -/
def CMAC_ACPKM_CTX_new : CmacCtx where
  cctx := freshKCtx
  actx := freshKCtx
  km := zeros 48
  last_block := zeros 16
  nlast_block := none
  section_size := 4096
  num := 0

/-- `CMAC_ACPKM_Init` with a cipher and a key, `/repo/gost_omac_acpkm.c` lines 119-179: first the two ciphers are set
without key, then the ACPKM-Master context gets the key and the IV `1^64 || 0^64` (of which the cipher uses its own 8 bytes),
the first key material is produced, and the CBC context gets its first 32 bytes as key and a zero IV. -/
def CMAC_ACPKM_Init (c : CmacCtx) (key : Bytes) : CmacCtx :=
  let cctx := gost_grasshopper_cipher_init_cbc c.cctx none none true
  let actx := gost_grasshopper_cipher_init_ctracpkm c.actx none none true
  let acpkm_iv := List.replicate 8 0xff ++ zeros 8
  let actx := gost_grasshopper_cipher_init_ctracpkm actx (some key) (some acpkm_iv) true
  let r := gost_grasshopper_cipher_do_ctracpkm actx (zeros 48)
  let cctx := gost_grasshopper_cipher_init_cbc cctx (some r.2) (some (zeros 16)) true
  { c with cctx := cctx, actx := r.1, km := r.2, nlast_block := some 0 }

/-- `CMAC_ACPKM_Mesh` with `CMAC_ACPKM_Master`, `/repo/gost_omac_acpkm.c` lines 183-203. -/
def CMAC_ACPKM_Mesh (c : CmacCtx) : CmacCtx :=
  if c.num < c.section_size then c
  else
    let r := gost_grasshopper_cipher_do_ctracpkm c.actx (zeros 48)
    { c with num := 0, actx := r.1, km := r.2
             cctx := gost_grasshopper_cipher_init_cbc c.cctx (some r.2) (some c.cctx.iv) true }

/-- Mesh, then one CBC block, then `num += bl` (`/repo/gost_omac_acpkm.c` lines 227-231, 235-241). -/
def cmacBlock (c : CmacCtx) (b : Bytes) : CmacCtx :=
  let c := CMAC_ACPKM_Mesh c
  { c with cctx := (gost_grasshopper_cipher_do_cbc c.cctx b).1, num := (c.num + 16) % 2^32 }

/-- The loop `while (dlen > bl)`, `/repo/gost_omac_acpkm.c` lines 234-242. -/
def cmacLoop (c : CmacCtx) (p : Bytes) : CmacCtx × Bytes :=
  if _h : 16 < p.length then cmacLoop (cmacBlock c (p.take 16)) (p.drop 16) else (c, p)
termination_by p.length
decreasing_by simp; omega

/-- Lines 233-246 of `CMAC_ACPKM_Update`. -/
def cmacRest (c : CmacCtx) (p : Bytes) : CmacCtx :=
  let r := cmacLoop c p
  { r.1 with last_block := memcpyTo r.1.last_block r.2 r.2.length, nlast_block := some r.2.length }

/-- `CMAC_ACPKM_Update`, `/repo/gost_omac_acpkm.c` lines 205-248; `none`: returns 0. -/
def CMAC_ACPKM_Update (c : CmacCtx) (data : Bytes) : Option CmacCtx :=
  match c.nlast_block with
  | none => none
  | some n =>
    if data.length = 0 then some c
    else if 0 < n then
      let nleft := if data.length < 16 - n then data.length else 16 - n
      let c := { c with last_block := c.last_block.take n ++ data.take nleft ++ c.last_block.drop (n + nleft)
                        nlast_block := some (n + nleft) }
      let data := data.drop nleft
      if data.length = 0 then some c
      else some (cmacRest (cmacBlock c c.last_block) data)
    else some (cmacRest c data)

/-- `CMAC_ACPKM_Final`, `/repo/gost_omac_acpkm.c` lines 251-296 (with a non-NULL `out`): the new context and the 16
output bytes; `none`: returns 0. -/
def CMAC_ACPKM_Final (c : CmacCtx) : CmacCtx × Option Bytes :=
  match c.nlast_block with
  | none => (c, none)
  | some lb =>
    let c := CMAC_ACPKM_Mesh c
    let k1 := c.km.drop 32
    let k2 := make_kn k1 16
    let last := if lb = 16 then c.last_block
      else c.last_block.take lb ++ [0x80] ++ (if 16 - lb > 1 then zeros (16 - lb - 1) else [])
    let out := xorB last (if lb = 16 then k1 else k2)
    let r := gost_grasshopper_cipher_do_cbc c.cctx out
    ({ c with last_block := last, km := zeros 48, cctx := r.1 }, some r.2)

/-- `OMAC_ACPKM_CTX`, `/repo/gost_omac_acpkm.c` lines 302-307; `cmac = none` is a NULL pointer. -/
structure OmacCtx where
  cmac : Option CmacCtx
  dgst_size : Nat
  key_set : Bool

/-- `omac_acpkm_init`, `/repo/gost_omac_acpkm.c` lines 311-325. -/
def omac_acpkm_init : OmacCtx := { cmac := none, dgst_size := 16, key_set := false }

/-- `omac_acpkm_imit_ctrl`, `EVP_MD_CTRL_SET_KEY` with a 32-byte key, `/repo/gost_omac_acpkm.c` lines 425-465, and
`omac_acpkm_key`, lines 397-415.  The init callback it calls clears the whole context. -/
def omac_acpkm_set_key (_c : OmacCtx) (key : Bytes) : OmacCtx × Int :=
  ({ omac_acpkm_init with cmac := some (CMAC_ACPKM_Init CMAC_ACPKM_CTX_new key), key_set := true }, 1)

/-- `EVP_CIPHER_CTX_ctrl` of OpenSSL on the result of a cipher's control function: -1 (`EVP_CTRL_RET_UNSUPPORTED`) becomes 0. -/
def evpCipherCtrl (r : KCtx × Int) : KCtx × Int := (r.1, if r.2 = -1 then 0 else r.2)

/-- `omac_acpkm_imit_ctrl`, `EVP_CTRL_KEY_MESH`, `/repo/gost_omac_acpkm.c` lines 466-489: `arg` is the section size `N`, `T` the value
pointed to by `ptr` (0 for a NULL pointer).  The ACPKM-Master cipher is always the method of line 143, which has no provider, so the
branch of lines 472-476 is taken.  `N` is stored before `T` is looked at.  `none`: NULL pointer dereference (no key set yet). -/
def omac_acpkm_key_mesh (c : OmacCtx) (arg T : Int) : Option (OmacCtx × Int) :=
  if arg = 0 ∨ arg.tmod 16 ≠ 0 then some (c, -1)
  else match c.cmac with
    | none => none
    | some m =>
      let m := { m with section_size := (arg % 2^32).toNat }
      if T ≠ 0 then
        let r := evpCipherCtrl (gost_grasshopper_cipher_ctl_key_mesh m.actx T)
        if r.2 = 0 then some ({ c with cmac := some { m with actx := r.1 } }, 0)
        else some ({ c with cmac := some { m with actx := r.1 } }, 1)
      else some ({ c with cmac := some m }, 1)

/-- `omac_acpkm_imit_ctrl`, `EVP_MD_CTRL_XOF_LEN`, `/repo/gost_omac_acpkm.c` lines 490-515. -/
def omac_acpkm_set_len (c : OmacCtx) (arg : Int) : OmacCtx × Int :=
  if arg < 1 ∨ arg > 16 then (c, 0) else ({ c with dgst_size := arg.toNat }, 1)

/-- `omac_acpkm_imit_update`, `/repo/gost_omac_acpkm.c` lines 332-342; `none`: returns 0. -/
def omac_acpkm_imit_update (c : OmacCtx) (data : Bytes) : Option OmacCtx :=
  if ¬ c.key_set then none
  else c.cmac.bind fun m => (CMAC_ACPKM_Update m data).map fun m => { c with cmac := some m }

/-- `omac_acpkm_imit_final`, `/repo/gost_omac_acpkm.c` lines 344-361: the bytes written to `md`; `none`: returns 0. -/
def omac_acpkm_imit_final (c : OmacCtx) : Option Bytes :=
  if ¬ c.key_set then none
  else c.cmac.bind fun m => (CMAC_ACPKM_Final m).2.map fun mac => mac.take c.dgst_size

end Gost
