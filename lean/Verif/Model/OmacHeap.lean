import Verif.Model.KeyExp
import Verif.Model.OmacAcpkm

/-!
# The memory of the OMAC digests

Models `/repo/gost_omac.c` and `/repo/gost_omac_acpkm.c` with the pointer `cmac_ctx` of their digest data as a pointer into a heap, and
the functions of OpenSSL that call their methods: `EVP_DigestInit_ex`, `EVP_MD_CTX_ctrl`, `EVP_DigestUpdate`, `EVP_DigestFinal_ex`,
`EVP_MD_CTX_copy_ex`, `EVP_MD_CTX_reset` for a digest made by `EVP_MD_meth_new`.

`none` is undefined behaviour: memory used after it was freed, freed twice, or a NULL pointer.

Simplified: allocation never fails; the cipher is found and `CMAC_Init` succeeds.
-/

namespace Gost

/-- Memory: the objects allocated and not freed; addresses are not used again. -/
structure Heap (α : Type) where
  obj : Nat → Option α
  next : Nat

variable {α β : Type}

/-- `CMAC_CTX_new`/`CMAC_ACPKM_CTX_new` and what is written at once. -/
def Heap.alloc (h : Heap α) (a : α) : Heap α × Nat :=
  ({ obj := fun q => if q = h.next then some a else h.obj q, next := h.next + 1 }, h.next)

/-- `CMAC_CTX_free`/`CMAC_ACPKM_CTX_free`: nothing for NULL. -/
def Heap.free (h : Heap α) : Option Nat → Option (Heap α)
  | none => some h
  | some p => (h.obj p).map fun _ => { h with obj := fun q => if q = p then none else h.obj q }

/-- Writing an allocated object. -/
def Heap.write (h : Heap α) (p : Nat) (a : α) : Heap α := { h with obj := fun q => if q = p then some a else h.obj q }

/-- The object a pointer points to; `none`: the pointer is NULL or the object freed. -/
def Heap.deref (h : Heap α) (p : Option Nat) : Option α := p.bind h.obj

/-- Digest data: the pointer `cmac_ctx` and the other members. -/
structure PtrData (β : Type) where
  ptr : Option Nat
  f : β

/-- The control commands. -/
inductive MdCtrl where
  | setKey (arg : Int) (key : Bytes)
  | xofLen (n : Int)
  | tlstree (seq : Bytes)
  | keyMesh (N T : Int)

/-- The methods of a digest. -/
structure HeapMd (α β : Type) where
  zero : β
  init : PtrData β → PtrData β
  update : Heap α → PtrData β → Bytes → Option (Heap α × PtrData β × Int)
  final : Heap α → PtrData β → Option (Heap α × PtrData β × Int × Bytes)
  copy : Heap α → PtrData β → PtrData β → Option (Heap α × PtrData β × Int)
  cleanup : Heap α → PtrData β → Option (Heap α × PtrData β)
  ctrl : Heap α → PtrData β → MdCtrl → Option (Heap α × PtrData β × Int)

/-! ## OMAC -/

/-- `CMAC_CTX` of libcrypto: cipher, key and the data so far. -/
structure CmacObj where
  cipher : OmacCipher
  key : Bytes
  data : Bytes

/-- `OMAC_CTX` without the pointer, `/repo/gost_omac.c` lines 19-37. -/
structure OmacF where
  dgst_size : Nat
  cipher_name : Option OmacCipher
  key_set : Bool
  key : Bytes

/-- All bytes zero. -/
def OmacF.zero : OmacF := { dgst_size := 0, cipher_name := none, key_set := false, key := zeros 32 }

/-- `omac_init`, `/repo/gost_omac.c` lines 41-59: `memset` loses the pointer. -/
def hOmacInit (n : OmacCipher) (_d : PtrData OmacF) : PtrData OmacF :=
  { ptr := none, f := { OmacF.zero with cipher_name := some n, dgst_size := n.block } }

/-- `omac_imit_update`, `/repo/gost_omac.c` lines 71-80. -/
def hOmacUpdate (h : Heap CmacObj) (d : PtrData OmacF) (x : Bytes) : Option (Heap CmacObj × PtrData OmacF × Int) :=
  if !d.f.key_set then some (h, d, 0)
  else
    match d.ptr, h.deref d.ptr with
    | some p, some a => some (h.write p { a with data := a.data ++ x }, d, 1)
    | _, _ => none

/-- `omac_imit_final`, `/repo/gost_omac.c` lines 82-97. -/
def hOmacFinal (X : Crypto) (h : Heap CmacObj) (d : PtrData OmacF) : Option (Heap CmacObj × PtrData OmacF × Int × Bytes) :=
  if !d.f.key_set then some (h, d, 0, [])
  else
    match h.deref d.ptr with
    | some a => some (h, d, 1, (X.cmac a.cipher a.key a.data).take d.f.dgst_size)
    | none => none

/-- `omac_imit_copy`, `/repo/gost_omac.c` lines 99-124; `CMAC_CTX_copy` into a NULL or freed object: undefined. -/
def hOmacCopy (h : Heap CmacObj) (dst src : PtrData OmacF) : Option (Heap CmacObj × PtrData OmacF × Int) :=
  match src.ptr with
  | none =>
    match dst.ptr with
    | none => some (h, { ptr := none, f := src.f }, 1)
    | some p => (h.free (some p)).map fun h => (h, { ptr := none, f := src.f }, 1)
  | some p =>
    match h.obj p with
    | none => none
    | some a =>
      if dst.ptr = some p then some ((h.alloc a).1, { ptr := some (h.alloc a).2, f := src.f }, 1)
      else
        match dst.ptr, h.deref dst.ptr with
        | some q, some _ => some (h.write q a, { ptr := some q, f := src.f }, 1)
        | _, _ => none

/-- `omac_imit_cleanup`, `/repo/gost_omac.c` lines 127-136. -/
def hOmacCleanup (h : Heap CmacObj) (d : PtrData OmacF) : Option (Heap CmacObj × PtrData OmacF) :=
  (h.free d.ptr).map fun h => (h, { ptr := none, f := OmacF.zero })

/-- `omac_key`, `/repo/gost_omac.c` lines 138-155: the old object is freed. -/
def hOmacKey (h : Heap CmacObj) (d : PtrData OmacF) (n : OmacCipher) (key : Bytes) : Option (Heap CmacObj × PtrData OmacF) :=
  (h.free d.ptr).map fun h =>
    ((h.alloc { cipher := n, key := key.take 32, data := [] }).1,
     { ptr := some (h.alloc { cipher := n, key := key.take 32, data := [] }).2, f := { d.f with key_set := true } })

/-- `omac_imit_ctrl`, `/repo/gost_omac.c` lines 158-258, for the digest of the cipher `n` (`EVP_MD_is_a` in lines 172-175 finds it). -/
def hOmacCtrl (X : Crypto) (n : OmacCipher) (h : Heap CmacObj) (d : PtrData OmacF) : MdCtrl → Option (Heap CmacObj × PtrData OmacF × Int)
  | .setKey arg key =>
    if arg = 0 ∨ arg = 32 then
      (hOmacKey h (hOmacInit n d) n key).map fun r => (r.1, { r.2 with f := { r.2.f with key := key.take 32 } }, 1)
    else some (h, hOmacInit n d, 0)
  | .xofLen arg =>
    match d.f.cipher_name with
    | none => none
    | some m => if arg < 1 ∨ arg > m.block then some (h, d, 0) else some (h, { d with f := { d.f with dgst_size := arg.toNat } }, 1)
  | .tlstree seq =>
    if d.f.key_set then
      match d.f.cipher_name with
      | none => none
      | some m =>
        match gost_tlstree X m d.f.key seq with
        | none => some (h, d, 0)
        | some k => (hOmacKey h d m k).map fun r => (r.1, r.2, 1)
    else some (h, d, 0)
  | .keyMesh _ _ => some (h, d, 0)

/-- `magma_mac_digest`, `grasshopper_mac_digest`, `/repo/gost_omac.c` lines 260-287. -/
def omacMd (X : Crypto) (n : OmacCipher) : HeapMd CmacObj OmacF where
  zero := OmacF.zero
  init := hOmacInit n
  update := hOmacUpdate
  final := hOmacFinal X
  copy := hOmacCopy
  cleanup := hOmacCleanup
  ctrl := hOmacCtrl X n

/-! ## OMAC-ACPKM -/

/-- `OMAC_ACPKM_CTX` without the pointer, `/repo/gost_omac_acpkm.c` lines 302-307; `named`: `cipher_name` is not NULL. -/
structure OmacAcpkmF where
  dgst_size : Nat
  named : Bool
  key_set : Bool

/-- All bytes zero. -/
def OmacAcpkmF.zero : OmacAcpkmF := { dgst_size := 0, named := false, key_set := false }

/-- `omac_acpkm_init`, `/repo/gost_omac_acpkm.c` lines 311-325. -/
def hAcpkmInit (_d : PtrData OmacAcpkmF) : PtrData OmacAcpkmF := { ptr := none, f := { dgst_size := 16, named := true, key_set := false } }

/-- `omac_acpkm_imit_update`, `/repo/gost_omac_acpkm.c` lines 332-342. -/
def hAcpkmUpdate (h : Heap CmacCtx) (d : PtrData OmacAcpkmF) (x : Bytes) : Option (Heap CmacCtx × PtrData OmacAcpkmF × Int) :=
  if !d.f.key_set then some (h, d, 0)
  else
    match d.ptr, h.deref d.ptr with
    | some p, some a =>
      match CMAC_ACPKM_Update a x with
      | none => some (h, d, 0)
      | some a => some (h.write p a, d, 1)
    | _, _ => none

/-- `omac_acpkm_imit_final`, `/repo/gost_omac_acpkm.c` lines 344-361; a failing `CMAC_ACPKM_Final` has written nothing into the local
buffer copied to the caller (such a call does not occur, and is `none` here). -/
def hAcpkmFinal (h : Heap CmacCtx) (d : PtrData OmacAcpkmF) : Option (Heap CmacCtx × PtrData OmacAcpkmF × Int × Bytes) :=
  if !d.f.key_set then some (h, d, 0, [])
  else
    match d.ptr, h.deref d.ptr with
    | some p, some a =>
      match (CMAC_ACPKM_Final a).2 with
      | none => none
      | some mac => some (h.write p (CMAC_ACPKM_Final a).1, d, 1, mac.take d.f.dgst_size)
    | _, _ => none

/-- `CMAC_ACPKM_CTX_copy`, `/repo/gost_omac_acpkm.c` lines 100-117, from the object `a` to the object `b`: the new contents of `b`, and
the value returned.  (`EVP_CIPHER_CTX_copy` copies all of a cipher context.) -/
def cmacAcpkmCopy (b a : CmacCtx) : CmacCtx × Int :=
  match a.nlast_block with
  | none => (b, 0)
  | some _ => (a, 1)

/-- `omac_acpkm_imit_copy`, `/repo/gost_omac_acpkm.c` lines 363-387. -/
def hAcpkmCopy (h : Heap CmacCtx) (dst src : PtrData OmacAcpkmF) : Option (Heap CmacCtx × PtrData OmacAcpkmF × Int) :=
  match src.ptr with
  | none =>
    match dst.ptr with
    | none => some (h, { ptr := none, f := src.f }, 1)
    | some p => (h.free (some p)).map fun h => (h, { ptr := none, f := src.f }, 1)
  | some p =>
    match h.obj p with
    | none => none
    | some a =>
      if dst.ptr = some p ∨ dst.ptr = none then
        some ((h.alloc (cmacAcpkmCopy CMAC_ACPKM_CTX_new a).1).1,
          { ptr := some (h.alloc (cmacAcpkmCopy CMAC_ACPKM_CTX_new a).1).2, f := src.f }, (cmacAcpkmCopy CMAC_ACPKM_CTX_new a).2)
      else
        match dst.ptr, h.deref dst.ptr with
        | some q, some b => some (h.write q (cmacAcpkmCopy b a).1, { ptr := some q, f := src.f }, (cmacAcpkmCopy b a).2)
        | _, _ => none

/-- `omac_acpkm_imit_cleanup`, `/repo/gost_omac_acpkm.c` lines 390-399. -/
def hAcpkmCleanup (h : Heap CmacCtx) (d : PtrData OmacAcpkmF) : Option (Heap CmacCtx × PtrData OmacAcpkmF) :=
  (h.free d.ptr).map fun h => (h, { ptr := none, f := OmacAcpkmF.zero })

/-- `omac_acpkm_key`, `/repo/gost_omac_acpkm.c` lines 401-418: no object is freed. -/
def hAcpkmKey (h : Heap CmacCtx) (d : PtrData OmacAcpkmF) (key : Bytes) : Heap CmacCtx × PtrData OmacAcpkmF :=
  ((h.alloc (CMAC_ACPKM_Init CMAC_ACPKM_CTX_new key)).1,
   { ptr := some (h.alloc (CMAC_ACPKM_Init CMAC_ACPKM_CTX_new key)).2, f := { d.f with key_set := true } })

/-- The section sizes, `/repo/gost_omac_acpkm.c` lines 471-486, on the object pointed to. -/
def cmacKeyMesh (m : CmacCtx) (arg T : Int) : CmacCtx × Int :=
  if T ≠ 0 then
    ({ m with section_size := (arg % 2^32).toNat, actx := (evpCipherCtrl (gost_grasshopper_cipher_ctl_key_mesh m.actx T)).1 },
     if (evpCipherCtrl (gost_grasshopper_cipher_ctl_key_mesh m.actx T)).2 = 0 then 0 else 1)
  else ({ m with section_size := (arg % 2^32).toNat }, 1)

/-- `omac_acpkm_imit_ctrl`, `/repo/gost_omac_acpkm.c` lines 420-515. -/
def hAcpkmCtrl (h : Heap CmacCtx) (d : PtrData OmacAcpkmF) : MdCtrl → Option (Heap CmacCtx × PtrData OmacAcpkmF × Int)
  | .setKey arg key =>
    if arg = 0 ∨ arg = 32 then some ((hAcpkmKey h (hAcpkmInit d) key).1, (hAcpkmKey h (hAcpkmInit d) key).2, 1)
    else some (h, hAcpkmInit d, 0)
  | .xofLen arg =>
    if !d.f.named then none
    else if arg < 1 ∨ arg > 16 then some (h, d, 0) else some (h, { d with f := { d.f with dgst_size := arg.toNat } }, 1)
  | .tlstree _ => some (h, d, 0)
  | .keyMesh N T =>
    if N = 0 ∨ N.tmod 16 ≠ 0 then some (h, d, -1)
    else
      match d.ptr, h.deref d.ptr with
      | some p, some a => some (h.write p (cmacKeyMesh a N T).1, d, (cmacKeyMesh a N T).2)
      | _, _ => none

/-- `kuznyechik_ctracpkm_omac_digest`, `/repo/gost_omac_acpkm.c` lines 517-529. -/
def acpkmMd : HeapMd CmacCtx OmacAcpkmF where
  zero := OmacAcpkmF.zero
  init := hAcpkmInit
  update := hAcpkmUpdate
  final := hAcpkmFinal
  copy := hAcpkmCopy
  cleanup := hAcpkmCleanup
  ctrl := hAcpkmCtrl

/-! ## The EVP functions -/

/-- An `EVP_MD_CTX`: digest data (`none`: no digest set), `EVP_MD_CTX_FLAG_CLEANED`, `EVP_MD_CTX_FLAG_NO_INIT`. -/
structure EvpMdCtx (β : Type) where
  data : Option (PtrData β)
  cleaned : Bool
  noInit : Bool

/-- Memory and all the contexts of the program (those not used are new ones). -/
structure MdState (α β : Type) where
  heap : Heap α
  ctx : Nat → EvpMdCtx β

/-- A call: contexts are numbered; `copy`: from the first to the second. -/
inductive MdOp where
  | init (i : Nat)
  | ctrl (i : Nat) (c : MdCtrl)
  | update (i : Nat) (x : Bytes)
  | final (i : Nat)
  | copy (i j : Nat)
  | reset (i : Nat)

def MdCtrl.isSetKey : MdCtrl → Bool
  | .setKey _ _ => true
  | _ => false

/-- One context replaced. -/
def setCtx {γ : Type} (c : Nat → γ) (i : Nat) (e : γ) : Nat → γ := fun k => if k = i then e else c k

/-- The `cleanup` method as called by `EVP_MD_CTX_reset`: unless the data are marked as cleaned. -/
def evpCleanup (M : HeapMd α β) (h : Heap α) (e : EvpMdCtx β) : Option (Heap α) :=
  match e.data with
  | none => some h
  | some d => if e.cleaned then some h else (M.cleanup h d).map (·.1)

/-- The EVP functions of OpenSSL 3.0, `crypto/evp/digest.c`, for one digest `M`: the value returned and the MAC written. -/
def mdStep (M : HeapMd α β) (s : MdState α β) : MdOp → Option (MdState α β × Int × Bytes)
  | .init i =>
    let d := (s.ctx i).data.getD { ptr := none, f := M.zero }
    if (s.ctx i).noInit then some ({ s with ctx := setCtx s.ctx i { s.ctx i with data := some d, cleaned := false } }, 1, [])
    else some ({ s with ctx := setCtx s.ctx i { s.ctx i with data := some (M.init d), cleaned := false } }, 1, [])
  | .ctrl i c =>
    match (s.ctx i).data with
    | none => some (s, 0, [])
    | some d =>
      (M.ctrl s.heap d c).map fun r =>
        ({ heap := r.1, ctx := setCtx s.ctx i { s.ctx i with data := some r.2.1, noInit := (s.ctx i).noInit || c.isSetKey } },
         if r.2.2 ≤ 0 then 0 else r.2.2, [])
  | .update i x =>
    if x = [] then some (s, 1, [])
    else
      match (s.ctx i).data with
      | none => none
      | some d =>
        (M.update s.heap d x).map fun r =>
          ({ heap := r.1, ctx := setCtx s.ctx i { s.ctx i with data := some r.2.1 } }, r.2.2, [])
  | .final i =>
    match (s.ctx i).data with
    | none => none
    | some d =>
      (M.final s.heap d).bind fun r => (M.cleanup r.1 r.2.1).map fun c =>
        ({ heap := c.1, ctx := setCtx s.ctx i { s.ctx i with data := some c.2, cleaned := true } }, r.2.2.1, r.2.2.2)
  | .copy i j =>
    if i = j then none
    else
      match (s.ctx i).data with
      | none => some (s, 0, [])
      | some d =>
        (evpCleanup M s.heap (s.ctx j)).bind fun h => (M.copy h d d).map fun r =>
          ({ heap := r.1, ctx := setCtx s.ctx j { s.ctx i with data := some r.2.1 } }, r.2.2, [])
  | .reset i =>
    (evpCleanup M s.heap (s.ctx i)).map fun h =>
      ({ heap := h, ctx := setCtx s.ctx i { data := none, cleaned := false, noInit := false } }, 1, [])

/-- A history: what the calls return, and the state reached. -/
def mdRun (M : HeapMd α β) : MdState α β → List MdOp → Option (MdState α β × List (Int × Bytes))
  | s, [] => some (s, [])
  | s, o :: os => (mdStep M s o).bind fun r => (mdRun M r.1 os).map fun t => (t.1, r.2 :: t.2)

/-- Before anything happened. -/
def mdStart : MdState α β := { heap := { obj := fun _ => none, next := 0 }, ctx := fun _ => { data := none, cleaned := false, noInit := false } }

end Gost
