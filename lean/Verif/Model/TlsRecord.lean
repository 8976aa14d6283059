import Verif.Model.OmacHeap
import Verif.Model.Imit
import Verif.Model.GostModes
import Verif.Model.KuzModes
import Verif.Spec.Stream
import Verif.Spec.Gost28147

/-!
# TLS records

The calls the record layer of libssl makes on the digest and cipher contexts of the engine when it protects a record (cipher suites
`GOST2012-KUZNYECHIK-KUZNYECHIKOMAC`, `GOST2012-MAGMA-MAGMAOMAC`, `GOST2012-GOST8912-GOST8912` and the older ones with GOST 28147-89),
MAC first, then encryption.  The record layer itself (`tls1_mac`, `tls1_enc` of OpenSSL, `ssl/record/`) is not part of the repository:
only the order of its calls is modelled here, as the comment in `/repo/gost_crypt.c` lines 1299-1305 describes it: the sequence number is
incremented after the MAC was computed, so that the sender passes the argument 1 (take one away) with the control, the receiver 0.
-/

namespace Gost

/-- The calls of one cipher suite on the MAC contexts `μ` and on the cipher context `κ`. `mac`: sequence number, header, data; `crypt`:
argument of the control, sequence number, data. `none`: a call failed. -/
structure TlsSuite (μ κ : Type) where
  mac : μ → Bytes → Bytes → Bytes → Option (μ × Bytes)
  crypt : κ → Int → Bytes → Bytes → Option (κ × Bytes)
  macSize : Nat

/-- One direction of a connection at one of its ends. -/
structure TlsEnd (μ κ : Type) where
  hash : μ
  ds : κ
  seq : Bytes

/-- The record layer's increment of the sequence number (eight bytes, big-endian). -/
def seqNext (seq : Bytes) : Bytes := Spec.beBytes 8 ((Spec.beNat seq + 1) % 2^64)

/-- What is authenticated before the data: sequence number, type, version (TLS 1.2), length. -/
def tlsHeader (seq : Bytes) (typ : Byte) (len : Nat) : Bytes := seq ++ [typ, 3, 3] ++ Spec.beBytes 2 len

variable {μ κ : Type}

/-- Sending a record of a type and a content: the record is its type and its encrypted fragment. -/
def tlsSeal (S : TlsSuite μ κ) (e : TlsEnd μ κ) (r : Byte × Bytes) : Option (TlsEnd μ κ × Byte × Bytes) :=
  (S.mac e.hash e.seq (tlsHeader e.seq r.1 r.2.length) r.2).bind fun m =>
    (S.crypt e.ds 1 (seqNext e.seq) (r.2 ++ m.2)).map fun c => (⟨m.1, c.1, seqNext e.seq⟩, r.1, c.2)

/-- Receiving a record; `none`: it is refused and the connection is closed. -/
def tlsOpen (S : TlsSuite μ κ) (e : TlsEnd μ κ) (r : Byte × Bytes) : Option (TlsEnd μ κ × Byte × Bytes) :=
  (S.crypt e.ds 0 e.seq r.2).bind fun c =>
    if c.2.length < S.macSize then none
    else
      let p := c.2.take (c.2.length - S.macSize)
      (S.mac e.hash e.seq (tlsHeader e.seq r.1 p.length) p).bind fun m =>
        if c.2.drop (c.2.length - S.macSize) = m.2 then some (⟨m.1, c.1, seqNext e.seq⟩, r.1, p) else none

/-- Sending (receiving) records one after the other. -/
def tlsAll (step : TlsEnd μ κ → Byte × Bytes → Option (TlsEnd μ κ × Byte × Bytes)) :
    TlsEnd μ κ → List (Byte × Bytes) → Option (TlsEnd μ κ × List (Byte × Bytes))
  | e, [] => some (e, [])
  | e, r :: rs => (step e r).bind fun s => (tlsAll step s.1 rs).map fun t => (t.1, s.2 :: t.2)

/-! ## The suites with OMAC -/

/-- The MAC of a record: the keyed context 0 is copied into a new one (1), `EVP_MD_CTRL_TLSTREE` with the sequence number, header and data
are fed, and `EVP_DigestSignFinal` takes the MAC from a copy (2) of it (the methods are registered without
`EVP_PKEY_FLAG_SIGCTX_CUSTOM`, `/repo/gost_eng.c` line 429), setting the size first (`pkey_gost_mac_signctx`, `/repo/gost_pmeth.c` lines 1014-1036,
with the sizes of lines 618-626). All calls must succeed (the return value of the size control is ignored by the code). -/
def omacRecord (X : Crypto) (n : OmacCipher) (s : MdState CmacObj OmacF) (seq hdr data : Bytes) : Option (MdState CmacObj OmacF × Bytes) :=
  match mdRun (omacMd X n) s [.copy 0 1, .ctrl 1 (.tlstree seq), .update 1 hdr, .update 1 data, .copy 1 2, .ctrl 2 (.xofLen n.block),
      .final 2, .reset 2, .reset 1] with
  | none => none
  | some r =>
    if r.2.map (·.1) = [1, 1, 1, 1, 1, 1, 1, 1, 1] then (r.2[6]?).map fun m => (r.1, m.2) else none

/-- The keyed MAC context of a connection. -/
def omacKeyed (X : Crypto) (n : OmacCipher) (key : Bytes) : Option (MdState CmacObj OmacF) :=
  (mdRun (omacMd X n) mdStart [.init 0, .ctrl 0 (.setKey 32 key)]).map (·.1)

/-- `TLS_GOSTR341112_256_WITH_MAGMA_CTR_OMAC`: the control (`/repo/gost_crypt.c` lines 1283-1328), then the data. -/
def magmaSuite (X : Crypto) : TlsSuite (MdState CmacObj OmacF) CipherCtx where
  mac := omacRecord X .magma
  crypt e arg seq d :=
    let r := magma_cipher_ctl_tlstree X e true arg seq
    if r.2 ≤ 0 then none else some (magma_cipher_do_ctr r.1 d)
  macSize := 8

/-- `TLS_GOSTR341112_256_WITH_KUZNYECHIK_CTR_OMAC` (`/repo/gost_grasshopper_cipher.c` lines 1115-1164). -/
def kuzSuite (X : Crypto) : TlsSuite (MdState CmacObj OmacF) KCtx where
  mac := omacRecord X .kuznyechik
  crypt e arg seq d :=
    let r := gost_grasshopper_cipher_ctl_tlstree X e true arg seq
    if r.2 ≤ 0 then none else some (gost_grasshopper_cipher_do_ctr r.1 d)
  macSize := 16

/-! ## The suites with GOST 28147-89 -/

/-- One context (`SSL_MAC_FLAG_*_MAC_STREAM`) sees the headers and data of all records; the MAC is taken from a copy of it,
its size having been set (`/repo/gost_pmeth.c` lines 1014-1036, `mac_size` 4 from line 578). `EVP_DigestUpdate`
does not call the digest for no data. -/
def imitRecord (c : ImitCtx) (_seq hdr data : Bytes) : Option (ImitCtx × Bytes) :=
  let r := gost_imit_update c hdr
  if r.2 ≤ 0 then none
  else
    let t := if data = [] then (r.1, 1) else gost_imit_update r.1 data
    if t.2 ≤ 0 then none else (gost_imit_final (gost_imit_set_len t.1 4).1).map fun m => (t.1, m)

/-- The cipher is one stream over all records; no control is called. -/
def gost89Suite : TlsSuite ImitCtx CipherCtx where
  mac := imitRecord
  crypt e _ _ d := some (gost_cipher_do_cnt e d)
  macSize := 4

end Gost
