import Verif.Model.KeyTransport

/-!
# The DER structures of the engine (`/repo/gost_asn1.c` lines 14-76)

The templates of `gost_asn1.c` as OpenSSL's `i2d` and `d2i` functions carry them out, on bytes.  What is written is DER.  What is read is
the part of BER with lengths given in advance (also with more length octets than needed, as `asn1_get_length` allows); OpenSSL accepts
also indefinite lengths and strings in pieces, which are refused here.  Numbers of OpenSSL's object table are in
`crypto/objects/objects.txt` (not in `/repo`; `/repo/gost.txt` is older): the identifiers written by the engine are given here, for all
others `OBJ_obj2nid` is a function `nid` on which nothing is assumed.
-/

namespace Gost.Asn

open Spec (beNat beBytes)

/-! ## Tag, length, contents -/

/-- `asn1_put_length`: the length octets of DER.  Lengths are of type `int`; for strings that are too long (where `i2d` fails) an octet
that no reader here accepts is written. -/
def putLen (n : Nat) : Bytes :=
  if n < 128 then [BitVec.ofNat 8 n]
  else if n < 256 then 0x81 :: beBytes 1 n
  else if n < 65536 then 0x82 :: beBytes 2 n
  else if n < 16777216 then 0x83 :: beBytes 3 n
  else if n < 2147483648 then 0x84 :: beBytes 4 n
  else [0x80]

/-- Tag, length and contents. -/
def tlv (tag : Byte) (x : Bytes) : Bytes := tag :: (putLen x.length ++ x)

/-- `asn1_get_length` without the indefinite form: the length and what follows. -/
def getLen : Bytes → Option (Nat × Bytes)
  | [] => none
  | b :: r =>
    if b.toNat < 128 then some (b.toNat, r)
    else if b.toNat % 128 = 0 ∨ r.length < b.toNat % 128 ∨ 2 ^ 63 ≤ beNat (r.take (b.toNat % 128)) then none
    else some (beNat (r.take (b.toNat % 128)), r.drop (b.toNat % 128))

/-- `ASN1_get_object`: tag, contents and what follows.  Tags of more than one octet are refused: no template has one. -/
def getTlv : Bytes → Option (Byte × Bytes × Bytes)
  | [] => none
  | t :: r =>
    if t.toNat % 32 = 31 then none
    else
      match getLen r with
      | none => none
      | some (n, s) => if s.length < n then none else some (t, s.take n, s.drop n)

/-- A field with a given tag. -/
def field (tag : Byte) (b : Bytes) : Option (Bytes × Bytes) :=
  match getTlv b with
  | none => none
  | some (t, x, r) => if t = tag then some (x, r) else none

/-- `ASN1_OPT`, `ASN1_IMP_OPT`: absent at the end and when the tag is another one. -/
def optField (tag : Byte) (b : Bytes) : Option (Option Bytes × Bytes) :=
  if b = [] then some (none, [])
  else
    match getTlv b with
    | none => none
    | some (t, x, r) => if t = tag then some (some x, r) else some (none, b)

/-- Nothing may follow the last field of a SEQUENCE. -/
def atEnd (b : Bytes) : Option Unit := if b = [] then some () else none

/-! ## Object identifiers -/

/-- The octets of an identifier, `ossl_c2i_ASN1_OBJECT`: not empty, the last octet ends a subidentifier, no subidentifier begins with
0x80. -/
def oidOk (o : Bytes) : Bool :=
  (match o.getLast? with | none => false | some b => b.toNat < 128) &&
  (List.range o.length).all fun i => !(o.getD i 0 = 0x80 && (i = 0 || (o.getD (i - 1) 0).toNat < 128))

/-- An OBJECT field. -/
def getOid (b : Bytes) : Option (Bytes × Bytes) :=
  match field 6 b with
  | none => none
  | some (o, r) => if oidOk o then some (o, r) else none

/-- The identifiers of the curves. -/
def curveOids : List (Bytes × CurveNid) := [
  ([0x2A, 0x85, 3, 2, 2, 35, 0], .Test), ([0x2A, 0x85, 3, 2, 2, 35, 1], .CryptoPro_A), ([0x2A, 0x85, 3, 2, 2, 35, 2], .CryptoPro_B),
  ([0x2A, 0x85, 3, 2, 2, 35, 3], .CryptoPro_C), ([0x2A, 0x85, 3, 2, 2, 36, 0], .CryptoPro_XchA), ([0x2A, 0x85, 3, 2, 2, 36, 1], .CryptoPro_XchB),
  ([0x2A, 0x85, 3, 7, 1, 2, 1, 1, 1], .tc26_256_paramSetA), ([0x2A, 0x85, 3, 7, 1, 2, 1, 1, 2], .tc26_256_paramSetB),
  ([0x2A, 0x85, 3, 7, 1, 2, 1, 1, 3], .tc26_256_paramSetC), ([0x2A, 0x85, 3, 7, 1, 2, 1, 1, 4], .tc26_256_paramSetD),
  ([0x2A, 0x85, 3, 7, 1, 2, 1, 2, 0], .tc26_512_paramSetTest), ([0x2A, 0x85, 3, 7, 1, 2, 1, 2, 1], .tc26_512_paramSetA),
  ([0x2A, 0x85, 3, 7, 1, 2, 1, 2, 2], .tc26_512_paramSetB), ([0x2A, 0x85, 3, 7, 1, 2, 1, 2, 3], .tc26_512_paramSetC)]

/-- The identifiers of the digests in key parameters. -/
def hashOids : List (Bytes × HashNid) := [
  ([0x2A, 0x85, 3, 2, 2, 30, 1], .r3411_94_CryptoPro), ([0x2A, 0x85, 3, 7, 1, 1, 2, 2], .r3411_2012_256),
  ([0x2A, 0x85, 3, 7, 1, 1, 2, 3], .r3411_2012_512), ([0x2A, 0x85, 3, 2, 2, 30, 0], .other)]

/-- The identifiers of the substitution blocks. -/
def paramOids : List (Bytes × ParamNID) := [
  ([0x2A, 0x85, 3, 2, 2, 31, 0], .test), ([0x2A, 0x85, 3, 2, 2, 31, 1], .cryptoProA), ([0x2A, 0x85, 3, 2, 2, 31, 2], .cryptoProB),
  ([0x2A, 0x85, 3, 2, 2, 31, 3], .cryptoProC), ([0x2A, 0x85, 3, 2, 2, 31, 4], .cryptoProD), ([0x2A, 0x85, 3, 7, 1, 2, 5, 1, 1], .tc26Z)]

/-- The identifiers of the key types. -/
def pkeyOids : List (Bytes × PkeyNid) := [
  ([0x2A, 0x85, 3, 2, 2, 19], .gost2001), ([0x2A, 0x85, 3, 2, 2, 98], .gost2001DH), ([0x2A, 0x85, 3, 7, 1, 1, 1, 1], .gost2012_256),
  ([0x2A, 0x85, 3, 7, 1, 1, 1, 2], .gost2012_512)]

/-- `OBJ_obj2nid` on a table. -/
def ofOid {α : Type} (l : List (Bytes × α)) (o : Bytes) : Option α := (l.find? (fun e => e.1 = o)).map (·.2)

/-- `OBJ_nid2obj` on a table: nothing if there is no identifier. -/
def toOid {α : Type} [DecidableEq α] (l : List (Bytes × α)) (a : α) : Option Bytes := (l.find? (fun e => e.2 = a)).map (·.1)

/-- An OBJECT field as it is written: `asn1_ex_i2c` writes nothing for an empty identifier (`OBJ_nid2obj(NID_undef)`). -/
def putOid (o : Option Bytes) : Bytes := match o with | none => [] | some o => tlv 6 o

/-! ## The structures -/

/-- `GOST_KEY_PARAMS`, `/repo/gost_asn1.c` lines 36-42. -/
def encParams (v : KeyParams) : Bytes :=
  tlv 0x30 (putOid (toOid curveOids v.key_params) ++ match v.hash_params with | none => [] | some h => putOid (toOid hashOids h))

/-- An optional OBJECT. -/
def optOid (b : Bytes) : Option (Option Bytes × Bytes) :=
  match optField 6 b with
  | none => none
  | some (none, r) => some (none, r)
  | some (some o, r) => if oidOk o then some (some o, r) else none

def decParams (nid : Bytes → Nat) (b : Bytes) : Option (KeyParams × Bytes) := do
  let (x, rest) ← field 0x30 b
  let (c, r) ← getOid x
  let (h, r) ← optOid r
  let (_, r) ← optOid r
  atEnd r
  some (⟨(ofOid curveOids c).getD (.other (nid c)), h.map fun o => (ofOid hashOids o).getD .other⟩, rest)

/-- `MASKED_GOST_KEY`, `/repo/gost_asn1.c` lines 62-67. -/
def encMasked (key pub : Bytes) : Bytes := tlv 0x30 (tlv 4 key ++ tlv 4 pub)

def decMasked (b : Bytes) : Option ((Bytes × Bytes) × Bytes) := do
  let (x, rest) ← field 0x30 b
  let (k, r) ← field 4 x
  let (p, r) ← field 4 r
  atEnd r
  some ((k, p), rest)

/-- `GOST_CIPHER_PARAMS`, `/repo/gost_asn1.c` lines 44-49. -/
def enc89 (iv : Bytes) (p : Option ParamNID) : Bytes := tlv 0x30 (tlv 4 iv ++ putOid (p.bind (toOid paramOids)))

/-- An identifier as `OBJ_obj2nid` sees it. -/
def asnObj (nid : Bytes → Nat) (o : Bytes) : AsnObj :=
  match ofOid paramOids o with
  | some p => .known p
  | none => if nid o = 0 then .undef else .foreign

def dec89 (nid : Bytes → Nat) (b : Bytes) : Option ((Bytes × AsnObj) × Bytes) := do
  let (x, rest) ← field 0x30 b
  let (iv, r) ← field 4 x
  let (o, r) ← getOid r
  atEnd r
  some ((iv, asnObj nid o), rest)

/-- `GOST2015_CIPHER_PARAMS`, `/repo/gost_asn1.c` lines 51-54. -/
def enc2015 (u : Bytes) : Bytes := tlv 0x30 (tlv 4 u)

def dec2015 (b : Bytes) : Option (Bytes × Bytes) := do
  let (x, rest) ← field 0x30 b
  let (u, r) ← field 4 x
  atEnd r
  some (u, rest)

/-- The contents of an `X509_PUBKEY` (`SubjectPublicKeyInfo`): the algorithm (with the parameters as they are, or none) and the BIT STRING
of the key octets. -/
def encPub (k : KeyInfo) : Bytes :=
  tlv 0x30 (putOid (k.algor.alg.bind (toOid pkeyOids)) ++ match k.algor.params with | .seq der => der | .other => []) ++ tlv 3 (0 :: k.key)

/-- The contents of a BIT STRING, `ossl_c2i_ASN1_BIT_STRING`: the first octet is the number of unused bits, which are cleared. -/
def bits : Bytes → Option Bytes
  | [] => none
  | u :: d =>
    if 7 < u.toNat then none
    else if u = 0 then some d
    else match d.getLast? with
      | none => none
      | some z => some (d.dropLast ++ [z &&& (0xFF <<< u.toNat)])

/-- The parameters of an algorithm: an optional value of any type; a SEQUENCE is kept as it is. -/
def anyParams (b : Bytes) : Option AsnType :=
  if b = [] then some .other
  else
    match getTlv b with
    | some (t, _, []) => some (if t = 0x30 then .seq b else .other)
    | _ => none

def decPub (b : Bytes) : Option KeyInfo := do
  let (a, r) ← field 0x30 b
  let (o, p) ← getOid a
  let params ← anyParams p
  let (x, r) ← field 3 r
  atEnd r
  let key ← bits x
  some ⟨⟨ofOid pkeyOids o, params⟩, key⟩

/-- `GOST_KEY_TRANSPORT` with `GOST_KEY_INFO` and `GOST_KEY_AGREEMENT_INFO`, `/repo/gost_asn1.c` lines 14-34: the second part and the
ephemeral key have the tag [0] instead of that of a SEQUENCE.  An identifier that is no substitution block is not written by the engine. -/
def encKt (v : KtInfo) : Bytes :=
  tlv 0x30 (tlv 0x30 (tlv 4 v.encrypted_key ++ tlv 4 v.imit) ++
    tlv 0xA0 (putOid (match v.cipher with | .known p => toOid paramOids p | _ => none) ++
      (match v.ephem with | none => [] | some k => tlv 0xA0 (encPub k)) ++ tlv 4 v.eph_iv))

def decKt (nid : Bytes → Nat) (b : Bytes) : Option (KtInfo × Bytes) := do
  let (x, rest) ← field 0x30 b
  let (ki, r) ← field 0x30 x
  let (ek, k) ← field 4 ki
  let (im, k) ← field 4 k
  atEnd k
  let (ka, r) ← field 0xA0 r
  atEnd r
  let (o, r) ← getOid ka
  let (e, r) ← optField 0xA0 r
  let (iv, r) ← field 4 r
  atEnd r
  let ephem ← match e with | none => some none | some p => (decPub p).map some
  some (⟨ek, im, asnObj nid o, ephem, iv⟩, rest)

/-- `PSKeyTransport_gost`, `/repo/gost_asn1.c` lines 70-76. -/
def encPs (v : PsInfo) : Bytes :=
  tlv 0x30 (tlv 4 v.psexp ++ tlv 0x30 (encPub v.ephem) ++ match v.ukm with | none => [] | some u => tlv 4 u)

def decPs (b : Bytes) : Option (PsInfo × Bytes) := do
  let (x, rest) ← field 0x30 b
  let (p, r) ← field 4 x
  let (k, r) ← field 0x30 r
  let (u, r) ← optField 4 r
  atEnd r
  let ephem ← decPub k
  some (⟨p, ephem, u⟩, rest)

/-! ## The coders the other models take as arguments -/

/-- INTEGER, `ossl_c2i_ASN1_INTEGER`: not empty, no superfluous first octet; negative numbers are left out. -/
def decInteger (b : Bytes) : Option Nat := do
  let (x, _) ← field 2 b
  match x with
  | [] => none
  | [y] => if y.toNat < 128 then some y.toNat else none
  | y :: z :: r => if y.toNat ≥ 128 ∨ (y = 0 ∧ z.toNat < 128) then none else some (beNat (y :: z :: r))

/-- The DER functions for the structures of a key; bytes after the structure are left alone by `d2i`. -/
def keyDer (nid : Bytes → Nat) : KeyDer where
  encParams := encParams
  decParams b := (decParams nid b).map (·.1)
  encOctet := tlv 4
  decOctet b := (field 4 b).map (·.1)
  encObject c := putOid (toOid curveOids c)
  decObject b := (getOid b).map fun r => (ofOid curveOids r.1).getD (.other (nid r.1))
  decInteger := decInteger
  decMasked b := (decMasked b).map (·.1.1)

/-- The DER functions for the key transport structures. -/
def ktDer (nid : Bytes → Nat) : KtDer where
  encKt := encKt
  decKt b := (decKt nid b).map (·.1)
  encPs := encPs
  decPs b := (decPs b).map (·.1)

/-- The DER functions for the parameters of the ciphers. -/
def asn1Codec (nid : Bytes → Nat) : Asn1Codec where
  enc2015 := enc2015
  dec2015 b := (dec2015 b).map (·.1)
  enc89 := enc89
  dec89 b := (dec89 nid b).map (·.1)

end Gost.Asn
