import Verif.Model.KeyExp
import Verif.Spec.Stream
import Verif.Spec.Gost28147
import Mathlib.Data.Int.GCD

/-!
# GOST R 34.10 signatures, key generation, VKO, KEG and key serialisation

Model of `/repo/gost_ec_sign.c` (signature, verification, key generation, dispatch of the point multiplications),
`/repo/gost_ec_keyx.c` (VKO, KEG, derive), of the signature packing in `/repo/gost_pmeth.c` and of the raw key encodings in
`/repo/gost_ameth.c`.  The OpenSSL bignum functions are modelled by arithmetic on natural numbers; memory allocation does
not fail.  The point multiplications are parameters here (`EcGroup`); `Verif/Model/EcpField.lean` models the code that
implements them.
-/

namespace Gost

open Spec (leNat beNat leBytes beBytes)

/-- The parts of an `EC_GROUP` the engine uses (`/repo/gost_ec_sign.c` lines 87-168): generator, order, field
characteristic, cofactor, the affine coordinates of a point as returned by `EC_POINT_get_affine_coordinates` (which fails
at infinity), and the three multiplications among which `gost_ec_point_mul` chooses by the name of the curve (the functions
`point_mul_two_*`, `point_mul_g_*`, `point_mul_*` of the files `/repo/ecp_*.c`); `none` is a return value of 0. -/
structure EcGroup (G : Type) where
  gen : G
  order : Nat
  field : Nat
  cofactor : Nat
  coords : G → Option (Nat × Nat)
  mulTwo : Nat → G → Nat → Option G
  mulG : Nat → Option G
  mulVar : G → Nat → Option G

/-- `BN_num_bytes`: the number of bytes of the shortest big-endian encoding. -/
def BN_num_bytes (n : Nat) : Nat := if n = 0 then 0 else BN_num_bytes (n / 256) + 1
decreasing_by omega

/-- `BN_mod_inverse(NULL, a, n, ctx)`: fails (NULL) when `a` has no inverse, else the inverse in `0..n-1`. -/
def BN_mod_inverse (a n : Nat) : Option Nat :=
  if Nat.gcd a n = 1 then some ((Nat.gcdA a n % n).toNat) else none

variable {G : Type}

/-- `gost_ec_point_mul(group, r, n, q, m, ctx)`, `/repo/gost_ec_sign.c` lines 500-591. -/
def gost_ec_point_mul (E : EcGroup G) (n : Option Nat) (q : Option G) (m : Option Nat) : Option G :=
  match m, n with
  | some m, some n =>
    match q with
    | none => none
    | some q => E.mulTwo n q m
  | none, some n => E.mulG n
  | some m, none =>
    match q with
    | none => none
    | some q => E.mulVar q m
  | none, none => none

/-- Lines 215-231 and 370-386 of `/repo/gost_ec_sign.c`: the digest as a number modulo the order, 0 replaced by 1. -/
def digestNum (order : Nat) (dgst : Bytes) : Nat :=
  let e := leNat dgst % order
  if e = 0 then 1 else e

/-- The two nested `do ... while` loops of `gost_ec_sign`, `/repo/gost_ec_sign.c` lines 239-290.  `draws` are the values
`BN_rand_range` delivers; when they run out the random generator has failed. -/
def signLoop (E : EcGroup G) (priv_key e : Nat) : List Nat → Option (Nat × Nat)
  | [] => none
  | k :: draws =>
    match gost_ec_point_mul E (some k) none none with
    | none => none
    | some C =>
      match E.coords C with
      | none => none
      | some (X, _) =>
        let r := X % E.order
        if r = 0 then signLoop E priv_key e draws
        else
          let tmp := priv_key * r % E.order
          let tmp2 := k * e % E.order
          let s := (tmp + tmp2) % E.order
          if s = 0 then signLoop E priv_key e draws
          else some (r, s)

/-- `gost_ec_sign`, `/repo/gost_ec_sign.c` lines 175-310: the pair `(r, s)`, or `none` for NULL.  A digest whose length
is neither 32 nor 64 makes `OPENSSL_assert` abort the process, here `none`. -/
def gost_ec_sign (E : EcGroup G) (dgst : Bytes) (priv_key : Nat) (draws : List Nat) : Option (Nat × Nat) :=
  if dgst.length = 32 ∨ dgst.length = 64 then signLoop E priv_key (digestNum E.order dgst) draws
  else none

/-- `gost_ec_verify`, `/repo/gost_ec_sign.c` lines 316-442: the value returned.  `r` and `s` are the components of the
`ECDSA_SIG`, BIGNUMs that may be negative. -/
def gost_ec_verify (E : EcGroup G) (dgst : Bytes) (sig_r sig_s : Int) (pub_key : G) : Int :=
  if sig_s = 0 ∨ sig_r = 0 ∨ sig_s < 0 ∨ sig_r < 0 ∨ sig_s.natAbs ≥ E.order ∨ sig_r.natAbs ≥ E.order then 0
  else if ¬(dgst.length = 32 ∨ dgst.length = 64) then 0
  else
    let e := digestNum E.order dgst
    match BN_mod_inverse e E.order with
    | none => 0
    | some v =>
      let z1 := sig_s.natAbs * v % E.order
      let tmp := E.order - sig_r.natAbs
      let z2 := tmp * v % E.order
      match gost_ec_point_mul E (some z1) (some pub_key) (some z2) with
      | none => 0
      | some C =>
        match E.coords C with
        | none => 0
        | some (X, _) => if X % E.order ≠ sig_r.natAbs then 0 else 1

/-- `gost_ec_compute_public`, `/repo/gost_ec_sign.c` lines 449-498: the public key set, or `none` for 0. -/
def gost_ec_compute_public (E : EcGroup G) (priv_key : Nat) : Option G :=
  gost_ec_point_mul E (some priv_key) none none

/-- The loop of `gost_ec_keygen`, `/repo/gost_ec_sign.c` lines 621-627. -/
def keygenLoop : List Nat → Option Nat
  | [] => none
  | d :: draws => if d = 0 then keygenLoop draws else some d

/-- `gost_ec_keygen`, `/repo/gost_ec_sign.c` lines 599-643: the key pair, or `none` for 0. -/
def gost_ec_keygen (E : EcGroup G) (draws : List Nat) : Option (Nat × G) :=
  match keygenLoop draws with
  | none => none
  | some d =>
    match gost_ec_compute_public E d with
    | none => none
    | some Q => some (d, Q)

/-! ## Signature packing -/

/-- `store_bignum`, `/repo/gost_ameth.c` lines 28-37: contents of the buffer of `len` bytes afterwards, and the value
returned. -/
def store_bignum (bn : Nat) (buf : Bytes) (len : Nat) : Bytes × Int :=
  let bytes := BN_num_bytes bn
  if bytes > len then (buf, 0)
  else (zeros (len - bytes) ++ beBytes bytes bn, 1)

/-- `pack_sign_cp`, `/repo/gost_pmeth.c` lines 469-479: the signature written (`*siglen` is its length). -/
def pack_sign_cp (rs : Nat × Nat) (order : Nat) : Bytes :=
  let sig := zeros (2 * order)
  (store_bignum rs.2 (sig.take order) order).1 ++ (store_bignum rs.1 (sig.drop order) order).1

/-- `unpack_cp_signature`, `/repo/gost_pmeth.c` lines 520-534: `(r, s)`. -/
def unpack_cp_signature (sigbuf : Bytes) : Nat × Nat :=
  let h := sigbuf.length / 2
  (beNat ((sigbuf.drop h).take h), beNat (sigbuf.take h))

/-- The key types (NIDs of keys) of `/repo/gost_pmeth.c` lines 495-506. -/
inductive PkeyNid | gost2001 | gost2001DH | gost2012_256 | gost2012_512
deriving DecidableEq, Repr

/-- Signature size by key type, `/repo/gost_pmeth.c` lines 495-506. -/
def PkeyNid.sigLen : PkeyNid → Nat
  | .gost2012_512 => 128
  | _ => 64

/-- `pkey_gost_ec_cp_sign` with a buffer, `/repo/gost_pmeth.c` lines 481-516. -/
def pkey_gost_ec_cp_sign (E : EcGroup G) (nid : PkeyNid) (tbs : Bytes) (priv_key : Nat) (draws : List Nat) : Option Bytes :=
  match gost_ec_sign E tbs priv_key draws with
  | none => none
  | some rs => some (pack_sign_cp rs (nid.sigLen / 2))

/-- `pkey_gost_ec_cp_verify`, `/repo/gost_pmeth.c` lines 536-557. -/
def pkey_gost_ec_cp_verify (E : EcGroup G) (sig tbs : Bytes) (pub_key : G) : Int :=
  let rs := unpack_cp_signature sig
  gost_ec_verify E tbs rs.1 rs.2 pub_key

/-! ## VKO and KEG -/

/-- `BN_bn2lebinpad(n, buf, len)`: fails when the number does not fit. -/
def BN_bn2lebinpad (n len : Nat) : Option Bytes := if n < 256 ^ len then some (leBytes len n) else none

/-- `VKO_compute_key`, `/repo/gost_ec_keyx.c` lines 27-127.  `md` is the digest selected by `vko_dgst_nid`; `none` stands
for a return value of 0. -/
def VKO_compute_key (E : EcGroup G) (md : Bytes → Bytes) (pub_key : G) (priv_key : Nat) (ukm : Bytes) : Option Bytes := do
  let scalar := leNat ukm * priv_key % E.order
  let pnt ← gost_ec_point_mul E none (some pub_key) (some scalar)
  let (X, Y) ← E.coords pnt
  let half_len := BN_num_bytes E.field
  let x ← BN_bn2lebinpad X half_len
  let y ← BN_bn2lebinpad Y half_len
  some (md (x ++ y))

/-- Lines 136-147 of `/repo/gost_ec_keyx.c`: the 16 bytes of UKM handed to VKO. -/
def kegUkm (ukm_source : Bytes) : Bytes :=
  if ukm_source.take 16 = zeros 16 then zeros 15 ++ [1]
  else (ukm_source.take 16).reverse

/-- The label `"kdf tree"`, `/repo/gost_ec_keyx.c` line 168. -/
def kdfTreeLabel : Bytes := [0x6b, 0x64, 0x66, 0x20, 0x74, 0x72, 0x65, 0x65]

/-- `gost_keg`, `/repo/gost_ec_keyx.c` lines 132-180: the bytes written to `keyout`, or `none` for 0.  `md256` and `md512`
are Streebog. -/
def gost_keg (E : EcGroup G) (X : Crypto) (md256 md512 : Bytes → Bytes) (ukm_source : Bytes) (nid : PkeyNid) (pub_key : G)
    (priv_key : Nat) : Option Bytes :=
  match nid with
  | .gost2012_512 => VKO_compute_key E md512 pub_key priv_key (kegUkm ukm_source)
  | .gost2012_256 =>
    match VKO_compute_key E md256 pub_key priv_key (kegUkm ukm_source) with
    | none => none
    | some tmpkey => gost_kdftree2012_256 X 64 tmpkey kdfTreeLabel ((ukm_source.drop 16).take 8) 1
  | _ => none

/-! ## Private and public keys -/

/-- `unmask_priv_key`, `/repo/gost_ameth.c` lines 545-586: `buf` holds the masked key followed by `num_masks` masks, all of
`len` bytes; the loop runs from the last mask to the first. -/
def unmask_priv_key (q : Nat) (buf : Bytes) (len num_masks : Nat) : Nat :=
  let pknum_masked := leNat (buf.take len)
  (List.range num_masks).reverse.foldl
    (fun pknum i => pknum * leNat ((buf.drop ((i + 1) * len)).take len) % q) pknum_masked

/-- The DER decoders of OpenSSL used by `priv_decode_gost`: octet string, integer and the sequence holding a masked key. -/
structure DerIn where
  d2i_octet : Bytes → Option Bytes
  d2i_integer : Bytes → Option Nat
  d2i_masked : Bytes → Option Bytes

/-- Key length in bytes by key type, `pkey_bits_gost`, `/repo/gost_ameth.c` lines 39-54. -/
def PkeyNid.keyLen : PkeyNid → Nat
  | .gost2012_512 => 64
  | _ => 32

/-- The number read by `priv_decode_gost` from the private key octets, `/repo/gost_ameth.c` lines 588-665 (the parameters
have been decoded before).  The blob is assumed non-empty: for an empty one the code reads `expected_key_len` bytes beyond
its end. -/
def priv_decode_gost (D : DerIn) (q : Nat) (nid : PkeyNid) (pkey_buf : Bytes) : Option Nat :=
  let n := nid.keyLen
  if pkey_buf.length % n = 0 then some (unmask_priv_key q pkey_buf n (pkey_buf.length / n - 1))
  else if at_ pkey_buf 0 = 0x04 then
    match D.d2i_octet pkey_buf with
    | none => none
    | some s => if s.length ≠ 32 ∧ s.length ≠ 64 then none else some (leNat s)
  else if at_ pkey_buf 0 = 0x02 then D.d2i_integer pkey_buf
  else if at_ pkey_buf 0 = 0x30 then
    match D.d2i_masked pkey_buf with
    | none => none
    | some m => if m.length % n ≠ 0 then none else some (unmask_priv_key q m n (m.length / n - 1))
  else none

/-- The loop `for (i = 0; i < key_len / 2; i++)` swapping `buf[i]` and `buf[key_len - 1 - i]`, `/repo/gost_ameth.c` lines
696-700. -/
def swapLoop (key_len : Nat) : Nat → Nat → Bytes → Bytes
  | 0, _, buf => buf
  | fuel + 1, i, buf =>
    swapLoop key_len fuel (i + 1) ((buf.set i (at_ buf (key_len - 1 - i))).set (key_len - 1 - i) (at_ buf i))

/-- `priv_encode_gost`, `/repo/gost_ameth.c` lines 668-724: the private key octets; `wrap` is the `LEGACY_PK_WRAP` format
(then `i2d_octet` is OpenSSL's DER encoder). -/
def priv_encode_gost (i2d_octet : Bytes → Bytes) (wrap : Bool) (nid : PkeyNid) (priv_key : Nat) (buf0 : Bytes) : Option Bytes :=
  let key_len := nid.keyLen
  let (buf, ok) := store_bignum priv_key buf0 key_len
  if ok = 0 then none
  else
    let buf := swapLoop key_len (key_len / 2) 0 buf
    if wrap then some (i2d_octet buf) else some buf

/-- The octets of `pub_encode_gost_ec` (contents of the OCTET STRING), `/repo/gost_ameth.c` lines 996-1017; `none` when the
point has no coordinates. -/
def pub_encode_gost_ec (E : EcGroup G) (pub_key : G) : Option Bytes :=
  match E.coords pub_key with
  | none => none
  | some (X, Y) =>
    let data_len := 2 * BN_num_bytes E.order
    let databuf := zeros data_len
    let hi := (store_bignum X (databuf.drop (data_len / 2)) (data_len / 2)).1
    let lo := (store_bignum Y (databuf.take (data_len / 2)) (data_len / 2)).1
    some ((lo ++ hi).reverse)

/-- `pub_decode_gost_ec` on the contents of the OCTET STRING, `/repo/gost_ameth.c` lines 930-955; `ofCoords` is
`EC_POINT_set_affine_coordinates`, which fails for coordinates off the curve. -/
def pub_decode_gost_ec (ofCoords : Nat → Nat → Option G) (octet : Bytes) : Option G :=
  let databuf := octet.reverse
  let len := octet.length / 2
  let Y := beNat (databuf.take len)
  let X := beNat ((databuf.drop len).take len)
  ofCoords X Y

end Gost
