import Verif.Model.Ameth
import Verif.Spec.Der
import Verif.Props.EcpFiles
import Verif.Props.EcEncode

/-!
# C57: keys written as SubjectPublicKeyInfo or PKCS#8 and read back; parameter and key generation

`D` is any set of DER functions (OpenSSL's); the round trips assume `D.Sound`.
-/

namespace Gost

open Spec (leNat beNat leBytes beBytes ecOf)

/-! ## A concrete DER coder, to show that `KeyDer.Sound` can be met -/

namespace DerKey

/-- Contents of the OBJECT IDENTIFIERs of the curves. -/
def curveOid : CurveNid → Bytes
  | .Test => [0x2A, 0x85, 3, 2, 2, 0x23, 0]
  | .CryptoPro_A => [0x2A, 0x85, 3, 2, 2, 0x23, 1]
  | .CryptoPro_B => [0x2A, 0x85, 3, 2, 2, 0x23, 2]
  | .CryptoPro_C => [0x2A, 0x85, 3, 2, 2, 0x23, 3]
  | .CryptoPro_XchA => [0x2A, 0x85, 3, 2, 2, 0x24, 0]
  | .CryptoPro_XchB => [0x2A, 0x85, 3, 2, 2, 0x24, 1]
  | .tc26_256_paramSetA => [0x2A, 0x85, 3, 7, 1, 2, 1, 1, 1]
  | .tc26_256_paramSetB => [0x2A, 0x85, 3, 7, 1, 2, 1, 1, 2]
  | .tc26_256_paramSetC => [0x2A, 0x85, 3, 7, 1, 2, 1, 1, 3]
  | .tc26_256_paramSetD => [0x2A, 0x85, 3, 7, 1, 2, 1, 1, 4]
  | .tc26_512_paramSetTest => [0x2A, 0x85, 3, 7, 1, 2, 1, 2, 0]
  | .tc26_512_paramSetA => [0x2A, 0x85, 3, 7, 1, 2, 1, 2, 1]
  | .tc26_512_paramSetB => [0x2A, 0x85, 3, 7, 1, 2, 1, 2, 2]
  | .tc26_512_paramSetC => [0x2A, 0x85, 3, 7, 1, 2, 1, 2, 3]
  | .other _ => [0x2A, 3]

def namedCurves : List CurveNid :=
  [.Test, .CryptoPro_A, .CryptoPro_B, .CryptoPro_C, .CryptoPro_XchA, .CryptoPro_XchB, .tc26_256_paramSetA, .tc26_256_paramSetB,
   .tc26_256_paramSetC, .tc26_256_paramSetD, .tc26_512_paramSetTest, .tc26_512_paramSetA, .tc26_512_paramSetB, .tc26_512_paramSetC]

def findCurve (o : Bytes) : CurveNid := (namedCurves.find? fun c => curveOid c == o).getD (.other 0)

def hashOid : HashNid → Bytes
  | .r3411_94_CryptoPro => [0x2A, 0x85, 3, 2, 2, 0x1E, 1]
  | .r3411_2012_256 => [0x2A, 0x85, 3, 7, 1, 1, 2, 2]
  | .r3411_2012_512 => [0x2A, 0x85, 3, 7, 1, 1, 2, 3]
  | .other => [0x2A, 3]

def findHash (o : Bytes) : HashNid :=
  ([HashNid.r3411_94_CryptoPro, .r3411_2012_256, .r3411_2012_512].find? fun c => hashOid c == o).getD .other

/-- Definite-length DER for the structures of a key. -/
def coder : KeyDer where
  encParams v := Der.tlv 0x30 (Der.tlv 6 (curveOid v.key_params) ++ (v.hash_params.map fun h => Der.tlv 6 (hashOid h)).getD [])
  decParams b := do
    let (body, _) ← Der.expect 0x30 b
    let (o, r) ← Der.expect 6 body
    match Der.expect 6 r with
    | none => some ⟨findCurve o, none⟩
    | some (h, _) => some ⟨findCurve o, some (findHash h)⟩
  encOctet := Der.tlv 4
  decOctet b := (Der.expect 4 b).map (·.1)
  encObject c := Der.tlv 6 (curveOid c)
  decObject b := (Der.expect 6 b).map fun o => findCurve o.1
  decInteger b := (Der.expect 2 b).map fun o => beNat o.1
  decMasked b := do
    let (body, _) ← Der.expect 0x30 b
    let (m, _) ← Der.expect 4 body
    some m

theorem findCurve_oid (c : CurveNid) (h : ∀ n, c ≠ .other n) : findCurve (curveOid c) = c := by
  cases c <;> first | rfl | exact absurd rfl (h _)

theorem findHash_oid (h : HashNid) : findHash (hashOid h) = h := by
  cases h <;> rfl

theorem curveOid_length (c : CurveNid) : (curveOid c).length ≤ 9 := by cases c <;> simp [curveOid]

theorem hashOid_length (c : HashNid) : (hashOid c).length ≤ 9 := by cases c <;> decide

theorem coder_sound : coder.Sound where
  params v hv := by
    have h1 := curveOid_length v.key_params
    have t1 := Der.tlv_length 6 (curveOid v.key_params)
    cases hh : v.hash_params with
    | none =>
      simp only [coder, hh, Option.map_none, Option.getD_none, List.append_nil]
      rw [Der.expect_tlv' _ _ (by omega)]
      simp only [Option.bind_eq_bind, Option.bind_some]
      rw [Der.expect_tlv' _ _ (by omega)]
      simp only [Option.bind_some]
      rw [findCurve_oid _ hv]
      cases v; simp only at hh; subst hh; rfl
    | some h =>
      have h2 := hashOid_length h
      have t2 := Der.tlv_length 6 (hashOid h)
      simp only [coder, hh, Option.map_some, Option.getD_some]
      rw [Der.expect_tlv' _ _ (by rw [List.length_append]; omega)]
      simp only [Option.bind_eq_bind, Option.bind_some]
      rw [Der.expect_tlv _ _ _ (by omega)]
      simp only [Option.bind_some]
      rw [Der.expect_tlv' _ _ (by omega)]
      simp only
      rw [findCurve_oid _ hv, findHash_oid]
      cases v; simp only at hh; subst hh; rfl
  octet x hx := by
    simp only [coder]
    rw [Der.expect_tlv' _ _ hx]
    rfl
  octet_header x hx := by
    simp only [coder, Der.tlv, Der.len, if_pos hx]
    rfl
  object c hc := by
    have h1 := curveOid_length c
    simp only [coder]
    rw [Der.expect_tlv' _ _ (by omega)]
    simp only [Option.map_some]
    rw [findCurve_oid _ hc]

end DerKey

/-! ## Algorithm parameters -/

theorem named_of_fill {history : List (Option CurveNid)} {c : CurveNid} {g : EcGroupRec} (h : (fill_GOST_EC_params (cacheAfter history) c).2 = some g) :
    g.name = c ∧ ∀ n, c ≠ .other n := by
  obtain ⟨e, he, rfl⟩ := filled h
  refine ⟨rfl, ?_⟩
  rintro n rfl
  rw [C46_nid_selects] at he
  cases he

theorem fill_history {h1 h2 : List (Option CurveNid)} {c : CurveNid} {g : EcGroupRec} (h : (fill_GOST_EC_params (cacheAfter h1) c).2 = some g) :
    (fill_GOST_EC_params (cacheAfter h2) c).2 = some g := by
  rw [C46_fill_any_history] at h ⊢
  exact h

theorem decode_nid_params_eq (history : List (Option CurveNid)) (pk : EvpPkey) (c : CurveNid) :
    (gost_decode_nid_params (cacheAfter history) pk c).2 =
      ((fill_GOST_EC_params (cacheAfter history) c).2).map fun g => { pk with group := some g } := by
  unfold gost_decode_nid_params
  rcases fill_GOST_EC_params (cacheAfter history) c with ⟨c', _ | g⟩ <;> rfl

theorem encode_params_eq (D : KeyDer) {history : List (Option CurveNid)} {c : CurveNid} {g : EcGroupRec}
    (h : (fill_GOST_EC_params (cacheAfter history) c).2 = some g) (nid : PkeyNid) (priv : Option Nat) (pub : Option EcPoint) :
    encode_gost_algor_params D ⟨nid, some g, priv, pub⟩ = some (D.encParams ⟨c, hashParams nid c⟩) := by
  obtain ⟨h1, h2⟩ := named_of_fill h
  unfold encode_gost_algor_params
  simp only
  rw [h1, if_neg (h2 0)]

theorem decode_params_eq (D : KeyDer) (hD : D.Sound) {history : List (Option CurveNid)} {c : CurveNid} {g : EcGroupRec}
    (h : (fill_GOST_EC_params (cacheAfter history) c).2 = some g) (nid : PkeyNid) (hash : Option HashNid) (history' : List (Option CurveNid)) :
    ∃ cache', decode_gost_algor_params D (cacheAfter history') ⟨some nid, .seq (D.encParams ⟨c, hash⟩)⟩ =
      (cache', some ⟨nid, some g, none, none⟩) := by
  obtain ⟨h1, h2⟩ := named_of_fill h
  unfold decode_gost_algor_params
  simp only
  rw [hD.params ⟨c, hash⟩ h2]
  simp only
  have := decode_nid_params_eq history' ⟨nid, none, none, none⟩ c
  rw [fill_history h] at this
  exact ⟨_, Prod.ext rfl this⟩

/-- Sizes of the tables: the order and the field of a curve have the same number of bytes, 32 or 64. -/
theorem order_bytes {c : CurveNid} {e : EcParams} (h : gost_nid2params c = some e) :
    (BN_num_bytes e.q = 32 ∨ BN_num_bytes e.q = 64) ∧ e.p < 256 ^ BN_num_bytes e.q := by
  have key : ∀ e ∈ R3410_2001_paramset ++ R3410_2012_512_paramset, e.p < 256 ^ (if e.p < 2 ^ 256 then 32 else 64) ∧
      256 ^ (if e.p < 2 ^ 256 then 31 else 63) ≤ e.q ∧ e.q < 256 ^ (if e.p < 2 ^ 256 then 32 else 64) := by decide +kernel
  obtain ⟨h1, h2, h3⟩ := key e (selected_mem h)
  by_cases hc : e.p < 2 ^ 256
  · simp only [if_pos hc] at h1 h2 h3
    rw [numBytes_32 h2 h3]; exact ⟨Or.inl rfl, h1⟩
  · simp only [if_neg hc] at h1 h2 h3
    rw [numBytes_64 h2 h3]; exact ⟨Or.inr rfl, h1⟩

/-! ## Public keys -/

/-- **C57**: a public key written as SubjectPublicKeyInfo: the algorithm is the type of the key, the parameters name its curve, the
key octets are `x || y`, little-endian in the size of the curve; and reading it back, in any process that has used any curves before,
gives the same type, the same curve under the same name and the same point.  For every key type, every built-in curve and every point
with coordinates below `p` that satisfies the equation. -/
theorem C57_public_key_roundtrip (D : KeyDer) (hD : D.Sound) (ws : WordSize) (ossl : EcpFile) (history : List (Option CurveNid))
    (c : CurveNid) (g : EcGroupRec) (hfill : (fill_GOST_EC_params (cacheAfter history) c).2 = some g) (nid : PkeyNid) (priv : Option Nat)
    (x y : Nat) (hx : x < g.p) (hy : y < g.p) (hxy : y ^ 2 % g.p = (x ^ 3 + g.a * x + g.b) % g.p) :
    ∃ ki : KeyInfo, pub_encode D ws ossl ⟨nid, some g, priv, some (some (x, y))⟩ = some ki ∧
      ki.algor.alg = some nid ∧
      (∃ der hash, ki.algor.params = .seq der ∧ D.decParams der = some ⟨c, hash⟩) ∧
      (∃ n, (n = 32 ∨ n = 64) ∧ D.decOctet ki.key = some (leBytes n x ++ leBytes n y)) ∧
      ∀ history' : List (Option CurveNid),
        (pub_decode D (cacheAfter history') ki).2 = some ⟨nid, some g, none, some (some (x, y))⟩ := by
  have hn := named_of_fill hfill
  obtain ⟨e, he, rfl⟩ := filled hfill
  obtain ⟨hb, hp⟩ := order_bytes he
  have hx' : x < e.p := hx
  have hy' : y < e.p := hy
  obtain ⟨h1, h2⟩ := C42_pub_decode_encode (engineGroup ws ossl (groupOf e c)) (groupOf e c).point (some (x, y)) x y rfl
    (lt_trans hx' hp) (lt_trans hy' hp)
  have h2 := h2 _ h1
  change pub_encode_gost_ec (engineGroup ws ossl (groupOf e c)) (some (x, y)) = some (leBytes (BN_num_bytes e.q) x ++ leBytes (BN_num_bytes e.q) y) at h1
  change pub_decode_gost_ec (groupOf e c).point (leBytes (BN_num_bytes e.q) x ++ leBytes (BN_num_bytes e.q) y) = (groupOf e c).point x y at h2
  have hlen : (leBytes (BN_num_bytes e.q) x ++ leBytes (BN_num_bytes e.q) y).length < 65536 := by
    rcases hb with h | h <;> rw [h] <;> simp
  refine ⟨⟨⟨some nid, .seq (D.encParams ⟨c, hashParams nid c⟩)⟩, D.encOctet (leBytes (BN_num_bytes e.q) x ++ leBytes (BN_num_bytes e.q) y)⟩, ?_, rfl,
    ⟨_, hashParams nid c, rfl, hD.params ⟨c, _⟩ hn.2⟩, ⟨_, hb, hD.octet _ hlen⟩, ?_⟩
  · unfold pub_encode
    rw [encode_params_eq D hfill]
    simp only
    rw [h1]
  · intro history'
    obtain ⟨cache', hd⟩ := decode_params_eq D hD hfill nid (hashParams nid c) history'
    unfold pub_decode
    rw [hd]
    simp only
    rw [hD.octet _ hlen]
    simp only
    rw [h2]
    have hs : (groupOf e c).setAffine x y = true := by
      unfold EcGroupRec.setAffine
      exact beq_iff_eq.2 hxy
    have hpt : (groupOf e c).point x y = some (some (x, y)) := by
      unfold EcGroupRec.point
      rw [if_pos hs]
      change some (some (x % e.p, y % e.p)) = _
      rw [Nat.mod_eq_of_lt hx', Nat.mod_eq_of_lt hy']
    rw [hpt]

/-- **C57**: whatever bytes are read as a public key, a key that comes out has the type the algorithm says, the built-in curve the
parameters name, no private part, and a point other than infinity with coordinates below `p` that satisfies the equation of the
curve. -/
theorem C57_decoded_public_on_curve (D : KeyDer) (history : List (Option CurveNid)) (ki : KeyInfo) (pk : EvpPkey)
    (h : (pub_decode D (cacheAfter history) ki).2 = some pk) :
    ki.algor.alg = some pk.nid ∧ pk.priv = none ∧
    ∃ (der : Bytes) (v : KeyParams) (e : EcParams) (x y : Nat), ki.algor.params = .seq der ∧ D.decParams der = some v ∧
      gost_nid2params v.key_params = some e ∧ pk.group = some (groupOf e v.key_params) ∧ pk.pub = some (some (x, y)) ∧ x < e.p ∧ y < e.p ∧
      y ^ 2 % e.p = (x ^ 3 + e.a * x + e.b) % e.p := by
  unfold pub_decode decode_gost_algor_params at h
  rcases ki with ⟨⟨alg, params⟩, key⟩
  cases params with
  | other => cases h
  | seq der =>
    simp only at h
    cases hv : D.decParams der with
    | none => rw [hv] at h; cases h
    | some v =>
      rw [hv] at h
      simp only at h
      cases alg with
      | none => cases h
      | some nid =>
        simp only at h
        have hd := decode_nid_params_eq history ⟨nid, none, none, none⟩ v.key_params
        rcases hg : gost_decode_nid_params (cacheAfter history) ⟨nid, none, none, none⟩ v.key_params with ⟨c', r⟩
        rw [hg] at h hd
        simp only at hd
        cases hf : (fill_GOST_EC_params (cacheAfter history) v.key_params).2 with
        | none => rw [hf] at hd; subst hd; cases h
        | some g =>
          rw [hf] at hd
          subst hd
          simp only [Option.map_some] at h
          obtain ⟨e, he, rfl⟩ := filled hf
          cases ho : D.decOctet key with
          | none => rw [ho] at h; cases h
          | some octet =>
            rw [ho] at h
            simp only [pub_decode_gost_ec] at h
            generalize beNat (octet.reverse.take (octet.length / 2)) = Y at h
            generalize beNat ((octet.reverse.drop (octet.length / 2)).take (octet.length / 2)) = X at h
            have hpos : 0 < e.p := (C46_selected_standard _ e he).prime_p.pos
            cases hs : (groupOf e v.key_params).setAffine X Y with
            | false =>
              have : (groupOf e v.key_params).point X Y = none := by unfold EcGroupRec.point; rw [hs]; rfl
              rw [this] at h; cases h
            | true =>
              have hpt : (groupOf e v.key_params).point X Y = some (some (X % e.p, Y % e.p)) := by
                unfold EcGroupRec.point; rw [hs]; rfl
              rw [hpt] at h
              simp only [Option.some.injEq] at h
              subst h
              refine ⟨rfl, rfl, der, v, e, X % e.p, Y % e.p, rfl, hv, he, rfl, rfl, Nat.mod_lt _ hpos, Nat.mod_lt _ hpos, ?_⟩
              have hs' : Y ^ 2 % e.p = (X ^ 3 + e.a * X + e.b) % e.p := by
                unfold EcGroupRec.setAffine at hs
                exact beq_iff_eq.1 hs
              rw [← Nat.pow_mod, hs', Nat.add_mod, Nat.add_mod (X ^ 3), Nat.pow_mod X, Nat.mul_mod e.a X]
              conv_rhs => rw [Nat.add_mod, Nat.add_mod ((X % e.p) ^ 3), Nat.mul_mod e.a (X % e.p), Nat.mod_mod]

/-- **C57**: a key without a public part, or whose public point is infinity, is not written. -/
theorem C57_infinity_not_encoded (D : KeyDer) (ws : WordSize) (ossl : EcpFile) (pk : EvpPkey) (h : pk.pub = none ∨ pk.pub = some none) :
    pub_encode D ws ossl pk = none := by
  unfold pub_encode
  rcases h with h | h <;> rw [h]
  · split
    · rename_i h2; cases h2
    · rfl
  · split
    · rename_i h1 h2 h3
      cases h3
      rfl
    · rfl

/-! ## Private keys -/

/-- **C57**: a private key written as PKCS#8, in the plain or in the wrapped format, and read back is the same key (type, curve, private
number) with the public key that belongs to it; and it is refused exactly when the number does not fit the size of the key type. -/
theorem C57_private_key_roundtrip (D : KeyDer) (hD : D.Sound) (ws : WordSize) (ossl : EcpFile) (wrap : Bool) (history : List (Option CurveNid))
    (c : CurveNid) (g : EcGroupRec) (hfill : (fill_GOST_EC_params (cacheAfter history) c).2 = some g) (nid : PkeyNid) (pub : Option EcPoint)
    (d : Nat) (buf0 : Bytes) (Q : EcPoint) (hQ : gost_ec_compute_public (engineGroup ws ossl g) d = some Q) :
    (priv_encode D wrap ⟨nid, some g, some d, pub⟩ buf0 = none ↔ 256 ^ nid.keyLen ≤ d) ∧
    ∀ ki, priv_encode D wrap ⟨nid, some g, some d, pub⟩ buf0 = some ki →
      ∀ history' : List (Option CurveNid), (priv_decode D ws ossl (cacheAfter history') ki).2 = some ⟨nid, some g, some d, some Q⟩ := by
  have hki : ∀ x : Bytes, x.length = 32 ∨ x.length = 64 → D.priv.d2i_octet (D.encOctet x) = some x ∧ at_ (D.encOctet x) 0 = 4 ∧
      (D.encOctet x).length = x.length + 2 := by
    intro x hx
    have h1 := hD.octet_header x (by omega)
    refine ⟨hD.octet x (by omega), ?_, ?_⟩ <;> rw [h1]
    · rfl
    · rfl
  constructor
  · unfold priv_encode
    simp only
    rw [encode_params_eq D hfill]
    have : priv_encode_gost D.encOctet wrap nid d buf0 = none ↔ 256 ^ nid.keyLen ≤ d := by
      cases wrap with
      | false =>
        rw [C42_priv_encode]
        split
        · rename_i h; simp; exact h
        · rename_i h; simp; omega
      | true =>
        unfold priv_encode_gost
        simp only [if_true]
        by_cases hd : d < 256 ^ nid.keyLen
        · rw [(C42_store_bignum d _ buf0).2 hd]; simp; exact hd
        · rw [(C42_store_bignum d _ buf0).1 (by omega)]; simp; omega
    rw [← this]
    cases priv_encode_gost D.encOctet wrap nid d buf0 <;> simp
  · intro ki hk history'
    unfold priv_encode at hk
    simp only at hk
    rw [encode_params_eq D hfill] at hk
    cases ho : priv_encode_gost D.encOctet wrap nid d buf0 with
    | none => rw [ho] at hk; cases hk
    | some octets =>
      rw [ho] at hk
      simp only [Option.some.injEq] at hk
      subst hk
      obtain ⟨cache', hd⟩ := decode_params_eq D hD hfill nid (hashParams nid c) history'
      have hnum : priv_decode_gost D.priv g.q nid octets = some d := by
        cases wrap with
        | false => exact C42_priv_decode_encode D.priv g.q D.encOctet nid d buf0 octets ho
        | true => exact C42_priv_decode_encode_wrapped D.priv g.q D.encOctet hki nid d buf0 octets ho
      unfold priv_decode
      rw [hd]
      simp only
      rw [hnum]
      simp only [gost_set_priv_key, computePublic]
      rw [hQ]

/-- **C57**: the digest named in the parameters of a written key, public or private: GOST R 34.11-94 for the 2001 key types; Streebog of the
size of the key for the 2012 types on the curves that existed before 2012-512 (paramSets Test, A, B, C, XchA, XchB) respectively
the 512-bit Test, A and B, and none on every other curve. -/
theorem C57_digest_parameter (D : KeyDer) (hD : D.Sound) (ws : WordSize) (ossl : EcpFile) (wrap : Bool) (history : List (Option CurveNid))
    (c : CurveNid) (g : EcGroupRec) (hfill : (fill_GOST_EC_params (cacheAfter history) c).2 = some g) (nid : PkeyNid) (priv : Option Nat)
    (pub : Option EcPoint) (buf0 : Bytes) (ki : KeyInfo)
    (h : pub_encode D ws ossl ⟨nid, some g, priv, pub⟩ = some ki ∨ priv_encode D wrap ⟨nid, some g, priv, pub⟩ buf0 = some ki) :
    ∃ der hash, ki.algor.params = .seq der ∧ D.decParams der = some ⟨c, hash⟩ ∧
      (nid = .gost2001 ∨ nid = .gost2001DH → hash = some .r3411_94_CryptoPro) ∧
      (nid = .gost2012_256 → (c = .Test ∨ c = .CryptoPro_A ∨ c = .CryptoPro_B ∨ c = .CryptoPro_C ∨ c = .CryptoPro_XchA ∨ c = .CryptoPro_XchB →
          hash = some .r3411_2012_256) ∧
        (c ≠ .Test → c ≠ .CryptoPro_A → c ≠ .CryptoPro_B → c ≠ .CryptoPro_C → c ≠ .CryptoPro_XchA → c ≠ .CryptoPro_XchB → hash = none)) ∧
      (nid = .gost2012_512 → (c = .tc26_512_paramSetTest ∨ c = .tc26_512_paramSetA ∨ c = .tc26_512_paramSetB → hash = some .r3411_2012_512) ∧
        (c ≠ .tc26_512_paramSetTest → c ≠ .tc26_512_paramSetA → c ≠ .tc26_512_paramSetB → hash = none)) := by
  obtain ⟨h1, h2⟩ := named_of_fill hfill
  have hp : ki.algor.params = .seq (D.encParams ⟨c, hashParams nid c⟩) := by
    rcases h with h | h
    · unfold pub_encode at h
      rw [encode_params_eq D hfill] at h
      simp only at h
      cases pub with
      | none => cases h
      | some Q =>
        simp only at h
        cases ho : pub_encode_gost_ec (engineGroup ws ossl g) Q with
        | none => rw [ho] at h; cases h
        | some octet => rw [ho] at h; rw [← Option.some.inj h]
    · unfold priv_encode at h
      simp only at h
      rw [encode_params_eq D hfill] at h
      cases priv with
      | none => cases h
      | some d =>
        simp only at h
        cases ho : priv_encode_gost D.encOctet wrap nid d buf0 with
        | none => rw [ho] at h; cases h
        | some octets => rw [ho] at h; rw [← Option.some.inj h]
  refine ⟨_, hashParams nid c, hp, hD.params ⟨c, _⟩ h2, ?_, ?_, ?_⟩
  · rintro (rfl | rfl) <;> rfl
  · rintro rfl
    constructor
    · rintro (rfl | rfl | rfl | rfl | rfl | rfl) <;> rfl
    · intro a1 a2 a3 a4 a5 a6
      cases c <;> first | rfl | (exfalso; simp at a1 a2 a3 a4 a5 a6)
  · rintro rfl
    constructor
    · rintro (rfl | rfl | rfl) <;> rfl
    · intro a1 a2 a3
      cases c <;> first | rfl | (exfalso; simp at a1 a2 a3)

/-! ## Parameters -/

/-- **C57**: parameters written for a key of type 2001 and read back name the same curve. -/
theorem C57_parameters_roundtrip (D : KeyDer) (hD : D.Sound) (history history' : List (Option CurveNid)) (c : CurveNid) (g : EcGroupRec)
    (hfill : (fill_GOST_EC_params (cacheAfter history) c).2 = some g) (pk : Option EvpPkey) :
    (gost2001_param_decode D (cacheAfter history') pk (gost2001_param_encode D g)).2 =
      some { (pk.getD ⟨.gost2001, none, none, none⟩) with group := some g } := by
  obtain ⟨h1, h2⟩ := named_of_fill hfill
  unfold gost2001_param_decode gost2001_param_encode
  rw [h1, hD.object c h2]
  simp only
  rw [decode_nid_params_eq, fill_history hfill]
  rfl

/-- **C57**: copied parameters compare equal, and the public key of a destination with a private key is recomputed on the new curve. -/
theorem C57_copied_parameters_equal (ws : WordSize) (ossl : EcpFile) (dst src out : EvpPkey) (h : param_copy ws ossl dst src = some out) :
    param_cmp out src = 1 ∧ out.nid = src.nid ∧ out.priv = dst.priv ∧
      (∀ d g, dst.priv = some d → src.group = some g → out.pub = gost_ec_compute_public (engineGroup ws ossl g) d) := by
  unfold param_copy at h
  split at h
  · cases h
  · rename_i hn
    have hn : src.nid = dst.nid := not_not.1 hn
    cases hg : src.group with
    | none => rw [hg] at h; cases h
    | some g =>
      rw [hg] at h
      simp only at h
      cases hp : dst.priv with
      | none =>
        rw [hp] at h
        simp only [Option.some.injEq] at h
        subst h
        refine ⟨?_, hn.symm, rfl, fun d g' hd => ?_⟩
        · unfold param_cmp; simp only [hg]; rfl
        · cases hd
      | some d =>
        rw [hp] at h
        simp only [computePublic] at h
        cases hQ : gost_ec_compute_public (engineGroup ws ossl g) d with
        | none => rw [hQ] at h; cases h
        | some Q =>
          rw [hQ] at h
          simp only [Option.some.injEq] at h
          subst h
          refine ⟨?_, hn.symm, rfl, fun d' g' hd hg' => ?_⟩
          · unfold param_cmp; simp only [hg]; rfl
          · cases hd; cases hg'; exact hQ.symm

/-! ## Generation -/

/-- **C57**: generating a key pair with parameters for a curve with a file gives, when the random source delivers a number other than 0,
a key on that curve with a private number in `1..q-1` and its public point, of the type that matches the size of the curve (2012), and
the key written as PKCS#8 reads back as the same key. -/
theorem C57_generated_key_roundtrip (D : KeyDer) (hD : D.Sound) (two : Bool) (ws : WordSize) (ossl : EcpFile) (history : List (Option CurveNid))
    (c : CurveNid) (hc : c ≠ .tc26_512_paramSetTest) (e : EcParams) (he : gost_nid2params c = some e) [Fact e.p.Prime]
    (gen : CurvePoint (e.a : ZMod e.p) (e.b : ZMod e.p)) (hg : ecOf gen = some (e.x, e.y)) (h2001 : two = false → e.p < 2 ^ 256)
    (draws : List Nat) (hr : ∀ k ∈ draws, k < e.q) (d : Nat) (hd : draws.find? (· ≠ 0) = some d) (wrap : Bool) (buf0 : Bytes) :
    ∃ nid : PkeyNid, (nid = if two then (if e.p < 2 ^ 256 then .gost2012_256 else .gost2012_512) else .gost2001) ∧ 0 < d ∧ d < e.q ∧
      (pkey_gost_keygen two ws ossl (cacheAfter history) (some c) draws).2 = some ⟨nid, some (groupOf e c), some d, some (ecOf (d • gen))⟩ ∧
      ∃ ki, priv_encode D wrap ⟨nid, some (groupOf e c), some d, some (ecOf (d • gen))⟩ buf0 = some ki ∧
        ∀ history' : List (Option CurveNid),
          (priv_decode D ws ossl (cacheAfter history') ki).2 = some ⟨nid, some (groupOf e c), some d, some (ecOf (d • gen))⟩ := by
  have hfill : ∀ h : List (Option CurveNid), (fill_GOST_EC_params (cacheAfter h) c).2 = some (groupOf e c) := by
    intro h
    rw [C46_fill_any_history, ← C46_nid_selects, he]
    rfl
  have hd0 : d ≠ 0 := by
    have := List.find?_some hd
    simpa using this
  have hdq : d < e.q := hr d (List.mem_of_find?_eq_some hd)
  have hloop : keygenLoop draws = some d := by
    clear hr hdq
    induction draws with
    | nil => cases hd
    | cons k ks ih =>
      unfold keygenLoop
      by_cases hk : k = 0
      · rw [if_pos hk]
        rw [List.find?_cons] at hd
        simp only [hk, ne_eq, not_true_eq_false, decide_false] at hd
        exact ih hd
      · rw [if_neg hk]
        rw [List.find?_cons] at hd
        simp only [ne_eq, hk, not_false_eq_true, decide_true] at hd
        exact hd
  have hQ : gost_ec_compute_public (engineGroup ws ossl (groupOf e c)) d = some (ecOf (d • gen)) :=
    C45_engine_public ws ossl c hc e he gen hg d (lt_of_lt_of_le hdq (q_fits he))
  refine ⟨_, rfl, by omega, hdq, ?_, ?_⟩
  · have htype : ∀ c e, gost_nid2params c = some e → paramgenType c = some (if e.p < 2 ^ 256 then .gost2012_256 else .gost2012_512) := by
      intro c e he
      rw [C46_nid_selects] at he
      cases c <;> simp only [curveOfNid, Option.some.injEq, reduceCtorEq] at he <;> subst he <;> decide +kernel
    have hk : ∀ nid : PkeyNid, keygenKey ws ossl draws ⟨nid, some (groupOf e c), none, none⟩ = (⟨nid, some (groupOf e c), some d, some (ecOf (d • gen))⟩, 1) := by
      intro nid
      unfold keygenKey
      simp only
      rw [hloop]
      simp only
      rw [hQ]
    have hf := hfill history
    unfold pkey_gost_keygen
    cases two with
    | true =>
      simp only [if_true]
      unfold pkey_gost2012_paramgen
      simp only
      rcases hF : fill_GOST_EC_params (cacheAfter history) c with ⟨c', r⟩
      rw [hF] at hf
      simp only at hf
      subst hf
      simp only
      rw [htype c e he]
      simp only
      rw [hk]
    | false =>
      simp only [Bool.false_eq_true, if_false]
      unfold pkey_gost2001_paramgen
      simp only
      have := decode_nid_params_eq history ⟨.gost2001, none, none, none⟩ c
      rw [hf] at this
      rcases hF : gost_decode_nid_params (cacheAfter history) ⟨.gost2001, none, none, none⟩ c with ⟨c', r⟩
      rw [hF] at this
      simp only [Option.map_some] at this
      subst this
      simp only
      rw [hk]
  · obtain ⟨h1, h2⟩ := C57_private_key_roundtrip D hD ws ossl wrap history c (groupOf e c) (hfill history)
      (if two then (if e.p < 2 ^ 256 then .gost2012_256 else .gost2012_512) else .gost2001) (some (ecOf (d • gen))) d buf0 _ hQ
    cases hk : priv_encode D wrap ⟨if two then (if e.p < 2 ^ 256 then .gost2012_256 else .gost2012_512) else .gost2001, some (groupOf e c), some d, some (ecOf (d • gen))⟩ buf0 with
    | some ki => exact ⟨ki, rfl, h2 ki hk⟩
    | none =>
      exfalso
      have hle := h1.1 hk
      have hq : e.q ≤ 256 ^ (if e.p < 2 ^ 256 then 32 else 64) := (cofactor_facts e (selected_mem he)).1
      have : 256 ^ (PkeyNid.keyLen (if two then (if e.p < 2 ^ 256 then .gost2012_256 else .gost2012_512) else .gost2001)) =
          256 ^ (if e.p < 2 ^ 256 then 32 else 64) := by
        by_cases hp : e.p < 2 ^ 256
        · simp only [if_pos hp]; cases two <;> rfl
        · cases two with
          | true => simp only [if_neg hp]; rfl
          | false => exact absurd (h2001 rfl) hp
      rw [this] at hle
      exact absurd (lt_of_lt_of_le hdq hq) (not_lt_of_ge hle)

/-! ## Findings -/

/-- **C57 (finding)**: when the random source fails, key generation reports success all the same and delivers a key with parameters but
without private and public part. -/
theorem C57_keygen_failure_is_success (two : Bool) (ws : WordSize) (ossl : EcpFile) (history : List (Option CurveNid)) (c : CurveNid)
    (g : EcGroupRec) (hfill : (fill_GOST_EC_params (cacheAfter history) c).2 = some g) :
    ∃ nid, (pkey_gost_keygen two ws ossl (cacheAfter history) (some c) []).2 = some ⟨nid, some g, none, none⟩ := by
  unfold pkey_gost_keygen
  cases two with
  | false =>
    simp only [Bool.false_eq_true, if_false, pkey_gost2001_paramgen]
    have := decode_nid_params_eq history ⟨.gost2001, none, none, none⟩ c
    rw [hfill] at this
    rcases hF : gost_decode_nid_params (cacheAfter history) ⟨.gost2001, none, none, none⟩ c with ⟨c', r⟩
    rw [hF] at this
    simp only [Option.map_some] at this
    subst this
    exact ⟨.gost2001, rfl⟩
  | true =>
    simp only [if_true, pkey_gost2012_paramgen]
    rcases hF : fill_GOST_EC_params (cacheAfter history) c with ⟨c', r⟩
    rw [hF] at hfill
    simp only at hfill
    subst hfill
    have hn : ∀ n, c ≠ .other n := by
      have : (fill_GOST_EC_params (cacheAfter history) c).2 = some g := by rw [hF]
      exact (named_of_fill this).2
    cases ht : paramgenType c with
    | none => exfalso; cases c <;> first | exact absurd rfl (hn _) | cases ht
    | some t => simp only [ht]; exact ⟨t, rfl⟩

/-- **C57 (finding)**: the several names of one curve are different parameters: keys with the same numbers and the same point compare
as different. -/
theorem C57_aliases_compare_different (c1 c2 : CurveNid) (e : EcParams) (h : c1 ≠ c2) (nid : PkeyNid) (Q : EcPoint) :
    param_cmp ⟨nid, some (groupOf e c1), none, some Q⟩ ⟨nid, some (groupOf e c2), none, some Q⟩ = 0 ∧
    pub_cmp ⟨nid, some (groupOf e c1), none, some Q⟩ ⟨nid, some (groupOf e c2), none, some Q⟩ = 0 := by
  constructor
  · exact if_neg h
  · exact if_neg fun hc => h hc.1

/-- A public key with arbitrary key octets (curve, type, octets). -/
def spkiOf (D : KeyDer) (nid : PkeyNid) (c : CurveNid) (octets : Bytes) : KeyInfo :=
  ⟨⟨some nid, .seq (D.encParams ⟨c, hashParams nid c⟩)⟩, D.encOctet octets⟩

theorem pub_decode_spki (D : KeyDer) (hD : D.Sound) {history : List (Option CurveNid)} {c : CurveNid} {g : EcGroupRec}
    (hfill : (fill_GOST_EC_params (cacheAfter history) c).2 = some g) (nid : PkeyNid) (octets : Bytes) (hl : octets.length < 65536) :
    (pub_decode D (cacheAfter history) (spkiOf D nid c octets)).2 =
      (pub_decode_gost_ec g.point octets).map fun P => ⟨nid, some g, none, some P⟩ := by
  obtain ⟨cache', hd⟩ := decode_params_eq D hD hfill nid (hashParams nid c) history
  unfold pub_decode spkiOf
  rw [hd]
  simp only
  rw [hD.octet _ hl]
  simp only
  cases pub_decode_gost_ec g.point octets <;> rfl

/-- **C57 (finding)**: the size of the key octets is not checked: of an odd number of octets the first is ignored. -/
theorem C57_first_octet_ignored (D : KeyDer) (hD : D.Sound) (history : List (Option CurveNid)) (c : CurveNid) (g : EcGroupRec)
    (hfill : (fill_GOST_EC_params (cacheAfter history) c).2 = some g) (nid : PkeyNid) (b : Byte) (octets : Bytes)
    (hl : octets.length < 65535) (h2 : octets.length % 2 = 0) :
    (pub_decode D (cacheAfter history) (spkiOf D nid c (b :: octets))).2 = (pub_decode D (cacheAfter history) (spkiOf D nid c octets)).2 := by
  rw [pub_decode_spki D hD hfill nid _ (by simp; omega), pub_decode_spki D hD hfill nid _ (by omega)]
  congr 1
  have h1 : (b :: octets).length / 2 = octets.length / 2 := by simp only [List.length_cons]; omega
  unfold pub_decode_gost_ec
  simp only [h1, List.reverse_cons]
  rw [List.take_append_of_le_length (by simp; omega), List.drop_append_of_le_length (by simp; omega),
    List.take_append_of_le_length (by simp; omega)]

/-- **C57 (finding)**: coordinates are not required to be below `p`: another encoding of the same key is accepted whenever `x + p` fits
the octets. -/
theorem C57_unreduced_accepted (D : KeyDer) (hD : D.Sound) (history : List (Option CurveNid)) (c : CurveNid) (g : EcGroupRec)
    (hfill : (fill_GOST_EC_params (cacheAfter history) c).2 = some g) (nid : PkeyNid) (n x y : Nat) (hn : n ≤ 64)
    (hx : x + g.p < 256 ^ n) (hy : y < 256 ^ n) :
    (pub_decode D (cacheAfter history) (spkiOf D nid c (leBytes n (x + g.p) ++ leBytes n y))).2 =
      (pub_decode D (cacheAfter history) (spkiOf D nid c (leBytes n x ++ leBytes n y))).2 := by
  have dec : ∀ a, a < 256 ^ n → pub_decode_gost_ec g.point (leBytes n a ++ leBytes n y) = g.point a y := by
    intro a ha
    unfold pub_decode_gost_ec
    have hl : (leBytes n a ++ leBytes n y).length / 2 = n := by simp; omega
    simp only [hl]
    have hrev : (leBytes n a ++ leBytes n y).reverse = beBytes n y ++ beBytes n a := by simp [leBytes_eq]
    rw [hrev, List.take_left' (by simp), List.drop_left' (by simp), List.take_of_length_le (by simp), beNat_beBytes, beNat_beBytes,
      Nat.mod_eq_of_lt ha, Nat.mod_eq_of_lt hy]
  rw [pub_decode_spki D hD hfill nid _ (by simp; omega), pub_decode_spki D hD hfill nid _ (by simp; omega), dec _ hx, dec _ (by omega)]
  congr 1
  unfold EcGroupRec.point EcGroupRec.setAffine
  have h1 : (x + g.p) % g.p = x % g.p := by simp
  have h2 : ((x + g.p) ^ 3 + g.a * (x + g.p) + g.b) % g.p = (x ^ 3 + g.a * x + g.b) % g.p := by
    have : x + g.p ≡ x [MOD g.p] := h1
    exact ((this.pow 3).add (this.mul_left g.a)).add_right g.b
  rw [h1, h2]

/-- **C57 (finding)**: the type of a key and the size of its curve are not compared: a key of a 256-bit type on a 512-bit curve is
accepted, and a signature made with it whose halves need more than 32 bytes is delivered as 64 zero bytes. -/
theorem C57_size_mismatch_accepted (D : KeyDer) (hD : D.Sound) (ws : WordSize) (ossl : EcpFile) (history : List (Option CurveNid))
    (c : CurveNid) (g : EcGroupRec) (hfill : (fill_GOST_EC_params (cacheAfter history) c).2 = some g) (hash : Option HashNid) (d : Nat)
    (hd : d < 2 ^ 256) (Q : EcPoint) (hQ : gost_ec_compute_public (engineGroup ws ossl g) d = some Q) :
    (priv_decode D ws ossl (cacheAfter history) ⟨⟨some .gost2012_256, .seq (D.encParams ⟨c, hash⟩)⟩, leBytes 32 d⟩).2 =
      some ⟨.gost2012_256, some g, some d, some Q⟩ ∧
    ∀ tbs draws r s, gost_ec_sign (engineGroup ws ossl g) tbs d draws = some (r, s) → 256 ^ 32 ≤ r → 256 ^ 32 ≤ s →
      pkey_gost_ec_cp_sign (engineGroup ws ossl g) .gost2012_256 tbs d draws = some (zeros 64) := by
  constructor
  · obtain ⟨cache', hd'⟩ := decode_params_eq D hD hfill .gost2012_256 hash history
    unfold priv_decode
    rw [hd']
    simp only
    have hnum : priv_decode_gost D.priv g.q .gost2012_256 (leBytes 32 d) = some d := by
      apply C42_priv_decode_encode D.priv g.q D.encOctet .gost2012_256 d []
      rw [C42_priv_encode]
      exact if_pos (lt_of_lt_of_eq hd (by decide))
    rw [hnum]
    simp only [gost_set_priv_key, computePublic]
    rw [hQ]
  · intro tbs draws r s h hr hs
    unfold pkey_gost_ec_cp_sign
    rw [h]
    simp only
    have e : PkeyNid.sigLen .gost2012_256 / 2 = 32 := rfl
    rw [e]
    unfold pack_sign_cp
    simp only
    rw [(C42_store_bignum s 32 _).1 hs, (C42_store_bignum r 32 _).1 hr]
    rfl

/-! ## The hypotheses are met -/

example : DerKey.coder.Sound := DerKey.coder_sound

/-- The base point of a 256-bit and of a 512-bit curve, written and read back. -/
example : ∃ ki, pub_encode DerKey.coder .w64 (file_Test .w64) ⟨.gost2012_256, some (groupOf ec_CryptoPro_A .tc26_256_paramSetB), none,
      some (some (ec_CryptoPro_A.x, ec_CryptoPro_A.y))⟩ = some ki ∧ ki.key.length = 66 := by
  refine ⟨_, rfl, ?_⟩
  decide +kernel

example : (fill_GOST_EC_params (cacheAfter [some .Test]) .tc26_512_paramSetC).2 = some (groupOf ec_tc26_512_paramSetC .tc26_512_paramSetC) := by
  rw [C46_fill_any_history]; rfl

example : ec_tc26_512_paramSetC.x < ec_tc26_512_paramSetC.p ∧ ec_tc26_512_paramSetC.y < ec_tc26_512_paramSetC.p ∧
    ec_tc26_512_paramSetC.y ^ 2 % ec_tc26_512_paramSetC.p =
      (ec_tc26_512_paramSetC.x ^ 3 + ec_tc26_512_paramSetC.a * ec_tc26_512_paramSetC.x + ec_tc26_512_paramSetC.b) % ec_tc26_512_paramSetC.p := by
  decide +kernel

/-- `x + p` fits 32 bytes for small `x` on the curve of the tests. -/
example : (2 : Nat) + ec_Test.p < 256 ^ 32 := by decide +kernel

example : [0, 5, 7].find? (fun k : Nat => k ≠ 0) = some 5 := rfl

end Gost
