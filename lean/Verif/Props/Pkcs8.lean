import Verif.Model.Pkcs8
import Verif.Props.PrivBytes

/-!
# C95, continued: the file of a private key
-/

namespace Gost

open Spec (leNat beNat leBytes beBytes)
open Asn

/-- The octets of a private key as RFC 5208 and RFC 9215 have them: version 0; the algorithm with the curve and, for some, the digest; in
the OCTET STRING the number, least significant byte first, or (`wrap`) an OCTET STRING with it. -/
def privateKeyOctets (t : PkeyNid) (c : CurveNid) (d : Nat) (wrap : Bool) : Bytes :=
  Der.tlv 0x30 (
    Der.tlv 2 [0] ++
    (Der.tlv 0x30 (
      Der.tlv 6 (Oid.octets (Oid.keyType t)) ++
      Der.tlv 0x30 (
        Der.tlv 6 (Oid.octets (Oid.curve c)) ++
        match Oid.digest t c with | none => [] | some h => Der.tlv 6 (Oid.octets (Oid.hash h)))) ++
    Der.tlv 4 (if wrap then Der.tlv 4 (leBytes t.keyLen d) else leBytes t.keyLen d)))

theorem p8_written (nid : PkeyNid) (body key : Bytes) (h : body.length + key.length < 65000) :
    encP8 ⟨⟨some nid, .seq (tlv 0x30 body)⟩, key⟩ =
      Der.tlv 0x30 (Der.tlv 2 [0] ++ (Der.tlv 0x30 (Der.tlv 6 (Oid.octets (Oid.keyType nid)) ++ Der.tlv 0x30 body) ++ Der.tlv 4 key)) := by
  have h1 := type_oid nid
  unfold encP8
  simp only [Option.bind_some, h1.1, putOid]
  have l1 := tlv_le 0x30 (tlv 6 (Oid.octets (Oid.keyType nid)) ++ tlv 0x30 body)
  have l2 := tlv_le 4 key
  have l3 := tlv_le 0x30 body
  have l4 := tlv_le 6 (Oid.octets (Oid.keyType nid))
  have l5 := tlv_le 2 [0]
  simp only [List.length_append, List.length_cons, List.length_nil] at l1 l5
  rw [tlv_spec 0x30 (tlv 2 [0] ++ _) (by simp only [List.length_append]; omega), tlv_spec 0x30 (_ ++ _) (by rw [List.length_append]; omega),
    tlv_spec 4 _ (by omega), tlv_spec 0x30 body (by omega), tlv_spec 6 _ (by omega), tlv_spec 2 _ (by simp)]

theorem p8_read (nid : PkeyNid) (body key rest : Bytes) (h : body.length + key.length < 65000) :
    decP8 (encP8 ⟨⟨some nid, .seq (tlv 0x30 body)⟩, key⟩ ++ rest) = some (⟨⟨some nid, .seq (tlv 0x30 body)⟩, key⟩, rest) := by
  have h1 := type_oid nid
  unfold encP8
  simp only [Option.bind_some, h1.1, putOid]
  have l1 := tlv_le 0x30 (tlv 6 (Oid.octets (Oid.keyType nid)) ++ tlv 0x30 body)
  have l2 := tlv_le 4 key
  have l3 := tlv_le 0x30 body
  have l4 := tlv_le 6 (Oid.octets (Oid.keyType nid))
  have l5 := tlv_le 2 [0]
  simp only [List.length_append, List.length_cons, List.length_nil] at l1 l5
  unfold decP8
  rw [field_tlv 0x30 _ _ (by decide) (by simp only [List.length_append]; omega)]
  simp only [Option.bind_eq_bind, Option.bind_some]
  have hi : ∀ r, decInteger (tlv 2 [0] ++ r) = some 0 := by
    intro r
    unfold decInteger
    rw [field_tlv 2 _ _ (by decide) (by simp)]
    rfl
  have hp : anyParams (tlv 0x30 body) = some (.seq (tlv 0x30 body)) := by
    have hg := getTlv_tlv 0x30 body [] (by decide) (by omega)
    rw [List.append_nil] at hg
    unfold anyParams
    rw [if_neg (by simp [tlv]), hg]
    simp
  rw [hi, field_tlv 2 _ _ (by decide) (by simp)]
  simp only [Option.bind_some]
  rw [field_tlv 0x30 _ _ (by decide) (by rw [List.length_append]; omega)]
  simp only [Option.bind_some]
  rw [getOid_tlv _ _ h1.2.2.1 (by omega)]
  simp only [Option.bind_some, hp]
  rw [field_tlv' 4 _ (by decide) (by omega)]
  simp [optField_nil, atEnd, h1.2.1]

theorem wrapped_eq (n d : Nat) (hn : n = 32 ∨ n = 64) : tlv 4 (leBytes n d) = Der.tlv 4 (leBytes n d) := by
  rw [tlv_spec]
  rw [leBytes_length]
  omega

/-- The key octets. -/
theorem priv_encode_octets (objs : Bytes → Nat) (history : List (Option CurveNid)) (c : CurveNid) (g : EcGroupRec)
    (hfill : (fill_GOST_EC_params (cacheAfter history) c).2 = some g) (t : PkeyNid) (pub : Option EcPoint) (d : Nat)
    (hd : d < 256 ^ t.keyLen) (buf0 : Bytes) (wrap : Bool) :
    priv_encode (keyDer objs) wrap ⟨t, some g, some d, pub⟩ buf0 = some ⟨⟨some t, .seq (encParams ⟨c, hashParams t c⟩)⟩,
      if wrap then Der.tlv 4 (leBytes t.keyLen d) else leBytes t.keyLen d⟩ := by
  have hk : t.keyLen = 32 ∨ t.keyLen = 64 := by cases t <;> simp [PkeyNid.keyLen]
  unfold priv_encode
  simp only
  rw [encode_params_eq _ hfill]
  cases wrap with
  | false =>
    rw [C42_priv_encode, if_pos hd]
    rfl
  | true =>
    unfold priv_encode_gost
    simp only [if_true]
    rw [(C42_store_bignum d _ buf0).2 hd]
    simp only [one_ne_zero, if_false]
    rw [swapLoop_reverse _ _ (by simp), ← leBytes_eq]
    change some (KeyInfo.mk _ (tlv 4 (leBytes t.keyLen d))) = _
    rw [wrapped_eq _ _ hk]
    rfl

theorem params_tlv (c : CurveNid) (h : Option HashNid) (hc : ∀ n, c ≠ .other n) :
    ∃ body, encParams ⟨c, h⟩ = tlv 0x30 body ∧ body.length ≤ 60 ∧
      Der.tlv 0x30 body = Der.tlv 0x30 (Der.tlv 6 (Oid.octets (Oid.curve c)) ++
        match h with | none => [] | some h => Der.tlv 6 (Oid.octets (Oid.hash h))) := by
  have hw := C94_params_written c h hc
  obtain ⟨body, hbody⟩ : ∃ body, encParams ⟨c, h⟩ = tlv 0x30 body := ⟨_, rfl⟩
  have hl : (encParams ⟨c, h⟩).length ≤ 60 := by
    rw [hw]
    cases h with
    | none => cases c <;> first | (exact absurd rfl (hc _)) | decide +kernel
    | some h => cases h <;> cases c <;> first | (exact absurd rfl (hc _)) | decide +kernel
  have hb := le_tlv 0x30 body
  rw [hbody] at hl
  refine ⟨body, hbody, by omega, ?_⟩
  exact (tlv_spec 0x30 _ (by omega)).symm.trans (hbody.symm.trans hw)

/-- **C95**: the PKCS#8 octets of every private key on every curve of the engine, octet by octet, in both formats; a number that does not
fit the kind of key is refused. -/
theorem C95_private_key_written (objs : Bytes → Nat) (history : List (Option CurveNid)) (c : CurveNid) (g : EcGroupRec)
    (hfill : (fill_GOST_EC_params (cacheAfter history) c).2 = some g) (t : PkeyNid) (pub : Option EcPoint) (d : Nat) (buf0 : Bytes)
    (wrap : Bool) :
    (priv_encode (keyDer objs) wrap ⟨t, some g, some d, pub⟩ buf0).map encP8 =
      if d < 256 ^ t.keyLen then some (privateKeyOctets t c d wrap) else none := by
  have hk : t.keyLen = 32 ∨ t.keyLen = 64 := by cases t <;> simp [PkeyNid.keyLen]
  split
  · rename_i hd
    rw [priv_encode_octets objs history c g hfill t pub d hd buf0 wrap, Option.map_some]
    obtain ⟨body, hb, hl, hs⟩ := params_tlv c (hashParams t c) (named_of_fill hfill).2
    have hdg : Oid.digest t c = hashParams t c := by cases t <;> cases c <;> rfl
    have hlen : (if wrap then Der.tlv 4 (leBytes t.keyLen d) else leBytes t.keyLen d : Bytes).length ≤ 70 := by
      cases wrap with
      | false => simp; omega
      | true =>
        have h2 := tlv_le 4 (leBytes t.keyLen d)
        rw [wrapped_eq _ _ hk] at h2
        simp at h2 ⊢
        omega
    rw [hb, p8_written _ _ _ (by omega), hs]
    unfold privateKeyOctets
    rw [hdg]
  · rename_i hd
    unfold priv_encode
    simp only
    rw [encode_params_eq _ hfill]
    have : priv_encode_gost (keyDer objs).encOctet wrap t d buf0 = none := by
      unfold priv_encode_gost
      simp only
      rw [(C42_store_bignum d _ buf0).1 (by omega)]
      rfl
    rw [this]
    rfl

/-- **C95**: these octets, whatever follows them, are read as a private key structure, and from it the number, and the public key that
belongs to it. -/
theorem C95_private_key_read (objs : Bytes → Nat) (ws : WordSize) (ossl : EcpFile) (history history' : List (Option CurveNid)) (c : CurveNid)
    (g : EcGroupRec) (hfill : (fill_GOST_EC_params (cacheAfter history) c).2 = some g) (t : PkeyNid) (d : Nat) (hd : d < 256 ^ t.keyLen)
    (wrap : Bool) (rest : Bytes) (Q : EcPoint) (hQ : gost_ec_compute_public (engineGroup ws ossl g) d = some Q) :
    ∃ ki, decP8 (privateKeyOctets t c d wrap ++ rest) = some (ki, rest) ∧
      (priv_decode (keyDer objs) ws ossl (cacheAfter history') ki).2 = some ⟨t, some g, some d, some Q⟩ := by
  have he := priv_encode_octets objs history c g hfill t none d hd [] wrap
  have hw := C95_private_key_written objs history c g hfill t none d [] wrap
  rw [if_pos hd, he, Option.map_some, Option.some.injEq] at hw
  have hr := (C57_private_key_roundtrip (keyDer objs) (C94_key_sound objs) ws ossl wrap history c g hfill t none d [] Q hQ).2 _ he history'
  refine ⟨_, ?_, hr⟩
  rw [← hw]
  have hk : t.keyLen = 32 ∨ t.keyLen = 64 := by cases t <;> simp [PkeyNid.keyLen]
  obtain ⟨body, hb, hl, -⟩ := params_tlv c (hashParams t c) (named_of_fill hfill).2
  rw [hb, p8_read]
  cases wrap with
  | false => simp; omega
  | true =>
    have h2 := tlv_le 4 (leBytes t.keyLen d)
    rw [wrapped_eq _ _ hk] at h2
    simp at h2 ⊢
    omega

/-- The octets of the private number 1 on the curve CryptoPro-A, bare and wrapped. -/
example : (∃ g, (fill_GOST_EC_params (cacheAfter []) .CryptoPro_A).2 = some g) ∧ 1 < 256 ^ PkeyNid.gost2012_256.keyLen ∧
    (privateKeyOctets .gost2012_256 .CryptoPro_A 1 false).take 42 =
      [0x30, 0x46, 2, 1, 0, 0x30, 0x1F, 6, 8, 0x2A, 0x85, 3, 7, 1, 1, 1, 1, 0x30, 0x13, 6, 7, 0x2A, 0x85, 3, 2, 2, 0x23, 1,
       6, 8, 0x2A, 0x85, 3, 7, 1, 1, 2, 2, 4, 0x20, 1, 0] ∧
    (privateKeyOctets .gost2012_256 .CryptoPro_A 1 true).length = (privateKeyOctets .gost2012_256 .CryptoPro_A 1 false).length + 2 :=
  ⟨⟨_, rfl⟩, by decide +kernel, by decide +kernel, by decide +kernel⟩

end Gost
