import Verif.Props.Asn1
import Verif.Props.Ameth

/-!
# C94, continued: the octets of a public key
-/

namespace Gost

open Spec (leNat beNat leBytes beBytes)
open Asn

/-- The octets of a public key as RFC 4491 and RFC 9215 have them: the algorithm with the curve and, for some, the digest; in the BIT
STRING an OCTET STRING with the coordinates, least significant byte first. -/
def publicKeyOctets (t : PkeyNid) (c : CurveNid) (n x y : Nat) : Bytes :=
  Der.tlv 0x30 (
    Der.tlv 0x30 (
      Der.tlv 6 (Oid.octets (Oid.keyType t)) ++
      Der.tlv 0x30 (
        Der.tlv 6 (Oid.octets (Oid.curve c)) ++
        match Oid.digest t c with | none => [] | some h => Der.tlv 6 (Oid.octets (Oid.hash h)))) ++
    Der.tlv 3 (0 :: Der.tlv 4 (leBytes n x ++ leBytes n y)))

theorem public_key_written (objs : Bytes → Nat) (ws : WordSize) (ossl : EcpFile) (history : List (Option CurveNid))
    (c : CurveNid) (g : EcGroupRec) (hfill : (fill_GOST_EC_params (cacheAfter history) c).2 = some g) (t : PkeyNid) (priv : Option Nat)
    (x y : Nat) (hx : x < g.p) (hy : y < g.p) :
    ∃ ki : KeyInfo, pub_encode (keyDer objs) ws ossl ⟨t, some g, priv, some (some (x, y))⟩ = some ki ∧
      ki.Written (keyDer objs) ∧ tlv 0x30 (encPub ki) = publicKeyOctets t c (if g.p < 2 ^ 256 then 32 else 64) x y := by
  have hn := named_of_fill hfill
  obtain ⟨e, he, rfl⟩ := filled hfill
  obtain ⟨hb, hp⟩ := order_bytes he
  have hsz : BN_num_bytes e.q = if e.p < 2 ^ 256 then 32 else 64 := by
    have key : ∀ e ∈ R3410_2001_paramset ++ R3410_2012_512_paramset,
        256 ^ (if e.p < 2 ^ 256 then 31 else 63) ≤ e.q ∧ e.q < 256 ^ (if e.p < 2 ^ 256 then 32 else 64) := by decide +kernel
    obtain ⟨h2, h3⟩ := key e (selected_mem he)
    by_cases hc : e.p < 2 ^ 256
    · simp only [if_pos hc] at h2 h3 ⊢
      exact numBytes_32 h2 h3
    · simp only [if_neg hc] at h2 h3 ⊢
      exact numBytes_64 h2 h3
  have hx' : x < e.p := hx
  have hy' : y < e.p := hy
  obtain ⟨h1, -⟩ := C42_pub_decode_encode (engineGroup ws ossl (groupOf e c)) (groupOf e c).point (some (x, y)) x y rfl
    (lt_trans hx' hp) (lt_trans hy' hp)
  change pub_encode_gost_ec (engineGroup ws ossl (groupOf e c)) (some (x, y)) = some (leBytes (BN_num_bytes e.q) x ++ leBytes (BN_num_bytes e.q) y) at h1
  have hlen : (leBytes (BN_num_bytes e.q) x ++ leBytes (BN_num_bytes e.q) y).length ≤ 128 := by
    rcases hb with h | h <;> rw [h] <;> simp
  refine ⟨⟨⟨some t, .seq (encParams ⟨c, hashParams t c⟩)⟩, tlv 4 (leBytes (BN_num_bytes e.q) x ++ leBytes (BN_num_bytes e.q) y)⟩, ?_, ⟨t, ⟨c, hashParams t c⟩, _, hn.2, hlen, rfl⟩, ?_⟩
  · unfold pub_encode
    rw [encode_params_eq _ hfill]
    simp only
    rw [h1]
    rfl
  · have hw := (written_wf (nid := objs) (k := ⟨⟨some t, .seq (encParams ⟨c, hashParams t c⟩)⟩,
      tlv 4 (leBytes (BN_num_bytes e.q) x ++ leBytes (BN_num_bytes e.q) y)⟩) ⟨t, ⟨c, hashParams t c⟩, _, hn.2, hlen, rfl⟩).2
    rw [tlv_spec 0x30 (encPub _) (by omega)]
    unfold publicKeyOctets
    have hd : Oid.digest t c = hashParams t c := by cases t <;> cases c <;> rfl
    obtain ⟨body, hbody⟩ : ∃ body, encParams ⟨c, hashParams t c⟩ = tlv 0x30 body := ⟨_, rfl⟩
    have hpw := C94_params_written c (hashParams t c) hn.2
    rw [hbody] at hw ⊢
    rw [encPub_written _ _ _ (by omega)]
    have hl1 := tlv_le 4 (leBytes (BN_num_bytes e.q) x ++ leBytes (BN_num_bytes e.q) y)
    have hb30 : Der.tlv 0x30 body = tlv 0x30 body := by
      rw [tlv_spec]
      unfold encPub at hw
      have l1 := le_tlv 0x30 body
      have l2 := le_tlv 0x30 (putOid ((some t).bind (toOid pkeyOids)) ++ tlv 0x30 body)
      simp only [List.length_append] at hw l2
      omega
    unfold Asn.spkiOf
    rw [hb30, ← hbody, hpw, hd, tlv_spec 4 _ (by omega), hsz]
    rfl

/-- **C94**: the SubjectPublicKeyInfo of every key on every curve of the engine, octet by octet.  (`tlv 0x30` around the contents is what
OpenSSL's `i2d_X509_PUBKEY` adds.) -/
theorem C94_public_key_written (objs : Bytes → Nat) (ws : WordSize) (ossl : EcpFile) (history : List (Option CurveNid))
    (c : CurveNid) (g : EcGroupRec) (hfill : (fill_GOST_EC_params (cacheAfter history) c).2 = some g) (t : PkeyNid) (priv : Option Nat)
    (x y : Nat) (hx : x < g.p) (hy : y < g.p) :
    ∃ ki : KeyInfo, pub_encode (keyDer objs) ws ossl ⟨t, some g, priv, some (some (x, y))⟩ = some ki ∧
      tlv 0x30 (encPub ki) = publicKeyOctets t c (if g.p < 2 ^ 256 then 32 else 64) x y := by
  obtain ⟨ki, h1, -, h2⟩ := public_key_written objs ws ossl history c g hfill t priv x y hx hy
  exact ⟨ki, h1, h2⟩

/-- **C94**: these octets, whatever follows them, are read as a SubjectPublicKeyInfo, and from it the same key of the same kind on the same
curve.  (Reading the outer SEQUENCE is what OpenSSL's `d2i_X509_PUBKEY` does.) -/
theorem C94_public_key_read (objs : Bytes → Nat) (history history' : List (Option CurveNid))
    (c : CurveNid) (g : EcGroupRec) (hfill : (fill_GOST_EC_params (cacheAfter history) c).2 = some g) (t : PkeyNid)
    (x y : Nat) (hx : x < g.p) (hy : y < g.p) (hxy : y ^ 2 % g.p = (x ^ 3 + g.a * x + g.b) % g.p) (rest : Bytes) :
    ∃ body ki, field 0x30 (publicKeyOctets t c (if g.p < 2 ^ 256 then 32 else 64) x y ++ rest) = some (body, rest) ∧
      decPub body = some ki ∧ (pub_decode (keyDer objs) (cacheAfter history') ki).2 = some ⟨t, some g, none, some (some (x, y))⟩ := by
  obtain ⟨ki, h1, hw, h2⟩ := public_key_written objs .w32 ⟨fun _ _ _ _ => none, fun _ _ _ => none, fun _ _ => none⟩ history c g hfill t none x y hx hy
  obtain ⟨ki', h1', -, -, -, h3⟩ := C57_public_key_roundtrip (keyDer objs) (C94_key_sound objs) .w32 ⟨fun _ _ _ _ => none, fun _ _ _ => none, fun _ _ => none⟩ history c g hfill t none x y hx hy hxy
  have e : ki' = ki := Option.some.inj (h1'.symm.trans h1)
  subst e
  have hwf := written_wf hw
  refine ⟨encPub ki', ki', ?_, decPub_encPub ki' hwf.1 (by omega), h3 history'⟩
  rw [← h2, field_tlv 0x30 _ _ (by decide) (by omega)]

/-- **C94**: the parameters of a key of 2001 by themselves are the identifier of the curve. -/
theorem C94_parameters_written (objs : Bytes → Nat) (history : List (Option CurveNid)) (c : CurveNid) (g : EcGroupRec)
    (hfill : (fill_GOST_EC_params (cacheAfter history) c).2 = some g) :
    gost2001_param_encode (keyDer objs) g = Der.tlv 6 (Oid.octets (Oid.curve c)) := by
  obtain ⟨h1, hc⟩ := named_of_fill hfill
  have ho := curve_oid c hc
  change putOid (toOid curveOids g.name) = _
  rw [h1, ho.1]
  exact tlv_spec 6 _ (by omega)

/-- The hypotheses are met: the curve CryptoPro-A and its base point, which a key of 2012 has with the private number 1. -/
example : ∃ g, (fill_GOST_EC_params (cacheAfter []) .CryptoPro_A).2 = some g ∧
    (1 : Nat) < g.p ∧ 0x8D91E471E0989CDA27DF505A453F2B7635294F2DDF23E3B122ACC99C9E9F1E14 < g.p ∧ g.p < 2 ^ 256 ∧
    0x8D91E471E0989CDA27DF505A453F2B7635294F2DDF23E3B122ACC99C9E9F1E14 ^ 2 % g.p = (1 ^ 3 + g.a * 1 + g.b) % g.p ∧
    (publicKeyOctets .gost2012_256 .CryptoPro_A 32 1 0x8D91E471E0989CDA27DF505A453F2B7635294F2DDF23E3B122ACC99C9E9F1E14).take 40 =
      [0x30, 0x66, 0x30, 0x1F, 6, 8, 0x2A, 0x85, 3, 7, 1, 1, 1, 1, 0x30, 0x13, 6, 7, 0x2A, 0x85, 3, 2, 2, 0x23, 1,
       6, 8, 0x2A, 0x85, 3, 7, 1, 1, 2, 2, 3, 0x43, 0, 4, 0x40] :=
  ⟨_, rfl, by decide +kernel, by decide +kernel, by decide +kernel, by decide +kernel, by decide +kernel⟩

end Gost
