import Verif.Model.KeyTransport
import Verif.Props.Ameth
import Verif.Props.KeyWrap
import Verif.Props.KeyExp
import Verif.Props.Tls
import Verif.Props.Gost94
import Verif.Props.Streebog

/-!
# C58: session keys sent with `EVP_PKEY_encrypt` and received with `EVP_PKEY_decrypt`
-/

namespace Gost

open Spec (leNat beNat leBytes beBytes ecOf)

/-! ## What the statements speak about -/

/-- A key as the engine writes it: a type of the engine, parameters for a named curve, key octets. -/
def KeyInfo.Written (D : KeyDer) (ki : KeyInfo) : Prop :=
  ∃ nid p x, (∀ n, KeyParams.key_params p ≠ .other n) ∧ x.length ≤ 128 ∧ ki = ⟨⟨some nid, .seq (D.encParams p)⟩, D.encOctet x⟩

/-- What is assumed of OpenSSL's DER functions for the key transport structures: what was encoded (short strings, a key as above, a
known S-box set) is decoded to the same value whatever follows it, and the length of an encoding depends on the lengths of the strings
in it only. -/
structure KtDer.Sound (D : KeyDer) (K : KtDer) : Prop where
  kt : ∀ (v : KtInfo) (rest : Bytes), (∀ ki, v.ephem = some ki → ki.Written D) → (∃ p, v.cipher = .known p) →
    v.encrypted_key.length ≤ 64 → v.imit.length ≤ 64 → v.eph_iv.length ≤ 64 → K.decKt (K.encKt v ++ rest) = some v
  ps : ∀ (v : PsInfo) (rest : Bytes), v.ephem.Written D → v.psexp.length ≤ 128 → (∀ u, v.ukm = some u → u.length ≤ 64) →
    K.decPs (K.encPs v ++ rest) = some v
  kt_len : ∀ v w : KtInfo, v.encrypted_key.length = w.encrypted_key.length → v.imit.length = w.imit.length → v.cipher = w.cipher →
    v.eph_iv.length = w.eph_iv.length →
    v.ephem.map (fun k => (k.algor, k.key.length)) = w.ephem.map (fun k => (k.algor, k.key.length)) → (K.encKt v).length = (K.encKt w).length
  ps_len : ∀ v w : PsInfo, v.psexp.length = w.psexp.length → v.ukm.map List.length = w.ukm.map List.length →
    v.ephem.algor = w.ephem.algor → v.ephem.key.length = w.ephem.key.length → (K.encPs v).length = (K.encPs w).length
  octet_len : ∀ x y : Bytes, x.length = y.length → (D.encOctet x).length = (D.encOctet y).length

/-- Two installations of the engine: same algorithms and encodings, possibly different word sizes, masks and OpenSSL. -/
structure KxEnv.Same (v w : KxEnv) : Prop where
  der : w.der = v.der
  kt : w.kt = v.kt
  crypto : w.crypto = v.crypto
  md : w.md = v.md

/-- `pk` is a key pair on the built-in curve `c` (one with a curve file): a number that is not a multiple of the order of the base
point, and that multiple of the base point. -/
def IsKeyPair (c : CurveNid) (pk : EvpPkey) : Prop :=
  ∃ e, gost_nid2params c = some e ∧ c ≠ .tc26_512_paramSetTest ∧ pk.group = some (groupOf e c) ∧
    ∃ d, pk.priv = some d ∧ ¬ e.q ∣ d ∧ d < 256 ^ BN_num_bytes e.p ∧
      ∃ (_ : Fact e.p.Prime) (gen : CurvePoint (e.a : ZMod e.p) (e.b : ZMod e.p)),
        ecOf gen = some (e.x, e.y) ∧ pk.pub = some (ecOf (d • gen))

/-- The public part of a key. -/
def EvpPkey.public (pk : EvpPkey) : EvpPkey := { pk with priv := none }

/-! ## Facts about key pairs -/

theorem gen_unique {e : EcParams} [Fact e.p.Prime] {gen gen' : CurvePoint (e.a : ZMod e.p) (e.b : ZMod e.p)}
    (h : ecOf gen = some (e.x, e.y)) (h' : ecOf gen' = some (e.x, e.y)) : gen = gen' := by
  cases gen with
  | zero => cases h
  | some x y hh =>
    cases gen' with
    | zero => cases h'
    | some x' y' hh' =>
      simp only [ecOf, Option.some.injEq, Prod.mk.injEq] at h h'
      obtain rfl : x = x' := ZMod.val_injective _ (h.1.trans h'.1.symm)
      obtain rfl : y = y' := ZMod.val_injective _ (h.2.trans h'.2.symm)
      rfl

/-- Both sides compute the same VKO key, and it exists exactly when the UKM is not a multiple of the order. -/
theorem pair_vko {c : CurveNid} {A B : EvpPkey} (hA : IsKeyPair c A) (hB : IsKeyPair c B) (v w : KxEnv) (h : v.Same w) (nid : DgstNid)
    (md : Bytes → Bytes) (hmd : v.md.get nid = some md) (ukm : Bytes) :
    vkoOn v nid B A ukm = vkoOn w nid A B ukm ∧
    (∀ e, gost_nid2params c = some e → ¬ e.q ∣ leNat ukm → ∃ m, vkoOn v nid B A ukm = some (md m)) ∧
    (∀ e, gost_nid2params c = some e → e.q ∣ leNat ukm → vkoOn v nid B A ukm = none) := by
  obtain ⟨e, he, hc, gA, dA, pA, nA, lA, hp, gen, hg, qA⟩ := hA
  obtain ⟨e', he', -, gB, dB, pB, nB, lB, hp', gen', hg', qB⟩ := hB
  obtain rfl : e = e' := Option.some.inj (he.symm.trans he')
  obtain rfl := gen_unique hg hg'
  have hvA := engine_via v.ws v.ossl he hc gen hg
  have hvB := engine_via w.ws w.ossl he hc gen hg
  have hE := curveGroup_sound he gen hg
  have kA : gost_ec_compute_public (curveGroup e gen) dA = some (dA • gen) := hE.mulG dA lA
  have kB : gost_ec_compute_public (curveGroup e gen) dB = some (dB • gen) := hE.mulG dB lB
  have eA : vkoOn v nid B A ukm = VKO_compute_key (curveGroup e gen) md (dB • gen) dA ukm := by
    unfold vkoOn
    simp only [hmd, gA, pA, gB, qB]
    rw [if_pos trivial, hvA.vko]
  have eB : vkoOn w nid A B ukm = VKO_compute_key (curveGroup e gen) md (dA • gen) dB ukm := by
    unfold vkoOn
    rw [h.md]
    simp only [hmd, gA, pB, gB, qA]
    rw [if_pos trivial, hvB.vko]
  have hn0 : dB • gen ≠ 0 := fun h0 => nB ((nsmul_eq_zero_iff hE.prime hE.gen_order hE.gen_ne).1 h0)
  have hq0 : e.q • (dB • gen) = 0 := by
    rw [← mul_nsmul', mul_nsmul]
    have : e.q • gen = 0 := hE.gen_order
    rw [this, nsmul_zero]
  have hf := C40_vko_fails_iff (curveGroup e gen) hE md (dB • gen) hn0 hq0 dA ukm
  refine ⟨?_, ?_, ?_⟩
  · rw [eA, eB]
    exact C40_vko_symmetric (curveGroup e gen) hE md dA dB _ _ kA kB lA lB nA nB ukm
  · intro e2 he2 hu
    obtain rfl : e = e2 := Option.some.inj (he.symm.trans he2)
    rw [eA]
    rw [C40_vko_is_standard (curveGroup e gen) hE md _ hn0 hq0] at hf ⊢
    cases hs : sharedBytes (curveGroup e gen) (Spec.vkoPoint (curveGroup e gen).cofactor (leNat ukm) dA (dB • gen)) with
    | none =>
      rw [hs] at hf
      rcases hf.1 rfl with h | h
      · exact absurd h hu
      · exact absurd h nA
    | some m => exact ⟨m, rfl⟩
  · intro e2 he2 hu
    obtain rfl : e = e2 := Option.some.inj (he.symm.trans he2)
    rw [eA]
    exact hf.2 (Or.inl hu)

/-- The public key of a pair is written and read back. -/
theorem pair_encode {c : CurveNid} {A : EvpPkey} (hA : IsKeyPair c A) (D : KeyDer) (hD : D.Sound) (ws : WordSize) (ossl : EcpFile)
    (p : Option Nat) :
    ∃ octets, (octets.length = 2 * BN_num_bytes (((gost_nid2params c).map (·.q)).getD 0)) ∧ octets.length ≤ 128 ∧
      pub_encode D ws ossl { A with priv := p } = some (spkiOf D A.nid c octets) ∧ (∀ n, c ≠ .other n) ∧
      ∀ history, (pub_decode D (cacheAfter history) (spkiOf D A.nid c octets)).2 = some A.public := by
  obtain ⟨e, he, hc, gA, dA, pA, nA, lA, hp, gen, hg, qA⟩ := hA
  have hE := curveGroup_sound he gen hg
  have hfill : ∀ history, (fill_GOST_EC_params (cacheAfter history) c).2 = some (groupOf e c) := by
    intro history
    rw [C46_fill_any_history, ← C46_nid_selects, he]; rfl
  have hn0 : dA • gen ≠ 0 := fun h0 => nA ((nsmul_eq_zero_iff hE.prime hE.gen_order hE.gen_ne).1 h0)
  obtain ⟨x, y, hxy, hx, hy⟩ := hE.coords_some _ hn0
  have hxy : ecOf (dA • gen) = some (x, y) := hxy
  have hx : x < e.p := hx
  have hy : y < e.p := hy
  obtain ⟨hb, hpq⟩ := order_bytes he
  obtain ⟨h1, -⟩ := C42_pub_decode_encode (engineGroup ws ossl (groupOf e c)) (groupOf e c).point (some (x, y)) x y rfl
    (lt_trans hx hpq) (lt_trans hy hpq)
  change pub_encode_gost_ec (engineGroup ws ossl (groupOf e c)) (some (x, y)) = some (leBytes (BN_num_bytes e.q) x ++ leBytes (BN_num_bytes e.q) y) at h1
  have hon : y ^ 2 % e.p = (x ^ 3 + e.a * x + e.b) % e.p := by
    generalize hP : dA • gen = P at hxy
    cases P with
    | zero => cases hxy
    | some X Y hh =>
      simp only [ecOf, Option.some.injEq, Prod.mk.injEq] at hxy
      have := (hh.1)
      have heq := (WeierstrassCurve.Affine.equation_iff _ _).1 this
      obtain ⟨rfl, rfl⟩ := hxy
      have : ((Y.val ^ 2 : Nat) : ZMod e.p) = ((X.val ^ 3 + e.a * X.val + e.b : Nat) : ZMod e.p) := by
        push_cast
        rw [ZMod.natCast_zmod_val, ZMod.natCast_zmod_val]
        simpa using heq
      exact (ZMod.natCast_eq_natCast_iff _ _ _).1 this
  refine ⟨leBytes (BN_num_bytes e.q) x ++ leBytes (BN_num_bytes e.q) y, ?_, ?_, ?_, (named_of_fill (hfill [])).2, ?_⟩
  · rw [he]; simp only [Option.map_some, Option.getD_some, List.length_append, leBytes_length]; omega
  · rcases hb with h | h <;> rw [h] <;> simp
  · obtain ⟨nid, grp, pr, pub⟩ := A
    simp only at gA qA
    subst gA qA
    unfold pub_encode
    simp only
    rw [encode_params_eq D (hfill [])]
    simp only
    rw [hxy, h1]
    rfl
  · intro history
    obtain ⟨ki, k1, -, -, -, k5⟩ := C57_public_key_roundtrip D hD ws ossl history c (groupOf e c) (hfill history) A.nid none x y hx hy hon
    have : ki = spkiOf D A.nid c (leBytes (BN_num_bytes e.q) x ++ leBytes (BN_num_bytes e.q) y) := by
      unfold pub_encode at k1
      rw [encode_params_eq D (hfill history)] at k1
      simp only at k1
      rw [h1] at k1
      exact (Option.some.inj k1).symm
    rw [← this, k5 history]
    obtain ⟨nid, grp, pr, pub⟩ := A
    simp only at gA qA
    subst gA qA
    rw [hxy]
    rfl

/-- The key generated for sending is a key pair of the type and on the curve of the recipient. -/
theorem ephemeral_pair {c : CurveNid} {B : EvpPkey} (hB : IsKeyPair c B) (v : KxEnv) (p : Option Nat) (draws : List Nat)
    (hr : ∀ e, gost_nid2params c = some e → ∀ k ∈ draws, k < e.q) (hd : ∃ k ∈ draws, k ≠ 0) :
    ∃ sec, ephemeralKey v { B with priv := p } draws = some sec ∧ IsKeyPair c sec ∧ sec.nid = B.nid := by
  obtain ⟨e, he, hc, gB, dB, pB, nB, lB, hp, gen, hg, qB⟩ := hB
  replace hr := hr e he
  have hf : ∃ d, keygenLoop draws = some d ∧ d ≠ 0 ∧ d ∈ draws := by
    clear hr
    induction draws with
    | nil => obtain ⟨k, hk, _⟩ := hd; cases hk
    | cons k ks ih =>
      unfold keygenLoop
      by_cases hk : k = 0
      · rw [if_pos hk]
        obtain ⟨d, h1, h2, h3⟩ := ih (by
          obtain ⟨j, hj, hj0⟩ := hd
          rcases List.mem_cons.1 hj with rfl | hj
          · exact absurd hk hj0
          · exact ⟨j, hj, hj0⟩)
        exact ⟨d, h1, h2, List.mem_cons_of_mem _ h3⟩
      · rw [if_neg hk]; exact ⟨k, rfl, hk, List.mem_cons_self⟩
  obtain ⟨d, hl, hd0, hdm⟩ := hf
  have hdq := hr d hdm
  have hdl : d < 256 ^ BN_num_bytes e.p := lt_of_lt_of_le hdq (q_fits he)
  have hpub := C45_engine_public v.ws v.ossl c hc e he gen hg d hdl
  refine ⟨⟨B.nid, some (groupOf e c), some d, some (ecOf (d • gen))⟩, ?_, ?_, rfl⟩
  · unfold ephemeralKey param_copy
    simp only [gB]
    rw [if_neg (by simp)]
    simp only
    unfold keygenKey
    simp only
    rw [hl]
    simp only
    rw [hpub]
    rfl
  · exact ⟨e, he, hc, rfl, d, rfl, fun hdv => hd0 (Nat.eq_zero_of_dvd_of_lt hdv hdq), hdl, hp, gen, hg, rfl⟩

/-! ## The CryptoPro variant -/

theorem vkoOn_congr (v : KxEnv) (nid : DgstNid) {P P' M M' : EvpPkey} (h1 : P.group = P'.group) (h2 : P.pub = P'.pub) (h3 : M.group = M'.group)
    (h4 : M.priv = M'.priv) (ukm : Bytes) : vkoOn v nid P M ukm = vkoOn v nid P' M' ukm := by
  unfold vkoOn
  rw [h1, h2, h3, h4]

theorem kegOn_congr (v : KxEnv) (nid : PkeyNid) {P P' M M' : EvpPkey} (h1 : P.group = P'.group) (h2 : P.pub = P'.pub) (h3 : M.group = M'.group)
    (h4 : M.priv = M'.priv) (ukm : Bytes) : kegOn v ukm nid P M = kegOn v ukm nid P' M' := by
  unfold kegOn
  rw [h1, h2, h3, h4]

theorem vko32_md (H : Digests) (nid : PkeyNid) : ∃ md, H.get (vko32Digest nid) = some md ∧ ∀ m, (md m).length = 32 := by
  cases nid
  · exact ⟨_, rfl, H.len94⟩
  · exact ⟨_, rfl, H.len94⟩
  · exact ⟨_, rfl, H.len256⟩
  · exact ⟨_, rfl, H.len256⟩

theorem leNat_zeros (n : Nat) : leNat (zeros n) = 0 := leNat_replicate_zero n

theorem leNat_eq_zero_iff (b : Bytes) : leNat b = 0 ↔ b = zeros b.length := by
  constructor
  · intro h
    have h1 := leBytes_leNat b.length b rfl
    have h2 := leBytes_leNat b.length (zeros b.length) (by simp [zeros])
    rw [leNat_zeros] at h2
    rw [h] at h1
    exact h1.symm.trans h2
  · intro h; rw [h]; exact leNat_zeros _

/-- An UKM of 8 bytes is a multiple of the order of a curve only if it is zero. -/
theorem ukm8_dvd {c : CurveNid} {e : EcParams} (he : gost_nid2params c = some e) (ukm : Bytes) (hl : ukm.length = 8) :
    e.q ∣ leNat ukm ↔ ukm = zeros 8 := by
  have hq := (cofactor_facts e (selected_mem he)).2.2.2.2
  have hlt := leNat_lt ukm
  rw [hl] at hlt
  have h8 : (256 : Nat) ^ 8 ≤ 2 ^ 128 := by decide
  have := leNat_eq_zero_iff ukm
  rw [hl] at this
  rw [← this]
  constructor
  · intro h; exact Nat.eq_zero_of_dvd_of_lt h (by omega)
  · intro h; rw [h]; exact dvd_zero _

theorem wrap_shape (c : Ctx) (kek ukm key : Bytes) (hk : kek.length = 32) (hu : ukm.length = 8) (hc : key.length = 32) :
    (keyWrapCryptoPro c kek ukm key).2.length = 44 ∧
    ukm ++ ((keyWrapCryptoPro c kek ukm key).2.drop 8).take 32 ++ ((keyWrapCryptoPro c kek ukm key).2.drop 40).take 4 =
      (keyWrapCryptoPro c kek ukm key).2 := by
  rw [C34_wrap_is_rfc4357 c kek ukm key hk hu hc]
  have hecb : (Spec.ecb 8 (E89 c.box (Spec.KeyWrap.diversify (E89 c.box) kek ukm)) key).length = 32 := by
    rw [← hc]; exact ecb_len8 _ (fun b => E89_length _ _ b) _ (by rw [hc]; decide)
  have hmac : (Spec.KeyWrap.mac (E89 c.box) (M89 c.box) kek ukm key).length = 4 := wrap_mac_len _ _ _ _ hu
  have hwl : (Spec.KeyWrap.wrap (E89 c.box) (M89 c.box) kek ukm key).length = 44 := by
    rw [Spec.KeyWrap.wrap]; simp only [List.length_append]; omega
  refine ⟨hwl, ?_⟩
  generalize hw : Spec.KeyWrap.wrap (E89 c.box) (M89 c.box) kek ukm key = w at hwl
  have e1 : w.take 8 = ukm := by
    rw [← hw, Spec.KeyWrap.wrap, List.append_assoc, List.take_left' hu]
  rw [← e1, List.take_of_length_le (l := w.drop 40) (by simp; omega), List.append_assoc]
  have e3 : w.drop 40 = (w.drop 8).drop 32 := by rw [List.drop_drop]
  rw [e3, List.take_append_drop, List.take_append_drop]

/-- What the recipient makes of a key wrapped by the sender. -/
theorem ktOpen_wrapped {c : CurveNid} {A B : EvpPkey} (hA : IsKeyPair c A) (hB : IsKeyPair c B) (v w : KxEnv) (h : v.Same w)
    (R : PkeyCtx) (hR : R.pkey = B) (peer : EvpPkey) (hpeer : R.peerkey = some peer) (hg : peer.group = A.group) (hp : peer.pub = A.pub)
    (ukm : Bytes) (hu : ukm.length = 8) (shared : Bytes) (hs : vkoOn v (vko32Digest B.nid) B A ukm = some shared) (hl : shared.length = 32)
    (key : Bytes) (hk : key.length = 32) (p : ParamNID) (ki : Option KeyInfo) (buf : Bytes) (kl : Nat) :
    ktOpen w R (ktOf ukm (keyWrapCryptoPro (transportCtx v p) shared ukm key).2 p ki) buf kl = .ret 1 (key ++ buf.drop 32) 32 := by
  obtain ⟨s1, s2⟩ := wrap_shape (transportCtx v p) shared ukm key hl hu hk
  unfold ktOpen ktOf
  simp only [hpeer]
  rw [if_neg (by simp [hu]), if_neg (by simp [s1]), if_neg (by simp [s1]), s2]
  have t : (keyWrapCryptoPro (transportCtx v p) shared ukm key).2.take 8 = ukm := by
    rw [← s2, List.append_assoc, List.take_left' hu]
  rw [t]
  obtain ⟨md, hmd, -⟩ := vko32_md v.md B.nid
  have hsym := (pair_vko hA hB v w h _ md hmd ukm).1
  rw [hs] at hsym
  have hB' : vkoOn w (vko32Digest R.pkey.nid) peer R.pkey ukm = some shared := by
    rw [hsym, hR]
    exact vkoOn_congr w _ hg hp rfl rfl ukm
  rw [hB']
  simp only
  rw [C34_unwrap_wrap (transportCtx v p) (transportCtx w p) rfl shared ukm key hl hu hk]
  simp

/-- A context set up for the CryptoPro variant (the default). -/
def PkeyCtx.Cp (c : PkeyCtx) : Prop := c.data.cipher_nid = .undef ∨ c.data.cipher_nid = .gost28147_89

theorem encrypt_cp {S : PkeyCtx} (h : S.Cp) (v : KxEnv) (rand : Option Bytes) (draws : List Nat) (out : Option Nat) (key junk : Bytes) :
    pkey_gost_encrypt v S rand draws out key junk = pkey_GOST_ECcp_encrypt v S (rand.map (·.take 8)) draws out key junk := by
  unfold pkey_gost_encrypt
  rcases h with h | h <;> rw [h]

theorem decrypt_cp {R : PkeyCtx} (h : R.Cp) (v : KxEnv) (cache : GroupCache) (buf : Bytes) (kl : Nat) (hk : 32 ≤ kl) (inp out0 : Bytes) :
    pkey_gost_decrypt v cache R (some buf) kl inp out0 = pkey_GOST_ECcp_decrypt v cache R buf kl inp := by
  unfold pkey_gost_decrypt
  simp only
  rw [if_neg (by omega)]
  rcases h with h | h <;> rw [h]

/-- The UKM of a transport in the CryptoPro variant: the first 8 bytes of the one set, or 8 random bytes. -/
def cpUkm (d : PmethData) (rand : Bytes) : Bytes := if d.shared_ukm_size ≠ 0 then d.shared_ukm.take 8 else rand.take 8

theorem cpUkm_eq (d : PmethData) (rand : Bytes) :
    (if d.shared_ukm_size ≠ 0 then some (d.shared_ukm.take 8) else (some rand).map (·.take 8)) = some (cpUkm d rand) := by
  unfold cpUkm
  split <;> rfl

theorem cpUkm_length (d : PmethData) (rand : Bytes) (h1 : d.shared_ukm.length = 32) (h2 : rand.length = 32) : (cpUkm d rand).length = 8 := by
  unfold cpUkm
  split <;> simp [h1, h2]

/-- **C58**: a session key of 32 bytes sent to a recipient in the CryptoPro variant.  The sender has the recipient's public key, on any
curve with a file, of any type; it has set a UKM or uses random bytes (not all zero), and has a random source that delivers a number
other than 0.  Then the size reported for a NULL buffer is that of the structure, a buffer of that size suffices, and a recipient with
the private key, in whatever state, on whatever machine, having used any curves before, gets exactly the session key. -/
theorem C58_cp_roundtrip (v w : KxEnv) (hvw : v.Same w) (hD : v.der.Sound) (hK : v.kt.Sound v.der) (c : CurveNid) (B : EvpPkey)
    (hB : IsKeyPair c B) (S : PkeyCtx) (hS : S.pkey = B.public) (hSp : S.peerkey = none) (hcp : S.Cp)
    (rand : Bytes) (hr : rand.length = 32) (hu : S.data.shared_ukm.length = 32) (hnz : cpUkm S.data rand ≠ zeros 8)
    (draws : List Nat) (hq : ∀ e, gost_nid2params c = some e → ∀ k ∈ draws, k < e.q) (hd : ∃ k ∈ draws, k ≠ 0)
    (key junk : Bytes) (hk : key.length = 32) (hj : junk.length = 44) :
    ∃ blob : Bytes,
      (∀ rand' draws' key', rand'.length = 32 → (pkey_gost_encrypt v S (some rand') draws' none key' junk).2 = .size blob.length) ∧
      (∀ cap, blob.length ≤ cap → pkey_gost_encrypt v S (some rand) draws (some cap) key junk = (S, .data blob)) ∧
      ∀ (R : PkeyCtx) (rest buf : Bytes) (kl : Nat) (out0 : Bytes) (history : List (Option CurveNid)), R.pkey = B → R.Cp → 32 ≤ kl →
        (pkey_gost_decrypt w (cacheAfter history) R (some buf) kl (blob ++ rest) out0).2 = .ret 1 (key ++ buf.drop 32) 32 := by
  obtain ⟨sec, hsec, hpair, hnid⟩ := ephemeral_pair hB v none draws hq hd
  have hul := cpUkm_length S.data rand hu hr
  obtain ⟨md, hmd, hmdl⟩ := vko32_md v.md B.nid
  obtain ⟨e, he, -⟩ := id hB
  obtain ⟨m, hm⟩ := (pair_vko hpair hB v w hvw _ md hmd (cpUkm S.data rand)).2.1 e he (fun h => hnz ((ukm8_dvd he _ hul).1 h))
  obtain ⟨oct, o1, o2, o3, o4, o5⟩ := pair_encode hpair v.der hD v.ws v.ossl sec.priv
  obtain ⟨octB, b1, b2, b3, b4, b5⟩ := pair_encode hB v.der hD v.ws v.ossl none
  generalize hshared : md m = shared at hm
  have hsl : shared.length = 32 := by rw [← hshared]; exact hmdl m
  have hbn : S.pkey.nid = B.nid := by rw [hS]; rfl
  have hvS : vkoOn v (vko32Digest S.pkey.nid) S.pkey sec (cpUkm S.data rand) = some shared := by
    rw [hbn, ← hm]
    exact vkoOn_congr v _ (by rw [hS]; rfl) (by rw [hS]; rfl) rfl rfl _
  let kt := ktOf (cpUkm S.data rand) (keyWrapCryptoPro (transportCtx v (transportParam B.nid)) shared (cpUkm S.data rand) key).2 (transportParam B.nid)
    (some (spkiOf v.der sec.nid c oct))
  have hshape := wrap_shape (transportCtx v (transportParam B.nid)) shared (cpUkm S.data rand) key hsl hul hk
  refine ⟨v.kt.encKt kt, ?_, ?_, ?_⟩
  · intro rand' draws' key' hr'
    rw [encrypt_cp hcp]
    unfold pkey_GOST_ECcp_encrypt
    rw [cpUkm_eq]
    simp only [hSp]
    unfold ktFinish
    simp only [if_true]
    have : pub_encode v.der v.ws v.ossl S.pkey = some (spkiOf v.der B.nid c octB) := by rw [hS]; exact b3
    rw [this]
    simp only [hbn]
    refine congrArg EncRes.size (hK.kt_len _ _ ?_ ?_ rfl ?_ ?_)
    · simp [ktOf, kt, hj, hshape.1]
    · simp [ktOf, kt, hj, hshape.1]
    · simp [ktOf, kt, hul, cpUkm_length S.data rand' hu hr']
    · simp only [ktOf, kt, Option.map_some, spkiOf, hnid, Option.some.injEq, Prod.mk.injEq, true_and]
      exact hK.octet_len _ _ (by rw [o1, b1])
  · intro cap hcap
    rw [encrypt_cp hcp]
    unfold pkey_GOST_ECcp_encrypt
    rw [cpUkm_eq]
    simp only [hSp]
    have hsec' : ephemeralKey v S.pkey draws = some sec := by rw [hS]; exact hsec
    rw [hsec']
    simp only
    rw [hvS]
    simp only
    unfold ktFinish
    simp only [if_true]
    rw [show pub_encode v.der v.ws v.ossl sec = some (spkiOf v.der sec.nid c oct) from o3]
    simp only [hbn]
    rw [if_neg (show ¬ (v.kt.encKt kt).length > cap by omega)]
  · intro R rest buf kl out0 history hR hRcp hkl
    rw [decrypt_cp hRcp w _ buf kl hkl]
    unfold pkey_GOST_ECcp_decrypt
    rw [hvw.kt]
    rw [hK.kt kt rest ?_ ⟨_, rfl⟩ ?_ ?_ ?_]
    · simp only
      have hdec : (kt.ephem.bind fun ki => (pub_decode w.der (cacheAfter history) ki).2) = some sec.public := by
        rw [hvw.der]
        exact o5 history
      rw [hdec]
      simp only
      have hset : derive_set_peer R sec.public = some { R with peerkey := some sec.public } := by
        unfold derive_set_peer
        rw [if_neg (by rw [hR]; simp [EvpPkey.public, hnid]), if_neg]
        rintro ⟨-, h2⟩
        apply h2
        obtain ⟨e1, f1, -, g1, -⟩ := hB
        obtain ⟨e2, f2, -, g2, -⟩ := hpair
        obtain rfl : e1 = e2 := Option.some.inj (f1.symm.trans f2)
        unfold param_cmp
        rw [hR]
        simp only [g1, EvpPkey.public, g2]
        rfl
      rw [hset]
      simp only
      exact ktOpen_wrapped hpair hB v w hvw { R with peerkey := some sec.public } hR sec.public rfl rfl rfl _ hul shared hm hsl key hk _ _ buf kl
    · intro ki hki
      cases hki
      exact ⟨_, ⟨c, _⟩, oct, o4, o2, rfl⟩
    · simp [kt, ktOf]
    · simp [kt, ktOf]
    · simp [kt, ktOf, hul]

/-- **C58**: the same with a key of the sender's own instead of an ephemeral one: the structure carries no key, the recipient must have
the sender's public key as the peer key of its context, and both contexts report afterwards that the peer key was used. -/
theorem C58_cp_static_key (v w : KxEnv) (hvw : v.Same w) (hK : v.kt.Sound v.der) (c : CurveNid) (A B : EvpPkey)
    (hA : IsKeyPair c A) (hB : IsKeyPair c B) (S : PkeyCtx) (hS : S.pkey = B.public) (hSp : S.peerkey = some A) (hcp : S.Cp)
    (rand : Bytes) (hr : rand.length = 32) (hu : S.data.shared_ukm.length = 32) (hnz : cpUkm S.data rand ≠ zeros 8)
    (draws : List Nat) (key junk : Bytes) (hk : key.length = 32) :
    ∃ blob : Bytes,
      (∀ cap, blob.length ≤ cap → ∃ S', pkey_gost_encrypt v S (some rand) draws (some cap) key junk = (S', .data blob) ∧
        (pkey_gost_ctrl (some S'.pkey) S'.data (.peerKey 2)).2 = 1) ∧
      ∀ (R : PkeyCtx) (rest buf : Bytes) (kl : Nat) (out0 : Bytes) (history : List (Option CurveNid)), R.pkey = B →
        R.peerkey = some A.public → R.Cp → 32 ≤ kl →
        ∃ R', pkey_gost_decrypt w (cacheAfter history) R (some buf) kl (blob ++ rest) out0 = (R', .ret 1 (key ++ buf.drop 32) 32) ∧
          (pkey_gost_ctrl (some R'.pkey) R'.data (.peerKey 2)).2 = 1 := by
  have hul := cpUkm_length S.data rand hu hr
  obtain ⟨md, hmd, hmdl⟩ := vko32_md v.md B.nid
  obtain ⟨e, he, -⟩ := id hB
  obtain ⟨m, hm⟩ := (pair_vko hA hB v w hvw _ md hmd (cpUkm S.data rand)).2.1 e he (fun h => hnz ((ukm8_dvd he _ hul).1 h))
  generalize hshared : md m = shared at hm
  have hsl : shared.length = 32 := by rw [← hshared]; exact hmdl m
  have hbn : S.pkey.nid = B.nid := by rw [hS]; rfl
  have hvS : vkoOn v (vko32Digest S.pkey.nid) S.pkey A (cpUkm S.data rand) = some shared := by
    rw [hbn, ← hm]
    exact vkoOn_congr v _ (by rw [hS]; rfl) (by rw [hS]; rfl) rfl rfl _
  have hpr : ∃ d, A.priv = some d := by obtain ⟨_, _, _, _, d, hd, _⟩ := hA; exact ⟨d, hd⟩
  obtain ⟨d, hpr⟩ := hpr
  let kt := ktOf (cpUkm S.data rand) (keyWrapCryptoPro (transportCtx v (transportParam B.nid)) shared (cpUkm S.data rand) key).2 (transportParam B.nid)
    none
  refine ⟨v.kt.encKt kt, ?_, ?_⟩
  · intro cap hcap
    refine ⟨{ S with data := (pkey_gost_ctrl (some S.pkey) S.data (.peerKey 3)).1 }, ?_, rfl⟩
    rw [encrypt_cp hcp]
    unfold pkey_GOST_ECcp_encrypt
    rw [cpUkm_eq]
    simp only [hSp, hpr]
    rw [hvS]
    simp only
    unfold ktFinish
    simp only [Bool.false_eq_true, if_false, hbn]
    rw [if_neg (show ¬ (v.kt.encKt kt).length > cap by omega)]
    rw [hSp]
  · intro R rest buf kl out0 history hR hRp hRcp hkl
    refine ⟨{ R with data := (pkey_gost_ctrl (some R.pkey) R.data (.peerKey 3)).1 }, ?_, rfl⟩
    rw [decrypt_cp hRcp w _ buf kl hkl]
    unfold pkey_GOST_ECcp_decrypt
    rw [hvw.kt]
    rw [hK.kt kt rest (by intro ki hki; cases hki) ⟨_, rfl⟩ (by simp [kt, ktOf]) (by simp [kt, ktOf]) (by simp [kt, ktOf, hul])]
    simp only [kt, ktOf, Option.bind_none]
    congr 1
    exact ktOpen_wrapped hA hB v w hvw { R with data := (pkey_gost_ctrl (some R.pkey) R.data (.peerKey 3)).1 } hR A.public hRp rfl rfl _ hul shared
      hm hsl key hk _ none buf kl

/-- **C58**: a UKM of 8 zero bytes is refused: nothing is sent. -/
theorem C58_cp_zero_ukm_refused (v : KxEnv) (c : CurveNid) (B : EvpPkey) (hB : IsKeyPair c B) (S : PkeyCtx) (hS : S.pkey = B.public)
    (hSp : S.peerkey = none) (hcp : S.Cp) (rand : Bytes) (hz : cpUkm S.data rand = zeros 8) (draws : List Nat)
    (hq : ∀ e, gost_nid2params c = some e → ∀ k ∈ draws, k < e.q) (hd : ∃ k ∈ draws, k ≠ 0) (cap : Nat) (key junk : Bytes) :
    pkey_gost_encrypt v S (some rand) draws (some cap) key junk = (S, .ret (-1)) := by
  obtain ⟨sec, hsec, hpair, hnid⟩ := ephemeral_pair hB v none draws hq hd
  obtain ⟨md, hmd, hmdl⟩ := vko32_md v.md B.nid
  obtain ⟨e, he, -⟩ := id hB
  have hm := (pair_vko hpair hB v v ⟨rfl, rfl, rfl, rfl⟩ _ md hmd (cpUkm S.data rand)).2.2 e he (by
    rw [hz, leNat_zeros]; exact dvd_zero _)
  have hbn : S.pkey.nid = B.nid := by rw [hS]; rfl
  have hvS : vkoOn v (vko32Digest S.pkey.nid) S.pkey sec (cpUkm S.data rand) = none := by
    rw [hbn, ← hm]
    exact vkoOn_congr v _ (by rw [hS]; rfl) (by rw [hS]; rfl) rfl rfl _
  rw [encrypt_cp hcp]
  unfold pkey_GOST_ECcp_encrypt
  rw [cpUkm_eq]
  simp only [hSp]
  have hsec' : ephemeralKey v S.pkey draws = some sec := by rw [hS]; exact hsec
  rw [hsec']
  simp only
  rw [hvS]

theorem vkoOn_length {v : KxEnv} {nid : PkeyNid} {P M : EvpPkey} {u s : Bytes} (h : vkoOn v (vko32Digest nid) P M u = some s) : s.length = 32 := by
  obtain ⟨md, hmd, hl⟩ := vko32_md v.md nid
  unfold vkoOn at h
  rw [hmd] at h
  have key : ∀ {g : EcGroupRec} {Q : EcPoint} {d : Nat}, VKO_compute_key (engineGroup v.ws v.ossl g) md Q d u = some s → s.length = 32 := by
    intro g Q d h
    unfold VKO_compute_key at h
    simp only [Option.bind_eq_bind, Option.bind_eq_some_iff] at h
    obtain ⟨pnt, _, xy, _, x, _, y, _, h⟩ := h
    cases h
    exact hl _
  split at h
  · rename_i h1 h2 h3 h4 h5
    split at h
    · cases h1
      exact key h
    · cases h
  · cases h

/-- **C58**: the recipient accepts nothing but wrapped keys.  When a call succeeds in the CryptoPro variant, for whatever input, then the
input is a key transport structure with strings of the right lengths and a known S-box set, there is a peer key, which if it came with
the structure is of the type and on the curve of the recipient, and the strings are the wrapping of the very key delivered under the VKO
key shared with that peer. -/
theorem C58_cp_accepts_only_wrapped (v : KxEnv) (history : List (Option CurveNid)) (R R' : PkeyCtx) (hcp : R.Cp) (buf inp out0 k : Bytes)
    (kl kl' : Nat) (h : pkey_gost_decrypt v (cacheAfter history) R (some buf) kl inp out0 = (R', .ret 1 k kl')) :
    ∃ (gkt : KtInfo) (p : ParamNID) (peer : EvpPkey) (shared key : Bytes),
      v.kt.decKt inp = some gkt ∧ gkt.cipher = .known p ∧ gkt.eph_iv.length = 8 ∧ gkt.encrypted_key.length = 32 ∧ gkt.imit.length = 4 ∧
      R'.peerkey = some peer ∧ R'.pkey = R.pkey ∧
      (R.peerkey = some peer ∧ (pkey_gost_ctrl (some R'.pkey) R'.data (.peerKey 2)).2 = 1 ∨
        ∃ ki, gkt.ephem = some ki ∧ (pub_decode v.der (cacheAfter history) ki).2 = some peer ∧ peer.nid = R.pkey.nid ∧
          (peer.group.map EcGroupRec.name = none ∨ peer.group.map EcGroupRec.name = R.pkey.group.map EcGroupRec.name)) ∧
      vkoOn v (vko32Digest R.pkey.nid) peer R.pkey gkt.eph_iv = some shared ∧
      k = key ++ buf.drop 32 ∧ key.length = 32 ∧ kl' = 32 ∧
      gkt.eph_iv ++ gkt.encrypted_key ++ gkt.imit = (keyWrapCryptoPro (transportCtx v p) shared gkt.eph_iv key).2 := by
  have core : ∀ (c : PkeyCtx) (gkt : KtInfo), c.pkey = R.pkey → ktOpen v c gkt buf kl = .ret 1 k kl' →
      ∃ (p : ParamNID) (peer : EvpPkey) (shared key : Bytes), gkt.cipher = .known p ∧ gkt.eph_iv.length = 8 ∧ gkt.encrypted_key.length = 32 ∧
        gkt.imit.length = 4 ∧ c.peerkey = some peer ∧ vkoOn v (vko32Digest R.pkey.nid) peer R.pkey gkt.eph_iv = some shared ∧
        k = key ++ buf.drop 32 ∧ key.length = 32 ∧ kl' = 32 ∧
        gkt.eph_iv ++ gkt.encrypted_key ++ gkt.imit = (keyWrapCryptoPro (transportCtx v p) shared gkt.eph_iv key).2 := by
    intro c gkt hc ho
    unfold ktOpen at ho
    rw [hc] at ho
    cases hp : c.peerkey with
    | none => rw [hp] at ho; simp at ho
    | some peer =>
      rw [hp] at ho
      simp only at ho
      cases hci : gkt.cipher with
      | foreign => rw [hci] at ho; simp at ho
      | undef => rw [hci] at ho; simp at ho
      | known p =>
        rw [hci] at ho
        simp only at ho
        by_cases l1 : gkt.eph_iv.length = 8
        · by_cases l2 : gkt.encrypted_key.length = 32
          · by_cases l3 : gkt.imit.length = 4
            · rw [if_neg (by omega), if_neg (by omega), if_neg (by omega)] at ho
              have t : (gkt.eph_iv ++ gkt.encrypted_key ++ gkt.imit).take 8 = gkt.eph_iv := by
                rw [List.append_assoc, List.take_left' l1]
              rw [t] at ho
              cases hs : vkoOn v (vko32Digest R.pkey.nid) peer R.pkey gkt.eph_iv with
              | none => rw [hs] at ho; simp at ho
              | some shared =>
                rw [hs] at ho
                simp only at ho
                have hsl := vkoOn_length hs
                have hbl : (gkt.eph_iv ++ gkt.encrypted_key ++ gkt.imit).length = 44 := by simp [l1, l2, l3]
                have hor := (C34_unwrap_iff_mac (transportCtx v p) shared (gkt.eph_iv ++ gkt.encrypted_key ++ gkt.imit) hsl hbl).1
                have hkl : (keyUnwrapCryptoPro (transportCtx v p) shared (gkt.eph_iv ++ gkt.encrypted_key ++ gkt.imit)).2.1.length = 32 := by
                  simp only [keyUnwrapCryptoPro]; exact gost_dec_length _ _ 4
                rcases hor with h1 | h0
                · rw [if_neg (by rw [h1]; decide)] at ho
                  injection ho with _ hk hkl'
                  have hw := C34_accepted_only_if_wrapping _ _ _ hsl hbl h1
                  rw [t] at hw
                  exact ⟨p, peer, shared, _, rfl, l1, l2, l3, rfl, hs, hk.symm, hkl, hkl'.symm, hw⟩
                · rw [if_pos h0] at ho
                  simp at ho
            · rw [if_neg (by omega), if_neg (by omega), if_pos l3] at ho; cases ho
          · rw [if_neg (by omega), if_pos l2] at ho; cases ho
        · rw [if_pos l1] at ho; cases ho
  by_cases hkl : 32 ≤ kl
  swap
  · unfold pkey_gost_decrypt at h
    simp only at h
    rw [if_pos (by omega)] at h
    simp at h
  rw [decrypt_cp hcp v _ buf kl hkl] at h
  unfold pkey_GOST_ECcp_decrypt at h
  cases hdec : v.kt.decKt inp with
  | none => rw [hdec] at h; simp at h
  | some gkt =>
    rw [hdec] at h
    simp only at h
    cases he : gkt.ephem.bind fun ki => (pub_decode v.der (cacheAfter history) ki).2 with
    | none =>
      rw [he] at h
      simp only at h
      injection h with h1 h2
      obtain ⟨p, peer, shared, key, k1, k2, k3, k4, k5, k6, k7, k8, k9, k10⟩ := core { R with data := (pkey_gost_ctrl (some R.pkey) R.data (.peerKey 3)).1 } gkt rfl h2
      refine ⟨gkt, p, peer, shared, key, rfl, k1, k2, k3, k4, ?_, ?_, Or.inl ⟨k5, ?_⟩, k6, k7, k8, k9, k10⟩
      · rw [← h1]; exact k5
      · rw [← h1]
      · rw [← h1]; rfl
    | some eph =>
      rw [he] at h
      simp only at h
      cases hset : derive_set_peer R eph with
      | none => rw [hset] at h; simp at h
      | some c =>
        rw [hset] at h
        simp only at h
        injection h with h1 h2
        unfold derive_set_peer at hset
        split at hset
        · cases hset
        · rename_i hn
          split at hset
          · cases hset
          · rename_i hg
            cases hset
            obtain ⟨p, peer, shared, key, k1, k2, k3, k4, k5, k6, k7, k8, k9, k10⟩ := core { R with peerkey := some eph } gkt rfl h2
            cases k5
            obtain ⟨ki, hki, hpd⟩ := Option.bind_eq_some_iff.1 he
            refine ⟨gkt, p, eph, shared, key, rfl, k1, k2, k3, k4, ?_, ?_, Or.inr ⟨ki, hki, hpd, (not_not.1 hn).symm, ?_⟩, k6, k7, k8, k9, k10⟩
            · rw [← h1]
            · rw [← h1]
            · cases hgr : eph.group with
              | none => exact Or.inl rfl
              | some g =>
                right
                have : param_cmp R.pkey eph = 1 := by
                  by_contra hc
                  exact hg ⟨by rw [hgr]; simp, hc⟩
                unfold param_cmp at this
                rw [hgr] at this
                cases hr : R.pkey.group with
                | none => rw [hr] at this; simp at this
                | some h =>
                  rw [hr] at this
                  simp only at this
                  by_cases hnm : h.name = g.name
                  · simp [hnm]
                  · rw [if_neg hnm] at this; simp at this

/-! ## The variant of 2018 (KEG and KExp15) -/

/-- The value of `cipher_nid` that selects a cipher for the variant of 2018. -/
def OmacCipher.transport : OmacCipher → CipherNid
  | .magma => .magma_ctr
  | .kuznyechik => .kuznyechik_ctr

theorem transport2018_eq (n : OmacCipher) : transport2018 n.transport = some (n.ctr, n, n.block, n.block / 2) := by cases n <;> rfl

theorem encrypt_2018 {S : PkeyCtx} {n : OmacCipher} (h : S.data.cipher_nid = n.transport) (v : KxEnv) (rand : Option Bytes) (draws : List Nat)
    (out : Option Nat) (key junk : Bytes) : pkey_gost_encrypt v S rand draws out key junk = pkey_gost2018_encrypt v S rand draws out key := by
  unfold pkey_gost_encrypt
  rw [h]
  cases n <;> rfl

theorem decrypt_2018 {R : PkeyCtx} {n : OmacCipher} (h : R.data.cipher_nid = n.transport) (v : KxEnv) (cache : GroupCache) (buf : Bytes) (kl : Nat)
    (hk : 32 ≤ kl) (inp out0 : Bytes) :
    pkey_gost_decrypt v cache R (some buf) kl inp out0 = pkey_gost2018_decrypt v cache R buf kl inp out0 := by
  unfold pkey_gost_decrypt
  simp only
  rw [if_neg (by omega), h]
  cases n <;> rfl

theorem keg_length {G : Type} {E : EcGroup G} {X : Crypto} {md256 md512 : Bytes → Bytes} (h512 : ∀ m, (md512 m).length = 64) {ukm : Bytes}
    {nid : PkeyNid} {Q : G} {d : Nat} {k : Bytes} (h : gost_keg E X md256 md512 ukm nid Q d = some k) : k.length = 64 := by
  unfold gost_keg at h
  split at h
  · unfold VKO_compute_key at h
    simp only [Option.bind_eq_bind, Option.bind_eq_some_iff] at h
    obtain ⟨pnt, _, xy, _, x, _, y, _, h⟩ := h
    cases h
    exact h512 _
  · split at h
    · cases h
    · exact (C35_block X _ _ _ k 2 1 0 (by decide) (by decide) (by decide) h).2
  · cases h

theorem kegOn_length {v : KxEnv} {ukm : Bytes} {nid : PkeyNid} {P M : EvpPkey} {k : Bytes} (h : kegOn v ukm nid P M = some k) : k.length = 64 := by
  unfold kegOn at h
  split at h
  · split at h
    · exact keg_length v.md.len512 h
    · cases h
  · cases h

/-- Both sides compute the same KEG keys. -/
theorem pair_keg {c : CurveNid} {A B : EvpPkey} (hA : IsKeyPair c A) (hB : IsKeyPair c B) (v w : KxEnv) (h : v.Same w) (nid : PkeyNid)
    (hn : nid = .gost2012_256 ∨ nid = .gost2012_512) (ukm : Bytes) (hl : 16 ≤ ukm.length) :
    ∃ k : Bytes, kegOn v ukm nid B A = some k ∧ kegOn w ukm nid A B = some k ∧ k.length = 64 := by
  obtain ⟨e, he, hc, gA, dA, pA, nA, lA, hp, gen, hg, qA⟩ := hA
  obtain ⟨e', he', -, gB, dB, pB, nB, lB, hp', gen', hg', qB⟩ := hB
  obtain rfl : e = e' := Option.some.inj (he.symm.trans he')
  obtain rfl := gen_unique hg hg'
  have hvA := engine_via v.ws v.ossl he hc gen hg
  have hvB := engine_via w.ws w.ossl he hc gen hg
  have hE := curveGroup_sound he gen hg
  have kA : gost_ec_compute_public (curveGroup e gen) dA = some (dA • gen) := hE.mulG dA lA
  have kB : gost_ec_compute_public (curveGroup e gen) dB = some (dB • gen) := hE.mulG dB lB
  have hq := (cofactor_facts e (selected_mem he)).2.2.2.2
  obtain ⟨h1, h2⟩ := C41_keg_agreement (curveGroup e gen) hE (lt_of_le_of_lt (le_refl _) hq) v.crypto v.md.md256 v.md.md512 ukm hl nid hn
    dA dB _ _ kA kB lA lB nA nB
  have eA : kegOn v ukm nid B A = gost_keg (curveGroup e gen) v.crypto v.md.md256 v.md.md512 ukm nid (dB • gen) dA := by
    unfold kegOn
    simp only [gA, pA, gB, qB]
    rw [if_pos trivial, hvA.keg]
  have eB : kegOn w ukm nid A B = gost_keg (curveGroup e gen) v.crypto v.md.md256 v.md.md512 ukm nid (dA • gen) dB := by
    unfold kegOn
    rw [h.md, h.crypto]
    simp only [gA, pB, gB, qA]
    rw [if_pos trivial, hvB.keg]
  cases hk : gost_keg (curveGroup e gen) v.crypto v.md.md256 v.md.md512 ukm nid (dB • gen) dA with
  | none => exact absurd hk h2
  | some k =>
    refine ⟨k, eA.trans hk, ?_, keg_length v.md.len512 hk⟩
    rw [eB, ← h1, hk]

/-- The key a sender uses: the one of its own set as peer key of the context, of the type of the recipient and on its curve, or an
ephemeral one drawn from a random source that delivers a number other than 0. -/
def SenderKey (c : CurveNid) (B : EvpPkey) (S : PkeyCtx) (draws : List Nat) : Prop :=
  (S.peerkey = none ∧ (∀ e, gost_nid2params c = some e → ∀ k ∈ draws, k < e.q) ∧ ∃ k ∈ draws, k ≠ 0) ∨
  ∃ A, S.peerkey = some A ∧ IsKeyPair c A ∧ A.nid = B.nid

theorem sender_pair {c : CurveNid} {B : EvpPkey} (hB : IsKeyPair c B) {S : PkeyCtx} (hS : S.pkey = B.public) {draws : List Nat}
    (h : SenderKey c B S draws) (v : KxEnv) :
    ∃ sec, senderKey v S draws = some sec ∧ IsKeyPair c sec ∧ sec.nid = B.nid := by
  unfold senderKey
  rcases h with ⟨h1, h2, h3⟩ | ⟨A, h1, h2, h3⟩
  · obtain ⟨sec, k1, k2, k3⟩ := ephemeral_pair hB v none draws h2 h3
    refine ⟨sec, ?_, k2, k3⟩
    rw [h1, hS]
    exact k1
  · exact ⟨A, by rw [h1], h2, h3⟩

/-- The UKM a sender has set: none at all, or `ukm` of 1 to 32 bytes, once, on a new context. -/
def UkmSet (d : PmethData) (ukm : Bytes) : Prop :=
  ukm.length ≤ 32 ∧ d.shared_ukm = ukm ++ zeros (32 - ukm.length) ∧ d.shared_ukm_size = ukm.length

/-- The UKM that is used: the one set, or 32 random bytes. -/
def psUkm (ukm rand : Bytes) : Bytes := if ukm = [] then rand else ukm

theorem ukmSet_after (d : PmethData) (ukm rand : Bytes) (h : UkmSet d ukm) (hr : rand.length = 32) :
    ∃ d', drawUkm d (some rand) = some d' ∧ UkmSet d' (psUkm ukm rand) ∧ d'.cipher_nid = d.cipher_nid := by
  obtain ⟨h1, h2, h3⟩ := h
  unfold psUkm drawUkm
  by_cases hu : ukm = []
  · subst hu
    rw [if_pos (by simpa using h3), if_pos rfl]
    refine ⟨_, rfl, ⟨by omega, ?_, ?_⟩, rfl⟩
    · simp only [h2, memcpy, hr]
      simp [zeros, hr]
    · simp [hr]
  · have : ukm.length ≠ 0 := by simpa using hu
    rw [if_neg (by omega), if_neg hu]
    exact ⟨d, rfl, ⟨h1, h2, h3⟩, rfl⟩

/-- **C58**: a session key of 32 bytes sent in the variant of 2018 with either cipher, with an ephemeral key or one of the sender's own,
to a key of the types of 2012 on any curve with a file.  The UKM is any string of up to 32 bytes set once, or random.  The size reported
for a NULL buffer is that of the structure (and asking leaves the context with a UKM as if set); a buffer of that size suffices, a smaller
one is refused; and the recipient, given a new context or one with the same UKM set, on whatever machine, gets exactly the session
key. -/
theorem C58_2018_roundtrip (v w : KxEnv) (hvw : v.Same w) (hD : v.der.Sound) (hK : v.kt.Sound v.der) (c : CurveNid) (B : EvpPkey)
    (hB : IsKeyPair c B) (hn : B.nid = .gost2012_256 ∨ B.nid = .gost2012_512) (n : OmacCipher) (S : PkeyCtx) (hS : S.pkey = B.public)
    (hci : S.data.cipher_nid = n.transport) (draws : List Nat) (hsec : SenderKey c B S draws) (ukm : Bytes) (hu : UkmSet S.data ukm)
    (rand : Bytes) (hr : rand.length = 32) (key junk : Bytes) (hk : key.length = 32) :
    ∃ (blob : Bytes) (S' : PkeyCtx),
      pkey_gost_encrypt v S (some rand) draws none key junk = (S', .size blob.length) ∧
      S'.pkey = S.pkey ∧ S'.peerkey = S.peerkey ∧ S'.data.cipher_nid = S.data.cipher_nid ∧ UkmSet S'.data (psUkm ukm rand) ∧
      (∀ cap, pkey_gost_encrypt v S (some rand) draws (some cap) key junk = (S', if blob.length ≤ cap then .data blob else .ret 0)) ∧
      ∀ (R : PkeyCtx) (rest buf : Bytes) (kl : Nat) (out0 : Bytes) (history : List (Option CurveNid)), R.pkey = B →
        R.data.cipher_nid = n.transport → (UkmSet R.data [] ∨ UkmSet R.data (psUkm ukm rand)) → 32 ≤ kl →
        (pkey_gost_decrypt w (cacheAfter history) R (some buf) kl (blob ++ rest) out0).2 = .ret 1 (key ++ buf.drop 32) 32 := by
  obtain ⟨sec, hse, hpair, hnid⟩ := sender_pair hB hS hsec v
  obtain ⟨d', hd, ⟨u1, u2, u3⟩, u4⟩ := ukmSet_after S.data ukm rand hu hr
  have hU : d'.shared_ukm.length = 32 := by rw [u2]; simp [zeros]; omega
  obtain ⟨ks, ka, kb, kl64⟩ := pair_keg hpair hB v w hvw B.nid hn d'.shared_ukm (by omega)
  obtain ⟨oct, o1, o2, o3, o4, o5⟩ := pair_encode hpair v.der hD v.ws v.ossl sec.priv
  obtain ⟨octB, b1, b2, b3, b4, b5⟩ := pair_encode hB v.der hD v.ws v.ossl none
  have hbn : S.pkey.nid = B.nid := by rw [hS]; rfl
  have hkS : kegOn v d'.shared_ukm S.pkey.nid S.pkey sec = some ks := by
    rw [hbn, ← ka]
    exact kegOn_congr v _ (by rw [hS]; rfl) (by rw [hS]; rfl) rfl rfl _
  have hb16 : n.block ≤ 16 := by cases n <;> decide
  have hiv : ((d'.shared_ukm.drop 24).take (n.block / 2)).length = n.block / 2 := by
    rw [List.length_take, List.length_drop, hU]; omega
  have hm : (ks.take 32).length = 32 := by simp [kl64]
  have he : ((ks.drop 32).take 32).length = 32 := by simp [kl64]
  have hexp := C33_export_is_kexp15 v.crypto v.rng n key (ks.take 32) ((ks.drop 32).take 32) _ hm he hiv (key.length + n.block) (le_refl _)
  generalize hblob : Spec.kexp15 engineE v.crypto.cmac n key (ks.take 32) ((ks.drop 32).take 32) ((d'.shared_ukm.drop 24).take (n.block / 2)) = exp at hexp
  have hel : exp.length = 32 + n.block := by rw [← hblob, kexp15_length, hk]
  have hps : d'.shared_ukm.take d'.shared_ukm_size = psUkm ukm rand := by rw [u2, u3, List.take_left']; rfl
  let ps : PsInfo := { psexp := exp, ephem := spkiOf v.der sec.nid c oct, ukm := some (psUkm ukm rand) }
  have hlen : (v.kt.encPs { psexp := exp, ephem := spkiOf v.der B.nid c octB, ukm := some (psUkm ukm rand) }).length = (v.kt.encPs ps).length := by
    apply hK.ps_len
    · rfl
    · rfl
    · simp only [ps, spkiOf, hnid]
    · exact hK.octet_len _ _ (by rw [o1, b1])
  refine ⟨v.kt.encPs ps, { S with data := d' }, ?_, rfl, rfl, u4, ⟨u1, u2, u3⟩, ?_, ?_⟩
  · rw [encrypt_2018 hci]
    unfold pkey_gost2018_encrypt
    rw [hci, transport2018_eq]
    simp only [hse, hd, hkS, hexp, hps]
    have : pub_encode v.der v.ws v.ossl S.pkey = some (spkiOf v.der B.nid c octB) := by rw [hS]; exact b3
    rw [this]
    simp only [hlen]
  · intro cap
    rw [encrypt_2018 hci]
    unfold pkey_gost2018_encrypt
    rw [hci, transport2018_eq]
    simp only [hse, hd, hkS, hexp, hps]
    rw [show pub_encode v.der v.ws v.ossl sec = some (spkiOf v.der sec.nid c oct) from o3]
    simp only
    by_cases hcap : (v.kt.encPs ps).length ≤ cap
    · rw [if_neg (show ¬ (v.kt.encPs ps).length > cap by omega), if_pos hcap]
    · rw [if_pos (show (v.kt.encPs ps).length > cap by omega), if_neg hcap]
  · intro R rest buf kl out0 history hR hRci hRu hkl
    rw [decrypt_2018 hRci w _ buf kl hkl]
    unfold pkey_gost2018_decrypt
    rw [hRci, transport2018_eq, hvw.kt]
    simp only
    rw [hK.ps ps rest ⟨_, ⟨c, _⟩, oct, o4, o2, rfl⟩ (by simp only [ps]; omega) (by
      intro u hu; cases hu; omega)]
    simp only [ps]
    rw [hvw.der, o5 history]
    simp only
    have hdata : ∃ dR : PmethData, dR.shared_ukm = d'.shared_ukm ∧ takeUkm R.pkey R.data (some (psUkm ukm rand)) = some dR := by
      unfold takeUkm
      rcases hRu with ⟨r1, r2, r3⟩ | ⟨r1, r2, r3⟩
      · rw [if_pos (by simpa using r3)]
        have hc : pkey_gost_ctrl (some R.pkey) R.data (.setIv (psUkm ukm rand).length (some (psUkm ukm rand))) =
            ({ R.data with shared_ukm := memcpy R.data.shared_ukm (psUkm ukm rand) (psUkm ukm rand).length,
                           shared_ukm_size := (psUkm ukm rand).length }, 1) := by
          simp only [pkey_gost_ctrl]
          rw [if_neg (show ¬ (((psUkm ukm rand).length : Int) < 0 ∨ ((psUkm ukm rand).length : Int) > 32) by omega)]
          simp only [Int.toNat_natCast]
        simp only [hc]
        refine ⟨_, ?_, if_neg (by decide)⟩
        simp only [r2, u2, memcpy, List.nil_append, List.take_length, zeros, List.length_nil, Nat.sub_zero, List.drop_replicate]
      · have : (psUkm ukm rand).length ≠ 0 := by
          unfold psUkm
          split
          · omega
          · rename_i h; simpa using h
        exact ⟨R.data, by rw [r2, u2], if_neg (by omega)⟩
    obtain ⟨dR, hdU, hdR⟩ := hdata
    rw [hdR]
    simp only [hR, hdU]
    have hkR : kegOn w d'.shared_ukm B.nid sec.public B = some ks := by
      rw [← kb]
      exact kegOn_congr w _ rfl rfl rfl rfl _
    rw [hkR, hvw.crypto]
    simp only
    rw [C33_import_export v.crypto v.rng w.rng out0 n key _ _ _ buf exp hk hm he hiv _ hexp]
    simp

/-- **C58**: recipients of the types of 2001 are refused in the variant of 2018, when sending and when receiving. -/
theorem C58_2018_needs_2012 (v : KxEnv) (c : PkeyCtx) (hn : c.pkey.nid = .gost2001 ∨ c.pkey.nid = .gost2001DH) (n : OmacCipher)
    (hci : c.data.cipher_nid = n.transport) (rand : Option Bytes) (draws : List Nat) (out : Option Nat) (key junk : Bytes)
    (cache : GroupCache) (buf inp out0 : Bytes) (kl : Nat) (hkl : 32 ≤ kl) :
    (pkey_gost_encrypt v c rand draws out key junk).2 = .ret 0 ∧
    ∃ r, (pkey_gost_decrypt v cache c (some buf) kl inp out0).2 = .ret r buf kl ∧ r ≤ 0 := by
  have hno : ∀ u P M, kegOn v u c.pkey.nid P M = none := by
    intro u P M
    unfold kegOn
    split
    · split
      · unfold gost_keg
        rcases hn with h | h <;> rw [h]
      · rfl
    · rfl
  constructor
  · rw [encrypt_2018 hci]
    unfold pkey_gost2018_encrypt
    rw [hci, transport2018_eq]
    simp only
    split
    · rfl
    split
    · rfl
    · simp only [hno]
  · rw [decrypt_2018 hci v _ buf kl hkl]
    unfold pkey_gost2018_decrypt
    rw [hci, transport2018_eq]
    simp only
    split
    · exact ⟨-1, rfl, by decide⟩
    split
    · exact ⟨0, rfl, by decide⟩
    split
    · exact ⟨0, rfl, by decide⟩
    · simp only [hno]
      exact ⟨0, rfl, by decide⟩

/-- **C58**: what a recipient accepts in the variant of 2018.  When a call succeeds, for whatever input, then the input is a structure
with a public key on the recipient's curve that can be decoded, KEG of that key, the recipient's private key and the UKM now in the
context gives two keys, and the exported key, if it has the length of an exported session key, is the KExp15 export of the key delivered
under these two keys with the IV taken from the UKM.  (Exports of other lengths: C33.) -/
theorem C58_2018_accepts_only_exported (v : KxEnv) (cache : GroupCache) (R R' : PkeyCtx) (n : OmacCipher) (hci : R.data.cipher_nid = n.transport)
    (hu : R.data.shared_ukm.length = 32)
    (buf inp out0 k : Bytes) (kl kl' : Nat) (h : pkey_gost_decrypt v cache R (some buf) kl inp out0 = (R', .ret 1 k kl')) :
    ∃ (pst : PsInfo) (peer : EvpPkey) (keys : Bytes),
      v.kt.decPs inp = some pst ∧ (pub_decode v.der cache pst.ephem).2 = some peer ∧
      peer.group.map EcGroupRec.name = R.pkey.group.map EcGroupRec.name ∧
      R'.pkey = R.pkey ∧ R'.peerkey = R.peerkey ∧ R'.data.cipher_nid = n.transport ∧
      (R.data.shared_ukm_size ≠ 0 → R'.data = R.data) ∧
      (∀ u, R.data.shared_ukm_size = 0 → pst.ukm = some u → u.length ≤ 32 →
        R'.data.shared_ukm = memcpy R.data.shared_ukm u u.length ∧ R'.data.shared_ukm_size = u.length) ∧
      kegOn v R'.data.shared_ukm R.pkey.nid peer R.pkey = some keys ∧ kl' = 32 ∧
      (pst.psexp.length = 32 + n.block → ∃ key : Bytes, key.length = 32 ∧ k = key ++ buf.drop 32 ∧
        pst.psexp = Spec.kexp15 engineE v.crypto.cmac n key (keys.take 32) ((keys.drop 32).take 32)
          ((R'.data.shared_ukm.drop 24).take (n.block / 2))) := by
  by_cases hkl : 32 ≤ kl
  swap
  · unfold pkey_gost_decrypt at h
    simp only at h
    rw [if_pos (by omega)] at h
    simp at h
  rw [decrypt_2018 hci v _ buf kl hkl] at h
  unfold pkey_gost2018_decrypt at h
  rw [hci, transport2018_eq] at h
  simp only at h
  cases hdec : v.kt.decPs inp with
  | none => rw [hdec] at h; simp at h
  | some pst =>
    rw [hdec] at h
    simp only at h
    cases hpd : (pub_decode v.der cache pst.ephem).2 with
    | none => rw [hpd] at h; simp at h
    | some peer =>
      rw [hpd] at h
      simp only at h
      cases ht : takeUkm R.pkey R.data pst.ukm with
      | none => rw [ht] at h; simp at h
      | some d =>
        rw [ht] at h
        simp only at h
        cases hk : kegOn v d.shared_ukm R.pkey.nid peer R.pkey with
        | none => rw [hk] at h; simp at h
        | some keys =>
          rw [hk] at h
          simp only at h
          have hfacts : d.shared_ukm.length = 32 ∧ d.cipher_nid = R.data.cipher_nid ∧ (R.data.shared_ukm_size ≠ 0 → d = R.data) ∧
              (∀ u, R.data.shared_ukm_size = 0 → pst.ukm = some u → u.length ≤ 32 →
                d.shared_ukm = memcpy R.data.shared_ukm u u.length ∧ d.shared_ukm_size = u.length) := by
            unfold takeUkm at ht
            by_cases h0 : R.data.shared_ukm_size = 0
            · rw [if_pos h0] at ht
              cases hpu : pst.ukm with
              | none =>
                rw [hpu] at ht
                cases ht
                exact ⟨hu, rfl, fun h => absurd h0 h, fun u _ h => absurd h (by simp)⟩
              | some u =>
                rw [hpu] at ht
                simp only at ht
                by_cases hul : u.length ≤ 32
                · have hc : pkey_gost_ctrl (some R.pkey) R.data (.setIv u.length (some u)) =
                      ({ R.data with shared_ukm := memcpy R.data.shared_ukm u u.length, shared_ukm_size := u.length }, 1) := by
                    simp only [pkey_gost_ctrl]
                    rw [if_neg (show ¬ ((u.length : Int) < 0 ∨ (u.length : Int) > 32) by omega)]
                    simp only [Int.toNat_natCast]
                  simp only [hc] at ht
                  rw [if_neg (by decide)] at ht
                  cases ht
                  refine ⟨?_, rfl, fun h => absurd h0 h, ?_⟩
                  · simp only [memcpy, List.take_length, List.length_append, List.length_drop, hu]; omega
                  · intro u' _ hu' _
                    cases hu'
                    exact ⟨rfl, rfl⟩
                · have hc : pkey_gost_ctrl (some R.pkey) R.data (.setIv u.length (some u)) = (R.data, 0) := by
                    simp only [pkey_gost_ctrl]
                    rw [if_pos (show ((u.length : Int) < 0 ∨ (u.length : Int) > 32) by omega)]
                  simp only [hc] at ht
                  rw [if_neg (by decide)] at ht
                  cases ht
                  refine ⟨hu, rfl, fun h => absurd h0 h, ?_⟩
                  intro u' _ hu' h32
                  cases hu'
                  exact absurd h32 hul
            · rw [if_neg h0] at ht
              cases ht
              exact ⟨hu, rfl, fun _ => rfl, fun _ h => absurd h h0⟩
          obtain ⟨f1, f2, f3, f4⟩ := hfacts
          by_cases hr : (gost_kimp15 v.crypto v.rng out0 pst.psexp n.ctr ((keys.drop 32).take 32) n (keys.take 32)
              ((d.shared_ukm.drop 24).take (n.block / 2)) buf).2 ≤ 0
          · rw [if_pos hr] at h
            simp at h
          · rw [if_neg hr] at h
            injection h with h1 h2
            injection h2 with _ h3 h4
            have hkl64 := kegOn_length hk
            have hb16 : n.block ≤ 16 := by cases n <;> decide
            have hiv : ((d.shared_ukm.drop 24).take (n.block / 2)).length = n.block / 2 := by
              rw [List.length_take, List.length_drop, f1]; omega
            refine ⟨pst, peer, keys, rfl, hpd, ?_, by rw [← h1], by rw [← h1], by rw [← h1, ← hci]; exact f2, ?_, ?_, by rw [← h1]; exact hk, h4.symm, ?_⟩
            · unfold kegOn at hk
              split at hk
              · rename_i h1 _ h2 _
                rw [h1, h2]
                split at hk
                · rename_i hn; simp [hn]
                · cases hk
              · cases hk
            · rw [← h1]; exact f3
            · rw [← h1]; exact f4
            · intro hl
              have h01 := C33_failure_untouched v.crypto v.rng out0 n.ctr n pst.psexp (keys.take 32) ((keys.drop 32).take 32)
                ((d.shared_ukm.drop 24).take (n.block / 2)) buf
              have hone : (gost_kimp15 v.crypto v.rng out0 pst.psexp n.ctr ((keys.drop 32).take 32) n (keys.take 32)
                  ((d.shared_ukm.drop 24).take (n.block / 2)) buf).2 = 1 := by
                rcases h01 with ⟨h, _⟩ | ⟨h, _⟩
                · rw [h] at hr; exact absurd (le_refl _) hr
                · exact h
              obtain ⟨key, e1, e2, e3⟩ := (C33_import_iff_export v.crypto v.rng out0 n pst.psexp (keys.take 32) ((keys.drop 32).take 32) _ buf
                (by simp [hkl64]) (by simp [hkl64]) hiv hl).1 hone
              exact ⟨key, e1, h3.symm.trans e3, by rw [← h1]; exact e2⟩

/-! ## Everything else -/

/-- **C58**: with any other cipher set neither direction does anything. -/
theorem C58_other_cipher_refused (v : KxEnv) (c : PkeyCtx) (hno : ¬ c.Cp) (hno' : ∀ n : OmacCipher, c.data.cipher_nid ≠ n.transport)
    (rand : Option Bytes) (draws : List Nat) (out : Option Nat) (key junk : Bytes) (cache : GroupCache) (buf inp out0 : Bytes) (kl : Nat)
    (hkl : 32 ≤ kl) :
    pkey_gost_encrypt v c rand draws out key junk = (c, .ret (-1)) ∧
    pkey_gost_decrypt v cache c (some buf) kl inp out0 = (c, .ret (-1) buf kl) := by
  have h1 : c.data.cipher_nid ≠ .undef := fun h => hno (Or.inl h)
  have h2 : c.data.cipher_nid ≠ .gost28147_89 := fun h => hno (Or.inr h)
  have h3 := hno' .magma
  have h4 := hno' .kuznyechik
  simp only [OmacCipher.transport] at h3 h4
  unfold pkey_gost_encrypt pkey_gost_decrypt
  simp only
  rw [if_neg (by omega)]
  cases hc : c.data.cipher_nid <;> simp_all

/-- **C58**: a buffer of less than 32 bytes is refused when receiving, and 32 is the size reported for a NULL buffer. -/
theorem C58_receive_buffer (v : KxEnv) (cache : GroupCache) (c : PkeyCtx) (buf inp out0 : Bytes) (kl : Nat) :
    (kl < 32 → pkey_gost_decrypt v cache c (some buf) kl inp out0 = (c, .ret 0 buf kl)) ∧
    pkey_gost_decrypt v cache c none kl inp out0 = (c, .ret 1 [] 32) := by
  refine ⟨fun h => ?_, rfl⟩
  unfold pkey_gost_decrypt
  simp only
  rw [if_pos h]

/-- **C58**: in the variant of 2018 a rejected structure leaves the caller's buffer untouched. -/
theorem C58_2018_reject_untouched (v : KxEnv) (cache : GroupCache) (R : PkeyCtx) (n : OmacCipher) (hci : R.data.cipher_nid = n.transport)
    (buf inp out0 : Bytes) (kl : Nat) :
    (∃ k, (pkey_gost_decrypt v cache R (some buf) kl inp out0).2 = .ret 1 k 32) ∨
    ∃ r, r ≤ 0 ∧ (pkey_gost_decrypt v cache R (some buf) kl inp out0).2 = .ret r buf kl := by
  by_cases hkl : 32 ≤ kl
  swap
  · right
    refine ⟨0, le_refl _, ?_⟩
    rw [(C58_receive_buffer v cache R buf inp out0 kl).1 (by omega)]
  rw [decrypt_2018 hci v _ buf kl hkl]
  unfold pkey_gost2018_decrypt
  rw [hci, transport2018_eq]
  simp only
  split
  · exact Or.inr ⟨-1, by decide, rfl⟩
  split
  · exact Or.inr ⟨0, le_refl _, rfl⟩
  split
  · exact Or.inr ⟨0, le_refl _, rfl⟩
  split
  · exact Or.inr ⟨0, le_refl _, rfl⟩
  rename_i _ pst _ _ eph _ _ d _ _ keys _
  rcases C33_failure_untouched v.crypto v.rng out0 n.ctr n pst.psexp (keys.take 32) ((keys.drop 32).take 32)
    ((d.shared_ukm.drop 24).take (n.block / 2)) buf with ⟨h, h'⟩ | ⟨h, _⟩
  · rw [if_pos (by rw [h])]
    exact Or.inr ⟨0, le_refl _, by rw [h']⟩
  · rw [if_neg (by rw [h]; decide)]
    exact Or.inl ⟨_, rfl⟩

end Gost
