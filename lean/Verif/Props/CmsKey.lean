import Verif.Model.CmsKey
import Verif.Props.Derive
import Verif.Props.Wrap

/-!
# C60: recipient information of CMS
-/

namespace Gost

open Spec (leNat beNat leBytes beBytes ecOf)

/-! ## Specification: what OpenSSL's CMS code does with these functions -/

/-- A new context for a key. -/
def newCtx (pkey : EvpPkey) : Option PkeyCtx := (pkey_gost_init (some pkey)).map fun d => ⟨pkey, none, d⟩

/-- The sender's context: the cipher is announced with `EVP_PKEY_CTRL_CIPHER`, if it is. -/
def senderCtx (pkey : EvpPkey) (cipher : Option CipherNid) : Option PkeyCtx :=
  (newCtx pkey).map fun c =>
    match cipher with
    | none => c
    | some n => { c with data := (pkey_gost_ctrl (some c.pkey) c.data (.cipher n)).1 }

/-- `cms_RecipientInfo_ktri_encrypt`: the algorithm is set, the size is asked for (with random bytes and draws `r₁ d₁`), and the key is
encrypted into a buffer of that size (with `r₂ d₂`). -/
def ktriSend (v : KxEnv) (pkey : EvpPkey) (cipher : Option CipherNid) (r₁ r₂ : Option Bytes) (d₁ d₂ : List Nat) (key junk : Bytes) :
    Option (CmsAlg × Bytes) :=
  match senderCtx pkey cipher with
  | none => none
  | some c =>
    match cms_envelope_alg v.der c with
    | none => none
    | some alg =>
      match pkey_gost_encrypt v c r₁ d₁ none key junk with
      | (c, .size n) =>
        match pkey_gost_encrypt v c r₂ d₂ (some n) key junk with
        | (_, .data blob) => some (alg, blob)
        | _ => none
      | _ => none

/-- `cms_RecipientInfo_ktri_decrypt`: a new context, the algorithm, and the key decrypted into a buffer of 32 bytes. -/
def ktriReceive (w : KxEnv) (cache : GroupCache) (pkey : EvpPkey) (alg : CmsAlg) (blob out0 : Bytes) : Option DecRes :=
  match newCtx pkey with
  | none => none
  | some c =>
    match gost_cms_set_ktri_shared_info c alg with
    | (c, 1) => some (pkey_gost_decrypt w cache c (some (zeros 32)) 32 blob out0).2
    | _ => none

/-- The ciphers whose keys are sent in the variant of 2018, and how. -/
def CipherNid.exports : CipherNid → Option OmacCipher
  | .magma_ctr | .magma_ctr_acpkm | .magma_ctr_acpkm_omac => some .magma
  | .kuznyechik_ctr | .kuznyechik_ctr_acpkm | .kuznyechik_ctr_acpkm_omac => some .kuznyechik
  | _ => none

/-- Numbers drawn that give a key: all below the order, one of them not zero. -/
def GoodDraws (c : CurveNid) (draws : List Nat) : Prop := (∀ e, gost_nid2params c = some e → ∀ k ∈ draws, k < e.q) ∧ ∃ k ∈ draws, k ≠ 0

/-! ## Lemmas -/

theorem newCtx_pair {c : CurveNid} {B : EvpPkey} (hB : IsKeyPair c B) (p : Option Nat) :
    newCtx { B with priv := p } = some ⟨{ B with priv := p }, none, { PmethData.zero with sign_param_nid := some c }⟩ := by
  obtain ⟨e, -, -, hg, -⟩ := hB
  simp only [newCtx, pkey_gost_init, hg]
  rfl

theorem zero_ukmSet (n : Option CurveNid) (x : CipherNid) : UkmSet { PmethData.zero with sign_param_nid := n, cipher_nid := x } [] :=
  ⟨by decide, rfl, rfl⟩

theorem size_2018 (v : KxEnv) (hD : v.der.Sound) (hK : v.kt.Sound v.der) (c : CurveNid) (B : EvpPkey)
    (hB : IsKeyPair c B) (hn : B.nid = .gost2012_256 ∨ B.nid = .gost2012_512) (n : OmacCipher) :
    ∃ f : Nat → Nat, ∀ (S : PkeyCtx) (_ : S.pkey = B.public) (_ : S.data.cipher_nid = n.transport) (draws : List Nat)
      (_ : SenderKey c B S draws) (ukm : Bytes) (_ : UkmSet S.data ukm) (rand : Bytes) (_ : rand.length = 32) (key junk : Bytes)
      (_ : key.length = 32), (pkey_gost_encrypt v S (some rand) draws none key junk).2 = .size (f (psUkm ukm rand).length) := by
  obtain ⟨octB, b1, b2, b3, b4, b5⟩ := pair_encode hB v.der hD v.ws v.ossl none
  refine ⟨fun l => (v.kt.encPs { psexp := zeros (32 + n.block), ephem := spkiOf v.der B.nid c octB, ukm := some (zeros l) }).length, ?_⟩
  intro S hS hci draws hsec ukm hu rand hr key junk hk
  obtain ⟨sec, hse, hpair, hnid⟩ := sender_pair hB hS hsec v
  obtain ⟨d', hd, ⟨u1, u2, u3⟩, u4⟩ := ukmSet_after S.data ukm rand hu hr
  have hU : d'.shared_ukm.length = 32 := by rw [u2]; simp [zeros]; omega
  obtain ⟨ks, ka, kb, kl64⟩ := pair_keg hpair hB v v ⟨rfl, rfl, rfl, rfl⟩ B.nid hn d'.shared_ukm (by omega)
  have hbn : S.pkey.nid = B.nid := by rw [hS]; rfl
  have hkS : kegOn v d'.shared_ukm S.pkey.nid S.pkey sec = some ks := by
    rw [hbn, ← ka]
    exact kegOn_congr v _ (by rw [hS]; rfl) (by rw [hS]; rfl) rfl rfl _
  have hb16 : n.block ≤ 16 := by cases n <;> decide
  have hiv : ((d'.shared_ukm.drop 24).take (n.block / 2)).length = n.block / 2 := by
    rw [List.length_take, List.length_drop, hU]; omega
  have hm : (ks.take 32).length = 32 := by simp [kl64]
  have he : ((ks.drop 32).take 32).length = 32 := by simp [kl64]
  have hexp := C33_export_is_kexp15 v.crypto v.rng n key (ks.take 32) ((ks.drop 32).take 32) _ hm he hiv (key.length + n.block) (le_refl _)
  generalize hblob : Spec.kexp15 engineE v.crypto.cmac n key (ks.take 32) ((ks.drop 32).take 32) ((d'.shared_ukm.drop 24).take (n.block / 2)) = exp at hexp
  have hel : exp.length = 32 + n.block := by rw [← hblob, kexp15_length, hk]
  have hps : d'.shared_ukm.take d'.shared_ukm_size = psUkm ukm rand := by rw [u2, u3, List.take_left']; rfl
  rw [encrypt_2018 hci]
  unfold pkey_gost2018_encrypt
  rw [hci, transport2018_eq]
  simp only [hse, hd, hkS, hexp, hps]
  have : pub_encode v.der v.ws v.ossl S.pkey = some (spkiOf v.der B.nid c octB) := by rw [hS]; exact b3
  rw [this]
  simp only [EncRes.size.injEq]
  apply hK.ps_len
  · simp [hel, zeros]
  · simp [zeros]
  · rfl
  · rfl

/-! ## Key transport -/

/-- **C60**: whichever of the engine's ciphers is announced for the content — none, GOST 28147-89 by its identifier, or a CTR mode of Magma or
Kuznyechik, with or without ACPKM or OMAC — a session key of 32 bytes sent as OpenSSL's CMS code does arrives at the recipient, who only has the
private key and the algorithm in the structure.  Keys of the types of 2001 are served with GOST 28147-89. -/
theorem C60_ktri_roundtrip (v w : KxEnv) (hvw : v.Same w) (hD : v.der.Sound) (hK : v.kt.Sound v.der) (c : CurveNid) (B : EvpPkey)
    (hB : IsKeyPair c B) (cipher : Option CipherNid)
    (hc : (cipher = none ∨ cipher = some .undef ∨ cipher = some .gost28147_89) ∨
      ((∃ x n, cipher = some x ∧ x.exports = some n) ∧ (B.nid = .gost2012_256 ∨ B.nid = .gost2012_512)))
    (r₁ r₂ : Bytes) (h₁ : r₁.length = 32) (h₂ : r₂.length = 32) (hz : r₂.take 8 ≠ zeros 8) (d₁ d₂ : List Nat) (hd₁ : GoodDraws c d₁)
    (hd₂ : GoodDraws c d₂) (key junk : Bytes) (hk : key.length = 32) (hj : junk.length = 44) :
    ∃ alg blob, ktriSend v B.public cipher (some r₁) (some r₂) d₁ d₂ key junk = some (alg, blob) ∧
      ∀ (out0 : Bytes) (history : List (Option CurveNid)), ktriReceive w (cacheAfter history) B alg blob out0 = some (.ret 1 key 32) := by
  have hnew : newCtx B.public = some ⟨B.public, none, { PmethData.zero with sign_param_nid := some c }⟩ := newCtx_pair hB none
  have hnewB : newCtx B = some ⟨B, none, { PmethData.zero with sign_param_nid := some c }⟩ := newCtx_pair hB B.priv
  obtain ⟨octB, b1, b2, b3, b4, b5⟩ := pair_encode hB v.der hD v.ws v.ossl none
  have henc : ∃ der, encode_gost_algor_params v.der B.public = some der := by
    have b3' : pub_encode v.der v.ws v.ossl B.public = _ := b3
    unfold pub_encode at b3'
    cases h : encode_gost_algor_params v.der B.public with
    | some der => exact ⟨der, rfl⟩
    | none => rw [h] at b3'; cases b3'
  obtain ⟨der, hder⟩ := henc
  have happ : key ++ (zeros 32).drop 32 = key := by simp [zeros]
  rcases hc with hc | ⟨⟨x, n, hx, hn⟩, ht⟩
  · -- the CryptoPro variant
    obtain ⟨x, hx, hs⟩ : ∃ x, (x = .undef ∨ x = .gost28147_89) ∧ senderCtx B.public cipher =
        some ⟨B.public, none, { PmethData.zero with sign_param_nid := some c, cipher_nid := x }⟩ := by
      unfold senderCtx
      rw [hnew]
      rcases hc with rfl | rfl | rfl
      · exact ⟨.undef, Or.inl rfl, rfl⟩
      · exact ⟨.undef, Or.inl rfl, rfl⟩
      · exact ⟨.gost28147_89, Or.inr rfl, rfl⟩
    have hcp : PkeyCtx.Cp ⟨B.public, none, { PmethData.zero with sign_param_nid := some c, cipher_nid := x }⟩ := hx
    have halg : cms_envelope_alg v.der ⟨B.public, none, { PmethData.zero with sign_param_nid := some c, cipher_nid := x }⟩ =
        some ⟨.key B.nid, .seq der⟩ := by
      unfold cms_envelope_alg
      rcases hx with rfl | rfl <;> simp only [pkcs7_encrypt_alg, hder] <;> rfl
    obtain ⟨blob, s1, s2, s3⟩ := C58_cp_roundtrip v w hvw hD hK c B hB
      ⟨B.public, none, { PmethData.zero with sign_param_nid := some c, cipher_nid := x }⟩ rfl rfl hcp r₂ h₂ rfl hz d₂ hd₂.1 hd₂.2 key junk hk hj
    have s0 : pkey_gost_encrypt v ⟨B.public, none, { PmethData.zero with sign_param_nid := some c, cipher_nid := x }⟩ (some r₁) d₁ none key junk =
        (⟨B.public, none, { PmethData.zero with sign_param_nid := some c, cipher_nid := x }⟩, .size blob.length) := by
      apply Prod.ext
      · rw [encrypt_cp hcp]
        unfold pkey_GOST_ECcp_encrypt ktFinish
        simp only [PmethData.zero]
        simp only [ne_eq, not_true_eq_false, if_false, Option.map_some, if_true]
        split <;> rfl
      · exact s1 r₁ d₁ key h₁
    refine ⟨⟨.key B.nid, .seq der⟩, blob, ?_, ?_⟩
    · unfold ktriSend
      simp only [hs, halg, s0, s2 _ (le_refl _)]
    · intro out0 history
      unfold ktriReceive
      simp only [hnewB, gost_cms_set_ktri_shared_info]
      have := s3 ⟨B, none, { PmethData.zero with sign_param_nid := some c, cipher_nid := .gost28147_89 }⟩ [] (zeros 32) 32 out0 history rfl
        (Or.inr rfl) (le_refl _)
      rw [List.append_nil, happ] at this
      exact congrArg some this
  · -- the variant of 2018
    subst hx
    have hs : senderCtx B.public (some x) = some ⟨B.public, none, { PmethData.zero with sign_param_nid := some c, cipher_nid := n.transport }⟩ := by
      unfold senderCtx
      rw [hnew]
      cases x <;> first | (cases hn; done) | (cases hn; rfl)
    have halg : cms_envelope_alg v.der ⟨B.public, none, { PmethData.zero with sign_param_nid := some c, cipher_nid := n.transport }⟩ =
        some ⟨.kexp15 n, .seq (gost_encode_cms_params v.der B.nid)⟩ := by
      cases n <;> rfl
    obtain ⟨blob1, S', t1, t2, t3, t4, t5, -, -⟩ := C58_2018_roundtrip v w hvw hD hK c B hB ht n
      ⟨B.public, none, { PmethData.zero with sign_param_nid := some c, cipher_nid := n.transport }⟩ rfl rfl d₁ (Or.inl ⟨rfl, hd₁.1, hd₁.2⟩) []
      (zero_ukmSet _ _) r₁ h₁ key junk hk
    have hS' : S'.data.cipher_nid = n.transport := t4
    obtain ⟨blob, S'', -, -, -, -, -, u1, u2⟩ := C58_2018_roundtrip v w hvw hD hK c B hB ht n S' t2 hS' d₂ (Or.inl ⟨t3, hd₂.1, hd₂.2⟩) _ t5
      r₂ h₂ key junk hk
    obtain ⟨f, hf⟩ := size_2018 v hD hK c B hB ht n
    have f1 := hf ⟨B.public, none, { PmethData.zero with sign_param_nid := some c, cipher_nid := n.transport }⟩ rfl rfl d₁
      (Or.inl ⟨rfl, hd₁.1, hd₁.2⟩) [] (zero_ukmSet _ _) r₁ h₁ key junk hk
    have f2 := hf S' t2 hS' d₂ (Or.inl ⟨t3, hd₂.1, hd₂.2⟩) _ t5 r₂ h₂ key junk hk
    have hlen : blob1.length = blob.length := by
      rw [t1] at f1
      have e1 := EncRes.size.inj f1
      obtain ⟨blob', S3, w1, -, -, -, -, w2, -⟩ := C58_2018_roundtrip v w hvw hD hK c B hB ht n S' t2 hS' d₂ (Or.inl ⟨t3, hd₂.1, hd₂.2⟩) _ t5
        r₂ h₂ key junk hk
      rw [w1] at f2
      have e2 := EncRes.size.inj f2
      have hb : blob' = blob := by
        have k1 := u1 (max blob.length blob'.length)
        have k2 := w2 (max blob.length blob'.length)
        rw [k1] at k2
        rw [if_pos (le_max_left _ _), if_pos (le_max_right _ _)] at k2
        exact (EncRes.data.inj (congrArg Prod.snd k2)).symm
      rw [hb] at e2
      rw [e1, e2]
      have hr : r₁ ≠ [] := by intro h; rw [h] at h₁; cases h₁
      simp [psUkm, hr]
    refine ⟨⟨.kexp15 n, .seq (gost_encode_cms_params v.der B.nid)⟩, blob, ?_, ?_⟩
    · unfold ktriSend
      simp only [hs, halg, t1, u1, if_pos (Nat.le_of_eq hlen.symm)]
    · intro out0 history
      unfold ktriReceive
      have hset : gost_cms_set_ktri_shared_info ⟨B, none, { PmethData.zero with sign_param_nid := some c }⟩
          ⟨.kexp15 n, .seq (gost_encode_cms_params v.der B.nid)⟩ =
          (⟨B, none, { PmethData.zero with sign_param_nid := some c, cipher_nid := n.transport }⟩, 1) := by
        cases n <;> rfl
      simp only [hnewB, hset]
      have := u2 ⟨B, none, { PmethData.zero with sign_param_nid := some c, cipher_nid := n.transport }⟩ [] (zeros 32) 32 out0 history rfl rfl
        (Or.inl (zero_ukmSet _ _)) (le_refl _)
      rw [List.append_nil, happ] at this
      exact congrArg some this

/-- **C60**: nothing is sent when another cipher is announced, or a cipher of 2015 with a key of the types of 2001. -/
theorem C60_ktri_refused (v : KxEnv) (pkey : EvpPkey) (x : CipherNid)
    (hx : (x ≠ .undef ∧ x ≠ .gost28147_89 ∧ x.exports = none) ∨
      ((∃ n, x.exports = some n) ∧ (pkey.nid = .gost2001 ∨ pkey.nid = .gost2001DH)))
    (r₁ r₂ : Option Bytes) (d₁ d₂ : List Nat) (key junk : Bytes) : ktriSend v pkey (some x) r₁ r₂ d₁ d₂ key junk = none := by
  unfold ktriSend
  cases hs : senderCtx pkey (some x) with
  | none => rfl
  | some c =>
    simp only
    cases ha : cms_envelope_alg v.der c with
    | none => rfl
    | some alg =>
      simp only
      have hc : c.pkey = pkey ∧ c.data.cipher_nid = ctrlCipher x := by
        unfold senderCtx newCtx at hs
        cases hi : pkey_gost_init (some pkey) with
        | none => rw [hi] at hs; cases hs
        | some d => rw [hi] at hs; cases hs; exact ⟨rfl, rfl⟩
      have hfail : ∃ r, (pkey_gost_encrypt v c r₁ d₁ none key junk).2 = .ret r := by
        rcases hx with ⟨h1, h2, h3⟩ | ⟨⟨n, hn⟩, ht⟩
        · have hcx : ctrlCipher x = x := by cases x <;> first | rfl | (cases h3; done)
          refine ⟨-1, ?_⟩
          rw [(C58_other_cipher_refused v c ?_ ?_ r₁ d₁ none key junk (cacheAfter []) [] [] [] 32 (le_refl _)).1]
          · rintro (h | h) <;> rw [hc.2, hcx] at h
            · exact h1 h
            · exact h2 h
          · intro n h
            rw [hc.2, hcx] at h
            subst h
            cases n <;> cases h3
        · have hcn : c.data.cipher_nid = n.transport := by
            rw [hc.2]
            cases x <;> first | (cases hn; done) | (cases hn; rfl)
          exact ⟨0, (C58_2018_needs_2012 v c (by rw [hc.1]; exact ht) n hcn r₁ d₁ none key junk (cacheAfter []) [] [] [] 32 (le_refl _)).1⟩
      obtain ⟨r, hr⟩ := hfail
      generalize pkey_gost_encrypt v c r₁ d₁ none key junk = res at hr
      obtain ⟨c', res⟩ := res
      simp only at hr
      subst hr
      rfl

/-- **C60**: a recipient whose structure names another algorithm gets nothing and its context is as before. -/
theorem C60_ktri_unknown_algorithm (w : KxEnv) (cache : GroupCache) (pkey : EvpPkey) (c : PkeyCtx) (k : Nat) (p : AsnType) (blob out0 : Bytes) :
    gost_cms_set_ktri_shared_info c ⟨.other k, p⟩ = (c, 0) ∧ ktriReceive w cache pkey ⟨.other k, p⟩ blob out0 = none := by
  refine ⟨rfl, ?_⟩
  unfold ktriReceive
  cases newCtx pkey <;> rfl

/-- **C60**: the digest announced for a signature is the only one the engine signs with for that key. -/
theorem C60_signer_digest (pkey : EvpPkey) (d : PmethData) (n : DgstNid) :
    (pkey_gost_ctrl (some pkey) d (.md n)).2 = 1 ↔ n = (signerAlgs pkey).1 := by
  obtain ⟨nid, g, pr, pu⟩ := pkey
  cases nid <;> cases n <;> simp [pkey_gost_ctrl, mdAllowed, signerAlgs, defaultDigest]

/-! ## Key agreement -/

/-- `CMS_RecipientInfo_kari_decrypt` after the control call succeeded: the key is derived again and set in the cipher context (whose IV was
set before), and the encrypted key is decrypted: the buffer and the value. -/
def kariDecrypt (w : KxEnv) (cache : GroupCache) (c : PkeyCtx) (ri : Kari) (junk out0 out ek : Bytes) : Option (Bytes × Int) :=
  match gost_cms_set_kari_shared_info w cache c ri junk, ri.alg.nid with
  | .ret c ctx 1 _, .kexp15 n =>
    match pkey_gost_ec_derive w c false with
    | .key k => some (wrap_do w.crypto w.rng out0 n (wrap_init n ctx (some (k ++ junk.drop k.length)) none false) out ek).2
    | _ => none
  | _, _ => none

theorem wrap_init_twice (n : OmacCipher) (c : WrapCtx) (k iv : Bytes) :
    wrap_init n (wrap_init n c (some k) (some iv) false) (some k) none false = wrap_init n c (some k) (some (iv.take (n.block / 2))) false := by
  simp only [wrap_init, memcpy, List.take_take, Nat.min_self]

theorem wrap_init_take (n : OmacCipher) (c : WrapCtx) (k iv : Bytes) :
    wrap_init n c (some k) (some iv) false = wrap_init n c (some k) (some (iv.take (n.block / 2))) false := by
  simp only [wrap_init, memcpy, List.take_take, Nat.min_self]

/-- What the recipient of a key agreement computes. -/
theorem kari_flow (v w : KxEnv) (hvw : v.Same w) (hD : v.der.Sound) (c : CurveNid) (A B : EvpPkey) (hA : IsKeyPair c A) (hB : IsKeyPair c B)
    (ht : A.nid = B.nid) (hn : B.nid = .gost2012_256 ∨ B.nid = .gost2012_512) (n : OmacCipher) (ukm : Bytes) (hu : ukm.length = 32)
    (R : PkeyCtx) (hR : R.pkey = B) (hRu : R.data.shared_ukm.length = 32) (hRv : R.data.vko_dgst_nid = .undef)
    (ri : Kari) (hp : ∃ p, ri.alg = ⟨.kexp15 n, .seq p⟩) (hru : ri.ukm = some ukm)
    (ho : (∃ ki, pub_encode v.der v.ws v.ossl A = some ki ∧ ri.orig = some ki) ∨ (ri.orig = none ∧ R.peerkey = some A.public))
    (history : List (Option CurveNid)) (junk : Bytes) :
    ∃ (ks : Bytes) (R' : PkeyCtx), ks.length = 64 ∧ kegOn v ukm A.nid B.public A = some ks ∧
      pkey_gost_ec_derive w R' false = .key ks ∧
      gost_cms_set_kari_shared_info w (cacheAfter history) R ri junk =
        .ret R' (wrap_init n ri.ctx (some (ks ++ junk.drop 64)) (some (ukm.drop 24 ++ ri.beyond)) false) 1 false := by
  obtain ⟨ks, k1, k2, k3⟩ := pair_keg hA hB v w hvw B.nid hn ukm (by omega)
  obtain ⟨p, hp⟩ := hp
  have hctrl : pkey_gost_ctrl (some R.pkey) R.data (.setIv ukm.length (some ukm)) = ({ R.data with shared_ukm := ukm, shared_ukm_size := 32 }, 1) := by
    simp only [pkey_gost_ctrl, hu]
    rw [if_neg (by decide)]
    congr 2
    simp only [memcpy]
    rw [show ((32 : Nat) : Int).toNat = 32 from rfl, List.take_of_length_le (by omega), List.drop_eq_nil_of_le (by omega), List.append_nil]
  have hpeer : kariPeer w.der (cacheAfter history) { R with data := { R.data with shared_ukm := ukm, shared_ukm_size := 32 } } ri.orig =
      some { R with peerkey := some A.public, data := { R.data with shared_ukm := ukm, shared_ukm_size := 32 } } := by
    rcases ho with ⟨ki, hki, ho⟩ | ⟨ho, hpk⟩
    · obtain ⟨oct, o1, o2, o3, o4, o5⟩ := pair_encode hA v.der hD v.ws v.ossl A.priv
      have : ki = spkiOf v.der A.nid c oct := Option.some.inj (hki.symm.trans o3)
      subst this
      rw [ho]
      simp only [kariPeer]
      rw [hvw.der, o5 history]
      simp only [derive_set_peer, hR]
      rw [if_neg (by simp [EvpPkey.public, ht])]
      obtain ⟨e, he, -, gA, -⟩ := hA
      obtain ⟨e', he', -, gB, -⟩ := hB
      obtain rfl : e = e' := Option.some.inj (he.symm.trans he')
      rw [if_neg]
      rintro ⟨-, h⟩
      apply h
      simp [param_cmp, EvpPkey.public, gA, gB]
    · rw [ho]
      simp only [kariPeer]
      rw [← hpk]
  have hder : pkey_gost_ec_derive w { R with peerkey := some A.public, data := { R.data with shared_ukm := ukm, shared_ukm_size := 32 } } false =
      .key ks := by
    unfold pkey_gost_ec_derive
    simp only [hRv, hR]
    simp only [ne_eq, not_true_eq_false, if_false, Bool.false_eq_true, if_true]
    rw [if_neg (by decide), if_neg (by decide)]
    have : kegOn w ukm B.nid A.public B = some ks := by
      rw [← k2]
      exact kegOn_congr w _ rfl rfl rfl rfl _
    rw [this]; rfl
  refine ⟨ks, _, k3, ?_, hder, ?_⟩
  · rw [ht, ← k1]
    exact kegOn_congr v _ rfl rfl rfl rfl _
  · unfold gost_cms_set_kari_shared_info
    simp only [hp, hru, hctrl]
    rw [if_neg (by decide)]
    simp only [hpeer, hder, k3]
    rw [List.drop_append_of_le_length (by omega)]

/-- **C60**: a recipient of a key agreement, given the originator's public key in the structure or beforehand, decrypts the encrypted key of 40 or
48 bytes if and only if it is the KExp15 export of some key, with IV `UKM[24..]`, under the keys the originator derives with
`EVP_PKEY_derive` for that UKM; and then it gets that key. -/
theorem C60_kari_recipient (v w : KxEnv) (hvw : v.Same w) (hD : v.der.Sound) (c : CurveNid) (A B : EvpPkey) (hA : IsKeyPair c A)
    (hB : IsKeyPair c B) (ht : A.nid = B.nid) (hn : B.nid = .gost2012_256 ∨ B.nid = .gost2012_512) (n : OmacCipher) (ukm : Bytes)
    (hu : ukm.length = 32) (dA : PmethData) (hi : pkey_gost_init (some A) = some dA) (ops : List PkeyCtrl) (hv : ∀ op ∈ ops, op.Valid)
    (hlu : lastUkm ops = ukm) (hlv : lastVko ops = .undef)
    (R : PkeyCtx) (hR : R.pkey = B) (hRu : R.data.shared_ukm.length = 32) (hRv : R.data.vko_dgst_nid = .undef)
    (ri : Kari) (hp : ∃ p, ri.alg = ⟨.kexp15 n, .seq p⟩) (hru : ri.ukm = some ukm)
    (ho : (∃ ki, pub_encode v.der v.ws v.ossl A = some ki ∧ ri.orig = some ki) ∨ (ri.orig = none ∧ R.peerkey = some A.public))
    (history : List (Option CurveNid)) (junk : Bytes) (hj : junk.length = 64) (out0 out ek : Bytes) (hek : ek.length = 32 + n.block) :
    ∃ ks : Bytes, pkey_gost_ec_derive v ⟨A, some B.public, runCtrls (some A) dA ops⟩ false = .key ks ∧ ks.length = 64 ∧
      (∀ key : Bytes, key.length = 32 → ek = Spec.kexp15 engineE v.crypto.cmac n key (ks.take 32) (ks.drop 32) ((ukm.drop 24).take (n.block / 2)) →
        kariDecrypt w (cacheAfter history) R ri junk out0 out ek = some (key ++ out.drop 32, 32)) ∧
      ((∀ key : Bytes, key.length = 32 → ek ≠ Spec.kexp15 engineE v.crypto.cmac n key (ks.take 32) (ks.drop 32) ((ukm.drop 24).take (n.block / 2))) →
        kariDecrypt w (cacheAfter history) R ri junk out0 out ek = some (out, 0)) := by
  obtain ⟨ks, R', k3, k1, hder, hset⟩ := kari_flow v w hvw hD c A B hA hB ht hn n ukm hu R hR hRu hRv ri hp hru ho history junk
  obtain ⟨p, hp⟩ := hp
  have hb16 : n.block ≤ 16 := by cases n <;> decide
  have hjd : junk.drop 64 = [] := List.drop_eq_nil_of_le (by omega)
  have hks : ks = ks.take 32 ++ ks.drop 32 := (List.take_append_drop 32 ks).symm
  have hm : (ks.take 32).length = 32 := by simp [k3]
  have he : (ks.drop 32).length = 32 := by simp [k3]
  have hiv : ((ukm.drop 24).take (n.block / 2)).length = n.block / 2 := by
    rw [List.length_take, List.length_drop, hu]; omega
  have hivt : (ukm.drop 24 ++ ri.beyond).take (n.block / 2) = (ukm.drop 24).take (n.block / 2) := by
    rw [List.take_append_of_le_length (by rw [List.length_drop, hu]; omega)]
  have hdec : kariDecrypt w (cacheAfter history) R ri junk out0 out ek =
      some (wrap_do v.crypto w.rng out0 n (wrap_init n ri.ctx (some (ks.take 32 ++ ks.drop 32)) (some ((ukm.drop 24).take (n.block / 2))) false) out ek).2 := by
    unfold kariDecrypt
    rw [hset]
    simp only [hp, hder, k3, hjd, List.append_nil]
    rw [wrap_init_twice, hivt, hvw.crypto, ← hks]
  have hkey : pkey_gost_ec_derive v ⟨A, some B.public, runCtrls (some A) dA ops⟩ false = .key ks := by
    rw [C59_derive_last_settings v A B.public dA hi ops hv, hlu, hlv]
    unfold agreedKey
    rw [if_neg (by intro h; rw [h] at hu; cases hu), if_neg (by decide), if_neg (by omega), if_pos hu, k1]
    rfl
  refine ⟨ks, hkey, k3, ?_, ?_⟩
  · intro key hk hx
    rw [hdec]
    have hexp := C33_export_is_kexp15 v.crypto w.rng n key (ks.take 32) (ks.drop 32) _ hm he hiv (key.length + n.block) (le_refl _)
    rw [← hx] at hexp
    have := C50_unwraps_export v.crypto w.rng w.rng out0 n ri.ctx (ks.take 32) (ks.drop 32) _ key ek hm he hiv hk _ hexp out out [] ek
      (by intro h; rw [h] at hek; simp at hek; omega) rfl
    rw [← this]; rfl
  · intro hx
    rw [hdec]
    have hl : ek.length = wrappedLen n := by rw [wrappedLen_eq, hek]
    obtain ⟨h1, h2⟩ := C50_bad_mac_reports_zero v.crypto w.rng out0 n ri.ctx (ks.take 32) (ks.drop 32) _ ek out hm he hiv hl
    rw [h2]
    intro h
    obtain ⟨s, hs, hb⟩ := h1.1 h
    exact hx s hs hb

/-! ## Findings -/

/-- **C60**: with a UKM of 8 bytes the recipient derives 32 bytes only; the call succeeds, half of the key in the cipher context is what was on
the stack, and the IV is taken from memory behind the UKM. -/
theorem C60_kari_short_ukm (w : KxEnv) (cache : GroupCache) (c : PkeyCtx) (hv : c.data.vko_dgst_nid = .undef)
    (n : OmacCipher) (p ukm : Bytes) (hl : ukm.length = 8) (ctx : WrapCtx) (beyond junk : Bytes) (hj : junk.length = 64) (peer : EvpPkey)
    (hp : c.peerkey = some peer) (k : Bytes) (hk : vkoOn w (vko32Digest c.pkey.nid) peer c.pkey ukm = some k) :
    ∃ c', gost_cms_set_kari_shared_info w cache c ⟨⟨.kexp15 n, .seq p⟩, some ukm, none, ctx, beyond⟩ junk =
      .ret c' (wrap_init n ctx (some (k ++ junk.drop 32)) (some (beyond.drop 16)) false) 1 false := by
  have hctrl : pkey_gost_ctrl (some c.pkey) c.data (.setIv ukm.length (some ukm)) =
      ({ c.data with shared_ukm := ukm ++ c.data.shared_ukm.drop 8, shared_ukm_size := 8 }, 1) := by
    simp only [pkey_gost_ctrl, hl]
    rw [if_neg (by decide)]
    congr 2
    simp only [memcpy]
    rw [show ((8 : Nat) : Int).toNat = 8 from rfl, List.take_of_length_le (by omega)]
  have hder : pkey_gost_ec_derive w { c with data := { c.data with shared_ukm := ukm ++ c.data.shared_ukm.drop 8, shared_ukm_size := 8 } } false =
      .key k := by
    unfold pkey_gost_ec_derive
    simp only [hv, hp]
    simp only [ne_eq, not_true_eq_false, if_false, Bool.false_eq_true, if_true]
    rw [if_neg (by decide), List.take_left' hl, hk]; rfl
  refine ⟨{ c with data := { c.data with shared_ukm := ukm ++ c.data.shared_ukm.drop 8, shared_ukm_size := 8 } }, ?_⟩
  unfold gost_cms_set_kari_shared_info
  simp only [hctrl]
  rw [if_neg (by decide)]
  simp only [kariPeer, hder, vkoOn_length hk]
  rw [show (ukm ++ beyond).drop 24 = beyond.drop 16 by
    rw [List.drop_append, List.drop_eq_nil_of_le (by omega), List.nil_append, hl]]

/-- **C60**: a recipient information whose originator key cannot be decoded (or used) is refused, after that key was freed inside the structure,
which the caller still owns and frees again. -/
theorem C60_kari_bad_key_freed_twice (w : KxEnv) (cache : GroupCache) (c : PkeyCtx) (n : OmacCipher) (p ukm : Bytes) (hl : ukm.length ≤ 32)
    (ki : KeyInfo) (hbad : (pub_decode w.der cache ki).2 = none) (ctx : WrapCtx) (beyond junk : Bytes) :
    ∃ c', gost_cms_set_kari_shared_info w cache c ⟨⟨.kexp15 n, .seq p⟩, some ukm, some ki, ctx, beyond⟩ junk = .ret c' ctx 0 true := by
  have hctrl : (pkey_gost_ctrl (some c.pkey) c.data (.setIv ukm.length (some ukm))).2 = 1 := by
    simp only [pkey_gost_ctrl]
    rw [if_neg (show ¬ ((ukm.length : Int) < 0 ∨ (ukm.length : Int) > 32) by omega)]
  refine ⟨{ c with data := (pkey_gost_ctrl (some c.pkey) c.data (.setIv ukm.length (some ukm))).1 }, ?_⟩
  unfold gost_cms_set_kari_shared_info
  simp only [hctrl]
  rw [if_neg (by decide)]
  simp only [kariPeer, hbad]
  rfl

/-- **C60**: a recipient information without the optional UKM makes the recipient use NULL. -/
theorem C60_kari_no_ukm_crashes (w : KxEnv) (cache : GroupCache) (c : PkeyCtx) (n : OmacCipher) (p : Bytes) (o : Option KeyInfo) (ctx : WrapCtx)
    (beyond junk : Bytes) : gost_cms_set_kari_shared_info w cache c ⟨⟨.kexp15 n, .seq p⟩, none, o, ctx, beyond⟩ junk = .crash := rfl

/-! ## Examples -/

/-- Every cipher announced, on every curve, from a 64-bit to a 32-bit machine. -/
example (c : CurveNid) (e : EcParams) (he : gost_nid2params c = some e) (hc : c ≠ .tc26_512_paramSetTest) (x : Option CipherNid)
    (hx : x = none ∨ x = some .gost28147_89 ∨ x = some .magma_ctr_acpkm ∨ x = some .kuznyechik_ctr_acpkm_omac) :
    let B : EvpPkey := ⟨.gost2012_512, some (groupOf e c), some 1, some (some (e.x, e.y))⟩
    ∃ alg blob, ktriSend (witEnv .w64) B.public x (some (List.replicate 32 3)) (some (List.replicate 32 7)) [0, 1] [1] (List.replicate 32 9)
        (zeros 44) = some (alg, blob) ∧
      ktriReceive (witEnv .w32) (cacheAfter [some .Test]) B alg blob [] = some (.ret 1 (List.replicate 32 9) 32) := by
  intro B
  have hq := (cofactor_facts e (selected_mem he)).2.2.2.2
  have hg : ∀ ds : List Nat, (∀ k ∈ ds, k < 2) → (∃ k ∈ ds, k ≠ 0) → GoodDraws c ds := by
    intro ds h1 h2
    refine ⟨?_, h2⟩
    intro e' he' k hk
    obtain rfl : e = e' := Option.some.inj (he.symm.trans he')
    have := h1 k hk
    omega
  obtain ⟨alg, blob, h1, h2⟩ := C60_ktri_roundtrip (witEnv .w64) (witEnv .w32) ⟨rfl, rfl, rfl, rfl⟩ DerKey.coder_sound DerKt.coder_sound c B
    (pair_exists c e he hc _) x
    (by
      rcases hx with h | h | h | h
      · exact Or.inl (Or.inl h)
      · exact Or.inl (Or.inr (Or.inr h))
      · exact Or.inr ⟨⟨_, .magma, h, rfl⟩, Or.inr rfl⟩
      · exact Or.inr ⟨⟨_, .kuznyechik, h, rfl⟩, Or.inr rfl⟩)
    (List.replicate 32 3) (List.replicate 32 7) rfl rfl (by decide) [0, 1] [1] (hg _ (by decide) (by decide)) (hg _ (by decide) (by decide))
    (List.replicate 32 9) (zeros 44) rfl rfl
  exact ⟨alg, blob, h1, h2 [] _⟩

/-- Key agreement with the originator's key in the structure, on every curve, with either cipher. -/
example (c : CurveNid) (e : EcParams) (he : gost_nid2params c = some e) (hc : c ≠ .tc26_512_paramSetTest) (n : OmacCipher) :
    let B : EvpPkey := ⟨.gost2012_512, some (groupOf e c), some 1, some (some (e.x, e.y))⟩
    ∃ ki ek, pub_encode (witEnv .w64).der .w64 (witEnv .w64).ossl B = some ki ∧
      kariDecrypt (witEnv .w32) (cacheAfter [some .Test]) ⟨B, none, { PmethData.zero with sign_param_nid := some c }⟩
        ⟨⟨.kexp15 n, .seq []⟩, some (List.replicate 32 7), some ki, ⟨[], [], [], 0, false⟩, []⟩ (zeros 64) [] (zeros 32) ek =
        some (List.replicate 32 9, 32) := by
  intro B
  have hB : IsKeyPair c B := pair_exists c e he hc _
  obtain ⟨oct, -, -, o3, -, -⟩ := pair_encode hB DerKey.coder DerKey.coder_sound .w64 (witEnv .w64).ossl (some 1)
  have o3' : pub_encode (witEnv .w64).der .w64 (witEnv .w64).ossl B = some (spkiOf DerKey.coder B.nid c oct) := o3
  have main := fun ek hek => C60_kari_recipient (witEnv .w64) (witEnv .w32) ⟨rfl, rfl, rfl, rfl⟩ DerKey.coder_sound c B B hB hB rfl (Or.inr rfl) n
    (List.replicate 32 7) rfl { PmethData.zero with sign_param_nid := some c } rfl [.setIv 32 (some (List.replicate 32 7))]
    (by
      intro op ho
      obtain rfl : op = _ := List.mem_singleton.1 ho
      show (32 : Int).toNat ≤ (List.replicate 32 (7 : UInt8)).length; decide)
    rfl rfl ⟨B, none, { PmethData.zero with sign_param_nid := some c }⟩ rfl rfl rfl
    ⟨⟨.kexp15 n, .seq []⟩, some (List.replicate 32 7), some (spkiOf DerKey.coder B.nid c oct), ⟨[], [], [], 0, false⟩, []⟩ ⟨[], rfl⟩ rfl
    (Or.inl ⟨_, o3', rfl⟩) [some .Test] (zeros 64) (by simp [zeros]) [] (zeros 32) ek hek
  obtain ⟨ks, k1, -, -, -⟩ := main (zeros (32 + n.block)) (by simp [zeros])
  refine ⟨_, Spec.kexp15 engineE (witEnv .w64).crypto.cmac n (List.replicate 32 9) (ks.take 32) (ks.drop 32)
    (((List.replicate 32 (7 : Byte)).drop 24).take (n.block / 2)), o3', ?_⟩
  obtain ⟨ks', k1', -, k3, -⟩ := main (Spec.kexp15 engineE (witEnv .w64).crypto.cmac n (List.replicate 32 9) (ks.take 32) (ks.drop 32)
    (((List.replicate 32 (7 : Byte)).drop 24).take (n.block / 2))) (by rw [kexp15_length]; rfl)
  obtain rfl : ks = ks' := DeriveRes.key.inj (k1.symm.trans k1')
  rw [k3 (List.replicate 32 9) rfl rfl]
  rfl

/-- **C60**: the key transport algorithm written into the message names the key agreement of the recipient's key length: the parameters are
id-tc26-agreement-gost-3410-2012-256 (992) for 256-bit keys of 2012 and -512 (993) for 512-bit keys, with KExp15 of the chosen cipher. -/
theorem C60_named_agreement (D : KeyDer) (c : PkeyCtx) (o : OmacCipher)
    (hx : c.data.cipher_nid = match o with | .magma => .magma_ctr | .kuznyechik => .kuznyechik_ctr) :
    (c.pkey.nid = .gost2012_256 → cms_envelope_alg D c = some ⟨.kexp15 o, .seq (D.encParams { key_params := .other 992, hash_params := none })⟩) ∧
    (c.pkey.nid = .gost2012_512 → cms_envelope_alg D c = some ⟨.kexp15 o, .seq (D.encParams { key_params := .other 993, hash_params := none })⟩) := by
  unfold cms_envelope_alg gost_encode_cms_params
  cases o <;> rw [hx] <;> refine ⟨fun h => ?_, fun h => ?_⟩ <;> rw [h] <;> rfl

end Gost
