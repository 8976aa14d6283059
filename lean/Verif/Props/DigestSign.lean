import Verif.Model.DigestSign
import Verif.Props.KeyTransportMore
import Verif.Props.MacPkey

/-!
# C83, C84: signing messages and verifying them

C83: what a key says about itself (size, bits, default digest) fits what its operations do; a message signed by one installation with its
default digest is accepted by any other that received the public key in its encoded form; verification accepts exactly the pairs the
standard's signing algorithm can form; the process is never ended.
C84: a single signing or verifying call, on digests given by the caller: memory, lengths and end of the process.
-/

namespace Gost

open Spec (leNat beNat leBytes beBytes ecOf)

/-! ## What a key says about itself -/

/-- **C83**: for every key: the size asked for with a NULL buffer is the size the key reports, two numbers of as many bits as it reports;
of all digests exactly the default one is accepted, and it is that many bits long. -/
theorem C83_key_says (v : KxEnv) (pk : EvpPkey) :
    (∀ siglen tbs draws, ∃ n : Nat, (n : Int) = pkey_size_gost pk ∧ pkey_sign v pk none siglen tbs draws = .done ⟨none, n, 1⟩) ∧
    pkey_size_gost pk * 8 = 2 * pkey_bits_gost pk ∧
    (ctrl_default_md pk).2 > 0 ∧
    (∀ d nid, (pkey_gost_ctrl (some pk) d (.md nid)).2 = if nid = (ctrl_default_md pk).1 then 1 else 0) ∧
    ∃ md, v.md.get (ctrl_default_md pk).1 = some md ∧ ∀ m, ((md m).length : Int) * 8 = pkey_bits_gost pk := by
  rcases pk with ⟨nid, g, p, q⟩
  refine ⟨fun siglen tbs draws => ⟨nid.sigLen, ?_, rfl⟩, ?_, show (2 : Int) > 0 by decide, ?_, ?_⟩
  · cases nid <;> rfl
  · cases nid <;> rfl
  · intro d n
    cases nid <;> cases n <;> rfl
  · cases nid
    · exact ⟨_, rfl, fun m => by rw [v.md.len94]; rfl⟩
    · exact ⟨_, rfl, fun m => by rw [v.md.len94]; rfl⟩
    · exact ⟨_, rfl, fun m => by rw [v.md.len256]; rfl⟩
    · exact ⟨_, rfl, fun m => by rw [v.md.len512]; rfl⟩

theorem sigverInit_len (v : KxEnv) (pk : EvpPkey) (type : Option DgstNid) (md : Bytes → Bytes) (h : sigverInit v pk type = some md) (m : Bytes) :
    (md m).length = 32 ∨ (md m).length = 64 := by
  unfold sigverInit at h
  split at h
  · cases h
  · split at h
    · generalize sigNid pk type = n at h
      cases n <;> simp only [Digests.get, Option.some.injEq, reduceCtorEq] at h <;> subst h
      · exact Or.inl (v.md.len94 m)
      · exact Or.inl (v.md.len256 m)
      · exact Or.inr (v.md.len512 m)
    · cases h

/-- A key usable in a context has a group. -/
theorem sigverInit_group (v : KxEnv) (pk : EvpPkey) (type : Option DgstNid) (md : Bytes → Bytes) (h : sigverInit v pk type = some md) :
    ∃ g, pk.group = some g := by
  unfold sigverInit pkey_gost_init at h
  cases hg : pk.group with
  | none => simp only [hg] at h; cases h
  | some g => exact ⟨g, rfl⟩

theorem sign_key_done (v : KxEnv) (pk : EvpPkey) (tbs : Bytes) (draws : List Nat) (h : tbs.length = 32 ∨ tbs.length = 64) :
    ∃ r, gost_ec_sign_key v pk tbs draws = .done r := by
  unfold gost_ec_sign_key
  rw [if_neg (by omega)]
  split
  · exact ⟨_, rfl⟩
  · exact ⟨_, rfl⟩

/-- **C83**: signing and verifying messages never ends the process, whatever the key (complete or not), the digest asked for, the message,
the signature and the random numbers. -/
theorem C83_never_aborts (v : KxEnv) (pk : EvpPkey) (type : Option DgstNid) (msg : Bytes) :
    (∀ sig siglen draws, digestSign v pk type msg sig siglen draws ≠ .abort) ∧ ∀ sig, digestVerify v pk type msg sig ≠ .abort := by
  constructor
  · intro sig siglen draws
    unfold digestSign
    cases h : sigverInit v pk type with
    | none => exact fun hc => by cases hc
    | some md =>
      simp only
      unfold pkey_sign
      cases sig with
      | none => exact fun hc => by cases hc
      | some mem =>
        simp only
        obtain ⟨r, hr⟩ := sign_key_done v pk (md msg) draws (sigverInit_len v pk type md h msg)
        rw [hr]
        cases r <;> exact fun hc => by cases hc
  · intro sig
    unfold digestVerify
    cases h : sigverInit v pk type with
    | none => exact fun hc => by cases hc
    | some md =>
      obtain ⟨g, hg⟩ := sigverInit_group v pk type md h
      have hl := sigverInit_len v pk type md h msg
      simp only
      unfold pkey_verify gost_ec_verify_key
      rw [hg]
      simp only
      cases pk.pub with
      | none => exact fun hc => by cases hc
      | some Q =>
        simp only
        split
        · exact fun hc => by cases hc
        · rw [if_neg (by omega)]
          exact fun hc => by cases hc

/-- **C83**: a digest that is not the key's is refused by both operations and nothing is written. -/
theorem C83_other_digest_refused (v : KxEnv) (pk : EvpPkey) (type : DgstNid) (ht : type ≠ (ctrl_default_md pk).1) (msg : Bytes) :
    (∀ sig siglen draws, digestSign v pk (some type) msg sig siglen draws = .done ⟨sig, siglen, 0⟩) ∧
      ∀ sig, digestVerify v pk (some type) msg sig = .done 0 := by
  have h : sigverInit v pk (some type) = none := by
    unfold sigverInit
    cases pkey_gost_init (some pk) with
    | none => rfl
    | some data =>
      have hn : sigNid pk (some type) = type := rfl
      simp only
      rw [hn, (C83_key_says v pk).2.2.2.1 data type, if_neg ht]
      rfl
  constructor
  · intro sig siglen draws
    unfold digestSign
    rw [h]
  · intro sig
    unfold digestVerify
    rw [h]

/-! ## Signing and verifying with key pairs -/

theorem sigverInit_default (v : KxEnv) (pk : EvpPkey) (g : EcGroupRec) (hg : pk.group = some g) :
    sigverInit v pk none = v.md.get (ctrl_default_md pk).1 := by
  have hn : sigNid pk none = (ctrl_default_md pk).1 := rfl
  unfold sigverInit pkey_gost_init
  simp only [hg]
  rw [hn, (C83_key_says v pk).2.2.2.1, if_pos rfl, if_pos (by decide)]

/-- When the first nonce gives a signature by the standard, it is the one made. -/
theorem sign_of_signs {c : CurveNid} {e : EcParams} (he : gost_nid2params c = some e) (hc : c ≠ .tc26_512_paramSetTest) [Fact e.p.Prime]
    (gen : CurvePoint (e.a : ZMod e.p) (e.b : ZMod e.p)) (hg : ecOf gen = some (e.x, e.y)) (ws : WordSize) (ossl : EcpFile) (d : Nat)
    (tbs : Bytes) (hl : tbs.length = 32 ∨ tbs.length = 64) (k : Nat) (hk : k < e.q) (more : List Nat) (r s : Nat)
    (hsw : Spec.SignsWith gen e.q (fun P => (ecOf P).map (·.1)) d (Spec.digestNumber e.q tbs) k r s) :
    gost_ec_sign (engineGroup ws ossl (groupOf e c)) tbs d (k :: more) = some (r, s) := by
  have hE := curveGroup_sound he gen hg
  rw [(engine_via ws ossl he hc gen hg).sign]
  obtain ⟨⟨x, hx, hr⟩, hsv, hsq, hr0, hs0⟩ := hsw
  unfold gost_ec_sign
  rw [if_pos hl, signLoop_cons (curveGroup e gen) hE d _ k hk]
  have hcx : ∃ y, ecOf (k • gen) = some (x, y) := by
    cases hh : ecOf (k • gen) with
    | none => simp only [hh] at hx; cases hx
    | some xy => simp only [hh, Option.map_some, Option.some.injEq] at hx; exact ⟨xy.2, by rw [← hx]⟩
  obtain ⟨y, hy⟩ := hcx
  have hc' : (curveGroup e gen).coords (k • (curveGroup e gen).gen) = some (x, y) := hy
  rw [hc']
  have hen : digestNum e.q tbs = Spec.digestNumber e.q tbs := by
    unfold digestNum Spec.digestNumber
    simp only [Nat.dvd_iff_mod_eq_zero]
  have hsv : (d * (x % e.q) % e.q + k * digestNum e.q tbs % e.q) % e.q = s := by
    have h1 : ((d * (x % e.q) % e.q + k * digestNum e.q tbs % e.q : Nat) : ZMod e.q) = (s : ZMod e.q) := by
      rw [hsv, hr, hen]
      push_cast [ZMod.natCast_mod]
      ring
    have h3 : (d * (x % e.q) % e.q + k * digestNum e.q tbs % e.q) % e.q = s % e.q := (ZMod.natCast_eq_natCast_iff _ _ _).1 h1
    rw [h3, Nat.mod_eq_of_lt hsq]
  show (if x % e.q = 0 then _ else if (d * (x % e.q) % e.q + k * digestNum e.q tbs % e.q) % e.q = 0 then _ else
    some (x % e.q, (d * (x % e.q) % e.q + k * digestNum e.q tbs % e.q) % e.q)) = some (r, s)
  rw [hsv, if_neg (by rw [← hr]; exact hr0), if_neg hs0, hr]

/-- The verification of the engine in the terms of the standard's signing algorithm. -/
theorem verify_signs {c : CurveNid} {e : EcParams} (he : gost_nid2params c = some e) (hc : c ≠ .tc26_512_paramSetTest) [Fact e.p.Prime]
    (gen : CurvePoint (e.a : ZMod e.p) (e.b : ZMod e.p)) (hg : ecOf gen = some (e.x, e.y)) (ws : WordSize) (ossl : EcpFile) (d : Nat)
    (hd : ¬ e.q ∣ d) (hd2 : d < 256 ^ BN_num_bytes e.p) (tbs : Bytes) (hl : tbs.length = 32 ∨ tbs.length = 64) (r s : Nat) :
    gost_ec_verify (engineGroup ws ossl (groupOf e c)) tbs r s (ecOf (d • gen)) = 1 ↔
      ∃ k < e.q, Spec.SignsWith gen e.q (fun P => (ecOf P).map (·.1)) d (Spec.digestNumber e.q tbs) k r s := by
  have hE := curveGroup_sound he gen hg
  have hv := engine_via ws ossl he hc gen hg
  have hQ : gost_ec_compute_public (curveGroup e gen) d = some (d • gen) := by
    simp only [gost_ec_compute_public, gost_ec_point_mul]
    exact hE.mulG d hd2
  have hq : (curveGroup e gen).order • (d • gen) = 0 := by
    rw [nsmul_left_comm]
    have := hE.gen_order
    show d • (curveGroup e gen).order • (curveGroup e gen).gen = 0
    rw [this, nsmul_zero]
  have hen : digestNum e.q tbs = Spec.digestNumber e.q tbs := by
    unfold digestNum Spec.digestNumber
    simp only [Nat.dvd_iff_mod_eq_zero]
  rw [hv.verify tbs r s (d • gen) hq, C38_verify_accepts_exactly_signable (curveGroup e gen) hE d hd hd2 tbs hl r s (d • gen) hQ]
  refine exists_congr fun k => and_congr_right fun hk => ?_
  unfold gost_ec_sign
  rw [if_pos hl]
  show signLoop (curveGroup e gen) d (digestNum e.q tbs) [k] = some (r, s) ↔ _
  rw [hen]
  constructor
  · intro h
    obtain ⟨k', hk', hs⟩ := signLoop_sound (curveGroup e gen) hE d _ [k] (by intro x hx; simp at hx; subst hx; exact hk) r s h
    simp at hk'
    subst hk'
    exact hs
  · intro h
    have := sign_of_signs he hc gen hg ws ossl d tbs hl k hk [] r s h
    rw [hv.sign] at this
    unfold gost_ec_sign at this
    rw [if_pos hl] at this
    rw [← hen]
    exact this

/-- A key type whose signatures have room for the numbers of the curve: the types for 256 bits with curves over fields of at most 256 bits. -/
def TypeFits (c : CurveNid) (pk : EvpPkey) : Prop := ∀ e, gost_nid2params c = some e → e.p < 2 ^ 256 ∨ pk.nid = .gost2012_512

theorem fits_order {c : CurveNid} {e : EcParams} (he : gost_nid2params c = some e) {pk : EvpPkey} (hf : TypeFits c pk) :
    e.q ≤ 256 ^ (pk.nid.sigLen / 2) := by
  have h := (cofactor_facts e (selected_mem he)).1
  rcases hf e he with hp | hn
  · rw [if_pos hp] at h
    refine le_trans h (Nat.pow_le_pow_right (by decide) ?_)
    cases pk.nid <;> decide
  · rw [hn]
    refine le_trans h (Nat.pow_le_pow_right (by decide) ?_)
    split <;> decide

theorem verify_01 {G : Type} (E : EcGroup G) (dgst : Bytes) (r s : Int) (Q : G) : gost_ec_verify E dgst r s Q = 0 ∨ gost_ec_verify E dgst r s Q = 1 := by
  unfold gost_ec_verify
  simp only
  repeat' (first | exact Or.inl rfl | exact Or.inr rfl | split)

/-- **C83**: a received byte string is accepted as signature of a message exactly when its halves are a pair `s`, `r` that the signing
algorithm of the standard forms for the default digest of the message and the private key with some nonce `k < q`; otherwise the
result is 0.  (`rest` is the private key, if the verifier has it.) -/
theorem C83_accepts_exactly_standard (v : KxEnv) (c : CurveNid) (pk : EvpPkey) (d : Nat) (hd : pk.priv = some d) (hpk : IsKeyPair c pk)
    (rest : Option Nat) (msg sig : Bytes) (md : Bytes → Bytes) (hmd : v.md.get (ctrl_default_md pk).1 = some md) :
    ∃ (e : EcParams) (_ : Fact e.p.Prime) (gen : CurvePoint (e.a : ZMod e.p) (e.b : ZMod e.p)),
      gost_nid2params c = some e ∧ ecOf gen = some (e.x, e.y) ∧
      (digestVerify v { pk with priv := rest } none msg sig = .done 1 ↔
        ∃ k < e.q, Spec.SignsWith gen e.q (fun P => (ecOf P).map (·.1)) d (Spec.digestNumber e.q (md msg)) k
          (beNat ((sig.drop (sig.length / 2)).take (sig.length / 2))) (beNat (sig.take (sig.length / 2)))) ∧
      (digestVerify v { pk with priv := rest } none msg sig ≠ .done 1 → digestVerify v { pk with priv := rest } none msg sig = .done 0) := by
  obtain ⟨e, he, hc, hgr, d', hd', hnd, hlt, hp, gen, hg, hpub⟩ := hpk
  obtain rfl : d = d' := Option.some.inj (hd.symm.trans hd')
  refine ⟨e, hp, gen, he, hg, ?_⟩
  have hinit : sigverInit v { pk with priv := rest } none = some md := by
    rw [sigverInit_default v { pk with priv := rest } (groupOf e c) hgr]
    exact hmd
  have hl := sigverInit_len v _ none md hinit msg
  have hr0 : ∀ (tbs : Bytes) (r s : Nat) (Q : EcPoint), s = 0 ∨ r = 0 ∨ s ≥ e.q ∨ r ≥ e.q →
      gost_ec_verify (engineGroup v.ws v.ossl (groupOf e c)) tbs r s Q = 0 := by
    intro tbs r s Q h
    apply C39_out_of_range_rejected
    show (r : Int) ≤ 0 ∨ (e.q : Int) ≤ r ∨ (s : Int) ≤ 0 ∨ (e.q : Int) ≤ s
    omega
  have hval : digestVerify v { pk with priv := rest } none msg sig =
      .done (gost_ec_verify (engineGroup v.ws v.ossl (groupOf e c)) (md msg) (unpack_cp_signature sig).1 (unpack_cp_signature sig).2 (ecOf (d • gen))) := by
    unfold digestVerify
    rw [hinit]
    simp only
    unfold pkey_verify gost_ec_verify_key
    simp only [hgr, hpub]
    split
    · rename_i h
      rw [hr0 _ _ _ _ h]
    · rw [if_neg (by omega)]
  have h01 : gost_ec_verify (engineGroup v.ws v.ossl (groupOf e c)) (md msg) (unpack_cp_signature sig).1 (unpack_cp_signature sig).2
      (ecOf (d • gen)) = 0 ∨ gost_ec_verify (engineGroup v.ws v.ossl (groupOf e c)) (md msg) (unpack_cp_signature sig).1
      (unpack_cp_signature sig).2 (ecOf (d • gen)) = 1 := by
    exact verify_01 _ _ _ _ _
  rw [hval]
  constructor
  · have := verify_signs he hc gen hg v.ws v.ossl d hnd hlt (md msg) hl (unpack_cp_signature sig).1 (unpack_cp_signature sig).2
    exact ⟨fun h => this.1 (Call.done.inj h), fun h => congrArg _ (this.2 h)⟩
  · intro h
    rcases h01 with h0 | h1
    · rw [h0]
    · exact absurd (congrArg _ h1) h

/-- What signing a message does, on a key pair. -/
theorem digestSign_eq (v : KxEnv) (pk : EvpPkey) (g : EcGroupRec) (hg : pk.group = some g) (d : Nat) (hd : pk.priv = some d) (msg : Bytes)
    (md : Bytes → Bytes) (hmd : v.md.get (ctrl_default_md pk).1 = some md) (mem : Bytes) (siglen : Nat) (draws : List Nat) :
    digestSign v pk none msg (some mem) siglen draws =
      match gost_ec_sign (engineGroup v.ws v.ossl g) (md msg) d draws with
      | none => .done ⟨some mem, siglen, 0⟩
      | some rs => .done ⟨some (writeTo mem (pack_sign_cp rs (pk.nid.sigLen / 2))), pk.nid.sigLen, 1⟩ := by
  have hinit : sigverInit v pk none = some md := by
    rw [sigverInit_default v pk g hg]; exact hmd
  have hl := sigverInit_len v _ none md hinit msg
  unfold digestSign
  rw [hinit]
  simp only
  unfold pkey_sign gost_ec_sign_key
  rw [if_neg (by omega)]
  simp only [hg, hd]
  cases gost_ec_sign (engineGroup v.ws v.ossl g) (md msg) d draws <;> rfl

/-- **C83**: a message signed with a key pair whose type fits its curve, with the default digest: either the random source failed or
delivered an unusable nonce, 0 is returned and the memory is untouched; or 1 is returned, the length is the size the key reports, nothing
but these bytes is written, and every installation that received the encoded public key, after any history, accepts them as signature of the
message.  When the first nonce gives a signature by the standard, it is written as `s || r`, big-endian. -/
theorem C83_signed_message_accepted (v w : KxEnv) (hvw : v.Same w) (hD : v.der.Sound) (c : CurveNid) (pk : EvpPkey) (d : Nat)
    (hd : pk.priv = some d) (hpk : IsKeyPair c pk) (hfit : TypeFits c pk) :
    ∃ (e : EcParams) (_ : Fact e.p.Prime) (gen : CurvePoint (e.a : ZMod e.p) (e.b : ZMod e.p)) (n : Nat) (ki : KeyInfo) (md : Bytes → Bytes),
      gost_nid2params c = some e ∧ ecOf gen = some (e.x, e.y) ∧ (n : Int) = pkey_size_gost pk ∧
      pub_encode v.der v.ws v.ossl pk = some ki ∧ v.md.get (ctrl_default_md pk).1 = some md ∧
      ∀ (msg mem : Bytes) (siglen : Nat) (draws : List Nat), (∀ k ∈ draws, k < e.q) → n ≤ mem.length →
        (digestSign v pk none msg (some mem) siglen draws = .done ⟨some mem, siglen, 0⟩ ∨
          ∃ mem', digestSign v pk none msg (some mem) siglen draws = .done ⟨some mem', n, 1⟩ ∧
            mem'.length = mem.length ∧ mem'.drop n = mem.drop n ∧
            ∀ history, ∃ pub, (pub_decode w.der (cacheAfter history) ki).2 = some pub ∧
              digestVerify w pub none msg (mem'.take n) = .done 1) ∧
        ∀ k more r s, draws = k :: more →
          Spec.SignsWith gen e.q (fun P => (ecOf P).map (·.1)) d (Spec.digestNumber e.q (md msg)) k r s →
          digestSign v pk none msg (some mem) siglen draws = .done ⟨some (beBytes (n / 2) s ++ beBytes (n / 2) r ++ mem.drop n), n, 1⟩ := by
  obtain ⟨octets, -, -, henc, -, hdec⟩ := pair_encode hpk v.der hD v.ws v.ossl (some d)
  have hpk' := hpk
  obtain ⟨e, he, hc, hgr, d', hd', hnd, hlt, hp, gen, hg, hpub⟩ := hpk'
  obtain rfl : d = d' := Option.some.inj (hd.symm.trans hd')
  obtain ⟨md, hmd, hmdl⟩ := (C83_key_says v pk).2.2.2.2
  have hn : ((pk.nid.sigLen : Nat) : Int) = pkey_size_gost pk := by
    unfold pkey_size_gost
    cases pk.nid <;> rfl
  have hpe : { pk with priv := some d } = pk := by rw [← hd]
  rw [hpe] at henc
  have hord := fits_order he hfit
  have hlen2 : 2 * (pk.nid.sigLen / 2) = pk.nid.sigLen := by cases pk.nid <;> rfl
  refine ⟨e, hp, gen, pk.nid.sigLen, _, md, he, hg, hn, henc, hmd, ?_⟩
  intro msg mem siglen draws hdr hmem
  have hE := curveGroup_sound he gen hg
  have hv := engine_via v.ws v.ossl he hc gen hg
  have hpack : ∀ r s, r < e.q → s < e.q → pack_sign_cp (r, s) (pk.nid.sigLen / 2) = beBytes (pk.nid.sigLen / 2) s ++ beBytes (pk.nid.sigLen / 2) r :=
    fun r s hr hs => C42_packed_layout r s _ (lt_of_lt_of_le hr hord) (lt_of_lt_of_le hs hord)
  rw [digestSign_eq v pk (groupOf e c) hgr d hd msg md hmd mem siglen draws]
  have hl : (md msg).length = 32 ∨ (md msg).length = 64 :=
    sigverInit_len v pk none md ((sigverInit_default v pk (groupOf e c) hgr).trans hmd) msg
  constructor
  · cases hs : gost_ec_sign (engineGroup v.ws v.ossl (groupOf e c)) (md msg) d draws with
    | none => exact Or.inl rfl
    | some rs =>
      obtain ⟨r, s⟩ := rs
      right
      rw [hv.sign] at hs
      obtain ⟨hr0, hrq, hs0, hsq⟩ := C39_signature_in_range (curveGroup e gen) hE d (md msg) draws hdr r s hs
      have hrq : r < e.q := hrq
      have hsq : s < e.q := hsq
      have hpl : (pack_sign_cp (r, s) (pk.nid.sigLen / 2)).length = pk.nid.sigLen := by
        rw [hpack r s hrq hsq]; simp; omega
      refine ⟨_, rfl, ?_, ?_, ?_⟩
      · unfold writeTo
        simp only [List.length_append, List.length_drop, hpl]
        omega
      · unfold writeTo
        rw [List.drop_left' hpl, hpl]
      · intro history
        refine ⟨pk.public, ?_, ?_⟩
        · rw [hvw.der]; exact hdec history
        · have htake : (writeTo mem (pack_sign_cp (r, s) (pk.nid.sigLen / 2))).take pk.nid.sigLen = pack_sign_cp (r, s) (pk.nid.sigLen / 2) := by
            unfold writeTo
            rw [List.take_left' hpl]
          rw [htake]
          have hmdw : w.md.get (ctrl_default_md pk).1 = some md := by rw [hvw.md]; exact hmd
          obtain ⟨e', hp', gen', he', hg', hiff, -⟩ := C83_accepts_exactly_standard w c pk d hd hpk none msg (pack_sign_cp (r, s) (pk.nid.sigLen / 2)) md hmdw
          refine hiff.2 ?_
          obtain rfl : e = e' := Option.some.inj (he.symm.trans he')
          obtain rfl := gen_unique hg hg'
          have hun := C42_unpack_pack r s (pk.nid.sigLen / 2) (lt_of_lt_of_le hrq hord) (lt_of_lt_of_le hsq hord)
          have h1 : beNat (((pack_sign_cp (r, s) (pk.nid.sigLen / 2)).drop ((pack_sign_cp (r, s) (pk.nid.sigLen / 2)).length / 2)).take
              ((pack_sign_cp (r, s) (pk.nid.sigLen / 2)).length / 2)) = r := congrArg Prod.fst hun
          have h2 : beNat ((pack_sign_cp (r, s) (pk.nid.sigLen / 2)).take ((pack_sign_cp (r, s) (pk.nid.sigLen / 2)).length / 2)) = s :=
            congrArg Prod.snd hun
          rw [h1, h2]
          refine (verify_signs he hc gen hg v.ws v.ossl d hnd hlt (md msg) hl r s).1 ?_
          have hQ : gost_ec_compute_public (engineGroup v.ws v.ossl (groupOf e c)) d = some (ecOf (d • gen)) :=
            C45_engine_public v.ws v.ossl c hc e he gen hg d hlt
          refine C45_engine_accepts_signed v.ws v.ossl [] c hc (groupOf e c) ?_ d hnd hlt (md msg) draws hdr r s _ hQ ?_
          · rw [C46_fill_any_history, ← C46_nid_selects, he]; rfl
          · rw [hv.sign]; exact hs
  · rintro k more r s rfl hsw
    have hk : k < e.q := hdr k (by simp)
    have hsign := sign_of_signs he hc gen hg v.ws v.ossl d (md msg) hl k hk more r s hsw
    rw [hsign]
    have hrq : r < e.q := by
      obtain ⟨⟨x, hx, hr⟩, -⟩ := hsw
      rw [hr]; exact Nat.mod_lt _ hE.prime.pos
    simp only
    rw [hpack r s hrq hsw.2.2.1]
    unfold writeTo
    have : (beBytes (pk.nid.sigLen / 2) s ++ beBytes (pk.nid.sigLen / 2) r).length = pk.nid.sigLen := by simp; omega
    rw [this]


/-- Every message can be signed: with a base point whose x-coordinate is not 0 modulo the order, one of the nonces 1 and `q - 1` gives a
signature, whatever the digest number. -/
theorem nonce_exists {c : CurveNid} {e : EcParams} (he : gost_nid2params c = some e) [Fact e.p.Prime]
    (gen : CurvePoint (e.a : ZMod e.p) (e.b : ZMod e.p)) (hg : ecOf gen = some (e.x, e.y)) (hx : e.x % e.q ≠ 0) (d : Nat) (tbs : Bytes) :
    ∃ k < e.q, ∃ r s, Spec.SignsWith gen e.q (fun P => (ecOf P).map (·.1)) d (Spec.digestNumber e.q tbs) k r s := by
  have hE := curveGroup_sound he gen hg
  have hprime : e.q.Prime := hE.prime
  have : Fact e.q.Prime := ⟨hprime⟩
  have hbig := (cofactor_facts e (selected_mem he)).2.2.2.2
  have hq1 : (1 : Nat) < e.q := by omega
  have hen : ((Spec.digestNumber e.q tbs : Nat) : ZMod e.q) ≠ 0 := by
    unfold Spec.digestNumber
    split
    · simp
    · rename_i h
      rw [ZMod.natCast_mod]
      intro h0
      exact h ((ZMod.natCast_eq_zero_iff _ _).1 h0)
  generalize Spec.digestNumber e.q tbs = en at hen ⊢
  have hneg : (e.q - 1) • gen = -gen := by
    have h0 : e.q • gen = 0 := hE.gen_order
    have h1 : (e.q - 1) • gen + gen = 0 := by
      rw [← succ_nsmul, show e.q - 1 + 1 = e.q by omega]; exact h0
    exact eq_neg_of_add_eq_zero_left h1
  have hxneg : (ecOf (-gen)).map (·.1) = some e.x := by
    cases gen with
    | zero => cases hg
    | some x y hh =>
      simp only [ecOf, Option.some.injEq, Prod.mk.injEq] at hg
      simp only [WeierstrassCurve.Affine.Point.neg_some, ecOf, Option.map_some, Option.some.injEq]
      exact hg.1
  have build : ∀ k : Nat, (ecOf (k • gen)).map (·.1) = some e.x → ((e.x % e.q : Nat) : ZMod e.q) * d + k * en ≠ 0 →
      ∃ r s, Spec.SignsWith gen e.q (fun P => (ecOf P).map (·.1)) d en k r s := by
    intro k h1 h2
    refine ⟨e.x % e.q, ((((e.x % e.q : Nat) : ZMod e.q) * d + k * en : ZMod e.q)).val, ⟨e.x, h1, rfl⟩, ?_, ZMod.val_lt _, hx, ?_⟩
    · rw [ZMod.natCast_zmod_val]
    · rw [ne_eq, ZMod.val_eq_zero]; exact h2
  by_cases h : ((e.x % e.q : Nat) : ZMod e.q) * d + (1 : Nat) * en = 0
  · refine ⟨e.q - 1, by omega, build _ (by rw [hneg]; exact hxneg) ?_⟩
    intro h2
    have hcast : ((e.q - 1 : Nat) : ZMod e.q) = -1 := by
      rw [Nat.cast_sub (by omega)]; simp
    rw [hcast] at h2
    have h3 : (2 : ZMod e.q) * en = 0 := by
      have : (2 : ZMod e.q) * en = (((e.x % e.q : Nat) : ZMod e.q) * d + (1 : Nat) * en) - (((e.x % e.q : Nat) : ZMod e.q) * d + -1 * en) := by
        push_cast; ring
      rw [this, h, h2, sub_zero]
    rcases mul_eq_zero.1 h3 with h4 | h4
    · have h5 : ((2 : Nat) : ZMod e.q) = 0 := by exact_mod_cast h4
      have := Nat.le_of_dvd (by decide) ((ZMod.natCast_eq_zero_iff _ _).1 h5)
      omega
    · exact hen h4
  · exact ⟨1, hq1, build 1 (by rw [one_nsmul, hg]; rfl) h⟩

/-- Beside C83: keys of every type on the curve of the standard's example meet the hypotheses, and every message can be signed with them: a nonce
exists with which the call returns 1. -/
example (nid : PkeyNid) (msg : Bytes) : ∃ (e : EcParams) (k : Nat), gost_nid2params .Test = some e ∧ k < e.q ∧
    IsKeyPair .Test ⟨nid, some (groupOf e .Test), some 1, some (some (e.x, e.y))⟩ ∧
    TypeFits .Test ⟨nid, some (groupOf e .Test), some 1, some (some (e.x, e.y))⟩ ∧
    ∃ mem', digestSign (witEnv .w64) ⟨nid, some (groupOf e .Test), some 1, some (some (e.x, e.y))⟩ none msg (some (zeros 128)) 128 [k] =
      .done ⟨some mem', nid.sigLen, 1⟩ := by
  obtain ⟨e, he⟩ : ∃ e, gost_nid2params .Test = some e := ⟨_, rfl⟩
  have hpf : e.p < 2 ^ 256 ∧ e.x % e.q ≠ 0 := by
    have h2 := he
    rw [C46_nid_selects] at h2
    simp only [curveOfNid, Option.some.injEq] at h2
    subst h2
    decide +kernel
  have hpair := pair_exists .Test e he (by decide) nid
  have hfit : TypeFits .Test ⟨nid, some (groupOf e .Test), some 1, some (some (e.x, e.y))⟩ := by
    intro e' he'
    obtain rfl : e = e' := Option.some.inj (he.symm.trans he')
    exact Or.inl hpf.1
  obtain ⟨e', hp, gen, n, ki, md, he', hg, hn, -, -, hall⟩ := C83_signed_message_accepted (witEnv .w64) (witEnv .w32) ⟨rfl, rfl, rfl, rfl⟩
    DerKey.coder_sound .Test _ 1 rfl hpair hfit
  obtain rfl : e = e' := Option.some.inj (he.symm.trans he')
  have hn' : n = nid.sigLen := by
    have : (n : Int) = (nid.sigLen : Nat) := hn.trans (by cases nid <;> rfl)
    exact_mod_cast this
  subst hn'
  obtain ⟨k, hk, r, s, hsw⟩ := nonce_exists he gen hg hpf.2 1 (md msg)
  exact ⟨e, k, he, hk, hpair, hfit, _, (hall msg (zeros 128) 128 [k] (by simpa using hk)
    (by rw [show (zeros 128).length = 128 from List.length_replicate]; cases nid <;> decide)).2 k [] r s rfl hsw⟩

/-- **C83**: for the key of every MAC type, made from any 32 bytes: the default digest it names is accepted by its operations, signing with it starts, and
the size reported is that of the type. -/
theorem C83_mac_key_says (rng : Nat → Fin 8 → W32) (k : MacKind) (key : Bytes) (hk : key.length = 32) :
    ∃ (pk : GostMacKey) (md : MacNid) (s : MacSign), EVP_PKEY_new_mac_key k key = some pk ∧ mac_default_md k.generated = some (md, 2) ∧
      Fits k.generated md ∧ EVP_DigestSignInit rng k.generated pk md = some s ∧ pkey_gost_mac_signctx_size s.d = k.defaultSize := by
  have h := C61_new_mac_key k key
  rw [if_pos hk] at h
  cases k
  · exact ⟨_, .gost28147_mac, _, h, rfl, by first | exact Or.inl rfl | exact Or.inr rfl, rfl, rfl⟩
  · exact ⟨_, .gost_mac_12, _, h, rfl, by first | exact Or.inl rfl | exact Or.inr rfl, rfl, rfl⟩
  · exact ⟨_, .magma_mac, _, h, rfl, by first | exact Or.inl rfl | exact Or.inr rfl, rfl, rfl⟩
  · exact ⟨_, .grasshopper_mac, _, h, rfl, by first | exact Or.inl rfl | exact Or.inr rfl, rfl, rfl⟩
  · exact ⟨_, .grasshopper_mac, _, h, rfl, by first | exact Or.inl rfl | exact Or.inr rfl, rfl, rfl⟩

/-! ## C84: single calls -/

/-- The full statement of C84 for memory: a signing call changes no byte outside the `*siglen` bytes the caller offered. -/
def KeepsBeyond (v : KxEnv) : Prop :=
  ∀ (pk : EvpPkey) (mem : Bytes) (siglen : Nat) (tbs : Bytes) (draws : List Nat) (ret : SignRet) (mem' : Bytes),
    pkey_sign v pk (some mem) siglen tbs draws = .done ret → ret.mem = some mem' → mem'.drop siglen = mem.drop siglen

/-- **C84**: what holds: a signing call that fails changes nothing; one that succeeds writes exactly as many bytes as the key reports,
so that it stays within a buffer of at least that size; the length reported is theirs. -/
theorem C84_sign_memory_partial (v : KxEnv) (pk : EvpPkey) (mem : Bytes) (siglen : Nat) (tbs : Bytes) (draws : List Nat) (ret : SignRet)
    (h : pkey_sign v pk (some mem) siglen tbs draws = .done ret) (hmem : pkey_size_gost pk ≤ mem.length) :
    ∃ mem', ret.mem = some mem' ∧ mem'.length = mem.length ∧
      ((ret.code = 0 ∧ mem' = mem ∧ ret.siglen = siglen) ∨
        (ret.code = 1 ∧ (ret.siglen : Int) = pkey_size_gost pk ∧ mem'.drop ret.siglen = mem.drop ret.siglen)) ∧
      (pkey_size_gost pk ≤ siglen → mem'.drop siglen = mem.drop siglen) := by
  have hn : ((pk.nid.sigLen : Nat) : Int) = pkey_size_gost pk := by
    unfold pkey_size_gost
    cases pk.nid <;> rfl
  unfold pkey_sign at h
  simp only at h
  split at h
  · cases h
  · cases h
    exact ⟨mem, rfl, rfl, Or.inl ⟨rfl, rfl, rfl⟩, fun _ => rfl⟩
  · rename_i rs _
    cases h
    have hstore : ∀ (n : Nat) (len : Nat) (buf : Bytes), buf.length = len → (store_bignum n buf len).1.length = len := by
      intro n len buf hb
      rcases lt_or_ge n (256 ^ len) with hlt | hge
      · rw [(C42_store_bignum n len buf).2 hlt]; simp
      · rw [(C42_store_bignum n len buf).1 hge]; exact hb
    have hpl : (pack_sign_cp rs (pk.nid.sigLen / 2)).length = pk.nid.sigLen := by
      have h2 : 2 * (pk.nid.sigLen / 2) = pk.nid.sigLen := by cases pk.nid <;> rfl
      unfold pack_sign_cp
      simp only [List.length_append]
      rw [hstore _ _ _ (by simp [zeros]; omega), hstore _ _ _ (by simp [zeros]; omega)]
      omega
    have hd : (writeTo mem (pack_sign_cp rs (pk.nid.sigLen / 2))).drop pk.nid.sigLen = mem.drop pk.nid.sigLen := by
      unfold writeTo
      rw [List.drop_left' hpl, hpl]
    refine ⟨_, rfl, ?_, Or.inr ⟨rfl, hn, hd⟩, ?_⟩
    · unfold writeTo
      simp only [List.length_append, List.length_drop, hpl]
      omega
    · intro hle
      have hle' : pk.nid.sigLen ≤ siglen := by omega
      have e1 : ∀ l : Bytes, l.drop siglen = (l.drop pk.nid.sigLen).drop (siglen - pk.nid.sigLen) := by
        intro l
        rw [List.drop_drop]
        congr 1
        omega
      rw [e1, e1 mem, hd]


/-- The standard's example curve. -/
theorem test_curve : ∃ e, gost_nid2params .Test = some e ∧ e.x = 2 ∧ 2 ^ 128 < e.q := by
  obtain ⟨e, he⟩ : ∃ e, gost_nid2params .Test = some e := ⟨_, rfl⟩
  refine ⟨e, he, ?_⟩
  rw [C46_nid_selects] at he
  simp only [curveOfNid, Option.some.injEq] at he
  subst he
  decide +kernel

/-- **C84 (finding)**: the length of the caller's buffer is not looked at: with a key of every type, a buffer of no bytes at all and a digest,
64 or 128 bytes are written. -/
theorem C84_short_buffer_false (v : KxEnv) : ¬ KeepsBeyond v := by
  intro hall
  obtain ⟨e, he, hx, hq⟩ := test_curve
  have hp : Fact e.p.Prime := ⟨(C46_selected_standard .Test e he).prime_p⟩
  obtain ⟨gen, hg⟩ := base_exists he
  have hE := curveGroup_sound he gen hg
  have hzero : leNat (zeros 32) = 0 := by decide +kernel
  have hxq : e.x % e.q = 2 := by rw [hx]; exact Nat.mod_eq_of_lt (by omega)
  have hsw : Spec.SignsWith gen e.q (fun P => (ecOf P).map (·.1)) 1 (Spec.digestNumber e.q (zeros 32)) 1 2 3 := by
    refine ⟨⟨e.x, by show Option.map _ (ecOf (1 • gen)) = _; rw [one_nsmul, hg]; rfl, hxq.symm⟩, ?_, by omega, by decide, by decide⟩
    have : Spec.digestNumber e.q (zeros 32) = 1 := by
      unfold Spec.digestNumber
      rw [hzero, if_pos (dvd_zero _)]
    rw [this]
    norm_num
  have hl : (zeros 32).length = 32 ∨ (zeros 32).length = 64 := Or.inl List.length_replicate
  have hsign := sign_of_signs he (by decide) gen hg v.ws v.ossl 1 (zeros 32) hl 1 (by omega) [] 2 3 hsw
  have hres : pkey_sign v ⟨.gost2012_256, some (groupOf e .Test), some 1, none⟩ (some (zeros 64)) 0 (zeros 32) [1] =
      .done ⟨some (writeTo (zeros 64) (pack_sign_cp (2, 3) 32)), 64, 1⟩ := by
    unfold pkey_sign gost_ec_sign_key
    rw [if_neg (by omega)]
    simp only
    rw [hsign]
    rfl
  have := hall _ _ _ _ _ _ _ hres rfl
  have hne : ¬ (writeTo (zeros 64) (pack_sign_cp (2, 3) 32)).drop 0 = (zeros 64).drop 0 := by
    rw [C42_packed_layout 2 3 32 (by norm_num) (by norm_num)]
    decide +kernel
  exact hne this

/-- The full statement of C84 for the process: no signing or verifying call ends it. -/
def KeepsProcess (v : KxEnv) : Prop :=
  ∀ (pk : EvpPkey), pk.group ≠ none →
    (∀ sig siglen tbs draws, pkey_sign v pk sig siglen tbs draws ≠ .abort) ∧ ∀ sig tbs, pkey_verify v pk sig tbs ≠ .abort

/-- **C84**: exactly when a call ends the process: signing into a buffer, or verifying two numbers between 0 and the order, with a digest
that is neither 32 nor 64 bytes long (for the verifying call, when the key has its public part).  Digests of one of the two lengths never do. -/
theorem C84_end_of_process_partial (v : KxEnv) (pk : EvpPkey) (g : EcGroupRec) (hg : pk.group = some g) (tbs : Bytes) :
    (∀ sig siglen draws, pkey_sign v pk sig siglen tbs draws = .abort ↔ sig ≠ none ∧ tbs.length ≠ 32 ∧ tbs.length ≠ 64) ∧
    (∀ sig, pkey_verify v pk sig tbs = .abort ↔ pk.pub ≠ none ∧ tbs.length ≠ 32 ∧ tbs.length ≠ 64 ∧
      0 < beNat (sig.take (sig.length / 2)) ∧ beNat (sig.take (sig.length / 2)) < g.q ∧
      0 < beNat ((sig.drop (sig.length / 2)).take (sig.length / 2)) ∧ beNat ((sig.drop (sig.length / 2)).take (sig.length / 2)) < g.q) := by
  constructor
  · intro sig siglen draws
    unfold pkey_sign
    cases sig with
    | none => simp
    | some mem =>
      simp only
      by_cases h : tbs.length ≠ 32 ∧ tbs.length ≠ 64
      · have : gost_ec_sign_key v pk tbs draws = .abort := if_pos h
        rw [this]
        simp [h]
      · obtain ⟨r, hr⟩ := sign_key_done v pk tbs draws (by omega)
        rw [hr]
        have h2 : ¬ (some mem ≠ none ∧ tbs.length ≠ 32 ∧ tbs.length ≠ 64) := fun hc => h hc.2
        cases r
        · exact ⟨fun hc => (by cases hc), fun hc => absurd hc h2⟩
        · exact ⟨fun hc => (by cases hc), fun hc => absurd hc h2⟩
  · intro sig
    unfold pkey_verify gost_ec_verify_key unpack_cp_signature
    simp only [hg]
    generalize beNat (sig.take (sig.length / 2)) = s
    generalize beNat ((sig.drop (sig.length / 2)).take (sig.length / 2)) = r
    cases hp : pk.pub with
    | none => simp
    | some Q =>
      simp only
      by_cases h1 : s = 0 ∨ r = 0 ∨ s ≥ g.q ∨ r ≥ g.q
      · rw [if_pos h1]
        constructor
        · intro hc; cases hc
        · rintro ⟨-, -, -, a, b, c, d⟩; omega
      · rw [if_neg h1]
        by_cases h2 : tbs.length ≠ 32 ∧ tbs.length ≠ 64
        · rw [if_pos h2]
          exact ⟨fun _ => ⟨fun hc => (by cases hc), h2.1, h2.2, by omega, by omega, by omega, by omega⟩, fun _ => rfl⟩
        · rw [if_neg h2]
          constructor
          · intro hc; cases hc
          · rintro ⟨-, a, b, -⟩; exact absurd ⟨a, b⟩ h2

/-- **C84 (finding)**: a digest of 20 bytes, as of another digest algorithm, ends the process of the signer and of the verifier. -/
theorem C84_end_of_process_false (v : KxEnv) : ¬ KeepsProcess v := by
  intro hall
  obtain ⟨e, he, hx, hq⟩ := test_curve
  refine (hall ⟨.gost2012_256, some (groupOf e .Test), some 1, some none⟩ (fun h => by cases h)).1 (some []) 0 (zeros 20) [] ?_
  rw [((C84_end_of_process_partial v _ (groupOf e .Test) rfl (zeros 20)).1 (some []) 0 [])]
  exact ⟨fun h => (by cases h), by decide, by decide⟩

/-- **C84 (finding)**: the length of a digest is not bound to the key: a digest of 32 bytes and the digest of 64 bytes that extends it
by zeros have the same signatures, under every key. -/
theorem C84_extended_digest (v : KxEnv) (pk : EvpPkey) (tbs : Bytes) (h : tbs.length = 32) :
    (∀ sig siglen draws, pkey_sign v pk sig siglen (tbs ++ zeros 32) draws = pkey_sign v pk sig siglen tbs draws) ∧
      ∀ sig, pkey_verify v pk sig (tbs ++ zeros 32) = pkey_verify v pk sig tbs := by
  have hle : leNat (tbs ++ zeros 32) = leNat tbs := by
    rw [leNat_append, show leNat (zeros 32) = 0 by decide +kernel]
    simp
  have hl : (tbs ++ zeros 32).length = 64 := by simp [zeros, h]
  have hd : ∀ q, digestNum q (tbs ++ zeros 32) = digestNum q tbs := fun q => by unfold digestNum; rw [hle]
  constructor
  · intro sig siglen draws
    have : gost_ec_sign_key v pk (tbs ++ zeros 32) draws = gost_ec_sign_key v pk tbs draws := by
      unfold gost_ec_sign_key gost_ec_sign
      simp only [hl, h, hd]
      rfl
    unfold pkey_sign
    rw [this]
  · intro sig
    unfold pkey_verify gost_ec_verify_key gost_ec_verify
    simp only [hl, h, hd]
    rfl

end Gost
