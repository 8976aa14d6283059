import Verif.Props.KeyTransport
import Verif.Lemmas.Gost94

/-!
# C58, continued: what goes wrong in key transport, and values that meet the hypotheses
-/

namespace Gost

open Spec (leNat beNat leBytes beBytes ecOf)

/-! ## Findings -/

/-- **C58** (finding): the CryptoPro variant with an ephemeral key and an output buffer smaller than the structure frees the ephemeral key
twice. -/
theorem C58_cp_small_buffer_double_free (v : KxEnv) (S : PkeyCtx) (hSp : S.peerkey = none) (hcp : S.Cp) (rand : Bytes) (draws : List Nat)
    (key junk blob : Bytes) (cap cap' : Nat) (h : (pkey_gost_encrypt v S (some rand) draws (some cap) key junk).2 = .data blob)
    (hlt : cap' < blob.length) :
    (pkey_gost_encrypt v S (some rand) draws (some cap') key junk).2 = .doubleFree := by
  rw [encrypt_cp hcp] at h ⊢
  unfold pkey_GOST_ECcp_encrypt at h ⊢
  rw [cpUkm_eq] at h ⊢
  simp only [hSp] at h ⊢
  cases he : ephemeralKey v S.pkey draws with
  | none => rw [he] at h; simp at h
  | some sec =>
    rw [he] at h
    simp only at h ⊢
    cases hs : vkoOn v (vko32Digest S.pkey.nid) S.pkey sec (cpUkm S.data rand) with
    | none => rw [hs] at h; simp at h
    | some sh =>
      rw [hs] at h
      simp only at h ⊢
      unfold ktFinish at h ⊢
      simp only [if_true] at h ⊢
      cases hp : pub_encode v.der v.ws v.ossl sec with
      | none => rw [hp] at h; simp at h
      | some ki =>
        rw [hp] at h
        simp only at h ⊢
        split at h
        · simp at h
        · injection h with h
          rw [if_pos (by rw [h]; exact hlt)]

/-- **C58** (finding): an ephemeral key that cannot be decoded is not an error: the structure is handled as one without a key, with
whatever peer key the context has. -/
theorem C58_cp_undecodable_key_ignored (v : KxEnv) (cache : GroupCache) (R : PkeyCtx) (hcp : R.Cp) (buf inp inp' out0 : Bytes) (kl : Nat)
    (hkl : 32 ≤ kl) (gkt : KtInfo) (ki : KeyInfo) (h : v.kt.decKt inp = some { gkt with ephem := some ki })
    (h' : v.kt.decKt inp' = some { gkt with ephem := none }) (hbad : (pub_decode v.der cache ki).2 = none) :
    pkey_gost_decrypt v cache R (some buf) kl inp out0 = pkey_gost_decrypt v cache R (some buf) kl inp' out0 := by
  rw [decrypt_cp hcp v _ buf kl hkl, decrypt_cp hcp v _ buf kl hkl]
  unfold pkey_GOST_ECcp_decrypt
  rw [h, h']
  simp only [Option.bind_some, Option.bind_none, hbad]
  rfl

/-- **C58** (finding): strings of the wrong length in a received structure end the process. -/
theorem C58_cp_bad_length_aborts (v : KxEnv) (cache : GroupCache) (R : PkeyCtx) (hcp : R.Cp) (buf inp out0 : Bytes) (kl : Nat)
    (hkl : 32 ≤ kl) (gkt : KtInfo) (h : v.kt.decKt inp = some gkt) (hno : gkt.ephem = none) (peer : EvpPkey) (hp : R.peerkey = some peer)
    (p : ParamNID) (hc : gkt.cipher = .known p)
    (hl : gkt.eph_iv.length ≠ 8 ∨ gkt.encrypted_key.length ≠ 32 ∨ gkt.imit.length ≠ 4) :
    (pkey_gost_decrypt v cache R (some buf) kl inp out0).2 = .abort := by
  rw [decrypt_cp hcp v _ buf kl hkl]
  unfold pkey_GOST_ECcp_decrypt
  rw [h]
  simp only [hno, Option.bind_none]
  unfold ktOpen
  simp only [hp, hc]
  split
  · rfl
  split
  · rfl
  rename_i h1 h2
  rw [if_pos (by omega)]

/-- **C58** (finding): a structure whose MAC is wrong is rejected, but the decrypted key is in the caller's buffer nevertheless. -/
theorem C58_cp_reject_writes_key (v : KxEnv) (cache : GroupCache) (R R' : PkeyCtx) (hcp : R.Cp) (buf inp inp' out0 k bad : Bytes) (kl kl' : Nat)
    (gkt : KtInfo) (hd : v.kt.decKt inp = some gkt) (hd' : v.kt.decKt inp' = some { gkt with imit := bad }) (hl : bad.length = 4)
    (hb : bad ≠ gkt.imit) (h : pkey_gost_decrypt v cache R (some buf) kl inp out0 = (R', .ret 1 k kl')) :
    pkey_gost_decrypt v cache R (some buf) kl inp' out0 = (R', .ret 0 k kl) := by
  have core : ∀ c : PkeyCtx, ktOpen v c gkt buf kl = .ret 1 k kl' → ktOpen v c { gkt with imit := bad } buf kl = .ret 0 k kl := by
    intro c ho
    unfold ktOpen at ho ⊢
    cases hp : c.peerkey with
    | none => rw [hp] at ho; simp at ho
    | some peer =>
      rw [hp] at ho
      simp only at ho ⊢
      cases hci : gkt.cipher with
      | foreign => rw [hci] at ho; simp at ho
      | undef => rw [hci] at ho; simp at ho
      | known p =>
        rw [hci] at ho
        simp only at ho ⊢
        by_cases l1 : gkt.eph_iv.length = 8
        · by_cases l2 : gkt.encrypted_key.length = 32
          · by_cases l3 : gkt.imit.length = 4
            · rw [if_neg (by omega), if_neg (by omega), if_neg (by omega)] at ho ⊢
              have t : ∀ x : Bytes, (gkt.eph_iv ++ gkt.encrypted_key ++ x).take 8 = gkt.eph_iv := by
                intro x; rw [List.append_assoc, List.take_left' l1]
              have t2 : ∀ x : Bytes, ((gkt.eph_iv ++ gkt.encrypted_key ++ x).drop 8).take 32 = gkt.encrypted_key := by
                intro x; rw [List.append_assoc, List.drop_left' l1, List.take_left' l2]
              have t3 : ∀ x : Bytes, (gkt.eph_iv ++ gkt.encrypted_key ++ x).drop 40 = x := by
                intro x; rw [List.drop_left' (by simp [l1, l2])]
              rw [t] at ho ⊢
              cases hs : vkoOn v (vko32Digest c.pkey.nid) peer c.pkey gkt.eph_iv with
              | none => rw [hs] at ho; simp at ho
              | some shared =>
                rw [hs] at ho
                simp only at ho ⊢
                have hsl := vkoOn_length hs
                have hb1 : (gkt.eph_iv ++ gkt.encrypted_key ++ gkt.imit).length = 44 := by simp [l1, l2, l3]
                have hb2 : (gkt.eph_iv ++ gkt.encrypted_key ++ bad).length = 44 := by simp [l1, l2, hl]
                obtain ⟨a1, a2⟩ := C34_unwrap_iff_mac (transportCtx v p) shared _ hsl hb1
                obtain ⟨b1, b2⟩ := C34_unwrap_iff_mac (transportCtx v p) shared _ hsl hb2
                have e1 := (unwrap_eq (transportCtx v p) shared _ hsl hb1).1
                have e2 := (unwrap_eq (transportCtx v p) shared _ hsl hb2).1
                rw [t, t2] at e1 e2
                rw [t, t3, e1] at a2
                rw [t, t3, e2] at b2
                by_cases h1 : (keyUnwrapCryptoPro (transportCtx v p) shared (gkt.eph_iv ++ gkt.encrypted_key ++ gkt.imit)).2.2 = 0
                · rw [if_pos h1] at ho; simp at ho
                · rw [if_neg h1] at ho
                  have a3 := a2.1 (a1.resolve_right h1)
                  have h2 : (keyUnwrapCryptoPro (transportCtx v p) shared (gkt.eph_iv ++ gkt.encrypted_key ++ bad)).2.2 = 0 := by
                    rcases b1 with h | h
                    · exact absurd ((b2.1 h).trans a3.symm) hb
                    · exact h
                  rw [if_pos h2, e2, ← e1]
                  injection ho with _ h3 _
                  rw [h3]
            · rw [if_neg (by omega), if_neg (by omega), if_pos l3] at ho; cases ho
          · rw [if_neg (by omega), if_pos l2] at ho; cases ho
        · rw [if_pos l1] at ho; cases ho
  by_cases hkl : 32 ≤ kl
  swap
  · unfold pkey_gost_decrypt at h
    simp only at h
    rw [if_pos (by omega)] at h
    simp at h
  rw [decrypt_cp hcp v _ buf kl hkl] at h ⊢
  unfold pkey_GOST_ECcp_decrypt at h ⊢
  rw [hd] at h
  rw [hd']
  simp only at h ⊢
  cases he : gkt.ephem.bind fun ki => (pub_decode v.der cache ki).2 with
  | none =>
    rw [he] at h
    simp only at h ⊢
    injection h with h1 h2
    rw [core _ h2, h1]
  | some eph =>
    rw [he] at h
    simp only at h ⊢
    cases hset : derive_set_peer R eph with
    | none => rw [hset] at h; simp at h
    | some c =>
      rw [hset] at h
      simp only at h ⊢
      injection h with h1 h2
      rw [core _ h2, h1]

/-- **C58** (finding): only the first 32 bytes of a longer session key are sent in the CryptoPro variant, without an error. -/
theorem C58_cp_key_truncated (v : KxEnv) (S : PkeyCtx) (hcp : S.Cp) (rand : Option Bytes) (draws : List Nat) (out : Option Nat)
    (key extra junk : Bytes) (hk : key.length = 32) :
    pkey_gost_encrypt v S rand draws out (key ++ extra) junk = pkey_gost_encrypt v S rand draws out key junk := by
  have hw : ∀ c kek ukm, keyWrapCryptoPro c kek ukm (key ++ extra) = keyWrapCryptoPro c kek ukm key := by
    intro c kek ukm
    have hg : ∀ (c : Ctx) (n : Nat) (b x : Bytes), 8 * n ≤ b.length → gost_enc c (b ++ x) n = gost_enc c b n := by
      intro c n
      induction n with
      | zero => intros; rfl
      | succ n ih =>
        intro b x hb
        simp only [gost_enc]
        rw [List.take_append_of_le_length (by omega), List.drop_append_of_le_length (by omega), ih _ _ (by rw [List.length_drop]; omega)]
    unfold keyWrapCryptoPro
    simp only
    rw [hg _ 4 _ _ (by omega), List.take_left' hk, List.take_of_length_le (by omega : key.length ≤ 32)]
  rw [encrypt_cp hcp, encrypt_cp hcp]
  unfold pkey_GOST_ECcp_encrypt
  simp only [hw]

/-- **C58** (finding): a UKM shorter than one set before leaves the end of the old one in use but does not send it: the recipient ends up
with another UKM than the sender (here: after 32 bytes of 1, a UKM of 8 bytes of 2). -/
theorem C58_2018_stale_ukm (pkey : Option EvpPkey) (d : PmethData) (hz : UkmSet d []) (old new : Bytes) (ho : old.length = 32)
    (hn : new.length < 32) (hs : old.drop new.length ≠ zeros (32 - new.length)) (rkey : EvpPkey) :
    let d1 := (pkey_gost_ctrl pkey d (.setIv old.length (some old))).1
    let d2 := (pkey_gost_ctrl pkey d1 (.setIv new.length (some new))).1
    d2.shared_ukm.take d2.shared_ukm_size = new ∧
    ∃ r, takeUkm rkey d (some (d2.shared_ukm.take d2.shared_ukm_size)) = some r ∧ r.shared_ukm ≠ d2.shared_ukm := by
  obtain ⟨z1, z2, z3⟩ := hz
  simp only [List.nil_append, List.length_nil, Nat.sub_zero] at z2 z3
  have hset : ∀ (k : Option EvpPkey) (d : PmethData) (u : Bytes), u.length ≤ 32 →
      pkey_gost_ctrl k d (.setIv u.length (some u)) = ({ d with shared_ukm := u ++ d.shared_ukm.drop u.length, shared_ukm_size := u.length }, 1) := by
    intro k d u hu
    simp only [pkey_gost_ctrl]
    rw [if_neg (show ¬ ((u.length : Int) < 0 ∨ (u.length : Int) > 32) by omega)]
    simp only [Int.toNat_natCast, memcpy, List.take_length]
  intro d1 d2
  have e1 : d1.shared_ukm = old := by
    simp only [d1, hset pkey d old (by omega), z2]
    rw [ho, show (zeros 32).drop 32 = [] from rfl, List.append_nil]
  have e2 : d2.shared_ukm = new ++ old.drop new.length ∧ d2.shared_ukm_size = new.length := by
    simp only [d2, hset pkey d1 new (by omega), e1, and_self]
  have e3 : d2.shared_ukm.take d2.shared_ukm_size = new := by rw [e2.1, e2.2, List.take_left' rfl]
  refine ⟨e3, ?_⟩
  rw [e3]
  unfold takeUkm
  rw [if_pos z3]
  simp only [hset _ d new (by omega)]
  refine ⟨_, if_neg (by decide), ?_⟩
  simp only [z2, e2.1]
  intro h
  have h := List.append_cancel_left h
  apply hs
  rw [← h]
  simp only [zeros, List.drop_replicate]

/-- **C58** (finding): a UKM of more than 32 bytes in a received structure is ignored without an error; the context goes on with the UKM it
has, for a new context 32 zero bytes. -/
theorem C58_2018_long_ukm_ignored (rkey : EvpPkey) (d : PmethData) (u : Bytes) (hu : 32 < u.length) : takeUkm rkey d (some u) = takeUkm rkey d none := by
  have hset : pkey_gost_ctrl (some rkey) d (.setIv u.length (some u)) = (d, 0) := by
    simp only [pkey_gost_ctrl]
    rw [if_pos (show ((u.length : Int) < 0 ∨ (u.length : Int) > 32) by omega)]
  unfold takeUkm
  simp only [hset]
  rfl

/-! ## The hypotheses are met -/

namespace DerKt

/-- OBJECT IDENTIFIERs of the key types. -/
def typeOid : Option PkeyNid → Bytes
  | some .gost2001 => [0x2A, 0x85, 3, 2, 2, 0x13]
  | some .gost2001DH => [0x2A, 0x85, 3, 2, 2, 0x62]
  | some .gost2012_256 => [0x2A, 0x85, 3, 7, 1, 1, 1, 1]
  | some .gost2012_512 => [0x2A, 0x85, 3, 7, 1, 1, 1, 2]
  | none => [0x2A, 3]

def findType (o : Bytes) : Option PkeyNid :=
  [PkeyNid.gost2001, .gost2001DH, .gost2012_256, .gost2012_512].find? fun n => typeOid (some n) == o

/-- OBJECT IDENTIFIERs of the S-box sets. -/
def boxOid : AsnObj → Bytes
  | .known .cryptoProA => [0x2A, 0x85, 3, 2, 2, 0x1F, 1]
  | .known .cryptoProB => [0x2A, 0x85, 3, 2, 2, 0x1F, 2]
  | .known .cryptoProC => [0x2A, 0x85, 3, 2, 2, 0x1F, 3]
  | .known .cryptoProD => [0x2A, 0x85, 3, 2, 2, 0x1F, 4]
  | .known .tc26Z => [0x2A, 0x85, 3, 7, 1, 2, 5, 1, 1]
  | .known .test => [0x2A, 0x85, 3, 2, 2, 0x1F, 0]
  | .foreign => [0x2A, 3]
  | .undef => [0x2A, 4]

def findBox (o : Bytes) : AsnObj :=
  (([ParamNID.cryptoProA, .cryptoProB, .cryptoProC, .cryptoProD, .tc26Z, .test].find? fun n => boxOid (.known n) == o).map AsnObj.known).getD .undef

theorem findType_oid (n : PkeyNid) : findType (typeOid (some n)) = some n := by cases n <;> rfl

theorem findBox_oid (p : ParamNID) : findBox (boxOid (.known p)) = .known p := by cases p <;> rfl

def paramsDer : AsnType → Bytes
  | .seq d => d
  | .other => [5, 0]

/-- SubjectPublicKeyInfo without its outer header. -/
def spki (k : KeyInfo) : Bytes := Der.tlv 0x30 (Der.tlv 6 (typeOid k.algor.alg) ++ paramsDer k.algor.params) ++ Der.tlv 3 (0 :: k.key)

def unspki (b : Bytes) : Option KeyInfo := do
  let (alg, r) ← Der.expect 0x30 b
  let (o, ps) ← Der.expect 6 alg
  let (bits, _) ← Der.expect 3 r
  match bits with
  | 0 :: key => some ⟨⟨findType o, .seq ps⟩, key⟩
  | _ => none

/-- Definite-length DER for the key transport structures. -/
def coder : KtDer where
  encKt v := Der.tlv 0x30 (Der.tlv 0x30 (Der.tlv 4 v.encrypted_key ++ Der.tlv 4 v.imit) ++
    Der.tlv 0xA0 (Der.tlv 6 (boxOid v.cipher) ++ ((v.ephem.map fun k => Der.tlv 0xA0 (spki k)).getD [] ++ Der.tlv 4 v.eph_iv)))
  decKt b := do
    let (body, _) ← Der.expect 0x30 b
    let (ki, r) ← Der.expect 0x30 body
    let (ek, r1) ← Der.expect 4 ki
    let (im, _) ← Der.expect 4 r1
    let (ai, _) ← Der.expect 0xA0 r
    let (o, r2) ← Der.expect 6 ai
    match Der.expect 0xA0 r2 with
    | some (k, r3) => do
      let k ← unspki k
      let (iv, _) ← Der.expect 4 r3
      some ⟨ek, im, findBox o, some k, iv⟩
    | none => do
      let (iv, _) ← Der.expect 4 r2
      some ⟨ek, im, findBox o, none, iv⟩
  encPs v := Der.tlv 0x30 (Der.tlv 4 v.psexp ++ (Der.tlv 0x30 (spki v.ephem) ++ (v.ukm.map fun u => Der.tlv 4 u).getD []))
  decPs b := do
    let (body, _) ← Der.expect 0x30 b
    let (x, r) ← Der.expect 4 body
    let (k, r2) ← Der.expect 0x30 r
    let k ← unspki k
    match Der.expect 4 r2 with
    | some (u, _) => some ⟨x, k, some u⟩
    | none => some ⟨x, k, none⟩

theorem typeOid_length (n : Option PkeyNid) : (typeOid n).length ≤ 8 := by
  cases n with
  | none => simp [typeOid]
  | some n => cases n <;> simp [typeOid]

theorem boxOid_length (a : AsnObj) : (boxOid a).length ≤ 9 := by
  cases a with
  | known p => cases p <;> simp [boxOid]
  | foreign => simp [boxOid]
  | undef => simp [boxOid]

theorem params_length (p : KeyParams) : (DerKey.coder.encParams p).length ≤ 40 := by
  have h1 := DerKey.curveOid_length p.key_params
  have h2 := Der.tlv_length 6 (DerKey.curveOid p.key_params)
  unfold DerKey.coder
  simp only
  refine le_trans (Der.tlv_length _ _) ?_
  rw [List.length_append]
  cases p.hash_params with
  | none => simp only [Option.map_none, Option.getD_none, List.length_nil]; omega
  | some h =>
    have h3 : (DerKey.hashOid h).length ≤ 8 := by cases h <;> simp [DerKey.hashOid]
    have h4 := Der.tlv_length 6 (DerKey.hashOid h)
    simp only [Option.map_some, Option.getD_some]
    omega

theorem octet_length (x : Bytes) : (DerKey.coder.encOctet x).length ≤ x.length + 4 := Der.tlv_length 4 x

/-- A written key is short and read back. -/
theorem written_spki {k : KeyInfo} (h : k.Written DerKey.coder) : (spki k).length ≤ 300 ∧ unspki (spki k) = some k := by
  obtain ⟨nid, p, x, hp, hx, rfl⟩ := h
  have h1 := typeOid_length (some nid)
  have h2 := params_length p
  have h3 := octet_length x
  have h4 := Der.tlv_length 6 (typeOid (some nid))
  have ha : (Der.tlv 6 (typeOid (some nid)) ++ DerKey.coder.encParams p).length ≤ 60 := by rw [List.length_append]; omega
  have h5 := Der.tlv_length 0x30 (Der.tlv 6 (typeOid (some nid)) ++ DerKey.coder.encParams p)
  have h6 := Der.tlv_length 3 (0 :: DerKey.coder.encOctet x)
  rw [List.length_cons] at h6
  constructor
  · unfold spki paramsDer
    simp only [List.length_append] at h5 ⊢
    omega
  · unfold unspki spki paramsDer
    simp only
    rw [Der.expect_tlv _ _ _ (by omega)]
    simp only [Option.bind_eq_bind, Option.bind_some]
    rw [Der.expect_tlv _ _ _ (by omega)]
    simp only [Option.bind_some]
    rw [Der.expect_tlv' _ _ (by rw [List.length_cons]; omega)]
    simp only [Option.bind_some, findType_oid]
    rfl

theorem tlv_len_eq (t : Byte) {a b : Bytes} (h : a.length = b.length) : (Der.tlv t a).length = (Der.tlv t b).length := by
  unfold Der.tlv
  rw [h]
  simp [h]

theorem spki_len_eq {a b : KeyInfo} (h : a.algor = b.algor) (hk : a.key.length = b.key.length) : (spki a).length = (spki b).length := by
  unfold spki
  rw [h, List.length_append, List.length_append, tlv_len_eq 3 (a := 0 :: a.key) (b := 0 :: b.key) (by simp [hk])]

theorem coder_sound : KtDer.Sound DerKey.coder coder where
  kt := by
    intro v rest hk hc h1 h2 h3
    obtain ⟨p, hc⟩ := hc
    obtain ⟨ek, im, ci, eph, iv⟩ := v
    simp only at hc h1 h2 h3 hk
    subst hc
    have t1 := Der.tlv_length 4 ek
    have t2 := Der.tlv_length 4 im
    have t3 := Der.tlv_length 4 iv
    have t4 := Der.tlv_length 6 (boxOid (.known p))
    have t5 := boxOid_length (.known p)
    have hki : (Der.tlv 4 ek ++ Der.tlv 4 im).length ≤ 140 := by rw [List.length_append]; omega
    have t6 := Der.tlv_length 0x30 (Der.tlv 4 ek ++ Der.tlv 4 im)
    have hep : ((eph.map fun k => Der.tlv 0xA0 (spki k)).getD []).length ≤ 304 := by
      cases eph with
      | none => simp
      | some k =>
        have := (written_spki (hk k rfl)).1
        have := Der.tlv_length 0xA0 (spki k)
        simp only [Option.map_some, Option.getD_some]
        omega
    have hai : (Der.tlv 6 (boxOid (.known p)) ++ ((eph.map fun k => Der.tlv 0xA0 (spki k)).getD [] ++ Der.tlv 4 iv)).length ≤ 400 := by
      simp only [List.length_append]; omega
    have t7 := Der.tlv_length 0xA0 (Der.tlv 6 (boxOid (.known p)) ++ ((eph.map fun k => Der.tlv 0xA0 (spki k)).getD [] ++ Der.tlv 4 iv))
    simp only [coder]
    rw [Der.expect_tlv _ _ _ (by rw [List.length_append]; omega)]
    simp only [Option.bind_eq_bind, Option.bind_some]
    rw [Der.expect_tlv _ _ _ (by omega)]
    simp only [Option.bind_some]
    rw [Der.expect_tlv _ _ _ (by omega)]
    simp only [Option.bind_some]
    rw [Der.expect_tlv' _ _ (by omega)]
    simp only [Option.bind_some]
    rw [Der.expect_tlv' _ _ (by omega)]
    simp only [Option.bind_some]
    rw [Der.expect_tlv _ _ _ (by omega)]
    simp only [Option.bind_some, findBox_oid]
    cases eph with
    | none =>
      simp only [Option.map_none, Option.getD_none, List.nil_append]
      have hn : Der.expect 0xA0 (Der.tlv 4 iv) = none := by
        unfold Der.expect
        have := Der.untlv_tlv 4 iv [] (by omega)
        rw [List.append_nil] at this
        rw [this]
        simp
      rw [hn]
      simp only
      rw [Der.expect_tlv' _ _ (by omega)]
      rfl
    | some k =>
      obtain ⟨w1, w2⟩ := written_spki (hk k rfl)
      simp only [Option.map_some, Option.getD_some]
      rw [Der.expect_tlv _ _ _ (by omega)]
      simp only [w2, Option.bind_some]
      rw [Der.expect_tlv' _ _ (by omega)]
      rfl
  ps := by
    intro v rest hk h1 h2
    obtain ⟨x, k, u⟩ := v
    simp only at hk h1 h2
    obtain ⟨w1, w2⟩ := written_spki hk
    have t1 := Der.tlv_length 4 x
    have t2 := Der.tlv_length 0x30 (spki k)
    have hu : ((u.map fun u => Der.tlv 4 u).getD []).length ≤ 70 := by
      cases u with
      | none => simp
      | some u =>
        have := h2 u rfl
        have := Der.tlv_length 4 u
        simp only [Option.map_some, Option.getD_some]
        omega
    simp only [coder]
    rw [Der.expect_tlv _ _ _ (by simp only [List.length_append]; omega)]
    simp only [Option.bind_eq_bind, Option.bind_some]
    rw [Der.expect_tlv _ _ _ (by omega)]
    simp only [Option.bind_some]
    rw [Der.expect_tlv _ _ _ (by omega)]
    simp only [Option.bind_some, w2]
    cases u with
    | none => rfl
    | some u =>
      have := h2 u rfl
      simp only [Option.map_some, Option.getD_some]
      rw [Der.expect_tlv' _ _ (by omega)]
  kt_len := by
    intro v w h1 h2 h3 h4 h5
    simp only [coder]
    apply tlv_len_eq
    rw [List.length_append, List.length_append]
    congr 1
    · apply tlv_len_eq
      rw [List.length_append, List.length_append, tlv_len_eq 4 h1, tlv_len_eq 4 h2]
    · apply tlv_len_eq
      simp only [List.length_append]
      rw [h3, tlv_len_eq 4 h4]
      congr 2
      cases hv : v.ephem with
      | none =>
        rw [hv] at h5
        cases hw : w.ephem with
        | none => rfl
        | some b => rw [hw] at h5; simp at h5
      | some a =>
        rw [hv] at h5
        cases hw : w.ephem with
        | none => rw [hw] at h5; simp at h5
        | some b =>
          rw [hw] at h5
          simp only [Option.map_some, Option.some.injEq, Prod.mk.injEq] at h5
          simp only [Option.map_some, Option.getD_some]
          exact tlv_len_eq _ (spki_len_eq h5.1 h5.2)
  ps_len := by
    intro v w h1 h2 h3 h4
    simp only [coder]
    apply tlv_len_eq
    simp only [List.length_append]
    rw [tlv_len_eq 4 h1, tlv_len_eq 0x30 (spki_len_eq h3 h4)]
    congr 2
    cases hv : v.ukm with
    | none =>
      rw [hv] at h2
      cases hw : w.ukm with
      | none => rfl
      | some b => rw [hw] at h2; simp at h2
    | some a =>
      rw [hv] at h2
      cases hw : w.ukm with
      | none => rw [hw] at h2; simp at h2
      | some b =>
        rw [hw] at h2
        simp only [Option.map_some, Option.some.injEq] at h2
        simp only [Option.map_some, Option.getD_some]
        exact tlv_len_eq _ h2
  octet_len := fun x y h => tlv_len_eq 4 h

end DerKt

/-- The digests of the engine. -/
def engineDigests : Digests where
  md94 m := (finish_hash (hash_block (gost94_digest_init (freshCtx witRng true).cctx) m)).2
  md256 m := sbDigest ⟨false, false, false, false⟩ 256 [m]
  md512 m := sbDigest ⟨false, false, false, false⟩ 512 [m]
  len94 m := finish_hash_length _ _ _ (hash_block_ginv _ _ _ _ (init94_inv _))
  len256 m := (C30_digest_length _ [m]).2
  len512 m := (C30_digest_length _ [m]).1

/-- An installation: 64-bit curve files, the coders above, real functions. -/
def witEnv (ws : WordSize) : KxEnv :=
  { ws := ws, ossl := file_Test .w64, der := DerKey.coder, kt := DerKt.coder, crypto := realCrypto, md := engineDigests, rng := witRng }

/-- Two installations with different word sizes. -/
example : (witEnv .w64).Same (witEnv .w32) := ⟨rfl, rfl, rfl, rfl⟩

example : (witEnv .w64).der.Sound ∧ (witEnv .w64).kt.Sound (witEnv .w64).der := ⟨DerKey.coder_sound, DerKt.coder_sound⟩

/-- Key pairs exist on every curve with a file, of every type: the private key 1. -/
theorem pair_exists (c : CurveNid) (e : EcParams) (he : gost_nid2params c = some e) (hc : c ≠ .tc26_512_paramSetTest) (nid : PkeyNid) :
    IsKeyPair c ⟨nid, some (groupOf e c), some 1, some (some (e.x, e.y))⟩ := by
  have hstd := C46_selected_standard c e he
  have hp : Fact e.p.Prime := ⟨hstd.prime_p⟩
  obtain ⟨gen, hg⟩ := base_exists he
  have hq := (cofactor_facts e (selected_mem he)).2.2.2.2
  refine ⟨e, he, hc, rfl, 1, rfl, ?_, ?_, hp, gen, hg, ?_⟩
  · intro h
    have := Nat.le_of_dvd (by decide) h
    omega
  · exact lt_of_lt_of_le (by omega) (q_fits he)
  · rw [one_nsmul, hg]

/-- A new context with a UKM set. -/
example : UkmSet PmethData.zero [] ∧
    UkmSet (pkey_gost_ctrl none PmethData.zero (.setIv 8 (some [1, 2, 3, 4, 5, 6, 7, 8]))).1 [1, 2, 3, 4, 5, 6, 7, 8] := by
  refine ⟨⟨by decide, rfl, rfl⟩, by decide, by decide, by decide⟩

theorem witUkm_ne : cpUkm PmethData.zero (List.replicate 32 7) ≠ zeros 8 := by decide

/-- Both variants, from a 64-bit to a 32-bit machine, on every curve. -/
example (c : CurveNid) (e : EcParams) (he : gost_nid2params c = some e) (hc : c ≠ .tc26_512_paramSetTest) :
    let B : EvpPkey := ⟨.gost2012_512, some (groupOf e c), some 1, some (some (e.x, e.y))⟩
    ∃ blob : Bytes, ∀ cap, blob.length ≤ cap → (pkey_gost_encrypt (witEnv .w64) ⟨B.public, none, .zero⟩ (some (List.replicate 32 7)) [0, 1] (some cap)
        (List.replicate 32 9) (zeros 44)).2 = .data blob ∧
      (pkey_gost_decrypt (witEnv .w32) (cacheAfter [some .Test]) ⟨B, none, .zero⟩ (some (zeros 32)) 32 blob []).2 = .ret 1 (List.replicate 32 9) 32 := by
  intro B
  have hq := (cofactor_facts e (selected_mem he)).2.2.2.2
  obtain ⟨blob, -, h2, h3⟩ := C58_cp_roundtrip (witEnv .w64) (witEnv .w32) ⟨rfl, rfl, rfl, rfl⟩ DerKey.coder_sound DerKt.coder_sound c B
    (pair_exists c e he hc _) ⟨B.public, none, .zero⟩ rfl rfl (Or.inl rfl) (List.replicate 32 7) rfl rfl witUkm_ne [0, 1]
    (by
      intro e' he' k hk
      obtain rfl : e = e' := Option.some.inj (he.symm.trans he')
      simp only [List.mem_cons, List.not_mem_nil, or_false] at hk
      rcases hk with rfl | rfl <;> omega)
    ⟨1, by simp, by decide⟩ (List.replicate 32 9) (zeros 44) rfl rfl
  refine ⟨blob, fun cap hcap => ⟨by rw [h2 cap hcap], ?_⟩⟩
  have := h3 ⟨B, none, .zero⟩ [] (zeros 32) 32 [] [some .Test] rfl (Or.inl rfl) (le_refl _)
  rw [List.append_nil] at this
  rw [this]
  rfl

example (c : CurveNid) (e : EcParams) (he : gost_nid2params c = some e) (hc : c ≠ .tc26_512_paramSetTest) (n : OmacCipher) :
    let B : EvpPkey := ⟨.gost2012_256, some (groupOf e c), some 1, some (some (e.x, e.y))⟩
    ∃ blob : Bytes, ∀ cap, blob.length ≤ cap → (pkey_gost_encrypt (witEnv .w64) ⟨B.public, none, { PmethData.zero with cipher_nid := n.transport }⟩
        (some (List.replicate 32 7)) [0, 1] (some cap) (List.replicate 32 9) (zeros 44)).2 = .data blob ∧
      (pkey_gost_decrypt (witEnv .w32) (cacheAfter [some .Test]) ⟨B, none, { PmethData.zero with cipher_nid := n.transport }⟩ (some (zeros 32)) 32
        blob []).2 = .ret 1 (List.replicate 32 9) 32 := by
  intro B
  have hq := (cofactor_facts e (selected_mem he)).2.2.2.2
  obtain ⟨blob, S', -, -, -, -, -, h2, h3⟩ := C58_2018_roundtrip (witEnv .w64) (witEnv .w32) ⟨rfl, rfl, rfl, rfl⟩ DerKey.coder_sound
    DerKt.coder_sound c B (pair_exists c e he hc _) (Or.inl rfl) n ⟨B.public, none, { PmethData.zero with cipher_nid := n.transport }⟩ rfl rfl [0, 1]
    (Or.inl ⟨rfl, by
      intro e' he' k hk
      obtain rfl : e = e' := Option.some.inj (he.symm.trans he')
      simp only [List.mem_cons, List.not_mem_nil, or_false] at hk
      rcases hk with rfl | rfl <;> omega, 1, by simp, by decide⟩) [] ⟨by decide, rfl, rfl⟩ (List.replicate 32 7) rfl (List.replicate 32 9) (zeros 44) rfl
  refine ⟨blob, fun cap hcap => ⟨by rw [h2 cap, if_pos hcap], ?_⟩⟩
  have := h3 ⟨B, none, { PmethData.zero with cipher_nid := n.transport }⟩ [] (zeros 32) 32 [] [some .Test] rfl rfl (Or.inl ⟨by decide, rfl, rfl⟩) (le_refl _)
  rw [List.append_nil] at this
  rw [this]
  rfl

end Gost
