import Verif.Model.Residue
import Verif.Lemmas.Gost89
import Verif.Props.KeyTransportMore

/-!
# C80: which secrets calls leave in memory they give back
-/

namespace Gost
open Spec (leNat)

/-- A buffer of at least `n` bytes, all of them 0. -/
def Erased (n : Nat) (b : Bytes) : Prop := n ≤ b.length ∧ ∀ x ∈ b, x = 0

theorem wipe_length (b : Bytes) : (wipe b).length = b.length := List.length_map ..

theorem wipe_erased (n : Nat) (b : Bytes) (h : n ≤ b.length) : Erased n (wipe b) := by
  refine ⟨by rw [wipe_length]; exact h, ?_⟩
  intro x hx
  obtain ⟨_, _, rfl⟩ := List.mem_map.mp hx
  rfl

theorem over_length (a b : Bytes) (n : Nat) (h : n ≤ b.length) : n ≤ (a ++ b.drop a.length).length := by
  rw [List.length_append, List.length_drop]; omega

theorem over_erased (n : Nat) (a b : Bytes) (h : n ≤ b.length) : Erased n (wipe (a ++ b.drop a.length)) :=
  wipe_erased n _ (over_length a b n h)

theorem gost_dec_prefix (c : Ctx) (n : Nat) (a b : Bytes) (h : a.length = 8 * n) : gost_dec c (a ++ b) n = gost_dec c a n := by
  induction n generalizing a with
  | zero => rfl
  | succ n ih =>
    simp only [gost_dec]
    rw [List.take_append_of_le_length (by omega), List.drop_append_of_le_length (by omega), ih _ (by simp; omega)]

/-! ## Erased -/

/-- **C80.** KImp15: whatever the input and the outcome - in particular when the MAC is wrong - the decrypted bytes are erased. -/
theorem C80_import_erased (X : Crypto) (rng : Nat → Fin 8 → W32) (out0 expkey : Bytes) (nid : KexpNid) (cipher_key : Bytes)
    (mac_nid : OmacCipher) (mac_key iv shared_key : Bytes) (hj : out0.length = 48) :
    (kimp15Exit X rng out0 expkey nid cipher_key mac_nid mac_key iv shared_key).1 =
      gost_kimp15 X rng out0 expkey nid cipher_key mac_nid mac_key iv shared_key ∧
    Erased 48 (kimp15Exit X rng out0 expkey nid cipher_key mac_nid mac_key iv shared_key).2 := by
  unfold kimp15Exit gost_kimp15
  simp only
  have h0 := wipe_erased 48 out0 (by omega)
  by_cases h1 : kexpMacLen nid = 0
  · rw [if_pos h1, if_pos h1]; exact ⟨rfl, h0⟩
  rw [if_neg h1, if_neg h1]
  by_cases h2 : expkey.length > 48
  · rw [if_pos h2, if_pos h2]; exact ⟨rfl, h0⟩
  rw [if_neg h2, if_neg h2]
  by_cases h3 : iv.length > 16
  · rw [if_pos h3, if_pos h3]; exact ⟨rfl, h0⟩
  rw [if_neg h3, if_neg h3]
  generalize kexpCtr rng nid false cipher_key (iv ++ zeros (16 - iv.length)) [expkey] = dec
  have h4 := over_erased 48 dec out0 (by omega)
  generalize kexpMac X mac_nid mac_key iv ((dec ++ out0.drop dec.length).take 32) (kexpMacLen nid) = m
  cases m with
  | none => exact ⟨rfl, h4⟩
  | some m =>
    simp only
    by_cases h5 : m.take (kexpMacLen nid) ≠ ((dec ++ out0.drop dec.length).drop 32).take (kexpMacLen nid)
    · rw [if_pos h5, if_pos h5]; exact ⟨rfl, h4⟩
    · rw [if_neg h5, if_neg h5]; exact ⟨rfl, h4⟩

/-- **C80.** KExp15: the MAC of the key, as long as it is used, is erased. -/
theorem C80_export_erased (X : Crypto) (rng : Nat → Fin 8 → W32) (shared_key : Bytes) (nid : KexpNid) (cipher_key : Bytes)
    (mac_nid : OmacCipher) (mac_key iv : Bytes) (out_len : Nat) (junk : Bytes) (hj : junk.length = 16) :
    (kexp15Exit X rng shared_key nid cipher_key mac_nid mac_key iv out_len junk).1 =
      gost_kexp15 X rng shared_key nid cipher_key mac_nid mac_key iv out_len ∧
    Erased (kexpMacLen nid) ((kexp15Exit X rng shared_key nid cipher_key mac_nid mac_key iv out_len junk).2.take (kexpMacLen nid)) := by
  have hn : kexpMacLen nid ≤ 16 := by cases nid <;> decide
  have hc : ∀ b : Bytes, kexpMacLen nid ≤ b.length → Erased (kexpMacLen nid) ((cleanse b (kexpMacLen nid)).take (kexpMacLen nid)) := by
    intro b hb
    unfold cleanse
    rw [List.take_left' (by rw [wipe_length, List.length_take]; omega)]
    exact wipe_erased _ _ (by rw [List.length_take]; omega)
  unfold kexp15Exit gost_kexp15
  simp only
  by_cases h1 : kexpMacLen nid = 0
  · rw [if_pos h1, if_pos h1]; exact ⟨rfl, hc junk (by omega)⟩
  rw [if_neg h1, if_neg h1]
  by_cases h2 : shared_key.length + kexpMacLen nid > out_len
  · rw [if_pos h2, if_pos h2]; exact ⟨rfl, hc junk (by omega)⟩
  rw [if_neg h2, if_neg h2]
  cases kexpMac X mac_nid mac_key iv shared_key (kexpMacLen nid) with
  | none => exact ⟨rfl, hc junk (by omega)⟩
  | some m => exact ⟨rfl, hc _ (over_length m junk _ (by omega))⟩

/-- **C80.** KEG: the intermediate key is erased, or was never computed. -/
theorem C80_keg_erased {G : Type} (E : EcGroup G) (X : Crypto) (md256 md512 : Bytes → Bytes) (h256 : ∀ m, (md256 m).length = 32)
    (ukm : Bytes) (nid : PkeyNid) (Q : G) (d : Nat) (junk : Bytes) (hj : junk.length = 32) :
    (kegExit E X md256 md512 ukm nid Q d junk).1 = gost_keg E X md256 md512 ukm nid Q d ∧
    (Erased 32 (kegExit E X md256 md512 ukm nid Q d junk).2 ∨
      ((kegExit E X md256 md512 ukm nid Q d junk).2 = junk ∧
        (nid ≠ .gost2012_256 ∨ VKO_compute_key E md256 Q d (kegUkm ukm) = none))) := by
  cases nid with
  | gost2012_256 =>
    unfold kegExit gost_keg
    simp only
    cases h : VKO_compute_key E md256 Q d (kegUkm ukm) with
    | none => exact ⟨rfl, Or.inr ⟨rfl, Or.inr rfl⟩⟩
    | some k =>
      have hk : k.length = 32 := by
        unfold VKO_compute_key at h
        simp only [Option.bind_eq_bind, Option.bind_eq_some_iff] at h
        obtain ⟨_, _, _, _, _, _, _, _, h⟩ := h
        rw [← Option.some.inj h]; exact h256 _
      have hd : junk.drop k.length = [] := List.drop_eq_nil_of_le (by omega)
      simp only [hd, List.append_nil]
      rw [List.take_of_length_le (by omega)]
      refine ⟨rfl, Or.inl ?_⟩
      unfold cleanse
      rw [List.drop_eq_nil_of_le (by omega), List.append_nil, List.take_of_length_le (by omega)]
      exact wipe_erased 32 k (by omega)
  | _ => exact ⟨rfl, Or.inr ⟨rfl, Or.inl (by intro h; cases h)⟩⟩

theorem ktOpen_erased (v : KxEnv) (c : PkeyCtx) (gkt : KtInfo) (f f' : CpFrame) (hf : f.shared.length = 32)
    (h : ktOpenExit v c gkt f = some f') : Erased 32 f'.shared := by
  have h0 := wipe_erased 32 f.shared (by omega)
  unfold ktOpenExit at h
  cases hp : c.peerkey with
  | none => simp only [hp] at h; cases h; exact h0
  | some peer =>
    simp only [hp] at h
    cases hc : gkt.cipher with
    | known p =>
      simp only [hc] at h
      split at h
      · cases h
      split at h
      · cases h
      split at h
      · cases h
      cases hv : vkoOn v (vko32Digest c.pkey.nid) peer c.pkey ((gkt.eph_iv ++ gkt.encrypted_key ++ gkt.imit).take 8) with
      | none => simp only [hv] at h; cases h; exact h0
      | some k => simp only [hv] at h; cases h; exact over_erased 32 k f.shared (by omega)
    | _ => simp only [hc] at h; cases h; exact h0

/-- **C80.** Key transport of RFC 4490: on whatever path decryption returns, the shared key is erased, unless the input cannot be
decoded (then nothing was computed). -/
theorem C80_cp_decrypt_erased (v : KxEnv) (cache : GroupCache) (c : PkeyCtx) (inp : Bytes) (f f' : CpFrame) (hf : f.shared.length = 32)
    (h : eccpDecryptExit v cache c inp f = some f') : Erased 32 f'.shared ∨ (f' = f ∧ v.kt.decKt inp = none) := by
  unfold eccpDecryptExit at h
  cases hd : v.kt.decKt inp with
  | none => simp only [hd] at h; cases h; exact Or.inr ⟨rfl, rfl⟩
  | some gkt =>
    left
    simp only [hd] at h
    cases he : (gkt.ephem.bind fun ki => (pub_decode v.der cache ki).2) with
    | none => simp only [he] at h; exact ktOpen_erased v _ gkt f f' hf h
    | some eph =>
      simp only [he] at h
      cases hs : derive_set_peer c eph with
      | none => simp only [hs] at h; cases h; exact wipe_erased 32 f.shared (by omega)
      | some c' => simp only [hs] at h; exact ktOpen_erased v _ gkt f f' hf h

/-- **C80.** The same for encryption: the shared key is erased, unless the random generator failed (then nothing was computed). -/
theorem C80_cp_encrypt_erased (v : KxEnv) (c : PkeyCtx) (rand : Option Bytes) (draws : List Nat) (out : Option Nat) (key : Bytes)
    (f : CpFrame) (hf : f.shared.length = 32) :
    Erased 32 (eccpEncryptExit v c rand draws out key f).shared ∨
      (eccpEncryptExit v c rand draws out key f = f ∧ c.data.shared_ukm_size = 0 ∧ rand = none) := by
  have h0 := wipe_erased 32 f.shared (by omega)
  have hw : ∀ sec ukm, Erased 32 (eccpWrapExit v c sec ukm key f).shared := by
    intro sec ukm
    unfold eccpWrapExit
    cases vkoOn v (vko32Digest c.pkey.nid) c.pkey sec ukm with
    | none => exact h0
    | some k => exact over_erased 32 k f.shared (by omega)
  unfold eccpEncryptExit
  have hu : ∀ u : Option Bytes, (u = none → c.data.shared_ukm_size = 0 ∧ rand = none) →
      Erased 32 (match u with
        | none => f
        | some ukm =>
          match c.peerkey with
          | some sec =>
            match sec.priv with
            | none => { f with shared := wipe f.shared }
            | some _ =>
              match out with
              | none => { f with shared := wipe f.shared }
              | some _ => eccpWrapExit v c sec ukm key f
          | none =>
            match out with
            | none => { f with shared := wipe f.shared }
            | some _ =>
              match ephemeralKey v c.pkey draws with
              | none => { f with shared := wipe f.shared }
              | some sec => eccpWrapExit v c sec ukm key f).shared ∨ u = none := by
    intro u _
    cases u with
    | none => exact Or.inr rfl
    | some ukm =>
      left
      simp only
      cases c.peerkey with
      | some sec =>
        simp only
        cases sec.priv with
        | none => exact h0
        | some _ => cases out with
          | none => exact h0
          | some _ => exact hw sec ukm
      | none => cases out with
        | none => exact h0
        | some _ =>
          simp only
          cases ephemeralKey v c.pkey draws with
          | none => exact h0
          | some sec => exact hw sec ukm
  by_cases hz : c.data.shared_ukm_size ≠ 0
  · rw [if_pos hz]
    rcases hu (some (c.data.shared_ukm.take 8)) (by intro h; cases h) with h | h
    · exact Or.inl h
    · cases h
  · rw [if_neg hz]
    have hz' : c.data.shared_ukm_size = 0 := Classical.byContradiction hz
    cases rand with
    | none => exact Or.inr ⟨rfl, hz', rfl⟩
    | some r =>
      rcases hu (some r) (by intro h; cases h) with h | h
      · exact Or.inl h
      · cases h

/-- **C80.** Key transport of R 1323565.1.020-2018: both export keys are erased when encryption or decryption returns, unless the cipher
or the input is refused at once (then nothing was computed). -/
theorem C80_2018_erased (v : KxEnv) (cache : GroupCache) (c : PkeyCtx) (rand : Option Bytes) (draws : List Nat) (inp junk : Bytes)
    (hj : junk.length = 64) :
    (Erased 64 (enc2018Exit v c rand draws junk) ∨
      (enc2018Exit v c rand draws junk = junk ∧ transport2018 c.data.cipher_nid = none)) ∧
    (Erased 64 (dec2018Exit v cache c inp junk) ∨
      (dec2018Exit v cache c inp junk = junk ∧ (transport2018 c.data.cipher_nid = none ∨ v.kt.decPs inp = none))) := by
  have h0 := wipe_erased 64 junk (by omega)
  have hk : ∀ k : Bytes, Erased 64 (wipe (k ++ junk.drop k.length)) := fun k => over_erased 64 k junk (by omega)
  unfold enc2018Exit dec2018Exit
  cases transport2018 c.data.cipher_nid with
  | none => exact ⟨Or.inr ⟨rfl, rfl⟩, Or.inr ⟨rfl, Or.inl rfl⟩⟩
  | some t =>
    refine ⟨Or.inl ?_, ?_⟩
    · simp only
      cases senderKey v c draws with
      | none => exact h0
      | some s =>
        simp only
        cases drawUkm c.data rand with
        | none => exact h0
        | some d =>
          simp only
          cases kegOn v d.shared_ukm c.pkey.nid c.pkey s with
          | none => exact h0
          | some k => exact hk k
    · simp only
      cases v.kt.decPs inp with
      | none => exact Or.inr ⟨rfl, Or.inr rfl⟩
      | some p =>
        left
        simp only
        cases (pub_decode v.der cache p.ephem).2 with
        | none => exact h0
        | some e =>
          simp only
          cases takeUkm c.pkey c.data p.ukm with
          | none => exact h0
          | some d =>
            simp only
            cases kegOn v d.shared_ukm c.pkey.nid e c.pkey with
            | none => exact h0
            | some k => exact hk k

/-- **C80.** CryptoPro key meshing and Magma ACPKM: the copies of the new key (and IV) are erased, as are the keys of CTR-ACPKM-OMAC. -/
theorem C80_section_keys_erased (c : Ctx) (iv : Bytes) (X : Crypto) (inkey seed junk : Bytes) (hj : junk.length = 64) :
    (meshExit c iv).1 = cryptopro_key_meshing c iv ∧ Erased 32 (meshExit c iv).2.1 ∧ Erased 8 (meshExit c iv).2.2 ∧
    (acpkmMagmaExit c).1 = acpkm_magma_key_meshing c ∧ Erased 32 (acpkmMagmaExit c).2 ∧
    (Erased 64 (acpkmOmacExit X inkey seed junk) ∨
      (acpkmOmacExit X inkey seed junk = junk ∧ gost_kdftree2012_256 X 64 (inkey.take 32) aoKdfLabel (seed.take 8) 1 = none)) := by
  refine ⟨rfl, wipe_erased 32 _ (by rw [gost_dec_length]), wipe_erased 8 _ (by simp), rfl, wipe_erased 32 _ ?_, ?_⟩
  · simp [List.range_succ]
  · unfold acpkmOmacExit
    cases gost_kdftree2012_256 X 64 (inkey.take 32) aoKdfLabel (seed.take 8) 1 with
    | none => exact Or.inr ⟨rfl, rfl⟩
    | some k => exact Or.inl (over_erased 64 k junk (by omega))

/-- **C80.** The cleanup function of the GOST 28147-89 and Magma ciphers erases key, mask and master key: what is left does not depend
on them. -/
theorem C80_magma_cleanup (e : CipherCtx) (key mask : Fin 8 → W32) (mk : Bytes) (hm : mk.length = e.masterKey.length) :
    gost_cipher_cleanup e = gost_cipher_cleanup { e with cctx := { e.cctx with key := key, mask := mask }, masterKey := mk } ∧
    gost_get_key (gost_cipher_cleanup e).cctx = zeros 32 ∧ ∀ x ∈ (gost_cipher_cleanup e).masterKey, x = 0 := by
  refine ⟨?_, ?_, (wipe_erased 0 _ (Nat.zero_le _)).2⟩
  · simp only [gost_cipher_cleanup, gost_destroy, wipe, List.map_const', hm]
  · simp only [gost_get_key, gost_cipher_cleanup, gost_destroy]; decide

/-! ## Not erased -/

/-- **C80 (false for agreed points).** The block `VKO_compute_key` frees holds the shared point: whoever reads it computes the shared key
with one digest. -/
theorem C80_vko_point_left {G : Type} (E : EcGroup G) (md : Bytes → Bytes) (Q : G) (d : Nat) (ukm junk k : Bytes)
    (h : VKO_compute_key E md Q d ukm = some k) : ∃ b, vkoFreed E Q d ukm junk = some b ∧ md b = k := by
  unfold VKO_compute_key at h
  simp only [Option.bind_eq_bind, Option.bind_eq_some_iff] at h
  obtain ⟨pnt, h1, ⟨x, y⟩, h2, xb, h3, yb, h4, h⟩ := h
  refine ⟨xb ++ yb, ?_, Option.some.inj h⟩
  unfold vkoFreed
  simp only [h1, h2, h3, h4]

/-- **C80 (false for key transport).** After a successful decryption the cipher context on the stack decrypts the message once more: the
session key follows from it and the message alone. -/
theorem C80_cp_decrypt_context_left (v : KxEnv) (cache : GroupCache) (c : PkeyCtx) (buf inp key : Bytes) (kl n : Nat) (f : CpFrame)
    (h : (pkey_GOST_ECcp_decrypt v cache c buf kl inp).2 = .ret 1 key n) :
    ∃ f' gkt, eccpDecryptExit v cache c inp f = some f' ∧ v.kt.decKt inp = some gkt ∧
      key.take 32 = gost_dec f'.cctx gkt.encrypted_key 4 := by
  have main : ∀ (c : PkeyCtx) (gkt : KtInfo), ktOpen v c gkt buf kl = .ret 1 key n →
      ∃ f', ktOpenExit v c gkt f = some f' ∧ key.take 32 = gost_dec f'.cctx gkt.encrypted_key 4 := by
    intro c gkt h
    unfold ktOpen at h
    unfold ktOpenExit
    cases hp : c.peerkey with
    | none => simp only [hp] at h; cases h
    | some peer =>
      simp only [hp] at h ⊢
      cases hc : gkt.cipher with
      | known p =>
        simp only [hc] at h ⊢
        by_cases h1 : gkt.eph_iv.length ≠ 8
        · rw [if_pos h1] at h; cases h
        rw [if_neg h1] at h ⊢
        by_cases h2 : gkt.encrypted_key.length ≠ 32
        · rw [if_pos h2] at h; cases h
        rw [if_neg h2] at h ⊢
        by_cases h3 : gkt.imit.length ≠ 4
        · rw [if_pos h3] at h; cases h
        rw [if_neg h3] at h ⊢
        cases hv : vkoOn v (vko32Digest c.pkey.nid) peer c.pkey ((gkt.eph_iv ++ gkt.encrypted_key ++ gkt.imit).take 8) with
        | none => simp only [hv] at h; cases h
        | some k =>
          simp only [hv] at h ⊢
          refine ⟨_, rfl, ?_⟩
          split at h
          · cases h
          · have hk : key = (keyUnwrapCryptoPro (transportCtx v p) k (gkt.eph_iv ++ gkt.encrypted_key ++ gkt.imit)).2.1 ++ buf.drop 32 := by
              cases h; rfl
            rw [hk]
            simp only [keyUnwrapCryptoPro]
            have hl : (gkt.eph_iv ++ gkt.encrypted_key ++ gkt.imit).drop 8 = gkt.encrypted_key ++ gkt.imit := by
              rw [List.append_assoc, List.drop_left' (by omega)]
            rw [hl, List.take_left' (by rw [gost_dec_length]), gost_dec_prefix _ 4 _ _ (by omega)]
      | _ => simp only [hc] at h; cases h
  unfold pkey_GOST_ECcp_decrypt at h
  unfold eccpDecryptExit
  cases hd : v.kt.decKt inp with
  | none => simp only [hd] at h; cases h
  | some gkt =>
    simp only [hd] at h ⊢
    cases he : (gkt.ephem.bind fun ki => (pub_decode v.der cache ki).2) with
    | none =>
      simp only [he] at h ⊢
      obtain ⟨f', h1, h2⟩ := main _ gkt h
      exact ⟨f', gkt, h1, rfl, h2⟩
    | some eph =>
      simp only [he] at h ⊢
      cases hs : derive_set_peer c eph with
      | none => simp only [hs] at h; cases h
      | some c' =>
        simp only [hs] at h ⊢
        obtain ⟨f', h1, h2⟩ := main _ gkt h
        exact ⟨f', gkt, h1, rfl, h2⟩

/-- **C80 (false for key transport).** The same after an encryption: the context left decrypts what was sent. -/
theorem C80_cp_encrypt_context_left (v : KxEnv) (c c' : PkeyCtx) (rand : Option Bytes) (draws : List Nat) (cap : Nat)
    (key junk der : Bytes) (f : CpFrame) (hk : key.length = 32) (hr : ∀ r, rand = some r → r.length = 8)
    (hs : 8 ≤ c.data.shared_ukm.length)
    (h : pkey_GOST_ECcp_encrypt v c rand draws (some cap) key junk = (c', .data der)) :
    ∃ info, der = v.kt.encKt info ∧
      gost_dec (eccpEncryptExit v c rand draws (some cap) key f).cctx info.encrypted_key 4 = key := by
  have fin : ∀ eph sec ukm ck, ktFinish v c (some cap) eph sec ukm ck = (c', .data der) →
      ∃ info, der = v.kt.encKt info ∧ info.encrypted_key = (ck.drop 8).take 32 := by
    intro eph sec ukm ck h
    unfold ktFinish at h
    cases eph with
    | true =>
      simp only [if_true] at h
      split at h
      · cases h
      · split at h
        · cases h
        · cases h; exact ⟨_, rfl, rfl⟩
    | false =>
      simp only [Bool.false_eq_true, if_false] at h
      split at h
      · cases h
      · cases h; exact ⟨_, rfl, rfl⟩
  have wrap : ∀ (sec : EvpPkey) (ukm : Bytes) (k : Bytes), ukm.length = 8 →
      vkoOn v (vko32Digest c.pkey.nid) c.pkey sec ukm = some k →
      gost_dec (eccpWrapExit v c sec ukm key f).cctx
        (((keyWrapCryptoPro (transportCtx v (transportParam c.pkey.nid)) k ukm key).2.drop 8).take 32) 4 = key := by
    intro sec ukm k hu hv
    unfold eccpWrapExit
    simp only [hv, keyWrapCryptoPro]
    rw [List.append_assoc, List.drop_left' (by rw [List.length_take]; omega), List.take_left' (by rw [gost_enc_length]),
      gost_dec_gost_enc _ 4 key (by omega)]
  unfold pkey_GOST_ECcp_encrypt at h
  unfold eccpEncryptExit
  have hu : ∀ u, (if c.data.shared_ukm_size ≠ 0 then some (c.data.shared_ukm.take 8) else rand) = some u → u.length = 8 := by
    intro u h
    split at h
    · cases h; rw [List.length_take]; omega
    · exact hr u h
  cases hx : (if c.data.shared_ukm_size ≠ 0 then some (c.data.shared_ukm.take 8) else rand) with
  | none => simp only [hx] at h; cases h
  | some ukm =>
    have hl := hu ukm hx
    simp only [hx] at h ⊢
    cases hp : c.peerkey with
    | some sec =>
      simp only [hp] at h ⊢
      cases hq : sec.priv with
      | none => simp only [hq] at h; cases h
      | some _ =>
        simp only [hq] at h ⊢
        cases hv : vkoOn v (vko32Digest c.pkey.nid) c.pkey sec ukm with
        | none => simp only [hv] at h; cases h
        | some k =>
          simp only [hv] at h
          obtain ⟨info, h1, h2⟩ := fin _ _ _ _ h
          exact ⟨info, h1, by rw [h2]; exact wrap sec ukm k hl hv⟩
    | none =>
      simp only [hp] at h ⊢
      cases he : ephemeralKey v c.pkey draws with
      | none => simp only [he] at h; cases h
      | some sec =>
        simp only [he] at h ⊢
        cases hv : vkoOn v (vko32Digest c.pkey.nid) c.pkey sec ukm with
        | none => simp only [hv] at h; cases h
        | some k =>
          simp only [hv] at h
          obtain ⟨info, h1, h2⟩ := fin _ _ _ _ h
          exact ⟨info, h1, by rw [h2]; exact wrap sec ukm k hl hv⟩

/-- **C80 (false for Kuznyechik).** A change of section leaves the new key on the stack. -/
theorem C80_kuznyechik_section_key_left (c : KCtx) :
    (acpkmNextExit c).1 = acpkm_next c ∧ acpkm_next c = gost_grasshopper_cipher_key c (acpkmNextExit c).2 := ⟨rfl, rfl⟩

/-- **C80 (left to libcrypto).** The cleanup function of the Kuznyechik ciphers does not erase the keys (the erasing function exists but
is not called); libcrypto erases the memory of the context. -/
theorem C80_kuznyechik_cleanup_keeps_key (c : KCtx) (ctr : Bool) :
    (gost_grasshopper_cipher_cleanup c ctr).key = c.key ∧ (gost_grasshopper_cipher_cleanup c ctr).masterKey = c.masterKey ∧
    (gost_grasshopper_cipher_cleanup c ctr).encrypt_round_keys = c.encrypt_round_keys := by
  cases ctr <;> exact ⟨rfl, rfl, rfl⟩

/-- **C80 (false for MAC keys).** Making a MAC key frees a block that holds it; freeing the key frees another. -/
theorem C80_mac_key_left (k : MacKind) (key : Bytes) (hk : key.length = 32) :
    ∃ pk, EVP_PKEY_new_mac_key k key = some pk ∧ (newMacKeyFreed k key).key = key ∧ (mackey_free_gost pk).key = key := by
  have ht : key.take 32 = key := List.take_of_length_le (by omega)
  have hc : (macCtrl k (macPmethInit k none) (.setMacKey key.length key)) =
      ({ macPmethInit k none with key := key, key_set := true }, 1) := by
    have h32 : ¬ ((key.length : Int) ≠ 32) := by omega
    cases k <;> simp only [macCtrl, pkey_gost_mac_ctrl, pkey_gost_omac_ctrl, if_neg h32, ht]
  refine ⟨⟨(macPmethInit k none).mac_param_nid, key, (macPmethInit k none).mac_size⟩, ?_, ?_, rfl⟩
  · unfold EVP_PKEY_new_mac_key
    rw [hc]
    rfl
  · unfold newMacKeyFreed pkey_gost_mac_cleanup
    rw [hc]

/-! ## Witnesses -/

/-- Key transport on every curve with a file: the sender's and the recipient's contexts left both give the session key. -/
example (c : CurveNid) (e : EcParams) (he : gost_nid2params c = some e) (hc : c ≠ .tc26_512_paramSetTest) (f : CpFrame) :
    let B : EvpPkey := ⟨.gost2012_512, some (groupOf e c), some 1, some (some (e.x, e.y))⟩
    ∃ (blob : Bytes) (f' : CpFrame) (gkt info : KtInfo),
      eccpDecryptExit (witEnv .w32) (cacheAfter [some .Test]) ⟨B, none, .zero⟩ blob f = some f' ∧
      gost_dec f'.cctx gkt.encrypted_key 4 = List.replicate 32 9 ∧ blob = (witEnv .w64).kt.encKt info ∧
      gost_dec (eccpEncryptExit (witEnv .w64) ⟨B.public, none, .zero⟩ (some (List.replicate 8 7)) [0, 1] (some blob.length)
        (List.replicate 32 9) f).cctx info.encrypted_key 4 = List.replicate 32 9 := by
  intro B
  have hq := (cofactor_facts e (selected_mem he)).2.2.2.2
  obtain ⟨blob, -, h2, h3⟩ := C58_cp_roundtrip (witEnv .w64) (witEnv .w32) ⟨rfl, rfl, rfl, rfl⟩ DerKey.coder_sound DerKt.coder_sound c B
    (pair_exists c e he hc _) ⟨B.public, none, .zero⟩ rfl rfl (Or.inl rfl) (List.replicate 32 7) rfl rfl witUkm_ne [0, 1]
    (by
      intro e' he' k hk
      obtain rfl : e = e' := Option.some.inj (he.symm.trans he')
      simp only [List.mem_cons, List.not_mem_nil, or_false] at hk
      rcases hk with rfl | rfl <;> omega)
    ⟨1, by simp, by decide⟩ (List.replicate 32 9) (zeros 44) rfl rfl
  have hd := h3 ⟨B, none, .zero⟩ [] (zeros 32) 32 [] [some .Test] rfl (Or.inl rfl) (le_refl _)
  rw [List.append_nil] at hd
  obtain ⟨f', gkt, d1, -, d3⟩ := C80_cp_decrypt_context_left (witEnv .w32) (cacheAfter [some .Test]) ⟨B, none, .zero⟩ (zeros 32) blob _ 32 32 f hd
  obtain ⟨info, e1, e2⟩ := C80_cp_encrypt_context_left (witEnv .w64) ⟨B.public, none, .zero⟩ _ (some (List.replicate 8 7)) [0, 1] blob.length
    (List.replicate 32 9) (zeros 44) blob f rfl (fun r h => by rw [← Option.some.inj h]; rfl) (by dsimp only; decide) (h2 blob.length (le_refl _))
  exact ⟨blob, f', gkt, info, d1, d3.symm, e1, e2⟩

/-- A buffer that is not erased. -/
example : ¬ Erased 2 [0, 1] ∧ Erased 2 (wipe [5, 1]) := ⟨fun h => by simpa using h.2 1 (by simp), by decide, by decide⟩

end Gost
