import Verif.Lemmas.KeyWrap
import Verif.Props.Gost89

/-!
# C34: CryptoPro key wrap

`E89 box`, `D89 box` and `M89 box` are the block encryption, decryption and the MAC step of GOST 28147-89 with the
substitution `box` of the cipher context (those of the standard by C54); `Spec.KeyWrap` is RFC 4357 over them.  The
cipher context `c` is arbitrary: any earlier key, any masks and any future random numbers.
-/

namespace Gost
open Spec

/-- **C34.** The diversified key is that of RFC 4357 section 6.5, whatever the context held and whatever masks are drawn. -/
theorem C34_diversify_is_rfc4357 (c : Ctx) (kek ukm : Bytes) (hk : kek.length = 32) (hu : ukm.length = 8) :
    (keyDiversifyCryptoPro c kek ukm).2 = KeyWrap.diversify (E89 c.box) kek ukm := by
  have h := (diversify_eq c kek ukm hk (by omega)).1
  rwa [List.take_of_length_le (by omega)] at h

/-- **C34.** The wrapped key is UKM | ECB(CEK) | MAC(CEK) under the diversified key (RFC 4357 section 6.3). -/
theorem C34_wrap_is_rfc4357 (c : Ctx) (kek ukm cek : Bytes) (hk : kek.length = 32) (hu : ukm.length = 8) (hc : cek.length = 32) :
    (keyWrapCryptoPro c kek ukm cek).2 = KeyWrap.wrap (E89 c.box) (M89 c.box) kek ukm cek := by
  obtain ⟨h1, h2, h3⟩ := diversify_eq c kek ukm hk (by omega)
  have hu8 : ukm.take 8 = ukm := List.take_of_length_le (by omega)
  rw [hu8] at h1
  simp only [keyWrapCryptoPro]
  rw [List.take_of_length_le (by omega : cek.length ≤ 32), gost_enc_eq _ 4 _ (by omega), mac_iv_eq _ _ _ hc,
    gost_get_key_set _ _ h3, gost_key_box, h2, h1, hu8]
  rfl

/-- What unwrapping computes: the decrypted key, and 1 exactly when the MAC field matches. -/
theorem unwrap_eq (c : Ctx) (kek blob : Bytes) (hk : kek.length = 32) (hb : blob.length = 44) :
    (keyUnwrapCryptoPro c kek blob).2.1 =
      ecb 8 (D89 c.box (KeyWrap.diversify (E89 c.box) kek (blob.take 8))) ((blob.drop 8).take 32) ∧
    (keyUnwrapCryptoPro c kek blob).2.2 =
      (if KeyWrap.mac (E89 c.box) (M89 c.box) kek (blob.take 8) (keyUnwrapCryptoPro c kek blob).2.1 = blob.drop 40 then 1 else 0) := by
  obtain ⟨h1, h2, h3⟩ := diversify_eq c kek blob hk (by omega)
  have hd : (blob.drop 40).take 4 = blob.drop 40 := List.take_of_length_le (by simp; omega)
  have e1 : (keyUnwrapCryptoPro c kek blob).2.1 =
      gost_dec (gost_key (keyDiversifyCryptoPro c kek blob).1 (keyDiversifyCryptoPro c kek blob).2) (blob.drop 8) 4 := rfl
  have e2 : (keyUnwrapCryptoPro c kek blob).2.2 =
      if gost_mac_iv (gost_key (keyDiversifyCryptoPro c kek blob).1 (keyDiversifyCryptoPro c kek blob).2) 32 blob
        (keyUnwrapCryptoPro c kek blob).2.1 ≠ (blob.drop 40).take 4 then 0 else 1 := rfl
  have hl : (keyUnwrapCryptoPro c kek blob).2.1.length = 32 := by rw [e1]; exact gost_dec_length _ _ 4
  refine ⟨?_, ?_⟩
  · rw [e1, gost_dec_take, gost_dec_eq _ 4 _ (by simp; omega), gost_get_key_set _ _ h3, gost_key_box, h2, h1]
  · rw [e2, mac_iv_eq _ _ _ hl, gost_get_key_set _ _ h3, gost_key_box, h2, h1, hd, KeyWrap.mac]
    generalize (keyUnwrapCryptoPro c kek blob).2.1 = k
    generalize (macFold (M89 c.box (KeyWrap.diversify (E89 c.box) kek (blob.take 8))) (blob.take 8) (blocks 8 k)).take 4 = m
    by_cases h : m = blob.drop 40
    · rw [if_pos h, if_neg (by simpa using h)]
    · rw [if_neg h, if_pos h]

/-- **C34.** For every KEK and every 44-byte blob, unwrapping returns 1 if and only if the last four bytes are the MAC, under
the diversified KEK and started from the UKM, of the key it decrypted; and it returns 0 otherwise. -/
theorem C34_unwrap_iff_mac (c : Ctx) (kek blob : Bytes) (hk : kek.length = 32) (hb : blob.length = 44) :
    let r := (keyUnwrapCryptoPro c kek blob).2
    (r.2 = 1 ∨ r.2 = 0) ∧
    (r.2 = 1 ↔ blob.drop 40 = KeyWrap.mac (E89 c.box) (M89 c.box) kek (blob.take 8) r.1) := by
  intro r
  have h : r.2 = (if KeyWrap.mac (E89 c.box) (M89 c.box) kek (blob.take 8) r.1 = blob.drop 40 then 1 else 0) := (unwrap_eq c kek blob hk hb).2
  rw [h]
  split
  · rename_i he; exact ⟨Or.inl rfl, by simp [he]⟩
  · rename_i he; exact ⟨Or.inr rfl, by simp only [Int.reduceEq, false_iff]; exact fun hh => he hh.symm⟩

/-- **C34.** Unwrapping inverts wrapping: for all KEKs, UKMs and keys, and all contexts with the same substitution. -/
theorem C34_unwrap_wrap (c d : Ctx) (hcd : c.box = d.box) (kek ukm cek : Bytes) (hk : kek.length = 32) (hu : ukm.length = 8)
    (hc : cek.length = 32) :
    (keyUnwrapCryptoPro d kek (keyWrapCryptoPro c kek ukm cek).2).2 = (cek, 1) := by
  rw [C34_wrap_is_rfc4357 c kek ukm cek hk hu hc, hcd]
  have hE : ∀ b : Bytes, b.length = 8 → D89 d.box (KeyWrap.diversify (E89 d.box) kek ukm)
      (E89 d.box (KeyWrap.diversify (E89 d.box) kek ukm) b) = b := fun b hb => D89_E89 _ _ _ hb
  have hbl := blocks_all_length 8 (by decide) cek (by rw [hc]; decide)
  have hel : ∀ x ∈ (blocks 8 cek).map (E89 d.box (KeyWrap.diversify (E89 d.box) kek ukm)), x.length = 8 := by
    intro x hx
    obtain ⟨y, -, rfl⟩ := List.mem_map.mp hx
    exact E89_length _ _ _
  have hecb : (ecb 8 (E89 d.box (KeyWrap.diversify (E89 d.box) kek ukm)) cek).length = 32 := by
    rw [← hc]; exact ecb_len8 _ (fun b => E89_length _ _ b) _ (by rw [hc]; decide)
  have hmac : (KeyWrap.mac (E89 d.box) (M89 d.box) kek ukm cek).length = 4 := wrap_mac_len _ _ _ _ hu
  generalize hw : KeyWrap.wrap (E89 d.box) (M89 d.box) kek ukm cek = w
  have hwl : w.length = 44 := by rw [← hw, KeyWrap.wrap]; simp only [List.length_append]; omega
  have e1 : w.take 8 = ukm := by
    rw [← hw, KeyWrap.wrap, List.append_assoc, List.take_left' hu]
  have e2 : (w.drop 8).take 32 = ecb 8 (E89 d.box (KeyWrap.diversify (E89 d.box) kek ukm)) cek := by
    rw [← hw, KeyWrap.wrap, List.append_assoc, List.drop_left' hu, List.take_left' hecb]
  have e3 : w.drop 40 = KeyWrap.mac (E89 d.box) (M89 d.box) kek ukm cek := by
    rw [← hw, KeyWrap.wrap]
    exact List.drop_left' (by simp only [List.length_append]; omega)
  obtain ⟨u1, u2⟩ := unwrap_eq d kek w hk hwl
  have hk' : (keyUnwrapCryptoPro d kek w).2.1 = cek := by
    rw [u1, e1, e2, ecb, ecb, blocks_of_flatten 8 (by decide) _ hel, List.map_map]
    have : (blocks 8 cek).map ((D89 d.box (KeyWrap.diversify (E89 d.box) kek ukm)) ∘
        (E89 d.box (KeyWrap.diversify (E89 d.box) kek ukm))) = blocks 8 cek := by
      conv => rhs; rw [← List.map_id (blocks 8 cek)]
      apply List.map_congr_left
      intro b hb
      exact hE b (hbl b hb)
    rw [this, blocks_flatten 8 (by decide)]
  rw [hk', e1, e3, if_pos rfl] at u2
  exact Prod.ext hk' u2

/-- **C34.** Consequently two different blobs that unwrap under a KEK with the same UKM carry different keys: a blob is
accepted only if it is the wrapping of the key it yields. -/
theorem C34_accepted_only_if_wrapping (c : Ctx) (kek blob : Bytes) (hk : kek.length = 32) (hb : blob.length = 44)
    (h : (keyUnwrapCryptoPro c kek blob).2.2 = 1) :
    blob = (keyWrapCryptoPro c kek (blob.take 8) (keyUnwrapCryptoPro c kek blob).2.1).2 := by
  have hl : (keyUnwrapCryptoPro c kek blob).2.1.length = 32 := by
    simp only [keyUnwrapCryptoPro]; exact gost_dec_length _ _ 4
  rw [C34_wrap_is_rfc4357 c kek _ _ hk (by simp; omega) hl, KeyWrap.wrap, ← ((C34_unwrap_iff_mac c kek blob hk hb).2.mp h),
    (unwrap_eq c kek blob hk hb).1]
  have hbl := blocks_all_length 8 (by decide) ((blob.drop 8).take 32) (by simp [hb])
  have hel : ∀ x ∈ (blocks 8 ((blob.drop 8).take 32)).map (D89 c.box (KeyWrap.diversify (E89 c.box) kek (blob.take 8))), x.length = 8 := by
    intro x hx
    obtain ⟨y, -, rfl⟩ := List.mem_map.mp hx
    exact D89_length _ _ _
  have : ecb 8 (E89 c.box (KeyWrap.diversify (E89 c.box) kek (blob.take 8))) (ecb 8 (D89 c.box
      (KeyWrap.diversify (E89 c.box) kek (blob.take 8))) ((blob.drop 8).take 32)) = (blob.drop 8).take 32 := by
    rw [ecb, ecb, blocks_of_flatten 8 (by decide) _ hel, List.map_map]
    have : (blocks 8 ((blob.drop 8).take 32)).map ((E89 c.box (KeyWrap.diversify (E89 c.box) kek (blob.take 8))) ∘
        (D89 c.box (KeyWrap.diversify (E89 c.box) kek (blob.take 8)))) = blocks 8 ((blob.drop 8).take 32) := by
      conv => rhs; rw [← List.map_id (blocks 8 ((blob.drop 8).take 32))]
      apply List.map_congr_left
      intro b hb
      exact E89_D89 _ _ b (hbl b hb)
    rw [this, blocks_flatten 8 (by decide)]
  rw [this]
  conv => lhs; rw [← List.take_append_drop 40 blob]
  congr 1
  conv => lhs; rw [← List.take_append_drop 8 (blob.take 40)]
  rw [List.take_take, List.drop_take]
  rfl

/-- Witness: a concrete wrap and unwrap evaluated by the kernel, and rejection of a flipped bit. -/
example : (keyUnwrapCryptoPro sampleCtx sampleKey (keyWrapCryptoPro sampleCtx sampleKey [1,2,3,4,5,6,7,0x80] sampleKey).2).2 =
    (sampleKey, 1) := by decide +kernel
example : (keyUnwrapCryptoPro sampleCtx sampleKey ((keyWrapCryptoPro sampleCtx sampleKey [1,2,3,4,5,6,7,0x80] sampleKey).2.set 43 0)).2.2 =
    0 := by decide +kernel

end Gost
