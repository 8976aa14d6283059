import Verif.Lemmas.MgmData

/-! # MGM: runs of calls -/

namespace Gost
open Spec

/-! ## The length block -/

theorem bswap_or_shift (x y : W64) : (BSWAP64 x >>> 32) ||| BSWAP64 y = BSWAP64 ((x <<< 32) ||| y) := by
  apply BitVec.eq_of_getLsbD_eq
  intro i hi
  interval_cases i <;> simp [BSWAP64, BitVec.getLsbD_of_ge]

theorem beBytes_split4 (x y : Nat) (hy : y < 2^32) :
    beBytes 8 (x * 2^32 + y) = beBytes 4 x ++ beBytes 4 y := by
  have h8 : ∀ n, beBytes 8 n = [BitVec.ofNat 8 (n/256/256/256/256/256/256/256), BitVec.ofNat 8 (n/256/256/256/256/256/256),
    BitVec.ofNat 8 (n/256/256/256/256/256), BitVec.ofNat 8 (n/256/256/256/256), BitVec.ofNat 8 (n/256/256/256),
    BitVec.ofNat 8 (n/256/256), BitVec.ofNat 8 (n/256), BitVec.ofNat 8 n] := fun n => rfl
  have h4 : ∀ n, beBytes 4 n = [BitVec.ofNat 8 (n/256/256/256),
    BitVec.ofNat 8 (n/256/256), BitVec.ofNat 8 (n/256), BitVec.ofNat 8 n] := fun n => rfl
  rw [h8, h4, h4]
  simp only [List.cons_append, List.nil_append, List.cons.injEq, and_true]
  refine ⟨?_, ?_, ?_, ?_, ?_, ?_, ?_, ?_⟩ <;> apply BitVec.eq_of_toNat_eq <;> simp only [BitVec.toNat_ofNat] <;> omega

theorem shl3_toNat (a : Nat) (h : a < 2^61) : (BitVec.ofNat 64 a <<< 3 : W64).toNat = 8 * a := by
  rw [BitVec.toNat_shiftLeft, BitVec.toNat_ofNat, Nat.shiftLeft_eq]; omega

/-- The block of lengths is the standard's, as long as the lengths fit. -/
theorem lenBlock_eq (bl : Nat) (hbl : bl = 8 ∨ bl = 16) (a m : Nat) (ha : a < 2^(bl * 4 - 3)) (hm : m < 2^(bl * 4 - 3)) :
    mgmLenBlock bl a m = lenBlock bl a m := by
  rcases hbl with rfl | rfl
  · have ha : a < 2^29 := ha
    have hm : m < 2^29 := hm
    unfold mgmLenBlock lenBlock
    simp only [show ¬ (8 = 16) by decide, if_false]
    rw [bswap_or_shift, bswap_st, show 8 / 2 = 4 from rfl, ← beBytes_split4 _ _ (by omega)]
    congr 1
    rw [BitVec.toNat_or, BitVec.toNat_shiftLeft, shl3_toNat _ (by omega), shl3_toNat _ (by omega), Nat.shiftLeft_eq,
      Nat.mod_eq_of_lt (by omega), ← Nat.shiftLeft_eq, ← Nat.shiftLeft_add_eq_or_of_lt (by omega), Nat.shiftLeft_eq]
  · have ha : a < 2^61 := ha
    have hm : m < 2^61 := hm
    unfold mgmLenBlock lenBlock
    simp only [if_true]
    rw [bswap_st, bswap_st, shl3_toNat _ (by omega), shl3_toNat _ (by omega)]

theorem aad_iff (bl lenA len : Nat) (h64 : 2^(bl * 4 - 3) < 2^63) (ha : lenA ≤ 2^(bl * 4 - 3)) (hl : len < 2^64) :
    ((lenA + len) % 2^64 > 2^(bl * 4 - 3) ∨ (lenA + len) % 2^64 < len) ↔ lenA + len > 2^(bl * 4 - 3) := by
  generalize 2^(bl * 4 - 3) = L at *
  by_cases hw : lenA + len < 2^64
  · rw [Nat.mod_eq_of_lt hw]; omega
  · omega

/-! ## States reached by calls -/

section
variable (E : Bytes → Bytes) (M : Bytes → Bytes → Bytes) (bl : Nat)

/-- What a context looks like after associated data `a` and message input `p` were accepted. -/
def St (enc : Bool) (n z a p : Bytes) (c : Mgm) : Prop :=
  z.length = bl ∧ (a = [] ∨ z = E (nonce1 n)) ∧ a.length + p.length ≤ 2^(bl * 4 - 3) ∧
  (p = [] ∧ AInv E M bl n z a c ∨ p ≠ [] ∧ MInv E M bl enc n z a p c ∧ (enc = true → z = E (nonce1 n)))

/-- Which associated data are accepted. -/
def accA (a p d : Bytes) : Bool := p = [] ∧ a.length + d.length ≤ 2^(bl * 4 - 3)

/-- Which message data are accepted. -/
def accM (a p d : Bytes) : Bool := a.length + p.length + d.length ≤ 2^(bl * 4 - 3)

theorem aad_reject_inv (n z a : Bytes) (c : Mgm) (h : AInv E M bl n z a c) (hz : a = [] ∨ z = E (nonce1 n)) (d : Bytes)
    (h64 : 2^(bl * 4 - 3) < 2^63) (hl : a.length + d.length > 2^(bl * 4 - 3)) (ha : a.length ≤ 2^(bl * 4 - 3)) (hd : d.length < 2^64) :
    (gost_mgm128_aad E M bl c d).2 = -1 ∧ AInv E M bl n (E (nonce1 n)) a (gost_mgm128_aad E M bl c d).1 := by
  unfold gost_mgm128_aad
  rw [if_neg (by simp [h.lenM])]
  obtain ⟨c1, hc1, i1⟩ : ∃ c1 : Mgm,
      (if c.lenA = 0 then { c with nonce := setTop c.nonce, Zi := E (setTop c.nonce) } else c) = c1 ∧
      AInv E M bl n (E (nonce1 n)) a c1 := by
    refine ⟨_, rfl, ?_⟩
    obtain ⟨a1, a2, a3, a4, a5, bs, r, b1, b2, b3, b4, b5, b6⟩ := h
    by_cases h0 : c.lenA = 0
    · rw [if_pos h0]
      have ha0 : a = [] := List.length_eq_zero_iff.mp (by omega)
      have hr0 : r = [] := by rw [ha0] at b1; simp at b1; exact b1.2
      have hbs0 : bs = [] := by
        rw [ha0, hr0] at b1; simp at b1
        cases bs with
        | nil => rfl
        | cons x bs => have := b2 x (by simp); have := b1 x (by simp); simp_all
      simp only [setTop_eq, a1.2]
      refine ⟨⟨nonce0_1 n, nonce1_1 n⟩, by rw [ha0]; exact h0, a3, a4, a5, bs, r, b1, b2, b3, ?_, b5, b6⟩
      subst hbs0
      exact ⟨rfl, b4.2⟩
    · rw [if_neg h0]
      have : z = E (nonce1 n) := by
        rcases hz with h | h
        · rw [h] at a2; simp at a2; omega
        · exact h
      subst this
      exact ⟨a1, a2, a3, a4, a5, bs, r, b1, b2, b3, b4, b5, b6⟩
  rw [hc1]
  simp only
  rw [if_pos (by rw [aad_iff bl _ _ h64 (by rw [i1.lenA]; omega) hd, i1.lenA]; omega)]
  exact ⟨rfl, i1⟩

/-- A call with associated data. -/
theorem aad_step (hb : 0 < bl) (hE : ∀ b, (E b).length = bl) (h64 : 2^(bl * 4 - 3) < 2^63) (enc : Bool) (n z a p : Bytes)
    (c : Mgm) (h : St E M bl enc n z a p c) (d : Bytes) (hd : d.length < 2^64) :
    ((gost_mgm128_aad E M bl c d).2 = 0 ↔ accA bl a p d = true) ∧
    St E M bl enc n (if p = [] then E (nonce1 n) else z) (if accA bl a p d then a ++ d else a) p (gost_mgm128_aad E M bl c d).1 ∧
    (p ≠ [] → (gost_mgm128_aad E M bl c d).1 = c) := by
  obtain ⟨h1, h2, h3, h4⟩ := h
  rcases h4 with ⟨hp, h4⟩ | ⟨hp, h4, h5⟩
  · subst hp
    simp only [List.length_nil, Nat.add_zero] at h3
    by_cases hacc : accA bl a [] d
    · have hl : a.length + d.length ≤ 2^(bl * 4 - 3) := by simpa [accA] using hacc
      obtain ⟨s1, s2⟩ := aad_inv E M bl hb hE n z a c h4 h2 d hl (by omega)
      rw [if_pos rfl, if_pos hacc]
      exact ⟨by rw [s1, hacc]; simp, ⟨hE _, Or.inr rfl, by simpa using hl, Or.inl ⟨rfl, s2⟩⟩, by simp⟩
    · have hl : a.length + d.length > 2^(bl * 4 - 3) := by simpa [accA] using hacc
      obtain ⟨s1, s2⟩ := aad_reject_inv E M bl n z a c h4 h2 d h64 hl h3 hd
      rw [if_pos rfl, if_neg hacc]
      refine ⟨?_, ⟨hE _, Or.inr rfl, by simpa using h3, Or.inl ⟨rfl, s2⟩⟩, by simp⟩
      rw [s1]
      exact ⟨fun h => absurd h (by decide), fun h => absurd h hacc⟩
  · have hlen : c.lenM ≠ 0 := by rw [h4.lenM]; intro h; exact hp (List.length_eq_zero_iff.mp h)
    have hr : gost_mgm128_aad E M bl c d = (c, -2) := by unfold gost_mgm128_aad; rw [if_pos hlen]
    have hacc : accA bl a p d = false := by simp [accA, hp]
    rw [hr, hacc, if_neg hp]
    exact ⟨⟨fun h => absurd (show (-2 : Int) = 0 from h) (by decide), fun h => absurd h (by simp)⟩,
      ⟨h1, h2, h3, Or.inr ⟨hp, h4, h5⟩⟩, fun _ => rfl⟩

/-- A call with message data: encryption or decryption. -/
def dataCall (enc : Bool) (c : Mgm) (d : Bytes) : Mgm × Bytes × Int :=
  if enc then gost_mgm128_encrypt E M bl c d else gost_mgm128_decrypt E M bl c d

theorem encStart_inv (n z a : Bytes) (c : Mgm) (h : AInv E M bl n z a c) (hz : a = [] ∨ z = E (nonce1 n)) :
    AInv E M bl n (E (nonce1 n)) a (mgmEncStart E c) := by
  unfold mgmEncStart
  rw [if_pos h.lenM]
  obtain ⟨a1, a2, a3, a4, a5, bs, r, b1, b2, b3, b4, b5, b6⟩ := h
  by_cases h0 : c.lenA = 0
  · rw [if_pos h0]
    have ha0 : a = [] := List.length_eq_zero_iff.mp (by omega)
    have hr0 : r = [] := by rw [ha0] at b1; simp at b1; exact b1.2
    have hbs0 : bs = [] := by
      rw [ha0, hr0] at b1; simp at b1
      cases bs with
      | nil => rfl
      | cons x bs => have := b2 x (by simp); have := b1 x (by simp); simp_all
    simp only [clrTop_eq, setTop_eq, a1.2, nonce0_1]
    refine ⟨⟨nonce0_0 n, nonce1_0 n⟩, by rw [ha0]; exact h0, a3, a4, a5, bs, r, b1, b2, b3, ?_, b5, b6⟩
    subst hbs0
    exact ⟨rfl, b4.2⟩
  · rw [if_neg h0]
    have : z = E (nonce1 n) := by
      rcases hz with h | h
      · rw [h] at a2; simp at a2; omega
      · exact h
    subst this
    simp only [clrTop_eq, a1.1]
    exact ⟨⟨nonce0_0 n, nonce1_0 n⟩, a2, a3, a4, a5, bs, r, b1, b2, b3, b4, b5, b6⟩

theorem decStart_inv (n z a : Bytes) (c : Mgm) (h : AInv E M bl n z a c) : AInv E M bl n z a (mgmDecStart E c) := by
  unfold mgmDecStart
  rw [if_pos h.lenM]
  obtain ⟨a1, a2, a3, a4, a5, a6⟩ := h
  refine ⟨?_, a2, a3, a4, a5, a6⟩
  simp only [clrTop_eq, a1.1]
  exact ⟨nonce0_0 n, nonce1_0 n⟩

/-- The starting value of the authentication counter after a data call. -/
def zData (enc : Bool) (n z p : Bytes) : Bytes := if enc = true ∧ p = [] then E (nonce1 n) else z

theorem data_step (hb : 0 < bl) (he : bl % 2 = 0) (hE : ∀ b, (E b).length = bl) (h64 : 2^(bl * 4 - 3) < 2^63) (enc : Bool)
    (n z a p : Bytes) (c : Mgm) (h : St E M bl enc n z a p c) (d : Bytes) (hd : d.length < 2^64) (hne : d ≠ []) :
    ((dataCall E M bl enc c d).2.2 = 0 ↔ accM bl a p d = true) ∧
    St E M bl enc n (zData E enc n z p) a (if accM bl a p d then p ++ d else p) (dataCall E M bl enc c d).1 ∧
    mgmCrypt bl E n (if accM bl a p d then p ++ d else p) = mgmCrypt bl E n p ++ (dataCall E M bl enc c d).2.1 ∧
    (p ≠ [] → accM bl a p d = false → (dataCall E M bl enc c d).1 = c) := by
  obtain ⟨h1, h2, h3, h4⟩ := h
  by_cases hacc : accM bl a p d
  · have hl : a.length + p.length + d.length ≤ 2^(bl * 4 - 3) := by simpa [accM] using hacc
    have hpd : p ++ d ≠ [] := by simp [hne]
    have hlen : a.length + (p ++ d).length ≤ 2^(bl * 4 - 3) := by simpa [Nat.add_assoc] using hl
    rw [if_pos hacc, hacc]
    rcases h4 with ⟨hp, h4⟩ | ⟨hp, h4, h5⟩
    · subst hp
      cases enc with
      | true =>
        obtain ⟨s1, s2, s3⟩ := encrypt_first E M bl hb he hE n z a c h4 h2 d h64 (by simpa using hl)
        refine ⟨by simp [dataCall, s1], ⟨?_, ?_, hlen, Or.inr ⟨hpd, ?_, ?_⟩⟩, ?_, by simp⟩
        · simp [zData, hE]
        · simp [zData]
        · simpa [zData, dataCall] using s3
        · simp [zData]
        · simp [dataCall, s2, mgmCrypt_nil]
      | false =>
        obtain ⟨s1, s2, s3⟩ := decrypt_first E M bl hb he hE n z a h1 c h4 d h64 (by simpa using hl)
        refine ⟨by simp [dataCall, s1], ⟨?_, ?_, hlen, Or.inr ⟨hpd, ?_, ?_⟩⟩, ?_, by simp⟩
        · simpa [zData] using h1
        · simpa [zData] using h2
        · simpa [zData, dataCall] using s3
        · simp
        · simp [dataCall, s2, mgmCrypt_nil]
    · cases enc with
      | true =>
        have hz := h5 rfl
        subst hz
        obtain ⟨s1, s2, s3⟩ := encrypt_next E M bl hb he hE n a p c h4 d h64 hl
        refine ⟨by simp [dataCall, s1], ⟨?_, ?_, hlen, Or.inr ⟨hpd, ?_, ?_⟩⟩, ?_, by simp⟩
        · simp [zData, hE]
        · simp [zData]
        · simpa [zData, dataCall] using s3
        · simp [zData]
        · simp [dataCall, s2]
      | false =>
        obtain ⟨s1, s2, s3⟩ := decrypt_next E M bl hb he hE n z a p h1 c h4 d h64 hl
        refine ⟨by simp [dataCall, s1], ⟨?_, ?_, hlen, Or.inr ⟨hpd, ?_, ?_⟩⟩, ?_, by simp⟩
        · simpa [zData] using h1
        · simpa [zData] using h2
        · simpa [zData, dataCall] using s3
        · simp
        · simp [dataCall, s2]
  · have hl : a.length + p.length + d.length > 2^(bl * 4 - 3) := by simpa [accM] using hacc
    rw [if_neg hacc]
    have haccf : accM bl a p d = false := by simpa using hacc
    -- the call stops after the start values
    have hstop : ∀ c1 : Mgm, c1.lenA = a.length → c1.lenM = p.length →
        mgmTooLong bl c1.lenA ((c1.lenM + d.length) % 2^64) d.length := by
      intro c1 e1 e2
      rw [e1, e2, toolong_iff bl _ _ _ h64 (by omega) (by omega) hd]
      omega
    have hcall : dataCall E M bl enc c d = ((if enc then mgmEncStart E c else mgmDecStart E c), [], -1) := by
      have hA : c.lenA = a.length := by
        rcases h4 with ⟨_, h4⟩ | ⟨_, h4, _⟩
        · exact h4.lenA
        · exact h4.lenA
      have hM : c.lenM = p.length := by
        rcases h4 with ⟨hp, h4⟩ | ⟨_, h4, _⟩
        · rw [h4.lenM, hp]; rfl
        · exact h4.lenM
      cases enc with
      | true =>
        unfold dataCall gost_mgm128_encrypt
        simp only [if_true]
        rw [if_pos]
        apply hstop
        · rw [← hA]; unfold mgmEncStart; split_ifs <;> rfl
        · rw [← hM]; unfold mgmEncStart; split_ifs <;> rfl
      | false =>
        unfold dataCall gost_mgm128_decrypt
        simp only [Bool.false_eq_true, if_false]
        rw [if_pos]
        apply hstop
        · rw [← hA]; unfold mgmDecStart; split_ifs <;> rfl
        · rw [← hM]; unfold mgmDecStart; split_ifs <;> rfl
    rw [hcall]
    refine ⟨?_, ?_, by simp, ?_⟩
    · rw [haccf]; exact ⟨fun h => absurd (show (-1 : Int) = 0 from h) (by decide), fun h => absurd h (by simp)⟩
    · rcases h4 with ⟨hp, h4⟩ | ⟨hp, h4, h5⟩
      · subst hp
        cases enc with
        | true =>
          refine ⟨by simp [zData, hE], by simp [zData], h3, Or.inl ⟨rfl, ?_⟩⟩
          simpa [zData] using encStart_inv E M bl n z a c h4 h2
        | false =>
          refine ⟨by simpa [zData] using h1, by simpa [zData] using h2, h3, Or.inl ⟨rfl, ?_⟩⟩
          simpa [zData] using decStart_inv E M bl n z a c h4
      · have hlen : c.lenM ≠ 0 := by rw [h4.lenM]; intro h; exact hp (List.length_eq_zero_iff.mp h)
        have hc : (if enc = true then mgmEncStart E c else mgmDecStart E c) = c := by
          cases enc <;> simp [mgmEncStart, mgmDecStart, hlen]
        have hzd : zData E enc n z p = z := by simp [zData, hp]
        rw [hc, hzd]
        exact ⟨h1, h2, h3, Or.inr ⟨hp, h4, h5⟩⟩
    · intro hp _
      rcases h4 with ⟨hp', _⟩ | ⟨_, h4, _⟩
      · exact absurd hp' hp
      · have hlen : c.lenM ≠ 0 := by rw [h4.lenM]; intro h; exact hp (List.length_eq_zero_iff.mp h)
        cases enc <;> simp [mgmEncStart, mgmDecStart, hlen]

/-- The tag in such a state. -/
theorem st_tag (hb : 0 < bl) (enc : Bool) (n z a p : Bytes) (c : Mgm) (h : St E M bl enc n z a p c)
    (hlb : mgmLenBlock bl a.length p.length = lenBlock bl a.length p.length) :
    (mgmFinal E M bl c).tag = mgmTagFrom bl E M z a (absorbed E bl enc n p) := by
  obtain ⟨h1, h2, h3, h4⟩ := h
  rcases h4 with ⟨hp, h4⟩ | ⟨hp, h4, h5⟩
  · subst hp
    rw [show absorbed E bl enc n [] = [] by cases enc <;> rfl]
    exact final_ainv E M bl hb n z a h1 c h4 hlb
  · exact final_minv E M bl hb enc n z a p h1 c h4 hlb

/-- With nothing authenticated the starting value does not matter (the length block is zero). -/
theorem tag_empty (hM : ∀ b, M (E b) (zeros bl) = zeros bl) (hbl : bl = 8 ∨ bl = 16) (z z' : Bytes) :
    mgmTagFrom bl E M z [] [] = mgmTagFrom bl E M z' [] [] := by
  have hp0 : padBlocks bl [] = [] := by unfold padBlocks; rw [blocks_nil]; rfl
  have hl : lenBlock bl 0 0 = zeros bl := by rcases hbl with rfl | rfl <;> decide +kernel
  unfold mgmTagFrom
  rw [hp0]
  simp only [List.nil_append, List.length_nil]
  rw [hl]
  unfold mgmSum mgmH
  simp [hM]

end

/-! ## The EVP ciphers -/

/-- What is used of the block ciphers and the multiplication. -/
structure MgmOk (alg : MgmAlg) (E : Bytes → Bytes → Bytes) : Prop where
  keyed : ∀ ks key, key.length = 32 → alg.block (alg.setKey ks key) = E key
  len : ∀ key b, (E key b).length = alg.bl
  mul0 : ∀ h, h.length = alg.bl → alg.mul h (zeros alg.bl) = zeros alg.bl
  bl_ok : alg.bl = 8 ∨ alg.bl = 16

end Gost
