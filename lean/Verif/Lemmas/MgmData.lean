import Verif.Lemmas.Mgm

/-! # MGM: the message part and the tag -/

namespace Gost
open Spec

section
variable (E : Bytes → Bytes) (M : Bytes → Bytes → Bytes) (bl : Nat)

/-- What the authentication part absorbs for the input `i`: the ciphertext. -/
def absorbed (enc : Bool) (n i : Bytes) : Bytes := if enc then mgmCrypt bl E n i else i

theorem absorbed_length (enc : Bool) (n i : Bytes) : (absorbed E bl enc n i).length = i.length := by
  unfold absorbed mgmCrypt
  cases enc <;> simp [xorStream]

/-- The message part of the context after input `i`. -/
def MCore (enc : Bool) (n z a i : Bytes) (c : Mgm) : Prop :=
  c.ACi.length = bl ∧
  ∃ (cs : List Bytes) (r : Bytes), absorbed E bl enc n i = cs.flatten ++ r ∧ (∀ b ∈ cs, b.length = bl) ∧ r.length < bl ∧
    Acc E M bl z (padBlocks bl a ++ cs) c ∧ c.mres = r.length ∧ c.ACi.take r.length = r ∧
    c.Yi = iter (incrR bl) (cs.length + (if r = [] then 0 else 1)) (E (nonce0 n)) ∧
    (r ≠ [] → c.EKi = mgmGamma bl E n cs.length)

/-- The fields the message loop does not touch. -/
def Frame2 (c c' : Mgm) : Prop := c'.nonce = c.nonce ∧ c'.lenA = c.lenA ∧ c'.lenM = c.lenM ∧ c'.ares = c.ares

theorem take_set_succ (aci r : Bytes) (x : Byte) (h : r.length < aci.length) (ht : aci.take r.length = r) :
    (aci.set r.length x).take (r.length + 1) = r ++ [x] := by
  apply List.ext_getElem
  · simp; omega
  · intro i h1 h2
    rw [List.getElem_take, List.getElem_set, List.getElem_append]
    simp at h1 h2
    by_cases hi : i = r.length
    · subst hi; simp
    · simp only [show ¬ (r.length = i) by omega, if_false]
      rw [dif_pos (by omega)]
      have h3 : (aci.take r.length)[i]? = r[i]? := by rw [ht]
      rw [List.getElem?_take_of_lt (by omega), List.getElem?_eq_getElem (by omega), List.getElem?_eq_getElem (by omega)] at h3
      exact Option.some.inj h3

theorem flatten_len {bl : Nat} (cs : List Bytes) (h : ∀ b ∈ cs, b.length = bl) : cs.flatten.length = cs.length * bl := by
  induction cs with
  | nil => simp
  | cons b cs ih =>
    rw [List.flatten_cons, List.length_append, h b (by simp), ih fun b hb => h b (by simp [hb]), List.length_cons, Nat.succ_mul]
    omega

theorem mgmByte_core (hb : 0 < bl) (he : bl % 2 = 0) (hE : ∀ b, (E b).length = bl) (enc : Bool) (n z a i : Bytes)
    (hz : z.length = bl) (c : Mgm) (h : MCore E M bl enc n z a i c) (x : Byte) :
    MCore E M bl enc n z a (i ++ [x]) (mgmByte E M bl enc c x).1 ∧ Frame2 c (mgmByte E M bl enc c x).1 ∧
    (mgmByte E M bl enc c x).2 = x ^^^ at_ (mgmGamma bl E n (i.length / bl)) (i.length % bl) := by
  obtain ⟨h1, cs, r, h2, h3, h4, h5, h6, h7, h8, h9⟩ := h
  have hlen : i.length = cs.length * bl + r.length := by
    rw [← absorbed_length E bl enc n i, h2, List.length_append, flatten_len cs h3]
  have hdiv : i.length / bl = cs.length := by
    rw [hlen, Nat.add_comm, Nat.add_mul_div_right _ _ hb, Nat.div_eq_of_lt h4]; omega
  have hmod : i.length % bl = r.length := by
    rw [hlen, Nat.add_comm, Nat.add_mul_mod_self_right, Nat.mod_eq_of_lt h4]
  -- after the gamma block is there
  obtain ⟨c1, hc1, g1, g2, g3, g4, g5, g6, g7⟩ : ∃ c1 : Mgm,
      (if c.mres = 0 then
        { c with EKi := E c.Yi, Yi := c.Yi.take (bl / 2) ++ inc_counter (c.Yi.drop (bl / 2)) (bl / 2) } else c) = c1 ∧
      c1.EKi = mgmGamma bl E n cs.length ∧ c1.Yi = iter (incrR bl) (cs.length + 1) (E (nonce0 n)) ∧
      c1.ACi = c.ACi ∧ Acc E M bl z (padBlocks bl a ++ cs) c1 ∧ c1.mres = c.mres ∧ c1.ACi.take r.length = r ∧ Frame2 c c1 := by
    refine ⟨_, rfl, ?_⟩
    by_cases hr : r = []
    · subst hr
      rw [if_pos (by rw [h6]; rfl)]
      simp only [if_true, Nat.add_zero] at h8
      refine ⟨?_, ?_, rfl, h5, rfl, h7, ⟨rfl, rfl, rfl, rfl⟩⟩
      · show E c.Yi = _
        rw [h8]; rfl
      · show c.Yi.take (bl / 2) ++ inc_counter (c.Yi.drop (bl / 2)) (bl / 2) = _
        rw [inc_right _ _ _ he, h8, iter_succ_out]
        rw [h8]; exact iter_len (fun z hz => incrR_length bl z hz he) _ _ (hE _)
    · rw [if_neg (by rw [h6]; intro h; exact hr (List.length_eq_zero_iff.mp h))]
      rw [if_neg hr] at h8
      exact ⟨h9 hr, h8, rfl, h5, rfl, h7, ⟨rfl, rfl, rfl, rfl⟩⟩
  unfold mgmByte
  simp only
  rw [hc1, hdiv, hmod]
  simp only [g1, h6]
  clear hc1
  -- the ciphertext byte
  generalize hy : x ^^^ at_ (mgmGamma bl E n cs.length) r.length = y
  have habs : absorbed E bl enc n (i ++ [x]) = cs.flatten ++ (r ++ [if enc then y else x]) := by
    rw [← List.append_assoc, ← h2]
    unfold absorbed
    cases enc with
    | false => rfl
    | true =>
      simp only [if_true]
      unfold mgmCrypt
      rw [xorStream_concat, hdiv, hmod, hy]
  generalize (if enc = true then y else x) = w at *
  have hset := take_set_succ c1.ACi r w (by rw [g3]; omega) g6
  by_cases hlast : r.length + 1 = bl
  · rw [hlast, Nat.mod_self]
    simp only [if_true]
    refine ⟨⟨?_, cs ++ [r ++ [w]], [], ?_, ?_, hb, ?_, rfl, rfl, ?_, by simp⟩, g7, trivial⟩
    · show (c1.ACi.set r.length w).length = bl
      rw [List.length_set, g3, h1]
    · rw [habs]; simp
    · intro b hbm
      rcases List.mem_append.mp hbm with h | h
      · exact h3 b h
      · simp at h; rw [h]; simp [hlast]
    · rw [← List.append_assoc]
      have hfull : c1.ACi.set r.length w = r ++ [w] := by
        rw [← hset, List.take_of_length_le (by rw [List.length_set, g3]; omega)]
      rw [← hfull]
      exact absorb_acc E M bl z hz _ { c1 with ACi := c1.ACi.set r.length w, mres := 0 } g4 _
    · show c1.Yi = _
      rw [g2]; simp
  · have hm : (r.length + 1) % bl = r.length + 1 := Nat.mod_eq_of_lt (by omega)
    rw [hm, if_neg (by omega)]
    refine ⟨⟨?_, cs, r ++ [w], habs, h3, by simp; omega, g4, by simp, ?_, ?_, ?_⟩, g7, trivial⟩
    · show (c1.ACi.set r.length w).length = bl
      rw [List.length_set, g3, h1]
    · simpa using hset
    · show c1.Yi = _
      rw [g2]; simp
    · intro _; rfl

theorem mgmBytes_core (hb : 0 < bl) (he : bl % 2 = 0) (hE : ∀ b, (E b).length = bl) (enc : Bool) (n z a i d : Bytes)
    (hz : z.length = bl) (c : Mgm) (h : MCore E M bl enc n z a i c) :
    MCore E M bl enc n z a (i ++ d) (mgmBytes E M bl enc c d).1 ∧ Frame2 c (mgmBytes E M bl enc c d).1 ∧
    mgmCrypt bl E n (i ++ d) = mgmCrypt bl E n i ++ (mgmBytes E M bl enc c d).2 := by
  induction d generalizing c i with
  | nil => exact ⟨by rw [mgmBytes, List.append_nil]; exact h, ⟨rfl, rfl, rfl, rfl⟩, by simp [mgmBytes]⟩
  | cons x d ih =>
    obtain ⟨s1, s2, s3⟩ := mgmByte_core E M bl hb he hE enc n z a i hz c h x
    obtain ⟨t1, t2, t3⟩ := ih (i ++ [x]) _ s1
    rw [mgmBytes]
    simp only
    refine ⟨by simpa using t1, ?_, ?_⟩
    · obtain ⟨a1, a2, a3, a4⟩ := s2
      obtain ⟨b1, b2, b3, b4⟩ := t2
      exact ⟨b1.trans a1, b2.trans a2, b3.trans a3, b4.trans a4⟩
    · rw [show i ++ x :: d = i ++ [x] ++ d by simp, t3]
      unfold mgmCrypt
      rw [xorStream_concat, s3]; simp

/-- The state after associated data `a` and message input `i`. -/
structure MInv (enc : Bool) (n z a i : Bytes) (c : Mgm) : Prop where
  nonce : SameNonce c n
  lenA : c.lenA = a.length
  lenM : c.lenM = i.length
  ares : c.ares = 0
  core : MCore E M bl enc n z a i c

theorem closeAad_inv (hb : 0 < bl) (n z a : Bytes) (hz : z.length = bl) (c : Mgm) (m : Nat) (h : AInv E M bl n z a { c with lenM := 0 })
    (hm : c.lenM = m) :
    SameNonce (mgmCloseAad E M bl c) n ∧ (mgmCloseAad E M bl c).lenA = a.length ∧ (mgmCloseAad E M bl c).lenM = m ∧
    (mgmCloseAad E M bl c).ares = 0 ∧ (mgmCloseAad E M bl c).mres = 0 ∧ (mgmCloseAad E M bl c).ACi.length = bl ∧
    (mgmCloseAad E M bl c).Yi = c.Yi ∧ Acc E M bl z (padBlocks bl a) (mgmCloseAad E M bl c) := by
  obtain ⟨a1, a2, a3, a4, a5, bs, r, b1, b2, b3, b4, b5, b6⟩ := h
  simp only at a2 a3 a4 a5 b5 b6
  have hp := padBlocks_flatten bl hb bs b2 r b3
  unfold mgmCloseAad
  by_cases hr : r = []
  · subst hr
    rw [if_neg (by simp [b5])]
    rw [if_pos rfl, List.append_nil bs] at hp
    refine ⟨a1, a2, hm, b5, a4, a5, rfl, ?_⟩
    rw [b1, hp]; exact b4
  · have hne : c.ares ≠ 0 := by rw [b5]; intro h; exact hr (List.length_eq_zero_iff.mp h)
    rw [if_pos hne]
    rw [if_neg hr] at hp
    rw [b5, b6]
    refine ⟨a1, a2, hm, rfl, a4, ?_, rfl, ?_⟩
    · show (r ++ zeros (bl - r.length)).length = bl
      simp [zeros]; omega
    · rw [b1, hp]
      exact absorb_acc E M bl z hz bs { c with ACi := r ++ zeros (bl - r.length) } b4 _

theorem toolong_iff (alen m len : Nat) (h64 : 2^(bl * 4 - 3) < 2^63) (ha : alen ≤ 2^(bl * 4 - 3)) (hm : m ≤ 2^(bl*4-3))
    (hl : len < 2^64) :
    mgmTooLong bl alen ((m + len) % 2^64) len ↔ alen + m + len > 2^(bl * 4 - 3) := by
  unfold mgmTooLong
  generalize 2^(bl * 4 - 3) = L at *
  constructor
  · intro h
    by_contra hn
    rw [Nat.mod_eq_of_lt (show m + len < 2^64 by omega)] at h
    rcases h with h | h | h
    · omega
    · omega
    · rw [Nat.mod_eq_of_lt (by omega)] at h; omega
  · intro h
    by_cases hw : m + len < 2^64
    · rw [Nat.mod_eq_of_lt hw]
      by_cases h1 : m + len > L
      · exact Or.inl h1
      · right; right
        rw [Nat.mod_eq_of_lt (by omega)]; omega
    · right; left
      omega

theorem start_core (n z a : Bytes) (enc : Bool) (c : Mgm) (hb : 0 < bl) (h1 : c.mres = 0) (h2 : c.ACi.length = bl)
    (h3 : c.Yi = E (nonce0 n)) (h4 : Acc E M bl z (padBlocks bl a) c) : MCore E M bl enc n z a [] c := by
  refine ⟨h2, [], [], ?_, by simp, hb, by simpa using h4, h1, rfl, ?_, by simp⟩
  · cases enc <;> rfl
  · rw [h3]; rfl

/-- The part common to encryption and decryption once the start values are set. -/
theorem data_run (hb : 0 < bl) (he : bl % 2 = 0) (hE : ∀ b, (E b).length = bl) (enc : Bool) (n z a i d : Bytes) (hz : z.length = bl)
    (c : Mgm) (h : SameNonce c n) (h1 : c.lenA = a.length) (h2 : c.lenM = (i ++ d).length) (h3 : c.ares = 0)
    (h4 : MCore E M bl enc n z a i c) :
    MInv E M bl enc n z a (i ++ d) (mgmBytes E M bl enc { c with mres := c.mres % bl } d).1 ∧
    mgmCrypt bl E n (i ++ d) = mgmCrypt bl E n i ++ (mgmBytes E M bl enc { c with mres := c.mres % bl } d).2 := by
  have hm : ({ c with mres := c.mres % bl } : Mgm) = c := by
    obtain ⟨_, cs, r, _, _, h5, _, h6, _⟩ := h4
    rw [Nat.mod_eq_of_lt (by omega)]
  rw [hm]
  obtain ⟨s1, ⟨s2, s3, s4, s5⟩, s6⟩ := mgmBytes_core E M bl hb he hE enc n z a i d hz c h4
  exact ⟨⟨by unfold SameNonce at *; rw [s2]; exact h, s3.trans h1, s4.trans h2, s5.trans h3, s1⟩, s6⟩

theorem mgmCrypt_nil (n : Bytes) : mgmCrypt bl E n [] = [] := rfl

/-- First accepted encryption call. -/
theorem encrypt_first (hb : 0 < bl) (he : bl % 2 = 0) (hE : ∀ b, (E b).length = bl) (n z a : Bytes) (c : Mgm)
    (h : AInv E M bl n z a c) (hz : a = [] ∨ z = E (nonce1 n)) (d : Bytes) (h64 : 2^(bl * 4 - 3) < 2^63)
    (hl : a.length + d.length ≤ 2^(bl * 4 - 3)) :
    (gost_mgm128_encrypt E M bl c d).2.2 = 0 ∧ (gost_mgm128_encrypt E M bl c d).2.1 = mgmCrypt bl E n d ∧
    MInv E M bl true n (E (nonce1 n)) a d (gost_mgm128_encrypt E M bl c d).1 := by
  obtain ⟨c1, hc1, i1, i2⟩ : ∃ c1 : Mgm, mgmEncStart E c = c1 ∧
      AInv E M bl n (E (nonce1 n)) a c1 ∧ c1.Yi = E (nonce0 n) := by
    refine ⟨_, rfl, ?_⟩
    unfold mgmEncStart
    rw [if_pos h.lenM]
    obtain ⟨a1, a2, a3, a4, a5, bs, r, b1, b2, b3, b4, b5, b6⟩ := h
    by_cases h0 : c.lenA = 0
    · rw [if_pos h0]
      have ha0 : a = [] := List.length_eq_zero_iff.mp (by omega)
      have hr0 : r = [] := by rw [ha0] at b1; simp at b1; exact b1.2
      have hbs0 : bs = [] := by
        rw [ha0, hr0] at b1; simp at b1
        cases bs with
        | nil => rfl
        | cons x bs => have := b2 x (by simp); have := b1 x (by simp); simp_all
      simp only [clrTop_eq, setTop_eq, a1.2, nonce0_1]
      refine ⟨⟨⟨nonce0_0 n, nonce1_0 n⟩, by rw [ha0]; exact h0, a3, a4, a5, bs, r, b1, b2, b3, ?_, b5, b6⟩, trivial⟩
      subst hbs0
      exact ⟨rfl, b4.2⟩
    · rw [if_neg h0]
      have : z = E (nonce1 n) := by
        rcases hz with h | h
        · rw [h] at a2; simp at a2; omega
        · exact h
      subst this
      simp only [clrTop_eq, a1.1]
      exact ⟨⟨⟨nonce0_0 n, nonce1_0 n⟩, a2, a3, a4, a5, bs, r, b1, b2, b3, b4, b5, b6⟩, trivial⟩
  unfold gost_mgm128_encrypt
  simp only
  rw [hc1]
  have hlm : (c1.lenM + d.length) % 2^64 = d.length := by rw [i1.lenM, Nat.zero_add]; exact Nat.mod_eq_of_lt (by omega)
  rw [if_neg (by rw [toolong_iff bl _ _ _ h64 (by rw [i1.lenA]; omega) (by rw [i1.lenM]; omega) (by omega), i1.lenA, i1.lenM]; omega), hlm]
  obtain ⟨t1, t2, t3, t4, t5, t6, t7, t8⟩ := closeAad_inv E M bl hb n (E (nonce1 n)) a (hE _) { c1 with lenM := d.length } d.length
    ⟨i1.nonce, i1.lenA, rfl, i1.mres, i1.aci, i1.acc⟩ rfl
  obtain ⟨u1, u2⟩ := data_run E M bl hb he hE true n (E (nonce1 n)) a [] d (hE _) _ t1 t2 (by rw [t3]; simp) t4
    (start_core E M bl n _ a true _ hb t5 t6 (t7.trans i2) t8)
  refine ⟨rfl, ?_, ?_⟩
  · rw [List.nil_append, mgmCrypt_nil, List.nil_append] at u2
    exact u2.symm
  · exact u1

/-- A further accepted encryption call. -/
theorem encrypt_next (hb : 0 < bl) (he : bl % 2 = 0) (hE : ∀ b, (E b).length = bl) (n a i : Bytes) (c : Mgm)
    (h : MInv E M bl true n (E (nonce1 n)) a i c) (d : Bytes) (h64 : 2^(bl * 4 - 3) < 2^63)
    (hl : a.length + i.length + d.length ≤ 2^(bl * 4 - 3)) :
    (gost_mgm128_encrypt E M bl c d).2.2 = 0 ∧
    mgmCrypt bl E n (i ++ d) = mgmCrypt bl E n i ++ (gost_mgm128_encrypt E M bl c d).2.1 ∧
    MInv E M bl true n (E (nonce1 n)) a (i ++ d) (gost_mgm128_encrypt E M bl c d).1 := by
  obtain ⟨c1, hc1, i1⟩ : ∃ c1 : Mgm, mgmEncStart E c = c1 ∧
      MInv E M bl true n (E (nonce1 n)) a i c1 := by
    refine ⟨_, rfl, ?_⟩
    unfold mgmEncStart
    by_cases hm : c.lenM = 0
    · rw [if_pos hm]
      obtain ⟨a1, a2, a3, a4, a5, cs, r, b1, b2, b3, b4, b5, b6, b7, b8⟩ := h
      have hi0 : i = [] := List.length_eq_zero_iff.mp (by omega)
      subst hi0
      have hab : absorbed E bl true n [] = [] := rfl
      rw [hab] at b1
      have hr0 : r = [] := by simp at b1; exact b1.2
      have hcs0 : cs = [] := by
        rw [hr0] at b1; simp at b1
        cases cs with
        | nil => rfl
        | cons x bs => have := b2 x (by simp); have := b1 x (by simp); simp_all
      subst hr0; subst hcs0
      by_cases h0 : c.lenA = 0
      · rw [if_pos h0]
        have ha0 : a = [] := List.length_eq_zero_iff.mp (by omega)
        subst ha0
        simp only [clrTop_eq, setTop_eq, a1.2, nonce0_1]
        refine ⟨⟨nonce0_0 n, nonce1_0 n⟩, a2, a3, a4, a5, [], [], hab, by simp, hb, ?_, b5, b6, rfl, by simp⟩
        have hp0 : padBlocks bl [] = [] := by unfold padBlocks; rw [blocks_nil]; rfl
        exact ⟨by rw [hp0]; rfl, b4.2⟩
      · rw [if_neg h0]
        simp only [clrTop_eq, a1.1]
        exact ⟨⟨nonce0_0 n, nonce1_0 n⟩, a2, a3, a4, a5, [], [], hab, by simp, hb, b4, b5, b6, rfl, by simp⟩
    · rw [if_neg hm]; exact h
  unfold gost_mgm128_encrypt
  simp only
  rw [hc1]
  have hlm : (c1.lenM + d.length) % 2^64 = i.length + d.length := by rw [i1.lenM]; exact Nat.mod_eq_of_lt (by omega)
  rw [if_neg (by rw [toolong_iff bl _ _ _ h64 (by rw [i1.lenA]; omega) (by rw [i1.lenM]; omega) (by omega), i1.lenA, i1.lenM]; omega), hlm]
  have hclose : mgmCloseAad E M bl { c1 with lenM := i.length + d.length } = { c1 with lenM := i.length + d.length } := by
    unfold mgmCloseAad
    rw [if_neg (by simp [i1.ares])]
  rw [hclose]
  obtain ⟨u1, u2⟩ := data_run E M bl hb he hE true n (E (nonce1 n)) a i d (hE _) { c1 with lenM := i.length + d.length }
    i1.nonce i1.lenA (by simp) i1.ares i1.core
  exact ⟨rfl, u2, u1⟩

/-- First accepted decryption call. -/
theorem decrypt_first (hb : 0 < bl) (he : bl % 2 = 0) (hE : ∀ b, (E b).length = bl) (n z a : Bytes) (hz : z.length = bl) (c : Mgm)
    (h : AInv E M bl n z a c) (d : Bytes) (h64 : 2^(bl * 4 - 3) < 2^63)
    (hl : a.length + d.length ≤ 2^(bl * 4 - 3)) :
    (gost_mgm128_decrypt E M bl c d).2.2 = 0 ∧ (gost_mgm128_decrypt E M bl c d).2.1 = mgmCrypt bl E n d ∧
    MInv E M bl false n z a d (gost_mgm128_decrypt E M bl c d).1 := by
  have hc1 : mgmDecStart E c = { c with nonce := clrTop c.nonce, Yi := E (clrTop c.nonce) } := by
    unfold mgmDecStart; rw [if_pos h.lenM]
  have i1 : AInv E M bl n z a { c with nonce := clrTop c.nonce, Yi := E (clrTop c.nonce) } := by
    obtain ⟨a1, a2, a3, a4, a5, a6⟩ := h
    refine ⟨?_, a2, a3, a4, a5, a6⟩
    simp only [clrTop_eq, a1.1]
    exact ⟨nonce0_0 n, nonce1_0 n⟩
  have i2 : ({ c with nonce := clrTop c.nonce, Yi := E (clrTop c.nonce) } : Mgm).Yi = E (nonce0 n) := by
    simp only [clrTop_eq, h.nonce.1]
  generalize ({ c with nonce := clrTop c.nonce, Yi := E (clrTop c.nonce) } : Mgm) = c1 at *
  unfold gost_mgm128_decrypt
  simp only
  rw [hc1]
  have hlm : (c1.lenM + d.length) % 2^64 = d.length := by rw [i1.lenM, Nat.zero_add]; exact Nat.mod_eq_of_lt (by omega)
  rw [if_neg (by rw [toolong_iff bl _ _ _ h64 (by rw [i1.lenA]; omega) (by rw [i1.lenM]; omega) (by omega), i1.lenA, i1.lenM]; omega), hlm]
  obtain ⟨t1, t2, t3, t4, t5, t6, t7, t8⟩ := closeAad_inv E M bl hb n z a hz { c1 with lenM := d.length } d.length
    ⟨i1.nonce, i1.lenA, rfl, i1.mres, i1.aci, i1.acc⟩ rfl
  obtain ⟨u1, u2⟩ := data_run E M bl hb he hE false n z a [] d hz _ t1 t2 (by rw [t3]; simp) t4
    (start_core E M bl n _ a false _ hb t5 t6 (t7.trans i2) t8)
  refine ⟨rfl, ?_, ?_⟩
  · rw [List.nil_append, mgmCrypt_nil, List.nil_append] at u2
    exact u2.symm
  · exact u1

/-- A further accepted decryption call. -/
theorem decrypt_next (hb : 0 < bl) (he : bl % 2 = 0) (hE : ∀ b, (E b).length = bl) (n z a i : Bytes) (hz : z.length = bl) (c : Mgm)
    (h : MInv E M bl false n z a i c) (d : Bytes) (h64 : 2^(bl * 4 - 3) < 2^63)
    (hl : a.length + i.length + d.length ≤ 2^(bl * 4 - 3)) :
    (gost_mgm128_decrypt E M bl c d).2.2 = 0 ∧
    mgmCrypt bl E n (i ++ d) = mgmCrypt bl E n i ++ (gost_mgm128_decrypt E M bl c d).2.1 ∧
    MInv E M bl false n z a (i ++ d) (gost_mgm128_decrypt E M bl c d).1 := by
  obtain ⟨c1, hc1, i1⟩ : ∃ c1 : Mgm, mgmDecStart E c = c1 ∧
      MInv E M bl false n z a i c1 := by
    refine ⟨_, rfl, ?_⟩
    unfold mgmDecStart
    by_cases hm : c.lenM = 0
    · rw [if_pos hm]
      obtain ⟨a1, a2, a3, a4, a5, cs, r, b1, b2, b3, b4, b5, b6, b7, b8⟩ := h
      have hi0 : i = [] := List.length_eq_zero_iff.mp (by omega)
      subst hi0
      have hab : absorbed E bl false n [] = [] := rfl
      rw [hab] at b1
      have hr0 : r = [] := by simp at b1; exact b1.2
      have hcs0 : cs = [] := by
        rw [hr0] at b1; simp at b1
        cases cs with
        | nil => rfl
        | cons x bs => have := b2 x (by simp); have := b1 x (by simp); simp_all
      subst hr0; subst hcs0
      simp only [clrTop_eq, a1.1]
      exact ⟨⟨nonce0_0 n, nonce1_0 n⟩, a2, a3, a4, a5, [], [], hab, by simp, hb, b4, b5, b6, rfl, by simp⟩
    · rw [if_neg hm]; exact h
  unfold gost_mgm128_decrypt
  simp only
  rw [hc1]
  have hlm : (c1.lenM + d.length) % 2^64 = i.length + d.length := by rw [i1.lenM]; exact Nat.mod_eq_of_lt (by omega)
  rw [if_neg (by rw [toolong_iff bl _ _ _ h64 (by rw [i1.lenA]; omega) (by rw [i1.lenM]; omega) (by omega), i1.lenA, i1.lenM]; omega), hlm]
  have hclose : mgmCloseAad E M bl { c1 with lenM := i.length + d.length } = { c1 with lenM := i.length + d.length } := by
    unfold mgmCloseAad
    rw [if_neg (by simp [i1.ares])]
  rw [hclose]
  obtain ⟨u1, u2⟩ := data_run E M bl hb he hE false n z a i d hz { c1 with lenM := i.length + d.length }
    i1.nonce i1.lenA (by simp) i1.ares i1.core
  exact ⟨rfl, u2, u1⟩

/-! ## The tag -/

/-- The tag after message data. -/
theorem final_minv (hb : 0 < bl) (enc : Bool) (n z a i : Bytes) (hz : z.length = bl) (c : Mgm) (h : MInv E M bl enc n z a i c)
    (hlb : mgmLenBlock bl a.length i.length = lenBlock bl a.length i.length) :
    (mgmFinal E M bl c).tag = mgmTagFrom bl E M z a (absorbed E bl enc n i) := by
  obtain ⟨a1, a2, a3, a4, a5, cs, r, b1, b2, b3, b4, b5, b6, b7, b8⟩ := h
  have hp := padBlocks_flatten bl hb cs b2 r b3
  rw [← b1] at hp
  unfold mgmFinal mgmTagFrom
  have hlb' : mgmLenBlock bl c.lenA c.lenM = lenBlock bl a.length i.length := by rw [a2, a3, hlb]
  have hpad : c.ACi.take (c.ares + c.mres) ++ zeros (bl - (c.ares + c.mres)) = r ++ zeros (bl - r.length) := by
    rw [a4, b5, Nat.zero_add, b6]
  rw [hlb', hpad, absorbed_length, hp]
  simp only
  by_cases hr : r = []
  · subst hr
    rw [if_neg (by simp [a4, b5]), if_pos rfl, List.append_nil, mgmSum_concat, b4.1, b4.2]
    rfl
  · have hne : r.length ≠ 0 := fun h => hr (List.length_eq_zero_iff.mp h)
    rw [if_pos (by left; omega), if_neg hr]
    have hacc := absorb_acc E M bl z hz _ { c with ACi := r ++ zeros (bl - r.length) } b4 (r ++ zeros (bl - r.length))
    rw [mgmSum_concat, ← List.append_assoc (padBlocks bl a)]
    rw [hacc.1, hacc.2]
    rfl

/-- The tag when no message data were given at all. -/
theorem final_ainv (hb : 0 < bl) (n z a : Bytes) (hz : z.length = bl) (c : Mgm) (h : AInv E M bl n z a c)
    (hlb : mgmLenBlock bl a.length 0 = lenBlock bl a.length 0) :
    (mgmFinal E M bl c).tag = mgmTagFrom bl E M z a [] := by
  obtain ⟨a1, a2, a3, a4, a5, bs, r, b1, b2, b3, b4, b5, b6⟩ := h
  have hp := padBlocks_flatten bl hb bs b2 r b3
  rw [← b1] at hp
  have hp0 : padBlocks bl [] = [] := by unfold padBlocks; rw [blocks_nil]; rfl
  unfold mgmFinal mgmTagFrom
  have hlb' : mgmLenBlock bl c.lenA c.lenM = lenBlock bl a.length 0 := by rw [a2, a3, hlb]
  have hpad : c.ACi.take (c.ares + c.mres) ++ zeros (bl - (c.ares + c.mres)) = r ++ zeros (bl - r.length) := by
    rw [a4, b5, Nat.add_zero, b6]
  rw [hlb', hpad, hp, hp0, List.append_nil, List.length_nil]
  simp only
  by_cases hr : r = []
  · subst hr
    rw [if_neg (by simp [a4, b5]), if_pos rfl, List.append_nil, mgmSum_concat, b4.1, b4.2]
    rfl
  · have hne : r.length ≠ 0 := fun h => hr (List.length_eq_zero_iff.mp h)
    rw [if_pos (by right; omega), if_neg hr]
    have hacc := absorb_acc E M bl z hz _ { c with ACi := r ++ zeros (bl - r.length) } b4 (r ++ zeros (bl - r.length))
    rw [mgmSum_concat]
    rw [hacc.1, hacc.2]
    rfl

end

end Gost
