import Verif.Lemmas.KuzModes

/-! # Kuznyechik CTR-ACPKM: refinement proofs -/

namespace Gost
open Spec

/-- Abstract generator of CTR-ACPKM: key, counter, bytes since the last key change. -/
def kactrNext (sec : Nat) : Bytes × Bytes × Nat → (Bytes × Bytes × Nat) × Bytes
  | (k, v, n) =>
    let kn := if sec = 0 then (k, 0) else if n < sec then (k, n) else (Spec.acpkm 16 (EKuz) k, 0)
    ((kn.1, inc_counter v 16, if sec = 0 then 0 else kn.2 + 16), EKuz kn.1 v)

/-- Number of bytes of started blocks since the last key change. -/
def kactrPos (sec num : Nat) : Nat := if sec = 0 then 0 else (num + 15) / 16 * 16

/-- The round keys belong to the key and the IV is a block. -/
abbrev KFacts (e : KCtx) : Prop :=
  e.encrypt_round_keys = grasshopper_set_encrypt_key e.key ∧
  e.decrypt_round_keys = grasshopper_set_decrypt_key e.key ∧ e.key.length = 32 ∧ e.iv.length = 16

theorem KFacts.ok {e : KCtx} (h : KFacts e) : KOk e := ⟨h.1, h.2.1, h.2.2.1⟩

def kactrAbs (e : KCtx) : (Bytes × Bytes × Nat) × Bytes :=
  ((e.key, e.iv, kactrPos e.section_size e.num),
    if e.num % 16 = 0 then [] else e.partial_buffer.drop (e.num % 16))

structure KactrInv (sec : Nat) (e : KCtx) : Prop where
  box : KFacts e
  km : e.section_size = sec
  buf : e.partial_buffer.length = 16
  num : e.num < 2^32
  bound : sec ≠ 0 → e.num ≤ (sec + 15) / 16 * 16

/-- The gamma step, at a block boundary (`num` a multiple of 16). -/
theorem kAcpkmGamma_refines (sec : Nat) (hsec : sec < 2^32 - 16) (e : KCtx) (h : KactrInv sec e)
    (h0 : e.num % 16 = 0) :
    kactrNext sec (e.key, e.iv, kactrPos e.section_size e.num) =
      (((kAcpkmGamma e).key, (kAcpkmGamma e).iv,
        if sec = 0 then 0 else (kAcpkmGamma e).num + 16), (kAcpkmGamma e).partial_buffer) ∧
    KFacts (kAcpkmGamma e) ∧ (kAcpkmGamma e).section_size = sec ∧
    (kAcpkmGamma e).partial_buffer.length = 16 ∧ (kAcpkmGamma e).num < 2^32 ∧ (kAcpkmGamma e).num % 16 = 0 ∧
    (sec ≠ 0 → (kAcpkmGamma e).num + 16 ≤ (sec + 15) / 16 * 16) := by
  obtain ⟨h1, h2, h3, h4, h5⟩ := h
  have ha := acpkm_next_key h1.ok
  have hok := KFacts.ok h1
  have hinc : (inc_counter e.iv 16).length = 16 := by rw [inc_counter_length]; exact h1.2.2.2
  unfold kAcpkmGamma apply_acpkm_grasshopper
  simp only [h2]
  by_cases hs : sec = 0
  · subst hs
    simp only [kactrNext, true_or, if_true]
    simp only [hok.enc _ h1.2.2.2]
    exact ⟨trivial, ⟨h1.1, h1.2.1, h1.2.2.1, hinc⟩, h2, by simp, h4, h0, by simp⟩
  · have hpos : kactrPos sec e.num = e.num := by simp [kactrPos, hs]; omega
    by_cases hlt : e.num < sec
    · simp only [hs, hlt, or_true, if_true, hpos, kactrNext, if_false]
      simp only [hok.enc _ h1.2.2.2]
      exact ⟨trivial, ⟨h1.1, h1.2.1, h1.2.2.1, hinc⟩, h2, by simp, h4, h0, fun _ => by omega⟩
    · simp only [hs, hlt, or_self, if_false, hpos, kactrNext, h0]
      have hiv : (acpkm_next e).iv = e.iv := rfl
      have hse : (acpkm_next e).section_size = e.section_size := rfl
      have hok' : KOk (acpkm_next e) := KOk_cipher_key _ _
      simp only [hok'.enc e.iv h1.2.2.2, ha, hiv, hse, h2]
      exact ⟨trivial, ⟨ha ▸ hok'.ek, ha ▸ hok'.dk, ha ▸ hok'.len, hinc⟩, trivial, by simp, by simp, trivial, fun _ => by omega⟩

theorem kactrNext_len (sec : Nat) (s : Bytes × Bytes × Nat) : (kactrNext sec s).2.length = 16 := by
  obtain ⟨k, v, n⟩ := s
  simp [kactrNext]

theorem kAcpkmBody_refines (sec : Nat) (hsec : sec < 2^32 - 16) (e : KCtx) (xs : Bytes)
    (h : KactrInv sec e ∧ e.num % 16 = 0) (hx : xs.length = 16) :
    (KactrInv sec (kAcpkmBody e xs).1 ∧ (kAcpkmBody e xs).1.num % 16 = 0) ∧
    runM (ksStep (kactrNext sec)) (kactrAbs e) xs = (kactrAbs (kAcpkmBody e xs).1, (kAcpkmBody e xs).2) := by
  obtain ⟨hr, g1, g2, g3, g4, g5, g6⟩ := kAcpkmGamma_refines sec hsec e h.1 h.2
  have hnum : ((kAcpkmGamma e).num + 16) % 2^32 % 16 = 0 := by omega
  refine ⟨⟨⟨g1, g2, g3, Nat.mod_lt _ (by decide), fun hs => ?_⟩, hnum⟩, ?_⟩
  · have := g6 hs
    simp only [kAcpkmBody]
    rw [Nat.mod_eq_of_lt (by omega)]; exact this
  · have hne : xs ≠ [] := by intro hh; simp [hh] at hx
    have hlen := kactrNext_len sec (e.key, e.iv, kactrPos e.section_size e.num)
    have habs : kactrAbs e = ((e.key, e.iv, kactrPos e.section_size e.num), []) := by
      simp [kactrAbs, h.2]
    rw [habs, ks_block _ _ _ hne (by omega), hr]
    have hb : kactrAbs (kAcpkmBody e xs).1 = (((kAcpkmGamma e).key, (kAcpkmGamma e).iv,
        kactrPos (kAcpkmGamma e).section_size (((kAcpkmGamma e).num + 16) % 2^32)), []) := by
      have : (kAcpkmBody e xs).1.num % 16 = 0 := hnum
      rw [kactrAbs, if_pos this]; rfl
    have ho : (kAcpkmBody e xs).2 = xorB (kAcpkmGamma e).partial_buffer xs := by simp only [kAcpkmBody]
    rw [hb, ho]
    have hp : (if sec = 0 then 0 else (kAcpkmGamma e).num + 16) = kactrPos sec (((kAcpkmGamma e).num + 16) % 2^32) := by
      by_cases hs : sec = 0
      · simp [kactrPos, hs]
      · have := g6 hs
        simp only [kactrPos, hs, if_false]; omega
    rw [g2, hp, List.drop_eq_nil_of_le (by rw [g3]; omega), xorB_comm]

theorem kAcpkmPart_eq (buf : Bytes) (hbuf : buf.length = 16) (num : Nat) (hnum : num < 2^32) (inp : Bytes) :
    kAcpkmPart buf num inp =
      (if num % 16 = 0 then (num, [], inp) else
        ((num + min (16 - num % 16) inp.length) % 2^32,
          xorB (inp.take (16 - num % 16)) (buf.drop (num % 16)), inp.drop (16 - num % 16))) := by
  induction inp generalizing num with
  | nil =>
    unfold kAcpkmPart
    split <;> simp; omega
  | cons x xs ih =>
    rw [kAcpkmPart]
    by_cases h : num % 16 = 0
    · simp [h]
    · rw [if_pos h, if_neg h, ih ((num + 1) % 2^32) (by omega)]
      obtain ⟨m, hm⟩ : ∃ m, 16 - num % 16 = m + 1 := ⟨16 - num % 16 - 1, by omega⟩
      have hlt : num % 16 < buf.length := by omega
      have hx : at_ buf (num % 16) = buf[num % 16] := by
        simp only [at_]; rw [List.getD_eq_getElem?_getD, List.getElem?_eq_getElem hlt]; rfl
      rw [List.drop_eq_getElem_cons hlt]
      simp only [hm, List.take_succ_cons, List.drop_succ_cons, List.length_cons, xorB_cons, hx]
      by_cases h7 : (num + 1) % 2^32 % 16 = 0
      · have hm0 : m = 0 := by omega
        rw [if_pos h7, hm0]
        simp only [List.take_zero, List.drop_zero, xorB_nil_left]
        congr 2
      · have e1 : (num + 1) % 2^32 % 16 = num % 16 + 1 := by omega
        rw [if_neg h7, e1, show 16 - (num % 16 + 1) = m by omega]
        congr 1; omega

theorem do_kacpkm_refines (sec : Nat) (hsec : sec < 2^32 - 16) (e : KCtx) (xs : Bytes)
    (h : KactrInv sec e) :
    KactrInv sec (gost_grasshopper_cipher_do_ctracpkm e xs).1 ∧
    runM (ksStep (kactrNext sec)) (kactrAbs e) xs =
      (kactrAbs (gost_grasshopper_cipher_do_ctracpkm e xs).1, (gost_grasshopper_cipher_do_ctracpkm e xs).2) := by
  -- phase 1
  have hp := kAcpkmPart_eq e.partial_buffer h.buf e.num h.num xs
  have phase1 : ∃ used, xs = used ++ (kAcpkmPart e.partial_buffer e.num xs).2.2 ∧
      KactrInv sec { e with num := (kAcpkmPart e.partial_buffer e.num xs).1 } ∧
      ((kAcpkmPart e.partial_buffer e.num xs).1 % 16 = 0 ∨ (kAcpkmPart e.partial_buffer e.num xs).2.2 = []) ∧
      runM (ksStep (kactrNext sec)) (kactrAbs e) used =
        (kactrAbs { e with num := (kAcpkmPart e.partial_buffer e.num xs).1 }, (kAcpkmPart e.partial_buffer e.num xs).2.1) := by
    rw [hp]
    by_cases h0 : e.num % 16 = 0
    · rw [if_pos h0]
      exact ⟨[], by simp, h, Or.inl h0, by simp [runM]⟩
    · rw [if_neg h0]
      have hb := h.buf
      have hbound : sec ≠ 0 → e.num + (16 - e.num % 16) ≤ (sec + 15) / 16 * 16 := fun hs => by
        have := h.bound hs; omega
      refine ⟨xs.take (16 - e.num % 16), by simp, ⟨h.box, h.km, h.buf, Nat.mod_lt _ (by decide), fun hs => ?_⟩, ?_, ?_⟩
      · have := hbound hs
        simp only
        rw [Nat.mod_eq_of_lt (by omega)]; omega
      · by_cases hl : 16 - e.num % 16 ≤ xs.length
        · left; simp only; omega
        · right; simp only; exact List.drop_eq_nil_of_le (by omega)
      · have habs : kactrAbs e = ((e.key, e.iv, kactrPos e.section_size e.num), e.partial_buffer.drop (e.num % 16)) := by
          simp [kactrAbs, h0]
        rw [habs, ks_rest _ _ _ _ (by simp; omega)]
        simp only [kactrAbs, List.drop_drop, List.length_take]
        congr 2
        · congr 2
          simp only [kactrPos]
          split
          · rfl
          · have := hbound (by rw [← h.km]; assumption)
            rw [Nat.mod_eq_of_lt (a := e.num + _) (by omega)]; omega
        · by_cases hl : 16 - e.num % 16 ≤ xs.length
          · rw [if_pos (by omega)]
            exact List.drop_eq_nil_of_le (by omega)
          · rw [if_neg (by omega)]
            congr 1; omega
  obtain ⟨u1, hx1, hi1, hor, hr1⟩ := phase1
  unfold gost_grasshopper_cipher_do_ctracpkm
  generalize kAcpkmPart e.partial_buffer e.num xs = p at *
  obtain ⟨num', out1, rest1⟩ := p
  simp only at hx1 hi1 hor hr1 ⊢
  clear hp
  subst hx1
  rw [runM_append, hr1]
  generalize he1 : ({ e with num := num' } : KCtx) = e1 at *
  have hnum1 : e1.num = num' := by rw [← he1]
  clear he1
  -- phase 2 and 3
  rcases Nat.eq_zero_or_pos rest1.length with hz | hpos
  · have : rest1 = [] := List.length_eq_zero_iff.mp hz
    subst this
    rw [whileBlocks_small _ _ _ _ (by decide)]
    simp only [List.length_nil, Nat.lt_irrefl, if_false, runM, List.append_nil]
    exact ⟨hi1, trivial⟩
  · have hn0 : e1.num % 16 = 0 := by
      rcases hor with h' | h'
      · rw [hnum1]; exact h'
      · simp [h'] at hpos
    obtain ⟨⟨h1, h1'⟩, h2, used, h3, h4⟩ :=
      whileBlocks_refines 16 (by decide) kAcpkmBody (ksStep (kactrNext sec)) kactrAbs
        (fun e => KactrInv sec e ∧ e.num % 16 = 0)
        (fun s xs hs hx => kAcpkmBody_refines sec hsec s xs hs hx) e1 ⟨hi1, hn0⟩ rest1
    generalize whileBlocks 16 kAcpkmBody e1 rest1 = r at *
    obtain ⟨e', out, rest⟩ := r
    simp only at h1 h1' h2 h3 h4 ⊢
    subst h3
    rw [runM_append, h4]
    by_cases hr : 0 < rest.length
    · obtain ⟨hg, g1, g2, g3, g4, g5, g6⟩ := kAcpkmGamma_refines sec hsec e' h1 h1'
      have hne : rest ≠ [] := List.length_pos_iff.mp hr
      have hmod : ((kAcpkmGamma e').num + rest.length) % 2^32 % 16 = rest.length := by omega
      simp only [if_pos hr, xorB_take_left]
      refine ⟨⟨g1, g2, g3, Nat.mod_lt _ (by decide), fun hs => ?_⟩, ?_⟩
      · have := g6 hs
        simp only
        rw [Nat.mod_eq_of_lt (by omega)]; omega
      · have habs : kactrAbs e' = ((e'.key, e'.iv, kactrPos e'.section_size e'.num), []) := by
          simp [kactrAbs, h1']
        have hlen := kactrNext_len sec (e'.key, e'.iv, kactrPos e'.section_size e'.num)
        rw [habs, ks_block _ _ _ hne (by omega), hg]
        have hr0 : rest.length ≠ 0 := by omega
        simp only [kactrAbs]
        generalize kAcpkmGamma e' = g at *
        have hp : (if sec = 0 then 0 else g.num + 16) = kactrPos sec ((g.num + rest.length) % 2^32) := by
          by_cases hs : sec = 0
          · simp [kactrPos, hs]
          · have := g6 hs
            simp only [kactrPos, hs, if_false]
            rw [Nat.mod_eq_of_lt (a := g.num + _) (by omega)]; omega
        rw [hmod, if_neg hr0, g2, hp, List.append_assoc, xorB_comm rest]
    · have hnil : rest = [] := List.length_eq_zero_iff.mp (by omega)
      subst hnil
      simp only [List.length_nil, Nat.lt_irrefl, if_false, runM, List.append_nil]
      exact ⟨h1, trivial⟩

/-- After `j` blocks: the key number, the counter and the position in the section. -/
theorem kactr_iter (sec : Nat) (hdvd : 16 ∣ sec) (K iv : Bytes) (hiv : iv.length = 16) (j : Nat) :
    iter (fun i => (kactrNext sec i).1) j (K, iv, 0) =
      (if sec = 0 then (K, ctrBlock 16 iv j, 0)
       else (iter (Spec.acpkm 16 (EKuz)) ((j - 1) * 16 / sec) K, ctrBlock 16 iv j,
              if j = 0 then 0 else (j - 1) * 16 % sec + 16)) := by
  induction j with
  | zero => simp [iter, ctrBlock_zero 16 iv hiv]
  | succ j ih =>
    rw [iter_succ_out, ih]
    by_cases hs : sec = 0
    · subst hs
      simp [kactrNext, ctrBlock_succ]
    · simp only [hs, if_false, kactrNext, Nat.add_sub_cancel]
      obtain ⟨m, hm⟩ := hdvd
      have hmpos : 0 < m := by omega
      have hsecpos : 0 < sec := by omega
      by_cases hj : j = 0
      · subst hj
        simp [ctrBlock_succ, hsecpos]
      · obtain ⟨i, rfl⟩ : ∃ i, j = i + 1 := ⟨j - 1, by omega⟩
        simp only [Nat.add_sub_cancel, show i + 1 ≠ 0 by omega, if_false, show i + 1 + 1 ≠ 0 by omega]
        have hq : ∀ x, x * 16 / sec = x / m := by
          intro x; rw [hm, Nat.mul_comm 16 m]; exact Nat.mul_div_mul_right x m (by decide)
        have hr : ∀ x, x * 16 % sec = (x % m) * 16 := by
          intro x; rw [hm, Nat.mul_comm 16 m]; exact Nat.mul_mod_mul_right 16 x m
        rw [hq, hq, hr, hr]
        by_cases hlt : i % m * 16 + 16 < sec
        · have h1 : i % m + 1 < m := by omega
          have h2 : (i + 1) / m = i / m ∧ (i + 1) % m = i % m + 1 := by
            have := Nat.div_add_mod i m
            have e : i + 1 = (i % m + 1) + m * (i / m) := by omega
            constructor
            · rw [e, Nat.add_mul_div_left _ _ hmpos, Nat.div_eq_of_lt h1]; omega
            · rw [e, Nat.add_mul_mod_self_left, Nat.mod_eq_of_lt h1]
          simp only [hlt, if_true, h2, ctrBlock_succ]
          congr 2; omega
        · have hlt2 := Nat.mod_lt i hmpos
          have h1 : i % m + 1 = m := by omega
          have h2 : (i + 1) / m = i / m + 1 ∧ (i + 1) % m = 0 := by
            have := Nat.div_add_mod i m
            have e : i + 1 = m * (i / m + 1) := by rw [Nat.mul_add]; omega
            constructor
            · rw [e, Nat.mul_div_cancel_left _ hmpos]
            · rw [e, Nat.mul_mod_right]
          simp only [hlt, if_false, h2, ctrBlock_succ, iter_succ_out, Nat.zero_mul]

theorem kactr_gamma (sec : Nat) (hdvd : 16 ∣ sec) (K iv : Bytes) (hiv : iv.length = 16) (j : Nat) :
    (kactrNext sec (iter (fun i => (kactrNext sec i).1) j (K, iv, 0))).2 =
      ctrAcpkmGamma 16 (EKuz) (Spec.acpkm 16 (EKuz)) sec K iv j := by
  have h1 := kactr_iter sec hdvd K iv hiv j
  have h2 := kactr_iter sec hdvd K iv hiv (j + 1)
  rw [iter_succ_out, h1] at h2
  rw [h1]
  unfold ctrAcpkmGamma
  by_cases hs : sec = 0
  · subst hs
    simp [kactrNext]
  · simp only [hs, if_false, Nat.add_sub_cancel] at h2 ⊢
    have h3 := congrArg (fun x => x.1) h2
    simp only [kactrNext, hs, if_false] at h3 ⊢
    rw [h3]

/-- Only the section size rounded up to whole blocks matters. -/
theorem kactrNext_round (sec : Nat) (k v : Bytes) (n : Nat) (hn : 16 ∣ n) :
    kactrNext sec (k, v, n) = kactrNext ((sec + 15) / 16 * 16) (k, v, n) := by
  obtain ⟨m, rfl⟩ := hn
  have h0 : ((sec + 15) / 16 * 16 = 0) ↔ sec = 0 := by omega
  have h1 : (16 * m < (sec + 15) / 16 * 16) ↔ 16 * m < sec := by omega
  simp only [kactrNext, h0, h1]

theorem kactr_iter_round (sec : Nat) (K iv : Bytes) (j : Nat) :
    16 ∣ (iter (fun i => (kactrNext sec i).1) j (K, iv, 0)).2.2 ∧
    iter (fun i => (kactrNext sec i).1) j (K, iv, 0) =
      iter (fun i => (kactrNext ((sec + 15) / 16 * 16) i).1) j (K, iv, 0) := by
  induction j with
  | zero => simp [iter]
  | succ j ih =>
    rw [iter_succ_out, iter_succ_out, ← ih.2]
    generalize iter (fun i => (kactrNext sec i).1) j (K, iv, 0) = s at *
    obtain ⟨k, v, n⟩ := s
    refine ⟨?_, by rw [kactrNext_round sec k v n ih.1]⟩
    have := ih.1
    simp only [kactrNext] at this ⊢
    split
    · simp
    · split <;> simp <;> omega

/-- Histories of Kuznyechik CTR / CTR-ACPKM update calls: closed form. -/
theorem kactr_history (sec : Nat) (hsec : sec < 2^32 - 16) (e : KCtx)
    (h : KactrInv sec e) (h0 : e.num = 0) (hiv : e.iv.length = 16) (chunks : List Bytes) :
    (feed gost_grasshopper_cipher_do_ctracpkm e chunks).2 =
      xorStream 16 (ctrAcpkmGamma 16 (EKuz) (Spec.acpkm 16 (EKuz)) ((sec + 15) / 16 * 16)
        (e.key) e.iv) chunks.flatten := by
  obtain ⟨_, h2⟩ := feed_refines gost_grasshopper_cipher_do_ctracpkm (ksStep (kactrNext sec)) kactrAbs (KactrInv sec)
    (fun s xs hs => do_kacpkm_refines sec hsec s xs hs) e h chunks
  have hk := ks_closed (kactrNext sec) 16 (by decide) (fun _ => True)
    (fun i _ => ⟨trivial, kactrNext_len sec i⟩) (e.key, e.iv, 0) trivial chunks.flatten
  have habs : kactrAbs e = ((e.key, e.iv, 0), []) := by simp [kactrAbs, h0, kactrPos]
  rw [habs] at h2
  rw [h2] at hk
  rw [hk]
  have hg : ∀ j, (kactrNext sec (iter (fun i => (kactrNext sec i).1) j (e.key, e.iv, 0))).2 =
      ctrAcpkmGamma 16 (EKuz) (Spec.acpkm 16 (EKuz)) ((sec + 15) / 16 * 16) (e.key) e.iv j := by
    intro j
    rw [← kactr_gamma ((sec + 15) / 16 * 16) ⟨_, Nat.mul_comm _ _⟩ _ _ hiv j]
    obtain ⟨r1, r2⟩ := kactr_iter_round sec (e.key) e.iv j
    rw [← r2]
    generalize iter (fun i => (kactrNext sec i).1) j (e.key, e.iv, 0) = s at *
    obtain ⟨k, v, n⟩ := s
    rw [kactrNext_round sec k v n r1]
  rw [funext hg]

end Gost
