import Verif.Lemmas.GostModes
import Verif.Lemmas.BlockModes

/-! # Magma CTR and CTR-ACPKM: refinement proofs -/

namespace Gost
open Spec

/-- Abstract generator of CTR-ACPKM: key, counter, bytes since the last key change. -/
def mctrNext (box : KBox) (sec : Nat) : Bytes × Bytes × Nat → (Bytes × Bytes × Nat) × Bytes
  | (k, v, n) =>
    let kn := if sec = 0 then (k, 0) else if n < sec then (k, n) else (Spec.acpkm 8 (EMagma box) k, 0)
    ((kn.1, inc_counter v 8, if sec = 0 then 0 else kn.2 + 8), EMagma box kn.1 v)

/-- Number of bytes of started blocks since the last key change. -/
def mctrPos (sec num : Nat) : Nat := if sec = 0 then 0 else (num + 7) / 8 * 8

def mctrAbs (e : CipherCtx) : (Bytes × Bytes × Nat) × Bytes :=
  ((magma_get_key e.cctx, e.iv, mctrPos e.key_meshing e.num),
    if e.num % 8 = 0 then [] else e.buf.drop (e.num % 8))

structure MctrInv (box : KBox) (sec : Nat) (e : CipherCtx) : Prop where
  box : e.cctx.box = box
  km : e.key_meshing = sec
  buf : e.buf.length = 8
  num : e.num < 2^32
  bound : sec ≠ 0 → e.num ≤ (sec + 7) / 8 * 8

/-- The gamma step, at a block boundary (`num` a multiple of 8). -/
theorem magmaCtrGamma_refines (box : KBox) (sec : Nat) (hsec : sec < 2^32 - 8) (e : CipherCtx) (h : MctrInv box sec e)
    (h0 : e.num % 8 = 0) :
    mctrNext box sec (magma_get_key e.cctx, e.iv, mctrPos e.key_meshing e.num) =
      ((magma_get_key (magmaCtrGamma e).cctx, (magmaCtrGamma e).iv,
        if sec = 0 then 0 else (magmaCtrGamma e).num + 8), (magmaCtrGamma e).buf) ∧
    (magmaCtrGamma e).cctx.box = box ∧ (magmaCtrGamma e).key_meshing = sec ∧
    (magmaCtrGamma e).buf.length = 8 ∧ (magmaCtrGamma e).num < 2^32 ∧ (magmaCtrGamma e).num % 8 = 0 ∧
    (sec ≠ 0 → (magmaCtrGamma e).num + 8 ≤ (sec + 7) / 8 * 8) := by
  obtain ⟨h1, h2, h3, h4, h5⟩ := h
  have ha := acpkm_magma_eq e.cctx
  unfold magmaCtrGamma apply_acpkm_magma
  simp only [h2]
  by_cases hs : sec = 0
  · subst hs
    simp only [mctrNext, true_or, if_true]
    simp only [magmacrypt_eq, h1]
    exact ⟨trivial, trivial, h2, by simp, h4, h0, by simp⟩
  · have hpos : mctrPos sec e.num = e.num := by simp [mctrPos, hs]; omega
    by_cases hlt : e.num < sec
    · simp only [hs, hlt, or_true, if_true, hpos, mctrNext, if_false]
      simp only [magmacrypt_eq, h1]
      exact ⟨trivial, trivial, h2, by simp, h4, h0, fun _ => by omega⟩
    · simp only [hs, hlt, or_self, if_false, hpos, mctrNext, h0]
      simp only [magmacrypt_eq, ha.1, ha.2, h1]
      exact ⟨trivial, trivial, trivial, by simp, by simp, trivial, fun _ => by omega⟩

theorem mctrNext_len (box : KBox) (sec : Nat) (s : Bytes × Bytes × Nat) : (mctrNext box sec s).2.length = 8 := by
  obtain ⟨k, v, n⟩ := s
  simp [mctrNext]

theorem magmaCtrBody_refines (box : KBox) (sec : Nat) (hsec : sec < 2^32 - 8) (e : CipherCtx) (xs : Bytes)
    (h : MctrInv box sec e ∧ e.num % 8 = 0) (hx : xs.length = 8) :
    (MctrInv box sec (magmaCtrBody e xs).1 ∧ (magmaCtrBody e xs).1.num % 8 = 0) ∧
    runM (ksStep (mctrNext box sec)) (mctrAbs e) xs = (mctrAbs (magmaCtrBody e xs).1, (magmaCtrBody e xs).2) := by
  obtain ⟨hr, g1, g2, g3, g4, g5, g6⟩ := magmaCtrGamma_refines box sec hsec e h.1 h.2
  have hnum : ((magmaCtrGamma e).num + 8) % 2^32 % 8 = 0 := by omega
  refine ⟨⟨⟨g1, g2, g3, Nat.mod_lt _ (by decide), fun hs => ?_⟩, hnum⟩, ?_⟩
  · have := g6 hs
    simp only [magmaCtrBody]
    rw [Nat.mod_eq_of_lt (by omega)]; exact this
  · have hne : xs ≠ [] := by intro hh; simp [hh] at hx
    have hlen := mctrNext_len box sec (magma_get_key e.cctx, e.iv, mctrPos e.key_meshing e.num)
    have habs : mctrAbs e = ((magma_get_key e.cctx, e.iv, mctrPos e.key_meshing e.num), []) := by
      simp [mctrAbs, h.2]
    rw [habs, ks_block _ _ _ hne (by omega), hr]
    simp only [mctrAbs, magmaCtrBody, hnum, if_true, g2]
    rw [List.drop_eq_nil_of_le (by simp only [g3]; omega), xorB_comm]
    congr 3
    congr 1
    by_cases hs : sec = 0
    · simp [mctrPos, hs]
    · have := g6 hs
      simp only [mctrPos, hs, if_false]; omega

theorem magmaCtrPart_eq (buf : Bytes) (hbuf : buf.length = 8) (num : Nat) (hnum : num < 2^32) (inp : Bytes) :
    magmaCtrPart buf num inp =
      (if num % 8 = 0 then (num, [], inp) else
        ((num + min (8 - num % 8) inp.length) % 2^32,
          xorB (inp.take (8 - num % 8)) (buf.drop (num % 8)), inp.drop (8 - num % 8))) := by
  induction inp generalizing num with
  | nil =>
    unfold magmaCtrPart
    split <;> simp; omega
  | cons x xs ih =>
    rw [magmaCtrPart]
    by_cases h : num % 8 = 0
    · simp [h]
    · rw [if_pos h, if_neg h, ih ((num + 1) % 2^32) (by omega)]
      obtain ⟨m, hm⟩ : ∃ m, 8 - num % 8 = m + 1 := ⟨8 - num % 8 - 1, by omega⟩
      have hlt : num % 8 < buf.length := by omega
      have hx : at_ buf (num % 8) = buf[num % 8] := by
        simp only [at_]; rw [List.getD_eq_getElem?_getD, List.getElem?_eq_getElem hlt]; rfl
      rw [List.drop_eq_getElem_cons hlt]
      simp only [hm, List.take_succ_cons, List.drop_succ_cons, List.length_cons, xorB_cons, hx]
      by_cases h7 : (num + 1) % 2^32 % 8 = 0
      · have hm0 : m = 0 := by omega
        rw [if_pos h7, hm0]
        simp only [List.take_zero, List.drop_zero, xorB_nil_left]
        congr 2
      · have e1 : (num + 1) % 2^32 % 8 = num % 8 + 1 := by omega
        rw [if_neg h7, e1, show 8 - (num % 8 + 1) = m by omega]
        congr 1; omega

theorem do_ctr_refines (box : KBox) (sec : Nat) (hsec : sec < 2^32 - 8) (e : CipherCtx) (xs : Bytes)
    (h : MctrInv box sec e) :
    MctrInv box sec (magma_cipher_do_ctr e xs).1 ∧
    runM (ksStep (mctrNext box sec)) (mctrAbs e) xs =
      (mctrAbs (magma_cipher_do_ctr e xs).1, (magma_cipher_do_ctr e xs).2) := by
  -- phase 1
  have hp := magmaCtrPart_eq e.buf h.buf e.num h.num xs
  have phase1 : ∃ used, xs = used ++ (magmaCtrPart e.buf e.num xs).2.2 ∧
      MctrInv box sec { e with num := (magmaCtrPart e.buf e.num xs).1 } ∧
      ((magmaCtrPart e.buf e.num xs).1 % 8 = 0 ∨ (magmaCtrPart e.buf e.num xs).2.2 = []) ∧
      runM (ksStep (mctrNext box sec)) (mctrAbs e) used =
        (mctrAbs { e with num := (magmaCtrPart e.buf e.num xs).1 }, (magmaCtrPart e.buf e.num xs).2.1) := by
    rw [hp]
    by_cases h0 : e.num % 8 = 0
    · rw [if_pos h0]
      exact ⟨[], by simp, h, Or.inl h0, by simp [runM]⟩
    · rw [if_neg h0]
      have hb := h.buf
      have hbound : sec ≠ 0 → e.num + (8 - e.num % 8) ≤ (sec + 7) / 8 * 8 := fun hs => by
        have := h.bound hs; omega
      refine ⟨xs.take (8 - e.num % 8), by simp, ⟨h.box, h.km, h.buf, Nat.mod_lt _ (by decide), fun hs => ?_⟩, ?_, ?_⟩
      · have := hbound hs
        simp only
        rw [Nat.mod_eq_of_lt (by omega)]; omega
      · by_cases hl : 8 - e.num % 8 ≤ xs.length
        · left; simp only; omega
        · right; simp only; exact List.drop_eq_nil_of_le (by omega)
      · have habs : mctrAbs e = ((magma_get_key e.cctx, e.iv, mctrPos e.key_meshing e.num), e.buf.drop (e.num % 8)) := by
          simp [mctrAbs, h0]
        rw [habs, ks_rest _ _ _ _ (by simp; omega)]
        simp only [mctrAbs, List.drop_drop, List.length_take]
        congr 2
        · congr 2
          simp only [mctrPos]
          split
          · rfl
          · have := hbound (by rw [← h.km]; assumption)
            rw [Nat.mod_eq_of_lt (a := e.num + _) (by omega)]; omega
        · by_cases hl : 8 - e.num % 8 ≤ xs.length
          · rw [if_pos (by omega)]
            exact List.drop_eq_nil_of_le (by omega)
          · rw [if_neg (by omega)]
            congr 1; omega
  obtain ⟨u1, hx1, hi1, hor, hr1⟩ := phase1
  unfold magma_cipher_do_ctr
  generalize magmaCtrPart e.buf e.num xs = p at *
  obtain ⟨num', out1, rest1⟩ := p
  simp only at hx1 hi1 hor hr1 ⊢
  clear hp
  subst hx1
  rw [runM_append, hr1]
  generalize he1 : ({ e with num := num' } : CipherCtx) = e1 at *
  have hnum1 : e1.num = num' := by rw [← he1]
  clear he1
  -- phase 2 and 3
  rcases Nat.eq_zero_or_pos rest1.length with hz | hpos
  · have : rest1 = [] := List.length_eq_zero_iff.mp hz
    subst this
    rw [whileBlocks_small _ _ _ _ (by decide)]
    simp only [List.length_nil, Nat.lt_irrefl, if_false, runM, List.append_nil]
    exact ⟨hi1, trivial⟩
  · have hn0 : e1.num % 8 = 0 := by
      rcases hor with h' | h'
      · rw [hnum1]; exact h'
      · simp [h'] at hpos
    obtain ⟨⟨h1, h1'⟩, h2, used, h3, h4⟩ :=
      whileBlocks_refines 8 (by decide) magmaCtrBody (ksStep (mctrNext box sec)) mctrAbs
        (fun e => MctrInv box sec e ∧ e.num % 8 = 0)
        (fun s xs hs hx => magmaCtrBody_refines box sec hsec s xs hs hx) e1 ⟨hi1, hn0⟩ rest1
    generalize whileBlocks 8 magmaCtrBody e1 rest1 = r at *
    obtain ⟨e', out, rest⟩ := r
    simp only at h1 h1' h2 h3 h4 ⊢
    subst h3
    rw [runM_append, h4]
    by_cases hr : 0 < rest.length
    · obtain ⟨hg, g1, g2, g3, g4, g5, g6⟩ := magmaCtrGamma_refines box sec hsec e' h1 h1'
      have hne : rest ≠ [] := List.length_pos_iff.mp hr
      have hmod : ((magmaCtrGamma e').num + rest.length) % 2^32 % 8 = rest.length := by omega
      simp only [if_pos hr, xorB_take_left]
      refine ⟨⟨g1, g2, g3, Nat.mod_lt _ (by decide), fun hs => ?_⟩, ?_⟩
      · have := g6 hs
        simp only
        rw [Nat.mod_eq_of_lt (by omega)]; omega
      · have habs : mctrAbs e' = ((magma_get_key e'.cctx, e'.iv, mctrPos e'.key_meshing e'.num), []) := by
          simp [mctrAbs, h1']
        have hlen := mctrNext_len box sec (magma_get_key e'.cctx, e'.iv, mctrPos e'.key_meshing e'.num)
        rw [habs, ks_block _ _ _ hne (by omega), hg]
        have hr0 : rest.length ≠ 0 := by omega
        simp only [mctrAbs, hmod, hr0, if_false, g2, List.append_assoc]
        congr 3
        congr 1
        by_cases hs : sec = 0
        · simp [mctrPos, hs]
        · have := g6 hs
          simp only [mctrPos, hs, if_false]
          rw [Nat.mod_eq_of_lt (a := (magmaCtrGamma e').num + _) (by omega)]; omega
    · have hnil : rest = [] := List.length_eq_zero_iff.mp (by omega)
      subst hnil
      simp only [List.length_nil, Nat.lt_irrefl, if_false, runM, List.append_nil]
      exact ⟨h1, trivial⟩

/-- After `j` blocks: the key number, the counter and the position in the section. -/
theorem mctr_iter (box : KBox) (sec : Nat) (hdvd : 8 ∣ sec) (K iv : Bytes) (hiv : iv.length = 8) (j : Nat) :
    iter (fun i => (mctrNext box sec i).1) j (K, iv, 0) =
      (if sec = 0 then (K, ctrBlock 8 iv j, 0)
       else (iter (Spec.acpkm 8 (EMagma box)) ((j - 1) * 8 / sec) K, ctrBlock 8 iv j,
              if j = 0 then 0 else (j - 1) * 8 % sec + 8)) := by
  induction j with
  | zero => simp [iter, ctrBlock_zero 8 iv hiv]
  | succ j ih =>
    rw [iter_succ_out, ih]
    by_cases hs : sec = 0
    · subst hs
      simp [mctrNext, ctrBlock_succ]
    · simp only [hs, if_false, mctrNext, Nat.add_sub_cancel]
      obtain ⟨m, hm⟩ := hdvd
      have hmpos : 0 < m := by omega
      have hsecpos : 0 < sec := by omega
      by_cases hj : j = 0
      · subst hj
        simp [ctrBlock_succ, hsecpos]
      · obtain ⟨i, rfl⟩ : ∃ i, j = i + 1 := ⟨j - 1, by omega⟩
        simp only [Nat.add_sub_cancel, show i + 1 ≠ 0 by omega, if_false, show i + 1 + 1 ≠ 0 by omega]
        have hq : ∀ x, x * 8 / sec = x / m := by
          intro x; rw [hm, Nat.mul_comm 8 m]; exact Nat.mul_div_mul_right x m (by decide)
        have hr : ∀ x, x * 8 % sec = (x % m) * 8 := by
          intro x; rw [hm, Nat.mul_comm 8 m]; exact Nat.mul_mod_mul_right 8 x m
        rw [hq, hq, hr, hr]
        by_cases hlt : i % m * 8 + 8 < sec
        · have h1 : i % m + 1 < m := by omega
          have h2 : (i + 1) / m = i / m ∧ (i + 1) % m = i % m + 1 := by
            have := Nat.div_add_mod i m
            have e : i + 1 = (i % m + 1) + m * (i / m) := by omega
            constructor
            · rw [e, Nat.add_mul_div_left _ _ hmpos, Nat.div_eq_of_lt h1]; omega
            · rw [e, Nat.add_mul_mod_self_left, Nat.mod_eq_of_lt h1]
          simp only [hlt, if_true, h2, ctrBlock_succ]
          congr 2; omega
        · have hlt2 := Nat.mod_lt i hmpos
          have h1 : i % m + 1 = m := by omega
          have h2 : (i + 1) / m = i / m + 1 ∧ (i + 1) % m = 0 := by
            have := Nat.div_add_mod i m
            have e : i + 1 = m * (i / m + 1) := by rw [Nat.mul_add]; omega
            constructor
            · rw [e, Nat.mul_div_cancel_left _ hmpos]
            · rw [e, Nat.mul_mod_right]
          simp only [hlt, if_false, h2, ctrBlock_succ, iter_succ_out, Nat.zero_mul]

theorem mctr_gamma (box : KBox) (sec : Nat) (hdvd : 8 ∣ sec) (K iv : Bytes) (hiv : iv.length = 8) (j : Nat) :
    (mctrNext box sec (iter (fun i => (mctrNext box sec i).1) j (K, iv, 0))).2 =
      ctrAcpkmGamma 8 (EMagma box) (Spec.acpkm 8 (EMagma box)) sec K iv j := by
  have h1 := mctr_iter box sec hdvd K iv hiv j
  have h2 := mctr_iter box sec hdvd K iv hiv (j + 1)
  rw [iter_succ_out, h1] at h2
  rw [h1]
  unfold ctrAcpkmGamma
  by_cases hs : sec = 0
  · subst hs
    simp [mctrNext]
  · simp only [hs, if_false, Nat.add_sub_cancel] at h2 ⊢
    have h3 := congrArg (fun x => x.1) h2
    simp only [mctrNext, hs, if_false] at h3 ⊢
    rw [h3]

/-- Only the section size rounded up to whole blocks matters. -/
theorem mctrNext_round (box : KBox) (sec : Nat) (k v : Bytes) (n : Nat) (hn : 8 ∣ n) :
    mctrNext box sec (k, v, n) = mctrNext box ((sec + 7) / 8 * 8) (k, v, n) := by
  obtain ⟨m, rfl⟩ := hn
  have h0 : ((sec + 7) / 8 * 8 = 0) ↔ sec = 0 := by omega
  have h1 : (8 * m < (sec + 7) / 8 * 8) ↔ 8 * m < sec := by omega
  simp only [mctrNext, h0, h1]

theorem mctr_iter_round (box : KBox) (sec : Nat) (K iv : Bytes) (j : Nat) :
    8 ∣ (iter (fun i => (mctrNext box sec i).1) j (K, iv, 0)).2.2 ∧
    iter (fun i => (mctrNext box sec i).1) j (K, iv, 0) =
      iter (fun i => (mctrNext box ((sec + 7) / 8 * 8) i).1) j (K, iv, 0) := by
  induction j with
  | zero => simp [iter]
  | succ j ih =>
    rw [iter_succ_out, iter_succ_out, ← ih.2]
    generalize iter (fun i => (mctrNext box sec i).1) j (K, iv, 0) = s at *
    obtain ⟨k, v, n⟩ := s
    refine ⟨?_, by rw [mctrNext_round box sec k v n ih.1]⟩
    have := ih.1
    simp only [mctrNext] at this ⊢
    split
    · simp
    · split <;> simp <;> omega

/-- Histories of Magma CTR / CTR-ACPKM update calls: closed form. -/
theorem mctr_history (box : KBox) (sec : Nat) (hsec : sec < 2^32 - 8) (e : CipherCtx)
    (h : MctrInv box sec e) (h0 : e.num = 0) (hiv : e.iv.length = 8) (chunks : List Bytes) :
    (feed magma_cipher_do_ctr e chunks).2 =
      xorStream 8 (ctrAcpkmGamma 8 (EMagma box) (Spec.acpkm 8 (EMagma box)) ((sec + 7) / 8 * 8)
        (magma_get_key e.cctx) e.iv) chunks.flatten := by
  obtain ⟨_, h2⟩ := feed_refines magma_cipher_do_ctr (ksStep (mctrNext box sec)) mctrAbs (MctrInv box sec)
    (fun s xs hs => do_ctr_refines box sec hsec s xs hs) e h chunks
  have hk := ks_closed (mctrNext box sec) 8 (by decide) (fun _ => True)
    (fun i _ => ⟨trivial, mctrNext_len box sec i⟩) (magma_get_key e.cctx, e.iv, 0) trivial chunks.flatten
  have habs : mctrAbs e = ((magma_get_key e.cctx, e.iv, 0), []) := by simp [mctrAbs, h0, mctrPos]
  rw [habs] at h2
  rw [h2] at hk
  rw [hk]
  have hg : ∀ j, (mctrNext box sec (iter (fun i => (mctrNext box sec i).1) j (magma_get_key e.cctx, e.iv, 0))).2 =
      ctrAcpkmGamma 8 (EMagma box) (Spec.acpkm 8 (EMagma box)) ((sec + 7) / 8 * 8) (magma_get_key e.cctx) e.iv j := by
    intro j
    rw [← mctr_gamma box ((sec + 7) / 8 * 8) ⟨_, Nat.mul_comm _ _⟩ _ _ hiv j]
    obtain ⟨r1, r2⟩ := mctr_iter_round box sec (magma_get_key e.cctx) e.iv j
    rw [← r2]
    generalize iter (fun i => (mctrNext box sec i).1) j (magma_get_key e.cctx, e.iv, 0) = s at *
    obtain ⟨k, v, n⟩ := s
    rw [mctrNext_round box sec k v n r1]
  rw [funext hg]

end Gost
