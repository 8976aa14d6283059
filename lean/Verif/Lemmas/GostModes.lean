import Verif.Model.GostModes
import Verif.Lemmas.Gost89Key

/-! # GOST 28147-89 CNT, CFB, CBC and Magma CTR/CBC/ECB: refinement proofs -/

namespace Gost
open Spec

theorem xor_eq_xorB : Spec.xor = xorB := rfl

/-- The mesh function on keys. -/
abbrev mesh89 (box : KBox) : Bytes → Bytes := cryptoProMesh (D89 box)

/-! ### CNT -/

/-- Abstract generator of CNT: key, counter, byte counter. -/
def cntNext (box : KBox) (on : Bool) : Bytes × Bytes × Nat → (Bytes × Bytes × Nat) × Bytes
  | (k, v, n) =>
    let kv := if on ∧ n = 1024 then meshed (E89 box) (mesh89 box) k v else (k, v)
    let b := cntAdd (if n = 0 then E89 box kv.1 kv.2 else kv.2)
    ((kv.1, b, n % 1024 + 8), E89 box kv.1 b)

theorem cntNext_neg {box : KBox} {on : Bool} {k v : Bytes} {n : Nat} (h : ¬ (on = true ∧ n = 1024)) :
    cntNext box on (k, v, n) =
      ((k, cntAdd (if n = 0 then E89 box k v else v), n % 1024 + 8),
        E89 box k (cntAdd (if n = 0 then E89 box k v else v))) := by
  simp only [cntNext]
  rw [if_neg h]

/-- The inner state of a context. -/
def cntInner (e : CipherCtx) : Bytes × Bytes × Nat := (gost_get_key e.cctx, e.iv, e.count)

/-- Abstraction of a CNT context. -/
def cntAbs (e : CipherCtx) : (Bytes × Bytes × Nat) × Bytes :=
  (cntInner e, if e.num = 0 then [] else e.buf.drop e.num)

/-- Invariant of CNT contexts: S-boxes, meshing and direction are those of the initialisation. -/
structure CntInv (box : KBox) (on : Bool) (e : CipherCtx) : Prop where
  box : e.cctx.box = box
  on : (e.key_meshing ≠ 0) ↔ on = true
  buf : e.buf.length = 8
  num : e.num < 8

theorem gost_cnt_next_refines (box : KBox) (on : Bool) (e : CipherCtx) (h : CntInv box on e) :
    cntNext box on (cntInner e) = (cntInner (gost_cnt_next e), (gost_cnt_next e).buf) ∧
    CntInv box on (gost_cnt_next e) ∧ (gost_cnt_next e).num = e.num ∧
    (gost_cnt_next e).buf.length = 8 := by
  obtain ⟨h1, h2, h3, h4⟩ := h
  have hm := meshing_eq e.cctx e.iv
  by_cases hc : e.key_meshing ≠ 0 ∧ e.count = 1024
  · have hne : e.count ≠ 0 := by omega
    have hon : on = true := h2.mp hc.1
    unfold gost_cnt_next
    simp only [hc, ne_eq, not_false_eq_true, and_self, if_true, cntNext, cntInner, hon, meshed]
    refine ⟨?_, ⟨?_, ?_, ?_, ?_⟩, trivial, ?_⟩
    · simp only [gostcrypt_eq, hm.2.1, hm.1, hm.2.2, h1]
    · simp [hm.1, h1]
    · simpa [hon] using hc.1
    · simp
    · exact h4
    · simp
  · have hon : ¬ (on = true ∧ e.count = 1024) := by rw [← h2]; exact hc
    unfold gost_cnt_next
    rw [cntInner, cntNext_neg hon]
    simp only [if_neg hc, cntInner, gostcrypt_eq, h1]
    exact ⟨trivial, ⟨h1, h2, by simp, h4⟩, trivial, by simp⟩

theorem cntNext_len (box : KBox) (on : Bool) (s : Bytes × Bytes × Nat) : (cntNext box on s).2.length = 8 := by
  simp [cntNext]

theorem cntBody_refines (box : KBox) (on : Bool) (e : CipherCtx) (xs : Bytes)
    (h : CntInv box on e ∧ e.num = 0) (hx : xs.length = 8) :
    (CntInv box on (cntBody e xs).1 ∧ (cntBody e xs).1.num = 0) ∧
    runM (ksStep (cntNext box on)) (cntAbs e) xs = (cntAbs (cntBody e xs).1, (cntBody e xs).2) := by
  obtain ⟨hr, hi, hn, hl⟩ := gost_cnt_next_refines box on e h.1
  refine ⟨⟨hi, by rw [cntBody]; exact hn.trans h.2⟩, ?_⟩
  have hne : xs ≠ [] := by intro hh; simp [hh] at hx
  have hlen := cntNext_len box on (cntInner e)
  simp only [cntAbs, h.2, if_true, cntBody, hn]
  rw [ks_block _ _ _ hne (by omega), hr]
  rw [List.drop_eq_nil_of_le (by simp only [hl]; omega), xorB_comm]

theorem cntMain_refines (box : KBox) (on : Bool) (e : CipherCtx) (xs : Bytes)
    (h : CntInv box on e) (h0 : e.num = 0) :
    CntInv box on (cntMain e xs).1 ∧
    runM (ksStep (cntNext box on)) (cntAbs e) xs = (cntAbs (cntMain e xs).1, (cntMain e xs).2) := by
  obtain ⟨⟨h1, h1'⟩, h2, used, h3, h4⟩ :=
    whileBlocks_refines 8 (by decide) cntBody (ksStep (cntNext box on)) cntAbs
      (fun e => CntInv box on e ∧ e.num = 0) (fun s xs hs hx => cntBody_refines box on s xs hs hx)
      e ⟨h, h0⟩ xs
  unfold cntMain
  generalize whileBlocks 8 cntBody e xs = r at *
  obtain ⟨e', out, rest⟩ := r
  simp only at h1 h1' h2 h3 h4 ⊢
  subst h3
  rw [runM_append, h4]
  by_cases hr : 0 < rest.length
  · obtain ⟨hr1, hi, hn, hl⟩ := gost_cnt_next_refines box on e' h1
    have hne : rest ≠ [] := List.length_pos_iff.mp hr
    have hlen := cntNext_len box on (cntInner e')
    simp only [if_pos hr]
    refine ⟨⟨hi.box, hi.on, hl, by simpa using h2⟩, ?_⟩
    simp only [cntAbs, h1', if_true]
    rw [ks_block _ _ _ hne (by omega), hr1]
    have : rest.length ≠ 0 := by omega
    simp only [this, if_false]
    congr 2
    exact (xorB_take_left _ _ ).symm
  · have hnil : rest = [] := List.length_eq_zero_iff.mp (by omega)
    subst hnil
    simp only [List.length_nil, Nat.lt_irrefl, if_false, runM, List.append_nil]
    refine ⟨⟨h1.box, h1.on, h1.buf, by simp⟩, ?_⟩
    simp only [cntAbs, h1', if_true]; rfl

theorem do_cnt_refines (box : KBox) (on : Bool) (e : CipherCtx) (xs : Bytes) (h : CntInv box on e) :
    CntInv box on (gost_cipher_do_cnt e xs).1 ∧
    runM (ksStep (cntNext box on)) (cntAbs e) xs =
      (cntAbs (gost_cipher_do_cnt e xs).1, (gost_cipher_do_cnt e xs).2) := by
  unfold gost_cipher_do_cnt
  by_cases h0 : e.num = 0
  · simp only [h0, ne_eq, not_true_eq_false, if_false]
    exact cntMain_refines box on e xs h h0
  · have hlt := h.num
    have hb := h.buf
    rw [if_pos h0, xorPart_eq 8 e.buf hb e.num xs (by omega)]
    simp only
    by_cases hlong : 8 - e.num ≤ xs.length
    · rw [if_pos (by omega)]
      obtain ⟨hm1, hm2⟩ := cntMain_refines box on { e with num := 0 } (xs.drop (8 - e.num))
        ⟨h.box, h.on, h.buf, by simp⟩ rfl
      refine ⟨hm1, ?_⟩
      conv => lhs; rw [← List.take_append_drop (8 - e.num) xs]
      rw [runM_append]
      have hlen : (xs.take (8 - e.num)).length = 8 - e.num := by simp; omega
      have hk := ks_rest (cntNext box on) (cntInner e) (e.buf.drop e.num) (xs.take (8 - e.num))
        (by simp; omega)
      have habs : cntAbs e = (cntInner e, e.buf.drop e.num) := by simp [cntAbs, h0]
      rw [habs, hk]
      have hdrop : (e.buf.drop e.num).drop (xs.take (8 - e.num)).length = [] := by
        apply List.drop_eq_nil_of_le; simp; omega
      rw [hdrop]
      have habs2 : cntAbs { e with num := 0 } = (cntInner e, []) := by simp [cntAbs, cntInner]
      rw [habs2] at hm2
      simp only [hm2]
    · rw [if_neg (by omega)]
      refine ⟨⟨h.box, h.on, h.buf, by simp; omega⟩, ?_⟩
      have habs : cntAbs e = (cntInner e, e.buf.drop e.num) := by simp [cntAbs, h0]
      rw [habs, ks_rest _ _ _ _ (by simp; omega), List.take_of_length_le (by omega)]
      simp only [cntAbs, cntInner, List.drop_drop]
      rw [show min (8 - e.num) xs.length = xs.length by omega, if_neg (by omega)]

/-- Key and counter value about to be used. -/
def cntPre (box : KBox) (on : Bool) : Bytes × Bytes × Nat → Bytes × Bytes
  | (k, v, n) =>
    let kv := if on ∧ n = 1024 then meshed (E89 box) (mesh89 box) k v else (k, v)
    (kv.1, if n = 0 then E89 box kv.1 kv.2 else kv.2)

theorem cntNext_pre (box : KBox) (on : Bool) (k v : Bytes) (n : Nat) :
    cntNext box on (k, v, n) =
      (((cntPre box on (k, v, n)).1, cntAdd (cntPre box on (k, v, n)).2, n % 1024 + 8),
        E89 box (cntPre box on (k, v, n)).1 (cntAdd (cntPre box on (k, v, n)).2)) := rfl

/-- The byte counter after `j` generated blocks. -/
def cntCount (j : Nat) : Nat := if j = 0 then 0 else 8 * ((j - 1) % 128 + 1)

theorem cntCount_succ (j : Nat) : cntCount j % 1024 + 8 = cntCount (j + 1) := by
  unfold cntCount
  split <;> simp <;> omega

theorem cntCount_le (j : Nat) : cntCount j ≤ 1024 := by
  unfold cntCount; split <;> omega

theorem cntCount_mesh (j : Nat) (h : j ≠ 0) : cntCount j = 1024 ↔ (8 * j) % 1024 = 0 := by
  unfold cntCount; rw [if_neg h]; omega

theorem cnt_iter (box : KBox) (on : Bool) (K iv : Bytes) (j : Nat) :
    (iter (fun i => (cntNext box on i).1) j (K, iv, 0)).2.2 = cntCount j ∧
    cntPre box on (iter (fun i => (cntNext box on i).1) j (K, iv, 0)) =
      cntState (E89 box) (mesh89 box) cntAdd on K iv j := by
  induction j with
  | zero =>
    refine ⟨rfl, ?_⟩
    simp [iter, cntPre, cntState]
  | succ j ih =>
    rw [iter_succ_out]
    generalize iter (fun i => (cntNext box on i).1) j (K, iv, 0) = s at *
    obtain ⟨k, v, n⟩ := s
    obtain ⟨ih1, ih2⟩ := ih
    simp only at ih1
    subst ih1
    rw [cntNext_pre, ih2]
    refine ⟨cntCount_succ j, ?_⟩
    rw [cntCount_succ]
    have h1 : cntCount (j + 1) ≠ 0 := by unfold cntCount; simp
    have h2 := cntCount_mesh (j + 1) (by omega)
    simp only [cntPre, cntState]
    by_cases hc : on = true ∧ 8 * (j + 1) % 1024 = 0
    · rw [if_pos (⟨hc.1, h2.mpr hc.2⟩ : on = true ∧ cntCount (j+1) = 1024), if_neg h1, if_pos hc]
    · rw [if_neg (show ¬ (on = true ∧ cntCount (j+1) = 1024) by rw [h2]; exact hc), if_neg h1, if_neg hc]

theorem cnt_gamma (box : KBox) (on : Bool) (K iv : Bytes) (j : Nat) :
    (cntNext box on (iter (fun i => (cntNext box on i).1) j (K, iv, 0))).2 =
      cntGamma (E89 box) (mesh89 box) cntAdd on K iv j := by
  obtain ⟨h1, h2⟩ := cnt_iter box on K iv j
  generalize iter (fun i => (cntNext box on i).1) j (K, iv, 0) = s at *
  obtain ⟨k, v, n⟩ := s
  rw [cntNext_pre, h2]
  rfl

/-- Histories of CNT update calls: closed form. -/
theorem cnt_history (box : KBox) (on : Bool) (e : CipherCtx) (h : CntInv box on e) (h0 : e.num = 0)
    (hc : e.count = 0) (chunks : List Bytes) :
    (feed gost_cipher_do_cnt e chunks).2 =
      xorStream 8 (cntGamma (E89 box) (mesh89 box) cntAdd on (gost_get_key e.cctx) e.iv) chunks.flatten := by
  obtain ⟨_, h2⟩ := feed_refines gost_cipher_do_cnt (ksStep (cntNext box on)) cntAbs (CntInv box on)
    (fun s xs hs => do_cnt_refines box on s xs hs) e h chunks
  have hk := ks_closed (cntNext box on) 8 (by decide) (fun _ => True)
    (fun i _ => ⟨trivial, cntNext_len box on i⟩) (gost_get_key e.cctx, e.iv, 0) trivial chunks.flatten
  have habs : cntAbs e = ((gost_get_key e.cctx, e.iv, 0), []) := by simp [cntAbs, cntInner, h0, hc]
  rw [habs] at h2
  rw [h2] at hk
  rw [hk, ← funext (cnt_gamma box on _ _)]

end Gost
