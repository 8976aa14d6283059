import Verif.Lemmas.KuzCtr

/-! # Kuznyechik CTR, OFB and CFB: refinement proofs -/

namespace Gost
open Spec

/-! ### Plain CTR -/

/-- Generator of CTR under key `K`: the counter. -/
def kctrNext (K : Bytes) (v : Bytes) : Bytes × Bytes := (inc_counter v 16, EKuz K v)

def kctrAbs (e : KCtx) : Bytes × Bytes := (e.iv, if e.num = 0 then [] else e.partial_buffer.drop e.num)

structure KctrInv (K : Bytes) (e : KCtx) : Prop where
  facts : KFacts e
  key : e.key = K
  buf : e.partial_buffer.length = 16
  num : e.num < 16

theorem kctrNext_len (K v : Bytes) : (kctrNext K v).2.length = 16 := by simp [kctrNext]

theorem kCtrPart_eq (pb : Bytes) (hpb : pb.length = 16) (n : Nat) (hn : n < 16) (inp : Bytes) :
    kCtrPart pb n inp =
      (if n = 0 then (0, [], inp) else
        ((n + min (16 - n) inp.length) % 16, xorB (inp.take (16 - n)) (pb.drop n), inp.drop (16 - n))) := by
  induction inp generalizing n with
  | nil =>
    unfold kCtrPart
    split
    · next h => rw [h]
    · simp; omega
  | cons x xs ih =>
    rw [kCtrPart]
    by_cases h : n = 0
    · simp [h]
    · rw [if_pos h, if_neg h, ih ((n + 1) % 16) (by omega)]
      obtain ⟨m, hm⟩ : ∃ m, 16 - n = m + 1 := ⟨16 - n - 1, by omega⟩
      have hlt : n < pb.length := by omega
      have hx : at_ pb n = pb[n] := by
        simp only [at_]; rw [List.getD_eq_getElem?_getD, List.getElem?_eq_getElem hlt]; rfl
      rw [List.drop_eq_getElem_cons hlt]
      simp only [hm, List.take_succ_cons, List.drop_succ_cons, List.length_cons, xorB_cons, hx]
      by_cases h7 : (n + 1) % 16 = 0
      · have hm0 : m = 0 := by omega
        rw [if_pos h7, hm0]
        simp only [List.take_zero, List.drop_zero, xorB_nil_left]
        congr 1
        have : min (0 + 1) (xs.length + 1) = 1 := by omega
        rw [this]; omega
      · have e1 : (n + 1) % 16 = n + 1 := by omega
        rw [if_neg h7, e1, show 16 - (n + 1) = m by omega]
        congr 1; omega

theorem kCtrBody_refines (K : Bytes) (e : KCtx) (xs : Bytes) (h : KctrInv K e ∧ e.num = 0) (hx : xs.length = 16) :
    (KctrInv K (kCtrBody e xs).1 ∧ (kCtrBody e xs).1.num = 0) ∧
    runM (ksStep (kctrNext K)) (kctrAbs e) xs = (kctrAbs (kCtrBody e xs).1, (kCtrBody e xs).2) := by
  obtain ⟨⟨h1, h2, h3, h4⟩, h0⟩ := h
  have henc := h1.ok.enc e.iv h1.2.2.2
  rw [h2] at henc
  have hinc : (inc_counter e.iv 16).length = 16 := by rw [inc_counter_length]; exact h1.2.2.2
  have hne : xs ≠ [] := by intro hh; simp [hh] at hx
  have habs : kctrAbs e = (e.iv, []) := by simp [kctrAbs, h0]
  have hb : kCtrBody e xs = ({ e with partial_buffer := EKuz K e.iv, iv := inc_counter e.iv 16 },
      xorB (EKuz K e.iv) xs) := by simp only [kCtrBody, henc]
  have hb' : kctrAbs { e with partial_buffer := EKuz K e.iv, iv := inc_counter e.iv 16 } =
      (inc_counter e.iv 16, []) := by simp [kctrAbs, h0]
  rw [hb]
  refine ⟨⟨⟨⟨h1.1, h1.2.1, h1.2.2.1, hinc⟩, h2, by simp, h4⟩, h0⟩, ?_⟩
  rw [hb', habs, ks_block _ _ _ hne (by rw [kctrNext_len]; omega)]
  simp only [kctrNext]
  rw [List.drop_eq_nil_of_le (by simp; omega), xorB_comm]

theorem do_kctr_refines (K : Bytes) (e : KCtx) (xs : Bytes) (h : KctrInv K e) :
    KctrInv K (gost_grasshopper_cipher_do_ctr e xs).1 ∧
    runM (ksStep (kctrNext K)) (kctrAbs e) xs =
      (kctrAbs (gost_grasshopper_cipher_do_ctr e xs).1, (gost_grasshopper_cipher_do_ctr e xs).2) := by
  have hp := kCtrPart_eq e.partial_buffer h.buf e.num h.num xs
  have phase1 : ∃ used, xs = used ++ (kCtrPart e.partial_buffer e.num xs).2.2 ∧
      KctrInv K { e with num := (kCtrPart e.partial_buffer e.num xs).1 } ∧
      ((kCtrPart e.partial_buffer e.num xs).1 = 0 ∨ (kCtrPart e.partial_buffer e.num xs).2.2 = []) ∧
      runM (ksStep (kctrNext K)) (kctrAbs e) used =
        (kctrAbs { e with num := (kCtrPart e.partial_buffer e.num xs).1 }, (kCtrPart e.partial_buffer e.num xs).2.1) := by
    rw [hp]
    have hnum := h.num
    have hb := h.buf
    by_cases h0 : e.num = 0
    · rw [if_pos h0]
      exact ⟨[], by simp, ⟨h.facts, h.key, h.buf, by simp⟩, Or.inl rfl, by simp [runM, kctrAbs, h0]⟩
    · rw [if_neg h0]
      refine ⟨xs.take (16 - e.num), by simp, ⟨h.facts, h.key, h.buf, Nat.mod_lt _ (by decide)⟩, ?_, ?_⟩
      · by_cases hl : 16 - e.num ≤ xs.length
        · left; simp only; omega
        · right; simp only; exact List.drop_eq_nil_of_le (by omega)
      · have habs : kctrAbs e = (e.iv, e.partial_buffer.drop e.num) := by simp [kctrAbs, h0]
        rw [habs, ks_rest _ _ _ _ (by simp; omega)]
        simp only [kctrAbs, List.drop_drop, List.length_take]
        congr 2
        by_cases hl : 16 - e.num ≤ xs.length
        · rw [if_pos (by omega)]
          exact List.drop_eq_nil_of_le (by omega)
        · rw [if_neg (by omega)]
          congr 1; omega
  obtain ⟨u1, hx1, hi1, hor, hr1⟩ := phase1
  unfold gost_grasshopper_cipher_do_ctr
  generalize kCtrPart e.partial_buffer e.num xs = p at *
  obtain ⟨num', out1, rest1⟩ := p
  simp only at hx1 hi1 hor hr1 ⊢
  clear hp
  subst hx1
  rw [runM_append, hr1]
  generalize he1 : ({ e with num := num' } : KCtx) = e1 at *
  have hnum1 : e1.num = num' := by rw [← he1]
  clear he1
  rcases Nat.eq_zero_or_pos rest1.length with hz | hpos
  · have : rest1 = [] := List.length_eq_zero_iff.mp hz
    subst this
    rw [whileBlocks_small _ _ _ _ (by decide)]
    simp only [List.length_nil, Nat.lt_irrefl, if_false, runM, List.append_nil]
    exact ⟨hi1, trivial⟩
  · have hn0 : e1.num = 0 := by
      rcases hor with h' | h'
      · rw [hnum1]; exact h'
      · simp [h'] at hpos
    obtain ⟨⟨h1, h1'⟩, h2, used, h3, h4⟩ :=
      whileBlocks_refines 16 (by decide) kCtrBody (ksStep (kctrNext K)) kctrAbs
        (fun e => KctrInv K e ∧ e.num = 0)
        (fun s xs hs hx => kCtrBody_refines K s xs hs hx) e1 ⟨hi1, hn0⟩ rest1
    generalize whileBlocks 16 kCtrBody e1 rest1 = r at *
    obtain ⟨e', out, rest⟩ := r
    simp only at h1 h1' h2 h3 h4 ⊢
    subst h3
    rw [runM_append, h4]
    by_cases hr : 0 < rest.length
    · have hne : rest ≠ [] := List.length_pos_iff.mp hr
      have henc := h1.facts.ok.enc e'.iv h1.facts.2.2.2
      rw [h1.key] at henc
      have hinc : (inc_counter e'.iv 16).length = 16 := by rw [inc_counter_length]; exact h1.facts.2.2.2
      simp only [if_pos hr, xorB_take_left, henc]
      refine ⟨⟨⟨h1.facts.1, h1.facts.2.1, h1.facts.2.2.1, hinc⟩, h1.key, by simp, h2⟩, ?_⟩
      have habs : kctrAbs e' = (e'.iv, []) := by simp [kctrAbs, h1']
      have hr0 : rest.length ≠ 0 := by omega
      rw [habs, ks_block _ _ _ hne (by rw [kctrNext_len]; omega)]
      simp only [kctrAbs, kctrNext]
      rw [if_neg hr0, List.append_assoc]
    · have hnil : rest = [] := List.length_eq_zero_iff.mp (by omega)
      subst hnil
      simp only [List.length_nil, Nat.lt_irrefl, if_false, runM, List.append_nil]
      exact ⟨h1, trivial⟩

theorem kctr_iter (K iv : Bytes) (hiv : iv.length = 16) (j : Nat) :
    iter (fun i => (kctrNext K i).1) j iv = ctrBlock 16 iv j := by
  induction j with
  | zero => exact (ctrBlock_zero 16 iv hiv).symm
  | succ j ih => rw [iter_succ_out, ih, ctrBlock_succ]; simp only [kctrNext]

theorem kctr_history (e : KCtx) (h : KctrInv e.key e) (h0 : e.num = 0) (chunks : List Bytes) :
    (feed gost_grasshopper_cipher_do_ctr e chunks).2 =
      xorStream 16 (ctrGamma 16 (EKuz e.key) e.iv) chunks.flatten := by
  obtain ⟨_, h2⟩ := feed_refines gost_grasshopper_cipher_do_ctr (ksStep (kctrNext e.key)) kctrAbs (KctrInv e.key)
    (fun s xs hs => do_kctr_refines e.key s xs hs) e h chunks
  have hk := ks_closed (kctrNext e.key) 16 (by decide) (fun _ => True)
    (fun i _ => ⟨trivial, kctrNext_len _ i⟩) e.iv trivial chunks.flatten
  have habs : kctrAbs e = (e.iv, []) := by simp [kctrAbs, h0]
  rw [habs] at h2
  rw [h2] at hk
  rw [hk]
  congr 1
  funext j
  rw [kctr_iter _ _ h.facts.2.2.2]; simp only [kctrNext, ctrGamma]

/-! ### `whileBlocksLt` -/

theorem whileBlocksLt_refines {S A : Type} (bl : Nat) (hb : 0 < bl) (body : S → Bytes → S × Bytes)
    (step : A → Byte → A × Byte) (abs : S → A) (Inv : S → Prop)
    (h : ∀ s xs, Inv s → xs.length = bl →
      Inv (body s xs).1 ∧ runM step (abs s) xs = (abs (body s xs).1, (body s xs).2))
    (s : S) (hs : Inv s) (inp : Bytes) :
    Inv (whileBlocksLt bl body s inp).1 ∧
    (whileBlocksLt bl body s inp).2.2.length ≤ bl ∧
    ∃ used, inp = used ++ (whileBlocksLt bl body s inp).2.2 ∧
      runM step (abs s) used = (abs (whileBlocksLt bl body s inp).1, (whileBlocksLt bl body s inp).2.1) := by
  generalize hn : inp.length = n
  induction n using Nat.strongRecOn generalizing s inp with
  | ind n ih =>
    subst hn
    by_cases hlt : inp.length ≤ bl
    · rw [whileBlocksLt, dif_neg (by omega)]
      exact ⟨hs, hlt, [], by simp, rfl⟩
    · have hlen : (inp.take bl).length = bl := by simp; omega
      obtain ⟨hi, he⟩ := h s (inp.take bl) hs hlen
      obtain ⟨h1, h2, used, h3, h4⟩ := ih (inp.drop bl).length (by simp; omega) _ hi (inp.drop bl) rfl
      have heq : whileBlocksLt bl body s inp =
        ((whileBlocksLt bl body (body s (inp.take bl)).1 (inp.drop bl)).1,
         (body s (inp.take bl)).2 ++ (whileBlocksLt bl body (body s (inp.take bl)).1 (inp.drop bl)).2.1,
         (whileBlocksLt bl body (body s (inp.take bl)).1 (inp.drop bl)).2.2) := by
        conv => lhs; rw [whileBlocksLt, dif_pos ⟨hb, by omega⟩]
      rw [heq]
      refine ⟨h1, h2, inp.take bl ++ used, ?_, ?_⟩
      · simp only [List.append_assoc]
        rw [← h3, List.take_append_drop]
      · rw [runM_append, he]
        simp only [h4]

/-! ### OFB -/

def kofbNext (K : Bytes) (v : Bytes) : Bytes × Bytes := (EKuz K v, EKuz K v)

def kofbAbs (e : KCtx) : Bytes × Bytes := (e.iv, if e.num = 0 then [] else e.buf.drop e.num)

structure KofbInv (K : Bytes) (e : KCtx) : Prop where
  facts : KFacts e
  key : e.key = K
  buf : e.buf.length = 16
  num : e.num ≤ 16

theorem kofbNext_eq (K v : Bytes) : kofbNext K v = (EKuz K v, EKuz K v) := by rw [kofbNext]

theorem kofbNext_len (K v : Bytes) : (kofbNext K v).2.length = 16 := by simp [kofbNext]

theorem cnt_next_eq {K : Bytes} {e : KCtx} (h : KFacts e) (hk : e.key = K) :
    gost_grasshopper_cnt_next e = { e with buf := EKuz K e.iv, iv := EKuz K e.iv } := by
  have henc := h.ok.enc e.iv h.2.2.2
  rw [hk] at henc
  simp only [gost_grasshopper_cnt_next, henc]

theorem kOfbBody_def (e : KCtx) (xs : Bytes) :
    kOfbBody e xs = (gost_grasshopper_cnt_next e, xorB (gost_grasshopper_cnt_next e).buf xs) := rfl

theorem kOfbBody_eq {K : Bytes} {e : KCtx} (h : KFacts e) (hk : e.key = K) (xs : Bytes) :
    kOfbBody e xs = ({ e with buf := EKuz K e.iv, iv := EKuz K e.iv }, xorB (EKuz K e.iv) xs) := by
  rw [kOfbBody_def, cnt_next_eq h hk]

theorem KofbInv_set {K : Bytes} {e : KCtx} (h1 : KFacts e) (h2 : e.key = K) (h4 : e.num ≤ 16) (G : Bytes)
    (hG : G.length = 16) : KofbInv K { e with buf := G, iv := G } :=
  ⟨⟨h1.1, h1.2.1, h1.2.2.1, hG⟩, h2, hG, h4⟩

theorem kOfbBody_refines (K : Bytes) (e : KCtx) (xs : Bytes) (h : KofbInv K e ∧ e.num = 0) (hx : xs.length = 16) :
    (KofbInv K (kOfbBody e xs).1 ∧ (kOfbBody e xs).1.num = 0) ∧
    runM (ksStep (kofbNext K)) (kofbAbs e) xs = (kofbAbs (kOfbBody e xs).1, (kOfbBody e xs).2) := by
  obtain ⟨⟨h1, h2, h3, h4⟩, h0⟩ := h
  have hne : xs ≠ [] := by intro hh; simp [hh] at hx
  have hb := kOfbBody_eq h1 h2 xs
  have hGl : (EKuz K e.iv).length = 16 := EKuz_length _ _
  have hI := KofbInv_set h1 h2 h4 _ hGl
  have habs : kofbAbs e = (e.iv, []) := by simp [kofbAbs, h0]
  have hks := ks_block (kofbNext K) e.iv xs hne (by rw [kofbNext_len]; omega)
  rw [kofbNext_eq] at hks
  rw [habs, hks]
  clear hks
  generalize EKuz K e.iv = G at hb hGl hI ⊢
  have hb' : kofbAbs { e with buf := G, iv := G } = (G, []) := by simp [kofbAbs, h0]
  generalize hE : ({ e with buf := G, iv := G } : KCtx) = E at hb hI hb'
  have hn : E.num = 0 := by rw [← hE]; exact h0
  rw [hb]
  refine ⟨⟨hI, hn⟩, ?_⟩
  rw [hb', List.drop_eq_nil_of_le (by simp only; omega), xorB_comm]

theorem kOfbMain_refines (K : Bytes) (e : KCtx) (xs : Bytes) (h : KofbInv K e) (h0 : e.num = 0) :
    KofbInv K (kOfbMain e xs).1 ∧
    runM (ksStep (kofbNext K)) (kofbAbs e) xs = (kofbAbs (kOfbMain e xs).1, (kOfbMain e xs).2) := by
  obtain ⟨⟨h1, h1'⟩, h2, used, h3, h4⟩ :=
    whileBlocksLt_refines 16 (by decide) kOfbBody (ksStep (kofbNext K)) kofbAbs
      (fun e => KofbInv K e ∧ e.num = 0) (fun s xs hs hx => kOfbBody_refines K s xs hs hx) e ⟨h, h0⟩ xs
  unfold kOfbMain
  generalize whileBlocksLt 16 kOfbBody e xs = r at *
  obtain ⟨e', out, rest⟩ := r
  simp only at h1 h1' h2 h3 h4 ⊢
  subst h3
  rw [runM_append, h4]
  by_cases hr : 0 < rest.length
  · have hne : rest ≠ [] := List.length_pos_iff.mp hr
    rw [if_pos hr, cnt_next_eq h1.facts h1.key]
    simp only [xorB_take_left]
    refine ⟨⟨⟨h1.facts.1, h1.facts.2.1, h1.facts.2.2.1, EKuz_length _ _⟩, h1.key, EKuz_length _ _, h2⟩, ?_⟩
    have habs : kofbAbs e' = (e'.iv, []) := by simp [kofbAbs, h1']
    have hr0 : rest.length ≠ 0 := by omega
    rw [habs, ks_block _ _ _ hne (by rw [kofbNext_len]; omega)]
    simp only [kofbAbs, kofbNext]
    rw [if_neg hr0]
  · have hnil : rest = [] := List.length_eq_zero_iff.mp (by omega)
    subst hnil
    rw [if_neg hr]
    simp only [runM, List.append_nil]
    refine ⟨⟨h1.facts, h1.key, h1.buf, by simp⟩, ?_⟩
    simp [kofbAbs, h1']

theorem do_kofb_refines (K : Bytes) (e : KCtx) (xs : Bytes) (h : KofbInv K e) :
    KofbInv K (gost_grasshopper_cipher_do_ofb e xs).1 ∧
    runM (ksStep (kofbNext K)) (kofbAbs e) xs =
      (kofbAbs (gost_grasshopper_cipher_do_ofb e xs).1, (gost_grasshopper_cipher_do_ofb e xs).2) := by
  unfold gost_grasshopper_cipher_do_ofb
  by_cases h0 : e.num = 0
  · rw [if_neg (by omega)]
    exact kOfbMain_refines K e xs h h0
  · have hlt := h.num
    have hb := h.buf
    have habs : kofbAbs e = (e.iv, e.buf.drop e.num) := by simp [kofbAbs, h0]
    rw [if_pos (by omega), xorPart_eq 16 e.buf hb e.num xs hlt]
    simp only
    by_cases hlong : 16 - e.num ≤ xs.length
    · have hmin : min (16 - e.num) xs.length = 16 - e.num := by omega
      rw [if_pos (by omega)]
      obtain ⟨hm1, hm2⟩ := kOfbMain_refines K { e with num := 0 } (xs.drop (16 - e.num))
        ⟨h.facts, h.key, h.buf, by simp⟩ rfl
      refine ⟨hm1, ?_⟩
      conv => lhs; rw [← List.take_append_drop (16 - e.num) xs]
      rw [runM_append, habs, ks_rest _ _ _ (xs.take (16 - e.num)) (by simp; omega)]
      have hdrop : (e.buf.drop e.num).drop (xs.take (16 - e.num)).length = [] := by
        apply List.drop_eq_nil_of_le; simp; omega
      have ha : kofbAbs { e with num := 0 } = (e.iv, []) := by simp [kofbAbs]
      rw [ha] at hm2
      rw [hdrop]
      simp only [hm2]
    · have hmin : min (16 - e.num) xs.length = xs.length := by omega
      have htake : xs.take (16 - e.num) = xs := List.take_of_length_le (by omega)
      rw [hmin, if_neg (by omega), htake]
      refine ⟨⟨h.facts, h.key, h.buf, by simp; omega⟩, ?_⟩
      rw [habs, ks_rest _ _ _ _ (by simp; omega)]
      have hne : e.num + xs.length ≠ 0 := by omega
      simp only [kofbAbs, hne, if_false, List.drop_drop]

theorem kofb_history (e : KCtx) (h : KofbInv e.key e) (h0 : e.num = 0) (chunks : List Bytes) :
    (feed gost_grasshopper_cipher_do_ofb e chunks).2 =
      xorStream 16 (ofbGamma (EKuz e.key) e.iv) chunks.flatten := by
  obtain ⟨_, h2⟩ := feed_refines gost_grasshopper_cipher_do_ofb (ksStep (kofbNext e.key)) kofbAbs (KofbInv e.key)
    (fun s xs hs => do_kofb_refines e.key s xs hs) e h chunks
  have hk := ks_closed (kofbNext e.key) 16 (by decide) (fun _ => True)
    (fun i _ => ⟨trivial, kofbNext_len _ i⟩) e.iv trivial chunks.flatten
  have habs : kofbAbs e = (e.iv, []) := by simp [kofbAbs, h0]
  rw [habs] at h2
  rw [h2] at hk
  rw [hk]
  congr 1
  funext j
  rw [ofbGamma, iter_succ_out]; rfl

/-! ### CFB -/

/-- Abstract CFB machine: register (feedback bytes of the current block so far, or the complete register
when no gamma is left) and unused gamma. -/
def pcfbStep (E : Bytes → Bytes) (enc : Bool) (s : Bytes × Bytes) (x : Byte) : (Bytes × Bytes) × Byte :=
  let s := if s.2 = [] then ([], E s.1) else s
  let out := x ^^^ s.2.getD 0 0
  ((s.1 ++ [if enc then out else x], s.2.drop 1), out)

theorem pcfb_inverse (E : Bytes → Bytes) (s : Bytes × Bytes) (x : Byte) :
    pcfbStep E false s (pcfbStep E true s x).2 = ((pcfbStep E true s x).1, x) := by
  unfold pcfbStep
  split <;> simp [BitVec.xor_assoc]

theorem pcfb_rest (E : Bytes → Bytes) (enc : Bool) (s : Bytes × Bytes) (xs : Bytes) (h : xs.length ≤ s.2.length) :
    runM (pcfbStep E enc) s xs =
      ((s.1 ++ (if enc then xorB xs s.2 else xs), s.2.drop xs.length), xorB xs s.2) := by
  induction xs generalizing s with
  | nil => simp [runM]
  | cons x xs ih =>
    obtain ⟨reg, gam⟩ := s
    cases gam with
    | nil => simp at h
    | cons g gs =>
      simp only [runM, pcfbStep, List.cons_ne_nil, if_false, List.drop_succ_cons, List.drop_zero,
        List.getD_cons_zero]
      rw [ih _ (by simpa using h)]
      cases enc <;> simp

theorem pcfb_block (E : Bytes → Bytes) (enc : Bool) (r xs : Bytes) (hx : xs ≠ []) (hE : xs.length ≤ (E r).length) :
    runM (pcfbStep E enc) (r, []) xs =
      ((if enc then xorB xs (E r) else xs, (E r).drop xs.length), xorB xs (E r)) := by
  have h := pcfb_rest E enc ([], E r) xs hE
  simp only [List.nil_append] at h
  rw [← h]
  cases xs with
  | nil => exact absurd rfl hx
  | cons x xs =>
    have hne : E r ≠ [] := by intro hh; simp [hh] at hE
    simp only [runM, pcfbStep, if_true, hne, if_false]

theorem pcfb_closed_enc (E : Bytes → Bytes) (bl : Nat) (hb : 0 < bl) (hE : ∀ r, (E r).length = bl) (r xs : Bytes) :
    (runM (pcfbStep E true) (r, []) xs).2 = (cfbPlainEnc E r (blocks bl xs)).flatten := by
  generalize hn : xs.length = n
  induction n using Nat.strongRecOn generalizing r xs with
  | ind n ih =>
    subst hn
    by_cases hx : xs = []
    · subst hx; simp [runM, blocks_nil, cfbPlainEnc]
    · have hpos : 0 < xs.length := List.length_pos_iff.mpr hx
      have htake : xs.take bl ≠ [] := by
        intro h; have := congrArg List.length h
        simp only [List.length_take, List.length_nil] at this; omega
      rw [blocks_cons bl hb xs hx, cfbPlainEnc]
      conv => lhs; rw [← List.take_append_drop bl xs]
      rw [runM_append, pcfb_block _ _ _ _ htake (by simp [hE])]
      simp only [if_true, List.flatten_cons]
      congr 1
      by_cases hle : xs.length ≤ bl
      · rw [List.drop_eq_nil_of_le hle]; simp [runM, blocks_nil, cfbPlainEnc]
      · have : ((E r).drop (xs.take bl).length) = [] := by
          apply List.drop_eq_nil_of_le; simp [hE]; omega
        rw [this]
        exact ih _ (by simp; omega) _ _ rfl

theorem pcfb_closed_dec (E : Bytes → Bytes) (bl : Nat) (hb : 0 < bl) (hE : ∀ r, (E r).length = bl) (r xs : Bytes) :
    (runM (pcfbStep E false) (r, []) xs).2 = (cfbPlainDec E r (blocks bl xs)).flatten := by
  generalize hn : xs.length = n
  induction n using Nat.strongRecOn generalizing r xs with
  | ind n ih =>
    subst hn
    by_cases hx : xs = []
    · subst hx; simp [runM, blocks_nil, cfbPlainDec]
    · have hpos : 0 < xs.length := List.length_pos_iff.mpr hx
      have htake : xs.take bl ≠ [] := by
        intro h; have := congrArg List.length h
        simp only [List.length_take, List.length_nil] at this; omega
      rw [blocks_cons bl hb xs hx, cfbPlainDec]
      conv => lhs; rw [← List.take_append_drop bl xs]
      rw [runM_append, pcfb_block _ _ _ _ htake (by simp [hE])]
      simp only [Bool.false_eq_true, if_false, List.flatten_cons]
      congr 1
      by_cases hle : xs.length ≤ bl
      · rw [List.drop_eq_nil_of_le hle]; simp [runM, blocks_nil, cfbPlainDec]
      · have : ((E r).drop (xs.take bl).length) = [] := by
          apply List.drop_eq_nil_of_le; simp [hE]; omega
        rw [this]
        exact ih _ (by simp; omega) _ _ rfl

def kcfbAbs (e : KCtx) : Bytes × Bytes :=
  (if e.num = 0 then e.iv else e.stash.take e.num, if e.num = 0 then [] else e.buf.drop e.num)

structure KcfbInv (K : Bytes) (enc : Bool) (e : KCtx) : Prop where
  facts : KFacts e
  key : e.key = K
  enc : e.encrypting = enc
  buf : e.buf.length = 16
  stash : e.stash.length = 16
  num : e.num ≤ 16

theorem kCfbBody_refines (K : Bytes) (enc : Bool) (e : KCtx) (xs : Bytes) (h : KcfbInv K enc e ∧ e.num = 0)
    (hx : xs.length = 16) :
    (KcfbInv K enc (kCfbBody e xs).1 ∧ (kCfbBody e xs).1.num = 0) ∧
    runM (pcfbStep (EKuz K) enc) (kcfbAbs e) xs = (kcfbAbs (kCfbBody e xs).1, (kCfbBody e xs).2) := by
  obtain ⟨⟨h1, h2, h3, h4, h5, h6⟩, h0⟩ := h
  have henc := h1.ok.enc e.iv h1.2.2.2
  rw [h2] at henc
  have hne : xs ≠ [] := by intro hh; simp [hh] at hx
  have hb : kCfbBody e xs = ({ e with buf := EKuz K e.iv
                                      iv := if enc then xorB (EKuz K e.iv) xs else xs },
      xorB (EKuz K e.iv) xs) := by
    cases enc <;> simp [kCfbBody, henc, h3]
  have habs : kcfbAbs e = (e.iv, []) := by simp [kcfbAbs, h0]
  rw [hb]
  have hl : (if enc then xorB (EKuz K e.iv) xs else xs).length = 16 := by split <;> simp [hx]
  refine ⟨⟨⟨⟨h1.1, h1.2.1, h1.2.2.1, hl⟩, h2, h3, EKuz_length _ _, h5, h6⟩, h0⟩, ?_⟩
  rw [habs, pcfb_block _ _ _ _ hne (by simp; omega), List.drop_eq_nil_of_le (by simp; omega)]
  simp only [kcfbAbs, h0, if_true, xorB_comm xs]

theorem memcpyTo_take (dst src : Bytes) (n : Nat) (h : src.length = n) : (memcpyTo dst src n).take n = src := by
  subst h; simp [memcpyTo]

theorem memcpyTo_length (dst src : Bytes) (n : Nat) (h : n ≤ src.length) (hd : n ≤ dst.length) :
    (memcpyTo dst src n).length = dst.length := by
  simp [memcpyTo]; omega

theorem kCfbMain_refines (K : Bytes) (enc : Bool) (e : KCtx) (xs : Bytes) (h : KcfbInv K enc e) (h0 : e.num = 0) :
    KcfbInv K enc (kCfbMain e xs).1 ∧
    runM (pcfbStep (EKuz K) enc) (kcfbAbs e) xs = (kcfbAbs (kCfbMain e xs).1, (kCfbMain e xs).2) := by
  obtain ⟨⟨h1, h1'⟩, h2, used, h3, h4⟩ :=
    whileBlocksLt_refines 16 (by decide) kCfbBody (pcfbStep (EKuz K) enc) kcfbAbs
      (fun e => KcfbInv K enc e ∧ e.num = 0) (fun s xs hs hx => kCfbBody_refines K enc s xs hs hx) e ⟨h, h0⟩ xs
  unfold kCfbMain
  generalize whileBlocksLt 16 kCfbBody e xs = r at *
  obtain ⟨e', out, rest⟩ := r
  simp only at h1 h1' h2 h3 h4 ⊢
  subst h3
  rw [runM_append, h4]
  by_cases hr : 0 < rest.length
  · have hne : rest ≠ [] := List.length_pos_iff.mp hr
    have henc := h1.facts.ok.enc e'.iv h1.facts.2.2.2
    rw [h1.key] at henc
    have hst := h1.stash
    have hr0 : rest.length ≠ 0 := by omega
    have habs : kcfbAbs e' = (e'.iv, []) := by simp [kcfbAbs, h1']
    rw [if_pos hr, henc, habs, pcfb_block _ _ _ _ hne (by simp; omega)]
    have hee := h1.enc
    have hxl : (xorB rest (EKuz K e'.iv)).length = rest.length := by simp; omega
    have hx : xorB ((EKuz K e'.iv).take rest.length) rest = xorB rest (EKuz K e'.iv) := by
      rw [xorB_take_left, xorB_comm]
    generalize hG : EKuz K e'.iv = G at *
    have hGl : G.length = 16 := by rw [← hG]; exact EKuz_length _ _
    cases enc with
    | true =>
      simp only [hee, if_true, hx]
      refine ⟨⟨h1.facts, h1.key, rfl, hGl, ?_, h2⟩, ?_⟩
      · exact (memcpyTo_length _ _ _ (by omega) (by omega)).trans hst
      · simp only [kcfbAbs, hr0, if_false]
        rw [memcpyTo_take _ _ _ hxl]
    | false =>
      simp only [hee, Bool.false_eq_true, if_false, hx]
      refine ⟨⟨h1.facts, h1.key, rfl, hGl, ?_, h2⟩, ?_⟩
      · exact (memcpyTo_length _ _ _ (by omega) (by omega)).trans hst
      · simp only [kcfbAbs, hr0, if_false]
        rw [memcpyTo_take _ _ _ rfl]
  · have hnil : rest = [] := List.length_eq_zero_iff.mp (by omega)
    subst hnil
    rw [if_neg hr]
    simp only [runM, List.append_nil]
    refine ⟨⟨h1.facts, h1.key, h1.enc, h1.buf, h1.stash, by simp⟩, ?_⟩
    simp [kcfbAbs, h1']

theorem set_split' (l : Bytes) (j : Nat) (y : Byte) (h : j < l.length) :
    l.set j y = l.take j ++ y :: l.drop (j + 1) := by
  rw [List.set_eq_take_append_cons_drop, if_pos h]

theorem kCfbPart_eq (enc : Bool) (buf : Bytes) (hbuf : buf.length = 16) (j : Nat) (stash inp : Bytes)
    (hs : stash.length = 16) (hj : j ≤ 16) :
    kCfbPart enc buf j stash inp =
      (j + min (16 - j) inp.length,
       stash.take j ++ (if enc then xorB (inp.take (16 - j)) (buf.drop j) else inp.take (16 - j)) ++
         stash.drop (j + min (16 - j) inp.length),
       xorB (inp.take (16 - j)) (buf.drop j), inp.drop (16 - j)) := by
  induction inp generalizing j stash with
  | nil => simp [kCfbPart]
  | cons x xs ih =>
    rw [kCfbPart]
    by_cases h : j < 16
    · rw [if_pos h]
      have hx : at_ buf j ^^^ x = x ^^^ buf[j]'(by omega) := by
        rw [show at_ buf j = buf[j]'(by omega) by
          simp only [at_]; rw [List.getD_eq_getElem?_getD, List.getElem?_eq_getElem (by omega)]; rfl,
          BitVec.xor_comm]
      obtain ⟨m, hm⟩ : ∃ m, 16 - j = m + 1 := ⟨16 - j - 1, by omega⟩
      have hm' : 16 - (j + 1) = m := by omega
      have hst : ∀ y : Byte, (stash.set j y).take (j + 1) = stash.take j ++ [y] := by
        intro y
        rw [set_split' _ _ _ (by omega), List.take_append, List.take_of_length_le (by simp)]
        simp [hs, show j + 1 - min j 16 = 1 by omega]
      have hst2 : ∀ (y : Byte) (k : Nat), j < k → (stash.set j y).drop k = stash.drop k := by
        intro y k hk
        exact List.drop_set_of_lt hk
      simp only
      rw [ih (j + 1) _ (by split <;> (try split) <;> simp [hs]) (by omega)]
      simp only [hm', hm, List.drop_eq_getElem_cons (by omega : j < buf.length), List.take_succ_cons,
        List.drop_succ_cons, List.length_cons, xorB_cons, hx]
      have ha : j + 1 + min m xs.length = j + min (m + 1) (xs.length + 1) := by omega
      rw [ha]
      congr 2
      cases enc
      · simp only [Bool.false_eq_true, if_false]
        rw [hst, hst2 _ _ (by omega)]; simp
      · simp only [if_true]
        rw [hst, hst2 _ _ (by omega)]; simp
    · have : 16 - j = 0 := by omega
      rw [if_neg h, this]
      cases enc <;> simp

theorem do_kcfb_refines (K : Bytes) (enc : Bool) (e : KCtx) (xs : Bytes) (h : KcfbInv K enc e) :
    KcfbInv K enc (gost_grasshopper_cipher_do_cfb e xs).1 ∧
    runM (pcfbStep (EKuz K) enc) (kcfbAbs e) xs =
      (kcfbAbs (gost_grasshopper_cipher_do_cfb e xs).1, (gost_grasshopper_cipher_do_cfb e xs).2) := by
  have henc := h.enc
  subst henc
  unfold gost_grasshopper_cipher_do_cfb
  by_cases h0 : e.num = 0
  · rw [if_neg (by omega)]
    exact kCfbMain_refines K e.encrypting e xs h h0
  · have hlt := h.num
    have hb := h.buf
    have hst := h.stash
    have habs : kcfbAbs e = (e.stash.take e.num, e.buf.drop e.num) := by simp [kcfbAbs, h0]
    rw [if_pos (by omega), kCfbPart_eq _ e.buf hb e.num _ xs hst hlt]
    simp only
    by_cases hlong : 16 - e.num ≤ xs.length
    · have hmin : min (16 - e.num) xs.length = 16 - e.num := by omega
      have h8 : e.num + (16 - e.num) = 16 := by omega
      rw [hmin, h8, if_pos rfl]
      have hd : e.stash.drop 16 = [] := List.drop_eq_nil_of_le (by omega)
      rw [hd, List.append_nil]
      generalize hS : e.stash.take e.num ++
            (if e.encrypting then xorB (xs.take (16 - e.num)) (e.buf.drop e.num) else xs.take (16 - e.num)) = S
      have hSl : S.length = 16 := by rw [← hS]; split <;> simp <;> omega
      obtain ⟨hm1, hm2⟩ := kCfbMain_refines K e.encrypting { e with num := 0, stash := S, iv := S }
        (xs.drop (16 - e.num))
        ⟨⟨h.facts.1, h.facts.2.1, h.facts.2.2.1, hSl⟩, h.key, rfl, h.buf, hSl, by simp⟩ rfl
      refine ⟨hm1, ?_⟩
      conv => lhs; rw [← List.take_append_drop (16 - e.num) xs]
      rw [runM_append, habs, pcfb_rest _ _ _ (xs.take (16 - e.num)) (by simp; omega)]
      have hdrop : (e.buf.drop e.num).drop (xs.take (16 - e.num)).length = [] := by
        apply List.drop_eq_nil_of_le; simp; omega
      have ha : kcfbAbs { e with num := 0, stash := S, iv := S } = (S, []) := by simp [kcfbAbs]
      rw [ha] at hm2
      simp only
      rw [hdrop, hS]
      simp only [hm2]
    · have hmin : min (16 - e.num) xs.length = xs.length := by omega
      have htake : xs.take (16 - e.num) = xs := List.take_of_length_le (by omega)
      rw [hmin, if_neg (by omega), htake]
      refine ⟨⟨h.facts, h.key, h.enc, h.buf, ?_, by simp; omega⟩, ?_⟩
      · split <;> simp <;> omega
      · rw [habs, pcfb_rest _ _ _ _ (by simp; omega)]
        have hl : (e.stash.take e.num ++
            (if e.encrypting = true then xorB xs (e.buf.drop e.num) else xs)).length =
            e.num + xs.length := by split <;> simp <;> omega
        have hreg : (e.stash.take e.num ++
            (if e.encrypting = true then xorB xs (e.buf.drop e.num) else xs) ++
            e.stash.drop (e.num + xs.length)).take (e.num + xs.length) = e.stash.take e.num ++
            (if e.encrypting = true then xorB xs (e.buf.drop e.num) else xs) := by
          rw [List.take_append_of_le_length (by omega), List.take_of_length_le (by omega)]
        have hne : e.num + xs.length ≠ 0 := by omega
        simp only [kcfbAbs, hne, if_false, hreg, List.drop_drop]

theorem kcfb_history (enc : Bool) (e : KCtx) (h : KcfbInv e.key enc e) (h0 : e.num = 0) (chunks : List Bytes) :
    runM (pcfbStep (EKuz e.key) enc) (e.iv, []) chunks.flatten =
      (kcfbAbs (feed gost_grasshopper_cipher_do_cfb e chunks).1, (feed gost_grasshopper_cipher_do_cfb e chunks).2) := by
  obtain ⟨_, h2⟩ := feed_refines gost_grasshopper_cipher_do_cfb (pcfbStep (EKuz e.key) enc) kcfbAbs (KcfbInv e.key enc)
    (fun s xs hs => do_kcfb_refines e.key enc s xs hs) e h chunks
  have habs : kcfbAbs e = (e.iv, []) := by simp [kcfbAbs, h0]
  rw [habs] at h2
  exact h2

end Gost
