import Verif.Lemmas.KuzTables
import Verif.Lemmas.Loops

/-! # Kuznyechik: the table-driven block functions -/

namespace Gost
open Spec

theorem xorB_assoc (a b c : Bytes) : xorB (xorB a b) c = xorB a (xorB b c) := by
  induction a generalizing b c with
  | nil => simp
  | cons x a ih =>
    cases b with
    | nil => simp
    | cons y b =>
      cases c with
      | nil => simp
      | cons z c => simp [ih, BitVec.xor_assoc]

theorem spec_xor_eq (a b : Bytes) : Spec.xor a b = xorB a b := rfl

/-- Substitution on a block. -/
abbrev sB (w : Bytes) : Bytes := w.map grasshopper_pi
abbrev sInvB (w : Bytes) : Bytes := w.map grasshopper_pi_inv

theorem sInv_s (w : Bytes) : sInvB (sB w) = w := by
  simp only [sInvB, sB, List.map_map]
  conv => rhs; rw [← List.map_id w]
  apply List.map_congr_left; intro x _; exact (pi_spec x).1

theorem s_sInv (w : Bytes) : sB (sInvB w) = w := by
  simp only [sInvB, sB, List.map_map]
  conv => rhs; rw [← List.map_id w]
  apply List.map_congr_left; intro x _; exact (pi_spec x).2.1

theorem sB_eq (w : Bytes) : sB w = Kuz.S w := by
  unfold sB Kuz.S
  apply List.map_congr_left; intro x _; exact (pi_spec x).2.2

/-- One encryption round. -/
theorem enc_round_eq (w : Bytes) (h : w.length = 16) :
    grasshopper_append128multi w grasshopper_pil_enc128 = Kuz.L (sB w) :=
  append128multi_eq L_lin grasshopper_pi _ pil_enc_eq w h

theorem dec_round_eq (w : Bytes) (h : w.length = 16) :
    grasshopper_append128multi w grasshopper_pil_dec128 = grasshopper_l_inv (sInvB w) :=
  append128multi_eq l_inv_lin grasshopper_pi_inv _ pil_dec_eq w h

theorem l_dec_round_eq (w : Bytes) (h : w.length = 16) :
    grasshopper_append128multi w grasshopper_l_dec128 = grasshopper_l_inv w := by
  have := append128multi_eq l_inv_lin id grasshopper_l_dec128 (fun i hi x => l_dec_eq i hi x) w h
  simpa using this

/-- The round as the standard writes it. -/
def encR (k w : Bytes) : Bytes := Kuz.L (sB (xorB w k))

def decR (k w : Bytes) : Bytes := grasshopper_l_inv (sInvB (xorB w (grasshopper_l_inv k)))

theorem encR_length (k w : Bytes) (hk : k.length = 16) (hw : w.length = 16) : (encR k w).length = 16 :=
  L_length _ (by simp [hk, hw])

theorem decR_length (k w : Bytes) (hk : k.length = 16) (hw : w.length = 16) : (decR k w).length = 16 :=
  l_inv_length _ (by simp [l_inv_length k hk, hw])

theorem xor_cancel_right (a b : Bytes) (h : a.length = b.length) : xorB (xorB a b) b = a :=
  xorB_xorB_cancel a b (by omega)

/-- `decR` at round `i` takes `L⁻¹(encR k_{i-1} t ⊕ k_i)` to `L⁻¹(t ⊕ k_{i-1})`. -/
theorem decR_encR (k k' t : Bytes) (hk : k.length = 16) (hk' : k'.length = 16) (ht : t.length = 16) :
    decR k' (grasshopper_l_inv (xorB (encR k t) k')) = grasshopper_l_inv (xorB t k) := by
  have he := encR_length k t hk ht
  rw [decR, l_inv_xor _ _ he hk', xor_cancel_right _ _ (by rw [l_inv_length _ he, l_inv_length _ hk']), encR,
    l_inv_L _ (by simp [hk, ht]), sInv_s]

/-- Conversely. -/
theorem encR_decR (k k' u : Bytes) (hk : k.length = 16) (hk' : k'.length = 16) (hu : u.length = 16) :
    encR k (xorB (Kuz.L (decR k' u)) k) = xorB (Kuz.L u) k' := by
  have h1 : (sInvB (xorB u (grasshopper_l_inv k'))).length = 16 := by simp [hu, l_inv_length k' hk']
  rw [decR, L_l_inv _ h1, encR, xor_cancel_right _ _ (by rw [h1, hk]), s_sInv,
    L_xor _ _ hu (l_inv_length k' hk'), L_l_inv _ hk']

theorem encrypt_block_unfold (sk : Nat → Bytes) (hsk : ∀ i, i < 10 → (sk i).length = 16) (b : Bytes) (hb : b.length = 16) :
    grasshopper_encrypt_block sk b =
      xorB (encR (sk 8) (encR (sk 7) (encR (sk 6) (encR (sk 5) (encR (sk 4) (encR (sk 3) (encR (sk 2) (encR (sk 1)
        (encR (sk 0) b))))))))) (sk 9) := by
  have key : ∀ i, i < 10 → ∀ w : Bytes, w.length = 16 →
      grasshopper_append128multi (xorB w (sk i)) grasshopper_pil_enc128 = encR (sk i) w := by
    intro i hi w hw
    rw [enc_round_eq _ (by simp [hw, hsk i hi]), encR]
  have l0 := encR_length _ _ (hsk 0 (by decide)) hb
  have l1 := encR_length _ _ (hsk 1 (by decide)) l0
  have l2 := encR_length _ _ (hsk 2 (by decide)) l1
  have l3 := encR_length _ _ (hsk 3 (by decide)) l2
  have l4 := encR_length _ _ (hsk 4 (by decide)) l3
  have l5 := encR_length _ _ (hsk 5 (by decide)) l4
  have l6 := encR_length _ _ (hsk 6 (by decide)) l5
  have l7 := encR_length _ _ (hsk 7 (by decide)) l6
  unfold grasshopper_encrypt_block
  simp only [show List.range 9 = [0,1,2,3,4,5,6,7,8] from rfl, List.foldl_cons, List.foldl_nil]
  rw [key 0 (by decide) b hb, key 1 (by decide) _ l0, key 2 (by decide) _ l1, key 3 (by decide) _ l2,
    key 4 (by decide) _ l3, key 5 (by decide) _ l4, key 6 (by decide) _ l5, key 7 (by decide) _ l6,
    key 8 (by decide) _ l7]

theorem decrypt_block_unfold (sk dk : Nat → Bytes) (hsk : ∀ i, i < 10 → (sk i).length = 16)
    (hdk : ∀ i, 1 ≤ i → i < 10 → dk i = grasshopper_l_inv (sk i)) (hd0 : dk 0 = sk 0)
    (c : Bytes) (hc : c.length = 16) :
    grasshopper_decrypt_block dk c =
      xorB (sInvB (xorB (decR (sk 2) (decR (sk 3) (decR (sk 4) (decR (sk 5) (decR (sk 6) (decR (sk 7) (decR (sk 8)
        (decR (sk 9) (grasshopper_l_inv c))))))))) (grasshopper_l_inv (sk 1)))) (sk 0) := by
  have key : ∀ i, 1 ≤ i → i < 10 → ∀ w : Bytes, w.length = 16 →
      grasshopper_append128multi (xorB w (dk i)) grasshopper_pil_dec128 = decR (sk i) w := by
    intro i h1 hi w hw
    rw [hdk i h1 hi, dec_round_eq _ (by simp [hw, l_inv_length _ (hsk i hi)]), decR]
  have lc := l_inv_length c hc
  have l9 := decR_length _ _ (hsk 9 (by decide)) lc
  have l8 := decR_length _ _ (hsk 8 (by decide)) l9
  have l7 := decR_length _ _ (hsk 7 (by decide)) l8
  have l6 := decR_length _ _ (hsk 6 (by decide)) l7
  have l5 := decR_length _ _ (hsk 5 (by decide)) l6
  have l4 := decR_length _ _ (hsk 4 (by decide)) l5
  have l3 := decR_length _ _ (hsk 3 (by decide)) l4
  unfold grasshopper_decrypt_block
  simp only [List.foldl_cons, List.foldl_nil, grasshopper_convert128]
  rw [l_dec_round_eq c hc, key 9 (by decide) (by decide) _ lc, key 8 (by decide) (by decide) _ l9,
    key 7 (by decide) (by decide) _ l8, key 6 (by decide) (by decide) _ l7, key 5 (by decide) (by decide) _ l6,
    key 4 (by decide) (by decide) _ l5, key 3 (by decide) (by decide) _ l4, key 2 (by decide) (by decide) _ l3,
    hdk 1 (by decide) (by decide), hd0]

/-- Decryption inverts encryption, for any round keys. -/
theorem kuz_dec_enc (sk dk : Nat → Bytes) (hsk : ∀ i, i < 10 → (sk i).length = 16)
    (hdk : ∀ i, 1 ≤ i → i < 10 → dk i = grasshopper_l_inv (sk i)) (hd0 : dk 0 = sk 0)
    (b : Bytes) (hb : b.length = 16) :
    grasshopper_decrypt_block dk (grasshopper_encrypt_block sk b) = b := by
  rw [encrypt_block_unfold sk hsk b hb]
  have l0 := encR_length _ _ (hsk 0 (by decide)) hb
  have l1 := encR_length _ _ (hsk 1 (by decide)) l0
  have l2 := encR_length _ _ (hsk 2 (by decide)) l1
  have l3 := encR_length _ _ (hsk 3 (by decide)) l2
  have l4 := encR_length _ _ (hsk 4 (by decide)) l3
  have l5 := encR_length _ _ (hsk 5 (by decide)) l4
  have l6 := encR_length _ _ (hsk 6 (by decide)) l5
  have l7 := encR_length _ _ (hsk 7 (by decide)) l6
  have l8 := encR_length _ _ (hsk 8 (by decide)) l7
  have hs := fun i (h : i < 10) => hsk i h
  rw [decrypt_block_unfold sk dk hsk hdk hd0 _ (by simp [l8, hsk 9 (by decide)]),
    decR_encR _ _ _ (hs 8 (by decide)) (hs 9 (by decide)) l7, decR_encR _ _ _ (hs 7 (by decide)) (hs 8 (by decide)) l6,
    decR_encR _ _ _ (hs 6 (by decide)) (hs 7 (by decide)) l5, decR_encR _ _ _ (hs 5 (by decide)) (hs 6 (by decide)) l4,
    decR_encR _ _ _ (hs 4 (by decide)) (hs 5 (by decide)) l3, decR_encR _ _ _ (hs 3 (by decide)) (hs 4 (by decide)) l2,
    decR_encR _ _ _ (hs 2 (by decide)) (hs 3 (by decide)) l1, decR_encR _ _ _ (hs 1 (by decide)) (hs 2 (by decide)) l0]
  have h1 := hs 1 (by decide)
  rw [l_inv_xor _ _ l0 h1, xor_cancel_right _ _ (by rw [l_inv_length _ l0, l_inv_length _ h1]), encR,
    l_inv_L _ (by simp [hb, hs 0 (by decide)]), sInv_s, xor_cancel_right _ _ (by rw [hb, hs 0 (by decide)])]

/-- Encryption inverts decryption, for any round keys. -/
theorem kuz_enc_dec (sk dk : Nat → Bytes) (hsk : ∀ i, i < 10 → (sk i).length = 16)
    (hdk : ∀ i, 1 ≤ i → i < 10 → dk i = grasshopper_l_inv (sk i)) (hd0 : dk 0 = sk 0)
    (c : Bytes) (hc : c.length = 16) :
    grasshopper_encrypt_block sk (grasshopper_decrypt_block dk c) = c := by
  rw [decrypt_block_unfold sk dk hsk hdk hd0 c hc]
  have hs := fun i (h : i < 10) => hsk i h
  have lc := l_inv_length c hc
  have l9 := decR_length _ _ (hsk 9 (by decide)) lc
  have l8 := decR_length _ _ (hsk 8 (by decide)) l9
  have l7 := decR_length _ _ (hsk 7 (by decide)) l8
  have l6 := decR_length _ _ (hsk 6 (by decide)) l7
  have l5 := decR_length _ _ (hsk 5 (by decide)) l6
  have l4 := decR_length _ _ (hsk 4 (by decide)) l5
  have l3 := decR_length _ _ (hsk 3 (by decide)) l4
  have l2 := decR_length _ _ (hsk 2 (by decide)) l3
  have hk1 := l_inv_length _ (hs 1 (by decide))
  generalize hu : decR (sk 2) (decR (sk 3) (decR (sk 4) (decR (sk 5) (decR (sk 6) (decR (sk 7) (decR (sk 8)
    (decR (sk 9) (grasshopper_l_inv c)))))))) = u at *
  rw [encrypt_block_unfold sk hsk _ (by simp [l2, hk1, hs 0 (by decide)])]
  have e0 : encR (sk 0) (xorB (sInvB (xorB u (grasshopper_l_inv (sk 1)))) (sk 0)) = xorB (Kuz.L u) (sk 1) := by
    rw [encR, xor_cancel_right _ _ (by simp [l2, hk1, hs 0 (by decide)]), s_sInv, L_xor _ _ l2 hk1,
      L_l_inv _ (hs 1 (by decide))]
  rw [e0, ← hu, encR_decR _ _ _ (hs 1 (by decide)) (hs 2 (by decide)) l3,
    encR_decR _ _ _ (hs 2 (by decide)) (hs 3 (by decide)) l4, encR_decR _ _ _ (hs 3 (by decide)) (hs 4 (by decide)) l5,
    encR_decR _ _ _ (hs 4 (by decide)) (hs 5 (by decide)) l6, encR_decR _ _ _ (hs 5 (by decide)) (hs 6 (by decide)) l7,
    encR_decR _ _ _ (hs 6 (by decide)) (hs 7 (by decide)) l8, encR_decR _ _ _ (hs 7 (by decide)) (hs 8 (by decide)) l9,
    encR_decR _ _ _ (hs 8 (by decide)) (hs 9 (by decide)) lc, L_l_inv c hc,
    xor_cancel_right _ _ (by rw [hc, hs 9 (by decide)])]

/-! ## The key schedule -/

theorem ksConst_check : ((List.range' 1 32).all fun i =>
    (zeros 16).set 15 (BitVec.ofNat 8 i) == beBytes 16 i) = true := by decide +kernel

theorem ksConst_eq (i : Nat) (h1 : 1 ≤ i) (h2 : i ≤ 32) : ksConst i = Kuz.C i := by
  have := beq_iff_eq.mp (List.all_eq_true.mp ksConst_check i (List.mem_range'_1.mpr ⟨h1, by omega⟩))
  rw [ksConst, grasshopper_l_eq _ (by simp), this, Kuz.C]

theorem C_length (i : Nat) : (Kuz.C i).length = 16 := L_length _ (by simp)

theorem F_length (i : Nat) (p : Bytes × Bytes) (h1 : p.1.length = 16) (h2 : p.2.length = 16) :
    (Kuz.F (Kuz.C i) p).1.length = 16 ∧ (Kuz.F (Kuz.C i) p).2.length = 16 := by
  refine ⟨?_, h1⟩
  show (xorB (Kuz.L (Kuz.S (xorB (Kuz.C i) p.1))) p.2).length = 16
  rw [xorB_length, L_length _ (by simp [Kuz.S, C_length, h1]), h2]; rfl

/-- One step of the key schedule loop. -/
theorem ksRound_eq (p : Bytes × Bytes) (sk : Nat → Bytes) (i : Nat) (hi1 : 1 ≤ i) (hi : i ≤ 32)
    (h1 : p.1.length = 16) (_h2 : p.2.length = 16) :
    ksRound (p.1, p.2, sk) i =
      ((Kuz.F (Kuz.C i) p).1, (Kuz.F (Kuz.C i) p).2,
        if i % 8 = 0 then (fun n => if n = i / 4 + 1 then (Kuz.F (Kuz.C i) p).2 else if n = i / 4 then
          (Kuz.F (Kuz.C i) p).1 else sk n) else sk) := by
  have hz : xorB (grasshopper_l (grasshopper_convert128 (xorB p.1 (ksConst i)) grasshopper_pi)) p.2 =
      (Kuz.F (Kuz.C i) p).1 := by
    rw [ksConst_eq i hi1 hi, grasshopper_convert128, grasshopper_l_eq _ (by simp [h1, C_length]), xorB_comm p.1]
    show xorB (Kuz.L (sB (xorB (Kuz.C i) p.1))) p.2 = xorB (Kuz.L (Kuz.S (xorB (Kuz.C i) p.1))) p.2
    rw [sB_eq]
  have hy : p.1 = (Kuz.F (Kuz.C i) p).2 := rfl
  unfold ksRound
  simp only [hz]
  by_cases h : i % 8 = 0
  · rw [if_pos h, if_pos h]
    rfl
  · rw [if_neg h, if_neg h]
    rfl

theorem ks_group (j : Nat) (hj : j < 4) (p : Bytes × Bytes) (sk : Nat → Bytes)
    (h1 : p.1.length = 16) (h2 : p.2.length = 16) :
    let q := (List.range' (8 * j + 1) 8).foldl (fun p i => Kuz.F (Kuz.C i) p) p
    (List.range' (8 * j + 1) 8).foldl ksRound (p.1, p.2, sk) =
      (q.1, q.2, fun n => if n = 2 * j + 3 then q.2 else if n = 2 * j + 2 then q.1 else sk n) ∧
    q.1.length = 16 ∧ q.2.length = 16 := by
  have key : ∀ (m : Nat), m ≤ 7 → 
      let q := (List.range' (8 * j + 1) m).foldl (fun p i => Kuz.F (Kuz.C i) p) p
      (List.range' (8 * j + 1) m).foldl ksRound (p.1, p.2, sk) = (q.1, q.2, sk) ∧ q.1.length = 16 ∧ q.2.length = 16 := by
    intro m hm
    induction m with
    | zero => exact ⟨rfl, h1, h2⟩
    | succ m ih =>
      obtain ⟨e1, e2, e3⟩ := ih (by omega)
      rw [List.range'_concat, List.foldl_append, List.foldl_append, e1]
      simp only [List.foldl_cons, List.foldl_nil, Nat.one_mul]
      rw [ksRound_eq _ sk _ (by omega) (by omega) e2 e3, if_neg (by omega)]
      exact ⟨rfl, F_length _ _ e2 e3⟩
  obtain ⟨e1, e2, e3⟩ := key 7 (by omega)
  have hr : List.range' (8 * j + 1) 8 = List.range' (8 * j + 1) 7 ++ [8 * j + 1 + 1 * 7] := List.range'_concat
  intro q
  have hq : q = Kuz.F (Kuz.C (8 * j + 1 + 7)) ((List.range' (8 * j + 1) 7).foldl (fun p i => Kuz.F (Kuz.C i) p) p) := by
    show (List.range' (8 * j + 1) 8).foldl _ _ = _
    rw [hr, List.foldl_append, Nat.one_mul]; rfl
  rw [hq, hr, List.foldl_append]
  simp only [List.foldl_cons, List.foldl_nil, Nat.one_mul]
  rw [e1, ksRound_eq _ sk _ (by omega) (by omega) e2 e3, if_pos (by omega)]
  refine ⟨?_, F_length _ _ e2 e3⟩
  have h4 : (8 * j + 1 + 7) / 4 = 2 * j + 2 := by omega
  rw [h4]

theorem keyPair_length (key : Bytes) (hk : key.length = 32) (j : Nat) (hj : j ≤ 4) :
    (Kuz.keyPair key j).1.length = 16 ∧ (Kuz.keyPair key j).2.length = 16 := by
  induction j with
  | zero => simp [Kuz.keyPair, hk]
  | succ j ih =>
    obtain ⟨h1, h2⟩ := ih (by omega)
    exact (ks_group j (by omega) _ (fun _ => []) h1 h2).2

theorem set_encrypt_key_eq (key : Bytes) (hk : key.length = 32) (n : Nat) (hn : n < 10) :
    grasshopper_set_encrypt_key key n = Kuz.K key (n + 1) := by
  unfold grasshopper_set_encrypt_key
  have e0 : (key.take 16, (key.drop 16).take 16) = Kuz.keyPair key 0 := by
    simp [Kuz.keyPair, List.take_of_length_le, hk]
  have e1 : key.take 16 = (Kuz.keyPair key 0).1 := by rw [← e0]
  have e2 : (key.drop 16).take 16 = (Kuz.keyPair key 0).2 := by rw [← e0]
  rw [e1, e2]
  have hr : List.range' 1 32 = List.range' (8 * 0 + 1) 8 ++ (List.range' (8 * 1 + 1) 8 ++
      (List.range' (8 * 2 + 1) 8 ++ List.range' (8 * 3 + 1) 8)) := by decide
  obtain ⟨l0, l0'⟩ := keyPair_length key hk 0 (by decide)
  obtain ⟨l1, l1'⟩ := keyPair_length key hk 1 (by decide)
  obtain ⟨l2, l2'⟩ := keyPair_length key hk 2 (by decide)
  obtain ⟨l3, l3'⟩ := keyPair_length key hk 3 (by decide)
  rw [hr, List.foldl_append, List.foldl_append, List.foldl_append, (ks_group 0 (by decide) _ _ l0 l0').1]
  rw [show (List.range' (8 * 0 + 1) 8).foldl (fun p i => Kuz.F (Kuz.C i) p) (Kuz.keyPair key 0) = Kuz.keyPair key 1 from rfl,
    (ks_group 1 (by decide) _ _ l1 l1').1]
  rw [show (List.range' (8 * 1 + 1) 8).foldl (fun p i => Kuz.F (Kuz.C i) p) (Kuz.keyPair key 1) = Kuz.keyPair key 2 from rfl,
    (ks_group 2 (by decide) _ _ l2 l2').1]
  rw [show (List.range' (8 * 2 + 1) 8).foldl (fun p i => Kuz.F (Kuz.C i) p) (Kuz.keyPair key 2) = Kuz.keyPair key 3 from rfl,
    (ks_group 3 (by decide) _ _ l3 l3').1]
  rw [show (List.range' (8 * 3 + 1) 8).foldl (fun p i => Kuz.F (Kuz.C i) p) (Kuz.keyPair key 3) = Kuz.keyPair key 4 from rfl]
  have : n = 0 ∨ n = 1 ∨ n = 2 ∨ n = 3 ∨ n = 4 ∨ n = 5 ∨ n = 6 ∨ n = 7 ∨ n = 8 ∨ n = 9 := by omega
  rcases this with rfl | rfl | rfl | rfl | rfl | rfl | rfl | rfl | rfl | rfl <;>
    simp [Kuz.K]

theorem K_length (key : Bytes) (hk : key.length = 32) (n : Nat) (hn : n < 10) : (Kuz.K key (n + 1)).length = 16 := by
  have := keyPair_length key hk (n / 2) (by omega)
  unfold Kuz.K
  rw [show (n + 1 - 1) / 2 = n / 2 by omega]
  split
  · exact this.1
  · exact this.2

theorem set_encrypt_key_length (key : Bytes) (hk : key.length = 32) (n : Nat) (hn : n < 10) :
    (grasshopper_set_encrypt_key key n).length = 16 := by
  rw [set_encrypt_key_eq key hk n hn]; exact K_length key hk n hn

/-- The library's block encryption is the standard's. -/
theorem kuz_encrypt_eq (key b : Bytes) (hk : key.length = 32) (hb : b.length = 16) :
    grasshopper_encrypt_block (grasshopper_set_encrypt_key key) b = Kuz.encrypt key b := by
  rw [encrypt_block_unfold _ (fun i hi => set_encrypt_key_length key hk i hi) b hb, Kuz.encrypt]
  have e : ∀ k w, encR k w = Kuz.LSX k w := by
    intro k w
    rw [encR, sB_eq, Kuz.LSX, Kuz.X, spec_xor_eq, xorB_comm]
  have hs := fun n (h : n < 10) => set_encrypt_key_eq key hk n h
  simp only [e, hs 0 (by decide), hs 1 (by decide), hs 2 (by decide), hs 3 (by decide), hs 4 (by decide), hs 5 (by decide),
    hs 6 (by decide), hs 7 (by decide), hs 8 (by decide), hs 9 (by decide),
    show List.range' 1 9 = [1,2,3,4,5,6,7,8,9] from rfl, List.foldl_cons, List.foldl_nil, Kuz.X, spec_xor_eq]
  rw [xorB_comm]

theorem kuz_key_dec_enc (key b : Bytes) (hk : key.length = 32) (hb : b.length = 16) :
    grasshopper_decrypt_block (grasshopper_set_decrypt_key key)
      (grasshopper_encrypt_block (grasshopper_set_encrypt_key key) b) = b := by
  apply kuz_dec_enc _ _ (fun i hi => set_encrypt_key_length key hk i hi) _ _ b hb
  · intro i h1 h2; simp [grasshopper_set_decrypt_key, h1, h2]
  · simp [grasshopper_set_decrypt_key]

theorem kuz_key_enc_dec (key c : Bytes) (hk : key.length = 32) (hc : c.length = 16) :
    grasshopper_encrypt_block (grasshopper_set_encrypt_key key)
      (grasshopper_decrypt_block (grasshopper_set_decrypt_key key) c) = c := by
  apply kuz_enc_dec _ _ (fun i hi => set_encrypt_key_length key hk i hi) _ _ c hc
  · intro i h1 h2; simp [grasshopper_set_decrypt_key, h1, h2]
  · simp [grasshopper_set_decrypt_key]

end Gost
