import Verif.Model.Kuznyechik
import Verif.Lemmas.GFPoly
import Verif.Lemmas.Basic

/-! # Kuznyechik: the field multiplication and the linear transformation -/

namespace Gost
open Spec

/-- `alpha_to[k]`. -/
abbrev alphaT (k : Nat) : Byte := tab8 grasshopper_galois_alpha_to_packed k
abbrev indexT (k : Nat) : Byte := tab8 grasshopper_galois_index_of_packed k

theorem index_check : ((List.range 256).all fun x =>
    x == 0 || ((indexT x).toNat < 255 && alphaT (indexT x).toNat == BitVec.ofNat 8 x)) = true := by
  decide +kernel

theorem alpha_check : ((List.range 255).all fun k =>
    xtime 0xC3#8 (alphaT k) == alphaT ((k + 1) % 255)) = true := by
  decide +kernel

theorem index_spec (x : Byte) (h : x ≠ 0) : (indexT x.toNat).toNat < 255 ∧ alphaT (indexT x.toNat).toNat = x := by
  have := List.all_eq_true.mp index_check x.toNat (List.mem_range.mpr x.isLt)
  simp only [Bool.or_eq_true, beq_iff_eq, Bool.and_eq_true, decide_eq_true_eq] at this
  rcases this with h0 | h1
  · exact absurd (BitVec.eq_of_toNat_eq (by simpa using h0)) h
  · refine ⟨h1.1, ?_⟩
    rw [h1.2]; simp

theorem alpha_succ (k : Nat) (h : k < 255) : xtime 0xC3#8 (alphaT k) = alphaT ((k + 1) % 255) := by
  have := List.all_eq_true.mp alpha_check k (List.mem_range.mpr h)
  simpa using this

theorem alpha_iter (i j : Nat) (hj : j < 255) : iter (xtime 0xC3#8) i (alphaT j) = alphaT ((i + j) % 255) := by
  induction i generalizing j with
  | zero => simp [iter, Nat.mod_eq_of_lt hj]
  | succ i ih =>
    rw [iter, alpha_succ j hj, ih _ (Nat.mod_lt _ (by decide))]
    congr 1
    omega

theorem alpha_zero : alphaT 0 = 1#8 := by decide

theorem gfMul_zero_left {n : Nat} (c b : BitVec n) : gfMul c 0#n b = 0#n := by
  have := gfMul_xor_left c 0#n 0#n b
  simpa using this

theorem gfMul_one_right (a : Byte) : gfMul 0xC3#8 a 1#8 = a := by
  simp only [gfMul, show List.range 8 = [0,1,2,3,4,5,6,7] from rfl, List.foldl_cons, List.foldl_nil]
  simp (decide := true)

/-- `grasshopper_galois_mul` is multiplication modulo `x^8 + x^7 + x^6 + x + 1`. -/
theorem galois_mul_eq (x y : Byte) : grasshopper_galois_mul x y = gfMul 0xC3#8 x y := by
  unfold grasshopper_galois_mul
  by_cases hx : x = 0
  · subst hx; simp [gfMul_zero_left]
  by_cases hy : y = 0
  · subst hy; rw [gfMul_comm]; simp [gfMul_zero_left]
  rw [if_pos ⟨hx, hy⟩]
  obtain ⟨hx1, hx2⟩ := index_spec x hx
  obtain ⟨hy1, hy2⟩ := index_spec y hy
  generalize (indexT x.toNat).toNat = i at *
  generalize (indexT y.toNat).toNat = j at *
  have hxi : iter (xtime 0xC3#8) i 1#8 = x := by
    rw [← alpha_zero, alpha_iter i 0 (by decide), Nat.add_zero, Nat.mod_eq_of_lt hx1, hx2]
  have hm : iter (xtime 0xC3#8) i y = alphaT ((i + j) % 255) := by
    rw [← alpha_iter i j hy1, hy2]
  show alphaT ((i + j) % 255) = _
  rw [← hm]
  apply toPoly_injective
  rw [gfMul_poly (by decide)]
  apply toPoly_eq_of_dvd
  have h1 := xtime_iter_dvd (by decide) 0xC3#8 y i
  have h2 := xtime_iter_dvd (by decide) 0xC3#8 1#8 i
  rw [hxi] at h2
  have h3 : toPoly (1#8) = 1 := by
    unfold toPoly
    rw [Finset.sum_eq_single 0]
    · simp
    · intro b hb hb0
      have : (1#8).getLsbD b = false := by simp [BitVec.getLsbD_one]; omega
      simp [this]
    · simp
  rw [h3, mul_one] at h2
  have h4 := dvd_sub h1 (Dvd.dvd.mul_right h2 (toPoly y))
  refine h4.trans (dvd_of_eq ?_)
  ring

/-! ## Blocks of 16 bytes -/

theorem list16 {b : Bytes} (h : b.length = 16) :
    ∃ b0 b1 b2 b3 b4 b5 b6 b7 b8 b9 b10 b11 b12 b13 b14 b15,
      b = [b0, b1, b2, b3, b4, b5, b6, b7, b8, b9, b10, b11, b12, b13, b14, b15] := by
  match b, h with
  | [b0, b1, b2, b3, b4, b5, b6, b7, b8, b9, b10, b11, b12, b13, b14, b15], _ =>
    exact ⟨b0, b1, b2, b3, b4, b5, b6, b7, b8, b9, b10, b11, b12, b13, b14, b15, rfl⟩

theorem lvec_eq : (List.range 16).map grasshopper_lvec = Kuz.lCoef := by decide

theorem lvec_at (i : Nat) (hi : i < 16) : grasshopper_lvec i = Kuz.lCoef.getD i 0 := by
  rw [← lvec_eq]
  simp [List.getD_eq_getElem?_getD, List.getElem?_map, List.getElem?_range hi]

theorem lRound_explicit (b0 b1 b2 b3 b4 b5 b6 b7 b8 b9 b10 b11 b12 b13 b14 b15 : Byte) :
    lRound [b0, b1, b2, b3, b4, b5, b6, b7, b8, b9, b10, b11, b12, b13, b14, b15] =
    Kuz.R [b0, b1, b2, b3, b4, b5, b6, b7, b8, b9, b10, b11, b12, b13, b14, b15] := by
  simp only [lRound, lInner, List.foldl_cons, List.foldl_nil, at_, List.getD_eq_getElem?_getD, List.getElem?_cons_succ,
    List.getElem?_cons_zero, Option.getD_some, List.set_cons_succ, List.set_cons_zero, galois_mul_eq,
    Kuz.R, Kuz.ell, Kuz.lCoef, List.zipWith_cons_cons, List.zipWith_nil_left, List.take_succ_cons, List.take_zero, Kuz.mul]
  simp only [lvec_at _ (show 0 < 16 by decide), lvec_at _ (show 1 < 16 by decide), lvec_at _ (show 2 < 16 by decide),
    lvec_at _ (show 3 < 16 by decide), lvec_at _ (show 4 < 16 by decide), lvec_at _ (show 5 < 16 by decide),
    lvec_at _ (show 6 < 16 by decide), lvec_at _ (show 7 < 16 by decide), lvec_at _ (show 8 < 16 by decide),
    lvec_at _ (show 9 < 16 by decide), lvec_at _ (show 10 < 16 by decide), lvec_at _ (show 11 < 16 by decide),
    lvec_at _ (show 12 < 16 by decide), lvec_at _ (show 13 < 16 by decide), lvec_at _ (show 14 < 16 by decide),
    Kuz.lCoef, List.getD_eq_getElem?_getD, List.getElem?_cons_succ, List.getElem?_cons_zero, Option.getD_some]
  congr 1
  simp only [gfMul_one_right, BitVec.zero_xor, show (1 : Byte) = 1#8 from rfl]
  ac_rfl

theorem lRound_eq (w : Bytes) (h : w.length = 16) : lRound w = Kuz.R w := by
  obtain ⟨b0, b1, b2, b3, b4, b5, b6, b7, b8, b9, b10, b11, b12, b13, b14, b15, rfl⟩ := list16 h
  exact lRound_explicit ..

theorem R_length (w : Bytes) (h : w.length = 16) : (Kuz.R w).length = 16 := by simp [Kuz.R, h]

theorem lInvRound_explicit (b0 b1 b2 b3 b4 b5 b6 b7 b8 b9 b10 b11 b12 b13 b14 b15 : Byte) :
    lInvRound [b0, b1, b2, b3, b4, b5, b6, b7, b8, b9, b10, b11, b12, b13, b14, b15] =
    [b1, b2, b3, b4, b5, b6, b7, b8, b9, b10, b11, b12, b13, b14, b15,
      b0 ^^^ Kuz.ell [b1, b2, b3, b4, b5, b6, b7, b8, b9, b10, b11, b12, b13, b14, b15, 0]] := by
  simp only [lInvRound, lInvInner, List.foldl_cons, List.foldl_nil, at_, List.getD_eq_getElem?_getD, List.getElem?_cons_succ,
    List.getElem?_cons_zero, Option.getD_some, List.set_cons_succ, List.set_cons_zero, galois_mul_eq,
    Kuz.ell, Kuz.lCoef, List.zipWith_cons_cons, List.zipWith_nil_left, Kuz.mul]
  simp only [lvec_at _ (show 0 < 16 by decide), lvec_at _ (show 1 < 16 by decide), lvec_at _ (show 2 < 16 by decide),
    lvec_at _ (show 3 < 16 by decide), lvec_at _ (show 4 < 16 by decide), lvec_at _ (show 5 < 16 by decide),
    lvec_at _ (show 6 < 16 by decide), lvec_at _ (show 7 < 16 by decide), lvec_at _ (show 8 < 16 by decide),
    lvec_at _ (show 9 < 16 by decide), lvec_at _ (show 10 < 16 by decide), lvec_at _ (show 11 < 16 by decide),
    lvec_at _ (show 12 < 16 by decide), lvec_at _ (show 13 < 16 by decide), lvec_at _ (show 14 < 16 by decide),
    Kuz.lCoef, List.getD_eq_getElem?_getD, List.getElem?_cons_succ, List.getElem?_cons_zero, Option.getD_some]
  have h0 : gfMul 195#8 (0 : Byte) 1 = 0#8 := gfMul_zero_left _ _
  simp only [h0, BitVec.zero_xor, BitVec.xor_zero, show (0 : Byte) = 0#8 from rfl]
  congr 15
  ac_rfl

theorem ell_last (b0 b1 b2 b3 b4 b5 b6 b7 b8 b9 b10 b11 b12 b13 b14 b15 : Byte) :
    Kuz.ell [b0, b1, b2, b3, b4, b5, b6, b7, b8, b9, b10, b11, b12, b13, b14, b15] =
    Kuz.ell [b0, b1, b2, b3, b4, b5, b6, b7, b8, b9, b10, b11, b12, b13, b14, 0] ^^^ b15 := by
  have h0 : gfMul 195#8 (0 : Byte) 1 = 0#8 := gfMul_zero_left _ _
  have h1 : ∀ a : Byte, gfMul 195#8 a 1 = a := gfMul_one_right
  simp only [Kuz.ell, Kuz.lCoef, List.zipWith_cons_cons, List.zipWith_nil_left, List.foldl_cons, List.foldl_nil, Kuz.mul,
    h0, h1, BitVec.xor_zero]

theorem R_lInvRound (w : Bytes) (h : w.length = 16) : Kuz.R (lInvRound w) = w := by
  obtain ⟨b0, b1, b2, b3, b4, b5, b6, b7, b8, b9, b10, b11, b12, b13, b14, b15, rfl⟩ := list16 h
  rw [lInvRound_explicit, Kuz.R, ell_last]
  simp only [List.take_succ_cons, List.take_zero]
  rw [BitVec.xor_comm, BitVec.xor_assoc, BitVec.xor_self, BitVec.xor_zero]

theorem lInvRound_R (w : Bytes) (h : w.length = 16) : lInvRound (Kuz.R w) = w := by
  obtain ⟨b0, b1, b2, b3, b4, b5, b6, b7, b8, b9, b10, b11, b12, b13, b14, b15, rfl⟩ := list16 h
  rw [Kuz.R, ell_last]
  simp only [List.take_succ_cons, List.take_zero]
  rw [lInvRound_explicit, BitVec.xor_comm, ← BitVec.xor_assoc, BitVec.xor_self, BitVec.zero_xor]

theorem lInvRound_length (w : Bytes) (h : w.length = 16) : (lInvRound w).length = 16 := by
  obtain ⟨b0, b1, b2, b3, b4, b5, b6, b7, b8, b9, b10, b11, b12, b13, b14, b15, rfl⟩ := list16 h
  rw [lInvRound_explicit]; rfl

theorem foldl_range_iter {A : Type} (f : A → A) (n : Nat) (a : A) :
    (List.range n).foldl (fun w _ => f w) a = iter f n a := by
  induction n with
  | zero => rfl
  | succ n ih =>
    rw [List.range_succ, List.foldl_append, ih]
    have : ∀ k (x : A), f (iter f k x) = iter f (k + 1) x := by
      intro k
      induction k with
      | zero => intro x; rfl
      | succ k ih => intro x; exact ih (f x)
    exact this n a

theorem iter_length {f : Bytes → Bytes} (hf : ∀ w, w.length = 16 → (f w).length = 16) (n : Nat) (w : Bytes)
    (h : w.length = 16) : (iter f n w).length = 16 := by
  induction n generalizing w with
  | zero => exact h
  | succ n ih => exact ih _ (hf w h)

theorem iter_congr16 {f g : Bytes → Bytes} (hf : ∀ w, w.length = 16 → f w = g w)
    (hl : ∀ w, w.length = 16 → (g w).length = 16) (n : Nat) (w : Bytes)
    (h : w.length = 16) : iter f n w = iter g n w := by
  induction n generalizing w with
  | zero => rfl
  | succ n ih => rw [iter, iter, hf w h]; exact ih _ (hl w h)

theorem iter_inv16 {f g : Bytes → Bytes} (hfg : ∀ w, w.length = 16 → g (f w) = w)
    (hl : ∀ w, w.length = 16 → (f w).length = 16) (n : Nat) (w : Bytes)
    (h : w.length = 16) : iter g n (iter f n w) = w := by
  have hout : ∀ k (x : Bytes), g (iter g k x) = iter g (k + 1) x := by
    intro k
    induction k with
    | zero => intro x; rfl
    | succ k ih => intro x; exact ih (g x)
  induction n generalizing w with
  | zero => rfl
  | succ n ih =>
    rw [← hout]
    show g (iter g n (iter f n (f w))) = w
    rw [ih _ (hl w h), hfg w h]

theorem grasshopper_l_eq (w : Bytes) (h : w.length = 16) : grasshopper_l w = Kuz.L w := by
  rw [grasshopper_l, foldl_range_iter, Kuz.L]
  exact iter_congr16 lRound_eq R_length 16 w h

theorem L_length (w : Bytes) (h : w.length = 16) : (Kuz.L w).length = 16 := iter_length R_length 16 w h

theorem l_length (w : Bytes) (h : w.length = 16) : (grasshopper_l w).length = 16 := by
  rw [grasshopper_l_eq w h]; exact L_length w h

theorem l_inv_length (w : Bytes) (h : w.length = 16) : (grasshopper_l_inv w).length = 16 := by
  rw [grasshopper_l_inv, foldl_range_iter]; exact iter_length lInvRound_length 16 w h

theorem l_inv_L (w : Bytes) (h : w.length = 16) : grasshopper_l_inv (Kuz.L w) = w := by
  rw [grasshopper_l_inv, foldl_range_iter, Kuz.L]
  exact iter_inv16 lInvRound_R R_length 16 w h

theorem L_l_inv (w : Bytes) (h : w.length = 16) : Kuz.L (grasshopper_l_inv w) = w := by
  rw [grasshopper_l_inv, foldl_range_iter, Kuz.L]
  exact iter_inv16 R_lInvRound lInvRound_length 16 w h

/-! ## Linearity -/

theorem ell_xor (a b : Bytes) (ha : a.length = 16) (hb : b.length = 16) :
    Kuz.ell (xorB a b) = Kuz.ell a ^^^ Kuz.ell b := by
  obtain ⟨a0, a1, a2, a3, a4, a5, a6, a7, a8, a9, a10, a11, a12, a13, a14, a15, rfl⟩ := list16 ha
  obtain ⟨b0, b1, b2, b3, b4, b5, b6, b7, b8, b9, b10, b11, b12, b13, b14, b15, rfl⟩ := list16 hb
  simp only [xorB_cons, xorB_nil_left, Kuz.ell, Kuz.lCoef, List.zipWith_cons_cons, List.zipWith_nil_left, List.foldl_cons,
    List.foldl_nil, Kuz.mul, gfMul_xor_left, show (0 : Byte) = 0#8 from rfl, BitVec.zero_xor]
  ac_rfl

theorem R_xor (a b : Bytes) (ha : a.length = 16) (hb : b.length = 16) :
    Kuz.R (xorB a b) = xorB (Kuz.R a) (Kuz.R b) := by
  rw [Kuz.R, Kuz.R, Kuz.R, xorB_cons, ell_xor a b ha hb]
  congr 1
  simp [xorB, List.take_zipWith]

theorem iter_xor {f : Bytes → Bytes} (hf : ∀ a b, a.length = 16 → b.length = 16 → f (xorB a b) = xorB (f a) (f b))
    (hl : ∀ w, w.length = 16 → (f w).length = 16) (n : Nat) (a b : Bytes) (ha : a.length = 16) (hb : b.length = 16) :
    iter f n (xorB a b) = xorB (iter f n a) (iter f n b) := by
  induction n generalizing a b with
  | zero => rfl
  | succ n ih => rw [iter, hf a b ha hb]; exact ih _ _ (hl a ha) (hl b hb)

theorem L_xor (a b : Bytes) (ha : a.length = 16) (hb : b.length = 16) :
    Kuz.L (xorB a b) = xorB (Kuz.L a) (Kuz.L b) := iter_xor R_xor R_length 16 a b ha hb

theorem l_inv_xor (a b : Bytes) (ha : a.length = 16) (hb : b.length = 16) :
    grasshopper_l_inv (xorB a b) = xorB (grasshopper_l_inv a) (grasshopper_l_inv b) := by
  have h1 := L_xor _ _ (l_inv_length a ha) (l_inv_length b hb)
  rw [L_l_inv a ha, L_l_inv b hb] at h1
  rw [← h1, l_inv_L _ (by simp [l_inv_length a ha, l_inv_length b hb])]

end Gost
