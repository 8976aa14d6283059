import Verif.Model.Loops
import Verif.Lemmas.Stream
import Verif.Spec.Modes

/-! # Lemmas about the loop combinators, big-endian counters and block splitting -/

namespace Gost
open Spec

/-! ### `whileBlocks` -/

theorem whileBlocks_small {S : Type} (bl : Nat) (body : S → Bytes → S × Bytes) (s : S) (inp : Bytes)
    (h : inp.length < bl) : whileBlocks bl body s inp = (s, [], inp) := by
  rw [whileBlocks, dif_neg (by omega)]

theorem whileBlocks_step {S : Type} (bl : Nat) (body : S → Bytes → S × Bytes) (s : S) (inp : Bytes)
    (hb : 0 < bl) (h : bl ≤ inp.length) :
    whileBlocks bl body s inp =
      ((whileBlocks bl body (body s (inp.take bl)).1 (inp.drop bl)).1,
       (body s (inp.take bl)).2 ++ (whileBlocks bl body (body s (inp.take bl)).1 (inp.drop bl)).2.1,
       (whileBlocks bl body (body s (inp.take bl)).1 (inp.drop bl)).2.2) := by
  conv => lhs; rw [whileBlocks, dif_pos ⟨hb, h⟩]

/-- If each loop body refines the byte machine on a block, the whole loop does, and it leaves
fewer than `bl` bytes. -/
theorem whileBlocks_refines {S A : Type} (bl : Nat) (hb : 0 < bl) (body : S → Bytes → S × Bytes)
    (step : A → Byte → A × Byte) (abs : S → A) (Inv : S → Prop)
    (h : ∀ s xs, Inv s → xs.length = bl →
      Inv (body s xs).1 ∧ runM step (abs s) xs = (abs (body s xs).1, (body s xs).2))
    (s : S) (hs : Inv s) (inp : Bytes) :
    Inv (whileBlocks bl body s inp).1 ∧
    (whileBlocks bl body s inp).2.2.length < bl ∧
    ∃ used, inp = used ++ (whileBlocks bl body s inp).2.2 ∧
      runM step (abs s) used = (abs (whileBlocks bl body s inp).1, (whileBlocks bl body s inp).2.1) := by
  generalize hn : inp.length = n
  induction n using Nat.strongRecOn generalizing s inp with
  | ind n ih =>
    subst hn
    by_cases hlt : inp.length < bl
    · rw [whileBlocks_small _ _ _ _ hlt]
      exact ⟨hs, hlt, [], by simp, rfl⟩
    · have hle : bl ≤ inp.length := by omega
      have hlen : (inp.take bl).length = bl := by simp; omega
      obtain ⟨hi, he⟩ := h s (inp.take bl) hs hlen
      obtain ⟨h1, h2, used, h3, h4⟩ := ih (inp.drop bl).length (by simp; omega) _ hi (inp.drop bl) rfl
      rw [whileBlocks_step _ _ _ _ hb hle]
      refine ⟨h1, h2, inp.take bl ++ used, ?_, ?_⟩
      · simp only [List.append_assoc]
        rw [← h3, List.take_append_drop]
      · rw [runM_append, he]
        simp only [h4]

/-- Invariants of the loop. -/
theorem whileBlocks_inv {S : Type} (bl : Nat) (body : S → Bytes → S × Bytes) (Inv : S → Prop)
    (h : ∀ s xs, Inv s → xs.length = bl → Inv (body s xs).1)
    (s : S) (hs : Inv s) (inp : Bytes) : Inv (whileBlocks bl body s inp).1 := by
  generalize hn : inp.length = n
  induction n using Nat.strongRecOn generalizing s inp with
  | ind n ih =>
    subst hn
    by_cases hlt : 0 < bl ∧ bl ≤ inp.length
    · rw [whileBlocks_step _ _ _ _ hlt.1 hlt.2]
      exact ih (inp.drop bl).length (by simp; omega) _
        (h _ _ hs (by simp; omega)) _ rfl
    · rw [whileBlocks, dif_neg hlt]; exact hs

/-! ### `xorPart` -/

theorem xorPart_eq (bl : Nat) (buf : Bytes) (hbuf : buf.length = bl) (j : Nat) (inp : Bytes) (hj : j ≤ bl) :
    xorPart bl buf j inp =
      (j + min (bl - j) inp.length, xorB (inp.take (bl - j)) (buf.drop j), inp.drop (bl - j)) := by
  induction inp generalizing j with
  | nil => simp [xorPart]
  | cons x xs ih =>
    rw [xorPart]
    by_cases h : j < bl
    · rw [if_pos h, ih (j + 1) (by omega)]
      obtain ⟨m, hm⟩ : ∃ m, bl - j = m + 1 := ⟨bl - j - 1, by omega⟩
      have hm' : bl - (j + 1) = m := by omega
      rw [List.drop_eq_getElem_cons (by omega : j < buf.length)]
      simp only [hm, hm', List.take_succ_cons, List.drop_succ_cons, List.length_cons, xorB_cons]
      rw [show at_ buf j = buf[j]'(by omega) by
        simp only [at_]; rw [List.getD_eq_getElem?_getD, List.getElem?_eq_getElem (by omega)]; rfl,
        BitVec.xor_comm]
      congr 1; omega
    · have : bl - j = 0 := by omega
      rw [if_neg h, this]; simp

/-! ### Big-endian counters -/

theorem beNat_foldl (n : Nat) (b : Bytes) :
    b.foldl (fun n b => 256 * n + b.toNat) n = n * 256 ^ b.length + beNat b := by
  induction b generalizing n with
  | nil => simp [beNat]
  | cons x b ih =>
    simp only [List.foldl_cons, List.length_cons, beNat]
    rw [ih, ih (256 * 0 + x.toNat), Nat.pow_succ, Nat.mul_comm (256 ^ b.length) 256,
      ← Nat.mul_assoc, Nat.mul_comm n 256, Nat.add_mul]
    simp [Nat.add_assoc]

theorem beNat_append (a b : Bytes) : beNat (a ++ b) = beNat a * 256 ^ b.length + beNat b := by
  rw [beNat, List.foldl_append, beNat_foldl]; rfl

@[simp] theorem beNat_nil : beNat [] = 0 := rfl
@[simp] theorem beNat_singleton (x : Byte) : beNat [x] = x.toNat := by simp [beNat]

theorem beNat_concat (a : Bytes) (x : Byte) : beNat (a ++ [x]) = 256 * beNat a + x.toNat := by
  rw [beNat_append]; simp; omega

theorem beNat_lt (a : Bytes) : beNat a < 256 ^ a.length := by
  suffices h : ∀ n : Nat, ∀ a : Bytes, a.length = n → beNat a < 256 ^ n from h _ a rfl
  intro n
  induction n with
  | zero => intro a h; rw [List.length_eq_zero_iff.mp h]; simp
  | succ n ih =>
    intro a h
    have hne : a ≠ [] := by intro h'; simp [h'] at h
    rw [← List.dropLast_concat_getLast hne, beNat_concat, Nat.pow_succ]
    have := ih a.dropLast (by simp; omega)
    have := (a.getLast hne).isLt
    omega

@[simp] theorem beBytes_length (n v : Nat) : (beBytes n v).length = n := by
  induction n generalizing v with
  | zero => rfl
  | succ n ih => simp [beBytes, ih]

theorem beBytes_beNat (a : Bytes) (n : Nat) (h : a.length = n) : beBytes n (beNat a) = a := by
  induction n generalizing a with
  | zero => rw [List.length_eq_zero_iff.mp h]; rfl
  | succ n ih =>
    have hne : a ≠ [] := by intro h'; simp [h'] at h
    rw [← List.dropLast_concat_getLast hne, beNat_concat, beBytes]
    have hx := (a.getLast hne).isLt
    rw [show (256 * beNat a.dropLast + (a.getLast hne).toNat) / 256 = beNat a.dropLast by omega,
      ih _ (by simp; omega)]
    congr 2
    apply BitVec.eq_of_toNat_eq
    simp
    omega

theorem beNat_beBytes (n v : Nat) : beNat (beBytes n v) = v % 256 ^ n := by
  induction n generalizing v with
  | zero => simp [beBytes, Nat.mod_one]
  | succ n ih =>
    rw [beBytes, beNat_concat, ih, Nat.pow_succ, Nat.mul_comm (256 ^ n) 256, Nat.mod_mul]
    simp; omega

theorem beBytes_mod (n v : Nat) : beBytes n (v % 256 ^ n) = beBytes n v := by
  rw [← beNat_beBytes, beBytes_beNat _ _ (by simp)]

theorem inc_counter_append (n : Nat) (a s : Bytes) (h : a.length = n) :
    inc_counter (a ++ s) n = beBytes n (beNat a + 1) ++ s := by
  induction n generalizing a s with
  | zero => rw [List.length_eq_zero_iff.mp h]; rfl
  | succ n ih =>
    have hne : a ≠ [] := by intro h'; simp [h'] at h
    obtain ⟨a', x, ha'⟩ : ∃ a' x, a = a' ++ [x] := ⟨_, _, (List.dropLast_concat_getLast hne).symm⟩
    subst ha'
    have hl : a'.length = n := by simpa using h
    have hx := x.isLt
    have e1 : at_ (a' ++ [x] ++ s) n = x := by
      simp [at_, List.getD_eq_getElem?_getD, List.getElem?_append_right, hl]
    have e2 : ∀ y, (a' ++ [x] ++ s).set n y = a' ++ (y :: s) := by
      intro y
      rw [List.append_assoc, List.set_append_right _ _ (by omega)]
      simp [hl]
    simp only [inc_counter, e1, e2, beBytes, beNat_concat]
    by_cases hc : x + 1 = 0
    · have hx' : x.toNat = 255 := by
        have := congrArg BitVec.toNat hc
        simp at this; omega
      rw [if_neg (by simpa using hc), ih a' _ hl]
      rw [show (256 * beNat a' + x.toNat + 1) / 256 = beNat a' + 1 by omega, hc]
      have : BitVec.ofNat 8 (256 * beNat a' + x.toNat + 1) = 0 := by
        apply BitVec.eq_of_toNat_eq; simp; omega
      rw [this]; simp
    · have hx' : x.toNat ≠ 255 := by
        intro h'; apply hc; apply BitVec.eq_of_toNat_eq; simp [h']
      rw [if_pos (by simpa using hc)]
      rw [show (256 * beNat a' + x.toNat + 1) / 256 = beNat a' by omega, beBytes_beNat _ _ hl]
      have : BitVec.ofNat 8 (256 * beNat a' + x.toNat + 1) = x + 1 := by
        apply BitVec.eq_of_toNat_eq; simp; omega
      rw [this]; simp

/-- `inc_counter` adds one to the big-endian counter. -/
theorem inc_counter_eq (n : Nat) (a : Bytes) (h : a.length = n) :
    inc_counter a n = beBytes n (beNat a + 1) := by
  have := inc_counter_append n a [] h
  simpa using this

theorem inc_counter_length (n : Nat) (a : Bytes) : (inc_counter a n).length = a.length := by
  induction n generalizing a with
  | zero => rfl
  | succ n ih =>
    simp only [inc_counter]
    split
    · simp
    · rw [ih]; simp

/-- Counter blocks follow each other by `inc_counter`. -/
theorem ctrBlock_succ (n : Nat) (iv : Bytes) (j : Nat) :
    ctrBlock n iv (j + 1) = inc_counter (ctrBlock n iv j) n := by
  rw [inc_counter_eq _ _ (by simp [ctrBlock])]
  unfold ctrBlock
  rw [beNat_beBytes, ← beBytes_mod, ← beBytes_mod n ((beNat iv + j) % 256 ^ n + 1)]
  congr 1
  simp [← Nat.add_assoc]

theorem ctrBlock_zero (n : Nat) (iv : Bytes) (h : iv.length = n) : ctrBlock n iv 0 = iv := by
  simp [ctrBlock, beBytes_beNat iv n h]

/-! ### Splitting into blocks -/

theorem blocks_nil (bl : Nat) : blocks bl [] = [] := by rw [blocks, dif_neg (by simp)]

theorem blocks_cons (bl : Nat) (hb : 0 < bl) (data : Bytes) (h : data ≠ []) :
    blocks bl data = data.take bl :: blocks bl (data.drop bl) := by
  conv => lhs; rw [blocks, dif_pos ⟨hb, h⟩]

theorem blocks_flatten (bl : Nat) (hb : 0 < bl) (data : Bytes) : (blocks bl data).flatten = data := by
  generalize hn : data.length = n
  induction n using Nat.strongRecOn generalizing data with
  | ind n ih =>
    subst hn
    by_cases h : data = []
    · subst h; simp [blocks_nil]
    · have := List.length_pos_iff.mpr h
      rw [blocks_cons _ hb _ h, List.flatten_cons, ih _ (by simp; omega) _ rfl, List.take_append_drop]

theorem blocks_append (bl : Nat) (hb : 0 < bl) (a b : Bytes) (h : bl ∣ a.length) :
    blocks bl (a ++ b) = blocks bl a ++ blocks bl b := by
  generalize hn : a.length = n
  induction n using Nat.strongRecOn generalizing a with
  | ind n ih =>
    subst hn
    by_cases ha : a = []
    · subst ha; simp [blocks_nil]
    · have hpos := List.length_pos_iff.mpr ha
      have hle : bl ≤ a.length := Nat.le_of_dvd hpos h
      rw [blocks_cons _ hb _ ha, blocks_cons _ hb _ (by simp [ha]),
        List.take_append_of_le_length hle, List.drop_append_of_le_length hle,
        ih (a.drop bl).length (by simp; omega) _ (by simpa using Nat.dvd_sub h (Nat.dvd_refl bl)) rfl]
      rfl

theorem blocks_all_length (bl : Nat) (hb : 0 < bl) (data : Bytes) (h : bl ∣ data.length) :
    ∀ b ∈ blocks bl data, b.length = bl := by
  generalize hn : data.length = n
  induction n using Nat.strongRecOn generalizing data with
  | ind n ih =>
    subst hn
    by_cases ha : data = []
    · subst ha; simp [blocks_nil]
    · have hpos := List.length_pos_iff.mpr ha
      have hle : bl ≤ data.length := Nat.le_of_dvd hpos h
      rw [blocks_cons _ hb _ ha]
      intro b hbm
      rcases List.mem_cons.mp hbm with rfl | hbm
      · simp; omega
      · exact ih _ (by simp; omega) (data.drop bl) (by simpa using Nat.dvd_sub h (Nat.dvd_refl bl)) rfl b hbm

theorem blocks_of_flatten (bl : Nat) (hb : 0 < bl) (l : List Bytes) (h : ∀ b ∈ l, b.length = bl) :
    blocks bl l.flatten = l := by
  induction l with
  | nil => simp [blocks_nil]
  | cons x l ih =>
    have hx := h x (by simp)
    have hne : x ≠ [] := by intro hh; simp [hh] at hx; omega
    rw [List.flatten_cons, blocks_append _ hb _ _ (by rw [hx]; exact Nat.dvd_refl _),
      ih (fun b hb => h b (by simp [hb])), blocks_cons _ hb _ hne,
      List.take_of_length_le (by omega), List.drop_eq_nil_of_le (by omega), blocks_nil]
    rfl

end Gost
