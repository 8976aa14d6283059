import Verif.Model.Mgm
import Verif.Spec.Mgm
import Verif.Lemmas.GF
import Verif.Lemmas.Stream
import Verif.Lemmas.Loops
import Verif.Lemmas.KuzModes

/-! # MGM: invariants of the core -/

namespace Gost
open Spec

/-! ## Generic facts -/

theorem padBlocks_flatten (bl : Nat) (hb : 0 < bl) (bs : List Bytes) (h : ∀ b ∈ bs, b.length = bl) (r : Bytes)
    (hr : r.length < bl) :
    padBlocks bl (bs.flatten ++ r) = bs ++ (if r = [] then [] else [r ++ zeros (bl - r.length)]) := by
  have hd : bl ∣ bs.flatten.length := by
    clear hr
    induction bs with
    | nil => simp
    | cons b bs ih =>
      simp only [List.flatten_cons, List.length_append, h b (by simp)]
      exact Nat.dvd_add (Nat.dvd_refl _) (ih fun b hb => h b (by simp [hb]))
  unfold padBlocks
  rw [blocks_append _ hb _ _ hd, blocks_of_flatten _ hb _ h, List.map_append]
  congr 1
  · conv => rhs; rw [← List.map_id bs]
    apply List.map_congr_left
    intro b hbm
    simp [h b hbm]
  · by_cases h0 : r = []
    · subst h0; simp [blocks_nil]
    · rw [if_neg h0, blocks_cons _ hb _ h0, List.take_of_length_le (by omega), List.drop_eq_nil_of_le (by omega), blocks_nil]
      rfl

theorem inc_left (bl : Nat) (z : Bytes) (hz : z.length = bl) : inc_counter z (bl / 2) = incrL bl z := by
  unfold incrL
  have h := inc_counter_append (bl / 2) (z.take (bl / 2)) (z.drop (bl / 2)) (by simp; omega)
  rwa [List.take_append_drop] at h

theorem incrL_length (bl : Nat) (z : Bytes) (hz : z.length = bl) : (incrL bl z).length = bl := by
  unfold incrL; simp; omega

theorem incrR_length (bl : Nat) (z : Bytes) (hz : z.length = bl) (he : bl % 2 = 0) : (incrR bl z).length = bl := by
  unfold incrR; simp; omega

theorem inc_right (bl : Nat) (z : Bytes) (hz : z.length = bl) (he : bl % 2 = 0) :
    z.take (bl / 2) ++ inc_counter (z.drop (bl / 2)) (bl / 2) = incrR bl z := by
  unfold incrR
  rw [inc_counter_eq _ _ (by simp; omega)]

theorem iter_len {f : Bytes → Bytes} {bl : Nat} (hf : ∀ z, z.length = bl → (f z).length = bl) (n : Nat) (z : Bytes)
    (hz : z.length = bl) : (iter f n z).length = bl := by
  induction n generalizing z with
  | zero => exact hz
  | succ n ih => exact ih _ (hf z hz)

theorem mgmSum_concat (bl : Nat) (E : Bytes → Bytes) (M : Bytes → Bytes → Bytes) (z : Bytes) (bs : List Bytes) (b : Bytes) :
    mgmSum bl E M z (bs ++ [b]) = xorB (mgmSum bl E M z bs) (M (mgmH bl E z bs.length) b) := by
  unfold mgmSum
  rw [List.mapIdx_append, List.foldl_append]
  simp
  rfl

theorem xorStream_concat (bl : Nat) (g : Nat → Bytes) (xs : Bytes) (x : Byte) :
    xorStream bl g (xs ++ [x]) = xorStream bl g xs ++ [x ^^^ at_ (g (xs.length / bl)) (xs.length % bl)] := by
  unfold xorStream
  rw [List.mapIdx_append]
  simp

/-! ## The nonce -/

theorem clrTop_eq (b : Bytes) : clrTop b = nonce0 b := by cases b <;> rfl
theorem setTop_eq (b : Bytes) : setTop b = nonce1 b := by cases b <;> rfl

theorem nonce0_0 (b : Bytes) : nonce0 (nonce0 b) = nonce0 b := by
  cases b with
  | nil => rfl
  | cons x b =>
    simp only [nonce0, List.cons.injEq, and_true]
    rw [BitVec.and_assoc]; rfl

theorem nonce0_1 (b : Bytes) : nonce0 (nonce1 b) = nonce0 b := by
  cases b with
  | nil => rfl
  | cons x b =>
    simp only [nonce0, nonce1, List.cons.injEq, and_true]
    revert x; decide

theorem nonce1_0 (b : Bytes) : nonce1 (nonce0 b) = nonce1 b := by
  cases b with
  | nil => rfl
  | cons x b =>
    simp only [nonce0, nonce1, List.cons.injEq, and_true]
    revert x; decide

theorem nonce1_1 (b : Bytes) : nonce1 (nonce1 b) = nonce1 b := by
  cases b with
  | nil => rfl
  | cons x b =>
    simp only [nonce1, List.cons.injEq, and_true]
    rw [BitVec.or_assoc]; rfl

/-- The stored nonce is `n` up to its first bit. -/
def SameNonce (c : Mgm) (n : Bytes) : Prop := nonce0 c.nonce = nonce0 n ∧ nonce1 c.nonce = nonce1 n

/-! ## Absorption of blocks -/

section
variable (E : Bytes → Bytes) (M : Bytes → Bytes → Bytes) (bl : Nat)

/-- The authentication part of the context: the blocks `bs` have been absorbed from the starting value `z`. -/
def Acc (z : Bytes) (bs : List Bytes) (c : Mgm) : Prop :=
  c.Zi = iter (incrL bl) bs.length z ∧ c.sum = mgmSum bl E M z bs

/-- The fields absorption does not touch. -/
def Frame (c c' : Mgm) : Prop :=
  c'.nonce = c.nonce ∧ c'.Yi = c.Yi ∧ c'.EKi = c.EKi ∧ c'.ACi = c.ACi ∧ c'.lenA = c.lenA ∧ c'.lenM = c.lenM ∧
  c'.mres = c.mres ∧ c'.ares = c.ares

theorem Frame.refl (c : Mgm) : Frame c c := ⟨rfl, rfl, rfl, rfl, rfl, rfl, rfl, rfl⟩

theorem Frame.trans {a b c : Mgm} (h : Frame a b) (h' : Frame b c) : Frame a c := by
  obtain ⟨a1, a2, a3, a4, a5, a6, a7, a8⟩ := h
  obtain ⟨b1, b2, b3, b4, b5, b6, b7, b8⟩ := h'
  exact ⟨b1.trans a1, b2.trans a2, b3.trans a3, b4.trans a4, b5.trans a5, b6.trans a6, b7.trans a7, b8.trans a8⟩

theorem absorb_frame (c : Mgm) (b : Bytes) : Frame c (mgmAbsorb E M bl c b) := ⟨rfl, rfl, rfl, rfl, rfl, rfl, rfl, rfl⟩

theorem absorb_acc (z : Bytes) (hz : z.length = bl) (bs : List Bytes) (c : Mgm) (h : Acc E M bl z bs c) (b : Bytes) :
    Acc E M bl z (bs ++ [b]) (mgmAbsorb E M bl c b) := by
  obtain ⟨h1, h2⟩ := h
  refine ⟨?_, ?_⟩
  · show inc_counter c.Zi (bl / 2) = _
    rw [h1, inc_left _ _ (iter_len (incrL_length bl) _ _ hz), List.length_append, List.length_singleton, iter_succ_out]
  · show xorB c.sum (M (E c.Zi) b) = _
    rw [mgmSum_concat, h2, h1]; rfl

/-- Absorbing all full blocks of an input. -/
theorem absorb_blocks (hb : 0 < bl) (z : Bytes) (hz : z.length = bl) (bs : List Bytes) (c : Mgm) (h : Acc E M bl z bs c)
    (inp : Bytes) :
    ∃ (ds : List Bytes) (r : Bytes), inp = ds.flatten ++ r ∧ (∀ b ∈ ds, b.length = bl) ∧ r.length < bl ∧
      (whileBlocks bl (fun c b => (mgmAbsorb E M bl c b, [])) c inp).2.2 = r ∧
      Acc E M bl z (bs ++ ds) (whileBlocks bl (fun c b => (mgmAbsorb E M bl c b, [])) c inp).1 ∧
      Frame c (whileBlocks bl (fun c b => (mgmAbsorb E M bl c b, [])) c inp).1 := by
  generalize hn : inp.length = n
  induction n using Nat.strong_induction_on generalizing inp c bs with
  | _ n ih =>
    by_cases hlt : inp.length < bl
    · refine ⟨[], inp, rfl, by simp, hlt, ?_, ?_, ?_⟩ <;> rw [whileBlocks_small _ _ _ _ hlt]
      · simpa using h
      · exact Frame.refl c
    · have hle : bl ≤ inp.length := by omega
      have h1 := absorb_acc E M bl z hz bs c h (inp.take bl)
      obtain ⟨ds, r, e1, e2, e3, e4, e5, e6⟩ := ih (inp.drop bl).length (by simp; omega) (bs ++ [inp.take bl])
        (mgmAbsorb E M bl c (inp.take bl)) h1 (inp.drop bl) rfl
      refine ⟨inp.take bl :: ds, r, ?_, ?_, e3, ?_, ?_, ?_⟩
      · rw [List.flatten_cons, List.append_assoc, ← e1, List.take_append_drop]
      · intro b hbm
        rcases List.mem_cons.mp hbm with rfl | hbm
        · simp; omega
        · exact e2 b hbm
      all_goals rw [whileBlocks_step _ _ _ _ hb hle]
      · exact e4
      · simpa using e5
      · exact (absorb_frame E M bl c _).trans e6

/-! ## Associated data -/

/-- The state after associated data `a` (in any pieces), with the authentication counter started at `z`. -/
structure AInv (n z a : Bytes) (c : Mgm) : Prop where
  nonce : SameNonce c n
  lenA : c.lenA = a.length
  lenM : c.lenM = 0
  mres : c.mres = 0
  aci : c.ACi.length = bl
  acc : ∃ (bs : List Bytes) (r : Bytes), a = bs.flatten ++ r ∧ (∀ b ∈ bs, b.length = bl) ∧ r.length < bl ∧
    Acc E M bl z bs c ∧ c.ares = r.length ∧ c.ACi.take r.length = r

theorem aadPart_eq (aci : Bytes) (n : Nat) (inp r : Bytes) (ha : aci.length = bl) (hn : n < bl) (hr : r.length = n) (h0 : 0 < n)
    (ht : aci.take n = r) :
    ∃ aci', aci'.length = bl ∧
      ((r ++ inp).length < bl ∧ aadPart bl aci n inp = (aci', (r ++ inp).length, []) ∧ aci'.take (r ++ inp).length = r ++ inp ∨
       ∃ p q, inp = p ++ q ∧ (r ++ p).length = bl ∧ aadPart bl aci n inp = (aci', 0, q) ∧ aci' = r ++ p) := by
  induction inp generalizing aci n r with
  | nil =>
    refine ⟨aci, ha, Or.inl ⟨by simp; omega, ?_, by simp [hr, ht]⟩⟩
    rw [aadPart]; simp [hr]
  | cons x xs ih =>
    have ht' : (aci.set n x).take (n + 1) = r ++ [x] := by
      apply List.ext_getElem
      · simp; omega
      · intro i h1 h2
        rw [List.getElem_take, List.getElem_set, List.getElem_append]
        simp at h1 h2
        by_cases hi : i = n
        · subst hi; simp [hr]
        · simp only [show ¬ (n = i) by omega, if_false]
          rw [dif_pos (by omega)]
          simp only [← ht]
          rw [List.getElem_take]
    rw [aadPart, if_pos (by omega)]
    by_cases hlast : n + 1 = bl
    · refine ⟨aci.set n x, by simp [ha], Or.inr ⟨[x], xs, rfl, by simp; omega, ?_, ?_⟩⟩
      · rw [hlast, Nat.mod_self]
        cases xs with
        | nil => rfl
        | cons y ys => rw [aadPart, if_neg (by simp)]
      · rw [← ht', List.take_of_length_le (by simp; omega)]
    · rw [Nat.mod_eq_of_lt (by omega)]
      obtain ⟨aci', h1, h2⟩ := ih (aci.set n x) (n + 1) (r ++ [x]) (by simp [ha]) (by omega) (by simp [hr]) (by omega) ht'
      refine ⟨aci', h1, ?_⟩
      rcases h2 with ⟨a1, a2, a3⟩ | ⟨p, q, a1, a2, a3, a4⟩
      · left
        simp only [List.append_assoc, List.singleton_append] at a1 a2 a3
        exact ⟨a1, a2, a3⟩
      · right
        refine ⟨x :: p, q, by rw [a1]; rfl, ?_, a3, ?_⟩
        · simpa using a2
        · simpa using a4

theorem aadMain_inv (hb : 0 < bl) (n z a : Bytes) (hz : z.length = bl) (bs : List Bytes) (c : Mgm)
    (hbs : ∀ b ∈ bs, b.length = bl) (ha : a = bs.flatten) (h : Acc E M bl z bs c) (inp : Bytes)
    (h1 : SameNonce c n) (h2 : c.lenA = (a ++ inp).length) (h3 : c.lenM = 0) (h4 : c.mres = 0) (h5 : c.ACi.length = bl) :
    AInv E M bl n z (a ++ inp) (aadMain E M bl c 0 inp) := by
  obtain ⟨ds, r, e1, e2, e3, e4, e5, e6⟩ := absorb_blocks E M bl hb z hz bs c h inp
  unfold aadMain
  simp only
  rw [e4]
  generalize (whileBlocks bl (fun c b => (mgmAbsorb E M bl c b, [])) c inp).1 = c' at *
  obtain ⟨f1, f2, f3, f4, f5, f6, f7, f8⟩ := e6
  have hmem : ∀ b ∈ bs ++ ds, b.length = bl := by
    intro b hb'
    rcases List.mem_append.mp hb' with h | h
    · exact hbs b h
    · exact e2 b h
  have hsplit : a ++ inp = (bs ++ ds).flatten ++ r := by rw [ha, e1]; simp
  by_cases hr : r = []
  · subst hr
    simp only [ne_eq, not_true, if_false]
    exact { nonce := by unfold SameNonce at *; rw [f1]; exact h1
            lenA := f5.trans h2, lenM := f6.trans h3, mres := f7.trans h4, aci := by rw [f4]; exact h5
            acc := ⟨bs ++ ds, [], hsplit, hmem, hb, e5, rfl, rfl⟩ }
  · simp only [ne_eq, hr, not_false_eq_true, if_true]
    exact { nonce := by unfold SameNonce at *; simp only [f1]; exact h1
            lenA := f5.trans h2, lenM := f6.trans h3, mres := f7.trans h4
            aci := by simp only [f4, memcpyTo]; simp; omega
            acc := ⟨bs ++ ds, r, hsplit, hmem, e3, e5, rfl, by
              show (memcpyTo c'.ACi r r.length).take r.length = r
              unfold memcpyTo
              rw [List.take_append_of_le_length (by simp), List.take_take, Nat.min_self, List.take_length]⟩ }

/-- An accepted call with associated data. -/
theorem aad_inv (hb : 0 < bl) (hE : ∀ b, (E b).length = bl) (n z a : Bytes) (c : Mgm) (h : AInv E M bl n z a c)
    (hz : a = [] ∨ z = E (nonce1 n)) (d : Bytes) (hlen : a.length + d.length ≤ 2^(bl * 4 - 3)) (h64 : 2^(bl * 4 - 3) < 2^64) :
    (gost_mgm128_aad E M bl c d).2 = 0 ∧ AInv E M bl n (E (nonce1 n)) (a ++ d) (gost_mgm128_aad E M bl c d).1 := by
  obtain ⟨a1, a2, a3, a4, a5, bs, r, b1, b2, b3, b4, b5, b6⟩ := h
  unfold gost_mgm128_aad
  rw [if_neg (by simp [a3])]
  -- the state after the first-call initialisation
  obtain ⟨c1, hc1, n1, m1, m2, m3, m4, m5, m6, m7⟩ : ∃ c1 : Mgm,
      (if c.lenA = 0 then { c with nonce := setTop c.nonce, Zi := E (setTop c.nonce) } else c) = c1 ∧ SameNonce c1 n ∧
      c1.lenA = a.length ∧ c1.lenM = 0 ∧ c1.mres = 0 ∧ c1.ACi = c.ACi ∧ c1.ares = r.length ∧
      Acc E M bl (E (nonce1 n)) bs c1 ∧ c1.ACi.take r.length = r := by
    refine ⟨_, rfl, ?_⟩
    by_cases h0 : c.lenA = 0
    · rw [if_pos h0]
      have ha0 : a = [] := List.length_eq_zero_iff.mp (by omega)
      have hr0 : r = [] := by rw [ha0] at b1; simp at b1; exact b1.2
      have hbs0 : bs = [] := by
        rw [ha0, hr0] at b1; simp at b1
        cases bs with
        | nil => rfl
        | cons x bs => have := b2 x (by simp); have := b1 x (by simp); simp_all
      refine ⟨⟨?_, ?_⟩, by rw [ha0]; exact h0, a3, a4, rfl, b5, ?_, b6⟩
      · show nonce0 (setTop c.nonce) = _
        rw [setTop_eq, nonce0_1]; exact a1.1
      · show nonce1 (setTop c.nonce) = _
        rw [setTop_eq, nonce1_1]; exact a1.2
      · subst hbs0
        refine ⟨?_, b4.2⟩
        show E (setTop c.nonce) = _
        rw [setTop_eq, a1.2]; rfl
    · rw [if_neg h0]
      have : z = E (nonce1 n) := by
        rcases hz with h | h
        · rw [h] at a2; simp at a2; omega
        · exact h
      subst this
      exact ⟨a1, a2, a3, a4, rfl, b5, b4, b6⟩
  rw [hc1]
  simp only
  have hmod : (c1.lenA + d.length) % 2^64 = a.length + d.length := by rw [m1]; exact Nat.mod_eq_of_lt (by omega)
  rw [hmod, if_neg (by omega)]
  clear hc1 a1 a2 a3 a4 b4 b5 b6 hz
  by_cases hr : r.length = 0
  · have hr0 : r = [] := List.length_eq_zero_iff.mp hr
    rw [if_neg (by rw [m5]; omega)]
    refine ⟨rfl, ?_⟩
    refine aadMain_inv E M bl hb n (E (nonce1 n)) a (hE _) bs { c1 with lenA := a.length + d.length } b2 (by rw [b1, hr0]; simp) m6 d n1 ?_ m2 m3 ?_
    · simp
    · show c1.ACi.length = bl; rw [m4]; exact a5
  · rw [if_pos (by rw [m5]; omega)]
    obtain ⟨aci', l1, l2⟩ := aadPart_eq bl c1.ACi r.length d r (by rw [m4]; exact a5) b3 rfl (by omega) m7
    rcases l2 with ⟨p1, p2, p3⟩ | ⟨p, q, p1, p2, p3, p4⟩
    · rw [← m5] at p2
      rw [p2]
      simp only
      rw [if_neg (by simp; intro h; exact absurd h (by simp_all))]
      refine ⟨rfl, { nonce := n1, lenA := by simp, lenM := m2, mres := m3, aci := l1, acc := ⟨bs, r ++ d, by rw [b1]; simp, b2, p1, m6, rfl, p3⟩ }⟩
    · rw [← m5] at p3
      rw [p3]
      simp only [if_true]
      refine ⟨trivial, ?_⟩
      have hacc := absorb_acc E M bl (E (nonce1 n)) (hE _) bs { c1 with lenA := a.length + d.length, ACi := aci' } m6 aci'
      have hres := aadMain_inv E M bl hb n (E (nonce1 n)) (a ++ p) (hE _) (bs ++ [aci'])
        (mgmAbsorb E M bl { c1 with lenA := a.length + d.length, ACi := aci' } aci')
        (by
          intro b hbm
          rcases List.mem_append.mp hbm with h | h
          · exact b2 b h
          · simp at h; rw [h]; exact l1)
        (by rw [b1, p4]; simp) hacc q n1 (by rw [p1]; simp [mgmAbsorb]) m2 m3 l1
      rw [show a ++ d = a ++ p ++ q by rw [p1]; simp]
      exact hres

end

end Gost
