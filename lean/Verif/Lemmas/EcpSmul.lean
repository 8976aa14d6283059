import Verif.Model.EcpSmul
import Verif.Props.EcpScalar
import Mathlib.Algebra.Group.Basic
import Mathlib.Algebra.Module.BigOperators
import Mathlib.Tactic.Module
import Mathlib.Tactic.Abel
import Mathlib.Algebra.BigOperators.Intervals

/-!
# Lemmas for the scalar multiplications
-/

namespace Gost

open Spec (leNat digitsValue)

variable {prj aff leg : Type} {G : Type} [AddCommGroup G]

/-- What `var_smul_rwnaf` needs of the point operations. -/
structure SmulCode.VSound (O : SmulCode prj aff leg) (Rep : prj → G → Prop) : Prop where
  double : ∀ p g, Rep p g → Rep (O.point_double p) (g + g)
  add_proj : ∀ p g p' g', Rep p g → Rep p' g' → Rep (O.point_add_proj p p') (g + g')
  opp : ∀ p g, Rep p g → Rep (O.opp p) (-g)
  bits : 8 * O.nb ≤ 5 * O.n + 5

/-- What the scalar multiplications need of the point operations: representations of group elements by projective points
(`Rep`) and table entries (`RepA`) respected by the operations, and a table holding odd multiples of `32^(cols j)` times the
base point. -/
structure SmulCode.Sound (O : SmulCode prj aff leg) (Rep : prj → G → Prop) (RepA : aff → G → Prop) (gen : G) : Prop extends O.VSound Rep where
  add_mixed : ∀ p g a g', Rep p g → RepA a g' → Rep (O.point_add_mixed p a) (g + g')
  sub_mixed : ∀ p g a g', Rep p g → RepA a g' → Rep (O.point_add_mixed p (O.oppAff a)) (g + -g')
  ofAff : ∀ a g, RepA a g → Rep (O.ofAff a) g
  inf : Rep O.inf 0
  lut : ∀ j k, j < O.rows → k < 16 → RepA (O.lut_cmb j k) (((2 * k + 1) * 32 ^ (O.cols * j)) • gen)
  rows : 0 < O.rows
  cols : 0 < O.cols
  shape : O.n < O.rows * O.cols
  nb : 0 < O.nb

/-! ## Table lookups -/

theorem diffBit_eq (k j : Nat) (hk : k < 16) (hj : j < 16) :
    diffBit (BitVec.ofNat 32 k) (BitVec.ofNat 32 j) = 0 ↔ k ≠ j := by
  have : ∀ k < 16, ∀ j < 16, diffBit (BitVec.ofNat 32 k) (BitVec.ofNat 32 j) = 0 ↔ k ≠ j := by decide +kernel
  exact this k hk j hj

theorem selectLoop_eq {α : Type} (k : Nat) (hk : k < 16) (tab : Nat → α) (init : α) :
    selectLoop (BitVec.ofNat 32 k) tab init = tab k := by
  have : ∀ m ≤ 16, (List.range m).foldl (fun acc j => if diffBit (BitVec.ofNat 32 k) (BitVec.ofNat 32 j) = 0 then acc else tab j) init
      = if k < m then tab k else init := by
    intro m
    induction m with
    | zero => intro _; rfl
    | succ m ih =>
      intro hm
      rw [List.range_succ, List.foldl_append, ih (by omega), List.foldl_cons, List.foldl_nil]
      by_cases h : k = m
      · subst h
        rw [if_neg (by rw [diffBit_eq k k hk hk]; simp), if_pos (by omega)]
      · rw [if_pos ((diffBit_eq k m hk (by omega)).2 h)]
        by_cases h2 : k < m
        · rw [if_pos h2, if_pos (by omega)]
        · rw [if_neg h2, if_neg (by omega)]
  unfold selectLoop
  rw [this 16 (by omega), if_pos hk]

theorem digit_facts (d : Int) (h1 : -31 ≤ d) (h2 : d ≤ 31) (ho : d % 2 = 1) :
    ∃ k : Nat, k < 16 ∧ digitIndex (BitVec.ofInt 32 d) = BitVec.ofNat 32 k ∧
      ((isNegBit (BitVec.ofInt 32 d) = 0 ∧ d = 2 * k + 1) ∨ (isNegBit (BitVec.ofInt 32 d) ≠ 0 ∧ d = -(2 * k + 1))) := by
  have : ∀ m : Fin 32, let d : Int := 2 * (m.val : Int) - 31
      digitIndex (BitVec.ofInt 32 d) = BitVec.ofNat 32 ((d.natAbs - 1) / 2) ∧ (isNegBit (BitVec.ofInt 32 d) = 0 ↔ 0 ≤ d) := by
    decide +kernel
  have hm := this ⟨((d + 31) / 2).toNat, by omega⟩
  simp only at hm
  have e : 2 * (((d + 31) / 2).toNat : Int) - 31 = d := by omega
  rw [e] at hm
  refine ⟨(d.natAbs - 1) / 2, by omega, hm.1, ?_⟩
  by_cases hd : 0 ≤ d
  · left; exact ⟨hm.2.2 hd, by omega⟩
  · right; exact ⟨fun hc => hd (hm.2.1 hc), by omega⟩

theorem topDigit_facts (d : Int) (h1 : 1 ≤ d) (h2 : d ≤ 31) (ho : d % 2 = 1) :
    ∃ k : Nat, k < 16 ∧ (BitVec.ofInt 32 d - 1).sshiftRight 1 = BitVec.ofNat 32 k ∧ d = 2 * k + 1 := by
  have : ∀ m : Fin 16, (BitVec.ofInt 32 (2 * (m.val : Int) + 1) - 1).sshiftRight 1 = BitVec.ofNat 32 m.val := by
    decide +kernel
  have hm := this ⟨((d - 1) / 2).toNat, by omega⟩
  simp only at hm
  have e : 2 * (((d - 1) / 2).toNat : Int) + 1 = d := by omega
  rw [e] at hm
  exact ⟨((d - 1) / 2).toNat, by omega, hm, by omega⟩

/-! ## Digit strings -/

theorem digitsValue_eq_sum (b : Int) (l : List Int) : digitsValue b l = ∑ k ∈ Finset.range l.length, b ^ k * l.getD k 0 := by
  induction l with
  | nil => simp [digitsValue]
  | cons d l ih =>
    rw [digitsValue, ih, List.length_cons, Finset.sum_range_succ', Finset.mul_sum]
    simp only [pow_zero, one_mul, List.getD_cons_zero, List.getD_cons_succ]
    rw [add_comm]
    congr 1
    apply Finset.sum_congr rfl
    intro k _
    ring

section
variable {O : SmulCode prj aff leg} {Rep : prj → G → Prop} {RepA : aff → G → Prop} {gen : G}

/-! ## Table of odd multiples -/

theorem precomp_rep (h : O.VSound Rep) (P : leg) (g : G) (hP : Rep (O.ofLeg P) g) (k : Nat) (hk : k < 16) :
    Rep ((precomp_wnaf O P).getD k O.zeroPrj) ((2 * k + 1) • g) := by
  have inv : ∀ m ≤ 15, ∀ pc, pc = (List.range m).foldl (fun pc i =>
      pc.set (i + 1) (O.point_add_proj (pc.getD 15 O.zeroPrj) (pc.getD i O.zeroPrj)))
        (((List.replicate 16 O.zeroPrj).set 0 (O.ofLeg P)).set 15
          (O.point_double (((List.replicate 16 O.zeroPrj).set 0 (O.ofLeg P)).getD 0 O.zeroPrj))) →
      pc.length = 16 ∧ (m < 15 → Rep (pc.getD 15 O.zeroPrj) (g + g)) ∧ ∀ k ≤ m, Rep (pc.getD k O.zeroPrj) ((2 * k + 1) • g) := by
    intro m
    induction m with
    | zero =>
      intro _ pc hpc
      subst hpc
      refine ⟨by simp, ?_, ?_⟩
      · intro _
        exact h.double _ _ hP
      · intro k hk
        have : k = 0 := by omega
        subst this
        simpa using hP
    | succ m ih =>
      intro hm pc hpc
      obtain ⟨h1, h2, h3⟩ := ih (by omega) _ rfl
      rw [List.range_succ, List.foldl_append, List.foldl_cons, List.foldl_nil] at hpc
      generalize (List.range m).foldl _ _ = pc0 at *
      subst hpc
      have gs : ∀ i x, (pc0.set (m + 1) x).getD i O.zeroPrj = if m + 1 = i then (if i < 16 then x else O.zeroPrj) else pc0.getD i O.zeroPrj := by
        intro i x
        simp only [List.getD_eq_getElem?_getD, List.getElem?_set, h1]
        split
        · split <;> split <;> simp_all
        · rfl
      refine ⟨by simp [h1], ?_, ?_⟩
      · intro hm2
        rw [gs, if_neg (by omega)]
        exact h2 (by omega)
      · intro k hk
        rw [gs]
        by_cases hkm : m + 1 = k
        · rw [if_pos hkm, if_pos (by omega)]
          have := h.add_proj _ _ _ _ (h2 (by omega)) (h3 m (by omega))
          have e : g + g + (2 * m + 1) • g = (2 * k + 1) • g := by rw [← hkm]; module
          rwa [e] at this
        · rw [if_neg hkm]
          exact h3 k (by omega)
  exact (inv 15 (by omega) _ rfl).2.2 k (by omega)

theorem doubles_rep (h : O.VSound Rep) (m : Nat) : ∀ (Q : prj) (g : G), Rep Q g → Rep (doubles O m Q) ((2 ^ m) • g) := by
  induction m with
  | zero => intro Q g hQ; simpa [doubles] using hQ
  | succ m ih =>
    intro Q g hQ
    have := ih _ _ (h.double _ _ hQ)
    rw [doubles]
    have e : (2 ^ (m + 1)) • g = (2 ^ m) • (g + g) := by
      rw [pow_succ, mul_nsmul', two_nsmul]
    rwa [e]

/-! ## Variable point -/

theorem rwnafRounds_rep (h : O.VSound Rep) (precomp : List prj) (g : G)
    (hp : ∀ k < 16, Rep (precomp.getD k O.zeroPrj) ((2 * k + 1) • g)) (rnaf : List Int) (i : Nat)
    (hd : ∀ k < i, rnaf.getD k 0 % 2 = 1 ∧ -31 ≤ rnaf.getD k 0 ∧ rnaf.getD k 0 ≤ 31) :
    ∀ (Q lut : prj) (q : G), Rep Q q →
      Rep (rwnafRounds O precomp rnaf i Q lut).1 ((32 ^ i : Nat) • q + (∑ k ∈ Finset.range i, (32 : Int) ^ k * rnaf.getD k 0) • g) := by
  induction i with
  | zero => intro Q lut q hQ; simpa [rwnafRounds] using hQ
  | succ i ih =>
    intro Q lut q hQ
    rw [rwnafRounds]
    obtain ⟨ho, h1, h2⟩ := hd i (by omega)
    obtain ⟨k, hk, e1, e2⟩ := digit_facts _ h1 h2 ho
    rw [e1, selectLoop_eq k hk]
    have hlut : Rep (if isNegBit (BitVec.ofInt 32 (rnaf.getD i 0)) = 0 then precomp.getD k O.zeroPrj else O.opp (precomp.getD k O.zeroPrj))
        (rnaf.getD i 0 • g) := by
      rcases e2 with ⟨c, e⟩ | ⟨c, e⟩
      · rw [if_pos c, e]
        have := hp k hk
        have e3 : (2 * (k : Int) + 1) • g = (2 * k + 1) • g := by
          rw [← natCast_zsmul]; push_cast; rfl
        rwa [e3]
      · rw [if_neg c, e]
        have := h.opp _ _ (hp k hk)
        have e3 : (-(2 * (k : Int) + 1)) • g = -((2 * k + 1) • g) := by
          rw [← natCast_zsmul, neg_zsmul]; push_cast; rfl
        rwa [e3]
    have hQ' := h.add_proj _ _ _ _ (doubles_rep h 5 Q q hQ) hlut
    have := ih (fun k hk => hd k (by omega)) _ (if isNegBit (BitVec.ofInt 32 (rnaf.getD i 0)) = 0 then precomp.getD k O.zeroPrj
      else O.opp (precomp.getD k O.zeroPrj)) _ hQ'
    have e4 : (32 ^ (i + 1) : Nat) • q + (∑ k ∈ Finset.range (i + 1), (32 : Int) ^ k * rnaf.getD k 0) • g
        = (32 ^ i : Nat) • (2 ^ 5 • q + rnaf.getD i 0 • g) + (∑ k ∈ Finset.range i, (32 : Int) ^ k * rnaf.getD k 0) • g := by
      rw [Finset.sum_range_succ, add_zsmul, nsmul_add, pow_succ, mul_nsmul', mul_zsmul]
      have : (32 : Int) ^ i • rnaf.getD i 0 • g = (32 ^ i : Nat) • rnaf.getD i 0 • g := by
        rw [← natCast_zsmul]; push_cast; rfl
      rw [this]
      abel_nf
    rwa [e4]

theorem getD_of_mem_take {l : List Int} {n k : Nat} (hk : k < n) (hl : n ≤ l.length) : l.getD k 0 ∈ l.take n := by
  rw [List.getD_eq_getElem?_getD, List.getElem?_eq_getElem (by omega), Option.getD_some]
  have h2 : k < (l.take n).length := by simp; omega
  have := List.getElem_mem h2
  rwa [List.getElem_take] at this

theorem lsb_zero_iff (b : Bytes) : at_ b 0 &&& 1 = 0 ↔ leNat b % 2 = 0 := by
  have h0 := leNat_byte b 0
  simp only [Nat.pow_zero, Nat.div_one] at h0
  have : ∀ x : BitVec 8, x &&& 1 = 0 ↔ x.toNat % 2 = 0 := by decide +kernel
  rw [this]; omega

theorem var_smul_rep (h : O.VSound Rep) (scalar : Bytes) (hs : scalar.length = O.nb) (P : leg) (g : G)
    (hP : Rep (O.ofLeg P) g) : Rep (var_smul_rwnaf_prj O scalar P) ((2 ^ O.finalDoubles * leNat scalar) • g) := by
  have hbits := h.bits
  obtain ⟨r1, r2, r3, t, r4, r5, r6, r7, r8⟩ := C44_rwnaf O.nb O.n scalar hs (by omega)
  have hp := precomp_rep h P g hP
  unfold var_smul_rwnaf_prj
  simp only
  have ht : (scalar_rwnaf O.nb O.n scalar).getD O.n 0 = t := by rw [List.getD_eq_getElem?_getD, r4]; rfl
  obtain ⟨k, hk, e1, e2⟩ := topDigit_facts t r6 (r8 hbits) r5
  rw [ht, e1, selectLoop_eq k hk]
  have hQ := rwnafRounds_rep h (precomp_wnaf O P) g hp (scalar_rwnaf O.nb O.n scalar) O.n
    (fun k hk => r3 _ (getD_of_mem_take hk (by omega))) _ O.zeroPrj _ (hp k hk)
  have hval : (32 ^ O.n : Nat) • ((2 * k + 1) • g) + (∑ k ∈ Finset.range O.n, (32 : Int) ^ k * (scalar_rwnaf O.nb O.n scalar).getD k 0) • g
      = (leNat scalar ||| 1) • g := by
    rw [← natCast_zsmul g (leNat scalar ||| 1), ← r2, digitsValue_eq_sum, r1, Finset.sum_range_succ, ht, add_zsmul, add_comm, mul_zsmul, e2]
    congr 1
    have : (2 * (k : Int) + 1) • g = (2 * k + 1) • g := by
      rw [← natCast_zsmul]; push_cast; rfl
    rw [this, ← natCast_zsmul]; push_cast; rfl
  rw [hval] at hQ
  rw [mul_nsmul']
  apply doubles_rep h
  by_cases hodd : leNat scalar % 2 = 0
  · rw [if_pos ((lsb_zero_iff scalar).2 hodd)]
    have := h.add_proj _ _ _ _ (h.opp _ _ (hp 0 (by omega))) hQ
    have hor : leNat scalar ||| 1 = leNat scalar + 1 := by
      have h1 : (leNat scalar ||| 1) / 2 = leNat scalar / 2 := by rw [Nat.or_div_two]; simp
      have h2 : (leNat scalar ||| 1) % 2 = 1 := Nat.or_mod_two_eq_one.2 (Or.inr rfl)
      omega
    rw [hor] at this
    have e : -((2 * 0 + 1) • g) + (leNat scalar + 1) • g = leNat scalar • g := by module
    rwa [e] at this
  · rw [if_neg (fun hc => hodd ((lsb_zero_iff scalar).1 hc))]
    have hor : leNat scalar ||| 1 = leNat scalar := by
      have h1 : (leNat scalar ||| 1) / 2 = leNat scalar / 2 := by rw [Nat.or_div_two]; simp
      have h2 : (leNat scalar ||| 1) % 2 = 1 := Nat.or_mod_two_eq_one.2 (Or.inr rfl)
      omega
    rwa [hor] at hQ

/-! ## Fixed point -/

/-- Digit `k`, zero beyond the last one. -/
def cmbDigit (n : Nat) (rnaf : List Int) (k : Nat) : Int := if k > n then 0 else rnaf.getD k 0

theorem cmbRow_rep (h : O.Sound Rep RepA gen) (rnaf : List Int) (i j : Nat) (hj : j < O.rows)
    (hd : ∀ k ≤ O.n, rnaf.getD k 0 % 2 = 1 ∧ -31 ≤ rnaf.getD k 0 ∧ rnaf.getD k 0 ≤ 31) (Q : prj) (lut : aff) (q : G) (hQ : Rep Q q) :
    Rep (cmbRow O rnaf i j Q lut).1 (q + ((32 : Int) ^ (O.cols * j) * cmbDigit O.n rnaf (j * O.cols + i)) • gen) := by
  unfold cmbRow cmbDigit
  by_cases hc : j * O.cols + i > O.n
  · rw [if_pos hc, if_pos hc]; simpa using hQ
  · rw [if_neg hc, if_neg hc]
    simp only
    obtain ⟨ho, h1, h2⟩ := hd (j * O.cols + i) (by omega)
    obtain ⟨k, hk, e1, e2⟩ := digit_facts _ h1 h2 ho
    rw [e1, selectLoop_eq k hk]
    · rcases e2 with ⟨c, e⟩ | ⟨c, e⟩
      · rw [if_pos c, e]
        have := h.add_mixed _ _ _ _ hQ (h.lut j k hj hk)
        have e3 : ((32 : Int) ^ (O.cols * j) * (2 * (k : Int) + 1)) • gen = ((2 * k + 1) * 32 ^ (O.cols * j)) • gen := by
          rw [← natCast_zsmul]; push_cast; rw [mul_comm]
        rwa [e3]
      · rw [if_neg c, e]
        have := h.sub_mixed _ _ _ _ hQ (h.lut j k hj hk)
        have e3 : ((32 : Int) ^ (O.cols * j) * (-(2 * (k : Int) + 1))) • gen = -(((2 * k + 1) * 32 ^ (O.cols * j)) • gen) := by
          rw [← natCast_zsmul, ← neg_zsmul]; push_cast; congr 1; ring
        rwa [e3]

theorem cmbRows_rep (h : O.Sound Rep RepA gen) (rnaf : List Int) (i : Nat)
    (hd : ∀ k ≤ O.n, rnaf.getD k 0 % 2 = 1 ∧ -31 ≤ rnaf.getD k 0 ∧ rnaf.getD k 0 ≤ 31) (Q : prj) (lut : aff) (q : G) (hQ : Rep Q q)
    (m : Nat) (hm : m ≤ O.rows) :
    Rep ((List.range m).foldl (fun (s : prj × aff) j => cmbRow O rnaf i j s.1 s.2) (Q, lut)).1
      (q + (∑ j ∈ Finset.range m, (32 : Int) ^ (O.cols * j) * cmbDigit O.n rnaf (j * O.cols + i)) • gen) := by
  induction m with
  | zero => simpa using hQ
  | succ m ih =>
    rw [List.range_succ, List.foldl_append, List.foldl_cons, List.foldl_nil, Finset.sum_range_succ, add_zsmul, ← add_assoc]
    exact cmbRow_rep h rnaf i m (by omega) hd _ _ _ (ih (by omega))

theorem cmbRounds_rep (h : O.Sound Rep RepA gen) (rnaf : List Int)
    (hd : ∀ k ≤ O.n, rnaf.getD k 0 % 2 = 1 ∧ -31 ≤ rnaf.getD k 0 ∧ rnaf.getD k 0 ≤ 31) (i : Nat) (hi : i ≤ O.cols) :
    ∀ (Q : prj) (lut : aff) (q : G), Rep Q q → (i = O.cols → q = 0) →
      Rep (cmbRounds O rnaf i Q lut).1 ((32 ^ i : Nat) • q +
        (∑ c ∈ Finset.range i, ∑ j ∈ Finset.range O.rows, (32 : Int) ^ (O.cols * j + c) * cmbDigit O.n rnaf (j * O.cols + c)) • gen) := by
  induction i with
  | zero => intro Q lut q hQ _; simpa [cmbRounds] using hQ
  | succ i ih =>
    intro Q lut q hQ hq
    rw [cmbRounds]
    have hQ1 : Rep (if i ≠ O.cols - 1 then doubles O 5 Q else Q) (32 • q) := by
      split
      · exact doubles_rep h.toVSound 5 Q q hQ
      · rename_i hc
        have := hq (by omega)
        subst this
        simpa using hQ
    have hQ2 := cmbRows_rep h rnaf i hd _ lut _ hQ1 O.rows (le_refl _)
    have := ih (by omega) _ (List.foldl (fun (s : prj × aff) j => cmbRow O rnaf i j s.1 s.2) (if i ≠ O.cols - 1 then doubles O 5 Q else Q, lut)
      (List.range O.rows)).2 _ hQ2 (by omega)
    rw [Finset.sum_range_succ, add_zsmul]
    have e : (∑ j ∈ Finset.range O.rows, (32 : Int) ^ (O.cols * j + i) * cmbDigit O.n rnaf (j * O.cols + i)) • gen
        = (32 ^ i : Nat) • ((∑ j ∈ Finset.range O.rows, (32 : Int) ^ (O.cols * j) * cmbDigit O.n rnaf (j * O.cols + i)) • gen) := by
      rw [← natCast_zsmul, ← mul_zsmul, Finset.mul_sum]
      congr 1
      apply Finset.sum_congr rfl
      intro j _
      push_cast
      ring
    rw [e]
    have e2 : (32 ^ (i + 1) : Nat) • q = (32 ^ i : Nat) • (32 • q) := by rw [pow_succ, mul_nsmul']
    rw [e2]
    rw [nsmul_add] at this
    convert this using 1
    abel

theorem sum_grid (f : Nat → Int) (c r : Nat) :
    ∑ k ∈ Finset.range (r * c), f k = ∑ i ∈ Finset.range c, ∑ j ∈ Finset.range r, f (j * c + i) := by
  induction r with
  | zero => simp
  | succ r ih =>
    rw [Nat.succ_mul, Finset.sum_range_add, ih]
    simp_rw [Finset.sum_range_succ]
    rw [Finset.sum_add_distrib]

theorem fixed_smul_rep (h : O.Sound Rep RepA gen) (scalar : Bytes) (hs : scalar.length = O.nb) :
    Rep (fixed_smul_cmb_prj O scalar) (leNat scalar • gen) := by
  have hbits := h.bits
  have hshape := h.shape
  obtain ⟨r1, r2, r3, t, r4, r5, r6, r7, r8⟩ := C44_rwnaf O.nb O.n scalar hs (by omega)
  have ht : (scalar_rwnaf O.nb O.n scalar).getD O.n 0 = t := by rw [List.getD_eq_getElem?_getD, r4]; rfl
  have hd : ∀ k ≤ O.n, (scalar_rwnaf O.nb O.n scalar).getD k 0 % 2 = 1 ∧ -31 ≤ (scalar_rwnaf O.nb O.n scalar).getD k 0 ∧
      (scalar_rwnaf O.nb O.n scalar).getD k 0 ≤ 31 := by
    intro k hk
    by_cases hkn : k = O.n
    · subst hkn; rw [ht]; exact ⟨r5, by omega, r8 hbits⟩
    · exact r3 _ (getD_of_mem_take (by omega) (by omega))
  unfold fixed_smul_cmb_prj
  simp only
  have hQ := cmbRounds_rep h (scalar_rwnaf O.nb O.n scalar) hd O.cols (le_refl _) O.inf O.zeroAff 0 h.inf (fun _ => rfl)
  have hval : (∑ c ∈ Finset.range O.cols, ∑ j ∈ Finset.range O.rows,
      (32 : Int) ^ (O.cols * j + c) * cmbDigit O.n (scalar_rwnaf O.nb O.n scalar) (j * O.cols + c)) = ((leNat scalar ||| 1 : Nat) : Int) := by
    have := sum_grid (fun k => (32 : Int) ^ k * cmbDigit O.n (scalar_rwnaf O.nb O.n scalar) k) O.cols O.rows
    simp_rw [Nat.mul_comm O.cols]
    rw [← this, ← r2, digitsValue_eq_sum, r1]
    rw [← Finset.sum_subset (s₁ := Finset.range (O.n + 1)) (s₂ := Finset.range (O.rows * O.cols))]
    · apply Finset.sum_congr rfl
      intro k hk
      rw [Finset.mem_range] at hk
      unfold cmbDigit
      rw [if_neg (by omega)]
    · intro k hk
      rw [Finset.mem_range] at hk ⊢
      omega
    · intro k _ hk
      rw [Finset.mem_range] at hk
      unfold cmbDigit
      rw [if_pos (by omega), mul_zero]
  rw [hval, natCast_zsmul, nsmul_zero, zero_add] at hQ
  have h1 : (leNat scalar ||| 1) / 2 = leNat scalar / 2 := by rw [Nat.or_div_two]; simp
  have h2 : (leNat scalar ||| 1) % 2 = 1 := Nat.or_mod_two_eq_one.2 (Or.inr rfl)
  by_cases hodd : leNat scalar % 2 = 0
  · rw [if_pos ((lsb_zero_iff scalar).2 hodd)]
    have hl := h.lut 0 0 h.rows (by omega)
    have := h.sub_mixed _ _ _ _ hQ hl
    have hor : leNat scalar ||| 1 = leNat scalar + 1 := by omega
    rw [hor] at this
    have e : (leNat scalar + 1) • gen + -(((2 * 0 + 1) * 32 ^ (O.cols * 0)) • gen) = leNat scalar • gen := by
      simp only [Nat.mul_zero, pow_zero]; module
    rwa [e] at this
  · rw [if_neg (fun hc => hodd ((lsb_zero_iff scalar).1 hc))]
    have hor : leNat scalar ||| 1 = leNat scalar := by omega
    rwa [hor] at hQ

/-! ## Two points -/

/-- The state represents `v`. -/
def TwoState.Is (Rep : prj → G → Prop) (s : TwoState prj) (v : G) : Prop :=
  (s.is_inf = true → v = 0) ∧ (s.is_inf = false → Rep s.Q (if s.flipped then -v else v))

theorem twoDigit_rep (h : O.Sound Rep RepA gen) (d : Int) (hd : d = 0 ∨ (d % 2 = 1 ∧ -31 ≤ d ∧ d ≤ 31)) (init : Nat → prj)
    (add : prj → Nat → prj) (g : G) (hi : ∀ k < 16, Rep (init k) ((2 * k + 1) • g))
    (ha : ∀ k < 16, ∀ Q q, Rep Q q → Rep (add Q k) (q + (2 * k + 1) • g)) (s : TwoState prj) (v : G) (hs : s.Is Rep v) :
    (twoDigit O d init add s).Is Rep (v + d • g) := by
  unfold twoDigit
  by_cases h0 : d = 0
  · rw [if_neg (by simpa using h0), h0, zero_zsmul, add_zero]; exact hs
  rw [if_pos h0]
  obtain ⟨ho, h1, h2⟩ := hd.resolve_left h0
  obtain ⟨hs1, hs2⟩ := hs
  set s' : TwoState prj := if decide (d < 0) ≠ s.flipped then { s with Q := O.opp s.Q, flipped := !s.flipped } else s with hs'
  have hf : s'.flipped = decide (d < 0) := by
    rw [hs']
    split
    · rename_i hc
      simp only
      cases hfl : s.flipped <;> cases hdl : decide (d < 0) <;> simp_all
    · rename_i hc; simp only [ne_eq, not_not] at hc; exact hc.symm
  have hinf : s'.is_inf = s.is_inf := by rw [hs']; split <;> rfl
  have hrep : s.is_inf = false → Rep s'.Q (if decide (d < 0) then -v else v) := by
    intro hc
    have := hs2 hc
    rw [← hf, hs']
    split
    · simp only
      cases hfl : s.flipped
      · simpa [hfl] using h.opp _ _ (by simpa [hfl] using this)
      · have := h.opp _ _ this
        simpa [hfl] using this
    · exact this
  have hk : ∃ k : Nat, k < 16 ∧ (if decide (d < 0) then (-d - 1) / 2 else (d - 1) / 2).toNat = k ∧ (if decide (d < 0) then -d else d) = 2 * (k : Int) + 1 := by
    by_cases hneg : d < 0
    · exact ⟨((-d - 1) / 2).toNat, by omega, by simp [hneg], by simp [hneg]; omega⟩
    · exact ⟨((d - 1) / 2).toNat, by omega, by simp [hneg], by simp [hneg]; omega⟩
  obtain ⟨k, hk1, hk2, hk3⟩ := hk
  have hz : (2 * k + 1) • g = (if decide (d < 0) then -(d • g) else d • g) := by
    have : (2 * k + 1) • g = (2 * (k : Int) + 1) • g := by rw [← natCast_zsmul]; push_cast; rfl
    rw [this, ← hk3]
    split
    · rw [neg_zsmul]
    · rfl
  show (if s'.is_inf = true then ({ s' with Q := init (if decide (d < 0) then (-d - 1) / 2 else (d - 1) / 2).toNat, is_inf := false } : TwoState prj)
    else { s' with Q := add s'.Q (if decide (d < 0) then (-d - 1) / 2 else (d - 1) / 2).toNat }).Is Rep _
  rw [hk2]
  clear_value s'
  by_cases hc : s'.is_inf = true
  · rw [if_pos hc]
    refine ⟨by simp, ?_⟩
    intro _
    have hv : v = 0 := hs1 (by rw [← hinf]; exact hc)
    have := hi k hk1
    rw [hz] at this
    simp only [hf, hv, zero_add]
    exact this
  · rw [if_neg hc]
    have hc' : s.is_inf = false := by rw [← hinf]; simpa using hc
    refine ⟨fun hcc => absurd hcc hc, ?_⟩
    intro _
    have := ha k hk1 _ _ (hrep hc')
    rw [hz] at this
    simp only [hf]
    split
    · rename_i hneg
      rw [if_pos hneg, if_pos hneg] at this
      rw [neg_add]; exact this
    · rename_i hneg
      rw [if_neg hneg, if_neg hneg] at this
      exact this

theorem twoRounds_rep (h : O.Sound Rep RepA gen) (precomp : List prj) (g : G)
    (hp : ∀ k < 16, Rep (precomp.getD k O.zeroPrj) ((2 * k + 1) • g)) (anaf bnaf : List Int) (i : Nat)
    (hda : ∀ k < i, anaf.getD k 0 = 0 ∨ (anaf.getD k 0 % 2 = 1 ∧ -31 ≤ anaf.getD k 0 ∧ anaf.getD k 0 ≤ 31))
    (hdb : ∀ k < i, bnaf.getD k 0 = 0 ∨ (bnaf.getD k 0 % 2 = 1 ∧ -31 ≤ bnaf.getD k 0 ∧ bnaf.getD k 0 ≤ 31)) :
    ∀ (s : TwoState prj) (v : G), s.Is Rep v →
      (twoRounds O precomp anaf bnaf i s).Is Rep ((2 ^ i : Nat) • v + (∑ k ∈ Finset.range i, (2 : Int) ^ k * anaf.getD k 0) • gen +
        (∑ k ∈ Finset.range i, (2 : Int) ^ k * bnaf.getD k 0) • g) := by
  have hl : ∀ k < 16, RepA (O.lut_cmb 0 k) ((2 * k + 1) • gen) := by
    intro k hk
    have := h.lut 0 k h.rows hk
    rwa [Nat.mul_zero, pow_zero, mul_one] at this
  induction i with
  | zero => intro s v hs; simpa [twoRounds] using hs
  | succ i ih =>
    intro s v hs
    rw [twoRounds]
    have s1 : (if s.is_inf = true then s else { s with Q := O.point_double s.Q }).Is Rep (v + v) := by
      by_cases hc : s.is_inf = true
      · rw [if_pos hc]
        have := hs.1 hc
        subst this
        simpa using hs
      · rw [if_neg hc]
        refine ⟨fun hcc => absurd hcc hc, fun hcc => ?_⟩
        have := h.double _ _ (hs.2 hcc)
        simp only
        split
        · rename_i hf
          rw [if_pos hf] at this
          rwa [neg_add]
        · rename_i hf
          rw [if_neg hf] at this
          exact this
    have s2 := twoDigit_rep h (bnaf.getD i 0) (hdb i (by omega)) (fun k => precomp.getD k O.zeroPrj)
      (fun Q k => O.point_add_proj Q (precomp.getD k O.zeroPrj)) g hp (fun k hk Q q hQ => h.add_proj _ _ _ _ hQ (hp k hk)) _ _ s1
    have s3 := twoDigit_rep h (anaf.getD i 0) (hda i (by omega)) (fun k => O.ofAff (O.lut_cmb 0 k))
      (fun Q k => O.point_add_mixed Q (O.lut_cmb 0 k)) gen (fun k hk => h.ofAff _ _ (hl k hk))
      (fun k hk Q q hQ => h.add_mixed _ _ _ _ hQ (hl k hk)) _ _ s2
    have := ih (fun k hk => hda k (by omega)) (fun k hk => hdb k (by omega)) _ _ s3
    convert this using 1
    rw [Finset.sum_range_succ, Finset.sum_range_succ, add_zsmul, add_zsmul, pow_succ, mul_nsmul', two_nsmul, mul_zsmul, mul_zsmul]
    simp only [nsmul_add]
    have e1 : ∀ x : G, (2 : Int) ^ i • x = (2 ^ i : Nat) • x := by
      intro x; rw [← natCast_zsmul]; push_cast; rfl
    rw [e1, e1]
    abel

theorem var_two_rep (h : O.Sound Rep RepA gen) (a b : Bytes) (ha : a.length = O.nb) (hb : b.length = O.nb) (P : leg) (g : G)
    (hP : Rep (O.ofLeg P) g) : Rep (var_smul_wnaf_two_prj O a b P) (leNat a • gen + leNat b • g) := by
  obtain ⟨a1, a2, a3⟩ := C44_wnaf O.nb h.nb a ha
  obtain ⟨b1, b2, b3⟩ := C44_wnaf O.nb h.nb b hb
  have mem : ∀ (l : List Int) k, k < l.length → l.getD k 0 ∈ l := by
    intro l k hk
    rw [List.getD_eq_getElem?_getD, List.getElem?_eq_getElem hk, Option.getD_some]
    exact List.getElem_mem _
  have := twoRounds_rep h (precomp_wnaf O P) g (precomp_rep h.toVSound P g hP) (scalar_wnaf O.nb (8 * O.nb + 1) a) (scalar_wnaf O.nb (8 * O.nb + 1) b)
    (8 * O.nb + 1) (fun k hk => a3 _ (mem _ _ (by omega))) (fun k hk => b3 _ (mem _ _ (by omega))) ⟨O.zeroPrj, true, false⟩ 0
    ⟨fun _ => rfl, by simp⟩
  have va := digitsValue_eq_sum 2 (scalar_wnaf O.nb (8 * O.nb + 1) a)
  have vb := digitsValue_eq_sum 2 (scalar_wnaf O.nb (8 * O.nb + 1) b)
  rw [a1, a2] at va
  rw [b1, b2] at vb
  rw [← va, ← vb, nsmul_zero, zero_add, natCast_zsmul, natCast_zsmul] at this
  unfold var_smul_wnaf_two_prj
  simp only
  generalize twoRounds O (precomp_wnaf O P) _ _ _ _ = s at *
  obtain ⟨t1, t2⟩ := this
  cases hc : s.is_inf
  · have := t2 hc
    cases hf : s.flipped
    · simpa [hf] using this
    · have := h.opp _ _ this
      simpa [hf] using this
  · rw [t1 hc]
    cases hf : s.flipped
    · simpa [hf] using h.inf
    · have := h.opp _ _ h.inf
      simpa [hf] using this

end

end Gost
