import Mathlib.RingTheory.AdjoinRoot
import Mathlib.GroupTheory.OrderOfElement
import Mathlib.Data.Fintype.Card
import Mathlib.Tactic.NormNum.Prime
import Verif.Lemmas.GFPoly
import Verif.Lemmas.Pocklington

/-!
# The moduli of MGM are irreducible

`X` has order `2^n - 1` modulo `X^64 + X^4 + X^3 + X + 1` and modulo `X^128 + X^7 + X^2 + X + 1`, so its powers are all non-zero
residues and every non-zero residue is invertible.
-/

open Polynomial Gost.Spec

namespace Gost

/-! ## Powers of `X` on numbers -/

/-- Multiplication by `X` on numbers below `2^n`. -/
def xtN (n c a : Nat) : Nat := if 2 ^ n ≤ 2 * a then (2 * a - 2 ^ n) ^^^ c else 2 * a

/-- Shift-and-add multiplication on numbers below `2^n`. -/
def mulN (n c : Nat) : Nat → Nat → Nat → Nat → Nat
  | 0, _, _, r => r
  | k + 1, a, b, r => mulN n c k (xtN n c a) (b / 2) (if b % 2 = 1 then r ^^^ a else r)

/-- `X^e` for `e < 2^f`. -/
def xpow (n c : Nat) : Nat → Nat → Nat
  | 0, _ => 1
  | f + 1, e =>
    let s := xpow n c f (e / 2)
    let q := mulN n c n s s 0
    if e % 2 = 1 then xtN n c q else q

theorem xtN_eq {n : Nat} (hn : 0 < n) (c a : BitVec n) : xtN n c.toNat a.toNat = (xtime c a).toNat := by
  have ha := a.isLt
  have hc := c.isLt
  have hp : 2 ^ n = 2 * 2 ^ (n - 1) := by rw [← pow_succ']; congr 1; omega
  unfold xtN xtime
  rw [BitVec.toNat_xor, BitVec.toNat_shiftLeft, Nat.shiftLeft_eq, pow_one]
  by_cases h : 2 ^ n ≤ 2 * a.toNat
  · rw [if_pos h]
    have hm : a.msb = true := by
      rw [BitVec.msb_eq_decide]; simp; omega
    rw [hm, if_pos rfl]
    congr 1
    rw [mul_comm a.toNat 2, Nat.mod_eq_sub_mod h, Nat.mod_eq_of_lt (by omega)]
  · rw [if_neg h]
    have hm : a.msb = false := by
      rw [BitVec.msb_eq_decide]; simp; omega
    rw [hm, mul_comm a.toNat 2, Nat.mod_eq_of_lt (by omega)]
    simp

theorem mulN_eq {n : Nat} (hn : 0 < n) (c : BitVec n) (k : Nat) (a b r : BitVec n) (i : Nat) (hi : i + k = n) :
    mulN n c.toNat k a.toNat (b.toNat / 2 ^ i) r.toNat =
      (((List.range' i k).foldl (fun s i => (if b.getLsbD i then s.1 ^^^ s.2 else s.1, xtime c s.2)) (r, a)).1).toNat := by
  induction k generalizing a r i with
  | zero => rfl
  | succ k ih =>
    rw [mulN, List.range'_succ, List.foldl_cons, xtN_eq hn, Nat.div_div_eq_div_mul, ← pow_succ]
    have hb : (b.toNat / 2 ^ i % 2 = 1) ↔ b.getLsbD i = true := by
      rw [← BitVec.testBit_toNat, Nat.testBit_eq_decide_div_mod_eq]; simp
    have hr : (if b.toNat / 2 ^ i % 2 = 1 then r.toNat ^^^ a.toNat else r.toNat) =
        (if b.getLsbD i then r ^^^ a else r).toNat := by
      by_cases h : b.getLsbD i = true
      · rw [if_pos (hb.2 h), if_pos h, BitVec.toNat_xor]
      · rw [if_neg (fun h' => h (hb.1 h')), if_neg h]
    rw [hr]
    exact ih _ _ (i + 1) (by omega)

theorem mulN_gfMul {n : Nat} (hn : 0 < n) (c a b : BitVec n) :
    mulN n c.toNat n a.toNat b.toNat 0 = (gfMul c a b).toNat := by
  have := mulN_eq hn c n a b 0 0 (by omega)
  rw [pow_zero, Nat.div_one] at this
  unfold gfMul
  rw [List.range_eq_range']
  simpa using this

/-! ## The ring of residues -/

section
variable {n : Nat} (c : BitVec n)

/-- A block as a residue modulo `X^n + c`. -/
noncomputable def toRes (a : BitVec n) : AdjoinRoot (modulus c) := AdjoinRoot.mk (modulus c) (toPoly a)

theorem toRes_zero : toRes c 0 = 0 := by
  have h : toPoly (0 : BitVec n) = 0 := by
    have := toPoly_xor (0 : BitVec n) 0
    rw [BitVec.xor_self] at this
    exact left_eq_add.1 this
  unfold toRes
  rw [h, map_zero]

theorem toRes_mul (hn : 0 < n) (a b : BitVec n) : toRes c (gfMul c a b) = toRes c a * toRes c b := by
  unfold toRes
  rw [gfMul_poly hn, ← map_mul, AdjoinRoot.mk_eq_mk]
  refine ⟨-((toPoly a * toPoly b) /ₘ modulus c), ?_⟩
  have := modByMonic_add_div (toPoly a * toPoly b) (modulus c)
  linear_combination this

theorem toRes_injective {a b : BitVec n} (h : toRes c a = toRes c b) : a = b := by
  apply toPoly_injective
  unfold toRes at h
  rw [AdjoinRoot.mk_eq_mk] at h
  have := toPoly_eq_of_dvd c a (toPoly b) h
  rw [this, toPoly_mod]

theorem toPoly_twoPow {i : Nat} (hi : i < n) : toPoly (BitVec.twoPow n i) = X ^ i := by
  ext k
  rw [toPoly_coeff, coeff_X_pow, BitVec.getLsbD_twoPow]
  by_cases h : k = i
  · subst h; simp [hi]
  · have : ¬ i = k := fun h' => h h'.symm
    simp [h, this]

theorem toRes_one (hn : 0 < n) : toRes c 1 = 1 := by
  have : (1 : BitVec n) = BitVec.twoPow n 0 := by
    apply BitVec.eq_of_toNat_eq
    simp [BitVec.toNat_twoPow]
  unfold toRes
  rw [this, toPoly_twoPow hn, pow_zero, map_one]

theorem toRes_xtime (hn : 0 < n) (a : BitVec n) : toRes c (xtime c a) = AdjoinRoot.root (modulus c) * toRes c a := by
  unfold toRes
  rw [← AdjoinRoot.mk_X, ← map_mul, AdjoinRoot.mk_eq_mk]
  exact xtime_dvd hn c a

/-- The power of `X` computed on numbers. -/
theorem xpow_eq (hn : 0 < n) (f e : Nat) (he : e < 2 ^ f) :
    ∃ v : BitVec n, v.toNat = xpow n c.toNat f e ∧ toRes c v = AdjoinRoot.root (modulus c) ^ e := by
  induction f generalizing e with
  | zero =>
    refine ⟨1, ?_, ?_⟩
    · rw [xpow]
      have : 1 < 2 ^ n := Nat.one_lt_two_pow (by omega)
      simp [Nat.mod_eq_of_lt this]
    · have : e = 0 := by simpa using he
      rw [this, pow_zero, toRes_one c hn]
  | succ f ih =>
    obtain ⟨v, h1, h2⟩ := ih (e / 2) (by rw [pow_succ] at he; omega)
    have hq : mulN n c.toNat n (xpow n c.toNat f (e / 2)) (xpow n c.toNat f (e / 2)) 0 = (gfMul c v v).toNat := by
      rw [← h1]; exact mulN_gfMul hn c v v
    have hs : toRes c (gfMul c v v) = AdjoinRoot.root (modulus c) ^ (2 * (e / 2)) := by
      rw [toRes_mul c hn, h2, ← pow_add, two_mul]
    rw [xpow]
    rw [hq]
    by_cases h : e % 2 = 1
    · rw [if_pos h, xtN_eq hn]
      refine ⟨_, rfl, ?_⟩
      rw [toRes_xtime c hn, hs, ← pow_succ']
      congr 1; omega
    · rw [if_neg h]
      refine ⟨_, rfl, ?_⟩
      rw [hs]
      congr 1; omega

/-- `X` has order `2^n - 1`, by the powers at the exponents `(2^n - 1) / p`. -/
theorem order_of_X (hn : 0 < n) (primes : List Nat) (hp : ∀ p, p.Prime → p ∣ 2 ^ n - 1 → p ∈ primes)
    (h1 : xpow n c.toNat n (2 ^ n - 1) = 1) (h2 : ∀ p ∈ primes, xpow n c.toNat n ((2 ^ n - 1) / p) ≠ 1) :
    orderOf (AdjoinRoot.root (modulus c)) = 2 ^ n - 1 := by
  have hpos : 1 < 2 ^ n := Nat.one_lt_two_pow (by omega)
  have hone : (1 : BitVec n).toNat = 1 := by simp [Nat.mod_eq_of_lt hpos]
  have key : ∀ e, e ≤ 2 ^ n - 1 → (AdjoinRoot.root (modulus c) ^ e = 1 ↔ xpow n c.toNat n e = 1) := by
    intro e he
    obtain ⟨v, e1, e2⟩ := xpow_eq c hn n e (by omega)
    rw [← e2, ← e1, ← toRes_one c hn]
    constructor
    · intro h; rw [toRes_injective c h, hone]
    · intro h
      have : v = 1 := BitVec.eq_of_toNat_eq (by rw [h, hone])
      rw [this]
  apply orderOf_eq_of_pow_and_pow_div_prime (by omega) ((key _ le_rfl).2 h1)
  intro p hpp hd
  rw [Ne, key _ (Nat.div_le_self _ _)]
  exact h2 p (hp p hpp hd)

/-- If `X` has order `2^n - 1`, every non-zero block is a unit. -/
theorem unit_of_order (hn : 0 < n) (ho : orderOf (AdjoinRoot.root (modulus c)) = 2 ^ n - 1) (a : BitVec n) (ha : a ≠ 0) :
    IsUnit (toRes c a) := by
  have hpos : 1 < 2 ^ n := Nat.one_lt_two_pow (by omega)
  have hex : ∀ k : Fin (2 ^ n - 1), ∃ v : BitVec n, toRes c v = AdjoinRoot.root (modulus c) ^ (k : Nat) := fun k => by
    obtain ⟨v, _, h⟩ := xpow_eq c hn n k (by have := k.isLt; omega)
    exact ⟨v, h⟩
  have hu : IsUnit (AdjoinRoot.root (modulus c)) := by
    apply IsUnit.of_pow_eq_one (pow_orderOf_eq_one _)
    rw [ho]; omega
  choose g hg using hex
  have hne : ∀ k, g k ≠ 0 := by
    intro k h
    have h1 := hg k
    rw [h, toRes_zero] at h1
    have h2 : (0 : AdjoinRoot (modulus c)) = 1 := by
      obtain ⟨w, hw⟩ := hu.pow (k : Nat)
      have := w.inv_mul
      rw [hw, ← h1, mul_zero] at this
      exact this
    have h3 : (0 : BitVec n) = 1 := by
      apply toRes_injective c
      rw [toRes_zero, toRes_one c hn, h2]
    have h4 := congrArg BitVec.toNat h3
    simp [Nat.mod_eq_of_lt hpos] at h4
  let G : Fin (2 ^ n - 1) → { v : BitVec n // v ≠ 0 } := fun k => ⟨g k, hne k⟩
  have hinj : Function.Injective G := by
    intro i j hij
    have h1 : g i = g j := congrArg Subtype.val hij
    have h2 : AdjoinRoot.root (modulus c) ^ (i : Nat) = AdjoinRoot.root (modulus c) ^ (j : Nat) := by rw [← hg, ← hg, h1]
    apply Fin.ext
    apply pow_injOn_Iio_orderOf (x := AdjoinRoot.root (modulus c)) _ _ h2
    · show (i : Nat) < _; rw [ho]; exact i.isLt
    · show (j : Nat) < _; rw [ho]; exact j.isLt
  have hequiv : BitVec n ≃ Fin (2 ^ n) := ⟨BitVec.toFin, BitVec.ofFin, fun _ => rfl, fun _ => rfl⟩
  have hfin : Finite (BitVec n) := Finite.of_equiv _ hequiv.symm
  have hcard : Nat.card { v : BitVec n // v ≠ 0 } = 2 ^ n - 1 := by
    classical
    have : Fintype (BitVec n) := Fintype.ofEquiv _ hequiv.symm
    rw [Nat.card_eq_fintype_card]
    have h1 : Fintype.card { v : BitVec n // v ≠ 0 } = Fintype.card (BitVec n) - Fintype.card { v : BitVec n // v = 0 } :=
      Fintype.card_subtype_compl (fun v : BitVec n => v = 0)
    rw [h1, Fintype.card_subtype_eq, Fintype.card_congr hequiv, Fintype.card_fin]
  have hbij : Function.Bijective G := by
    apply hinj.bijective_of_nat_card_le
    rw [hcard, Nat.card_eq_fintype_card, Fintype.card_fin]
  obtain ⟨k, hk⟩ := hbij.2 ⟨a, ha⟩
  have : g k = a := congrArg Subtype.val hk
  rw [← this, hg]
  exact hu.pow _

theorem gfMul_eq_zero_of_order (hn : 0 < n) (ho : orderOf (AdjoinRoot.root (modulus c)) = 2 ^ n - 1) (a b : BitVec n) :
    gfMul c a b = 0 ↔ a = 0 ∨ b = 0 := by
  have z : ∀ b, gfMul c 0 b = 0 := fun b => by
    apply toRes_injective c
    rw [toRes_mul c hn, toRes_zero, zero_mul]
  constructor
  · intro h
    by_cases ha : a = 0
    · exact Or.inl ha
    · right
      have h1 := toRes_mul c hn a b
      rw [h, toRes_zero] at h1
      have h2 := (unit_of_order c hn ho a ha).mul_right_eq_zero.1 h1.symm
      apply toRes_injective c
      rw [h2, toRes_zero]
  · rintro (rfl | rfl)
    · exact z b
    · rw [gfMul_comm]; exact z a

/-- Every polynomial of degree below `n` is that of a block. -/
theorem toPoly_surj (p : (ZMod 2)[X]) (hp : p.degree < n) : ∃ a : BitVec n, toPoly a = p := by
  have hs : p = ∑ i ∈ Finset.range n, C (p.coeff i) * X ^ i := by
    ext k
    rw [finsetSum_coeff]
    simp only [coeff_C_mul, coeff_X_pow, mul_ite, mul_one, mul_zero]
    rw [Finset.sum_ite_eq (Finset.range n) k]
    split
    · rfl
    · rename_i h
      rw [Finset.mem_range, not_lt] at h
      exact coeff_eq_zero_of_degree_lt (lt_of_lt_of_le hp (by exact_mod_cast h))
  have hk : ∀ k, k ≤ n → ∃ a : BitVec n, toPoly a = ∑ i ∈ Finset.range k, C (p.coeff i) * X ^ i := by
    intro k hk
    induction k with
    | zero =>
      refine ⟨0, ?_⟩
      have := toPoly_xor (0 : BitVec n) 0
      rw [BitVec.xor_self] at this
      rw [Finset.sum_range_zero]
      exact left_eq_add.1 this
    | succ k ih =>
      obtain ⟨a, ha⟩ := ih (by omega)
      rw [Finset.sum_range_succ, ← ha]
      have h2 : ∀ z : ZMod 2, z = 0 ∨ z = 1 := by decide
      rcases h2 (p.coeff k) with h | h
      · exact ⟨a, by rw [h, C_0, zero_mul, add_zero]⟩
      · exact ⟨a ^^^ BitVec.twoPow n k, by rw [toPoly_xor, toPoly_twoPow (by omega), h, C_1, one_mul]⟩
  obtain ⟨a, ha⟩ := hk n le_rfl
  exact ⟨a, by rw [ha, ← hs]⟩

/-- If `X` has order `2^n - 1`, the modulus is irreducible. -/
theorem irreducible_of_order (hn : 0 < n) (ho : orderOf (AdjoinRoot.root (modulus c)) = 2 ^ n - 1) : Irreducible (modulus c) := by
  have hm := modulus_monic c
  have hd := modulus_degree c
  have hnd : (modulus c).natDegree = n := natDegree_eq_of_degree_eq_some hd
  have h1 : modulus c ≠ 1 := by
    intro h
    rw [h, natDegree_one] at hnd
    omega
  rw [hm.irreducible_iff_natDegree' ]
  refine ⟨h1, ?_⟩
  intro f g hf hg hfg hmem
  rw [hnd, Finset.mem_Ioc] at hmem
  have hsum : f.natDegree + g.natDegree = n := by rw [← hf.natDegree_mul hg, hfg, hnd]
  have hlt : ∀ q : (ZMod 2)[X], q.Monic → q.natDegree < n → q.degree < n := fun q hq h =>
    (natDegree_lt_iff_degree_lt hq.ne_zero).1 h
  obtain ⟨a, ha⟩ := toPoly_surj (n := n) f (hlt f hf (by omega))
  obtain ⟨b, hb⟩ := toPoly_surj (n := n) g (hlt g hg (by omega))
  have hz : gfMul c a b = 0 := by
    apply toRes_injective c
    rw [toRes_mul c hn, toRes_zero]
    unfold toRes
    rw [← map_mul, ha, hb, hfg, AdjoinRoot.mk_self]
  have hp0 : toPoly (0 : BitVec n) = 0 := by
    have := toPoly_xor (0 : BitVec n) 0
    rw [BitVec.xor_self] at this
    exact left_eq_add.1 this
  rcases (gfMul_eq_zero_of_order c hn ho a b).1 hz with h | h
  · rw [h, hp0] at ha; exact hf.ne_zero ha.symm
  · rw [h, hp0] at hb; exact hg.ne_zero hb.symm

end

/-! ## The two moduli -/

theorem prime_2998279 : Nat.Prime 2998279 := by norm_num

theorem prime_67280421310721 : Nat.Prime 67280421310721 := by
  refine pocklington [⟨2998279, 3, 47000331560307⟩, ⟨373, 3, 20076373578344⟩] 46 ?_ (by decide +kernel)
  intro s hs
  simp only [List.mem_cons, List.not_mem_nil, or_false] at hs
  rcases hs with rfl | rfl
  · exact prime_2998279
  · norm_num

theorem prime_factor {p q : Nat} (hp : p.Prime) (hq : q.Prime) (h : p ∣ q) : p = q := (Nat.prime_dvd_prime_iff_eq hp hq).1 h

set_option maxRecDepth 100000 in
theorem order64 : orderOf (AdjoinRoot.root (modulus (0x1b#64))) = 2 ^ 64 - 1 := by
  apply order_of_X (0x1b#64) (by decide) [3, 5, 17, 257, 641, 65537, 6700417]
  · intro p hp hd
    rw [show 2 ^ 64 - 1 = 3 * 5 * 17 * 257 * 641 * 65537 * 6700417 by norm_num] at hd
    simp only [hp.dvd_mul] at hd
    simp only [List.mem_cons, List.not_mem_nil, or_false]
    rcases hd with (((((h | h) | h) | h) | h) | h) | h
    all_goals have := prime_factor hp (by norm_num) h; omega
  · exact (by decide +kernel : xpow 64 0x1b 64 (2 ^ 64 - 1) = 1)
  · exact (by decide +kernel : ∀ p ∈ [3, 5, 17, 257, 641, 65537, 6700417], xpow 64 0x1b 64 ((2 ^ 64 - 1) / p) ≠ 1)

set_option maxRecDepth 100000 in
theorem order128 : orderOf (AdjoinRoot.root (modulus (0x87#128))) = 2 ^ 128 - 1 := by
  apply order_of_X (0x87#128) (by decide) [3, 5, 17, 257, 641, 65537, 6700417, 274177, 67280421310721]
  · intro p hp hd
    rw [show 2 ^ 128 - 1 = 3 * 5 * 17 * 257 * 641 * 65537 * 6700417 * 274177 * 67280421310721 by norm_num] at hd
    simp only [hp.dvd_mul] at hd
    simp only [List.mem_cons, List.not_mem_nil, or_false]
    rcases hd with (((((((h | h) | h) | h) | h) | h) | h) | h) | h
    all_goals first
      | (have := prime_factor hp prime_67280421310721 h; omega)
      | (have := prime_factor hp (by norm_num) h; omega)
  · exact (by decide +kernel : xpow 128 0x87 128 (2 ^ 128 - 1) = 1)
  · exact (by decide +kernel : ∀ p ∈ [3, 5, 17, 257, 641, 65537, 6700417, 274177, 67280421310721],
      xpow 128 0x87 128 ((2 ^ 128 - 1) / p) ≠ 1)

end Gost
