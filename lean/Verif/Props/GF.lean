import Verif.Lemmas.GF

/-!
# C22: the field multiplications of MGM
-/

namespace Gost
open Spec Polynomial

/-- The polynomial over GF(2) which an `n`-bit string stands for in MGM: the first bit is the coefficient of `X^(n-1)`. -/
noncomputable def polyOf (n : Nat) (b : Bytes) : (ZMod 2)[X] := toPoly (BitVec.ofNat n (beNat b))

/-- `X^64 + X^4 + X^3 + X + 1`. -/
noncomputable def f64 : (ZMod 2)[X] := X ^ 64 + X ^ 4 + X ^ 3 + X + 1

/-- `X^128 + X^7 + X^2 + X + 1`. -/
noncomputable def f128 : (ZMod 2)[X] := X ^ 128 + X ^ 7 + X ^ 2 + X + 1

theorem f64_eq : f64 = modulus (0x1b#64) := by
  unfold f64 modulus
  have : toPoly (0x1b#64) = X ^ 4 + X ^ 3 + X + 1 := by
    unfold toPoly
    ext i
    have h := toPoly_coeff (0x1b#64) i
    unfold toPoly at h
    rw [h]
    by_cases hi : i < 64
    · interval_cases i <;> simp [coeff_X, coeff_one, coeff_X_pow]
    · rw [BitVec.getLsbD_of_ge _ _ (by omega)]
      simp [coeff_X, coeff_one, coeff_X_pow, show i ≠ 4 by omega, show i ≠ 3 by omega, show i ≠ 0 by omega, show (1:ℕ) ≠ i by omega]
  rw [this]; ring

theorem f128_eq : f128 = modulus (0x87#128) := by
  unfold f128 modulus
  have : toPoly (0x87#128) = X ^ 7 + X ^ 2 + X + 1 := by
    unfold toPoly
    ext i
    have h := toPoly_coeff (0x87#128) i
    unfold toPoly at h
    rw [h]
    by_cases hi : i < 8
    · interval_cases i <;> simp [coeff_X, coeff_one, coeff_X_pow]
    · have hz : (0x87#128).getLsbD i = false := by
        rw [BitVec.getLsbD, BitVec.toNat_ofNat]
        apply Nat.testBit_lt_two_pow
        calc 135 % 2^128 = 135 := by decide
          _ < 2^8 := by decide
          _ ≤ 2^i := Nat.pow_le_pow_right (by decide) (by omega)
      rw [hz]
      simp [coeff_X, coeff_one, coeff_X_pow, show i ≠ 7 by omega, show i ≠ 2 by omega, show i ≠ 0 by omega, show (1:ℕ) ≠ i by omega]
  rw [this]; ring

theorem ofNat_beBytes64 (v : W64) : BitVec.ofNat 64 (beNat (beBytes 8 v.toNat)) = v := by
  rw [beNat_beBytes]
  apply BitVec.eq_of_toNat_eq
  rw [BitVec.toNat_ofNat]
  have := v.isLt
  omega

theorem ofNat_beBytes128 (v : BitVec 128) : BitVec.ofNat 128 (beNat (beBytes 16 v.toNat)) = v := by
  rw [beNat_beBytes]
  apply BitVec.eq_of_toNat_eq
  rw [BitVec.toNat_ofNat]
  have := v.isLt
  omega

/-- **C22** For all operands, `gf64_mul` writes 8 bytes and multiplies modulo `X^64 + X^4 + X^3 + X + 1`. -/
theorem C22_gf64_mul_is_product (a b : Bytes) (ha : a.length = 8) (hb : b.length = 8) :
    (gf64_mul a b).length = 8 ∧ polyOf 64 (gf64_mul a b) = (polyOf 64 a * polyOf 64 b) %ₘ f64 := by
  rw [gf64_mul_eq a b ha hb]
  refine ⟨by simp, ?_⟩
  unfold polyOf
  rw [ofNat_beBytes64, gfMul_poly (by decide), f64_eq]

/-- **C22** For all operands, `gf128_mul_uint64` writes 16 bytes and multiplies modulo `X^128 + X^7 + X^2 + X + 1`. -/
theorem C22_gf128_mul_is_product (a b : Bytes) (ha : a.length = 16) (hb : b.length = 16) :
    (gf128_mul_uint64 a b).length = 16 ∧
    polyOf 128 (gf128_mul_uint64 a b) = (polyOf 128 a * polyOf 128 b) %ₘ f128 := by
  rw [gf128_mul_eq a b ha hb]
  refine ⟨by simp, ?_⟩
  unfold polyOf
  rw [ofNat_beBytes128, gfMul_poly (by decide), f128_eq]

theorem nat_xor_byte (n m x y : Nat) (hx : x < 256) (hy : y < 256) :
    (256 * n + x) ^^^ (256 * m + y) = 256 * (n ^^^ m) + (x ^^^ y) := by
  have hxy : x ^^^ y < 2^8 := Nat.xor_lt_two_pow hx hy
  apply Nat.eq_of_testBit_eq
  intro i
  rw [Nat.testBit_xor, show (256 : Nat) = 2^8 from rfl, Nat.testBit_two_pow_mul_add _ hx, Nat.testBit_two_pow_mul_add _ hy,
    Nat.testBit_two_pow_mul_add _ hxy]
  split <;> rw [Nat.testBit_xor]

theorem beNat_xorB (a b : Bytes) (h : a.length = b.length) : beNat (xorB a b) = beNat a ^^^ beNat b := by
  obtain ⟨n, hn⟩ : ∃ n, a.length = n := ⟨_, rfl⟩
  induction n generalizing a b with
  | zero =>
    rw [List.length_eq_zero_iff.mp hn, List.length_eq_zero_iff.mp (h.symm.trans hn)]; rfl
  | succ n ih =>
    obtain ⟨a, x, rfl⟩ : ∃ a' x, a = a' ++ [x] :=
      ⟨a.dropLast, a.getLast (List.ne_nil_of_length_eq_add_one hn), (List.dropLast_append_getLast _).symm⟩
    obtain ⟨b, y, rfl⟩ : ∃ a' x, b = a' ++ [x] :=
      ⟨b.dropLast, b.getLast (List.ne_nil_of_length_eq_add_one (h.symm.trans hn)), (List.dropLast_append_getLast _).symm⟩
    simp at hn h
    rw [xorB_append _ _ _ _ h, show xorB [x] [y] = [x ^^^ y] from rfl, beNat_concat, beNat_concat, beNat_concat,
      ih a b h hn, BitVec.toNat_xor, nat_xor_byte _ _ _ _ x.isLt y.isLt]

theorem ofNat_xorB (n : Nat) (a b : Bytes) (h : a.length = b.length) :
    BitVec.ofNat n (beNat (xorB a b)) = BitVec.ofNat n (beNat a) ^^^ BitVec.ofNat n (beNat b) := by
  rw [beNat_xorB a b h, BitVec.ofNat_xor]

/-- **C22** `gf64_mul` is commutative, associative, distributes over XOR, and has the string `0...01` as unit. -/
theorem C22_gf64_mul_laws (a a' b : Bytes) (ha : a.length = 8) (ha' : a'.length = 8) (hb : b.length = 8) :
    gf64_mul a b = gf64_mul b a ∧
    gf64_mul (gf64_mul a a') b = gf64_mul a (gf64_mul a' b) ∧
    gf64_mul (xorB a a') b = xorB (gf64_mul a b) (gf64_mul a' b) ∧
    gf64_mul [0, 0, 0, 0, 0, 0, 0, 1] b = b := by
  have hl : ∀ v, (beBytes 8 v).length = 8 := by simp
  refine ⟨?_, ?_, ?_, ?_⟩
  · rw [gf64_mul_eq a b ha hb, gf64_mul_eq b a hb ha, gfMul_comm]
  · rw [gf64_mul_eq a a' ha ha', gf64_mul_eq a' b ha' hb, gf64_mul_eq _ b (hl _) hb, gf64_mul_eq a _ ha (hl _),
      ofNat_beBytes64, ofNat_beBytes64, gfMul_assoc]
  · rw [gf64_mul_eq _ b (by simp [ha, ha']) hb, ofNat_xorB _ _ _ (by rw [ha, ha']), gfMul_xor_left, gf64_mul_eq a b ha hb,
      gf64_mul_eq a' b ha' hb]
    apply Eq.trans ?_ (beBytes_beNat (xorB _ _) 8 (by simp))
    rw [beNat_xorB _ _ (by simp), beNat_beBytes, beNat_beBytes, BitVec.toNat_xor]
    rw [Nat.mod_eq_of_lt (BitVec.isLt _), Nat.mod_eq_of_lt (BitVec.isLt _)]
  · rw [gf64_mul_eq _ b rfl hb]
    have : gfMul 0x1b#64 (BitVec.ofNat 64 (beNat [0, 0, 0, 0, 0, 0, 0, 1])) (BitVec.ofNat 64 (beNat b)) = BitVec.ofNat 64 (beNat b) := by
      apply toPoly_injective
      rw [gfMul_poly (by decide)]
      have h1 : toPoly (BitVec.ofNat 64 (beNat [0, 0, 0, 0, 0, 0, 0, 1])) = 1 := by
        have : BitVec.ofNat 64 (beNat [0, 0, 0, 0, 0, 0, 0, 1]) = 1#64 := by decide
        rw [this]; unfold toPoly
        rw [Finset.sum_eq_single 0]
        · simp
        · intro i hi h0; simp [h0]
        · intro h; simp at h
      rw [h1, one_mul, toPoly_mod]
    rw [this, BitVec.toNat_ofNat, Nat.mod_eq_of_lt (by have := beNat_lt b; rw [hb] at this; simpa using this), beBytes_beNat b 8 hb]

/-- **C22** `gf128_mul_uint64` is commutative, associative, distributes over XOR, and has the string `0...01` as unit. -/
theorem C22_gf128_mul_laws (a a' b : Bytes) (ha : a.length = 16) (ha' : a'.length = 16) (hb : b.length = 16) :
    gf128_mul_uint64 a b = gf128_mul_uint64 b a ∧
    gf128_mul_uint64 (gf128_mul_uint64 a a') b = gf128_mul_uint64 a (gf128_mul_uint64 a' b) ∧
    gf128_mul_uint64 (xorB a a') b = xorB (gf128_mul_uint64 a b) (gf128_mul_uint64 a' b) ∧
    gf128_mul_uint64 (zeros 15 ++ [1]) b = b := by
  have hl : ∀ v, (beBytes 16 v).length = 16 := by simp
  refine ⟨?_, ?_, ?_, ?_⟩
  · rw [gf128_mul_eq a b ha hb, gf128_mul_eq b a hb ha, gfMul_comm]
  · rw [gf128_mul_eq a a' ha ha', gf128_mul_eq a' b ha' hb, gf128_mul_eq _ b (hl _) hb, gf128_mul_eq a _ ha (hl _),
      ofNat_beBytes128, ofNat_beBytes128, gfMul_assoc]
  · rw [gf128_mul_eq _ b (by simp [ha, ha']) hb, ofNat_xorB _ _ _ (by rw [ha, ha']), gfMul_xor_left, gf128_mul_eq a b ha hb,
      gf128_mul_eq a' b ha' hb]
    apply Eq.trans ?_ (beBytes_beNat (xorB _ _) 16 (by simp))
    rw [beNat_xorB _ _ (by simp), beNat_beBytes, beNat_beBytes, BitVec.toNat_xor]
    rw [Nat.mod_eq_of_lt (BitVec.isLt _), Nat.mod_eq_of_lt (BitVec.isLt _)]
  · rw [gf128_mul_eq _ b rfl hb]
    have : gfMul 0x87#128 (BitVec.ofNat 128 (beNat (zeros 15 ++ [1]))) (BitVec.ofNat 128 (beNat b)) = BitVec.ofNat 128 (beNat b) := by
      apply toPoly_injective
      rw [gfMul_poly (by decide)]
      have h1 : toPoly (BitVec.ofNat 128 (beNat (zeros 15 ++ [1]))) = 1 := by
        have : BitVec.ofNat 128 (beNat (zeros 15 ++ [1])) = 1#128 := by decide
        rw [this]; unfold toPoly
        rw [Finset.sum_eq_single 0]
        · simp
        · intro i hi h0; simp [h0]
        · intro h; simp at h
      rw [h1, one_mul, toPoly_mod]
    rw [this, BitVec.toNat_ofNat, Nat.mod_eq_of_lt (by have := beNat_lt b; rw [hb] at this; simpa using this), beBytes_beNat b 16 hb]

/-- A concrete product with reduction: `X^63 · X = X^4 + X^3 + X + 1`. -/
example : gf64_mul [0x80, 0, 0, 0, 0, 0, 0, 0] [0, 0, 0, 0, 0, 0, 0, 2] = [0, 0, 0, 0, 0, 0, 0, 0x1b] := by decide +kernel

end Gost
