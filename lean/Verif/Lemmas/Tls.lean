import Verif.Lemmas.KeyExp

/-! # Lemmas for KDF_TREE, TLSTREE and the TLS sequence arithmetic -/

namespace Gost
open Spec

/-! ## Bytes of counters and lengths -/

theorem beBytes_drop (a b n : Nat) : (beBytes (a + b) n).drop a = beBytes b n := by
  induction b generalizing n with
  | zero => simp [beBytes, List.drop_of_length_le]
  | succ b ih =>
    rw [← Nat.add_assoc, beBytes, beBytes, List.drop_append_of_le_length (by simp), ih]

theorem be32Bytes_eq (n : Nat) : be32Bytes (BitVec.ofNat 32 n) = beBytes 4 n := by
  simp only [be32Bytes, beBytes, List.nil_append, List.cons_append]
  have h : ∀ k : Nat, k < 4 → byteOf (BitVec.ofNat 32 n) k = BitVec.ofNat 8 (n / 256^k) := by
    intro k hk
    apply BitVec.eq_of_toNat_eq
    interval_cases k <;> simp [byteOf, Nat.shiftRight_eq_div_pow] <;> omega
  rw [h 3 (by decide), h 2 (by decide), h 1 (by decide), h 0 (by decide)]
  simp [Nat.div_div_eq_div_mul]

theorem counter_eq (R i : Nat) (hR : R ≤ 4) : (be32Bytes (BitVec.ofNat 32 i)).drop (4 - R) = beBytes R i := by
  rw [be32Bytes_eq]
  have : 4 = (4 - R) + R := by omega
  conv_lhs => rw [this]
  have h2 : (4 - R + R - R) = 4 - R := by omega
  rw [h2, beBytes_drop]

theorem skipZeros_concat (xs : Bytes) (b : Byte) :
    skipZeros (xs ++ [b]) = if skipZeros xs = [] then (if b = 0 then [] else [b]) else skipZeros xs ++ [b] := by
  induction xs with
  | nil => simp [skipZeros]
  | cons x xs ih =>
    by_cases h : x = 0
    · have e1 : skipZeros (x :: xs ++ [b]) = skipZeros (xs ++ [b]) := by rw [List.cons_append, skipZeros, if_pos h]
      have e2 : skipZeros (x :: xs) = skipZeros xs := by rw [skipZeros, if_pos h]
      simp only [e1, e2, ih]
    · have e1 : skipZeros (x :: xs ++ [b]) = x :: xs ++ [b] := by
        rw [List.cons_append, skipZeros, if_neg h]
      have e2 : skipZeros (x :: xs) = x :: xs := by rw [skipZeros, if_neg h]
      rw [e1]; simp [e2]

theorem beMin_zero : beMin 0 = [] := by rw [beMin]; simp

theorem beMin_pos (n : Nat) (h : n ≠ 0) : beMin n = beMin (n / 256) ++ [BitVec.ofNat 8 n] := by
  rw [beMin]; simp [h]

theorem beMin_eq_nil (n : Nat) : beMin n = [] ↔ n = 0 := by
  constructor
  · intro h
    by_contra hc
    rw [beMin_pos n hc] at h
    simp at h
  · rintro rfl
    exact beMin_zero

theorem skipZeros_beBytes (k n : Nat) (h : n < 256^k) : skipZeros (beBytes k n) = beMin n := by
  induction k generalizing n with
  | zero =>
    have : n = 0 := by simpa using h
    subst this
    rw [beMin_zero]; rfl
  | succ k ih =>
    rw [beBytes, skipZeros_concat, ih (n / 256) (by rw [Nat.pow_succ] at h; omega)]
    simp only [beMin_eq_nil]
    by_cases h1 : n / 256 = 0
    · rw [if_pos h1]
      have hn : n < 256 := by omega
      by_cases h0 : n = 0
      · subst h0; rw [beMin_zero]; rfl
      · rw [if_neg, beMin_pos n h0, h1, beMin_zero]
        · rfl
        · intro hc
          have := congrArg BitVec.toNat hc
          simp at this
          omega
    · rw [if_neg h1, beMin_pos n (by intro hc; subst hc; exact h1 rfl)]

theorem kdfInput_eq (label seed : Bytes) (blocks R i : Nat) (hR : R ≤ 4) (hb : blocks * 256 < 2^32) :
    kdfInput label seed (32 * blocks) R i = kdfTreeInput R label seed (blocks * 256) i := by
  rw [kdfInput, counter_eq R i hR, be32Bytes_eq, skipZeros_beBytes 4 _ (by omega),
    show 32 * blocks * 8 = blocks * 256 by omega]
  rfl

theorem kdftree_eq (X : Crypto) (key label seed : Bytes) (blocks R : Nat) (h1 : 1 ≤ blocks) (hR : R ≤ 4)
    (hb : blocks * 256 < 2^32) :
    gost_kdftree2012_256 X (32 * blocks) key label seed R = some (kdfTree X.hmac key R label seed blocks) := by
  simp only [gost_kdftree2012_256]
  rw [if_neg (by omega), show 32 * blocks / 32 = blocks by omega]
  simp only [kdfInput_eq label seed blocks R _ hR hb]
  rfl

/-! ## Masks -/

theorem BSWAP64_and (x y : W64) : BSWAP64 (x &&& y) = BSWAP64 x &&& BSWAP64 y := by
  apply BitVec.eq_of_getLsbD_eq; intro i hi; interval_cases i <;> simp [BSWAP64]

theorem BSWAP64_twice (x : W64) : BSWAP64 (BSWAP64 x) = x := by
  apply BitVec.eq_of_getLsbD_eq; intro i hi; interval_cases i <;> simp [BSWAP64]

theorem and_mask (n s : Nat) (hs : s ≤ 64) (hn : n < 2^64) : n &&& (2^64 - 2^s) = n / 2^s * 2^s := by
  apply Nat.eq_of_testBit_eq
  intro i
  have h1 : (2:Nat)^64 - 2^s = (2^(64 - s) - 1) * 2^s := by
    rw [Nat.sub_mul, ← Nat.pow_add, Nat.one_mul, show 64 - s + s = 64 by omega]
  rw [Nat.testBit_and, h1, Nat.testBit_mul_two_pow, Nat.testBit_mul_two_pow, Nat.testBit_two_pow_sub_one]
  by_cases hi : s ≤ i
  · by_cases h2 : i < 64
    · simp [hi, Nat.testBit_div_two_pow, show i - s < 64 - s by omega, show s + (i - s) = i by omega]
    · have : n.testBit i = false := Nat.testBit_lt_two_pow (Nat.lt_of_lt_of_le hn (Nat.pow_le_pow_right (by decide) (by omega)))
      simp [hi, Nat.testBit_div_two_pow, this, show s + (i - s) = i by omega]
  · simp [hi]

theorem seed_eq (seq : Bytes) (h : seq.length = 8) (c : W64) (s : Nat) (hs : s ≤ 64)
    (hc : BSWAP64 c = BitVec.ofNat 64 (2^64 - 2^s)) : stLE64 (ldLE64 seq &&& c) = tlsSeed (beNat seq) s := by
  have hn : beNat seq < 2^64 := by have := beNat_lt seq; rw [h] at this; simpa using this
  rw [← BSWAP64_twice (ldLE64 seq &&& c), bswap_st, BSWAP64_and, bswap_ld seq h, hc, tlsSeed]
  congr 1
  rw [BitVec.toNat_and, BitVec.toNat_ofNat, BitVec.toNat_ofNat, Nat.mod_eq_of_lt hn,
    Nat.mod_eq_of_lt (by have : 0 < 2^s := Nat.two_pow_pos s; omega), and_mask _ _ hs hn]

theorem kdftree_one (X : Crypto) (key label seed : Bytes) :
    gost_kdftree2012_256 X 32 key label seed 1 = some (kdf256 X.hmac key label seed) := by
  have h := kdftree_eq X key label seed 1 1 (by decide) (by decide) (by decide)
  rw [show 32 * 1 = 32 from rfl] at h
  rw [h]
  have hm : beMin 256 = [1, 0] := by
    rw [beMin_pos 256 (by decide), show 256 / 256 = 1 from rfl, beMin_pos 1 (by decide), show 1 / 256 = 0 from rfl, beMin_zero]
    rfl
  simp only [kdfTree, kdfTreeInput, kdf256, List.range_one, List.flatMap_cons, List.flatMap_nil, List.append_nil, Nat.one_mul,
    hm, Nat.zero_add]
  rfl

theorem tlstree_eq (X : Crypto) (n : OmacCipher) (key seq : Bytes) (h : seq.length = 8) :
    gost_tlstree X n key seq = some (tlstree X.hmac n key (beNat seq)) := by
  cases n with
  | magma =>
    simp only [gost_tlstree, tlsMasks]
    rw [seed_eq seq h _ 38 (by decide) (by decide), seed_eq seq h _ 25 (by decide) (by decide),
      seed_eq seq h _ 12 (by decide) (by decide)]
    simp only [kdftree_one, Option.bind_eq_bind, Option.bind_some]
    rfl
  | kuznyechik =>
    simp only [gost_tlstree, tlsMasks]
    rw [seed_eq seq h _ 32 (by decide) (by decide), seed_eq seq h _ 19 (by decide) (by decide),
      seed_eq seq h _ 6 (by decide) (by decide)]
    simp only [kdftree_one, Option.bind_eq_bind, Option.bind_some]
    rfl

/-! ## Sequence numbers -/

theorem at_append_mid (a s : Bytes) (x : Byte) (n : Nat) (hl : a.length = n) : at_ (a ++ [x] ++ s) n = x := by
  simp [at_, List.getD_eq_getElem?_getD, List.getElem?_append_right, hl]

theorem set_append_mid (a s : Bytes) (x y : Byte) (n : Nat) (hl : a.length = n) :
    (a ++ [x] ++ s).set n y = a ++ (y :: s) := by
  rw [List.append_assoc, List.set_append_right _ _ (by omega)]
  simp [hl]

theorem decrLoop_eq (n : Nat) (a s : Bytes) (h : a.length = n) :
    decrLoop n (a ++ s) = beBytes n (beNat a + 256^n - 1) ++ s := by
  induction n generalizing a s with
  | zero => rw [List.length_eq_zero_iff.mp h]; rfl
  | succ n ih =>
    have hne : a ≠ [] := by intro h'; simp [h'] at h
    obtain ⟨a', x, ha'⟩ : ∃ a' x, a = a' ++ [x] := ⟨_, _, (List.dropLast_concat_getLast hne).symm⟩
    subst ha'
    have hl : a'.length = n := by simpa using h
    have hx := x.isLt
    have hp : 0 < 256^n := Nat.pow_pos (by decide)
    rw [decrLoop, at_append_mid _ _ _ _ hl, set_append_mid _ _ _ _ _ hl, set_append_mid _ _ _ _ _ hl, beNat_concat, Nat.pow_succ]
    by_cases hc : x = 0
    · rw [if_neg (by simp [hc]), ih a' _ hl, beBytes]
      subst hc
      rw [show (256 * beNat a' + (0 : Byte).toNat + 256 ^ n * 256 - 1) / 256 = beNat a' + 256^n - 1 by simp; omega]
      have : BitVec.ofNat 8 (256 * beNat a' + (0 : Byte).toNat + 256 ^ n * 256 - 1) = 0xff := by
        apply BitVec.eq_of_toNat_eq; simp; omega
      rw [this]; simp
    · have hx0 : x.toNat ≠ 0 := fun h0 => hc (BitVec.eq_of_toNat_eq h0)
      rw [if_pos hc, beBytes]
      rw [show (256 * beNat a' + x.toNat + 256 ^ n * 256 - 1) / 256 = beNat a' + 256^n by omega]
      have e : BitVec.ofNat 8 (256 * beNat a' + x.toNat + 256 ^ n * 256 - 1) = x - 1 := by
        apply BitVec.eq_of_toNat_eq
        rw [BitVec.toNat_ofNat, BitVec.toNat_sub]
        simp
        omega
      rw [e, ← beBytes_mod, Nat.add_mod_right, beBytes_mod, beBytes_beNat _ _ hl]
      simp

theorem adjLoop_eq (seq : Bytes) (off n carry : Nat) (a s q : Bytes) (h : a.length = n) (hq : q.length = n)
    (hs : ∀ j < n, at_ seq (j + off) = at_ q j) (hc : carry ≤ 1) :
    adjLoop seq off n carry (a ++ s) = beBytes n (beNat a + beNat q + carry) ++ s := by
  induction n generalizing a s q carry with
  | zero => rw [List.length_eq_zero_iff.mp h]; rfl
  | succ n ih =>
    obtain ⟨a', x, ha'⟩ : ∃ a' x, a = a' ++ [x] :=
      ⟨_, _, (List.dropLast_concat_getLast (by intro h'; simp [h'] at h)).symm⟩
    obtain ⟨q', y, hq'⟩ : ∃ a' x, q = a' ++ [x] :=
      ⟨_, _, (List.dropLast_concat_getLast (by intro h'; simp [h'] at hq)).symm⟩
    subst ha' hq'
    have hl : a'.length = n := by simpa using h
    have hl2 : q'.length = n := by simpa using hq
    have hx := x.isLt
    have hy := y.isLt
    have ey : at_ seq (n + off) = y := by
      rw [hs n (by omega)]
      have := at_append_mid q' [] y n hl2
      simpa using this
    rw [adjLoop, at_append_mid _ _ _ _ hl, set_append_mid _ _ _ _ _ hl, ey]
    rw [ih _ a' _ q' hl hl2, beNat_concat, beNat_concat, beBytes]
    · have e : BitVec.ofNat 8 (x.toNat + y.toNat + carry &&& 255) =
          BitVec.ofNat 8 (256 * beNat a' + x.toNat + (256 * beNat q' + y.toNat) + carry) := by
        apply BitVec.eq_of_toNat_eq
        rw [BitVec.toNat_ofNat, BitVec.toNat_ofNat, Nat.and_two_pow_sub_one_eq_mod _ 8]
        omega
      rw [e, List.append_assoc]
      congr 2
      split <;> omega
    · intro j hj
      rw [hs j (by omega)]
      simp [at_, List.getD_eq_getElem?_getD, List.getElem?_append_left, hl2, hj]
    · split <;> decide

end Gost
