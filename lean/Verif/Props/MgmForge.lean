import Verif.Lemmas.GFField
import Verif.Props.GF
import Verif.Props.Mgm

/-!
# C72: the multiplications of MGM are those of fields, and what the tag detects

The hash of MGM is `⊕ H_i ⊗ B_i` with secret `H_i`.  Because the product is that of a field, a change of one block is always noticed
unless the coefficient of that block is zero, which happens for at most one block number for a key and nonce.
-/

namespace Gost
open Spec Polynomial

/-! ## The fields -/

/-- **C72**: the two reduction polynomials of MGM are irreducible, so that the residues are the fields GF(2^64) and GF(2^128). -/
theorem C72_irreducible : Irreducible (X ^ 64 + X ^ 4 + X ^ 3 + X + 1 : (ZMod 2)[X]) ∧
    Irreducible (X ^ 128 + X ^ 7 + X ^ 2 + X + 1 : (ZMod 2)[X]) := by
  have h1 := irreducible_of_order _ (by decide) order64
  have h2 := irreducible_of_order _ (by decide) order128
  rw [← f64_eq] at h1
  rw [← f128_eq] at h2
  exact ⟨h1, h2⟩

theorem inverse_of_order {n : Nat} (c : BitVec n) (hn : 0 < n) (ho : orderOf (AdjoinRoot.root (modulus c)) = 2 ^ n - 1)
    (a : BitVec n) (ha : a ≠ 0) : ∃ b : BitVec n, gfMul c a b = 1 := by
  obtain ⟨u, hu⟩ := unit_of_order c hn ho a ha
  obtain ⟨g, hg⟩ := AdjoinRoot.mk_surjective (g := modulus c) (↑u⁻¹ : AdjoinRoot (modulus c))
  have hd : (g %ₘ modulus c).degree < n := by
    rw [← modulus_degree c]; exact degree_modByMonic_lt _ (modulus_monic c)
  obtain ⟨b, hb⟩ := toPoly_surj _ hd
  refine ⟨b, ?_⟩
  apply toRes_injective c
  rw [toRes_mul c hn, toRes_one c hn]
  have : toRes c b = (↑u⁻¹ : AdjoinRoot (modulus c)) := by
    unfold toRes
    rw [← hg, hb, AdjoinRoot.mk_eq_mk]
    refine ⟨-(g /ₘ modulus c), ?_⟩
    have := modByMonic_add_div g (modulus c)
    linear_combination this
  rw [this, ← hu, Units.mul_inv]

theorem ofNat_beNat_inj {n : Nat} {a b : Bytes} (ha : a.length = n) (hb : b.length = n)
    (h : BitVec.ofNat (8 * n) (beNat a) = BitVec.ofNat (8 * n) (beNat b)) : a = b := by
  have e := congrArg BitVec.toNat h
  rw [BitVec.toNat_ofNat, BitVec.toNat_ofNat] at e
  have hp : 256 ^ n = 2 ^ (8 * n) := by rw [pow_mul]; norm_num
  have h1 := beNat_lt a
  have h2 := beNat_lt b
  rw [ha, hp] at h1
  rw [hb, hp] at h2
  rw [Nat.mod_eq_of_lt h1, Nat.mod_eq_of_lt h2] at e
  rw [← beBytes_beNat a n ha, ← beBytes_beNat b n hb, e]

theorem beNat_zeros (n : Nat) : beNat (zeros n) = 0 := by
  induction n with
  | zero => rfl
  | succ n ih =>
    rw [show zeros (n + 1) = zeros n ++ [0] by unfold zeros; rw [List.replicate_succ'], beNat_concat, ih]
    rfl

theorem ofNat_zero_iff {n : Nat} {a : Bytes} (ha : a.length = n) : BitVec.ofNat (8 * n) (beNat a) = 0 ↔ a = zeros n := by
  constructor
  · intro h
    apply ofNat_beNat_inj ha (by simp)
    rw [h, beNat_zeros]
    rfl
  · rintro rfl
    rw [beNat_zeros]
    rfl

/-- **C72**: with 64-bit blocks a product is zero exactly if a factor is, and every non-zero block has an inverse. -/
theorem C72_gf64_field (a b : Bytes) (ha : a.length = 8) (hb : b.length = 8) :
    (gf64_mul a b = zeros 8 ↔ a = zeros 8 ∨ b = zeros 8) ∧
    (a ≠ zeros 8 → ∃ w : Bytes, w.length = 8 ∧ gf64_mul a w = zeros 7 ++ [1]) := by
  have hbe : ∀ v : BitVec 64, beBytes 8 v.toNat = zeros 8 ↔ v = 0 := by
    intro v
    rw [← ofNat_zero_iff (n := 8) (a := beBytes 8 v.toNat) (by simp), ofNat_beBytes64]
  constructor
  · rw [gf64_mul_eq a b ha hb, hbe, gfMul_eq_zero_of_order _ (by decide) order64, ofNat_zero_iff (n := 8) ha, ofNat_zero_iff (n := 8) hb]
  · intro h
    obtain ⟨w, hw⟩ := inverse_of_order _ (by decide) order64 (BitVec.ofNat 64 (beNat a)) (fun e => h ((ofNat_zero_iff (n := 8) ha).1 e))
    refine ⟨beBytes 8 w.toNat, by simp, ?_⟩
    rw [gf64_mul_eq a _ ha (by simp), ofNat_beBytes64, hw]
    decide

/-- **C72**: with 128-bit blocks a product is zero exactly if a factor is, and every non-zero block has an inverse. -/
theorem C72_gf128_field (a b : Bytes) (ha : a.length = 16) (hb : b.length = 16) :
    (gf128_mul_uint64 a b = zeros 16 ↔ a = zeros 16 ∨ b = zeros 16) ∧
    (a ≠ zeros 16 → ∃ w : Bytes, w.length = 16 ∧ gf128_mul_uint64 a w = zeros 15 ++ [1]) := by
  have hbe : ∀ v : BitVec 128, beBytes 16 v.toNat = zeros 16 ↔ v = 0 := by
    intro v
    rw [← ofNat_zero_iff (n := 16) (a := beBytes 16 v.toNat) (by simp), ofNat_beBytes128]
  constructor
  · rw [gf128_mul_eq a b ha hb, hbe, gfMul_eq_zero_of_order _ (by decide) order128, ofNat_zero_iff (n := 16) ha,
      ofNat_zero_iff (n := 16) hb]
  · intro h
    obtain ⟨w, hw⟩ := inverse_of_order _ (by decide) order128 (BitVec.ofNat 128 (beNat a)) (fun e => h ((ofNat_zero_iff (n := 16) ha).1 e))
    refine ⟨beBytes 16 w.toNat, by simp, ?_⟩
    rw [gf128_mul_eq a _ ha (by simp), ofNat_beBytes128, hw]
    decide

/-! ## Sums of products -/

namespace MgmCipher

theorem mul_zero_iff (m : MgmCipher) (a b : Bytes) (ha : a.length = m.alg.bl) (hb : b.length = m.alg.bl) :
    m.alg.mul a b = zeros m.alg.bl ↔ a = zeros m.alg.bl ∨ b = zeros m.alg.bl := by
  cases m
  · exact (C72_gf128_field a b ha hb).1
  · exact (C72_gf64_field a b ha hb).1

theorem mul_length (m : MgmCipher) (a b : Bytes) (ha : a.length = m.alg.bl) (hb : b.length = m.alg.bl) :
    (m.alg.mul a b).length = m.alg.bl := by
  cases m
  · exact (C22_gf128_mul_is_product a b ha hb).1
  · exact (C22_gf64_mul_is_product a b ha hb).1

theorem mul_xor (m : MgmCipher) (a b b' : Bytes) (ha : a.length = m.alg.bl) (hb : b.length = m.alg.bl) (hb' : b'.length = m.alg.bl) :
    m.alg.mul a (xorB b b') = xorB (m.alg.mul a b) (m.alg.mul a b') := by
  cases m
  · have h1 := (C22_gf128_mul_laws b b' a hb hb' ha).2.2.1
    have hx : (xorB b b').length = 16 := by
      rw [xorB_length, show b.length = 16 from hb, show b'.length = 16 from hb', min_self]
    have c1 := (C22_gf128_mul_laws a a (xorB b b') ha ha hx).1
    have c2 := (C22_gf128_mul_laws a a b ha ha hb).1
    have c3 := (C22_gf128_mul_laws a a b' ha ha hb').1
    change gf128_mul_uint64 a (xorB b b') = xorB (gf128_mul_uint64 a b) (gf128_mul_uint64 a b')
    rw [c1, c2, c3, h1]
  · have h1 := (C22_gf64_mul_laws b b' a hb hb' ha).2.2.1
    have hx : (xorB b b').length = 8 := by
      rw [xorB_length, show b.length = 8 from hb, show b'.length = 8 from hb', min_self]
    have c1 := (C22_gf64_mul_laws a a (xorB b b') ha ha hx).1
    have c2 := (C22_gf64_mul_laws a a b ha ha hb).1
    have c3 := (C22_gf64_mul_laws a a b' ha ha hb').1
    change gf64_mul a (xorB b b') = xorB (gf64_mul a b) (gf64_mul a b')
    rw [c1, c2, c3, h1]

end MgmCipher

section
variable (m : MgmCipher) (key : Bytes)

theorem mgmH_length (z : Bytes) (i : Nat) : (mgmH m.alg.bl (m.E key) z i).length = m.alg.bl := m.ok.len key _

theorem mgmSum_length (z : Bytes) (bs : List Bytes) (h : ∀ b ∈ bs, b.length = m.alg.bl) :
    (mgmSum m.alg.bl (m.E key) m.alg.mul z bs).length = m.alg.bl := by
  induction bs using List.reverseRecOn with
  | nil => simp [mgmSum]
  | append_singleton bs b ih =>
    rw [mgmSum_concat, xorB_length, ih (fun x hx => h x (by simp [hx])), m.mul_length _ _ (mgmH_length m key z _) (h b (by simp)), min_self]

theorem xorB_swap (a b c d : Bytes) : xorB (xorB a b) (xorB c d) = xorB (xorB a c) (xorB b d) := by
  rw [xorB_assoc, xorB_assoc, ← xorB_assoc b c d, xorB_comm b c, xorB_assoc c b d]

theorem mgmSum_xor (z : Bytes) (bs bs' : List Bytes) (hl : bs.length = bs'.length) (h : ∀ b ∈ bs, b.length = m.alg.bl)
    (h' : ∀ b ∈ bs', b.length = m.alg.bl) :
    xorB (mgmSum m.alg.bl (m.E key) m.alg.mul z bs) (mgmSum m.alg.bl (m.E key) m.alg.mul z bs') =
      mgmSum m.alg.bl (m.E key) m.alg.mul z (List.zipWith xorB bs bs') := by
  induction bs using List.reverseRecOn generalizing bs' with
  | nil =>
    have : bs' = [] := List.length_eq_zero_iff.1 hl.symm
    subst this
    show xorB (List.replicate _ 0) (List.replicate _ 0) = List.replicate _ 0
    exact xorB_zeros _ _ (by simp)
  | append_singleton bs b ih =>
    obtain ⟨cs, c, rfl⟩ : ∃ cs c, bs' = cs ++ [c] := by
      have hne : bs' ≠ [] := by rintro rfl; simp at hl
      exact ⟨bs'.dropLast, bs'.getLast hne, (List.dropLast_append_getLast hne).symm⟩
    have hl' : bs.length = cs.length := by simpa using hl
    have hb := h b (by simp)
    have hc := h' c (by simp)
    rw [List.zipWith_append hl', List.zipWith_cons_cons, List.zipWith_nil_left, mgmSum_concat, mgmSum_concat, mgmSum_concat,
      ← ih cs hl' (fun x hx => h x (by simp [hx])) (fun x hx => h' x (by simp [hx])), List.length_zipWith, ← hl', min_self,
      m.mul_xor _ _ _ (mgmH_length m key z _) hb hc]
    exact xorB_swap _ _ _ _

/-- A sum over blocks that are zero except for one. -/
theorem mgmSum_single (z : Bytes) (bs : List Bytes) (h : ∀ b ∈ bs, b.length = m.alg.bl) (i : Nat) (hi : i < bs.length)
    (hz : ∀ k b, bs[k]? = some b → k ≠ i → b = zeros m.alg.bl) :
    mgmSum m.alg.bl (m.E key) m.alg.mul z bs = m.alg.mul (mgmH m.alg.bl (m.E key) z i) bs[i] := by
  have hm0 : ∀ k, m.alg.mul (mgmH m.alg.bl (m.E key) z k) (zeros m.alg.bl) = zeros m.alg.bl := fun k => m.ok.mul0 _ (mgmH_length m key z k)
  have hzero : ∀ l : List Bytes, (∀ b ∈ l, b = zeros m.alg.bl) → mgmSum m.alg.bl (m.E key) m.alg.mul z l = zeros m.alg.bl := by
    intro l hl
    induction l using List.reverseRecOn with
    | nil => rfl
    | append_singleton l b ih =>
      rw [mgmSum_concat, ih (fun x hx => hl x (by simp [hx])), hl b (by simp), hm0]
      exact xorB_zeros _ _ (by simp)
  induction bs using List.reverseRecOn with
  | nil => simp at hi
  | append_singleton bs b ih =>
    rw [mgmSum_concat]
    by_cases hlast : i = bs.length
    · subst hlast
      rw [hzero bs (fun x hx => by
        obtain ⟨k, hk, rfl⟩ := List.mem_iff_getElem.1 hx
        exact hz k bs[k] (by rw [List.getElem?_append_left hk, List.getElem?_eq_getElem hk]) (by omega))]
      rw [List.getElem_append_right (le_refl _)]
      simp only [Nat.sub_self, List.getElem_cons_zero]
      rw [xorB_comm]
      exact xorB_zeros _ _ (le_of_eq (m.mul_length _ _ (mgmH_length m key z _) (h b (by simp))))
    · have hi' : i < bs.length := by simp at hi; omega
      have hb0 : b = zeros m.alg.bl := hz bs.length b (by simp) (by omega)
      rw [ih (fun x hx => h x (by simp [hx])) hi' (fun k x hk hne => hz k x (by
        have hk' : k < bs.length := by
          by_contra hc
          rw [List.getElem?_eq_none (by omega)] at hk; cases hk
        rw [List.getElem?_append_left hk', hk]) hne), List.getElem_append_left hi', hb0, hm0]
      exact xorB_zeros _ _ (le_of_eq (m.mul_length _ _ (mgmH_length m key z _) (h _ (by simp))))

theorem xorB_zero_iff (a b : Bytes) (n : Nat) (ha : a.length = n) (hb : b.length = n) : xorB a b = zeros n ↔ a = b := by
  constructor
  · intro h
    have h1 := xorB_left_cancel a b (by rw [ha, hb])
    rw [h, xorB_zeros _ _ (le_of_eq ha)] at h1
    exact h1
  · rintro rfl
    rw [xorB_self, ha]

/-- Two lists of blocks that differ in one place only have the same sum exactly if the coefficient of that place is zero. -/
theorem mgmSum_one_block (z : Bytes) (bs bs' : List Bytes) (hl : bs.length = bs'.length) (h : ∀ b ∈ bs, b.length = m.alg.bl)
    (h' : ∀ b ∈ bs', b.length = m.alg.bl) (i : Nat) (hd : bs[i]? ≠ bs'[i]?) (hs : ∀ k, k ≠ i → bs[k]? = bs'[k]?) :
    mgmSum m.alg.bl (m.E key) m.alg.mul z bs = mgmSum m.alg.bl (m.E key) m.alg.mul z bs' ↔
      mgmH m.alg.bl (m.E key) z i = zeros m.alg.bl := by
  have hi : i < bs.length := by
    by_contra hc
    exact hd (by rw [List.getElem?_eq_none (by omega), List.getElem?_eq_none (by omega)])
  have hi' : i < bs'.length := by omega
  have hlen : (List.zipWith xorB bs bs').length = bs.length := by rw [List.length_zipWith, ← hl, min_self]
  have hb : (bs[i]).length = m.alg.bl := h _ (List.getElem_mem _)
  have hb' : (bs'[i]).length = m.alg.bl := h' _ (List.getElem_mem _)
  rw [← xorB_zero_iff _ _ m.alg.bl (mgmSum_length m key z bs h) (mgmSum_length m key z bs' h'), mgmSum_xor m key z bs bs' hl h h',
    mgmSum_single m key z (List.zipWith xorB bs bs') ?_ i (by rw [hlen]; exact hi) ?_, List.getElem_zipWith,
    m.mul_zero_iff _ _ (mgmH_length m key z i) (by rw [xorB_length, hb, hb', min_self]), xorB_zero_iff _ _ _ hb hb']
  · constructor
    · rintro (h1 | h1)
      · exact h1
      · exact absurd (by rw [List.getElem?_eq_getElem hi, List.getElem?_eq_getElem hi', h1]) hd
    · exact Or.inl
  · intro x hx
    obtain ⟨k, hk, rfl⟩ := List.mem_iff_getElem.1 hx
    rw [List.getElem_zipWith, xorB_length, h _ (List.getElem_mem _), h' _ (List.getElem_mem _), min_self]
  · intro k x hk hne
    have hk' : k < (List.zipWith xorB bs bs').length := by
      by_contra hc
      rw [List.getElem?_eq_none (by omega)] at hk; cases hk
    rw [List.getElem?_eq_getElem hk', List.getElem_zipWith] at hk
    rw [hlen] at hk'
    have h2 := hs k hne
    rw [List.getElem?_eq_getElem hk', List.getElem?_eq_getElem (by omega)] at h2
    rw [← Option.some.inj hk, ← Option.some.inj h2, xorB_self, h _ (List.getElem_mem _)]

end

/-! ## Blocks of a string -/

theorem blocks_eq_range (bl : Nat) (hb : 0 < bl) (d : Bytes) :
    blocks bl d = (List.range ((d.length + bl - 1) / bl)).map fun k => (d.drop (k * bl)).take bl := by
  induction h : d.length using Nat.strong_induction_on generalizing d with
  | _ n ih =>
    by_cases hd : d = []
    · subst hd
      rw [blocks_nil, ← h]
      have : ([] : Bytes).length + bl - 1 < bl := by simp; omega
      rw [Nat.div_eq_of_lt this]
      rfl
    · have hpos := List.length_pos_iff.2 hd
      rw [blocks_cons bl hb d hd, ih (d.drop bl).length (by rw [List.length_drop]; omega) (d.drop bl) rfl]
      have e : (n + bl - 1) / bl = ((d.drop bl).length + bl - 1) / bl + 1 := by
        rw [← h, List.length_drop]
        by_cases hle : bl ≤ d.length
        · rw [← Nat.add_div_right _ hb]
          congr 1; omega
        · have h1 : d.length - bl = 0 := by omega
          rw [h1, Nat.zero_add, Nat.div_eq_of_lt (by omega : bl - 1 < bl)]
          rw [show d.length + bl - 1 = (d.length - 1) + bl by omega, Nat.add_div_right _ hb, Nat.div_eq_of_lt (by omega)]
      rw [e, List.range_succ_eq_map, List.map_cons, List.map_map]
      simp only [Nat.zero_mul, List.drop_zero]
      congr 1
      apply List.map_congr_left
      intro k _
      simp only [Function.comp, List.drop_drop]
      congr 2
      rw [Nat.succ_mul]; omega

/-- Number of blocks of a string. -/
theorem padBlocks_length (bl : Nat) (hb : 0 < bl) (d : Bytes) : (padBlocks bl d).length = (d.length + bl - 1) / bl := by
  unfold padBlocks
  rw [blocks_eq_range bl hb]
  simp

theorem padBlocks_get (bl : Nat) (hb : 0 < bl) (d : Bytes) (k : Nat) (hk : k < (d.length + bl - 1) / bl) :
    (padBlocks bl d)[k]? = some ((d.drop (k * bl)).take bl ++ List.replicate (bl - ((d.drop (k * bl)).take bl).length) 0) := by
  unfold padBlocks
  rw [blocks_eq_range bl hb]
  simp [hk]

theorem padBlocks_all (bl : Nat) (hb : 0 < bl) (d : Bytes) : ∀ b ∈ padBlocks bl d, b.length = bl := by
  unfold padBlocks
  rw [blocks_eq_range bl hb]
  intro b h
  simp only [List.map_map, List.mem_map, Function.comp] at h
  obtain ⟨k, _, rfl⟩ := h
  rw [List.length_append, List.length_replicate, List.length_take]
  omega

/-- `a` and `a'` have the same length and differ, but only inside block number `i`. -/
def OneBlock (bl i : Nat) (a a' : Bytes) : Prop :=
  a.length = a'.length ∧ a ≠ a' ∧ ∀ j, j / bl ≠ i → a[j]? = a'[j]?

theorem padBlocks_one (bl : Nat) (hb : 0 < bl) (i : Nat) (a a' : Bytes) (h : OneBlock bl i a a') :
    (padBlocks bl a).length = (padBlocks bl a').length ∧ (padBlocks bl a)[i]? ≠ (padBlocks bl a')[i]? ∧ i < (padBlocks bl a).length ∧
    ∀ k, k ≠ i → (padBlocks bl a)[k]? = (padBlocks bl a')[k]? := by
  obtain ⟨hl, hne, hs⟩ := h
  have hlen : (padBlocks bl a).length = (padBlocks bl a').length := by rw [padBlocks_length bl hb, padBlocks_length bl hb, hl]
  obtain ⟨j, hj⟩ : ∃ j, a[j]? ≠ a'[j]? := by
    by_contra hc
    push Not at hc
    exact hne (List.ext_getElem? hc)
  have hji : j / bl = i := by
    by_contra hc
    exact hj (hs j hc)
  have hja : j < a.length := by
    by_contra hc
    exact hj (by rw [List.getElem?_eq_none (by omega), List.getElem?_eq_none (by omega)])
  have hin : i < (a.length + bl - 1) / bl := by
    rw [← hji]
    rw [Nat.lt_div_iff_mul_lt hb]
    have := Nat.div_mul_le_self j bl
    omega
  have hjm : i * bl + j % bl = j := by rw [← hji, mul_comm]; exact Nat.div_add_mod j bl
  refine ⟨hlen, ?_, by rw [padBlocks_length bl hb]; exact hin, ?_⟩
  · rw [padBlocks_get bl hb a i hin, padBlocks_get bl hb a' i (by rw [← hl]; exact hin)]
    intro h
    have h1 := Option.some.inj h
    have h2 := (List.append_inj h1 (by simp [hl])).1
    have h3 : ((a.drop (i * bl)).take bl)[j % bl]? = ((a'.drop (i * bl)).take bl)[j % bl]? := by rw [h2]
    rw [List.getElem?_take_of_lt (Nat.mod_lt _ hb), List.getElem?_take_of_lt (Nat.mod_lt _ hb), List.getElem?_drop, List.getElem?_drop,
      hjm] at h3
    exact hj h3
  · intro k hk
    by_cases hkn : k < (a.length + bl - 1) / bl
    · rw [padBlocks_get bl hb a k hkn, padBlocks_get bl hb a' k (by rw [← hl]; exact hkn)]
      have : (a.drop (k * bl)).take bl = (a'.drop (k * bl)).take bl := by
        apply List.ext_getElem?
        intro t
        by_cases ht : t < bl
        · rw [List.getElem?_take_of_lt ht, List.getElem?_take_of_lt ht, List.getElem?_drop, List.getElem?_drop]
          apply hs
          rw [mul_comm, Nat.mul_add_div hb, Nat.div_eq_of_lt ht]
          omega
        · rw [List.getElem?_eq_none (by rw [List.length_take]; omega), List.getElem?_eq_none (by rw [List.length_take]; omega)]
      rw [this]
    · rw [List.getElem?_eq_none (by rw [padBlocks_length bl hb]; omega), List.getElem?_eq_none (by rw [padBlocks_length bl hb, ← hl]; omega)]

/-! ## Tags -/

section
variable (m : MgmCipher) (key : Bytes)

/-- The coefficient of block number `i` (the associated data, then the message, then the lengths) for a key and a nonce. -/
def mgmCoeff (iv : Bytes) (i : Nat) : Bytes := mgmH m.alg.bl (m.E key) (m.E key (nonce1 iv)) i

theorem lenBlock_length (bl a c : Nat) (he : bl % 2 = 0) : (lenBlock bl a c).length = bl := by
  unfold lenBlock; simp; omega

theorem E_inj {a b : Bytes} (ha : a.length = m.alg.bl) (hb : b.length = m.alg.bl) (h : m.E key a = m.E key b) : a = b := by
  rw [← m.D_E key a ha, ← m.D_E key b hb, h]

/-- The tags of two pairs of associated data and ciphertext whose lists of authenticated blocks differ in one place. -/
theorem tag_one_place (iv a c a' c' : Bytes) (i : Nat)
    (hl : (padBlocks m.alg.bl a ++ padBlocks m.alg.bl c ++ [lenBlock m.alg.bl a.length c.length]).length =
      (padBlocks m.alg.bl a' ++ padBlocks m.alg.bl c' ++ [lenBlock m.alg.bl a'.length c'.length]).length)
    (hd : (padBlocks m.alg.bl a ++ padBlocks m.alg.bl c ++ [lenBlock m.alg.bl a.length c.length])[i]? ≠
      (padBlocks m.alg.bl a' ++ padBlocks m.alg.bl c' ++ [lenBlock m.alg.bl a'.length c'.length])[i]?)
    (hs : ∀ k, k ≠ i → (padBlocks m.alg.bl a ++ padBlocks m.alg.bl c ++ [lenBlock m.alg.bl a.length c.length])[k]? =
      (padBlocks m.alg.bl a' ++ padBlocks m.alg.bl c' ++ [lenBlock m.alg.bl a'.length c'.length])[k]?) :
    mgmTag m.alg.bl (m.E key) m.alg.mul iv a c = mgmTag m.alg.bl (m.E key) m.alg.mul iv a' c' ↔ mgmCoeff m key iv i = zeros m.alg.bl := by
  have hbl := m.ok.bl_ok
  have hb : 0 < m.alg.bl := by omega
  have hall : ∀ a c : Bytes, ∀ b ∈ padBlocks m.alg.bl a ++ padBlocks m.alg.bl c ++ [lenBlock m.alg.bl a.length c.length], b.length = m.alg.bl := by
    intro a c b h
    rcases List.mem_append.1 h with h | h
    · rcases List.mem_append.1 h with h | h
      · exact padBlocks_all _ hb a b h
      · exact padBlocks_all _ hb c b h
    · rw [List.mem_singleton.1 h]; exact lenBlock_length _ _ _ (by omega)
  rw [mgmCoeff, ← mgmSum_one_block m key (m.E key (nonce1 iv)) _ _ hl (hall a c) (hall a' c') i hd hs]
  unfold mgmTag mgmTagFrom
  constructor
  · exact fun h => E_inj m key (mgmSum_length m key _ _ (hall a c)) (mgmSum_length m key _ _ (hall a' c')) h
  · intro h; rw [h]

/-- **C72**: associated data changed inside one block keep the tag exactly if the coefficient of that block is zero. -/
theorem C72_aad_block (iv a a' c : Bytes) (i : Nat) (h : OneBlock m.alg.bl i a a') :
    mgmTag m.alg.bl (m.E key) m.alg.mul iv a c = mgmTag m.alg.bl (m.E key) m.alg.mul iv a' c ↔ mgmCoeff m key iv i = zeros m.alg.bl := by
  have hbl := m.ok.bl_ok
  have hb : 0 < m.alg.bl := by omega
  obtain ⟨h1, h2, h3, h4⟩ := padBlocks_one m.alg.bl hb i a a' h
  apply tag_one_place
  · simp [h1]
  · rw [List.append_assoc, List.append_assoc, List.getElem?_append_left h3, List.getElem?_append_left (h1 ▸ h3)]
    exact h2
  · intro k hk
    rw [List.append_assoc, List.append_assoc, ← h.1]
    by_cases hc : k < (padBlocks m.alg.bl a).length
    · rw [List.getElem?_append_left hc, List.getElem?_append_left (h1 ▸ hc)]; exact h4 k hk
    · rw [List.getElem?_append_right (l₁ := padBlocks m.alg.bl a) (by omega),
        List.getElem?_append_right (l₁ := padBlocks m.alg.bl a') (by omega), h1]

/-- **C72**: ciphertext changed inside one block keeps the tag exactly if the coefficient of that block is zero. -/
theorem C72_data_block (iv a c c' : Bytes) (i : Nat) (h : OneBlock m.alg.bl i c c') :
    mgmTag m.alg.bl (m.E key) m.alg.mul iv a c = mgmTag m.alg.bl (m.E key) m.alg.mul iv a c' ↔
      mgmCoeff m key iv ((a.length + m.alg.bl - 1) / m.alg.bl + i) = zeros m.alg.bl := by
  have hbl := m.ok.bl_ok
  have hb : 0 < m.alg.bl := by omega
  obtain ⟨h1, h2, h3, h4⟩ := padBlocks_one m.alg.bl hb i c c' h
  have hn := padBlocks_length m.alg.bl hb a
  rw [← hn]
  apply tag_one_place
  · simp [h1]
  · rw [List.append_assoc, List.append_assoc, List.getElem?_append_right (l₁ := padBlocks m.alg.bl a) (by omega),
      List.getElem?_append_right (l₁ := padBlocks m.alg.bl a) (by omega), Nat.add_sub_cancel_left,
      List.getElem?_append_left (l₁ := padBlocks m.alg.bl c) h3, List.getElem?_append_left (l₁ := padBlocks m.alg.bl c') (h1 ▸ h3)]
    exact h2
  · intro k hk
    rw [List.append_assoc, List.append_assoc, ← h.1]
    by_cases hc : k < (padBlocks m.alg.bl a).length
    · rw [List.getElem?_append_left hc, List.getElem?_append_left hc]
    · rw [List.getElem?_append_right (l₁ := padBlocks m.alg.bl a) (by omega),
        List.getElem?_append_right (l₁ := padBlocks m.alg.bl a) (by omega)]
      by_cases hc2 : k - (padBlocks m.alg.bl a).length < (padBlocks m.alg.bl c).length
      · rw [List.getElem?_append_left hc2, List.getElem?_append_left (h1 ▸ hc2)]; exact h4 _ (by omega)
      · rw [List.getElem?_append_right (l₁ := padBlocks m.alg.bl c) (by omega),
          List.getElem?_append_right (l₁ := padBlocks m.alg.bl c') (by omega), h1]

/-- **C72**: zero bytes appended to the ciphertext within its last block (what the padding adds anyway) keep the tag exactly if the
coefficient of the block of lengths is zero. -/
theorem C72_zero_extension (iv a c : Bytes) (k : Nat) (hk : 0 < k) (hc : (c.length + m.alg.bl - 1) / m.alg.bl = (c.length + k + m.alg.bl - 1) / m.alg.bl)
    (hlim : c.length + k < mgmLimit m.alg.bl) :
    mgmTag m.alg.bl (m.E key) m.alg.mul iv a c = mgmTag m.alg.bl (m.E key) m.alg.mul iv a (c ++ zeros k) ↔
      mgmCoeff m key iv ((a.length + m.alg.bl - 1) / m.alg.bl + (c.length + m.alg.bl - 1) / m.alg.bl) = zeros m.alg.bl := by
  have hbl := m.ok.bl_ok
  have hb : 0 < m.alg.bl := by omega
  have hsame : padBlocks m.alg.bl (c ++ zeros k) = padBlocks m.alg.bl c := by
    apply List.ext_getElem?
    intro t
    by_cases ht : t < (c.length + m.alg.bl - 1) / m.alg.bl
    · have ht' : t < ((c ++ zeros k).length + m.alg.bl - 1) / m.alg.bl := by
        rw [List.length_append, zeros_length, ← hc]; exact ht
      rw [padBlocks_get _ hb c t ht, padBlocks_get _ hb _ t ht']
      congr 1
      have hle : t * m.alg.bl ≤ c.length := by
        rw [Nat.lt_div_iff_mul_lt hb] at ht
        omega
      have hkb : c.length + k ≤ t * m.alg.bl + m.alg.bl ∨ t * m.alg.bl + m.alg.bl ≤ c.length := by
        by_contra hcon
        push Not at hcon
        have h1 : t + 1 < (c.length + k + m.alg.bl - 1) / m.alg.bl := by
          rw [Nat.lt_div_iff_mul_lt hb, Nat.succ_mul]; omega
        have h2 : (c.length + m.alg.bl - 1) / m.alg.bl ≤ t + 1 := by
          rw [Nat.div_le_iff_le_mul_add_pred hb, Nat.mul_succ, mul_comm]; omega
        omega
      rw [List.drop_append_of_le_length hle]
      rcases hkb with hkb | hkb
      · have e1 : (c.drop (t * m.alg.bl)).length ≤ m.alg.bl := by rw [List.length_drop]; omega
        rw [List.take_of_length_le (l := c.drop (t * m.alg.bl) ++ zeros k) (by rw [List.length_append, List.length_drop, zeros_length]; omega),
          List.take_of_length_le e1, List.append_assoc]
        congr 1
        unfold zeros
        rw [List.replicate_append_replicate]
        congr 1
        simp only [List.length_append, List.length_drop, List.length_replicate]
        omega
      · rw [List.take_append_of_le_length (by rw [List.length_drop]; omega)]
    · rw [List.getElem?_eq_none (by rw [padBlocks_length _ hb, List.length_append, zeros_length, ← hc]; omega),
        List.getElem?_eq_none (by rw [padBlocks_length _ hb]; omega)]
  have hpow : ∀ x, x < mgmLimit m.alg.bl → 8 * x < 256 ^ (m.alg.bl / 2) := by
    intro x hx
    unfold mgmLimit at hx
    rcases hbl with h | h <;> rw [h] at hx ⊢ <;> norm_num at hx ⊢ <;> omega
  rw [← padBlocks_length _ hb a, ← padBlocks_length _ hb c]
  apply tag_one_place
  · rw [hsame]; simp
  · rw [hsame, ← List.length_append, List.getElem?_append_right (le_refl _), List.getElem?_append_right (le_refl _), Nat.sub_self]
    simp only [List.getElem?_cons_zero]
    intro h
    have h1 := (List.append_inj (Option.some.inj h) (by simp)).2
    have h2 := beBytes_inj _ _ _ (hpow _ (by omega)) (hpow _ (by rw [List.length_append, zeros_length]; exact hlim)) h1
    rw [List.length_append, zeros_length] at h2
    omega
  · intro t ht
    rw [hsame]
    rw [← List.length_append] at ht
    by_cases hlt : t < (padBlocks m.alg.bl a ++ padBlocks m.alg.bl c).length
    · rw [List.getElem?_append_left hlt, List.getElem?_append_left hlt]
    · rw [List.getElem?_eq_none (by rw [List.length_append, List.length_singleton]; omega),
        List.getElem?_eq_none (by rw [List.length_append, List.length_singleton]; omega)]

theorem iter_incrL (bl : Nat) (he : bl % 2 = 0) (z : Bytes) (hz : z.length = bl) (i : Nat) :
    iter (incrL bl) i z = beBytes (bl / 2) (beNat (z.take (bl / 2)) + i) ++ z.drop (bl / 2) := by
  induction i generalizing z with
  | zero =>
    rw [iter, Nat.add_zero, beBytes_beNat _ _ (by simp; omega), List.take_append_drop]
  | succ i ih =>
    rw [iter, ih _ (incrL_length bl z hz)]
    unfold incrL
    rw [List.take_append_of_le_length (by simp), List.drop_append_of_le_length (by simp)]
    rw [List.take_of_length_le (by simp), List.drop_eq_nil_of_le (by simp), List.nil_append, beNat_beBytes]
    congr 1
    rw [← beBytes_mod, Nat.mod_add_mod, beBytes_mod]
    congr 1
    omega

/-- **C72**: for a key and a nonce at most one block number below `2^(n/2)` has a zero coefficient. -/
theorem C72_one_zero_coefficient (iv : Bytes) (i j : Nat) (hi : i < 256 ^ (m.alg.bl / 2)) (hj : j < 256 ^ (m.alg.bl / 2))
    (h1 : mgmCoeff m key iv i = zeros m.alg.bl) (h2 : mgmCoeff m key iv j = zeros m.alg.bl) : i = j := by
  have hbl := m.ok.bl_ok
  have hE := m.ok.len key (nonce1 iv)
  have he : m.alg.bl % 2 = 0 := by omega
  have hlen : ∀ i, (iter (incrL m.alg.bl) i (m.E key (nonce1 iv))).length = m.alg.bl := fun i => iter_len (incrL_length m.alg.bl) i _ hE
  have h := E_inj m key (hlen i) (hlen j) (h1.trans h2.symm)
  rw [iter_incrL _ he _ hE, iter_incrL _ he _ hE] at h
  have h3 := (List.append_inj h (by simp)).1
  have h4 := congrArg beNat h3
  rw [beNat_beBytes, beNat_beBytes] at h4
  have h5 : i ≡ j [MOD 256 ^ (m.alg.bl / 2)] := Nat.ModEq.add_left_cancel' _ h4
  unfold Nat.ModEq at h5
  rwa [Nat.mod_eq_of_lt hi, Nat.mod_eq_of_lt hj] at h5

/-! ## Through the API -/

/-- **C72**: what is encrypted and tagged in one session and decrypted, after a change inside one block of the associated data or of the
ciphertext, with the original tag in another: the final call accepts it exactly if the coefficient of that block is zero.  (The
decrypting side makes at least one call with associated data, see C27.) -/
theorem C72_changed_block_refused (c0 c0' : MgmCtx m.alg) (iv : Bytes) (hk : key.length = 32) (hiv : iv.length = m.alg.bl)
    (as ds as' ds' : List Bytes) (has' : as' ≠ []) (out out' : Bool) (tag : Bytes)
    (hl : as.flatten.length + ds.flatten.length ≤ mgmLimit m.alg.bl) (hA : as.flatten.length < mgmLimit m.alg.bl)
    (hP : ds.flatten.length < mgmLimit m.alg.bl)
    (htag : mgm_ctrl_get_tag (cipher_do_mgm (mgmSession m c0 key iv true (mgmChunks as ds)).1 out none).1 m.alg.bl = some tag)
    (i : Nat) :
    (OneBlock m.alg.bl i as.flatten as'.flatten → ds'.flatten = (mgmSession m c0 key iv true (mgmChunks as ds)).2.1 →
      let d := mgmSession m c0' key iv false (mgmChunks as' ds')
      ((cipher_do_mgm (mgm_ctrl_set_tag d.1 m.alg.bl tag).1 out' none).2.2 = 0 ↔ mgmCoeff m key iv i = zeros m.alg.bl)) ∧
    (as'.flatten = as.flatten → OneBlock m.alg.bl i (mgmSession m c0 key iv true (mgmChunks as ds)).2.1 ds'.flatten →
      let d := mgmSession m c0' key iv false (mgmChunks as' ds')
      ((cipher_do_mgm (mgm_ctrl_set_tag d.1 m.alg.bl tag).1 out' none).2.2 = 0 ↔
        mgmCoeff m key iv ((as.flatten.length + m.alg.bl - 1) / m.alg.bl + i) = zeros m.alg.bl)) := by
  have hbl := m.ok.bl_ok
  obtain ⟨_, e1, _, e2⟩ := C24_encrypt_is_standard m c0 key iv hk hiv as ds out m.alg.bl (by omega) le_rfl hl hA hP
  rw [e1]
  have hlen : (mgmCrypt m.alg.bl (m.E key) iv ds.flatten).length = ds.flatten.length := by simp [mgmCrypt, xorStream]
  have htl : ∀ a c, (mgmTag m.alg.bl (m.E key) m.alg.mul iv a c).length = m.alg.bl := fun a c => m.ok.len key _
  rw [htag, List.take_of_length_le (le_of_eq (htl _ _))] at e2
  have e3 := Option.some.inj e2
  have key' : ∀ ds'' : List Bytes, as'.flatten.length = as.flatten.length → ds''.flatten.length = ds.flatten.length →
      ((cipher_do_mgm (mgm_ctrl_set_tag (mgmSession m c0' key iv false (mgmChunks as' ds'')).1 m.alg.bl tag).1 out' none).2.2 = 0 ↔
        tag = mgmTag m.alg.bl (m.E key) m.alg.mul iv as'.flatten ds''.flatten) := fun ds'' h1 h2 =>
    (C27_mgm_tag_check_partial m c0' key iv hk hiv as' ds'' has' out' tag (by rw [e3]; exact htl _ _) (by rw [h1, h2]; exact hl)
      (by rw [h1]; exact hA) (by rw [h2]; exact hP)).2.2
  constructor
  · intro h1 h2
    have := key' ds' h1.1.symm (by rw [h2, hlen])
    simp only
    rw [this, e3, h2]
    exact C72_aad_block m key iv _ _ _ i h1
  · intro h1 h2
    have := key' ds' (by rw [h1]) (by rw [← h2.1, hlen])
    simp only
    rw [this, e3, h1]
    exact C72_data_block m key iv _ _ _ i h2

end

/-- The hypotheses are met: a ciphertext of 9 bytes changed in its last byte differs in block 1 of 8 bytes only; and the coefficients for
the key of the tests are not zero. -/
example : OneBlock 8 1 [1, 2, 3, 4, 5, 6, 7, 8, 9] [1, 2, 3, 4, 5, 6, 7, 8, 10] := by
  refine ⟨rfl, by decide, ?_⟩
  intro j hj
  have : j < 8 ∨ j = 8 ∨ 9 ≤ j := by omega
  rcases this with h | h | h
  · interval_cases j <;> rfl
  · subst h; exact absurd rfl hj
  · rw [List.getElem?_eq_none (by simpa using h), List.getElem?_eq_none (by simpa using h)]

example : mgmCoeff .magma sampleKey (zeros 8) 0 ≠ zeros 8 ∧ mgmCoeff .magma sampleKey (zeros 8) 1 ≠ zeros 8 := by
  constructor <;> decide +kernel

/-- The product of two non-zero blocks, one the inverse of the other: `X · (X^63 + X^3 + X^2 + 1) = 1`. -/
example : gf64_mul [0, 0, 0, 0, 0, 0, 0, 2] [0x80, 0, 0, 0, 0, 0, 0, 0x0d] = zeros 7 ++ [1] := by decide +kernel

end Gost
