import Verif.Lemmas.Gost89
import Verif.Spec.Gost28147
namespace Gost
theorem idx_hi (x : W32) (s t : Nat) (ht : t = s + 4) :
    ((((x >>> s &&& 255).setWidth 8 : BitVec 8) >>> 4).toNat) = (x.extractLsb' t 4).toNat := by
  subst ht
  simp only [BitVec.toNat_ushiftRight, BitVec.toNat_setWidth, BitVec.toNat_and, BitVec.extractLsb'_toNat,
    Nat.shiftRight_eq_div_pow]
  rw [show BitVec.toNat (255 : BitVec 32) = 2^8 - 1 from rfl, Nat.and_two_pow_sub_one_eq_mod, Nat.pow_add, ← Nat.div_div_eq_div_mul]
  generalize x.toNat / 2 ^ s = y
  omega

theorem idx_lo (x : W32) (s : Nat) :
    ((((x >>> s &&& 255).setWidth 8 : BitVec 8) &&& 15).toNat) = (x.extractLsb' s 4).toNat := by
  simp only [BitVec.toNat_ushiftRight, BitVec.toNat_setWidth, BitVec.toNat_and, BitVec.extractLsb'_toNat,
    Nat.shiftRight_eq_div_pow]
  rw [show BitVec.toNat (255 : BitVec 32) = 2^8 - 1 from rfl, Nat.and_two_pow_sub_one_eq_mod,
    show BitVec.toNat (15 : BitVec 8) = 2^4 - 1 from rfl, Nat.and_two_pow_sub_one_eq_mod]
  generalize x.toNat / 2 ^ s = y
  omega

theorem hi_zero (b : Byte) (h : b.toNat < 16) (j : Nat) (hj : 4 ≤ j) : b.getLsbD j = false := by
  rw [BitVec.getLsbD]
  apply Nat.testBit_lt_two_pow
  calc b.toNat < 2^4 := h
    _ ≤ 2 ^ j := Nat.pow_le_pow_right (by decide) hj


theorem narrow (b : Byte) (h : b.toNat < 16) : b = (b.setWidth 4).setWidth 8 := by
  apply BitVec.eq_of_toNat_eq
  simp only [BitVec.toNat_setWidth]; omega

def orNib (a7 a6 a5 a4 a3 a2 a1 a0 : Byte) : W32 :=
  (((a7.setWidth 32 : W32) <<< 4) ||| (a6.setWidth 32)) <<< 24 |||
  (((a5.setWidth 32 : W32) <<< 4) ||| (a4.setWidth 32)) <<< 16 |||
  (((a3.setWidth 32 : W32) <<< 4) ||| (a2.setWidth 32)) <<< 8 |||
  (((a1.setWidth 32 : W32) <<< 4) ||| (a0.setWidth 32))

theorem orNib_nibble (a7 a6 a5 a4 a3 a2 a1 a0 : BitVec 4) :
   let T := orNib (a7.setWidth 8) (a6.setWidth 8) (a5.setWidth 8) (a4.setWidth 8) (a3.setWidth 8)
     (a2.setWidth 8) (a1.setWidth 8) (a0.setWidth 8)
   T.extractLsb' 28 4 = a7 ∧ T.extractLsb' 24 4 = a6 ∧ T.extractLsb' 20 4 = a5 ∧
   T.extractLsb' 16 4 = a4 ∧ T.extractLsb' 12 4 = a3 ∧ T.extractLsb' 8 4 = a2 ∧
   T.extractLsb' 4 4 = a1 ∧ T.extractLsb' 0 4 = a0 := by
  intro T
  refine ⟨?_,?_,?_,?_,?_,?_,?_,?_⟩ <;> apply BitVec.eq_of_getLsbD_eq <;> intro i hi <;>
    match i, hi with
    | 0, _ | 1, _ | 2, _ | 3, _ =>
      simp [T, orNib, BitVec.getLsbD_of_ge]

theorem rot11 (x : W32) : (x <<< 11 ||| x >>> (32 - 11)).rotateRight 11 = x := by
  apply BitVec.eq_of_getLsbD_eq
  intro i hi
  simp only [BitVec.getLsbD_rotateRight, BitVec.getLsbD_or, BitVec.getLsbD_shiftLeft, BitVec.getLsbD_ushiftRight]
  by_cases h : i < 21
  · have := BitVec.getLsbD_of_ge x (21 + (11 + i)) (by omega)
    simp [h, show 11 + i < 32 by omega, show ¬ (11 + i < 11) by omega, show i < 32 by omega, this]
  · simp [h, show i - 21 < 11 by omega, show i - 21 < 32 by omega, show 21 + (i - 21) = i by omega, hi]

/-- The rows of a substitution block as nibble functions. -/
def nibRows (b : SubstBlock) : Spec.Subst := fun i n =>
  (at_ ([b.k1, b.k2, b.k3, b.k4, b.k5, b.k6, b.k7, b.k8].getD i.val []) n.toNat).setWidth 4

theorem f_rot (b : SubstBlock) (x : W32) :
    (f (kboxinit b) x).rotateRight 11 =
      orNib (at_ b.k8 (x.extractLsb' 28 4).toNat) (at_ b.k7 (x.extractLsb' 24 4).toNat)
        (at_ b.k6 (x.extractLsb' 20 4).toNat) (at_ b.k5 (x.extractLsb' 16 4).toNat)
        (at_ b.k4 (x.extractLsb' 12 4).toNat) (at_ b.k3 (x.extractLsb' 8 4).toNat)
        (at_ b.k2 (x.extractLsb' 4 4).toNat) (at_ b.k1 (x.extractLsb' 0 4).toNat) := by
  have e0 : x = x >>> 0 := by simp
  simp only [f, rot11]
  simp only [kboxinit, idx_hi x 24 28 rfl, idx_lo, idx_hi x 16 20 rfl, idx_hi x 8 12 rfl, orNib]
  conv => lhs; arg 2; rw [e0]
  simp only [idx_hi x 0 4 rfl, idx_lo]

theorem f_nibbles (b : SubstBlock)
    (hb : ∀ r ∈ [b.k1, b.k2, b.k3, b.k4, b.k5, b.k6, b.k7, b.k8], ∀ v ∈ r, v.toNat < 16)
    (x : W32) : Spec.IsSubst (nibRows b) x ((f (kboxinit b) x).rotateRight 11) := by
  have hat : ∀ r ∈ [b.k1, b.k2, b.k3, b.k4, b.k5, b.k6, b.k7, b.k8], ∀ j, (at_ r j).toNat < 16 := by
    intro r hr j
    unfold at_
    by_cases h : j < r.length
    · rw [List.getD_eq_getElem?_getD, List.getElem?_eq_getElem h]; exact hb r hr _ (List.getElem_mem h)
    · rw [List.getD_eq_getElem?_getD, List.getElem?_eq_none (by omega)]; decide
  rw [f_rot]
  rw [narrow _ (hat b.k8 (by simp) _), narrow _ (hat b.k7 (by simp) _), narrow _ (hat b.k6 (by simp) _),
    narrow _ (hat b.k5 (by simp) _), narrow _ (hat b.k4 (by simp) _), narrow _ (hat b.k3 (by simp) _),
    narrow _ (hat b.k2 (by simp) _), narrow _ (hat b.k1 (by simp) _)]
  obtain ⟨h7,h6,h5,h4,h3,h2,h1,h0⟩ := orNib_nibble
    ((at_ b.k8 (x.extractLsb' 28 4).toNat).setWidth 4) ((at_ b.k7 (x.extractLsb' 24 4).toNat).setWidth 4)
    ((at_ b.k6 (x.extractLsb' 20 4).toNat).setWidth 4) ((at_ b.k5 (x.extractLsb' 16 4).toNat).setWidth 4)
    ((at_ b.k4 (x.extractLsb' 12 4).toNat).setWidth 4) ((at_ b.k3 (x.extractLsb' 8 4).toNat).setWidth 4)
    ((at_ b.k2 (x.extractLsb' 4 4).toNat).setWidth 4) ((at_ b.k1 (x.extractLsb' 0 4).toNat).setWidth 4)
  intro i
  match i with
  | 0 => exact h0
  | 1 => exact h1
  | 2 => exact h2
  | 3 => exact h3
  | 4 => exact h4
  | 5 => exact h5
  | 6 => exact h6
  | 7 => exact h7

theorem isSubst_unique (S : Spec.Subst) (x y z : W32) (h1 : Spec.IsSubst S x y)
    (h2 : Spec.IsSubst S x z) : y = z := by
  apply BitVec.eq_of_getLsbD_eq
  intro i hi
  have h := (h1 ⟨i / 4, by omega⟩).trans (h2 ⟨i / 4, by omega⟩).symm
  have h' := congrArg (fun v => BitVec.getLsbD v (i % 4)) h
  simp only [Spec.nibble, BitVec.getLsbD_extractLsb'] at h'
  have e : 4 * (i / 4) + i % 4 = i := by omega
  simpa [e, show i % 4 < 4 by omega] using h'

theorem rotR_inj (x y : W32) (h : x.rotateRight 11 = y.rotateRight 11) : x = y := by
  have := congrArg (fun v => BitVec.rotateLeft v 11) h
  apply BitVec.eq_of_getLsbD_eq
  intro i hi
  have h1 : ∀ z : W32, ((z.rotateRight 11).rotateLeft 11).getLsbD i = z.getLsbD i := by
    intro z
    simp only [BitVec.getLsbD_rotateLeft, BitVec.getLsbD_rotateRight]
    by_cases h : i < 11
    · simp [h, show ¬ (21 + i < 21) by omega, show 21 + i < 32 by omega]
    · simp [h, show i - 11 < 21 by omega, show 11 + (i - 11) = i by omega, hi]
  have h2 := congrArg (fun v => BitVec.getLsbD v i) this
  simp only [h1] at h2
  exact h2

theorem round2_spec (g : W32 → W32) (c : Ctx) (hg : ∀ x, f c.box x = g x) (n1 n2 : W32)
    (i j : Fin 8) :
    (round2 c (n1, n2) (i, j)).swap =
      Spec.round g (Spec.round g (n2, n1) (c.key i + c.mask i)) (c.key j + c.mask j) := by
  simp [round2, Spec.round, Prod.swap, BitVec.add_assoc, hg]

theorem rounds_spec (g : W32 → W32) (c : Ctx) (hg : ∀ x, f c.box x = g x)
    (l : List (Fin 8 × Fin 8)) (s : W32 × W32) :
    (l.foldl (round2 c) s).swap =
      (l.flatMap fun ij => [c.key ij.1 + c.mask ij.1, c.key ij.2 + c.mask ij.2]).foldl
        (Spec.round g) s.swap := by
  induction l generalizing s with
  | nil => rfl
  | cons k l ih =>
    simp only [List.foldl_cons, List.flatMap_cons, List.cons_append, List.nil_append]
    rw [ih]
    obtain ⟨n1, n2⟩ := s
    obtain ⟨i, j⟩ := k
    rw [round2_spec g c hg]
    rfl

theorem enc_spec (g : W32 → W32) (c : Ctx) (hg : ∀ x, f c.box x = g x) (n1 n2 : W32) :
    encSched.foldl (round2 c) (n1, n2) = Spec.encrypt g (fun i => c.key i + c.mask i) n2 n1 := by
  have := rounds_spec g c hg encSched (n1, n2)
  unfold Spec.encrypt
  rw [show (n2, n1) = (n1, n2).swap from rfl]
  rw [show Spec.roundKeys (fun i => c.key i + c.mask i) =
    (encSched.flatMap fun ij => [c.key ij.1 + c.mask ij.1, c.key ij.2 + c.mask ij.2]) from rfl,
    ← this, Prod.swap_swap]

end Gost
