import Verif.Model.Basic

namespace Gost

@[simp] theorem xorB_length (a b : Bytes) : (xorB a b).length = min a.length b.length := by
  simp [xorB]

theorem xorB_comm (a b : Bytes) : xorB a b = xorB b a := by
  unfold xorB
  rw [List.zipWith_comm]
  congr 1; funext x y; exact BitVec.xor_comm _ _

theorem xorB_xorB_cancel : ∀ (a b : Bytes), a.length ≤ b.length → xorB (xorB a b) b = a
  | [], _, _ => by simp [xorB]
  | x :: a, [], h => by simp at h
  | x :: a, y :: b, h => by
    have ih := xorB_xorB_cancel a b (by simpa using h)
    simp only [xorB, List.zipWith_cons_cons] at ih ⊢
    rw [ih]
    simp [BitVec.xor_assoc]

@[simp] theorem zeros_length (n : Nat) : (zeros n).length = n := by simp [zeros]

theorem xorB_zeros (a : Bytes) (n : Nat) (h : a.length ≤ n) : xorB a (zeros n) = a := by
  induction a generalizing n with
  | nil => simp [xorB]
  | cons x a ih =>
    cases n with
    | zero => simp at h
    | succ n =>
      have := ih n (by simpa using h)
      simp only [xorB, zeros, List.replicate_succ, List.zipWith_cons_cons] at this ⊢
      rw [this]; simp

theorem xorB_take_left (g xs : Bytes) : xorB (g.take xs.length) xs = xorB xs g := by
  unfold xorB
  apply List.ext_getElem
  · simp
  · intro i _ _; simp [BitVec.xor_comm]

theorem xorB_append (a b c d : Bytes) (h : a.length = c.length) :
    xorB (a ++ b) (c ++ d) = xorB a c ++ xorB b d := by
  simp [xorB, List.zipWith_append h]

@[simp] theorem xorB_nil_left (b : Bytes) : xorB [] b = [] := by simp [xorB]
@[simp] theorem xorB_nil_right (b : Bytes) : xorB b [] = [] := by simp [xorB]
@[simp] theorem xorB_cons (x y : Byte) (a b : Bytes) : xorB (x :: a) (y :: b) = (x ^^^ y) :: xorB a b := by
  simp [xorB]

/-- Case bash over bit positions below a literal bound. -/
macro "bits_ext" : tactic => `(tactic|
  (apply BitVec.eq_of_getLsbD_eq; intro i hi))

theorem le32_byteOf (w : W32) :
    le32 (byteOf w 0) (byteOf w 1) (byteOf w 2) (byteOf w 3) = w := by
  apply BitVec.eq_of_getLsbD_eq
  intro i hi
  simp only [le32, byteOf, BitVec.getLsbD_or, BitVec.getLsbD_shiftLeft, BitVec.getLsbD_setWidth,
    BitVec.getLsbD_ushiftRight]
  by_cases h1 : i < 8
  · simp [h1, hi, show i < 16 by omega, show i < 24 by omega]
  · by_cases h2 : i < 16
    · have e : 8 + (i - 8) = i := by omega
      simp [h1, h2, hi, show i < 24 by omega, show i - 8 < 8 by omega, show i - 8 < 32 by omega, e]
    · by_cases h3 : i < 24
      · have e : 16 + (i - 16) = i := by omega
        simp [h1, h2, h3, hi, show i - 16 < 8 by omega, show i - 16 < 32 by omega, show ¬ (i - 8 < 8) by omega, e]
      · have e : 24 + (i - 24) = i := by omega
        simp [h1, h2, h3, hi, show i - 24 < 8 by omega, show i - 24 < 32 by omega, show ¬ (i - 8 < 8) by omega,
          show ¬ (i - 16 < 8) by omega, e]

theorem byteOf_le32 (a b c d : Byte) :
    byteOf (le32 a b c d) 0 = a ∧ byteOf (le32 a b c d) 1 = b ∧
    byteOf (le32 a b c d) 2 = c ∧ byteOf (le32 a b c d) 3 = d := by
  refine ⟨?_, ?_, ?_, ?_⟩ <;> apply BitVec.eq_of_getLsbD_eq <;> intro i hi <;>
    simp only [le32, byteOf, BitVec.getLsbD_or, BitVec.getLsbD_shiftLeft, BitVec.getLsbD_setWidth,
      BitVec.getLsbD_ushiftRight]
  · simp [hi, show i < 32 by omega, show i < 16 by omega, show i < 24 by omega]
  · have h0 : ¬ (8 + i < 8) := by omega
    simp [hi, h0, show i < 32 by omega, show 8 + i < 32 by omega, show 8 + i < 16 by omega,
      show 8 + i < 24 by omega]
  · have h1 := BitVec.getLsbD_of_ge a (16 + i) (by omega)
    have h2 := BitVec.getLsbD_of_ge b (16 + i - 8) (by omega)
    simp [hi, show i < 32 by omega, show ¬ (16 + i < 16) by omega, show 16 + i < 32 by omega, show 16 + i < 24 by omega, h1, h2]
  · have h1 := BitVec.getLsbD_of_ge a (24 + i) (by omega)
    have h2 := BitVec.getLsbD_of_ge b (24 + i - 8) (by omega)
    have h3 := BitVec.getLsbD_of_ge c (24 + i - 16) (by omega)
    simp [hi, show i < 32 by omega, show ¬ (24 + i < 24) by omega, show 24 + i < 32 by omega, h1, h2, h3]

theorem list8 {b : Bytes} (h : b.length = 8) :
    ∃ b0 b1 b2 b3 b4 b5 b6 b7, b = [b0, b1, b2, b3, b4, b5, b6, b7] := by
  match b, h with
  | [b0, b1, b2, b3, b4, b5, b6, b7], _ => exact ⟨b0, b1, b2, b3, b4, b5, b6, b7, rfl⟩

end Gost
