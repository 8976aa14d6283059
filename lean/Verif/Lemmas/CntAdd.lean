import Verif.Lemmas.Gost89Key
import Verif.Model.GostModes

/-! # The counter step of CNT mode in terms of integers -/

namespace Gost
open Spec

theorem ofNat_le32 (a b c d : Byte) :
    (le32 a b c d).toNat = leNat [a, b, c, d] := by
  have e : le32 a b c d = d ++ c ++ b ++ a := by
    apply BitVec.eq_of_getLsbD_eq
    intro i hi
    simp only [le32, BitVec.getLsbD_or, BitVec.getLsbD_shiftLeft, BitVec.getLsbD_setWidth,
      BitVec.getLsbD_append]
    by_cases h1 : i < 8
    · simp [h1, hi, show i < 16 by omega, show i < 24 by omega]
    · have hA := BitVec.getLsbD_of_ge a i (by omega)
      by_cases h2 : i < 16
      · simp [h1, h2, hi, hA, show i < 24 by omega, show i - 8 < 8 by omega, show i - 8 < 32 by omega]
      · have hB := BitVec.getLsbD_of_ge b (i - 8) (by omega)
        by_cases h3 : i < 24
        · simp [h1, h2, h3, hi, hA, hB, show i - 16 < 8 by omega, show i - 16 < 32 by omega,
            show ¬ (i - 8 < 8) by omega, Nat.sub_sub]
        · have hC := BitVec.getLsbD_of_ge c (i - 16) (by omega)
          simp [h1, h2, h3, hi, hA, hB, hC, show i - 24 < 8 by omega, show i - 24 < 32 by omega,
            show ¬ (i - 8 < 8) by omega, show ¬ (i - 16 < 8) by omega, Nat.sub_sub]
  rw [e]
  have := a.isLt; have := b.isLt; have := c.isLt; have := d.isLt
  simp only [BitVec.toNat_append, leNat]
  rw [← Nat.shiftLeft_add_eq_or_of_lt a.isLt, ← Nat.shiftLeft_add_eq_or_of_lt b.isLt,
    ← Nat.shiftLeft_add_eq_or_of_lt c.isLt]
  simp only [Nat.shiftLeft_eq]
  omega

theorem word_leBytes (w : W32) : [byteOf w 0, byteOf w 1, byteOf w 2, byteOf w 3] = leBytes 4 w.toNat := by
  simp only [leBytes, byteOf, List.cons.injEq, and_true]
  refine ⟨?_, ?_, ?_, ?_⟩ <;> apply BitVec.eq_of_toNat_eq <;>
    simp [BitVec.toNat_setWidth, BitVec.toNat_ushiftRight, Nat.shiftRight_eq_div_pow] <;> omega

theorem cntHi (y : W32) :
    (if y > y + 0x01010104#32 then y + 0x01010104#32 + 1#32 else y + 0x01010104#32).toNat =
      (if y.toNat + 0x01010104 < 2^32 then y.toNat + 0x01010104
        else y.toNat + 0x01010104 - (2^32 - 1)) := by
  have hy := y.isLt
  have hs : (y + 0x01010104#32).toNat = (y.toNat + 16843012) % 4294967296 := by
    rw [BitVec.toNat_add]
    rfl
  by_cases hlt : y.toNat + 0x01010104 < 2^32
  · rw [if_pos hlt, if_neg]
    · rw [hs]; omega
    · rw [GT.gt, BitVec.lt_def, hs]; omega
  · rw [if_neg hlt, if_pos]
    · rw [BitVec.toNat_add, hs, show (1#32).toNat = 1 from rfl]; omega
    · rw [GT.gt, BitVec.lt_def, hs]; omega

/-- The counter step of the code is the one of RFC 5830. -/
theorem cntAdd_spec (b : Bytes) (h : b.length = 8) : cntAdd b = cntIncr b := by
  obtain ⟨b0, b1, b2, b3, b4, b5, b6, b7, rfl⟩ := list8 h
  unfold cntAdd cntIncr
  simp only [at_, List.getD_cons_zero, List.getD_cons_succ, List.take_succ_cons, List.take_zero,
    List.drop_succ_cons, List.drop_zero, ← ofNat_le32]
  generalize le32 b0 b1 b2 b3 = x
  generalize le32 b4 b5 b6 b7 = y
  rw [← cntHi, ← word_leBytes]
  have e1 : (x.toNat + 0x01010101) % 2^32 = (x + 0x01010101#32).toNat := by
    rw [BitVec.toNat_add]; rfl
  rw [e1, ← word_leBytes]
  generalize x + 0x01010101#32 = x'
  generalize (if y > y + 0x01010104#32 then y + 0x01010104#32 + 1#32 else y + 0x01010104#32) = y'
  rfl

theorem cntState_len (E : Bytes → Bytes → Bytes) (mesh add : Bytes → Bytes) (hE : ∀ k b, (E k b).length = 8)
    (hadd : ∀ b, b.length = 8 → (add b).length = 8) (on : Bool) (key iv : Bytes) (j : Nat) :
    (cntState E mesh add on key iv j).2.length = 8 := by
  induction j with
  | zero => exact hE _ _
  | succ j ih =>
    simp only [cntState]
    split
    · exact hE _ _
    · exact hadd _ ih

theorem cntState_congr (E : Bytes → Bytes → Bytes) (mesh add add' : Bytes → Bytes)
    (hE : ∀ k b, (E k b).length = 8) (hadd : ∀ b, b.length = 8 → (add b).length = 8)
    (h : ∀ b, b.length = 8 → add b = add' b) (on : Bool) (key iv : Bytes) (j : Nat) :
    cntState E mesh add on key iv j = cntState E mesh add' on key iv j := by
  induction j with
  | zero => rfl
  | succ j ih =>
    simp only [cntState]
    rw [h _ (cntState_len E mesh add hE hadd on key iv j), ih]

theorem cntGamma_spec (box : KBox) (mesh : Bytes → Bytes) (on : Bool) (key iv : Bytes) :
    cntGamma (E89 box) mesh cntAdd on key iv = cntGamma (E89 box) mesh cntIncr on key iv := by
  funext j
  have hE : ∀ k b, (E89 box k b).length = 8 := fun k b => by simp
  have hadd : ∀ b : Bytes, b.length = 8 → (cntAdd b).length = 8 := fun _ _ => rfl
  unfold cntGamma
  have h1 := cntState_congr (E89 box) mesh cntAdd cntIncr hE hadd (fun b hb => cntAdd_spec b hb) on key iv j
  have h2 := cntState_len (E89 box) mesh cntAdd hE hadd on key iv j
  simp only
  rw [cntAdd_spec _ h2, h1]

end Gost
