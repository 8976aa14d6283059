import Verif.Lemmas.KuzField
import Verif.Lemmas.KuzBasis

/-!
# The precomputed tables of Kuznyechik are L∘S, L⁻¹∘S⁻¹ and L⁻¹

By linearity the images of the 128 unit vectors determine L and L⁻¹; the kernel evaluates these images
and compares every entry of the three 16×256 tables with the XOR of the images its index selects.
-/

namespace Gost
open Spec

/-- The block with byte `y` at position `i` and zeros elsewhere. -/
def single (i : Nat) (y : Byte) : Bytes := (zeros 16).set i y

@[simp] theorem single_length (i : Nat) (y : Byte) : (single i y).length = 16 := by simp [single]

/-- XOR of the basis images selected by the bits of `y`. -/
def combine (basis : Nat) (y : Nat) : Nat :=
  (List.range 8).foldl (fun acc b => acc ^^^ (if y.testBit b then (basis >>> (128 * b)) % 2^128 else 0)) 0

/-- 16 bytes of a number, little-endian. -/
def bytes16 (n : Nat) : Bytes := (List.range 16).map fun j => BitVec.ofNat 8 (n >>> (8 * j))

theorem bytes16_length (n : Nat) : (bytes16 n).length = 16 := by simp [bytes16]

theorem bytes16_xor (a b : Nat) : bytes16 (a ^^^ b) = xorB (bytes16 a) (bytes16 b) := by
  unfold bytes16 xorB
  rw [List.zipWith_map]
  simp only [List.zipWith_self]
  apply List.map_congr_left
  intro j _
  rw [Nat.shiftRight_xor_distrib]
  apply BitVec.eq_of_getLsbD_eq
  intro i hi
  simp [hi]

theorem bytes16_zero : bytes16 0 = zeros 16 := by decide

theorem bytes16_mod (n : Nat) : bytes16 (n % 2^128) = bytes16 n := by
  unfold bytes16
  apply List.map_congr_left
  intro j hj
  simp only [List.mem_range] at hj
  apply BitVec.eq_of_getLsbD_eq
  intro i hi
  simp only [BitVec.getLsbD_ofNat, hi, decide_true, Bool.true_and, Nat.testBit_shiftRight, Nat.testBit_mod_two_pow]
  simp [show 8 * j + i < 128 by omega]

theorem tab128_eq (p x : Nat) : tab128 p x = bytes16 (p >>> (128 * x)) := by
  unfold tab128 bytes16
  apply List.map_congr_left
  intro j _
  rw [Nat.shiftRight_add]

/-- All 128 basis images of L. -/
theorem lBasis_check : ((List.range 16).all fun i => (List.range 8).all fun b =>
    Kuz.L (single i (BitVec.ofNat 8 (2^b))) == bytes16 (lBasis i >>> (128 * b))) = true := by
  decide +kernel


/-- L on packed blocks, through the basis images. -/
def Lnat (n : Nat) : Nat :=
  (List.range 16).foldl (fun acc j => acc ^^^ combine (lBasis j) ((n >>> (8 * j)) % 256)) 0

/-- All 128 basis images of L⁻¹: L maps them back to the unit vectors. -/
theorem lInvBasis_check : ((List.range 16).all fun i => (List.range 8).all fun b =>
    Lnat ((lInvBasis i >>> (128 * b)) % 2^128) == 2^(8 * i + b)) = true := by
  decide +kernel

theorem pil_enc_check : ((List.range 16).all fun i => (List.range 256).all fun x =>
    (grasshopper_pil_enc128_rows i >>> (128 * x)) % 2^128 ==
      combine (lBasis i) ((grasshopper_pi_packed >>> (8 * x)) % 256)) = true := by
  decide +kernel

theorem pil_dec_check : ((List.range 16).all fun i => (List.range 256).all fun x =>
    (grasshopper_pil_dec128_rows i >>> (128 * x)) % 2^128 ==
      combine (lInvBasis i) ((grasshopper_pi_inv_packed >>> (8 * x)) % 256)) = true := by
  decide +kernel

theorem l_dec_check : ((List.range 16).all fun i => (List.range 256).all fun x =>
    (grasshopper_l_dec128_rows i >>> (128 * x)) % 2^128 == combine (lInvBasis i) x) = true := by
  decide +kernel

/-! ## From unit vectors to all vectors -/

/-- A map on 16-byte blocks that preserves length and XOR. -/
structure Lin16 (f : Bytes → Bytes) : Prop where
  len : ∀ w, w.length = 16 → (f w).length = 16
  xor : ∀ a b, a.length = 16 → b.length = 16 → f (xorB a b) = xorB (f a) (f b)

theorem L_lin : Lin16 Kuz.L := ⟨L_length, L_xor⟩
theorem l_inv_lin : Lin16 grasshopper_l_inv := ⟨l_inv_length, l_inv_xor⟩

theorem xorB_self (a : Bytes) : xorB a a = zeros a.length := by
  induction a with
  | nil => rfl
  | cons x a ih => simp [ih, zeros, List.replicate_succ]

theorem Lin16.zero {f : Bytes → Bytes} (hf : Lin16 f) : f (zeros 16) = zeros 16 := by
  have h := hf.xor (zeros 16) (zeros 16) (by simp) (by simp)
  rw [xorB_self, xorB_self, hf.len _ (by simp)] at h
  simpa using h

theorem single_xor (i : Nat) (a b : Byte) : single i (a ^^^ b) = xorB (single i a) (single i b) := by
  unfold single xorB zeros
  apply List.ext_getElem
  · simp
  · intro j h1 h2
    simp only [List.getElem_set, List.getElem_zipWith, List.getElem_replicate]
    split <;> simp

theorem single_zero (i : Nat) : single i 0 = zeros 16 := by
  unfold single zeros
  apply List.ext_getElem
  · simp
  · intro j h1 h2
    simp only [List.getElem_set, List.getElem_replicate]
    split <;> rfl

theorem byte_bits_check : ((List.range 256).all fun y =>
    (List.range 8).foldl (fun acc b => acc ^^^ (if y.testBit b then BitVec.ofNat 8 (2^b) else 0#8)) 0#8
      == BitVec.ofNat 8 y) = true := by
  decide +kernel

theorem byte_bits (y : Byte) :
    (List.range 8).foldl (fun acc b => acc ^^^ (if y.toNat.testBit b then BitVec.ofNat 8 (2^b) else 0#8)) 0#8 = y := by
  have := List.all_eq_true.mp byte_bits_check y.toNat (List.mem_range.mpr y.isLt)
  simpa using this

theorem lin_single {f : Bytes → Bytes} (hf : Lin16 f) (i : Nat) (basis : Nat)
    (hb : ∀ b, b < 8 → f (single i (BitVec.ofNat 8 (2^b))) = bytes16 (basis >>> (128 * b))) (y : Byte) :
    f (single i y) = bytes16 (combine basis y.toNat) := by
  have key : ∀ (l : List Nat) (acc : Byte) (accN : Nat), (∀ b ∈ l, b < 8) → f (single i acc) = bytes16 accN →
      f (single i (l.foldl (fun acc b => acc ^^^ (if y.toNat.testBit b then BitVec.ofNat 8 (2^b) else 0#8)) acc)) =
      bytes16 (l.foldl (fun acc b => acc ^^^ (if y.toNat.testBit b then (basis >>> (128 * b)) % 2^128 else 0)) accN) := by
    intro l
    induction l with
    | nil => intro acc accN _ h; exact h
    | cons b l ih =>
      intro acc accN hl h
      simp only [List.foldl_cons]
      apply ih _ _ (fun c hc => hl c (by simp [hc]))
      rw [single_xor, hf.xor _ _ (by simp) (by simp), h, bytes16_xor]
      congr 1
      split
      · rw [bytes16_mod, hb b (hl b (by simp))]
      · rw [bytes16_zero]
        show f (single i 0) = _
        rw [single_zero, hf.zero]
  have := key (List.range 8) 0#8 0 (fun b h => List.mem_range.mp h) (by
    show f (single i 0) = _
    rw [single_zero, hf.zero, bytes16_zero])
  rw [byte_bits] at this
  exact this

theorem block_decomp (w : Bytes) (h : w.length = 16) :
    (List.range 16).foldl (fun acc j => xorB acc (single j (at_ w j))) (zeros 16) = w := by
  obtain ⟨b0, b1, b2, b3, b4, b5, b6, b7, b8, b9, b10, b11, b12, b13, b14, b15, rfl⟩ := list16 h
  simp [show List.range 16 = [0,1,2,3,4,5,6,7,8,9,10,11,12,13,14,15] from rfl, single, zeros, List.replicate_succ]

theorem lin_decomp {f : Bytes → Bytes} (hf : Lin16 f) (w : Bytes) (h : w.length = 16) :
    f w = (List.range 16).foldl (fun acc j => xorB acc (f (single j (at_ w j)))) (zeros 16) := by
  have key : ∀ (l : List Nat) (acc : Bytes), acc.length = 16 →
      f (l.foldl (fun acc j => xorB acc (single j (at_ w j))) acc) =
      l.foldl (fun acc j => xorB acc (f (single j (at_ w j)))) (f acc) := by
    intro l
    induction l with
    | nil => intro acc _; rfl
    | cons j l ih =>
      intro acc hacc
      simp only [List.foldl_cons]
      rw [ih _ (by simp [hacc]), hf.xor _ _ hacc (by simp)]
  have := key (List.range 16) (zeros 16) (by simp)
  rw [block_decomp w h, hf.zero] at this
  exact this

theorem L_single (i : Nat) (hi : i < 16) (y : Byte) : Kuz.L (single i y) = bytes16 (combine (lBasis i) y.toNat) := by
  apply lin_single L_lin
  intro b hb
  have := List.all_eq_true.mp (List.all_eq_true.mp lBasis_check i (List.mem_range.mpr hi)) b (List.mem_range.mpr hb)
  exact beq_iff_eq.mp this

theorem at_bytes16 (n j : Nat) (hj : j < 16) : at_ (bytes16 n) j = BitVec.ofNat 8 (n >>> (8 * j)) := by
  simp [bytes16, List.getD_eq_getElem?_getD, List.getElem?_map, List.getElem?_range hj]

theorem L_bytes16 (n : Nat) : Kuz.L (bytes16 n) = bytes16 (Lnat n) := by
  rw [lin_decomp L_lin _ (bytes16_length n)]
  unfold Lnat
  have key : ∀ (l : List Nat) (acc : Bytes) (accN : Nat), (∀ j ∈ l, j < 16) → acc = bytes16 accN →
      l.foldl (fun acc j => xorB acc (Kuz.L (single j (at_ (bytes16 n) j)))) acc =
      bytes16 (l.foldl (fun acc j => acc ^^^ combine (lBasis j) ((n >>> (8 * j)) % 256)) accN) := by
    intro l
    induction l with
    | nil => intro acc accN _ h; exact h
    | cons j l ih =>
      intro acc accN hl h
      simp only [List.foldl_cons]
      apply ih _ _ (fun c hc => hl c (by simp [hc]))
      rw [bytes16_xor, h, L_single j (hl j (by simp)), at_bytes16 n j (hl j (by simp))]
      simp
  exact key _ _ _ (fun j h => List.mem_range.mp h) bytes16_zero.symm

theorem single_pow_check : ((List.range 16).all fun i => (List.range 8).all fun b =>
    single i (BitVec.ofNat 8 (2^b)) == bytes16 (2^(8 * i + b))) = true := by
  decide +kernel

theorem l_inv_single (i : Nat) (hi : i < 16) (y : Byte) :
    grasshopper_l_inv (single i y) = bytes16 (combine (lInvBasis i) y.toNat) := by
  apply lin_single l_inv_lin
  intro b hb
  have h1 := beq_iff_eq.mp (List.all_eq_true.mp (List.all_eq_true.mp lInvBasis_check i (List.mem_range.mpr hi)) b
    (List.mem_range.mpr hb))
  have h2 := beq_iff_eq.mp (List.all_eq_true.mp (List.all_eq_true.mp single_pow_check i (List.mem_range.mpr hi)) b
    (List.mem_range.mpr hb))
  have h3 := L_bytes16 ((lInvBasis i >>> (128 * b)) % 2^128)
  rw [h1, bytes16_mod, ← h2] at h3
  rw [← h3, l_inv_L _ (bytes16_length _)]

/-! ## The tables -/

theorem tab8_toNat (p x : Nat) : (tab8 p x).toNat = (p >>> (8 * x)) % 256 := by simp [tab8]

theorem pil_enc_eq (i : Nat) (hi : i < 16) (x : Byte) :
    grasshopper_pil_enc128 i x = Kuz.L (single i (grasshopper_pi x)) := by
  rw [L_single i hi, grasshopper_pi, tab8_toNat, grasshopper_pil_enc128, tab128_eq, ← bytes16_mod]
  congr 1
  exact beq_iff_eq.mp (List.all_eq_true.mp (List.all_eq_true.mp pil_enc_check i (List.mem_range.mpr hi)) x.toNat
    (List.mem_range.mpr x.isLt))

theorem pil_dec_eq (i : Nat) (hi : i < 16) (x : Byte) :
    grasshopper_pil_dec128 i x = grasshopper_l_inv (single i (grasshopper_pi_inv x)) := by
  rw [l_inv_single i hi, grasshopper_pi_inv, tab8_toNat, grasshopper_pil_dec128, tab128_eq, ← bytes16_mod]
  congr 1
  exact beq_iff_eq.mp (List.all_eq_true.mp (List.all_eq_true.mp pil_dec_check i (List.mem_range.mpr hi)) x.toNat
    (List.mem_range.mpr x.isLt))

theorem l_dec_eq (i : Nat) (hi : i < 16) (x : Byte) :
    grasshopper_l_dec128 i x = grasshopper_l_inv (single i x) := by
  rw [l_inv_single i hi, grasshopper_l_dec128, tab128_eq, ← bytes16_mod]
  congr 1
  exact beq_iff_eq.mp (List.all_eq_true.mp (List.all_eq_true.mp l_dec_check i (List.mem_range.mpr hi)) x.toNat
    (List.mem_range.mpr x.isLt))

theorem append128multi_eq {f : Bytes → Bytes} (hf : Lin16 f) (s : Byte → Byte) (T : Nat → Byte → Bytes)
    (hT : ∀ i, i < 16 → ∀ x, T i x = f (single i (s x))) (w : Bytes) (h : w.length = 16) :
    grasshopper_append128multi w T = f (w.map s) := by
  rw [lin_decomp hf _ (by simpa using h), grasshopper_append128multi]
  apply List.foldl_ext
  intro acc j hj
  have hj' := List.mem_range.mp hj
  rw [hT j hj']
  congr 3
  simp [List.getD_eq_getElem?_getD, List.getElem?_map, List.getElem?_eq_getElem (show j < w.length by omega)]

theorem pi_check : ((List.range 256).all fun x =>
    grasshopper_pi_inv (grasshopper_pi (BitVec.ofNat 8 x)) == BitVec.ofNat 8 x &&
    (grasshopper_pi (grasshopper_pi_inv (BitVec.ofNat 8 x)) == BitVec.ofNat 8 x &&
     grasshopper_pi (BitVec.ofNat 8 x) == Kuz.pi (BitVec.ofNat 8 x))) = true := by
  decide +kernel

theorem pi_spec (x : Byte) : grasshopper_pi_inv (grasshopper_pi x) = x ∧
    grasshopper_pi (grasshopper_pi_inv x) = x ∧ grasshopper_pi x = Kuz.pi x := by
  have := List.all_eq_true.mp pi_check x.toNat (List.mem_range.mpr x.isLt)
  simpa using this

end Gost
