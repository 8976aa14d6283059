import Verif.Lemmas.Kuznyechik

/-!
# Properties of the Kuznyechik block cipher (C05, C06)

Specification: `Spec/Kuznyechik.lean` (transcribed from GOST R 34.12-2015) and `Spec/GFPoly.lean`.
-/

namespace Gost
open Spec

/-- The key of GOST R 34.12-2015, appendix A.1. -/
def kuzSampleKey : Bytes :=
  [0x88,0x99,0xaa,0xbb,0xcc,0xdd,0xee,0xff,0x00,0x11,0x22,0x33,0x44,0x55,0x66,0x77,
   0xfe,0xdc,0xba,0x98,0x76,0x54,0x32,0x10,0x01,0x23,0x45,0x67,0x89,0xab,0xcd,0xef]

/-- The plaintext block of GOST R 34.12-2015, appendix A.1. -/
def kuzSampleBlock : Bytes :=
  [0x11,0x22,0x33,0x44,0x55,0x66,0x77,0x00,0xff,0xee,0xdd,0xcc,0xbb,0xaa,0x99,0x88]

/-- **C05** For every 32-byte key and every 16-byte block, the table-driven decryption with the decryption
schedule inverts the table-driven encryption with the encryption schedule, and conversely. -/
theorem C05_kuznyechik_block_inverse (key block : Bytes) (hk : key.length = 32) (hb : block.length = 16) :
    grasshopper_decrypt_block (grasshopper_set_decrypt_key key)
        (grasshopper_encrypt_block (grasshopper_set_encrypt_key key) block) = block ∧
    grasshopper_encrypt_block (grasshopper_set_encrypt_key key)
        (grasshopper_decrypt_block (grasshopper_set_decrypt_key key) block) = block :=
  ⟨kuz_key_dec_enc key block hk hb, kuz_key_enc_dec key block hk hb⟩

/-- The hypotheses of C05 are met, ... -/
example : kuzSampleKey.length = 32 ∧ kuzSampleBlock.length = 16 := by decide

set_option maxRecDepth 100000 in
/-- ... and the cipher on that case gives the standard's ciphertext (read as a big-endian number). -/
example : Nat.beq
    ((grasshopper_encrypt_block (grasshopper_set_encrypt_key kuzSampleKey) kuzSampleBlock).foldl
      (fun a b => a * 256 + b.toNat) 0)
    0x7f679d90bebc24305a468d42b9d4edcd = true := by
  decide +kernel

/-- **C05** Distinct blocks have distinct ciphertexts, and every 16-byte block is a ciphertext. -/
theorem C05_kuznyechik_permutation (key : Bytes) (hk : key.length = 32) :
    (∀ a b : Bytes, a.length = 16 → b.length = 16 →
      grasshopper_encrypt_block (grasshopper_set_encrypt_key key) a =
        grasshopper_encrypt_block (grasshopper_set_encrypt_key key) b → a = b) ∧
    (∀ c : Bytes, c.length = 16 → ∃ b : Bytes, b.length = 16 ∧
      grasshopper_encrypt_block (grasshopper_set_encrypt_key key) b = c) := by
  refine ⟨fun a b ha hb h => ?_, fun c hc => ⟨_, ?_, kuz_key_enc_dec key c hk hc⟩⟩
  · rw [← kuz_key_dec_enc key a hk ha, h, kuz_key_dec_enc key b hk hb]
  · have hs := fun i (h : i < 10) => set_encrypt_key_length key hk i h
    rw [decrypt_block_unfold (grasshopper_set_encrypt_key key) _ hs
      (by intro i h1 h2; simp [grasshopper_set_decrypt_key, h1, h2]) (by simp [grasshopper_set_decrypt_key]) c hc]
    have l9 := decR_length _ _ (hs 9 (by decide)) (l_inv_length c hc)
    have l8 := decR_length _ _ (hs 8 (by decide)) l9
    have l7 := decR_length _ _ (hs 7 (by decide)) l8
    have l6 := decR_length _ _ (hs 6 (by decide)) l7
    have l5 := decR_length _ _ (hs 5 (by decide)) l6
    have l4 := decR_length _ _ (hs 4 (by decide)) l5
    have l3 := decR_length _ _ (hs 3 (by decide)) l4
    have l2 := decR_length _ _ (hs 2 (by decide)) l3
    simp only [xorB_length, List.length_map, l2, l_inv_length _ (hs 1 (by decide)), hs 0 (by decide)]
    rfl

/-- **C06** The S-box table is the standard's π', and the inverse table is its two-sided inverse. -/
theorem C06_pi_tables (x : Byte) :
    grasshopper_pi x = Kuz.pi x ∧ Kuz.pi (grasshopper_pi_inv x) = x ∧ grasshopper_pi_inv (Kuz.pi x) = x := by
  obtain ⟨h1, h2, h3⟩ := pi_spec x
  refine ⟨h3, ?_, h3 ▸ h1⟩
  rw [← (pi_spec (grasshopper_pi_inv x)).2.2]; exact h2

/-- **C06** Every entry of the encryption table is `L` of the block that is zero except for `π'(x)` at
position `i`. -/
theorem C06_encryption_table (i : Nat) (hi : i < 16) (x : Byte) :
    grasshopper_pil_enc128 i x = Kuz.L ((List.replicate 16 0).set i (Kuz.pi x)) := by
  rw [pil_enc_eq i hi x, (pi_spec x).2.2]; rfl

/-- **C06** Every entry of the decryption table is the unique 16-byte block that `L` takes to the block
that is zero except, at position `i`, for the byte that `π'` takes to `x`. -/
theorem C06_decryption_table (i : Nat) (hi : i < 16) (x : Byte) :
    ∃ y : Byte, Kuz.pi y = x ∧ ∀ b : Bytes, b.length = 16 →
      (b = grasshopper_pil_dec128 i x ↔ Kuz.L b = (List.replicate 16 0).set i y) := by
  refine ⟨grasshopper_pi_inv x, (C06_pi_tables x).2.1, fun b hb => ?_⟩
  rw [pil_dec_eq i hi x]
  constructor
  · intro h; rw [h, L_l_inv _ (by simp)]; rfl
  · intro h
    rw [← l_inv_L b hb, h]; rfl

/-- **C06** Every entry of the `l_dec` table is the unique block that `L` takes to the block that is zero
except for `x` at position `i`. -/
theorem C06_linv_table (i : Nat) (hi : i < 16) (x : Byte) (b : Bytes) (hb : b.length = 16) :
    b = grasshopper_l_dec128 i x ↔ Kuz.L b = (List.replicate 16 0).set i x := by
  rw [l_dec_eq i hi x]
  constructor
  · intro h; rw [h, L_l_inv _ (by simp)]; rfl
  · intro h
    rw [← l_inv_L b hb, h]; rfl

/-- **C06** The tables have rows of length 16 (so the previous two statements are about the entries). -/
theorem C06_table_lengths (i : Nat) (x : Byte) :
    (grasshopper_pil_enc128 i x).length = 16 ∧ (grasshopper_pil_dec128 i x).length = 16 ∧
    (grasshopper_l_dec128 i x).length = 16 := by
  simp [grasshopper_pil_enc128, grasshopper_pil_dec128, grasshopper_l_dec128, tab128]

/-- **C06** The table-driven round is the standard's LSX; the table-driven inverse rounds undo `L`, and `LS`. -/
theorem C06_table_rounds (k w : Bytes) (hk : k.length = 16) (hw : w.length = 16) :
    grasshopper_append128multi (xorB w k) grasshopper_pil_enc128 = Kuz.LSX k w ∧
    Kuz.L (grasshopper_append128multi w grasshopper_l_dec128) = w ∧
    Kuz.S (Kuz.L (grasshopper_append128multi w grasshopper_pil_dec128)) = w := by
  refine ⟨?_, ?_, ?_⟩
  · rw [enc_round_eq _ (by simp [hk, hw]), sB_eq, Kuz.LSX, Kuz.X, spec_xor_eq, xorB_comm]
  · rw [l_dec_round_eq w hw, L_l_inv w hw]
  · rw [dec_round_eq w hw, L_l_inv _ (by simp [hw]), ← sB_eq, s_sInv]

/-- **C06** The log/antilog multiplication is multiplication of polynomials over GF(2) modulo
x^8 + x^7 + x^6 + x + 1. -/
theorem C06_galois_mul_is_polynomial_mul (x y : Byte) :
    toPoly (grasshopper_galois_mul x y) = (toPoly x * toPoly y) %ₘ
      (Polynomial.X ^ 8 + Polynomial.X ^ 7 + Polynomial.X ^ 6 + Polynomial.X + 1) := by
  rw [galois_mul_eq, gfMul_poly (by decide)]
  congr 1
  have : toPoly 0xC3#8 = Polynomial.X ^ 7 + Polynomial.X ^ 6 + Polynomial.X + 1 := by
    simp only [toPoly, Finset.sum_range_succ, Finset.sum_range_zero]
    simp only [show (0xC3#8).getLsbD 0 = true by decide, show (0xC3#8).getLsbD 1 = true by decide,
      show (0xC3#8).getLsbD 2 = false by decide, show (0xC3#8).getLsbD 3 = false by decide,
      show (0xC3#8).getLsbD 4 = false by decide, show (0xC3#8).getLsbD 5 = false by decide,
      show (0xC3#8).getLsbD 6 = true by decide, show (0xC3#8).getLsbD 7 = true by decide]
    simp
    ring
  rw [modulus, this]
  ring

/-- **C06** The byte-wise `L` of the code is the standard's, and the code's `L⁻¹` inverts it both ways. -/
theorem C06_linear_transform (w : Bytes) (hw : w.length = 16) :
    grasshopper_l w = Kuz.L w ∧ Kuz.L (grasshopper_l_inv w) = w ∧ grasshopper_l_inv (Kuz.L w) = w :=
  ⟨grasshopper_l_eq w hw, L_l_inv w hw, l_inv_L w hw⟩

/-- **C06** The key schedule computes the standard's iteration keys K_1..K_10. -/
theorem C06_key_schedule (key : Bytes) (hk : key.length = 32) (n : Nat) (h1 : 1 ≤ n) (h2 : n ≤ 10) :
    grasshopper_set_encrypt_key key (n - 1) = Kuz.K key n := by
  rw [set_encrypt_key_eq key hk (n - 1) (by omega), Nat.sub_add_cancel h1]

/-- **C06** The whole block encryption is the standard's. -/
theorem C06_encryption_is_standard (key b : Bytes) (hk : key.length = 32) (hb : b.length = 16) :
    grasshopper_encrypt_block (grasshopper_set_encrypt_key key) b = Kuz.encrypt key b :=
  kuz_encrypt_eq key b hk hb

/-- Non-vacuity: a table entry and a product that are not zero. -/
example : grasshopper_pil_enc128 3 0x57 ≠ List.replicate 16 0 ∧ grasshopper_galois_mul 0x57 0x83 ≠ 0 := by
  decide +kernel

end Gost
