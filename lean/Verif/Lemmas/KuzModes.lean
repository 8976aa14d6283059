import Verif.Model.KuzModes
import Verif.Lemmas.Kuznyechik
import Verif.Lemmas.BlockModes

/-! # Kuznyechik modes: basic facts and the refinement proofs for CTR and CTR-ACPKM -/

namespace Gost
open Spec

@[simp] theorem copyN_length (n : Nat) (b : Bytes) : (copyN n b).length = n := by simp [copyN]

theorem copyN_self {n : Nat} {b : Bytes} (h : b.length = n) : copyN n b = b := by
  subst h
  apply List.ext_getElem
  · simp
  · intro i h1 h2
    simp [copyN, List.getD_eq_getElem?_getD, List.getElem?_eq_getElem h2]

theorem append128multi_length (w : Bytes) (T : Nat → Byte → Bytes) (hT : ∀ i x, (T i x).length = 16) :
    (grasshopper_append128multi w T).length = 16 := by
  unfold grasshopper_append128multi
  have : ∀ (l : List Nat) (acc : Bytes), acc.length = 16 →
      (l.foldl (fun result i => xorB result (T i (at_ w i))) acc).length = 16 := by
    intro l
    induction l with
    | nil => intro acc h; exact h
    | cons i l ih => intro acc h; exact ih _ (by simp [h, hT])
  exact this _ _ (by simp [zeros])

@[simp] theorem EKuz_length (k b : Bytes) : (EKuz k b).length = 16 := by
  rw [EKuz_def, encrypt_block_unfold _ (fun i hi => set_encrypt_key_length _ (by simp) i hi) _ (by simp)]
  have hs := fun i (hi : i < 10) => set_encrypt_key_length (copyN 32 k) (by simp) i hi
  have l0 := encR_length _ _ (hs 0 (by decide)) (copyN_length 16 b)
  have l1 := encR_length _ _ (hs 1 (by decide)) l0
  have l2 := encR_length _ _ (hs 2 (by decide)) l1
  have l3 := encR_length _ _ (hs 3 (by decide)) l2
  have l4 := encR_length _ _ (hs 4 (by decide)) l3
  have l5 := encR_length _ _ (hs 5 (by decide)) l4
  have l6 := encR_length _ _ (hs 6 (by decide)) l5
  have l7 := encR_length _ _ (hs 7 (by decide)) l6
  have l8 := encR_length _ _ (hs 8 (by decide)) l7
  rw [xorB_length, l8, hs 9 (by decide)]; rfl

theorem DKuz_length (k b : Bytes) : (DKuz k b).length = 16 := by
  have hs := fun i (hi : i < 10) => set_encrypt_key_length (copyN 32 k) (by simp) i hi
  rw [DKuz_def, decrypt_block_unfold (grasshopper_set_encrypt_key (copyN 32 k)) _ hs
      (by intro i h1 h2; simp [grasshopper_set_decrypt_key, h1, h2]) (by simp [grasshopper_set_decrypt_key]) _ (by simp)]
  have l9 := decR_length _ _ (hs 9 (by decide)) (l_inv_length _ (copyN_length 16 b))
  have l8 := decR_length _ _ (hs 8 (by decide)) l9
  have l7 := decR_length _ _ (hs 7 (by decide)) l8
  have l6 := decR_length _ _ (hs 6 (by decide)) l7
  have l5 := decR_length _ _ (hs 5 (by decide)) l6
  have l4 := decR_length _ _ (hs 4 (by decide)) l5
  have l3 := decR_length _ _ (hs 3 (by decide)) l4
  have l2 := decR_length _ _ (hs 2 (by decide)) l3
  simp only [xorB_length, List.length_map, l2, l_inv_length _ (hs 1 (by decide)), hs 0 (by decide)]
  rfl

theorem DKuz_EKuz (k b : Bytes) (hb : b.length = 16) : DKuz k (EKuz k b) = b := by
  have h := EKuz_length k b
  rw [DKuz_def, copyN_self h, EKuz_def, copyN_self hb]
  exact kuz_key_dec_enc _ _ (by simp) hb

theorem EKuz_DKuz (k b : Bytes) (hb : b.length = 16) : EKuz k (DKuz k b) = b := by
  have h := DKuz_length k b
  rw [EKuz_def, copyN_self h, DKuz_def, copyN_self hb]
  exact kuz_key_enc_dec _ _ (by simp) hb

/-- `EKuz` is the standard's cipher. -/
theorem EKuz_standard (k b : Bytes) (hk : k.length = 32) (hb : b.length = 16) : EKuz k b = Kuz.encrypt k b := by
  rw [EKuz_def, copyN_self hk, copyN_self hb, kuz_encrypt_eq k b hk hb]

/-- The round keys in the context belong to the key in the context. -/
structure KOk (c : KCtx) : Prop where
  ek : c.encrypt_round_keys = grasshopper_set_encrypt_key c.key
  dk : c.decrypt_round_keys = grasshopper_set_decrypt_key c.key
  len : c.key.length = 32

theorem KOk.enc {c : KCtx} (h : KOk c) (b : Bytes) (hb : b.length = 16) :
    grasshopper_encrypt_block c.encrypt_round_keys b = EKuz c.key b := by
  rw [h.ek, EKuz_def, copyN_self h.len, copyN_self hb]

theorem KOk.dec {c : KCtx} (h : KOk c) (b : Bytes) (hb : b.length = 16) :
    grasshopper_decrypt_block c.decrypt_round_keys b = DKuz c.key b := by
  rw [h.dk, DKuz_def, copyN_self h.len, copyN_self hb]

theorem KOk_cipher_key (c : KCtx) (k : Bytes) : KOk (gost_grasshopper_cipher_key c k) := ⟨rfl, rfl, by simp [gost_grasshopper_cipher_key]⟩

theorem acpkmConst16 : blocks 16 acpkmConst = [copyN 16 (KUZ_ACPKM_D_2018.drop (0 * 16)), copyN 16 (KUZ_ACPKM_D_2018.drop (1 * 16))] := by
  have : acpkmConst = [copyN 16 (KUZ_ACPKM_D_2018.drop (0 * 16)), copyN 16 (KUZ_ACPKM_D_2018.drop (1 * 16))].flatten := by
    decide
  rw [this, blocks_of_flatten 16 (by decide)]
  simp

theorem acpkm_next_key {c : KCtx} (h : KOk c) : (acpkm_next c).key = Spec.acpkm 16 EKuz c.key := by
  have e : Spec.acpkm 16 EKuz c.key = EKuz c.key (copyN 16 (KUZ_ACPKM_D_2018.drop (0 * 16))) ++
      EKuz c.key (copyN 16 (KUZ_ACPKM_D_2018.drop (1 * 16))) := by
    rw [Spec.acpkm, ecb, acpkmConst16]; simp
  rw [e, acpkm_next]
  simp only [gost_grasshopper_cipher_key]
  rw [show List.range 2 = [0, 1] from rfl]
  simp only [List.foldl_cons, List.foldl_nil, List.nil_append]
  rw [h.enc _ (by simp), h.enc _ (by simp), copyN_self (by simp)]

end Gost
