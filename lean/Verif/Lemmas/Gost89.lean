import Verif.Model.Gost89
import Verif.Lemmas.Basic

namespace Gost

/-! ### loads and stores -/

theorem load_storeLE (a b : W32) : loadLE (storeLE a b) = (a, b) := by
  simp [loadLE, storeLE, at_, le32_byteOf]

theorem load_storeBE (a b : W32) : loadBE (storeBE a b) = (a, b) := by
  simp [loadBE, storeBE, at_, le32_byteOf]

theorem store_loadLE (b : Bytes) (h : b.length = 8) : storeLE (loadLE b).1 (loadLE b).2 = b := by
  obtain ⟨b0, b1, b2, b3, b4, b5, b6, b7, rfl⟩ := list8 h
  have h1 := byteOf_le32 b0 b1 b2 b3
  have h2 := byteOf_le32 b4 b5 b6 b7
  simp [loadLE, storeLE, at_, h1, h2]

theorem store_loadBE (b : Bytes) (h : b.length = 8) : storeBE (loadBE b).1 (loadBE b).2 = b := by
  obtain ⟨b0, b1, b2, b3, b4, b5, b6, b7, rfl⟩ := list8 h
  have h1 := byteOf_le32 b7 b6 b5 b4
  have h2 := byteOf_le32 b3 b2 b1 b0
  simp [loadBE, storeBE, at_, h1, h2]

@[simp] theorem storeLE_length (a b : W32) : (storeLE a b).length = 8 := rfl
@[simp] theorem storeBE_length (a b : W32) : (storeBE a b).length = 8 := rfl
@[simp] theorem gostcrypt_length (c : Ctx) (b : Bytes) : (gostcrypt c b).length = 8 := rfl
@[simp] theorem gostdecrypt_length (c : Ctx) (b : Bytes) : (gostdecrypt c b).length = 8 := rfl
@[simp] theorem magmacrypt_length (c : Ctx) (b : Bytes) : (magmacrypt c b).length = 8 := rfl
@[simp] theorem magmadecrypt_length (c : Ctx) (b : Bytes) : (magmadecrypt c b).length = 8 := rfl
@[simp] theorem mac_block_length (c : Ctx) (b d : Bytes) : (mac_block c b d).length = 8 := rfl

/-! ### Feistel inversion -/

theorem round2_inv (c : Ctx) (s : W32 × W32) (ij : Fin 8 × Fin 8) :
    round2 c (round2 c s ij).swap ij.swap = s.swap := by
  obtain ⟨n1, n2⟩ := s
  obtain ⟨i, j⟩ := ij
  simp [round2, Prod.swap, BitVec.xor_assoc]

theorem rounds_inv (c : Ctx) (ks : List (Fin 8 × Fin 8)) (s : W32 × W32) :
    (ks.reverse.map Prod.swap).foldl (round2 c) (ks.foldl (round2 c) s).swap = s.swap := by
  induction ks generalizing s with
  | nil => rfl
  | cons k ks ih =>
    simp only [List.foldl_cons, List.reverse_cons, List.map_append, List.map_cons, List.map_nil,
      List.foldl_append, List.foldl_nil]
    rw [ih, round2_inv]

theorem decSched_eq : decSched = encSched.reverse.map Prod.swap := by decide
theorem encSched_eq : encSched = decSched.reverse.map Prod.swap := by decide

theorem gost_dec_enc (c : Ctx) (b : Bytes) (h : b.length = 8) :
    gostdecrypt c (gostcrypt c b) = b := by
  unfold gostdecrypt gostcrypt
  simp only [load_storeLE]
  have := rounds_inv c encSched (loadLE b)
  rw [← decSched_eq, Prod.swap] at this
  rw [this]
  exact store_loadLE b h

theorem gost_enc_dec (c : Ctx) (b : Bytes) (h : b.length = 8) :
    gostcrypt c (gostdecrypt c b) = b := by
  unfold gostdecrypt gostcrypt
  simp only [load_storeLE]
  have := rounds_inv c decSched (loadLE b)
  rw [← encSched_eq, Prod.swap] at this
  rw [this]
  exact store_loadLE b h

theorem magma_dec_enc (c : Ctx) (b : Bytes) (h : b.length = 8) :
    magmadecrypt c (magmacrypt c b) = b := by
  unfold magmadecrypt magmacrypt
  simp only [load_storeBE]
  have := rounds_inv c encSched (loadBE b)
  rw [← decSched_eq, Prod.swap] at this
  rw [this]
  exact store_loadBE b h

theorem magma_enc_dec (c : Ctx) (b : Bytes) (h : b.length = 8) :
    magmacrypt c (magmadecrypt c b) = b := by
  unfold magmadecrypt magmacrypt
  simp only [load_storeBE]
  have := rounds_inv c decSched (loadBE b)
  rw [← encSched_eq, Prod.swap] at this
  rw [this]
  exact store_loadBE b h

/-! ### Only the effective key matters -/

/-- Two contexts are equivalent when they have the same tables and the same
effective round keys `key[i] + mask[i]` (masks and future random numbers may differ). -/
def CtxEq (c d : Ctx) : Prop := c.box = d.box ∧ ∀ i, c.key i + c.mask i = d.key i + d.mask i

theorem CtxEq.refl (c : Ctx) : CtxEq c c := ⟨rfl, fun _ => rfl⟩
theorem CtxEq.symm {c d : Ctx} (h : CtxEq c d) : CtxEq d c := ⟨h.1.symm, fun i => (h.2 i).symm⟩
theorem CtxEq.trans {c d e : Ctx} (h : CtxEq c d) (h' : CtxEq d e) : CtxEq c e :=
  ⟨h.1.trans h'.1, fun i => (h.2 i).trans (h'.2 i)⟩

theorem round2_congr {c d : Ctx} (h : CtxEq c d) : round2 c = round2 d := by
  funext s ij
  simp [round2, BitVec.add_assoc, h.1, h.2]

theorem gostcrypt_congr {c d : Ctx} (h : CtxEq c d) : gostcrypt c = gostcrypt d := by
  funext b; simp [gostcrypt, round2_congr h]
theorem gostdecrypt_congr {c d : Ctx} (h : CtxEq c d) : gostdecrypt c = gostdecrypt d := by
  funext b; simp [gostdecrypt, round2_congr h]
theorem magmacrypt_congr {c d : Ctx} (h : CtxEq c d) : magmacrypt c = magmacrypt d := by
  funext b; simp [magmacrypt, round2_congr h]
theorem magmadecrypt_congr {c d : Ctx} (h : CtxEq c d) : magmadecrypt c = magmadecrypt d := by
  funext b; simp [magmadecrypt, round2_congr h]
theorem mac_block_congr {c d : Ctx} (h : CtxEq c d) : mac_block c = mac_block d := by
  funext b e; simp [mac_block, round2_congr h]

theorem gost_dec_congr {c d : Ctx} (h : CtxEq c d) (b : Bytes) (n : Nat) :
    gost_dec c b n = gost_dec d b n := by
  induction n generalizing b with
  | zero => rfl
  | succ n ih => simp [gost_dec, gostdecrypt_congr h, ih]

theorem gost_enc_congr {c d : Ctx} (h : CtxEq c d) (b : Bytes) (n : Nat) :
    gost_enc c b n = gost_enc d b n := by
  induction n generalizing b with
  | zero => rfl
  | succ n ih => simp [gost_enc, gostcrypt_congr h, ih]

theorem gost_key_congr {c d : Ctx} (h : c.box = d.box) (k : Bytes) :
    CtxEq (gost_key c k) (gost_key d k) := by
  refine ⟨?_, fun i => ?_⟩
  · simpa [gost_key, gost_key_impl, drawMask] using h
  · simp [gost_key, gost_key_impl, BitVec.sub_add_cancel]

theorem gost_key_nomask_congr {c d : Ctx} (h : c.box = d.box) (k : Bytes) :
    CtxEq (gost_key_nomask c k) (gost_key d k) := by
  refine ⟨?_, fun i => ?_⟩
  · simpa [gost_key_nomask, gost_key, gost_key_impl, drawMask] using h
  · simp [gost_key_nomask, gost_key, gost_key_impl, BitVec.sub_add_cancel]

theorem magma_key_congr {c d : Ctx} (h : c.box = d.box) (k : Bytes) :
    CtxEq (magma_key c k) (magma_key d k) := by
  refine ⟨?_, fun i => ?_⟩
  · simpa [magma_key, drawMask] using h
  · simp [magma_key, BitVec.sub_add_cancel]

theorem meshing_congr {c d : Ctx} (h : CtxEq c d) (iv : Bytes) :
    CtxEq (cryptopro_key_meshing c iv).1 (cryptopro_key_meshing d iv).1 ∧
    (cryptopro_key_meshing c iv).2 = (cryptopro_key_meshing d iv).2 := by
  have h1 : CtxEq (cryptopro_key_meshing c iv).1 (cryptopro_key_meshing d iv).1 := by
    simp only [cryptopro_key_meshing, gost_dec_congr h]
    exact gost_key_congr h.1 _
  refine ⟨h1, ?_⟩
  have := congrFun (gostcrypt_congr h1) iv
  simpa [cryptopro_key_meshing] using this

theorem meshing_noiv_congr {c d : Ctx} (h : CtxEq c d) :
    CtxEq (cryptopro_key_meshing_noiv c) (cryptopro_key_meshing_noiv d) := by
  simp only [cryptopro_key_meshing_noiv, gost_dec_congr h]
  exact gost_key_congr h.1 _

theorem acpkm_magma_congr {c d : Ctx} (h : CtxEq c d) :
    CtxEq (acpkm_magma_key_meshing c) (acpkm_magma_key_meshing d) := by
  simp only [acpkm_magma_key_meshing, magmacrypt_congr h]
  exact magma_key_congr h.1 _

/-! ### Key read-back -/

theorem list32_flat (k : Bytes) (h : k.length = 32) :
    ((List.finRange 8).flatMap fun i : Fin 8 =>
      [at_ k (4*i.val), at_ k (4*i.val+1), at_ k (4*i.val+2), at_ k (4*i.val+3)]) = k := by
  apply List.ext_getElem
  · simp [h]; rfl
  · intro i h1 h2
    have hl : i < 32 := by omega
    match k, h with
    | [k0,k1,k2,k3,k4,k5,k6,k7,k8,k9,k10,k11,k12,k13,k14,k15,k16,k17,k18,k19,k20,k21,k22,k23,k24,
        k25,k26,k27,k28,k29,k30,k31], _ => rfl

theorem gost_get_key_set (c : Ctx) (k : Bytes) (h : k.length = 32) :
    gost_get_key (gost_key c k) = k := by
  conv => rhs; rw [← list32_flat k h]
  unfold gost_get_key
  congr 1; funext i
  have := byteOf_le32 (at_ k (4*i.val)) (at_ k (4*i.val+1)) (at_ k (4*i.val+2)) (at_ k (4*i.val+3))
  simp only [gost_key, gost_key_impl, BitVec.sub_add_cancel, this]

theorem magma_get_key_set (c : Ctx) (k : Bytes) (h : k.length = 32) :
    magma_get_key (magma_key c k) = k := by
  conv => rhs; rw [← list32_flat k h]
  unfold magma_get_key
  congr 1; funext i
  have := byteOf_le32 (at_ k (4*i.val+3)) (at_ k (4*i.val+2)) (at_ k (4*i.val+1)) (at_ k (4*i.val))
  simp only [magma_key, BitVec.sub_add_cancel, this]

/-! ### Multi-block helpers -/

theorem gost_enc_length (c : Ctx) (b : Bytes) (n : Nat) : (gost_enc c b n).length = 8 * n := by
  induction n generalizing b with
  | zero => rfl
  | succ n ih => simp [gost_enc, ih]; omega

theorem gost_dec_length (c : Ctx) (b : Bytes) (n : Nat) : (gost_dec c b n).length = 8 * n := by
  induction n generalizing b with
  | zero => rfl
  | succ n ih => simp [gost_dec, ih]; omega

theorem gost_dec_gost_enc (c : Ctx) (n : Nat) (b : Bytes) (h : b.length = 8 * n) :
    gost_dec c (gost_enc c b n) n = b := by
  induction n generalizing b with
  | zero => simp only [gost_dec]; exact (List.length_eq_zero_iff.mp (by simpa using h)).symm
  | succ n ih =>
    simp only [gost_enc, gost_dec]
    rw [List.take_left' (by simp), List.drop_left' (by simp), gost_dec_enc _ _ (by simp; omega),
      ih _ (by simp; omega), List.take_append_drop]

theorem gost_enc_gost_dec (c : Ctx) (n : Nat) (b : Bytes) (h : b.length = 8 * n) :
    gost_enc c (gost_dec c b n) n = b := by
  induction n generalizing b with
  | zero => simp only [gost_enc]; exact (List.length_eq_zero_iff.mp (by simpa using h)).symm
  | succ n ih =>
    simp only [gost_enc, gost_dec]
    rw [List.take_left' (by simp), List.drop_left' (by simp), gost_enc_dec _ _ (by simp; omega),
      ih _ (by simp; omega), List.take_append_drop]

theorem gost_dec_cfb_gost_enc_cfb (c : Ctx) (n : Nat) (iv b : Bytes) (h : b.length = 8 * n) :
    gost_dec_cfb c iv (gost_enc_cfb c iv b n) n = b := by
  induction n generalizing b iv with
  | zero => simp only [gost_dec_cfb]; exact (List.length_eq_zero_iff.mp (by simpa using h)).symm
  | succ n ih =>
    simp only [gost_enc_cfb, gost_dec_cfb]
    have hl : (xorB (b.take 8) (gostcrypt c iv)).length = 8 := by simp; omega
    rw [List.take_left' hl, List.drop_left' hl, xorB_xorB_cancel _ _ (by simp; omega),
      ih _ _ (by simp; omega), List.take_append_drop]

end Gost
