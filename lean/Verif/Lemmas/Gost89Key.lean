import Verif.Lemmas.Gost89
import Verif.Model.Gost89Keyed
import Verif.Lemmas.Loops

/-! # The block functions seen as functions of the 32-byte key held in a context -/

namespace Gost
open Spec

theorem finRange8 : List.finRange 8 = [0, 1, 2, 3, 4, 5, 6, 7] := by decide

theorem gost_get_key_word (c : Ctx) (i : Fin 8) :
    le32 (at_ (gost_get_key c) (4*i.val)) (at_ (gost_get_key c) (4*i.val+1))
      (at_ (gost_get_key c) (4*i.val+2)) (at_ (gost_get_key c) (4*i.val+3)) = c.key i + c.mask i := by
  unfold gost_get_key
  rw [finRange8]
  match i with
  | 0 | 1 | 2 | 3 | 4 | 5 | 6 | 7 => exact le32_byteOf _

theorem magma_get_key_word (c : Ctx) (i : Fin 8) :
    le32 (at_ (magma_get_key c) (4*i.val+3)) (at_ (magma_get_key c) (4*i.val+2))
      (at_ (magma_get_key c) (4*i.val+1)) (at_ (magma_get_key c) (4*i.val)) = c.key i + c.mask i := by
  unfold magma_get_key
  rw [finRange8]
  match i with
  | 0 | 1 | 2 | 3 | 4 | 5 | 6 | 7 => exact le32_byteOf _

theorem ctxEq_keyCtx (c : Ctx) : CtxEq c (keyCtx c.box (gost_get_key c)) := by
  refine ⟨rfl, fun i => ?_⟩
  simp only [keyCtx, gost_key_nomask, gost_key_impl, BitVec.sub_add_cancel, gost_get_key_word]

theorem ctxEq_magmaKeyCtx (c : Ctx) : CtxEq c (magmaKeyCtx c.box (magma_get_key c)) := by
  refine ⟨rfl, fun i => ?_⟩
  simp only [magmaKeyCtx, magma_key, BitVec.sub_add_cancel, magma_get_key_word]

theorem gostcrypt_eq (c : Ctx) : gostcrypt c = E89 c.box (gost_get_key c) := by
  funext b; unfold E89; rw [gostcrypt_congr (ctxEq_keyCtx c)]
theorem gostdecrypt_eq (c : Ctx) : gostdecrypt c = D89 c.box (gost_get_key c) := by
  funext b; unfold D89; rw [gostdecrypt_congr (ctxEq_keyCtx c)]
theorem magmacrypt_eq (c : Ctx) : magmacrypt c = EMagma c.box (magma_get_key c) := by
  funext b; unfold EMagma; rw [magmacrypt_congr (ctxEq_magmaKeyCtx c)]
theorem magmadecrypt_eq (c : Ctx) : magmadecrypt c = DMagma c.box (magma_get_key c) := by
  funext b; unfold DMagma; rw [magmadecrypt_congr (ctxEq_magmaKeyCtx c)]

@[simp] theorem E89_length (box : KBox) (k b : Bytes) : (E89 box k b).length = 8 := by unfold E89; simp
@[simp] theorem D89_length (box : KBox) (k b : Bytes) : (D89 box k b).length = 8 := by unfold D89; simp
@[simp] theorem EMagma_length (box : KBox) (k b : Bytes) : (EMagma box k b).length = 8 := by unfold EMagma; simp
@[simp] theorem DMagma_length (box : KBox) (k b : Bytes) : (DMagma box k b).length = 8 := by unfold DMagma; simp

theorem meshConst_eq : meshConst = CryptoProKeyMeshingKey := by decide +kernel
theorem acpkmConst_eq : acpkmConst = ACPKM_D_const := by decide +kernel

theorem meshConst_blocks : blocks 8 meshConst =
    [CryptoProKeyMeshingKey.take 8, (CryptoProKeyMeshingKey.drop 8).take 8,
     (CryptoProKeyMeshingKey.drop 16).take 8, (CryptoProKeyMeshingKey.drop 24).take 8] := by
  rw [meshConst_eq]
  have : CryptoProKeyMeshingKey = [CryptoProKeyMeshingKey.take 8, (CryptoProKeyMeshingKey.drop 8).take 8,
     (CryptoProKeyMeshingKey.drop 16).take 8, (CryptoProKeyMeshingKey.drop 24).take 8].flatten := by
    decide +kernel
  conv => lhs; rw [this]
  exact blocks_of_flatten 8 (by decide) _ (by decide +kernel)

theorem acpkmConst_blocks8 : blocks 8 acpkmConst =
    [ACPKM_D_const.take 8, (ACPKM_D_const.drop 8).take 8,
     (ACPKM_D_const.drop 16).take 8, (ACPKM_D_const.drop 24).take 8] := by
  rw [acpkmConst_eq]
  have : ACPKM_D_const = [ACPKM_D_const.take 8, (ACPKM_D_const.drop 8).take 8,
     (ACPKM_D_const.drop 16).take 8, (ACPKM_D_const.drop 24).take 8].flatten := by
    decide +kernel
  conv => lhs; rw [this]
  exact blocks_of_flatten 8 (by decide) _ (by decide +kernel)

theorem mesh_newkey (c : Ctx) :
    gost_dec c CryptoProKeyMeshingKey 4 = cryptoProMesh (D89 c.box) (gost_get_key c) := by
  rw [cryptoProMesh, ecb, meshConst_blocks]
  simp only [gost_dec, gostdecrypt_eq, List.drop_drop, List.map, List.flatten_cons, List.flatten_nil]

theorem acpkm_newkey (c : Ctx) :
    ((List.range 4).flatMap fun i => magmacrypt c ((ACPKM_D_const.drop (8 * i)).take 8)) =
      Spec.acpkm 8 (EMagma c.box) (magma_get_key c) := by
  rw [Spec.acpkm, ecb, acpkmConst_blocks8]
  simp only [List.range, List.range.loop, List.flatMap_cons, List.flatMap_nil, magmacrypt_eq, List.map,
    List.flatten_cons, List.flatten_nil]
  rfl

theorem gost_key_box (c : Ctx) (k : Bytes) : (gost_key c k).box = c.box := rfl
theorem magma_key_box (c : Ctx) (k : Bytes) : (magma_key c k).box = c.box := rfl

theorem meshing_eq (c : Ctx) (iv : Bytes) :
    (cryptopro_key_meshing c iv).1.box = c.box ∧
    gost_get_key (cryptopro_key_meshing c iv).1 = cryptoProMesh (D89 c.box) (gost_get_key c) ∧
    (cryptopro_key_meshing c iv).2 =
      E89 c.box (cryptoProMesh (D89 c.box) (gost_get_key c)) iv := by
  have h1 : gost_get_key (cryptopro_key_meshing c iv).1 = cryptoProMesh (D89 c.box) (gost_get_key c) := by
    simp only [cryptopro_key_meshing]
    rw [gost_get_key_set _ _ (by rw [gost_dec_length]), mesh_newkey]
  refine ⟨rfl, h1, ?_⟩
  have h2 : (cryptopro_key_meshing c iv).2 = gostcrypt (cryptopro_key_meshing c iv).1 iv := rfl
  rw [h2, gostcrypt_eq, h1]; rfl

theorem acpkm_magma_eq (c : Ctx) :
    (acpkm_magma_key_meshing c).box = c.box ∧
    magma_get_key (acpkm_magma_key_meshing c) = Spec.acpkm 8 (EMagma c.box) (magma_get_key c) := by
  refine ⟨rfl, ?_⟩
  simp only [acpkm_magma_key_meshing]
  rw [magma_get_key_set, acpkm_newkey]
  rw [acpkm_newkey]
  simp [Spec.acpkm, ecb, acpkmConst_blocks8]

theorem D89_E89 (box : KBox) (k b : Bytes) (h : b.length = 8) : D89 box k (E89 box k b) = b := by
  unfold D89 E89; exact gost_dec_enc _ _ h
theorem DMagma_EMagma (box : KBox) (k b : Bytes) (h : b.length = 8) : DMagma box k (EMagma box k b) = b := by
  unfold DMagma EMagma; exact magma_dec_enc _ _ h

end Gost
