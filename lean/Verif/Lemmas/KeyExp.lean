import Verif.Spec.KeyExp
import Verif.Props.GostModes
import Verif.Props.KuzModes
import Verif.Lemmas.StreebogCore
import Verif.Lemmas.GF

/-! # Lemmas for key export, KDF_TREE, TLSTREE -/

namespace Gost
open Spec

/-- The block ciphers of the engine, as functions of key and block. -/
def engineE : OmacCipher → Bytes → Bytes → Bytes
  | .magma => EMagma magmaBox
  | .kuznyechik => EKuz

/-- The CTR cipher of KExp15. -/
def OmacCipher.ctr : OmacCipher → KexpNid
  | .magma => .magma_ctr
  | .kuznyechik => .grasshopper_ctr

theorem magma_two_init (rng : Nat → Fin 8 → W32) (enc : Bool) (key iv : Bytes) (hiv : iv.length = 16) :
    magma_cipher_init (magma_cipher_init (freshCtx rng enc) none none enc 4 false) (some key) (some iv) enc 4 false =
      magmaSession rng enc 4 false key (iv.take 4) := by
  match iv, hiv with
  | [b0, b1, b2, b3, b4, b5, b6, b7, b8, b9, b10, b11, b12, b13, b14, b15], _ =>
    simp only [magmaSession, magma_cipher_init, setIv, freshCtx, gost_cipher_set_param]
    rfl

theorem kuz_two_init (enc : Bool) (key iv : Bytes) (hiv : iv.length = 16) :
    gost_grasshopper_cipher_init_ctr (gost_grasshopper_cipher_init_ctr freshKCtx none none enc) (some key) (some iv) enc =
      kCtrSession enc key (iv.take 8) := by
  match iv, hiv with
  | [b0, b1, b2, b3, b4, b5, b6, b7, b8, b9, b10, b11, b12, b13, b14, b15], _ =>
    simp only [kCtrSession, gost_grasshopper_cipher_init_ctr, gost_grasshopper_cipher_init, freshKCtx]
    rfl

theorem kexpCtr_eq (rng : Nat → Fin 8 → W32) (n : OmacCipher) (enc : Bool) (key iv : Bytes) (hk : key.length = 32)
    (hiv : iv.length = 16) (chunks : List Bytes) :
    kexpCtr rng n.ctr enc key iv chunks = ctrCrypt engineE n key (iv.take (n.block / 2)) chunks.flatten := by
  cases n with
  | magma =>
    simp only [OmacCipher.ctr, kexpCtr]
    rw [magma_two_init _ _ _ _ hiv, C14_magma_ctr_keystream rng enc key (iv.take 4) hk (by simp [hiv])]
    rfl
  | kuznyechik =>
    simp only [OmacCipher.ctr, kexpCtr]
    rw [kuz_two_init _ _ _ hiv, C14_kuz_ctr_keystream enc key (iv.take 8) hk (by simp [hiv])]
    rfl

theorem ctrCrypt_twice (n : OmacCipher) (key iv m : Bytes) :
    ctrCrypt engineE n key iv (ctrCrypt engineE n key iv m) = m := xorStream_twice _ _ _

theorem ctrCrypt_length (n : OmacCipher) (key iv m : Bytes) : (ctrCrypt engineE n key iv m).length = m.length := by
  simp [ctrCrypt, xorStream]

theorem kexpMacLen_ctr (n : OmacCipher) : kexpMacLen n.ctr = n.block := by cases n <;> rfl

theorem xof_ok (c : OmacDigestCtx) (len : Nat) (h1 : 1 ≤ len) (h2 : len ≤ c.cipher_name.block) :
    omac_xof_len c len = ({ c with dgst_size := len }, 1) := by
  rw [omac_xof_len, if_neg (by omega)]
  simp

theorem xof_bad (c : OmacDigestCtx) (len : Nat) (h2 : c.cipher_name.block < len) : omac_xof_len c len = (c, 0) := by
  rw [omac_xof_len, if_pos (by omega)]

theorem kexpMac_eq (X : Crypto) (mac : OmacCipher) (mac_key iv key : Bytes) (len : Nat) (h1 : 1 ≤ len)
    (h2 : len ≤ mac.block) (hk : mac_key.length = 32) :
    kexpMac X mac mac_key iv key len = some ((X.cmac mac mac_key (iv ++ key)).take len) := by
  simp [kexpMac, omac_init, omac_set_key, omac_key, xof_ok _ _ h1, h2, omac_imit_update, omac_imit_final,
    List.take_of_length_le (Nat.le_of_eq hk)]

theorem kexpMac_big (X : Crypto) (mac : OmacCipher) (mac_key iv key : Bytes) (len : Nat) (h2 : mac.block < len) :
    kexpMac X mac mac_key iv key len = none := by
  simp [kexpMac, omac_init, omac_set_key, omac_key, xof_bad, h2]

end Gost
