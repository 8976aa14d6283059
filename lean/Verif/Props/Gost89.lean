import Verif.Model.SBoxes
import Verif.Lemmas.Gost89
import Verif.Lemmas.Gost89Subst
import Verif.Spec.Gost28147

/-!
# Properties of the GOST 28147-89 / Magma block cipher (C01-C04, C08, C20)
-/

namespace Gost

/-- A sample context: TC26-Z S-boxes, a non-trivial mask stream. -/
def sampleCtx : Ctx where
  key := fun i => BitVec.ofNat 32 (0x01234567 * (i.val + 1))
  mask := fun i => BitVec.ofNat 32 (0xdeadbeef * (i.val + 3))
  box := kboxinit Gost28147_TC26ParamSetZ
  rng := fun n i => BitVec.ofNat 32 (0x9e3779b9 * (n + 1) + 77 * i.val)

/-- The key of the GOST R 34.12-2015 examples (appendix A.2). -/
def sampleKey : Bytes :=
  [0xff,0xee,0xdd,0xcc,0xbb,0xaa,0x99,0x88,0x77,0x66,0x55,0x44,0x33,0x22,0x11,0x00,
   0xf0,0xf1,0xf2,0xf3,0xf4,0xf5,0xf6,0xf7,0xf8,0xf9,0xfa,0xfb,0xfc,0xfd,0xfe,0xff]

/-- **C01** For every S-box set, key, mask and 8-byte block, decryption inverts encryption and
encryption inverts decryption. -/
theorem C01_gost89_block_inverse (b : SubstBlock) (key mask : Fin 8 → W32)
    (rng : Nat → Fin 8 → W32) (block : Bytes) (hlen : block.length = 8) :
    let c : Ctx := { key := key, mask := mask, box := kboxinit b, rng := rng }
    gostdecrypt c (gostcrypt c block) = block ∧ gostcrypt c (gostdecrypt c block) = block :=
  ⟨gost_dec_enc _ _ hlen, gost_enc_dec _ _ hlen⟩

/-- Non-vacuity of C01: the cipher is not the identity and the round trip is on real data. -/
example : gostcrypt sampleCtx [1,2,3,4,5,6,7,8] ≠ [1,2,3,4,5,6,7,8] ∧
    gostdecrypt sampleCtx (gostcrypt sampleCtx [1,2,3,4,5,6,7,8]) = [1,2,3,4,5,6,7,8] := by
  decide +kernel

/-- **C02** (ciphertext part) Whatever masks the random generator produces, the block
functions compute what they compute with the same key and no mask. -/
theorem C02_mask_irrelevant (c : Ctx) (k block : Bytes) :
    gostcrypt (gost_key c k) block = gostcrypt (gost_key_nomask c k) block ∧
    gostdecrypt (gost_key c k) block = gostdecrypt (gost_key_nomask c k) block ∧
    (∀ acc, mac_block (gost_key c k) acc block = mac_block (gost_key_nomask c k) acc block) := by
  have h : CtxEq (gost_key_nomask c k) (gost_key c k) := gost_key_nomask_congr rfl k
  exact ⟨by rw [gostcrypt_congr h], by rw [gostdecrypt_congr h],
    fun acc => by rw [mac_block_congr h]⟩

/-- **C02** (Magma) Two runs of the random generator give the same Magma ciphertext. -/
theorem C02_magma_mask_irrelevant (c : Ctx) (rng' : Nat → Fin 8 → W32) (k block : Bytes) :
    magmacrypt (magma_key c k) block = magmacrypt (magma_key { c with rng := rng' } k) block ∧
    magmadecrypt (magma_key c k) block
      = magmadecrypt (magma_key { c with rng := rng' } k) block := by
  have h : CtxEq (magma_key c k) (magma_key { c with rng := rng' } k) :=
    magma_key_congr (c := c) (d := { c with rng := rng' }) rfl k
  exact ⟨by rw [magmacrypt_congr h], by rw [magmadecrypt_congr h]⟩

/-- **C02** (read-back part) Reading the key returns the 32 bytes that were set. -/
theorem C02_key_readback (c : Ctx) (k : Bytes) (hk : k.length = 32) :
    gost_get_key (gost_key c k) = k ∧ magma_get_key (magma_key c k) = k :=
  ⟨gost_get_key_set c k hk, magma_get_key_set c k hk⟩

/-- Non-vacuity of C02: the stored key words really are masked (differ from the key). -/
example : sampleKey.length = 32 ∧ (gost_key sampleCtx sampleKey).mask ≠ (fun _ => 0) ∧
    (gost_key sampleCtx sampleKey).key ≠ (gost_key_nomask sampleCtx sampleKey).key := by
  refine ⟨rfl, fun h => ?_, fun h => ?_⟩
  · exact absurd (congrFun h 0) (by decide +kernel)
  · exact absurd (congrFun h 0) (by decide +kernel)

/-- Reverse the bytes inside each of the eight 4-byte words of a key. -/
def revWords (k : Bytes) : Bytes :=
  (List.range 8).flatMap fun i => ((k.drop (4 * i)).take 4).reverse

/-- **C03** Magma is GOST 28147-89 on byte-reversed blocks with byte-reversed key words. -/
theorem C03_magma_is_reversed_gost (c : Ctx) (k block : Bytes) (hk : k.length = 32)
    (hb : block.length = 8) :
    magmacrypt (magma_key c k) block = (gostcrypt (gost_key c (revWords k)) block.reverse).reverse ∧
    magmadecrypt (magma_key c k) block
      = (gostdecrypt (gost_key c (revWords k)) block.reverse).reverse := by
  have hc : magma_key c k = gost_key c (revWords k) := by
    match k, hk with
    | [k0,k1,k2,k3,k4,k5,k6,k7,k8,k9,k10,k11,k12,k13,k14,k15,k16,k17,k18,k19,k20,k21,k22,k23,k24,
        k25,k26,k27,k28,k29,k30,k31], _ =>
      simp only [magma_key, gost_key, gost_key_impl]
      congr 1
      funext i
      match i with
      | 0 | 1 | 2 | 3 | 4 | 5 | 6 | 7 => rfl
  have hl : loadBE block = loadLE block.reverse := by
    obtain ⟨b0, b1, b2, b3, b4, b5, b6, b7, rfl⟩ := list8 hb
    rfl
  have hs : ∀ x y, storeBE x y = (storeLE x y).reverse := fun _ _ => rfl
  rw [hc]
  simp only [magmacrypt, gostcrypt, magmadecrypt, gostdecrypt, hl, hs, and_self]

/-- **C03** Magma decryption inverts encryption (and conversely) for all S-boxes, keys, masks. -/
theorem C03_magma_block_inverse (b : SubstBlock) (key mask : Fin 8 → W32)
    (rng : Nat → Fin 8 → W32) (block : Bytes) (hlen : block.length = 8) :
    let c : Ctx := { key := key, mask := mask, box := kboxinit b, rng := rng }
    magmadecrypt c (magmacrypt c block) = block ∧ magmacrypt c (magmadecrypt c block) = block :=
  ⟨magma_dec_enc _ _ hlen, magma_enc_dec _ _ hlen⟩

/-- Known answer of GOST R 34.12-2015 A.2.4: the model computes the published ciphertext. -/
example : magmacrypt (magma_key sampleCtx sampleKey) [0xfe,0xdc,0xba,0x98,0x76,0x54,0x32,0x10]
    = [0x4e,0xe9,0x01,0xe5,0xc2,0xd8,0xca,0x3d] := by decide +kernel

/-- The eight rows of a substitution block, row 0 (`k1`) for the least significant nibble. -/
def SubstBlock.rows (b : SubstBlock) : List (List Byte) :=
  [b.k1, b.k2, b.k3, b.k4, b.k5, b.k6, b.k7, b.k8]

/-- **C04** Every row of every built-in parameter set is a permutation of 0..15. -/
theorem C04_builtin_rows_are_permutations :
    allSubstBlocks.length = 8 ∧
    ∀ b ∈ allSubstBlocks, ∀ r ∈ b.rows,
      r.Perm ((List.range 16).map (BitVec.ofNat 8)) := by
  decide +kernel

/-- **C04** For a substitution block with entries below 16, the table-driven round function is
"substitute eight nibbles independently, then rotate left by 11" on every 32-bit word. -/
theorem C04_round_function_is_nibble_substitution (b : SubstBlock)
    (hb : ∀ r ∈ b.rows, ∀ v ∈ r, v.toNat < 16) (x : W32) (i : Fin 8) :
    Spec.nibble ((f (kboxinit b) x).rotateRight 11) i
      = (at_ (b.rows.getD i.val []) (Spec.nibble x i).toNat).setWidth 4 :=
  f_nibbles b hb x i

/-- Non-vacuity of C04: every built-in set satisfies the hypothesis. -/
theorem builtin_rows_nibbles : ∀ b ∈ allSubstBlocks, ∀ r ∈ b.rows, ∀ v ∈ r, v.toNat < 16 := by
  have h : (allSubstBlocks.all fun b => b.rows.all fun r => r.all fun v => Nat.blt v.toNat 16)
      = true := by decide +kernel
  simp only [List.all_eq_true] at h
  intro b hb r hr v hv
  simpa using h b hb r hr v hv

/-- **C54** The C code computes the block cipher of the standard: for every substitution block
with nibble entries, every key and every block (given by its two words), GOST 28147-89 reads
and writes words little-endian, Magma big-endian, and both equal the 32-round Feistel network of
`Spec.encrypt` with *the* round function determined by the substitution and rotation by 11. -/
theorem C54_block_cipher_is_standard (c : Ctx) (b : SubstBlock) (hbox : c.box = kboxinit b)
    (hb : ∀ r ∈ b.rows, ∀ v ∈ r, v.toNat < 16) (g : BitVec 32 → BitVec 32)
    (hg : ∀ x i, Spec.nibble ((g x).rotateRight 11) i
      = (at_ (b.rows.getD i.val []) (Spec.nibble x i).toNat).setWidth 4)
    (K : Fin 8 → BitVec 32) (a1 a0 : BitVec 32) :
    let r := Spec.encrypt g K a1 a0
    gostcrypt (gost_key c ((List.finRange 8).flatMap fun i => Spec.wordLE (K i)))
        (Spec.wordLE a0 ++ Spec.wordLE a1) = Spec.wordLE r.2 ++ Spec.wordLE r.1 ∧
    magmacrypt (magma_key c ((List.finRange 8).flatMap fun i => Spec.wordBE (K i)))
        (Spec.wordBE a1 ++ Spec.wordBE a0) = Spec.wordBE r.1 ++ Spec.wordBE r.2 := by
  intro r
  have hfg : ∀ x, f c.box x = g x := by
    intro x
    apply rotR_inj
    apply isSubst_unique (nibRows b) x _ _ _ (hg x)
    rw [hbox]
    exact f_nibbles b hb x
  have hw : ∀ w : W32, le32 (w.extractLsb' 0 8) (w.extractLsb' 8 8) (w.extractLsb' 16 8)
      (w.extractLsb' 24 8) = w := by
    intro w
    have := le32_byteOf w
    have e : ∀ i, byteOf w i = w.extractLsb' (8 * i) 8 := by
      intro i
      apply BitVec.eq_of_toNat_eq
      simp [byteOf, Nat.shiftRight_eq_div_pow]
    simpa only [e] using this
  have e : ∀ (w : W32) i, byteOf w i = w.extractLsb' (8 * i) 8 := by
    intro w i
    apply BitVec.eq_of_toNat_eq
    simp [byteOf, Nat.shiftRight_eq_div_pow]
  constructor
  · have hk : (fun i => (gost_key c ((List.finRange 8).flatMap fun i => Spec.wordLE (K i))).key i +
        (gost_key c ((List.finRange 8).flatMap fun i => Spec.wordLE (K i))).mask i) = K := by
      funext i
      simp only [gost_key, gost_key_impl, BitVec.sub_add_cancel]
      match i with
      | 0 | 1 | 2 | 3 | 4 | 5 | 6 | 7 => exact hw _
    have := enc_spec g (gost_key c ((List.finRange 8).flatMap fun i => Spec.wordLE (K i))) hfg a0 a1
    rw [hk] at this
    have hl : loadLE (Spec.wordLE a0 ++ Spec.wordLE a1) = (a0, a1) := by
      simp only [loadLE, Spec.wordLE, at_]
      exact Prod.ext (hw a0) (hw a1)
    simp only [gostcrypt, hl, this]
    simp only [storeLE, e]
    rfl
  · have hk : (fun i => (magma_key c ((List.finRange 8).flatMap fun i => Spec.wordBE (K i))).key i +
        (magma_key c ((List.finRange 8).flatMap fun i => Spec.wordBE (K i))).mask i) = K := by
      funext i
      simp only [magma_key, BitVec.sub_add_cancel]
      match i with
      | 0 | 1 | 2 | 3 | 4 | 5 | 6 | 7 => exact hw _
    have := enc_spec g (magma_key c ((List.finRange 8).flatMap fun i => Spec.wordBE (K i))) hfg a0 a1
    rw [hk] at this
    have hl : loadBE (Spec.wordBE a1 ++ Spec.wordBE a0) = (a0, a1) := by
      simp only [loadBE, Spec.wordBE, at_]
      exact Prod.ext (hw a0) (hw a1)
    simp only [magmacrypt, hl, this]
    simp only [storeBE, e]
    rfl

/-- Non-vacuity of C54: such a `g` exists for each built-in set (the code's own `f`). -/
example : ∃ g : BitVec 32 → BitVec 32, ∀ x i, Spec.nibble ((g x).rotateRight 11) i
    = (at_ (Gost28147_TC26ParamSetZ.rows.getD i.val []) (Spec.nibble x i).toNat).setWidth 4 :=
  ⟨f (kboxinit Gost28147_TC26ParamSetZ),
    C04_round_function_is_nibble_substitution _
      (builtin_rows_nibbles _ (by simp [allSubstBlocks]))⟩

/-- **C08** The multi-block ECB and CFB helpers invert each other for any number of blocks. -/
theorem C08_raw_ecb_cfb_invert (c : Ctx) (n : Nat) (iv data : Bytes) (h : data.length = 8 * n) :
    gost_dec c (gost_enc c data n) n = data ∧
    gost_enc c (gost_dec c data n) n = data ∧
    gost_dec_cfb c iv (gost_enc_cfb c iv data n) n = data :=
  ⟨gost_dec_gost_enc c n data h, gost_enc_gost_dec c n data h,
   gost_dec_cfb_gost_enc_cfb c n iv data h⟩

/-- Non-vacuity of C08: two blocks. -/
example : let d : Bytes := [1,2,3,4,5,6,7,8,9,10,11,12,13,14,15,16]
    d.length = 8 * 2 ∧ gost_enc sampleCtx d 2 ≠ d ∧ gost_enc_cfb sampleCtx (zeros 8) d 2 ≠ d := by
  decide +kernel

/-- Specification of MAC truncation: whole bytes, then the low `n % 8` bits of the next byte. -/
def Spec.truncBits (buf : List (BitVec 8)) (n : Nat) : List (BitVec 8) :=
  buf.take (n / 8) ++
    (if n % 8 = 0 then [] else [(((buf.getD (n / 8) 0).setWidth (n % 8)).setWidth 8)])

/-- **C20, partial** MAC truncation is exact when the number of bits is a multiple of 8.
Missing: all other bit counts, for which the property is false, see `C20_truncation_false`. -/
theorem C20_truncation_partial (buf : Bytes) (nbits : Nat) (h : nbits % 8 = 0) :
    get_mac buf nbits = Spec.truncBits buf nbits := by
  simp [get_mac, Spec.truncBits, h]

example : (32 : Nat) % 8 = 0 ∧ get_mac [1,2,3,4,5,6,7,8] 32 = [1,2,3,4] := by decide

/-- **C20, negation** The full property fails: the code writes `(1 < rembits) - 1` where
`(1 << rembits) - 1` was meant. -/
theorem C20_truncation_false :
    ¬ (∀ (buf : Bytes) (nbits : Nat), buf.length = 8 → nbits ≤ 64 →
        get_mac buf nbits = Spec.truncBits buf nbits) := by
  intro h
  exact absurd (h [255,255,255,255,255,255,255,255] 12 rfl (by decide)) (by decide +kernel)

/-- **C20, exact behaviour** For bit counts not divisible by 8 the partial byte is zeroed
entirely (two or more leftover bits) or kept entirely (one leftover bit). -/
theorem C20_truncation_actual (buf : Bytes) (nbits : Nat) (h : nbits % 8 ≠ 0) :
    get_mac buf nbits = buf.take (nbits / 8) ++
      [if nbits % 8 = 1 then buf.getD (nbits / 8) 0 else 0] := by
  unfold get_mac
  by_cases h1 : nbits % 8 = 1
  · simp [h1, at_]
    exact BitVec.and_allOnes
  · have h2 : 1 < nbits % 8 := by omega
    simp [h, h1, h2]

end Gost
