import Verif.Lemmas.KeyExp
import Verif.Props.Gost89
import Verif.Props.Streebog
import Verif.Props.Reinit

/-!
# C33: KExp15 and KImp15

`engineE` are the block ciphers Magma and Kuznyechik of the engine (C54, C07: those of the standards), `X` stands for
OpenSSL's CMAC and HMAC, `rng` for the masks Magma draws, `out0` for whatever the stack held before `gost_kimp15` ran.
-/

namespace Gost
open Spec

theorem kexp15_length (X : Crypto) (n : OmacCipher) (s kmac kenc iv : Bytes) :
    (kexp15 engineE X.cmac n s kmac kenc iv).length = s.length + n.block := by
  simp [kexp15, ctrCrypt_length, X.cmac_length]

theorem block_pos (n : OmacCipher) : 1 ≤ n.block := by cases n <;> decide

theorem ivFull_facts (n : OmacCipher) (iv : Bytes) (hiv : iv.length = n.block / 2) :
    (iv ++ zeros (16 - iv.length)).length = 16 ∧ (iv ++ zeros (16 - iv.length)).take (n.block / 2) = iv := by
  have : n.block / 2 ≤ 16 := by cases n <;> decide
  constructor
  · simp [zeros]; omega
  · rw [← hiv, List.take_left]

/-! ### The primitives that OpenSSL provides, for the witnesses: CMAC and HMAC over the engine's ciphers and hash -/

/-- Doubling in GF(2^64) or GF(2^128). -/
def cmacDbl (n : OmacCipher) (k : Bytes) : Bytes :=
  let v := 2 * beNat k
  let m := 2^(8 * n.block)
  beBytes n.block (if v < m then v else Nat.xor (v - m) (if n = .magma then 0x1b else 0x87))

/-- CMAC (NIST SP 800-38B, GOST R 34.13-2015 section 5.6). -/
def realCmac (n : OmacCipher) (key m : Bytes) : Bytes :=
  let E := engineE n key
  let full := (m.length - 1) / n.block
  let last := m.drop (n.block * full)
  let k1 := cmacDbl n (E (zeros n.block))
  let fin := if last.length = n.block then xorB last k1
    else xorB (last ++ [0x80] ++ zeros (n.block - 1 - last.length)) (cmacDbl n k1)
  E (xorB ((blocks n.block (m.take (n.block * full))).foldl (fun s b => E (xorB s b)) (zeros n.block)) fin)

/-- HMAC (RFC 2104) with the 256-bit hash of GOST R 34.11-2012 and keys of at most 64 bytes. -/
def realHmac (key m : Bytes) : Bytes :=
  let k := key ++ zeros (64 - key.length)
  Streebog.hash256 (k.map (· ^^^ 0x5c) ++ Streebog.hash256 (k.map (· ^^^ 0x36) ++ m))

/-- A `Crypto` of real functions. -/
def realCrypto : Crypto where
  cmac := realCmac
  hmac := realHmac
  cmac_length := by
    intro n k m
    cases n
    · exact EMagma_length _ _ _
    · exact EKuz_length _ _
  hmac_length := by
    intro k m
    have h := fun c => (C30_digest_length ⟨false, false, false, false⟩ c).2
    have h' : ∀ x : Bytes, (Streebog.hash256 x).length = 32 := by
      intro x
      have := h [x]
      rwa [C30_streebog256_is_standard, List.flatten_cons, List.flatten_nil, List.append_nil] at this
    exact h' _

/-- **C33.** Exporting is KExp15: the key and the CMAC of IV and key, encrypted in CTR mode; for every key length. -/
theorem C33_export_is_kexp15 (X : Crypto) (rng : Nat → Fin 8 → W32) (n : OmacCipher) (s kmac kenc iv : Bytes)
    (hm : kmac.length = 32) (he : kenc.length = 32) (hiv : iv.length = n.block / 2) (out_len : Nat)
    (ho : s.length + n.block ≤ out_len) :
    gost_kexp15 X rng s n.ctr kenc n kmac iv out_len = some (kexp15 engineE X.cmac n s kmac kenc iv) := by
  have hb := block_pos n
  obtain ⟨i1, i2⟩ := ivFull_facts n iv hiv
  simp only [gost_kexp15, kexpMacLen_ctr]
  rw [if_neg (by omega), if_neg (by omega), kexpMac_eq X n kmac iv s n.block hb (Nat.le_refl _) hm]
  simp only
  rw [kexpCtr_eq rng n true kenc _ he i1, i2, List.take_of_length_le (by rw [X.cmac_length])]
  simp [kexp15]

/-- **C33.** An output buffer that is too small is refused. -/
theorem C33_export_small_buffer (X : Crypto) (rng : Nat → Fin 8 → W32) (n : OmacCipher) (s kmac kenc iv : Bytes)
    (out_len : Nat) (ho : out_len < s.length + n.block) : gost_kexp15 X rng s n.ctr kenc n kmac iv out_len = none := by
  have hb := block_pos n
  simp only [gost_kexp15, kexpMacLen_ctr]
  rw [if_neg (by omega), if_pos (by omega)]

/-- What `gost_kimp15` does to a blob of the right length. -/
theorem kimp15_eq (X : Crypto) (rng : Nat → Fin 8 → W32) (out0 : Bytes) (n : OmacCipher) (blob kmac kenc iv buf : Bytes)
    (hm : kmac.length = 32) (he : kenc.length = 32) (hiv : iv.length = n.block / 2) (hl : blob.length = 32 + n.block) :
    gost_kimp15 X rng out0 blob n.ctr kenc n kmac iv buf =
      (let d := ctrCrypt engineE n kenc iv blob
       if X.cmac n kmac (iv ++ d.take 32) = d.drop 32 then (d.take 32 ++ buf.drop 32, 1) else (buf, 0)) := by
  have hb := block_pos n
  have hb2 : n.block ≤ 16 := by cases n <;> decide
  obtain ⟨i1, i2⟩ := ivFull_facts n iv hiv
  have hd : (ctrCrypt engineE n kenc iv blob).length = 32 + n.block := by rw [ctrCrypt_length, hl]
  simp only [gost_kimp15, kexpMacLen_ctr]
  rw [if_neg (by omega), if_neg (by omega), if_neg (by omega)]
  rw [kexpCtr_eq rng n false kenc _ he i1, i2]
  simp only [List.flatten_cons, List.flatten_nil, List.append_nil]
  rw [List.take_append_of_le_length (by omega), List.drop_append_of_le_length (by omega),
    List.take_append_of_le_length (by rw [List.length_drop]; omega), List.take_of_length_le (i := n.block) (by rw [List.length_drop]; omega)]
  rw [kexpMac_eq X n kmac iv _ n.block hb (Nat.le_refl _) hm]
  simp only [List.take_take, Nat.min_self]
  rw [List.take_of_length_le (by rw [X.cmac_length])]
  by_cases h : X.cmac n kmac (iv ++ (ctrCrypt engineE n kenc iv blob).take 32) = (ctrCrypt engineE n kenc iv blob).drop 32
  · rw [if_neg (not_not.mpr h), if_pos h]
  · rw [if_pos h, if_neg h]

/-- **C33.** Importing an exported key returns it, whatever random masks, stack contents and output buffer. -/
theorem C33_import_export (X : Crypto) (rng rng' : Nat → Fin 8 → W32) (out0 : Bytes) (n : OmacCipher)
    (s kmac kenc iv buf blob : Bytes) (hs : s.length = 32) (hm : kmac.length = 32) (he : kenc.length = 32)
    (hiv : iv.length = n.block / 2) (out_len : Nat)
    (h : gost_kexp15 X rng s n.ctr kenc n kmac iv out_len = some blob) :
    gost_kimp15 X rng' out0 blob n.ctr kenc n kmac iv buf = (s ++ buf.drop 32, 1) := by
  have ho : s.length + n.block ≤ out_len := by
    by_contra hc
    rw [C33_export_small_buffer X rng n s kmac kenc iv out_len (by omega)] at h
    exact absurd h (by simp)
  rw [C33_export_is_kexp15 X rng n s kmac kenc iv hm he hiv out_len ho] at h
  cases h
  rw [kimp15_eq X rng' out0 n _ kmac kenc iv buf hm he hiv (by rw [kexp15_length, hs])]
  have hd : ctrCrypt engineE n kenc iv (kexp15 engineE X.cmac n s kmac kenc iv) = s ++ X.cmac n kmac (iv ++ s) :=
    ctrCrypt_twice _ _ _ _
  simp only [hd]
  rw [← hs, List.take_left, List.drop_left, if_pos rfl]

/-- **C33.** A blob of the right length is accepted if and only if it is the export of the key returned. -/
theorem C33_import_iff_export (X : Crypto) (rng : Nat → Fin 8 → W32) (out0 : Bytes) (n : OmacCipher)
    (blob kmac kenc iv buf : Bytes) (hm : kmac.length = 32) (he : kenc.length = 32) (hiv : iv.length = n.block / 2)
    (hl : blob.length = 32 + n.block) :
    (gost_kimp15 X rng out0 blob n.ctr kenc n kmac iv buf).2 = 1 ↔
      ∃ s : Bytes, s.length = 32 ∧ blob = kexp15 engineE X.cmac n s kmac kenc iv ∧
        (gost_kimp15 X rng out0 blob n.ctr kenc n kmac iv buf).1 = s ++ buf.drop 32 := by
  rw [kimp15_eq X rng out0 n blob kmac kenc iv buf hm he hiv hl]
  have hd : (ctrCrypt engineE n kenc iv blob).length = 32 + n.block := by rw [ctrCrypt_length, hl]
  simp only
  constructor
  · intro h
    by_cases hc : X.cmac n kmac (iv ++ (ctrCrypt engineE n kenc iv blob).take 32) = (ctrCrypt engineE n kenc iv blob).drop 32
    · refine ⟨(ctrCrypt engineE n kenc iv blob).take 32, by rw [List.length_take]; omega, ?_, by rw [if_pos hc]⟩
      rw [kexp15, hc, List.take_append_drop, ctrCrypt_twice]
    · rw [if_neg hc] at h
      exact absurd h (by simp)
  · rintro ⟨s, hs, hb, _⟩
    have hd' : ctrCrypt engineE n kenc iv blob = s ++ X.cmac n kmac (iv ++ s) := by
      rw [hb]; exact ctrCrypt_twice _ _ _ _
    rw [hd', ← hs, List.take_left, List.drop_left, if_pos rfl]

/-- **C33.** For every input, of any length: failure leaves the caller's buffer as it was; success changes only the first
32 bytes. -/
theorem C33_failure_untouched (X : Crypto) (rng : Nat → Fin 8 → W32) (out0 : Bytes) (cn : KexpNid) (mn : OmacCipher)
    (blob kmac kenc iv buf : Bytes) :
    (gost_kimp15 X rng out0 blob cn kenc mn kmac iv buf).2 = 0 ∧
        (gost_kimp15 X rng out0 blob cn kenc mn kmac iv buf).1 = buf ∨
      (gost_kimp15 X rng out0 blob cn kenc mn kmac iv buf).2 = 1 ∧
        ∃ k : Bytes, k.length ≤ 32 ∧ (gost_kimp15 X rng out0 blob cn kenc mn kmac iv buf).1 = k ++ buf.drop 32 := by
  unfold gost_kimp15
  simp only
  split
  · exact Or.inl ⟨rfl, rfl⟩
  split
  · exact Or.inl ⟨rfl, rfl⟩
  split
  · exact Or.inl ⟨rfl, rfl⟩
  split
  · exact Or.inl ⟨rfl, rfl⟩
  · split
    · exact Or.inl ⟨rfl, rfl⟩
    · exact Or.inr ⟨rfl, _, by rw [List.length_take]; exact Nat.min_le_left _ _, rfl⟩

/-- **C33.** A MAC shorter than the export format needs (Magma's CMAC with Kuznyechik encryption) is refused by both
directions, for every input. -/
theorem C33_short_mac_refused (X : Crypto) (rng : Nat → Fin 8 → W32) (out0 s blob kmac kenc iv buf : Bytes) (out_len : Nat) :
    gost_kexp15 X rng s .grasshopper_ctr kenc .magma kmac iv out_len = none ∧
    gost_kimp15 X rng out0 blob .grasshopper_ctr kenc .magma kmac iv buf = (buf, 0) := by
  constructor
  · show gost_kexp15 X rng s OmacCipher.kuznyechik.ctr kenc .magma kmac iv out_len = none
    simp only [gost_kexp15, kexpMacLen_ctr]
    rw [kexpMac_big X .magma kmac iv s OmacCipher.kuznyechik.block (by decide)]
    split
    · rfl
    split <;> rfl
  · show gost_kimp15 X rng out0 blob OmacCipher.kuznyechik.ctr kenc .magma kmac iv buf = (buf, 0)
    simp only [gost_kimp15, kexpMacLen_ctr]
    split
    · rfl
    split
    · rfl
    split
    · rfl
    rw [kexpMac_big X .magma kmac iv _ OmacCipher.kuznyechik.block (by decide)]

/-- **C33 (finding).** The length of a Magma blob is not checked against the format: up to eight further bytes after the
40 that matter are ignored, so several blobs import as the same key. -/
theorem C33_magma_trailing_ignored (X : Crypto) (rng : Nat → Fin 8 → W32) (out0 : Bytes) (blob extra kmac kenc iv buf : Bytes)
    (he : kenc.length = 32) (hiv : iv.length = 4) (hl : blob.length = 40) (hx : extra.length ≤ 8) :
    gost_kimp15 X rng out0 (blob ++ extra) .magma_ctr kenc .magma kmac iv buf =
      gost_kimp15 X rng out0 blob .magma_ctr kenc .magma kmac iv buf := by
  obtain ⟨i1, i2⟩ := ivFull_facts .magma iv hiv
  have i2 : (iv ++ zeros (16 - iv.length)).take (OmacCipher.magma.block / 2) = iv := i2
  have e : ∀ b : Bytes, kexpCtr rng .magma_ctr false kenc (iv ++ zeros (16 - iv.length)) [b] =
      ctrCrypt engineE .magma kenc iv b := by
    intro b
    have := kexpCtr_eq rng .magma false kenc _ he i1 [b]
    rw [i2] at this
    simpa [OmacCipher.ctr] using this
  show gost_kimp15 X rng out0 (blob ++ extra) OmacCipher.magma.ctr kenc .magma kmac iv buf =
    gost_kimp15 X rng out0 blob OmacCipher.magma.ctr kenc .magma kmac iv buf
  have hb : OmacCipher.magma.block = 8 := rfl
  simp only [gost_kimp15, kexpMacLen_ctr]
  rw [if_neg (by decide), if_neg (by simp; omega), if_neg (by omega), if_neg (by decide), if_neg (by omega), if_neg (by omega), hb]
  simp only [OmacCipher.ctr]
  simp only [e]
  have ha : ctrCrypt engineE .magma kenc iv (blob ++ extra) = ctrCrypt engineE .magma kenc iv blob ++
      (ctrCrypt engineE .magma kenc iv (blob ++ extra)).drop 40 := by
    rw [← List.take_append_drop 40 (ctrCrypt engineE .magma kenc iv (blob ++ extra))]
    congr 1
    · rw [ctrCrypt, ctrCrypt, xorStream, xorStream, List.mapIdx_append, List.take_left' (by simp [hl])]
    · simp [ctrCrypt_length]
  rw [ha]
  have h40 : (ctrCrypt engineE .magma kenc iv blob).length = 40 := by rw [ctrCrypt_length, hl]
  generalize ctrCrypt engineE .magma kenc iv blob = d at *
  generalize (ctrCrypt engineE .magma kenc iv (blob ++ extra)).drop 40 = t at *
  have t1 : ∀ u : Bytes, (d ++ u).take 32 = d.take 32 := fun u => List.take_append_of_le_length (by omega)
  have t2 : ∀ u : Bytes, ((d ++ u).drop 32).take 8 = d.drop 32 := fun u => by
    rw [List.drop_append_of_le_length (by omega), List.take_append_of_le_length (by rw [List.length_drop]; omega),
      List.take_of_length_le (by rw [List.length_drop]; omega)]
  simp only [List.append_assoc, t1, t2]

/-- **C33 (finding).** Nor are short blobs refused: bytes the decryption did not produce are read from the uninitialised
stack.  Even the empty blob imports as any key `k`, if the stack happens to hold `k` and its MAC. -/
theorem C33_empty_blob_reads_stack (X : Crypto) (rng : Nat → Fin 8 → W32) (n : OmacCipher) (k kmac kenc iv buf : Bytes)
    (hm : kmac.length = 32) (he : kenc.length = 32) (hiv : iv.length = n.block / 2) (hk : k.length = 32) :
    ∃ out0 : Bytes, out0.length = 48 ∧
      gost_kimp15 X rng out0 [] n.ctr kenc n kmac iv buf = (k ++ buf.drop 32, 1) := by
  have hb := block_pos n
  have hb2 : n.block ≤ 16 := by cases n <;> decide
  obtain ⟨i1, i2⟩ := ivFull_facts n iv hiv
  refine ⟨k ++ (X.cmac n kmac (iv ++ k) ++ zeros (16 - n.block)), by simp [hk, X.cmac_length, zeros]; omega, ?_⟩
  simp only [gost_kimp15, kexpMacLen_ctr]
  rw [if_neg (by omega), if_neg (by decide), if_neg (by omega), kexpCtr_eq rng n false kenc _ he i1, i2]
  have h0 : ctrCrypt engineE n kenc iv (List.flatten [[]]) = [] := rfl
  rw [h0]
  simp only [List.nil_append, List.length_nil, List.drop_zero]
  rw [List.take_left' hk, List.drop_left' hk, kexpMac_eq X n kmac iv k n.block hb (Nat.le_refl _) hm]
  simp only
  rw [List.take_left' (X.cmac_length _ _ _), List.take_take, Nat.min_self,
    List.take_of_length_le (by rw [X.cmac_length]), if_neg (fun h => h rfl)]

/-- Witness for the export/import theorems: with the real primitives and concrete keys an export of 40 bytes is produced,
so `C33_import_export` and `C33_import_iff_export` apply to it. -/
example : ∃ blob, gost_kexp15 realCrypto witRng sampleKey .magma_ctr sampleKey .magma sampleKey [1, 2, 3, 4] 40 = some blob ∧
    blob.length = 40 :=
  ⟨_, C33_export_is_kexp15 realCrypto witRng .magma sampleKey sampleKey sampleKey [1, 2, 3, 4] rfl rfl rfl 40 (by decide),
    by rw [kexp15_length]; rfl⟩

end Gost
