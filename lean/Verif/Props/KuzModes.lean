import Verif.Lemmas.KuzStream
import Verif.Props.Reinit

/-!
# C13 – C17, C49 for Kuznyechik

`EKuz k` / `DKuz k` are the block functions of the library with a 32-byte key; `EKuz_standard`
(and C05) identify `EKuz` with the GOST R 34.12-2015 cipher `Spec.Kuz.encrypt`.
-/

namespace Gost
open Spec

/-! ## Sessions -/

theorem memcpyTo_all (d s : Bytes) (n : Nat) (hd : d.length = n) (hs : s.length = n) : memcpyTo d s n = s := by
  simp [memcpyTo, ← hs, List.drop_of_length_le, hd]

theorem kinit_facts (c : KCtx) (key iv : Bytes) (hk : key.length = 32) (hiv : iv.length = 16)
    (h1 : c.iv.length = 16) (h2 : c.oiv.length = 16) (enc : Bool) :
    let e := gost_grasshopper_cipher_init c (some key) (some iv) enc 16
    KFacts e ∧ e.key = key ∧ e.iv = iv ∧ e.encrypting = enc ∧ e.num = c.num ∧ e.buf = c.buf ∧ e.stash = c.stash ∧
      e.partial_buffer = c.partial_buffer := by
  have hi : memcpyTo c.iv (memcpyTo c.oiv iv 16) 16 = iv := by
    rw [memcpyTo_all _ iv _ h2 hiv, memcpyTo_all _ iv _ h1 hiv]
  refine ⟨⟨rfl, rfl, copyN_length _ _, ?_⟩, copyN_self hk, hi, rfl, rfl, rfl, rfl, rfl⟩
  exact (congrArg List.length hi).trans hiv

theorem kinit8_facts (c : KCtx) (key iv : Bytes) (hk : key.length = 32) (hiv : iv.length = 8)
    (h1 : c.iv.length = 16) (enc : Bool) :
    let e := gost_grasshopper_cipher_init c (some key) (some iv) enc 8
    KFacts e ∧ e.key = key ∧ e.iv = iv ++ c.iv.drop 8 ∧ e.encrypting = enc ∧ e.num = c.num ∧
      e.partial_buffer = c.partial_buffer ∧ e.section_size = c.section_size ∧ e.type = c.type := by
  have hi : memcpyTo c.iv (memcpyTo c.oiv iv 8) 8 = iv ++ c.iv.drop 8 := by
    simp [memcpyTo, List.take_of_length_le, hiv]
  refine ⟨⟨rfl, rfl, copyN_length _ _, ?_⟩, copyN_self hk, hi, rfl, rfl, rfl, rfl, rfl⟩
  exact (congrArg List.length hi).trans (by simp [hiv, h1])

/-- Fresh sessions. -/
def kEcbSession (enc : Bool) (key iv : Bytes) : KCtx := gost_grasshopper_cipher_init_ecb freshKCtx (some key) (some iv) enc
def kCbcSession (enc : Bool) (key iv : Bytes) : KCtx := gost_grasshopper_cipher_init_cbc freshKCtx (some key) (some iv) enc
def kOfbSession (enc : Bool) (key iv : Bytes) : KCtx := gost_grasshopper_cipher_init_ofb freshKCtx (some key) (some iv) enc
def kCfbSession (enc : Bool) (key iv : Bytes) : KCtx := gost_grasshopper_cipher_init_cfb freshKCtx (some key) (some iv) enc
def kCtrSession (enc : Bool) (key iv : Bytes) : KCtx := gost_grasshopper_cipher_init_ctr freshKCtx (some key) (some iv) enc
def kAcpkmSession (enc : Bool) (key iv : Bytes) : KCtx :=
  gost_grasshopper_cipher_init_ctracpkm freshKCtx (some key) (some iv) enc

/-! ## C13 -/

theorem kcbc_history_enc (e : KCtx) (hf : KFacts e) (henc : e.encrypting = true) (chunks : List Bytes)
    (hc : ∀ c ∈ chunks, 16 ∣ c.length) :
    (feed gost_grasshopper_cipher_do_cbc e chunks).2 =
      (cbcEnc (EKuz e.key) e.iv (blocks 16 chunks.flatten)).flatten := by
  have h2 : gost_grasshopper_cipher_do_cbc =
    fun s x => ((whileBlocks 16 kCbcBody s x).1, (whileBlocks 16 kCbcBody s x).2.1) := rfl
  have hdiv : 16 ∣ chunks.flatten.length := dvd_flatten_length 16 chunks hc
  rw [h2, feed_blocks 16 (by decide) kCbcBody e chunks hc]
  simp only
  have hall := blocks_all_length 16 (by decide) chunks.flatten hdiv
  generalize blocks 16 chunks.flatten = bs at *
  have key : ∀ (bs : List Bytes), (∀ b ∈ bs, b.length = 16) → ∀ s : KCtx, KFacts s → s.encrypting = true →
      (foldB kCbcBody s bs).2 = cbcEnc (EKuz s.key) s.iv bs := by
    intro bs
    induction bs with
    | nil => intro _ s _ _; rfl
    | cons b bs ih =>
      intro hb s hs he
      have hbl : b.length = 16 := hb b (by simp)
      have hE := hs.ok.enc (xorB s.iv b) (by simp [hs.2.2.2, hbl])
      have hbody : kCbcBody s b = ({ s with iv := EKuz s.key (xorB s.iv b) }, EKuz s.key (xorB s.iv b)) := by
        simp only [kCbcBody, he, if_true, hE]
      rw [foldB, hbody, cbcEnc, show Spec.xor s.iv b = xorB s.iv b from rfl]
      have hl := EKuz_length s.key (xorB s.iv b)
      generalize EKuz s.key (xorB s.iv b) = G at *
      simp only
      rw [ih (fun x hx => hb x (by simp [hx])) { s with iv := G } ⟨hs.1, hs.2.1, hs.2.2.1, hl⟩ he]
  rw [key bs hall e hf henc]

theorem kcbc_history_dec (e : KCtx) (hf : KFacts e) (henc : e.encrypting = false) (chunks : List Bytes)
    (hc : ∀ c ∈ chunks, 16 ∣ c.length) :
    (feed gost_grasshopper_cipher_do_cbc e chunks).2 =
      (cbcDec (DKuz e.key) e.iv (blocks 16 chunks.flatten)).flatten := by
  have h2 : gost_grasshopper_cipher_do_cbc =
    fun s x => ((whileBlocks 16 kCbcBody s x).1, (whileBlocks 16 kCbcBody s x).2.1) := rfl
  have hdiv : 16 ∣ chunks.flatten.length := dvd_flatten_length 16 chunks hc
  rw [h2, feed_blocks 16 (by decide) kCbcBody e chunks hc]
  simp only
  have hall := blocks_all_length 16 (by decide) chunks.flatten hdiv
  generalize blocks 16 chunks.flatten = bs at *
  have key : ∀ (bs : List Bytes), (∀ b ∈ bs, b.length = 16) → ∀ s : KCtx, KFacts s → s.encrypting = false →
      (foldB kCbcBody s bs).2 = cbcDec (DKuz s.key) s.iv bs := by
    intro bs
    induction bs with
    | nil => intro _ s _ _; rfl
    | cons b bs ih =>
      intro hb s hs he
      have hbl : b.length = 16 := hb b (by simp)
      have hD := hs.ok.dec b hbl
      have hbody : kCbcBody s b = ({ s with iv := b }, xorB (DKuz s.key b) s.iv) := by
        simp only [kCbcBody, he, Bool.false_eq_true, if_false, hD]
      rw [foldB, hbody, cbcDec, show Spec.xor s.iv (DKuz s.key b) = xorB s.iv (DKuz s.key b) from rfl, xorB_comm]
      generalize xorB s.iv (DKuz s.key b) = G at *
      simp only
      rw [ih (fun x hx => hb x (by simp [hx])) { s with iv := b } ⟨hs.1, hs.2.1, hs.2.2.1, hbl⟩ he]
  rw [key bs hall e hf henc]

/-- **C13** Kuznyechik CBC encryption over whole-block updates is textbook CBC. -/
theorem C13_kuz_cbc_is_cbc (key iv : Bytes) (hk : key.length = 32) (hiv : iv.length = 16) (chunks : List Bytes)
    (hc : ∀ c ∈ chunks, 16 ∣ c.length) :
    (feed gost_grasshopper_cipher_do_cbc (kCbcSession true key iv) chunks).2 =
      (cbcEnc (EKuz key) iv (blocks 16 chunks.flatten)).flatten := by
  obtain ⟨f1, f2, f3, f4, _⟩ := kinit_facts { freshKCtx with type := .cbc } key iv hk hiv rfl rfl true
  rw [kCbcSession, gost_grasshopper_cipher_init_cbc, kcbc_history_enc _ f1 f4 chunks hc, f2, f3]

/-- **C13** Kuznyechik CBC decryption over whole-block updates is textbook CBC decryption. -/
theorem C13_kuz_cbc_dec_is_cbc (key iv : Bytes) (hk : key.length = 32) (hiv : iv.length = 16) (chunks : List Bytes)
    (hc : ∀ c ∈ chunks, 16 ∣ c.length) :
    (feed gost_grasshopper_cipher_do_cbc (kCbcSession false key iv) chunks).2 =
      (cbcDec (DKuz key) iv (blocks 16 chunks.flatten)).flatten := by
  obtain ⟨f1, f2, f3, f4, _⟩ := kinit_facts { freshKCtx with type := .cbc } key iv hk hiv rfl rfl false
  rw [kCbcSession, gost_grasshopper_cipher_init_cbc, kcbc_history_dec _ f1 f4 chunks hc, f2, f3]

/-- **C13** Kuznyechik CBC round trip under any two splits into whole blocks. -/
theorem C13_kuz_cbc_roundtrip (key iv : Bytes) (hk : key.length = 32) (hiv : iv.length = 16)
    (chunks chunks' : List Bytes) (hc : ∀ c ∈ chunks, 16 ∣ c.length) (hc' : ∀ c ∈ chunks', 16 ∣ c.length)
    (h : chunks'.flatten = (feed gost_grasshopper_cipher_do_cbc (kCbcSession true key iv) chunks).2) :
    (feed gost_grasshopper_cipher_do_cbc (kCbcSession false key iv) chunks').2 = chunks.flatten := by
  rw [C13_kuz_cbc_dec_is_cbc key iv hk hiv chunks' hc', h, C13_kuz_cbc_is_cbc key iv hk hiv chunks hc,
    blocks_of_flatten 16 (by decide) _ (cbcEnc_all 16 _ (fun b => EKuz_length _ _) _ _),
    cbcDec_cbcEnc 16 _ _ (fun b hb => DKuz_EKuz _ b hb) (fun b => EKuz_length _ _) iv hiv _
      (blocks_all_length 16 (by decide) _ (dvd_flatten_length 16 chunks hc)), blocks_flatten 16 (by decide)]

/-- **C13** Kuznyechik ECB over whole-block updates is block-by-block encryption / decryption. -/
theorem C13_kuz_ecb_is_ecb (enc : Bool) (key iv : Bytes) (hk : key.length = 32) (chunks : List Bytes)
    (hc : ∀ c ∈ chunks, 16 ∣ c.length) :
    (feed gost_grasshopper_cipher_do_ecb (kEcbSession enc key iv) chunks).2 =
      ecb 16 (if enc then EKuz key else DKuz key) chunks.flatten := by
  have f1 : KOk (kEcbSession enc key iv) := ⟨rfl, rfl, copyN_length _ _⟩
  have f2 : (kEcbSession enc key iv).encrypting = enc := rfl
  have f3 : (kEcbSession enc key iv).key = key := copyN_self hk
  generalize kEcbSession enc key iv = e at *
  have h2 : gost_grasshopper_cipher_do_ecb =
    fun s x => ((whileBlocks 16 kEcbBody s x).1, (whileBlocks 16 kEcbBody s x).2.1) := rfl
  rw [h2, feed_blocks 16 (by decide) kEcbBody e chunks hc]
  simp only
  have hall := blocks_all_length 16 (by decide) chunks.flatten (dvd_flatten_length 16 chunks hc)
  unfold ecb
  generalize blocks 16 chunks.flatten = bs at *
  induction bs with
  | nil => rfl
  | cons b bs ih =>
    have hbl : b.length = 16 := hall b (by simp)
    have hbody : kEcbBody e b = (e, (if enc then EKuz key else DKuz key) b) := by
      cases enc
      · simp only [kEcbBody, f2, Bool.false_eq_true, if_false, f1.dec b hbl, f3]
      · simp only [kEcbBody, f2, if_true, f1.enc b hbl, f3]
    rw [foldB, hbody]
    simp only [List.map_cons, List.flatten_cons]
    rw [ih (fun x hx => hall x (by simp [hx]))]

/-- **C13** Kuznyechik ECB round trip. -/
theorem C13_kuz_ecb_roundtrip (key iv iv' : Bytes) (hk : key.length = 32) (chunks chunks' : List Bytes)
    (hc : ∀ c ∈ chunks, 16 ∣ c.length) (hc' : ∀ c ∈ chunks', 16 ∣ c.length)
    (h : chunks'.flatten = (feed gost_grasshopper_cipher_do_ecb (kEcbSession true key iv) chunks).2) :
    (feed gost_grasshopper_cipher_do_ecb (kEcbSession false key iv') chunks').2 = chunks.flatten := by
  rw [C13_kuz_ecb_is_ecb false key iv' hk chunks' hc', h, C13_kuz_ecb_is_ecb true key iv hk chunks hc]
  exact ecb_inverse 16 (by decide) (EKuz key) (DKuz key) (fun b hb => DKuz_EKuz _ b hb) (fun b => EKuz_length _ _) _
    (dvd_flatten_length 16 chunks hc)

/-- Two chunks of 1 and 2 blocks against one of 3 blocks: the hypotheses are met. -/
example : (∀ c ∈ [zeros 16, zeros 32], 16 ∣ c.length) ∧ (∀ c ∈ [zeros 48], 16 ∣ c.length) := by
  decide

/-! ## C14 -/

theorem kCtrSession_facts (enc : Bool) (key iv : Bytes) (hk : key.length = 32) (hiv : iv.length = 8) :
    KctrInv key (kCtrSession enc key iv) ∧ (kCtrSession enc key iv).num = 0 ∧
    (kCtrSession enc key iv).key = key ∧ (kCtrSession enc key iv).iv = iv ++ zeros 8 := by
  obtain ⟨f1, f2, f3, f4, f5, f6, _⟩ :=
    kinit8_facts { freshKCtx with type := .ctr, num := 0, partial_buffer := zeros 16 } key iv hk hiv rfl enc
  exact ⟨⟨f1, f2, (congrArg List.length f6).trans rfl, Nat.lt_of_le_of_lt (Nat.le_of_eq f5) (by decide : (0:Nat) < 16)⟩, f5, f2, f3⟩

/-- **C14** Kuznyechik CTR over any sequence of updates is the XOR with `E(IV || 0^64 + i)`. -/
theorem C14_kuz_ctr_keystream (enc : Bool) (key iv : Bytes) (hk : key.length = 32) (hiv : iv.length = 8)
    (chunks : List Bytes) :
    (feed gost_grasshopper_cipher_do_ctr (kCtrSession enc key iv) chunks).2 =
      xorStream 16 (ctrGamma 16 (EKuz key) (iv ++ zeros 8)) chunks.flatten := by
  obtain ⟨f1, f2, f3, f4⟩ := kCtrSession_facts enc key iv hk hiv
  rw [kctr_history _ (by rw [f3]; exact f1) f2, f3, f4]

/-- **C14** Kuznyechik CTR round trip under any two chunkings. -/
theorem C14_kuz_ctr_roundtrip (enc enc' : Bool) (key iv : Bytes) (hk : key.length = 32) (hiv : iv.length = 8)
    (chunks chunks' : List Bytes)
    (h : chunks'.flatten = (feed gost_grasshopper_cipher_do_ctr (kCtrSession enc key iv) chunks).2) :
    (feed gost_grasshopper_cipher_do_ctr (kCtrSession enc' key iv) chunks').2 = chunks.flatten := by
  rw [C14_kuz_ctr_keystream enc' key iv hk hiv, h, C14_kuz_ctr_keystream enc key iv hk hiv, xorStream_twice]

/-! ## C15 -/

theorem kAcpkmSession_facts (enc : Bool) (key iv : Bytes) (hk : key.length = 32) (hiv : iv.length = 8) :
    KactrInv 4096 (kAcpkmSession enc key iv) ∧ (kAcpkmSession enc key iv).num = 0 ∧
    (kAcpkmSession enc key iv).key = key ∧ (kAcpkmSession enc key iv).iv = iv ++ zeros 8 ∧
    (kAcpkmSession enc key iv).type = .ctracpkm := by
  obtain ⟨f1, f2, f3, f4, f5, f6, f7, f8⟩ :=
    kinit8_facts { freshKCtx with type := .ctracpkm, num := 0, section_size := 4096 } key iv hk hiv rfl enc
  exact ⟨⟨f1, f7, (congrArg List.length f6).trans rfl, Nat.lt_of_le_of_lt (Nat.le_of_eq f5) (by decide : (0:Nat) < 2^32), fun _ => Nat.le_trans (Nat.le_of_eq f5) (Nat.zero_le _)⟩, f5, f2, f3, f8⟩

/-- **C15** Kuznyechik CTR-ACPKM over any sequence of updates with the section size left at its default or
set by a successful `EVP_CTRL_KEY_MESH`: any positive multiple of 16 that fits an `int`.  Block `j` uses
the key after `⌊16 j / section⌋` ACPKM steps. -/
theorem C15_kuz_acpkm_keystream (enc : Bool) (sec : Nat) (hsec : sec < 2^31) (h0 : 0 < sec) (h16 : 16 ∣ sec)
    (key iv : Bytes) (hk : key.length = 32) (hiv : iv.length = 8) (chunks : List Bytes) :
    (gost_grasshopper_cipher_ctl_key_mesh (kAcpkmSession enc key iv) sec).2 = 1 ∧
    (feed gost_grasshopper_cipher_do_ctracpkm
      (gost_grasshopper_cipher_ctl_key_mesh (kAcpkmSession enc key iv) sec).1 chunks).2 =
      xorStream 16 (fun j => EKuz (iter (Spec.acpkm 16 EKuz) (16 * j / sec) key) (ctrBlock 16 (iv ++ zeros 8) j))
        chunks.flatten := by
  obtain ⟨f1, f2, f3, f4, f5⟩ := kAcpkmSession_facts enc key iv hk hiv
  generalize kAcpkmSession enc key iv = e at *
  have hctl : gost_grasshopper_cipher_ctl_key_mesh e sec = ({ e with section_size := sec }, 1) := by
    unfold gost_grasshopper_cipher_ctl_key_mesh
    have hm : ((sec : Int) % 2^32).toNat = sec := by omega
    rw [if_neg, hm]
    simp only [f5]
    have : ((sec : Int).tmod 16) = 0 := Int.tmod_eq_zero_of_dvd (by omega)
    simp [this]; omega
  rw [hctl]
  refine ⟨rfl, ?_⟩
  have hinv : KactrInv sec { e with section_size := sec } :=
    ⟨f1.box, rfl, f1.buf, f1.num, fun _ => by simp [f2]⟩
  have := kactr_history sec (by omega) { e with section_size := sec } hinv f2 (by simp [f4, hiv, zeros]) chunks
  rw [this]
  simp only [f3, f4]
  congr 1
  funext j
  have hr : (sec + 15) / 16 * 16 = sec := by omega
  rw [ctrAcpkmGamma, hr, if_neg (by omega), Nat.mul_comm j 16]

/-- **C15** The default section of 4096 bytes. -/
theorem C15_kuz_acpkm_default (enc : Bool) (key iv : Bytes) (hk : key.length = 32) (hiv : iv.length = 8)
    (chunks : List Bytes) :
    (feed gost_grasshopper_cipher_do_ctracpkm (kAcpkmSession enc key iv) chunks).2 =
      xorStream 16 (fun j => EKuz (iter (Spec.acpkm 16 EKuz) (16 * j / 4096) key) (ctrBlock 16 (iv ++ zeros 8) j))
        chunks.flatten := by
  obtain ⟨f1, f2, f3, f4, f5⟩ := kAcpkmSession_facts enc key iv hk hiv
  rw [kactr_history 4096 (by decide) _ f1 f2 (by simp [f4, hiv, zeros]), f3, f4]
  congr 1
  funext j
  rw [ctrAcpkmGamma, if_neg (by decide), Nat.mul_comm j 16]

/-- **C15** With section size 0 (which the code treats as "no rekeying"; the public control refuses to set
it) the mode is plain CTR. -/
theorem C15_kuz_section_zero (enc enc' : Bool) (key iv : Bytes) (hk : key.length = 32) (hiv : iv.length = 8)
    (chunks chunks' : List Bytes) (h : chunks'.flatten = chunks.flatten) :
    (feed gost_grasshopper_cipher_do_ctracpkm { kAcpkmSession enc key iv with section_size := 0 } chunks).2 =
    (feed gost_grasshopper_cipher_do_ctr (kCtrSession enc' key iv) chunks').2 := by
  obtain ⟨f1, f2, f3, f4, f5⟩ := kAcpkmSession_facts enc key iv hk hiv
  rw [C14_kuz_ctr_keystream enc' key iv hk hiv, h]
  generalize kAcpkmSession enc key iv = e at *
  have hinv : KactrInv 0 { e with section_size := 0 } :=
    ⟨f1.box, rfl, f1.buf, f1.num, fun _ => by simp [f2]⟩
  rw [kactr_history 0 (by decide) { e with section_size := 0 } hinv f2 (by simp [f4, hiv, zeros]) chunks]
  simp only [f3, f4]
  congr 1

/-- **C15** Kuznyechik CTR-ACPKM round trip. -/
theorem C15_kuz_acpkm_roundtrip (enc enc' : Bool) (sec : Nat) (hsec : sec < 2^31) (h0 : 0 < sec) (h16 : 16 ∣ sec)
    (key iv : Bytes) (hk : key.length = 32) (hiv : iv.length = 8) (chunks chunks' : List Bytes)
    (h : chunks'.flatten = (feed gost_grasshopper_cipher_do_ctracpkm
      (gost_grasshopper_cipher_ctl_key_mesh (kAcpkmSession enc key iv) sec).1 chunks).2) :
    (feed gost_grasshopper_cipher_do_ctracpkm
      (gost_grasshopper_cipher_ctl_key_mesh (kAcpkmSession enc' key iv) sec).1 chunks').2 = chunks.flatten := by
  rw [(C15_kuz_acpkm_keystream enc' sec hsec h0 h16 key iv hk hiv _).2, h,
    (C15_kuz_acpkm_keystream enc sec hsec h0 h16 key iv hk hiv _).2, xorStream_twice]

/-- Keys change: byte 64 of a session with 64-byte sections uses one ACPKM step, byte 4095 uses 63. -/
example : 16 * (64 / 16) / 64 = 1 ∧ 16 * (4095 / 16) / 64 = 63 := by decide

/-! ## C16 -/

/-- **C16** Kuznyechik OFB over any sequence of updates is the XOR with `E(IV), E(E(IV)), ...`. -/
theorem C16_ofb_keystream (enc : Bool) (key iv : Bytes) (hk : key.length = 32) (hiv : iv.length = 16)
    (chunks : List Bytes) :
    (feed gost_grasshopper_cipher_do_ofb (kOfbSession enc key iv) chunks).2 =
      xorStream 16 (ofbGamma (EKuz key) iv) chunks.flatten := by
  obtain ⟨f1, f2, f3, f4, f5, f6, _⟩ := kinit_facts { freshKCtx with type := .ofb } key iv hk hiv rfl rfl enc
  rw [kOfbSession, gost_grasshopper_cipher_init_ofb,
    kofb_history _ ⟨f1, rfl, (congrArg List.length f6).trans rfl, Nat.le_trans (Nat.le_of_eq f5) (by decide : (0:Nat) ≤ 16)⟩ f5, f2, f3]

/-- **C16** Chunk independence of OFB: any chunking gives the one-shot output. -/
theorem C16_ofb_chunking (enc : Bool) (key iv : Bytes) (hk : key.length = 32) (hiv : iv.length = 16)
    (chunks : List Bytes) :
    (feed gost_grasshopper_cipher_do_ofb (kOfbSession enc key iv) chunks).2 =
      (gost_grasshopper_cipher_do_ofb (kOfbSession enc key iv) chunks.flatten).2 := by
  have h := C16_ofb_keystream enc key iv hk hiv [chunks.flatten]
  rw [C16_ofb_keystream enc key iv hk hiv]
  simp only [feed, List.flatten_cons, List.flatten_nil, List.append_nil] at h
  exact h.symm

/-- **C16** OFB round trip under any two chunkings. -/
theorem C16_ofb_roundtrip (enc enc' : Bool) (key iv : Bytes) (hk : key.length = 32) (hiv : iv.length = 16)
    (chunks chunks' : List Bytes)
    (h : chunks'.flatten = (feed gost_grasshopper_cipher_do_ofb (kOfbSession enc key iv) chunks).2) :
    (feed gost_grasshopper_cipher_do_ofb (kOfbSession enc' key iv) chunks').2 = chunks.flatten := by
  rw [C16_ofb_keystream enc' key iv hk hiv, h, C16_ofb_keystream enc key iv hk hiv, xorStream_twice]

theorem kCfbSession_run (enc : Bool) (key iv : Bytes) (hk : key.length = 32) (hiv : iv.length = 16)
    (chunks : List Bytes) :
    (feed gost_grasshopper_cipher_do_cfb (kCfbSession enc key iv) chunks).2 =
      (runM (pcfbStep (EKuz key) enc) (iv, []) chunks.flatten).2 := by
  obtain ⟨f1, f2, f3, f4, f5, f6, f7, _⟩ := kinit_facts { freshKCtx with type := .cfb } key iv hk hiv rfl rfl enc
  have h := kcfb_history enc (kCfbSession enc key iv)
    ⟨f1, rfl, f4, (congrArg List.length f6).trans rfl, (congrArg List.length f7).trans rfl, Nat.le_trans (Nat.le_of_eq f5) (by decide : (0:Nat) ≤ 16)⟩ f5 chunks
  have g2 : (kCfbSession enc key iv).key = key := f2
  have g3 : (kCfbSession enc key iv).iv = iv := f3
  rw [g2, g3] at h
  rw [h]

/-- **C16** Kuznyechik CFB encryption over any sequence of updates is `C_i = P_i ⊕ E(C_{i-1})`, `C_0 = IV`, on the
16-byte blocks of the whole message (the last block possibly short). -/
theorem C16_cfb_enc (key iv : Bytes) (hk : key.length = 32) (hiv : iv.length = 16) (chunks : List Bytes) :
    (feed gost_grasshopper_cipher_do_cfb (kCfbSession true key iv) chunks).2 =
      (cfbPlainEnc (EKuz key) iv (blocks 16 chunks.flatten)).flatten := by
  rw [kCfbSession_run true key iv hk hiv, pcfb_closed_enc _ 16 (by decide) (fun r => EKuz_length _ _)]

/-- **C16** Kuznyechik CFB decryption over any sequence of updates. -/
theorem C16_cfb_dec (key iv : Bytes) (hk : key.length = 32) (hiv : iv.length = 16) (chunks : List Bytes) :
    (feed gost_grasshopper_cipher_do_cfb (kCfbSession false key iv) chunks).2 =
      (cfbPlainDec (EKuz key) iv (blocks 16 chunks.flatten)).flatten := by
  rw [kCfbSession_run false key iv hk hiv, pcfb_closed_dec _ 16 (by decide) (fun r => EKuz_length _ _)]

/-- **C16** Chunk independence of CFB, both directions. -/
theorem C16_cfb_chunking (enc : Bool) (key iv : Bytes) (hk : key.length = 32) (hiv : iv.length = 16)
    (chunks : List Bytes) :
    (feed gost_grasshopper_cipher_do_cfb (kCfbSession enc key iv) chunks).2 =
      (gost_grasshopper_cipher_do_cfb (kCfbSession enc key iv) chunks.flatten).2 := by
  have h := kCfbSession_run enc key iv hk hiv [chunks.flatten]
  rw [kCfbSession_run enc key iv hk hiv]
  simp only [feed, List.flatten_cons, List.flatten_nil, List.append_nil] at h
  exact h.symm

theorem pcfb_run_inverse (E : Bytes → Bytes) (xs : Bytes) (s : Bytes × Bytes) :
    (runM (pcfbStep E false) s (runM (pcfbStep E true) s xs).2).2 = xs :=
  congrArg Prod.snd (runM_inverse (pcfbStep E true) (pcfbStep E false) (fun s x => pcfb_inverse E s x) s xs)

/-- **C16** CFB round trip under any two chunkings. -/
theorem C16_cfb_roundtrip (key iv : Bytes) (hk : key.length = 32) (hiv : iv.length = 16)
    (chunks chunks' : List Bytes)
    (h : chunks'.flatten = (feed gost_grasshopper_cipher_do_cfb (kCfbSession true key iv) chunks).2) :
    (feed gost_grasshopper_cipher_do_cfb (kCfbSession false key iv) chunks').2 = chunks.flatten := by
  rw [kCfbSession_run false key iv hk hiv, h, kCfbSession_run true key iv hk hiv, pcfb_run_inverse]

/-- The hypotheses of the round trips: 32-byte key, 16-byte IV, chunks `16 + 1 + 0` against `3 + 14`. -/
example : sampleKey.length = 32 ∧ (zeros 16).length = 16 ∧
    ([zeros 16, zeros 1, zeros 0] : List Bytes).flatten = [zeros 3, zeros 14].flatten := by decide

/-! ## C17 -/

/-- **C17** Kuznyechik CBC: re-initialisation of any context is as good as a fresh one. -/
theorem C17_kuz_cbc_reinit (used : KCtx) (hl : used.iv.length = 16) (hl' : used.oiv.length = 16)
    (key iv : Bytes) (hk : key.length = 32) (hiv : iv.length = 16) (enc : Bool) (after : List Bytes)
    (hc : ∀ c ∈ after, 16 ∣ c.length) :
    (feed gost_grasshopper_cipher_do_cbc (gost_grasshopper_cipher_init_cbc used (some key) (some iv) enc) after).2 =
    (feed gost_grasshopper_cipher_do_cbc (kCbcSession enc key iv) after).2 := by
  obtain ⟨f1, f2, f3, f4, _⟩ := kinit_facts { used with type := .cbc } key iv hk hiv hl hl' enc
  cases enc with
  | true =>
    rw [C13_kuz_cbc_is_cbc key iv hk hiv after hc, gost_grasshopper_cipher_init_cbc,
      kcbc_history_enc _ f1 f4 after hc, f2, f3]
  | false =>
    rw [C13_kuz_cbc_dec_is_cbc key iv hk hiv after hc, gost_grasshopper_cipher_init_cbc,
      kcbc_history_dec _ f1 f4 after hc, f2, f3]

/-- **C17** Kuznyechik OFB: re-initialisation when no unfinished block is pending (`num = 0`).  Missing: contexts
with pending gamma, for which `C17_kuz_ofb_reinit_false` shows the claim is false. -/
theorem C17_kuz_ofb_reinit_partial (used : KCtx) (h0 : used.num = 0) (hl : used.iv.length = 16)
    (hl' : used.oiv.length = 16) (hb : used.buf.length = 16)
    (key iv : Bytes) (hk : key.length = 32) (hiv : iv.length = 16) (enc : Bool) (after : List Bytes) :
    (feed gost_grasshopper_cipher_do_ofb (gost_grasshopper_cipher_init_ofb used (some key) (some iv) enc) after).2 =
    (feed gost_grasshopper_cipher_do_ofb (kOfbSession enc key iv) after).2 := by
  obtain ⟨f1, f2, f3, f4, f5, f6, _⟩ := kinit_facts { used with type := .ofb } key iv hk hiv hl hl' enc
  rw [C16_ofb_keystream enc key iv hk hiv, gost_grasshopper_cipher_init_ofb,
    kofb_history _ ⟨f1, rfl, (congrArg List.length f6).trans hb, Nat.le_trans (Nat.le_of_eq (f5.trans h0)) (by decide)⟩ (f5.trans h0), f2, f3]

/-- A block whose first two bytes differ, and the IV that encrypts to it. -/
def witBlock : Bytes := [0, 1, 0, 0, 0, 0, 0, 0, 0, 0, 0, 0, 0, 0, 0, 0]
def witIv (key : Bytes) : Bytes := DKuz key witBlock

theorem EKuz_witIv (key : Bytes) : EKuz key (witIv key) = witBlock := EKuz_DKuz key witBlock rfl

theorem whileBlocksLt_one {S : Type} (body : S → Bytes → S × Bytes) (s : S) (b : Byte) :
    whileBlocksLt 16 body s [b] = (s, [], [b]) := by
  rw [whileBlocksLt, dif_neg (by simp)]

/-- Record update as a function, so that the cipher output is an atom for the kernel. -/
def setBufIv (e : KCtx) (G : Bytes) : KCtx := { e with buf := G, iv := G }

theorem ofb_first_byte_aux (e : KCtx) (h0 : e.num = 0) (G : Bytes) (hc : gost_grasshopper_cnt_next e = setBufIv e G) :
    let r := gost_grasshopper_cipher_do_ofb e [0]
    r.1.num = 1 ∧ r.1.buf = G ∧ r.1.iv = G ∧ r.1.oiv = e.oiv ∧ r.2 = xorB (G.take 1) [0] := by
  rw [gost_grasshopper_cipher_do_ofb, if_neg (by omega), kOfbMain, whileBlocksLt_one]
  simp only [List.length_singleton, Nat.lt_add_one, if_true, hc, List.nil_append]
  exact ⟨trivial, rfl, rfl, rfl, rfl⟩

theorem ofb_first_byte (e : KCtx) (h : KFacts e) (h0 : e.num = 0) :
    let r := gost_grasshopper_cipher_do_ofb e [0]
    r.1.num = 1 ∧ r.1.buf = EKuz e.key e.iv ∧ r.1.iv = EKuz e.key e.iv ∧ r.1.oiv = e.oiv ∧
      r.2 = xorB ((EKuz e.key e.iv).take 1) [0] := 
  ofb_first_byte_aux e h0 _ (cnt_next_eq h rfl)

/-- **C17** (fails for OFB) feed one byte, re-initialise with the same key and IV, feed the same byte: the
output differs from a fresh context's (for every key, with a suitable IV). -/
theorem C17_kuz_ofb_reinit_false (key : Bytes) (hk : key.length = 32) :
    ¬ ∀ (iv : Bytes), iv.length = 16 → ∀ (before after : List Bytes),
      let used := (feed gost_grasshopper_cipher_do_ofb (kOfbSession true key iv) before).1
      (feed gost_grasshopper_cipher_do_ofb (gost_grasshopper_cipher_init_ofb used (some key) (some iv) true) after).2 =
      (feed gost_grasshopper_cipher_do_ofb (kOfbSession true key iv) after).2 := by
  intro h
  have hiv : (witIv key).length = 16 := DKuz_length _ _
  have hc := h (witIv key) hiv [[0]] [[0]]
  obtain ⟨f1, f2, f3, f4, f5, f6, _⟩ := kinit_facts { freshKCtx with type := .ofb } key (witIv key) hk hiv rfl rfl true
  have f9 : (kOfbSession true key (witIv key)).oiv.length = 16 := by
    show (memcpyTo (zeros 16) (witIv key) 16).length = 16
    rw [memcpyTo_all _ _ 16 (by decide) hiv, hiv]
  change KFacts (kOfbSession true key (witIv key)) at f1
  change (kOfbSession true key (witIv key)).key = key at f2
  change (kOfbSession true key (witIv key)).iv = witIv key at f3
  change (kOfbSession true key (witIv key)).num = 0 at f5
  generalize kOfbSession true key (witIv key) = S at *
  obtain ⟨r1, r2, r3, r4, r5⟩ := ofb_first_byte S f1 f5
  rw [f2, f3, EKuz_witIv] at r2 r3 r5
  simp only [feed, List.append_nil] at hc
  generalize gost_grasshopper_cipher_do_ofb S [0] = R at *
  obtain ⟨U, o⟩ := R
  simp only at r1 r2 r3 r4 r5 hc
  obtain ⟨g1, g2, g3, g4, g5, g6, _⟩ := kinit_facts { U with type := .ofb } key (witIv key) hk hiv
    (by rw [r3]; rfl) (by rw [r4]; exact f9) true
  change (gost_grasshopper_cipher_init_ofb U (some key) (some (witIv key)) true).num = U.num at g5
  change (gost_grasshopper_cipher_init_ofb U (some key) (some (witIv key)) true).buf = U.buf at g6
  generalize gost_grasshopper_cipher_init_ofb U (some key) (some (witIv key)) true = V at *
  have v5 : V.num = 1 := g5.trans r1
  have v6 : V.buf = witBlock := g6.trans r2
  have hl : (gost_grasshopper_cipher_do_ofb V [0]).2 = [1] := by
    rw [gost_grasshopper_cipher_do_ofb, if_pos (by omega), v5, v6]
    rfl
  rw [hl, r5] at hc
  exact absurd hc (by decide)

theorem cfb_first_byte_aux (e : KCtx) (h0 : e.num = 0) (he : e.encrypting = true) (G : Bytes)
    (h1 : grasshopper_encrypt_block e.encrypt_round_keys e.iv = G) :
    let r := gost_grasshopper_cipher_do_cfb e [0]
    r.1.num = 1 ∧ r.1.buf = G ∧ r.1.iv = e.iv ∧ r.1.oiv = e.oiv ∧ r.2 = xorB (G.take 1) [0] := by
  rw [gost_grasshopper_cipher_do_cfb, if_neg (by omega), kCfbMain, whileBlocksLt_one]
  simp only [List.length_singleton, Nat.lt_add_one, if_true, he, List.nil_append, h1]
  exact ⟨trivial, trivial, trivial, trivial, trivial⟩

theorem cfb_first_byte (e : KCtx) (h : KFacts e) (h0 : e.num = 0) (he : e.encrypting = true) :
    let r := gost_grasshopper_cipher_do_cfb e [0]
    r.1.num = 1 ∧ r.1.buf = EKuz e.key e.iv ∧ r.1.iv = e.iv ∧ r.1.oiv = e.oiv ∧
      r.2 = xorB ((EKuz e.key e.iv).take 1) [0] :=
  cfb_first_byte_aux e h0 he _ (h.ok.enc e.iv h.2.2.2)

/-- **C17** (fails for CFB). -/
theorem C17_kuz_cfb_reinit_false (key : Bytes) (hk : key.length = 32) :
    ¬ ∀ (iv : Bytes), iv.length = 16 → ∀ (before after : List Bytes),
      let used := (feed gost_grasshopper_cipher_do_cfb (kCfbSession true key iv) before).1
      (feed gost_grasshopper_cipher_do_cfb (gost_grasshopper_cipher_init_cfb used (some key) (some iv) true) after).2 =
      (feed gost_grasshopper_cipher_do_cfb (kCfbSession true key iv) after).2 := by
  intro h
  have hiv : (witIv key).length = 16 := DKuz_length _ _
  have hc := h (witIv key) hiv [[0]] [[0]]
  obtain ⟨f1, f2, f3, f4, f5, f6, _⟩ := kinit_facts { freshKCtx with type := .cfb } key (witIv key) hk hiv rfl rfl true
  have f9 : (kCfbSession true key (witIv key)).oiv.length = 16 := by
    show (memcpyTo (zeros 16) (witIv key) 16).length = 16
    rw [memcpyTo_all _ _ 16 (by decide) hiv, hiv]
  change KFacts (kCfbSession true key (witIv key)) at f1
  change (kCfbSession true key (witIv key)).key = key at f2
  change (kCfbSession true key (witIv key)).iv = witIv key at f3
  change (kCfbSession true key (witIv key)).encrypting = true at f4
  change (kCfbSession true key (witIv key)).num = 0 at f5
  generalize kCfbSession true key (witIv key) = S at *
  obtain ⟨r1, r2, r3, r4, r5⟩ := cfb_first_byte S f1 f5 f4
  rw [f2, f3, EKuz_witIv] at r2 r5
  simp only [feed, List.append_nil] at hc
  generalize gost_grasshopper_cipher_do_cfb S [0] = R at *
  obtain ⟨U, o⟩ := R
  simp only at r1 r2 r3 r4 r5 hc
  obtain ⟨g1, g2, g3, g4, g5, g6, _⟩ := kinit_facts { U with type := .cfb } key (witIv key) hk hiv
    (by rw [r3, f3]; exact hiv) (by rw [r4]; exact f9) true
  change (gost_grasshopper_cipher_init_cfb U (some key) (some (witIv key)) true).num = U.num at g5
  change (gost_grasshopper_cipher_init_cfb U (some key) (some (witIv key)) true).buf = U.buf at g6
  generalize gost_grasshopper_cipher_init_cfb U (some key) (some (witIv key)) true = V at *
  have v5 : V.num = 1 := g5.trans r1
  have v6 : V.buf = witBlock := g6.trans r2
  have hl : (gost_grasshopper_cipher_do_cfb V [0]).2 = [1] := by
    rw [gost_grasshopper_cipher_do_cfb, if_pos (by omega), v5, v6]
    rfl
  rw [hl, r5] at hc
  exact absurd hc (by decide)

/-- **C17** What re-initialisation of a Kuznyechik CTR context really does: the keystream starts at the counter
`IV || (last 8 bytes of the old counter)` instead of `IV || 0`. -/
theorem C17_kuz_ctr_reinit_actual (used : KCtx) (hl : used.iv.length = 16)
    (key iv : Bytes) (hk : key.length = 32) (hiv : iv.length = 8) (enc : Bool) (after : List Bytes) :
    (feed gost_grasshopper_cipher_do_ctr (gost_grasshopper_cipher_init_ctr used (some key) (some iv) enc) after).2 =
      xorStream 16 (ctrGamma 16 (EKuz key) (iv ++ used.iv.drop 8)) after.flatten := by
  obtain ⟨f1, f2, f3, f4, f5, f6, _⟩ :=
    kinit8_facts { used with type := .ctr, num := 0, partial_buffer := zeros 16 } key iv hk hiv hl enc
  rw [gost_grasshopper_cipher_init_ctr, kctr_history _ ⟨f1, rfl, (congrArg List.length f6).trans rfl,
    Nat.lt_of_le_of_lt (Nat.le_of_eq f5) (by decide : (0:Nat) < 16)⟩ f5, f2, f3]

/-- **C17** Kuznyechik CTR: re-initialisation is as good as a fresh context if the counter half of the IV buffer
is zero (nothing processed yet, or the context last used by a mode leaving it zero).  Missing: contexts that have
processed data, for which `C17_kuz_ctr_reinit_false` shows the claim is false. -/
theorem C17_kuz_ctr_reinit_partial (used : KCtx) (hl : used.iv.length = 16) (hz : used.iv.drop 8 = zeros 8)
    (key iv : Bytes) (hk : key.length = 32) (hiv : iv.length = 8) (enc : Bool) (after : List Bytes) :
    (feed gost_grasshopper_cipher_do_ctr (gost_grasshopper_cipher_init_ctr used (some key) (some iv) enc) after).2 =
    (feed gost_grasshopper_cipher_do_ctr (kCtrSession enc key iv) after).2 := by
  rw [C17_kuz_ctr_reinit_actual used hl key iv hk hiv, hz, C14_kuz_ctr_keystream enc key iv hk hiv]

example : (zeros 16).length = 16 ∧ (zeros 16).drop 8 = zeros 8 := by decide

/-- **C17** (fails for CTR, for every key) after one processed block. -/
theorem C17_kuz_ctr_reinit_false (key : Bytes) (hk : key.length = 32) :
    ¬ ∀ (iv : Bytes), iv.length = 8 → ∀ (before after : List Bytes),
      let used := (feed gost_grasshopper_cipher_do_ctr (kCtrSession true key iv) before).1
      (feed gost_grasshopper_cipher_do_ctr (gost_grasshopper_cipher_init_ctr used (some key) (some iv) true) after).2 =
      (feed gost_grasshopper_cipher_do_ctr (kCtrSession true key iv) after).2 := by
  intro h
  have hc := h (zeros 8) rfl [zeros 16] [zeros 16]
  obtain ⟨f1, f2, f3, f4⟩ := kCtrSession_facts true key (zeros 8) hk rfl
  obtain ⟨hi, hr⟩ := feed_refines gost_grasshopper_cipher_do_ctr (ksStep (kctrNext key)) kctrAbs (KctrInv key)
    (fun s xs hs => do_kctr_refines key s xs hs) _ f1 [zeros 16]
  have hs := ks_state (kctrNext key) 16 (by decide) (fun _ => True)
    (fun i _ => ⟨trivial, kctrNext_len _ i⟩) (zeros 8 ++ zeros 8) trivial [zeros 16].flatten
  have habs : kctrAbs (kCtrSession true key (zeros 8)) = (zeros 8 ++ zeros 8, []) := by simp only [kctrAbs, f2, f4, if_true]
  rw [habs] at hr
  rw [hr, kctr_iter _ _ (by decide)] at hs
  simp only at hc
  rw [C14_kuz_ctr_keystream true key _ hk rfl] at hc
  generalize (feed gost_grasshopper_cipher_do_ctr (kCtrSession true key (zeros 8)) [zeros 16]).1 = U at *
  have hUiv : U.iv = ctrBlock 16 (zeros 16) 1 := hs
  rw [C17_kuz_ctr_reinit_actual U hi.facts.2.2.2 key _ hk rfl, hUiv] at hc
  have hg : ∀ g : Nat → Bytes, (g 0).length = 16 → xorStream 16 g [zeros 16].flatten = g 0 := by
    intro g hg
    obtain ⟨b0, b1, b2, b3, b4, b5, b6, b7, b8, b9, b10, b11, b12, b13, b14, b15, hgb⟩ := list16 hg
    simp [xorStream, hgb, zeros]
  rw [hg _ (EKuz_length _ _), hg _ (EKuz_length _ _)] at hc
  have hd := congrArg (DKuz key) hc
  simp only [ctrGamma] at hd
  rw [DKuz_EKuz _ _ (by decide), DKuz_EKuz _ _ (by decide)] at hd
  revert hd
  decide

/-! ## C49 -/

/-- **C49** Kuznyechik: the section-size control accepts exactly the non-zero multiples of 16 and only on the
ACPKM ciphers; a refused call changes nothing. -/
theorem C49_kuz_section_size (c : KCtx) (arg : Int) :
    ((gost_grasshopper_cipher_ctl_key_mesh c arg).2 = 1 ↔
      (c.type = .ctracpkm ∨ c.type = .ctracpkmomac) ∧ arg ≠ 0 ∧ (16 : Int) ∣ arg) ∧
    ((gost_grasshopper_cipher_ctl_key_mesh c arg).2 ≠ 1 → gost_grasshopper_cipher_ctl_key_mesh c arg = (c, -1)) := by
  have hd : arg.tmod 16 = 0 ↔ (16 : Int) ∣ arg := (Int.dvd_iff_tmod_eq_zero).symm
  unfold gost_grasshopper_cipher_ctl_key_mesh
  by_cases h : (c.type ≠ .ctracpkm ∧ c.type ≠ .ctracpkmomac) ∨ arg = 0 ∨ arg.tmod 16 ≠ 0
  · rw [if_pos h]
    refine ⟨⟨fun h' => absurd (show (-1 : Int) = 1 from h') (by decide), fun ⟨h1, h2, h3⟩ => ?_⟩, fun _ => rfl⟩
    rcases h with h | h | h
    · rcases h1 with h1 | h1
      · exact absurd h1 h.1
      · exact absurd h1 h.2
    · exact absurd h h2
    · exact absurd (hd.mpr h3) h
  · rw [if_neg h]
    refine ⟨⟨fun _ => ?_, fun _ => rfl⟩, fun h' => absurd rfl h'⟩
    push Not at h
    refine ⟨?_, h.2.1, hd.mp h.2.2⟩
    by_cases h1 : c.type = .ctracpkm
    · exact Or.inl h1
    · exact Or.inr (h.1 h1)

/-- **C49** On a fresh ACPKM context 1024 is accepted, 1000 is refused. -/
example (c : KCtx) (h : c.type = .ctracpkm) :
    (gost_grasshopper_cipher_ctl_key_mesh c 1024).2 = 1 ∧ (gost_grasshopper_cipher_ctl_key_mesh c 1000).2 = -1 := by
  simp [gost_grasshopper_cipher_ctl_key_mesh, h]

end Gost
