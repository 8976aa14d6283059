import Verif.Props.GostModes

/-!
# C17 (re-initialisation) and C49 (parameter changes after data) for the 8-byte-block ciphers

C17 is *false* of the code for the stream modes: the init callbacks of GOST 28147-89 CFB/CNT and of
Magma CTR do not reset `EVP_CIPHER_CTX_num` (EVP does not do it either for `EVP_CIPH_CUSTOM_IV`
ciphers of an engine that are re-initialised with the same cipher), CFB's does not reset the meshing
byte counter, and Magma CTR's does not reset the counter half of the IV buffer.  The theorems named
`_false` exhibit histories; the `_partial` theorems state where the claim holds.
-/

namespace Gost
open Spec

/-- Masks used in the concrete witnesses. -/
def witRng : Nat → Fin 8 → W32 := fun _ _ => 0

/-! ## C17 -/

/-- **C17** (fails for CNT) feed one byte, re-initialise with the same key and IV, feed the same byte:
the output differs from a fresh context's. -/
theorem C17_cnt_reinit_false :
    ¬ ∀ (rng : Nat → Fin 8 → W32) (key iv : Bytes), key.length = 32 → iv.length = 8 →
      ∀ (before after : List Bytes),
      let used := (feed gost_cipher_do_cnt (gost_cipher_init_cnt (freshCtx rng true) (some key) (some iv) true
        Gost28147_TC26ParamSetZ) before).1
      (feed gost_cipher_do_cnt (gost_cipher_init_cnt used (some key) (some iv) true Gost28147_TC26ParamSetZ) after).2 =
      (feed gost_cipher_do_cnt (gost_cipher_init_cnt (freshCtx rng true) (some key) (some iv) true
        Gost28147_TC26ParamSetZ) after).2 := by
  intro h
  have := h witRng sampleKey (zeros 8) rfl rfl [[0]] [[0]]
  revert this
  decide +kernel

/-- **C17** (fails for CFB). -/
theorem C17_cfb_reinit_false :
    ¬ ∀ (rng : Nat → Fin 8 → W32) (key iv : Bytes), key.length = 32 → iv.length = 8 →
      ∀ (before after : List Bytes),
      (do let e0 ← gost_cipher_init_param (freshCtx rng true) (some key) (some iv) true none
          let e1 ← gost_cipher_init_param (feed gost_cipher_do_cfb e0 before).1 (some key) (some iv) true none
          some (feed gost_cipher_do_cfb e1 after).2) =
      (do let e0 ← gost_cipher_init_param (freshCtx rng true) (some key) (some iv) true none
          some (feed gost_cipher_do_cfb e0 after).2) := by
  intro h
  have := h witRng sampleKey (zeros 8) rfl rfl [[0]] [[0]]
  revert this
  decide +kernel

/-- **C17** (fails for Magma CTR). -/
theorem C17_magma_ctr_reinit_false :
    ¬ ∀ (rng : Nat → Fin 8 → W32) (key iv : Bytes), key.length = 32 → iv.length = 4 →
      ∀ (before after : List Bytes),
      let used := (feed magma_cipher_do_ctr (magmaSession rng true 4 false key iv) before).1
      (feed magma_cipher_do_ctr (magma_cipher_init used (some key) (some iv) true 4 false) after).2 =
      (feed magma_cipher_do_ctr (magmaSession rng true 4 false key iv) after).2 := by
  intro h
  have := h witRng sampleKey (zeros 4) rfl rfl [zeros 8] [[0]]
  revert this
  decide +kernel

theorem memcpy8 (d s : Bytes) (hd : d.length = 8) (hs : s.length = 8) : memcpy d s 8 = s := by
  simp [memcpy, List.take_of_length_le, List.drop_of_length_le, hd, hs]

/-- **C17** CNT: re-initialisation at a block boundary (`num = 0`) of any used context, with any key, IV
and S-box, is as good as a fresh context.  Missing: contexts with an unfinished block, for which
`C17_cnt_reinit_false` shows the claim is false. -/
theorem C17_cnt_reinit_partial (rng : Nat → Fin 8 → W32) (used : CipherCtx) (h0 : used.num = 0)
    (hl : used.iv.length = 8) (hl' : used.oiv.length = 8) (hb : used.buf.length = 8)
    (key iv : Bytes) (hk : key.length = 32) (hiv : iv.length = 8) (enc : Bool) (block : SubstBlock)
    (after : List Bytes) :
    (feed gost_cipher_do_cnt (gost_cipher_init_cnt used (some key) (some iv) enc block) after).2 =
    (feed gost_cipher_do_cnt (gost_cipher_init_cnt (freshCtx rng enc) (some key) (some iv) enc block) after).2 := by
  have main : ∀ (u : CipherCtx), u.num = 0 → u.iv.length = 8 → u.oiv.length = 8 → u.buf.length = 8 →
      (feed gost_cipher_do_cnt (gost_cipher_init_cnt u (some key) (some iv) enc block) after).2 =
      xorStream 8 (cntGamma (E89 (kboxinit block)) (mesh89 (kboxinit block)) cntAdd true key iv) after.flatten := by
    intro u u1 u2 u3 u4
    have hinv : CntInv (kboxinit block) true (gost_cipher_init_cnt u (some key) (some iv) enc block) :=
      ⟨rfl, by simp [gost_cipher_init_cnt, setIv], u4, by show u.num < 8; omega⟩
    have hkey : gost_get_key (gost_cipher_init_cnt u (some key) (some iv) enc block).cctx = key :=
      gost_get_key_set _ _ hk
    have hiv' : (gost_cipher_init_cnt u (some key) (some iv) enc block).iv = iv := by
      show memcpy u.iv (memcpy u.oiv iv 8) 8 = iv
      rw [memcpy8 _ iv u3 hiv, memcpy8 _ iv u2 hiv]
    rw [cnt_history (kboxinit block) true _ hinv u1 rfl, hkey, hiv']
  rw [main used h0 hl hl' hb, main (freshCtx rng enc) rfl rfl rfl rfl]

/-- The hypotheses of the partial theorem hold after whole blocks. -/
example : let used := (feed gost_cipher_do_cnt (gost_cipher_init_cnt (freshCtx witRng true) (some sampleKey)
      (some (zeros 8)) true Gost28147_TC26ParamSetZ) [[1,2,3],[4,5,6,7,8]]).1
    used.num = 0 ∧ used.iv.length = 8 ∧ used.oiv.length = 8 ∧ used.buf.length = 8 ∧ used.iv ≠ zeros 8 := by
  decide +kernel

/-- **C17** GOST 28147-89 CBC: re-initialisation of any initialised context behaves like a fresh one
(with the S-box set selected in the context). -/
theorem C17_cbc_reinit (used : CipherCtx) (p : ParamNID) (hp : used.cctx.box = boxOf p)
    (ha : used.appData = true) (hl : used.iv.length = 8) (hl' : used.oiv.length = 8)
    (rng : Nat → Fin 8 → W32) (mesh : Nat) (key iv : Bytes) (hk : key.length = 32) (hiv : iv.length = 8)
    (enc : Bool) (env : Option (Option ParamNID)) (after : List Bytes) (hc : ∀ c ∈ after, 8 ∣ c.length) :
    ∃ e0 e1, paramSession rng enc p mesh key iv = some e0 ∧
      gost_cipher_init_param used (some key) (some iv) enc env = some e1 ∧
      (feed gost_cipher_do_cbc e1 after).2 = (feed gost_cipher_do_cbc e0 after).2 := by
  obtain ⟨e0, h1, h2, _, _, h5, h6⟩ := paramSession_facts rng enc p mesh key iv hk hiv
  have hinit : gost_cipher_init_param used (some key) (some iv) enc env =
      some (setIv { { used with encrypting := enc } with cctx := gost_key used.cctx key } (some iv) 8) := by
    simp [gost_cipher_init_param, ha]
  refine ⟨e0, _, h1, hinit, ?_⟩
  generalize hgen : setIv { { used with encrypting := enc } with cctx := gost_key used.cctx key } (some iv) 8 = e1
  have g1 : e1.cctx.box = boxOf p := by subst hgen; exact hp
  have g2 : e1.encrypting = enc := by subst hgen; rfl
  have g3 : gost_get_key e1.cctx = key := by
    subst hgen; exact gost_get_key_set _ _ hk
  have g4 : e1.iv = iv := by
    subst hgen
    show memcpy used.iv (memcpy used.oiv iv 8) 8 = iv
    rw [memcpy8 _ iv hl' hiv, memcpy8 _ iv hl hiv]
  cases enc with
  | true =>
    rw [cbc_history_enc (boxOf p) e1 g1 g2 after hc, cbc_history_enc (boxOf p) e0 h2.box h2.enc after hc,
      g3, g4, h5, h6]
  | false =>
    rw [cbc_history_dec (boxOf p) e1 g1 g2 after hc, cbc_history_dec (boxOf p) e0 h2.box h2.enc after hc,
      g3, g4, h5, h6]

example : ∃ e0, paramSession witRng true .cryptoProB 1 sampleKey (zeros 8) = some e0 ∧
    (gost_cipher_do_cbc e0 (zeros 16)).1.appData = true ∧ (gost_cipher_do_cbc e0 (zeros 16)).1.iv.length = 8 ∧
    (gost_cipher_do_cbc e0 (zeros 16)).1.iv ≠ zeros 8 :=
  ⟨_, rfl, by decide +kernel⟩

/-! ## C49 -/

/-- **C49** CNT: after any history in which at least one byte was processed, `EVP_CTRL_SET_SBOX` and
`EVP_CTRL_KEY_MESH` return -1 and leave the context unchanged. -/
theorem C49_cnt_params_locked (rng : Nat → Fin 8 → W32) (enc : Bool) (block : SubstBlock) (mesh : Nat)
    (key iv : Bytes) (hk : key.length = 32) (hiv : iv.length = 8) (chunks : List Bytes)
    (hne : chunks.flatten ≠ []) (op : CtlOp) :
    let e := (feed gost_cipher_do_cnt (cntSession rng enc block mesh key iv) chunks).1
    gost_cipher_ctl e op = (e, -1) := by
  have h := (C12_cnt_meshing_count rng enc block mesh key iv hk hiv chunks).2
  rw [if_neg hne] at h
  generalize (feed gost_cipher_do_cnt (cntSession rng enc block mesh key iv) chunks).1 = e at *
  have : e.count ≠ 0 := by rw [h]; omega
  cases op <;> simp [gost_cipher_ctl, this]

/-- **C49** The same for CFB. -/
theorem C49_cfb_params_locked (rng : Nat → Fin 8 → W32) (enc : Bool) (p : ParamNID) (mesh : Nat)
    (key iv : Bytes) (hk : key.length = 32) (hiv : iv.length = 8) (chunks : List Bytes)
    (hne : chunks.flatten ≠ []) (op : CtlOp) :
    ∃ e0, paramSession rng enc p mesh key iv = some e0 ∧
    let e := (feed gost_cipher_do_cfb e0 chunks).1
    gost_cipher_ctl e op = (e, -1) := by
  obtain ⟨e0, h1, h2⟩ := C12_cfb_meshing_count rng enc p mesh key iv hk hiv chunks
  refine ⟨e0, h1, ?_⟩
  have h := h2.2
  rw [if_neg hne] at h
  generalize (feed gost_cipher_do_cfb e0 chunks).1 = e at *
  have : e.count ≠ 0 := by rw [h]; omega
  cases op <;> simp [gost_cipher_ctl, this]

/-- Before any data the same calls succeed (the property is not vacuous). -/
example : (gost_cipher_ctl (cntSession witRng true Gost28147_TC26ParamSetZ 1 sampleKey (zeros 8)) (.keyMesh 0)).2 = 1 :=
  rfl

/-- **C49** (fails for CBC) GOST 28147-89 CBC never advances the byte counter, so the S-box set can be
changed in the middle of a message: the control call succeeds and the same block then encrypts
differently. -/
theorem C49_cbc_params_locked_false :
    ¬ ∀ (rng : Nat → Fin 8 → W32) (key iv : Bytes), key.length = 32 → iv.length = 8 →
      ∀ (chunks : List Bytes) (op : CtlOp) (e0 : CipherCtx), chunks.flatten ≠ [] →
      paramSession rng true .tc26Z 1 key iv = some e0 →
      let e := (feed gost_cipher_do_cbc e0 chunks).1
      gost_cipher_ctl e op = (e, -1) := by
  intro h
  have := congrArg Prod.snd (h witRng sampleKey (zeros 8) rfl rfl [zeros 8] (.setSbox (some .test)) _ (by decide) rfl)
  revert this
  decide +kernel

/-- **C49** The mid-message change takes effect: the next block encrypts differently. -/
theorem C49_cbc_sbox_change_effective :
    ∃ (key iv data : Bytes) (e0 : CipherCtx), paramSession witRng true .tc26Z 1 key iv = some e0 ∧
      let e := (gost_cipher_do_cbc e0 data).1
      (gost_cipher_ctl e (.setSbox (some .test))).2 = 1 ∧
      (gost_cipher_do_cbc (gost_cipher_ctl e (.setSbox (some .test))).1 data).2 ≠ (gost_cipher_do_cbc e data).2 :=
  ⟨sampleKey, zeros 8, zeros 8, _, rfl, by decide +kernel⟩

/-- The relation between the counter block and the byte counter in Magma CTR. -/
def mcInv (iv0 : Bytes) (e : CipherCtx) : Prop := ∃ m, e.iv = ctrBlock 8 iv0 m ∧ e.count = 8 * m % 2^32

theorem mcInv_gamma (iv0 : Bytes) (e : CipherCtx) (h : mcInv iv0 e) : mcInv iv0 (magmaCtrGamma e) := by
  obtain ⟨m, h1, h2⟩ := h
  have hiv : (apply_acpkm_magma e).iv = e.iv := by unfold apply_acpkm_magma; split <;> rfl
  have hct : (apply_acpkm_magma e).count = e.count := by unfold apply_acpkm_magma; split <;> rfl
  refine ⟨m + 1, ?_, ?_⟩
  · show inc_counter (apply_acpkm_magma e).iv 8 = _
    rw [hiv, h1, ctrBlock_succ]
  · show ((apply_acpkm_magma e).count + 8) % 2^32 = _
    rw [hct, h2]
    omega

theorem mcInv_do_ctr (iv0 : Bytes) (e : CipherCtx) (h : mcInv iv0 e) (inp : Bytes) :
    mcInv iv0 (magma_cipher_do_ctr e inp).1 := by
  have h1 : mcInv iv0 { e with num := (magmaCtrPart e.buf e.num inp).1 } := h
  have h2 := whileBlocks_inv 8 magmaCtrBody (mcInv iv0) (fun s xs hs _ => mcInv_gamma iv0 s hs) _ h1
    (magmaCtrPart e.buf e.num inp).2.2
  unfold magma_cipher_do_ctr
  simp only
  split
  · exact mcInv_gamma iv0 _ h2
  · exact h2

/-- The byte counter of Magma CTR(-ACPKM) after any history. -/
theorem magma_ctr_count (e : CipherCtx) (sec : Nat) (hsec : sec < 2^31) (h : MctrInv magmaBox sec e)
    (h0 : e.num = 0) (hc : e.count = 0) (hiv : e.iv.length = 8) (chunks : List Bytes) :
    (feed magma_cipher_do_ctr e chunks).1.count = 8 * ((chunks.flatten.length + 7) / 8) % 2^32 := by
  have h1 : mcInv e.iv (feed magma_cipher_do_ctr e chunks).1 := by
    have h3 : mcInv e.iv e := ⟨0, (ctrBlock_zero 8 _ hiv).symm, by simpa using hc⟩
    clear h h0 hc
    generalize e.iv = v at *
    induction chunks generalizing e with
    | nil => exact h3
    | cons c cs ih => exact ih _ (mcInv_do_ctr _ _ h3 c)
  obtain ⟨m, hm1, hm2⟩ := h1
  obtain ⟨_, hr⟩ := feed_refines magma_cipher_do_ctr (ksStep (mctrNext magmaBox sec)) mctrAbs (MctrInv magmaBox sec)
    (fun s xs hs => do_ctr_refines magmaBox sec (by omega) s xs hs) e h chunks
  have hs := ks_state (mctrNext magmaBox sec) 8 (by decide) (fun _ => True)
    (fun i _ => ⟨trivial, mctrNext_len magmaBox sec i⟩) (magma_get_key e.cctx, e.iv, 0) trivial chunks.flatten
  have habs : mctrAbs e = ((magma_get_key e.cctx, e.iv, 0), []) := by
    simp [mctrAbs, mctrPos, h0]
  rw [habs] at hr
  rw [hr, (mctr_iter_round magmaBox sec _ _ _).2, mctr_iter _ _ (Nat.dvd_mul_left 8 _) _ _ hiv] at hs
  have hv : (feed magma_cipher_do_ctr e chunks).1.iv = ctrBlock 8 e.iv ((chunks.flatten.length + 7) / 8) := by
    have := congrArg (fun x => x.2.1) hs
    simp only [mctrAbs] at this
    rw [this]
    split <;> rfl
  rw [hm1] at hv
  have hb := congrArg beNat hv
  simp only [ctrBlock, beNat_beBytes] at hb
  rw [hm2]
  omega

/-- **C49** Magma CTR-ACPKM: after any history of `n` bytes the section-size control is refused, and the
context unchanged, unless `8·⌈n/8⌉` is a multiple of `2^32` (in particular for all `0 < n ≤ 2^32 - 8`). -/
theorem C49_magma_section_locked (rng : Nat → Fin 8 → W32) (enc acpkm : Bool) (key iv : Bytes)
    (hk : key.length = 32) (hiv : iv.length = 4) (chunks : List Bytes) (arg : Nat)
    (hne : 0 < chunks.flatten.length) (hle : chunks.flatten.length ≤ 2^32 - 8) :
    let e := (feed magma_cipher_do_ctr (magmaSession rng enc 4 acpkm key iv) chunks).1
    magma_cipher_ctl_key_mesh e arg = (e, -1) := by
  obtain ⟨f1, f2, f2', f3, f4⟩ := magmaSession_ctr_facts rng enc acpkm key iv hk hiv
  have := magma_ctr_count _ _ (by split <;> decide) f1 f2 f2' (by rw [f4]; simp [hiv]) chunks
  have hnz : (feed magma_cipher_do_ctr (magmaSession rng enc 4 acpkm key iv) chunks).1.count ≠ 0 := by
    rw [this]; omega
  simp [magma_cipher_ctl_key_mesh, hnz]

/-- **C49** (fails at `2^32` bytes) the 32-bit counter wraps: after exactly `2^32` bytes the section size can
be changed. -/
theorem C49_magma_section_locked_false (rng : Nat → Fin 8 → W32) (enc acpkm : Bool) (key iv : Bytes)
    (hk : key.length = 32) (hiv : iv.length = 4) (arg : Nat) (data : Bytes) (hd : data.length = 2^32) :
    (magma_cipher_ctl_key_mesh (magma_cipher_do_ctr (magmaSession rng enc 4 acpkm key iv) data).1 arg).2 = 1 := by
  obtain ⟨f1, f2, f2', f3, f4⟩ := magmaSession_ctr_facts rng enc acpkm key iv hk hiv
  have := magma_ctr_count _ _ (by split <;> decide) f1 f2 f2' (by rw [f4]; simp [hiv]) [data]
  have hz : (magma_cipher_do_ctr (magmaSession rng enc 4 acpkm key iv) data).1.count = 0 := by
    have h2 : (feed magma_cipher_do_ctr (magmaSession rng enc 4 acpkm key iv) [data]).1 =
      (magma_cipher_do_ctr (magmaSession rng enc 4 acpkm key iv) data).1 := rfl
    rw [← h2, this]
    simp [hd]
  simp [magma_cipher_ctl_key_mesh, hz]

end Gost
