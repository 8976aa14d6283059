import Verif.Lemmas.GostModes
import Verif.Lemmas.GostCfb
import Verif.Lemmas.CntAdd
import Verif.Lemmas.MagmaCtr
import Verif.Props.Gost89
import Mathlib.Data.Nat.ModEq
import Mathlib.Algebra.BigOperators.Group.List.Basic

/-!
# Properties of the GOST 28147-89 and Magma cipher modes (C07, C09-C15, C17, C49)

A *session* is what an application does: a fresh context, initialisation with a key and an IV, an
optional control call, then any sequence of update calls (`Spec.feed`).  `rng` is the stream of
random key masks drawn by the library.  The results are compared with `Spec/Modes.lean`.
-/

namespace Gost
open Spec

/-! ## Sessions -/

/-- GOST 28147-89 CNT: init (`gost89-cnt` uses CryptoPro-A, `gost89-cnt-12` TC26-Z; any S-box set is
allowed here), then `EVP_CTRL_KEY_MESH` with `mesh`. -/
def cntSession (rng : Nat → Fin 8 → W32) (enc : Bool) (block : SubstBlock) (mesh : Nat) (key iv : Bytes) :
    CipherCtx :=
  (gost_cipher_ctl (gost_cipher_init_cnt (freshCtx rng enc) (some key) (some iv) enc block)
    (.keyMesh mesh)).1

/-- GOST 28147-89 CFB/CBC: init with default parameters, then `EVP_CTRL_SET_SBOX p` and
`EVP_CTRL_KEY_MESH mesh`. -/
def paramSession (rng : Nat → Fin 8 → W32) (enc : Bool) (p : ParamNID) (mesh : Nat) (key iv : Bytes) :
    Option CipherCtx := do
  let e ← gost_cipher_init_param (freshCtx rng enc) (some key) (some iv) enc none
  some (gost_cipher_ctl (gost_cipher_ctl e (.setSbox (some p))).1 (.keyMesh mesh)).1

/-- The S-box tables of a parameter set. -/
abbrev boxOf (p : ParamNID) : KBox := kboxinit (gost_cipher_list p).1

/-- Magma: init (`ivLen` 4 for CTR, 8 for CBC, 0 for ECB). -/
def magmaSession (rng : Nat → Fin 8 → W32) (enc : Bool) (ivLen : Nat) (acpkm : Bool) (key iv : Bytes) : CipherCtx :=
  magma_cipher_init (freshCtx rng enc) (some key) (some iv) enc ivLen acpkm

/-- The Magma S-box tables. -/
abbrev magmaBox : KBox := kboxinit Gost28147_TC26ParamSetZ

theorem cntSession_facts (rng : Nat → Fin 8 → W32) (enc : Bool) (block : SubstBlock) (mesh : Nat) (key iv : Bytes)
    (hk : key.length = 32) (hiv : iv.length = 8) :
    CntInv (kboxinit block) (decide (mesh ≠ 0)) (cntSession rng enc block mesh key iv) ∧
    (cntSession rng enc block mesh key iv).num = 0 ∧ (cntSession rng enc block mesh key iv).count = 0 ∧
    gost_get_key (cntSession rng enc block mesh key iv).cctx = key ∧
    (cntSession rng enc block mesh key iv).iv = iv := by
  refine ⟨⟨rfl, ?_, rfl, (show (0:Nat) < 8 by decide)⟩, rfl, rfl, ?_, ?_⟩
  · exact (decide_eq_true_iff (p := mesh ≠ 0)).symm
  · show gost_get_key (gost_key _ key) = key
    exact gost_get_key_set _ _ hk
  · show memcpy (zeros 8) (memcpy (zeros 8) iv 8) 8 = iv
    obtain ⟨b0, b1, b2, b3, b4, b5, b6, b7, rfl⟩ := list8 hiv
    rfl

theorem gost_get_key_init (c : Ctx) (b : SubstBlock) : gost_get_key (gost_init c b) = gost_get_key c := by
  simp only [gost_get_key, gost_init]

theorem paramSession_facts (rng : Nat → Fin 8 → W32) (enc : Bool) (p : ParamNID) (mesh : Nat) (key iv : Bytes)
    (hk : key.length = 32) (hiv : iv.length = 8) :
    ∃ e, paramSession rng enc p mesh key iv = some e ∧
    CfbInv (boxOf p) (decide (mesh ≠ 0)) enc e ∧ e.num = 0 ∧ e.count = 0 ∧
    gost_get_key e.cctx = key ∧ e.iv = iv := by
  refine ⟨_, rfl, ⟨rfl, ?_, rfl, rfl, rfl, (show (0:Nat) < 8 by decide)⟩, rfl, rfl, ?_, ?_⟩
  · exact (decide_eq_true_iff (p := mesh ≠ 0)).symm
  · show gost_get_key (gost_init (gost_key _ key) (gost_cipher_list p).1) = key
    exact (gost_get_key_init _ _).trans (gost_get_key_set _ _ hk)
  · show memcpy (zeros 8) (memcpy (zeros 8) iv 8) 8 = iv
    obtain ⟨b0, b1, b2, b3, b4, b5, b6, b7, rfl⟩ := list8 hiv
    rfl

theorem dvd_flatten_length (n : Nat) : ∀ (cs : List Bytes), (∀ c ∈ cs, n ∣ c.length) → n ∣ cs.flatten.length
  | [], _ => by simp
  | c :: cs, h => by
    rw [List.flatten_cons, List.length_append]
    exact Nat.dvd_add (h c (by simp)) (dvd_flatten_length n cs (fun x hx => h x (by simp [hx])))

/-! ## C07 counters -/

/-- **C07** `inc_counter` on an `n`-byte counter (n = 8 for Magma, 16 for Kuznyechik, 4 and 8 for
MGM halves) adds one modulo `2^(8n)`. -/
theorem C07_inc_counter_adds_one (n : Nat) (ctr : Bytes) (h : ctr.length = n) :
    (inc_counter ctr n).length = n ∧ beNat (inc_counter ctr n) = (beNat ctr + 1) % 2 ^ (8 * n) := by
  rw [inc_counter_eq n ctr h]
  refine ⟨by simp, ?_⟩
  rw [beNat_beBytes, show (256 : Nat) = 2 ^ 8 from rfl, ← Nat.pow_mul]

/-- **C07** Counter values reached after `i` and `j` increments coincide only if `i ≡ j` modulo
`2^(8n)`: no counter block repeats early. -/
theorem C07_counters_do_not_repeat (n : Nat) (ctr : Bytes) (h : ctr.length = n) (i j : Nat)
    (heq : iter (fun c => inc_counter c n) i ctr = iter (fun c => inc_counter c n) j ctr) :
    i % 2 ^ (8 * n) = j % 2 ^ (8 * n) := by
  have hi : ∀ i, iter (fun c => inc_counter c n) i ctr = ctrBlock n ctr i := by
    intro i
    induction i with
    | zero => exact (ctrBlock_zero n ctr h).symm
    | succ i ih => rw [iter_succ_out, ih, ctrBlock_succ]
  rw [hi, hi] at heq
  have := congrArg beNat heq
  simp only [ctrBlock, beNat_beBytes] at this
  rw [show (256 : Nat) = 2 ^ 8 from rfl, ← Nat.pow_mul] at this
  generalize 2 ^ (8 * n) = m at *
  have h2 : (beNat ctr + i) ≡ (beNat ctr + j) [MOD m] := this
  exact Nat.ModEq.add_left_cancel' _ h2

example : inc_counter [0x00, 0xff, 0xff] 3 = [0x01, 0x00, 0x00] ∧
    inc_counter [0xff, 0xff] 2 = [0x00, 0x00] := by decide

/-! ## C09 CBC -/

theorem cbc_history_enc (box : KBox) (e : CipherCtx) (hb : e.cctx.box = box) (he : e.encrypting = true)
    (chunks : List Bytes) (hc : ∀ c ∈ chunks, 8 ∣ c.length) :
    (feed gost_cipher_do_cbc e chunks).2 =
      (cbcEnc (E89 box (gost_get_key e.cctx)) e.iv (blocks 8 chunks.flatten)).flatten := by
  have h1 := feed_blocks 8 (by decide) cbcBody e chunks hc
  have h2 : gost_cipher_do_cbc = fun s x => ((whileBlocks 8 cbcBody s x).1, (whileBlocks 8 cbcBody s x).2.1) := rfl
  rw [h2, h1]
  simp only
  rw [foldB_cbcEnc cbcBody (fun e => e.iv) (E89 box (gost_get_key e.cctx))
    (fun s => s.cctx = e.cctx ∧ s.encrypting = true) _ e ⟨rfl, he⟩]
  rintro s b ⟨h3, h4⟩
  simp [cbcBody, h4, h3, gostcrypt_eq, hb]

theorem cbc_history_dec (box : KBox) (e : CipherCtx) (hb : e.cctx.box = box) (he : e.encrypting = false)
    (chunks : List Bytes) (hc : ∀ c ∈ chunks, 8 ∣ c.length) :
    (feed gost_cipher_do_cbc e chunks).2 =
      (cbcDec (D89 box (gost_get_key e.cctx)) e.iv (blocks 8 chunks.flatten)).flatten := by
  have h1 := feed_blocks 8 (by decide) cbcBody e chunks hc
  have h2 : gost_cipher_do_cbc = fun s x => ((whileBlocks 8 cbcBody s x).1, (whileBlocks 8 cbcBody s x).2.1) := rfl
  rw [h2, h1]
  simp only
  rw [foldB_cbcDec cbcBody (fun e => e.iv) (D89 box (gost_get_key e.cctx))
    (fun s => s.cctx = e.cctx ∧ s.encrypting = false) _ e ⟨rfl, he⟩]
  rintro s b ⟨h3, h4⟩
  simp [cbcBody, h4, h3, gostdecrypt_eq, hb]

/-- **C09** CBC encryption of any sequence of whole-block updates is textbook CBC of the
concatenation (in particular it does not depend on the split). -/
theorem C09_cbc_is_cbc (rng : Nat → Fin 8 → W32) (p : ParamNID) (mesh : Nat) (key iv : Bytes)
    (hk : key.length = 32) (hiv : iv.length = 8) (chunks : List Bytes) (hc : ∀ c ∈ chunks, 8 ∣ c.length) :
    ∃ e, paramSession rng true p mesh key iv = some e ∧
      (feed gost_cipher_do_cbc e chunks).2 =
        (cbcEnc (E89 (boxOf p) key) iv (blocks 8 chunks.flatten)).flatten := by
  obtain ⟨e, h1, h2, _, _, h5, h6⟩ := paramSession_facts rng true p mesh key iv hk hiv
  exact ⟨e, h1, by rw [cbc_history_enc (boxOf p) e h2.box h2.enc chunks hc, h5, h6]⟩

/-- **C09** Decryption (any split, any masks) of the CBC encryption (any split) restores the data. -/
theorem C09_cbc_roundtrip (rng rng' : Nat → Fin 8 → W32) (p : ParamNID) (mesh mesh' : Nat) (key iv : Bytes)
    (hk : key.length = 32) (hiv : iv.length = 8) (chunks chunks' : List Bytes)
    (hc : ∀ c ∈ chunks, 8 ∣ c.length) (hc' : ∀ c ∈ chunks', 8 ∣ c.length) :
    ∃ e d, paramSession rng true p mesh key iv = some e ∧ paramSession rng' false p mesh' key iv = some d ∧
      (chunks'.flatten = (feed gost_cipher_do_cbc e chunks).2 →
        (feed gost_cipher_do_cbc d chunks').2 = chunks.flatten) := by
  obtain ⟨e, h1, h2, _, _, h5, h6⟩ := paramSession_facts rng true p mesh key iv hk hiv
  obtain ⟨d, g1, g2, _, _, g5, g6⟩ := paramSession_facts rng' false p mesh' key iv hk hiv
  refine ⟨e, d, h1, g1, fun h => ?_⟩
  have hdiv : 8 ∣ chunks.flatten.length := by
    exact dvd_flatten_length 8 chunks hc
  rw [cbc_history_dec (boxOf p) d g2.box g2.enc chunks' hc', h,
    cbc_history_enc (boxOf p) e h2.box h2.enc chunks hc, g5, g6, h5, h6,
    blocks_of_flatten 8 (by decide) _ (cbcEnc_all 8 _ (fun b => by simp) _ _),
    cbcDec_cbcEnc 8 _ _ (fun b hb => D89_E89 _ _ b hb) (fun b => by simp) iv hiv _
      (blocks_all_length 8 (by decide) _ hdiv), blocks_flatten 8 (by decide)]

/-! ## C10 CFB -/

theorem cfb_history (box : KBox) (on enc : Bool) (e : CipherCtx) (h : CfbInv box on enc e) (h0 : e.num = 0)
    (hc : e.count = 0) (chunks : List Bytes) :
    runM (cfbStep box on enc) ⟨gost_get_key e.cctx, e.iv, [], 0⟩ chunks.flatten =
      (cfbAbs (feed gost_cipher_do_cfb e chunks).1, (feed gost_cipher_do_cfb e chunks).2) := by
  obtain ⟨_, h2⟩ := feed_refines gost_cipher_do_cfb (cfbStep box on enc) cfbAbs (CfbInv box on enc)
    (fun s xs hs => do_cfb_refines box on enc s xs hs) e h chunks
  have habs : cfbAbs e = ⟨gost_get_key e.cctx, e.iv, [], 0⟩ := by simp [cfbAbs, h0, hc]
  rw [habs] at h2
  exact h2

/-- **C10** CFB encryption over any sequence of updates of any sizes is textbook CFB of the
concatenation, with the key meshed before every byte number `1024·k`, `k ≥ 1` (if meshing is on). -/
theorem C10_cfb_encrypts_cfb (rng : Nat → Fin 8 → W32) (p : ParamNID) (mesh : Nat) (key iv : Bytes)
    (hk : key.length = 32) (hiv : iv.length = 8) (chunks : List Bytes) :
    ∃ e, paramSession rng true p mesh key iv = some e ∧
      (feed gost_cipher_do_cfb e chunks).2 =
        (cfbEnc (E89 (boxOf p)) (cryptoProMesh (D89 (boxOf p))) (decide (mesh ≠ 0)) key iv 0
          (blocks 8 chunks.flatten)).flatten := by
  obtain ⟨e, h1, h2, h3, h4, h5, h6⟩ := paramSession_facts rng true p mesh key iv hk hiv
  refine ⟨e, h1, ?_⟩
  have := cfb_history (boxOf p) (decide (mesh ≠ 0)) true e h2 h3 h4 chunks
  have hcl := cfb_closed_enc (boxOf p) (decide (mesh ≠ 0)) key iv 0 chunks.flatten
  rw [h5, h6] at this
  rw [show (⟨key, iv, [], cntCount 0⟩ : CfbSt) = ⟨key, iv, [], 0⟩ from rfl, this] at hcl
  exact hcl

/-- **C10** The same for decryption. -/
theorem C10_cfb_decrypts_cfb (rng : Nat → Fin 8 → W32) (p : ParamNID) (mesh : Nat) (key iv : Bytes)
    (hk : key.length = 32) (hiv : iv.length = 8) (chunks : List Bytes) :
    ∃ e, paramSession rng false p mesh key iv = some e ∧
      (feed gost_cipher_do_cfb e chunks).2 =
        (cfbDec (E89 (boxOf p)) (cryptoProMesh (D89 (boxOf p))) (decide (mesh ≠ 0)) key iv 0
          (blocks 8 chunks.flatten)).flatten := by
  obtain ⟨e, h1, h2, h3, h4, h5, h6⟩ := paramSession_facts rng false p mesh key iv hk hiv
  refine ⟨e, h1, ?_⟩
  have := cfb_history (boxOf p) (decide (mesh ≠ 0)) false e h2 h3 h4 chunks
  have hcl := cfb_closed_dec (boxOf p) (decide (mesh ≠ 0)) key iv 0 chunks.flatten
  rw [h5, h6] at this
  rw [show (⟨key, iv, [], cntCount 0⟩ : CfbSt) = ⟨key, iv, [], 0⟩ from rfl, this] at hcl
  exact hcl

/-- **C10** Decryption under any chunking restores what was encrypted under any other chunking. -/
theorem C10_cfb_roundtrip (rng rng' : Nat → Fin 8 → W32) (p : ParamNID) (mesh : Nat) (key iv : Bytes)
    (hk : key.length = 32) (hiv : iv.length = 8) (chunks chunks' : List Bytes) :
    ∃ e d, paramSession rng true p mesh key iv = some e ∧ paramSession rng' false p mesh key iv = some d ∧
      (chunks'.flatten = (feed gost_cipher_do_cfb e chunks).2 →
        (feed gost_cipher_do_cfb d chunks').2 = chunks.flatten) := by
  obtain ⟨e, h1, h2, h3, h4, h5, h6⟩ := paramSession_facts rng true p mesh key iv hk hiv
  obtain ⟨d, g1, g2, g3, g4, g5, g6⟩ := paramSession_facts rng' false p mesh key iv hk hiv
  refine ⟨e, d, h1, g1, fun h => ?_⟩
  have he := cfb_history (boxOf p) (decide (mesh ≠ 0)) true e h2 h3 h4 chunks
  have hd := cfb_history (boxOf p) (decide (mesh ≠ 0)) false d g2 g3 g4 chunks'
  have hinv := runM_inverse (cfbStep (boxOf p) (decide (mesh ≠ 0)) true)
    (cfbStep (boxOf p) (decide (mesh ≠ 0)) false)
    (fun a x => cfb_inverse _ _ a x) ⟨key, iv, [], 0⟩ chunks.flatten
  rw [h5, h6] at he
  rw [g5, g6, h] at hd
  rw [he] at hinv
  simp only at hinv
  rw [hd] at hinv
  exact (Prod.mk.inj hinv).2

example : ∃ e, paramSession (fun n i => BitVec.ofNat 32 (n + i.val)) true .tc26Z 1 sampleKey (zeros 8) = some e ∧
    sampleKey.length = 32 := ⟨_, rfl, rfl⟩

/-! ## C11 CNT -/

/-- **C11** The output of CNT over any sequence of updates is the XOR of the concatenated input with
the RFC 5830/4357 gamma, which depends only on S-boxes, meshing flag, key, IV and position. -/
theorem C11_cnt_keystream (rng : Nat → Fin 8 → W32) (enc : Bool) (block : SubstBlock) (mesh : Nat)
    (key iv : Bytes) (hk : key.length = 32) (hiv : iv.length = 8) (chunks : List Bytes) :
    (feed gost_cipher_do_cnt (cntSession rng enc block mesh key iv) chunks).2 =
      xorStream 8 (cntGamma (E89 (kboxinit block)) (cryptoProMesh (D89 (kboxinit block))) cntIncr
        (decide (mesh ≠ 0)) key iv) chunks.flatten := by
  obtain ⟨h1, h2, h3, h4, h5⟩ := cntSession_facts rng enc block mesh key iv hk hiv
  rw [cnt_history _ _ _ h1 h2 h3, h4, h5, cntGamma_spec]

/-- **C11** A second session with the same key and IV, any masks and any chunking, restores the data. -/
theorem C11_cnt_roundtrip (rng rng' : Nat → Fin 8 → W32) (enc enc' : Bool) (block : SubstBlock) (mesh : Nat)
    (key iv : Bytes) (hk : key.length = 32) (hiv : iv.length = 8) (chunks chunks' : List Bytes)
    (h : chunks'.flatten = (feed gost_cipher_do_cnt (cntSession rng enc block mesh key iv) chunks).2) :
    (feed gost_cipher_do_cnt (cntSession rng' enc' block mesh key iv) chunks').2 = chunks.flatten := by
  rw [C11_cnt_keystream rng' enc' block mesh key iv hk hiv, h,
    C11_cnt_keystream rng enc block mesh key iv hk hiv, xorStream_twice]

/-- The published counter step on a carry case: the high half wraps around with end-around carry. -/
example : cntIncr [0xff,0xff,0xff,0xff, 0xff,0xff,0xff,0xff] = [0x00,0x01,0x01,0x01, 0x04,0x01,0x01,0x01] := by
  decide +kernel

/-! ## C12 key meshing -/

theorem cntCount_explicit (l : Bytes) : cntCount ((l.length + 7) / 8) =
    (if l = [] then 0 else ((l.length + 7) / 8 - 1) % 128 * 8 + 8) := by
  unfold cntCount
  by_cases h : l = []
  · subst h; rfl
  · have : 0 < l.length := List.length_pos_iff.mpr h
    rw [if_neg h, if_neg (by omega)]
    omega

/-- **C12** In CNT, after any history of `n` bytes the key in the context has been meshed exactly
`⌊(⌈n/8⌉ - 1)/128⌋` times (once at the start of each block at byte `1024·k`, `k ≥ 1`), never if
meshing is off, and the byte counter is the number of bytes of the started blocks since then: 0 before
any data, in 8..1024 afterwards (the C `assert`s hold). -/
theorem C12_cnt_meshing_count (rng : Nat → Fin 8 → W32) (enc : Bool) (block : SubstBlock) (mesh : Nat)
    (key iv : Bytes) (hk : key.length = 32) (hiv : iv.length = 8) (chunks : List Bytes) :
    let e := (feed gost_cipher_do_cnt (cntSession rng enc block mesh key iv) chunks).1
    gost_get_key e.cctx = iter (cryptoProMesh (D89 (kboxinit block)))
      (if mesh ≠ 0 then ((chunks.flatten.length + 7) / 8 - 1) / 128 else 0) key ∧
    e.count = (if chunks.flatten = [] then 0 else ((chunks.flatten.length + 7) / 8 - 1) % 128 * 8 + 8) := by
  obtain ⟨h1, h2, h3, h4, h5⟩ := cntSession_facts rng enc block mesh key iv hk hiv
  obtain ⟨_, hr⟩ := feed_refines gost_cipher_do_cnt (ksStep (cntNext (kboxinit block) (decide (mesh ≠ 0)))) cntAbs
    (CntInv (kboxinit block) (decide (mesh ≠ 0)))
    (fun s xs hs => do_cnt_refines _ _ s xs hs) _ h1 chunks
  have hs := ks_state (cntNext (kboxinit block) (decide (mesh ≠ 0))) 8 (by decide) (fun _ => True)
    (fun i _ => ⟨trivial, cntNext_len _ _ i⟩) (key, iv, 0) trivial chunks.flatten
  have habs : cntAbs (cntSession rng enc block mesh key iv) = ((key, iv, 0), []) := by
    simp [cntAbs, cntInner, h2, h3, h4, h5]
  rw [habs] at hr
  rw [hr] at hs
  have h6 := cnt_iter_key (kboxinit block) (decide (mesh ≠ 0)) key iv ((chunks.flatten.length + (8 - 1)) / 8)
  have h7 := (cnt_iter (kboxinit block) (decide (mesh ≠ 0)) key iv ((chunks.flatten.length + (8 - 1)) / 8)).1
  rw [← hs] at h6 h7
  have h8 := cntCount_explicit chunks.flatten
  simp only [cntAbs, cntInner] at h6 h7
  refine ⟨?_, by rw [h7]; exact h8⟩
  rw [h6]
  simp [meshCount]

/-- **C12** The same for CFB. -/
theorem C12_cfb_meshing_count (rng : Nat → Fin 8 → W32) (enc : Bool) (p : ParamNID) (mesh : Nat)
    (key iv : Bytes) (hk : key.length = 32) (hiv : iv.length = 8) (chunks : List Bytes) :
    ∃ e0, paramSession rng enc p mesh key iv = some e0 ∧
    let e := (feed gost_cipher_do_cfb e0 chunks).1
    gost_get_key e.cctx = iter (cryptoProMesh (D89 (boxOf p)))
      (if mesh ≠ 0 then ((chunks.flatten.length + 7) / 8 - 1) / 128 else 0) key ∧
    e.count = (if chunks.flatten = [] then 0 else ((chunks.flatten.length + 7) / 8 - 1) % 128 * 8 + 8) := by
  obtain ⟨e, h1, h2, h3, h4, h5, h6⟩ := paramSession_facts rng enc p mesh key iv hk hiv
  refine ⟨e, h1, ?_⟩
  have hh := cfb_history (boxOf p) (decide (mesh ≠ 0)) enc e h2 h3 h4 chunks
  have hs := cfb_state (boxOf p) (decide (mesh ≠ 0)) enc key iv 0 chunks.flatten
  rw [h5, h6] at hh
  have e0 : (⟨iter (mesh89 (boxOf p)) (if decide (mesh ≠ 0) = true then meshCount 0 else 0) key, iv, [], cntCount 0⟩ : CfbSt)
      = ⟨key, iv, [], 0⟩ := by
    simp [meshCount, cntCount, iter]
  rw [e0, hh] at hs
  simp only [cfbAbs, Nat.zero_add] at hs
  refine ⟨?_, by rw [hs.2]; exact cntCount_explicit chunks.flatten⟩
  rw [hs.1]
  simp [meshCount]

/-- 1024 bytes: not meshed yet; 1025 bytes: meshed once; 2049 bytes: twice. -/
example : ((1024 + 7) / 8 - 1) / 128 = 0 ∧ ((1025 + 7) / 8 - 1) / 128 = 1 ∧ ((2049 + 7) / 8 - 1) / 128 = 2 := by
  decide

/-! ## C13 Magma ECB and CBC -/

theorem magmaSession_cbc_facts (rng : Nat → Fin 8 → W32) (enc : Bool) (key iv : Bytes)
    (hk : key.length = 32) (hiv : iv.length = 8) :
    (magmaSession rng enc 8 false key iv).cctx.box = magmaBox ∧
    (magmaSession rng enc 8 false key iv).encrypting = enc ∧
    magma_get_key (magmaSession rng enc 8 false key iv).cctx = key ∧
    (magmaSession rng enc 8 false key iv).iv = iv := by
  refine ⟨rfl, rfl, ?_, ?_⟩
  · show magma_get_key (magma_key _ key) = key
    exact magma_get_key_set _ _ hk
  · show memcpy (zeros 8) (memcpy (zeros 8) iv 8) 8 = iv
    obtain ⟨b0, b1, b2, b3, b4, b5, b6, b7, rfl⟩ := list8 hiv
    rfl

/-- **C13** Magma CBC encryption over whole-block updates is textbook CBC. -/
theorem C13_magma_cbc_is_cbc (rng : Nat → Fin 8 → W32) (key iv : Bytes) (hk : key.length = 32) (hiv : iv.length = 8)
    (chunks : List Bytes) (hc : ∀ c ∈ chunks, 8 ∣ c.length) :
    (feed magma_cipher_do_cbc (magmaSession rng true 8 false key iv) chunks).2 =
      (cbcEnc (EMagma magmaBox key) iv (blocks 8 chunks.flatten)).flatten := by
  obtain ⟨f1, f2, f3, f4⟩ := magmaSession_cbc_facts rng true key iv hk hiv
  generalize magmaSession rng true 8 false key iv = e at *
  have h2 : magma_cipher_do_cbc =
    fun s x => ((whileBlocks 8 magmaCbcBody s x).1, (whileBlocks 8 magmaCbcBody s x).2.1) := rfl
  rw [h2, feed_blocks 8 (by decide) magmaCbcBody e chunks hc]
  simp only
  rw [foldB_cbcEnc magmaCbcBody (fun e => e.iv) (EMagma magmaBox key)
    (fun s => s.cctx = e.cctx ∧ s.encrypting = true) _ e ⟨rfl, f2⟩, f4]
  rintro s b ⟨h3, h4⟩
  simp [magmaCbcBody, h4, h3, magmacrypt_eq, f1, f3]

/-- **C13** Magma CBC decryption over whole-block updates is textbook CBC decryption. -/
theorem C13_magma_cbc_dec_is_cbc (rng : Nat → Fin 8 → W32) (key iv : Bytes) (hk : key.length = 32)
    (hiv : iv.length = 8) (chunks : List Bytes) (hc : ∀ c ∈ chunks, 8 ∣ c.length) :
    (feed magma_cipher_do_cbc (magmaSession rng false 8 false key iv) chunks).2 =
      (cbcDec (DMagma magmaBox key) iv (blocks 8 chunks.flatten)).flatten := by
  obtain ⟨f1, f2, f3, f4⟩ := magmaSession_cbc_facts rng false key iv hk hiv
  generalize magmaSession rng false 8 false key iv = e at *
  have h2 : magma_cipher_do_cbc =
    fun s x => ((whileBlocks 8 magmaCbcBody s x).1, (whileBlocks 8 magmaCbcBody s x).2.1) := rfl
  rw [h2, feed_blocks 8 (by decide) magmaCbcBody e chunks hc]
  simp only
  rw [foldB_cbcDec magmaCbcBody (fun e => e.iv) (DMagma magmaBox key)
    (fun s => s.cctx = e.cctx ∧ s.encrypting = false) _ e ⟨rfl, f2⟩, f4]
  rintro s b ⟨h3, h4⟩
  simp [magmaCbcBody, h4, h3, magmadecrypt_eq, f1, f3]

/-- **C13** Magma CBC round trip under any two splits into whole blocks. -/
theorem C13_magma_cbc_roundtrip (rng rng' : Nat → Fin 8 → W32) (key iv : Bytes)
    (hk : key.length = 32) (hiv : iv.length = 8) (chunks chunks' : List Bytes)
    (hc : ∀ c ∈ chunks, 8 ∣ c.length) (hc' : ∀ c ∈ chunks', 8 ∣ c.length)
    (h : chunks'.flatten = (feed magma_cipher_do_cbc (magmaSession rng true 8 false key iv) chunks).2) :
    (feed magma_cipher_do_cbc (magmaSession rng' false 8 false key iv) chunks').2 = chunks.flatten := by
  have hdiv : 8 ∣ chunks.flatten.length := by
    exact dvd_flatten_length 8 chunks hc
  rw [C13_magma_cbc_dec_is_cbc rng' key iv hk hiv chunks' hc', h, C13_magma_cbc_is_cbc rng key iv hk hiv chunks hc,
    blocks_of_flatten 8 (by decide) _ (cbcEnc_all 8 _ (fun b => by simp) _ _),
    cbcDec_cbcEnc 8 _ _ (fun b hb => DMagma_EMagma _ _ b hb) (fun b => by simp) iv hiv _
      (blocks_all_length 8 (by decide) _ hdiv), blocks_flatten 8 (by decide)]

/-- **C13** Magma ECB over whole-block updates is block-by-block encryption / decryption. -/
theorem C13_magma_ecb_is_ecb (rng : Nat → Fin 8 → W32) (enc : Bool) (key iv : Bytes) (hk : key.length = 32)
    (chunks : List Bytes) (hc : ∀ c ∈ chunks, 8 ∣ c.length) :
    (feed magma_cipher_do_ecb (magmaSession rng enc 0 false key iv) chunks).2 =
      ecb 8 (if enc then EMagma magmaBox key else DMagma magmaBox key) chunks.flatten := by
  have f1 : (magmaSession rng enc 0 false key iv).cctx.box = magmaBox := rfl
  have f2 : (magmaSession rng enc 0 false key iv).encrypting = enc := rfl
  have f3 : magma_get_key (magmaSession rng enc 0 false key iv).cctx = key := by
    show magma_get_key (magma_key _ key) = key
    exact magma_get_key_set _ _ hk
  generalize magmaSession rng enc 0 false key iv = e at *
  have h2 : magma_cipher_do_ecb =
    fun s x => ((whileBlocks 8 magmaEcbBody s x).1, (whileBlocks 8 magmaEcbBody s x).2.1) := rfl
  rw [h2, feed_blocks 8 (by decide) magmaEcbBody e chunks hc]
  simp only
  rw [foldB_ecb magmaEcbBody (if enc then EMagma magmaBox key else DMagma magmaBox key)
    (fun s => s = e) _ e rfl]
  · rfl
  · rintro s b rfl
    subst f2
    cases hb : s.encrypting <;> simp [magmaEcbBody, hb, magmacrypt_eq, magmadecrypt_eq, f1, f3]

/-- **C13** Magma ECB round trip. -/
theorem C13_magma_ecb_roundtrip (rng rng' : Nat → Fin 8 → W32) (key iv : Bytes)
    (hk : key.length = 32) (chunks chunks' : List Bytes)
    (hc : ∀ c ∈ chunks, 8 ∣ c.length) (hc' : ∀ c ∈ chunks', 8 ∣ c.length)
    (h : chunks'.flatten = (feed magma_cipher_do_ecb (magmaSession rng true 0 false key iv) chunks).2) :
    (feed magma_cipher_do_ecb (magmaSession rng' false 0 false key iv) chunks').2 = chunks.flatten := by
  have hdiv : 8 ∣ chunks.flatten.length := by
    exact dvd_flatten_length 8 chunks hc
  rw [C13_magma_ecb_is_ecb rng' false key iv hk chunks' hc', h, C13_magma_ecb_is_ecb rng true key iv hk chunks hc]
  exact ecb_inverse 8 (by decide) (EMagma magmaBox key) (DMagma magmaBox key)
    (fun b hb => DMagma_EMagma _ _ b hb) (fun b => by simp) _ hdiv

/-! ## C14, C15 Magma CTR and CTR-ACPKM -/

theorem magmaSession_ctr_facts (rng : Nat → Fin 8 → W32) (enc acpkm : Bool) (key iv : Bytes)
    (hk : key.length = 32) (hiv : iv.length = 4) :
    MctrInv magmaBox (if acpkm then 1024 else 0) (magmaSession rng enc 4 acpkm key iv) ∧
    (magmaSession rng enc 4 acpkm key iv).num = 0 ∧
    (magmaSession rng enc 4 acpkm key iv).count = 0 ∧
    magma_get_key (magmaSession rng enc 4 acpkm key iv).cctx = key ∧
    (magmaSession rng enc 4 acpkm key iv).iv = iv ++ zeros 4 := by
  refine ⟨⟨rfl, rfl, rfl, (show (0:Nat) < 2^32 by decide), fun _ => Nat.zero_le _⟩, rfl, rfl, ?_, ?_⟩
  · show magma_get_key (magma_key _ key) = key
    exact magma_get_key_set _ _ hk
  · show memcpy (zeros 8) (memcpy (zeros 8) iv 4) 4 = iv ++ zeros 4
    match iv, hiv with
    | [b0, b1, b2, b3], _ => rfl

/-- **C14** Magma CTR over any sequence of updates is the XOR with `E(IV || 0^32 + i)`, for messages
of any length (including beyond 2^32 bytes, where the internal 32-bit position counter wraps). -/
theorem C14_magma_ctr_keystream (rng : Nat → Fin 8 → W32) (enc : Bool) (key iv : Bytes)
    (hk : key.length = 32) (hiv : iv.length = 4) (chunks : List Bytes) :
    (feed magma_cipher_do_ctr (magmaSession rng enc 4 false key iv) chunks).2 =
      xorStream 8 (ctrGamma 8 (EMagma magmaBox key) (iv ++ zeros 4)) chunks.flatten := by
  obtain ⟨f1, f2, _, f3, f4⟩ := magmaSession_ctr_facts rng enc false key iv hk hiv
  rw [mctr_history magmaBox 0 (by decide) _ f1 f2 (by rw [f4]; simp [hiv]), f3, f4]
  rfl

/-- **C14** Magma CTR round trip under any two chunkings. -/
theorem C14_magma_ctr_roundtrip (rng rng' : Nat → Fin 8 → W32) (enc enc' : Bool) (key iv : Bytes)
    (hk : key.length = 32) (hiv : iv.length = 4) (chunks chunks' : List Bytes)
    (h : chunks'.flatten = (feed magma_cipher_do_ctr (magmaSession rng enc 4 false key iv) chunks).2) :
    (feed magma_cipher_do_ctr (magmaSession rng' enc' 4 false key iv) chunks').2 = chunks.flatten := by
  rw [C14_magma_ctr_keystream rng' enc' key iv hk hiv, h, C14_magma_ctr_keystream rng enc key iv hk hiv,
    xorStream_twice]

/-- **C15** Magma CTR-ACPKM over any sequence of updates, with any section size set by
`EVP_CTRL_KEY_MESH` (below `2^31`, i.e. a non-negative `int`): block `j` uses the key after
`⌊8j / section⌋` ACPKM steps, the section size being rounded up to whole blocks; section 0 is plain
CTR.  (For section sizes that are multiples of the block the rounding does nothing.) -/
theorem C15_magma_acpkm_keystream (rng : Nat → Fin 8 → W32) (enc : Bool) (sec : Nat) (hsec : sec < 2^31)
    (key iv : Bytes) (hk : key.length = 32) (hiv : iv.length = 4) (chunks : List Bytes) :
    (feed magma_cipher_do_ctr
      (magma_cipher_ctl_key_mesh (magmaSession rng enc 4 true key iv) sec).1 chunks).2 =
      xorStream 8 (ctrAcpkmGamma 8 (EMagma magmaBox) (Spec.acpkm 8 (EMagma magmaBox)) ((sec + 7) / 8 * 8)
        key (iv ++ zeros 4)) chunks.flatten := by
  obtain ⟨f1, f2, f2', f3, f4⟩ := magmaSession_ctr_facts rng enc true key iv hk hiv
  generalize magmaSession rng enc 4 true key iv = e at *
  have hctl : magma_cipher_ctl_key_mesh e sec = ({ e with key_meshing := sec }, 1) := by
    unfold magma_cipher_ctl_key_mesh
    rw [if_neg (by simp [f2'])]
  rw [hctl]
  have hinv : MctrInv magmaBox sec { e with key_meshing := sec } :=
    ⟨f1.box, rfl, f1.buf, f1.num, fun _ => by simp [f2]⟩
  have := mctr_history magmaBox sec (by omega) { e with key_meshing := sec } hinv f2 (by simp [f4, hiv]) chunks
  rw [this]
  simp only [f3, f4]

/-- **C15** The default section of 1024 bytes. -/
theorem C15_magma_acpkm_default (rng : Nat → Fin 8 → W32) (enc : Bool) (key iv : Bytes) (hk : key.length = 32)
    (hiv : iv.length = 4) (chunks : List Bytes) :
    (feed magma_cipher_do_ctr (magmaSession rng enc 4 true key iv) chunks).2 =
      xorStream 8 (fun j => EMagma magmaBox (iter (Spec.acpkm 8 (EMagma magmaBox)) (8 * j / 1024) key)
        (ctrBlock 8 (iv ++ zeros 4) j)) chunks.flatten := by
  obtain ⟨f1, f2, f2', f3, f4⟩ := magmaSession_ctr_facts rng enc true key iv hk hiv
  rw [mctr_history magmaBox 1024 (by decide) _ f1 f2 (by rw [f4]; simp [hiv]), f3, f4]
  congr 1
  funext j
  rw [ctrAcpkmGamma, if_neg (by decide), Nat.mul_comm j 8]

/-- **C15** With section size 0 the mode is plain CTR. -/
theorem C15_magma_section_zero (rng rng' : Nat → Fin 8 → W32) (enc enc' : Bool) (key iv : Bytes)
    (hk : key.length = 32) (hiv : iv.length = 4) (chunks chunks' : List Bytes)
    (h : chunks'.flatten = chunks.flatten) :
    (feed magma_cipher_do_ctr
      (magma_cipher_ctl_key_mesh (magmaSession rng enc 4 true key iv) 0).1 chunks).2 =
    (feed magma_cipher_do_ctr (magmaSession rng' enc' 4 false key iv) chunks').2 := by
  rw [C15_magma_acpkm_keystream rng enc 0 (by decide) key iv hk hiv,
    C14_magma_ctr_keystream rng' enc' key iv hk hiv, h]
  rfl

/-- **C15** Magma CTR-ACPKM round trip. -/
theorem C15_magma_acpkm_roundtrip (rng rng' : Nat → Fin 8 → W32) (enc enc' : Bool) (sec : Nat) (hsec : sec < 2^31)
    (key iv : Bytes) (hk : key.length = 32) (hiv : iv.length = 4) (chunks chunks' : List Bytes)
    (h : chunks'.flatten = (feed magma_cipher_do_ctr
      (magma_cipher_ctl_key_mesh (magmaSession rng enc 4 true key iv) sec).1 chunks).2) :
    (feed magma_cipher_do_ctr
      (magma_cipher_ctl_key_mesh (magmaSession rng' enc' 4 true key iv) sec).1 chunks').2 = chunks.flatten := by
  rw [C15_magma_acpkm_keystream rng' enc' sec hsec key iv hk hiv, h,
    C15_magma_acpkm_keystream rng enc sec hsec key iv hk hiv, xorStream_twice]

end Gost
