import Verif.Lemmas.ProvCipher
import Verif.Props.GostModes
import Verif.Props.KuzModes

/-!
# C66: the ciphers of the provider

What an application does: any calls on a context, then an init with key and IV, parameters (padding, key meshing), any updates, final.
-/

namespace Gost
open Spec

variable {σ : Type}

/-- Only the parameter `padding`. -/
def withPad (n : Nat) : PcParams := ⟨some n, none, none, none⟩

/-- Only the parameter `key-mesh`. -/
def withMesh (n : Nat) : PcParams := ⟨none, some n, none, none⟩

/-- A new context, the calls `hist`, init with key and IV, then parameters: the context; `none`: init or the parameters failed. -/
def pcStart (M : EvpMeth σ) (hist : List PcOp) (key iv : Bytes) (enc : Bool) (p : PcParams) : Option (EvpCtx σ) :=
  let r := prov_cipher_init M (pcRun M prov_cipher_newctx hist) (some key) (some iv) key.length iv.length .none enc
  if r.2 then
    let q := prov_cipher_set_ctx_params M r.1 p
    if q.2 then some q.1 else none
  else none

/-- The same, then updates with the pieces and final: the whole output; `none`: a call failed. -/
def pcSession (M : EvpMeth σ) (hist : List PcOp) (key iv : Bytes) (enc : Bool) (p : PcParams) (chunks : List Bytes) : Option Bytes :=
  match pcStart M hist key iv enc p with
  | none => none
  | some c => pcMessage M c chunks

/-- What the documentation of EVP promises for a cipher with blocks of `M.blockSize` bytes, `Enc` and `Dec` being the mode on whole
blocks: for every history of the context, every split of the data. -/
structure IsBlockMode (M : EvpMeth σ) (Enc Dec : Bytes → Bytes → Bytes → Bytes) : Prop where
  /-- encryption with padding -/
  encPad : ∀ (hist : List PcOp), (∀ op ∈ hist, op.Ok M) → ∀ (key iv : Bytes), key.length = M.keyLen → iv.length = M.ivLen →
    ∀ (pad : Nat), pad ≠ 0 → ∀ (chunks : List Bytes), (∀ x ∈ chunks, x.length + 16 ≤ intMax) →
    pcSession M hist key iv true (withPad pad) chunks = some (Enc key iv (pkcs7 M.blockSize chunks.flatten))
  /-- encryption without padding: only whole blocks -/
  encPlain : ∀ (hist : List PcOp), (∀ op ∈ hist, op.Ok M) → ∀ (key iv : Bytes), key.length = M.keyLen → iv.length = M.ivLen →
    ∀ (chunks : List Bytes), (∀ x ∈ chunks, x.length + 16 ≤ intMax) →
    pcSession M hist key iv true (withPad 0) chunks =
      if M.blockSize ∣ chunks.flatten.length then some (Enc key iv chunks.flatten) else none
  /-- decryption with padding succeeds with `m` exactly if the data is whole blocks and deciphers to the padding of `m` -/
  decPad : ∀ (hist : List PcOp), (∀ op ∈ hist, op.Ok M) → ∀ (key iv : Bytes), key.length = M.keyLen → iv.length = M.ivLen →
    ∀ (pad : Nat), pad ≠ 0 → ∀ (chunks : List Bytes), (∀ x ∈ chunks, x.length + 16 ≤ intMax) → ∀ (m : Bytes),
    (pcSession M hist key iv false (withPad pad) chunks = some m ↔
      M.blockSize ∣ chunks.flatten.length ∧ Dec key iv chunks.flatten = pkcs7 M.blockSize m)
  /-- decryption without padding -/
  decPlain : ∀ (hist : List PcOp), (∀ op ∈ hist, op.Ok M) → ∀ (key iv : Bytes), key.length = M.keyLen → iv.length = M.ivLen →
    ∀ (chunks : List Bytes), (∀ x ∈ chunks, x.length + 16 ≤ intMax) →
    pcSession M hist key iv false (withPad 0) chunks =
      if M.blockSize ∣ chunks.flatten.length then some (Dec key iv chunks.flatten) else none
  /-- a new context pads -/
  default : ∀ (key iv : Bytes), key.length = M.keyLen → iv.length = M.ivLen → ∀ (enc : Bool) (chunks : List Bytes),
    pcSession M [] key iv enc .none chunks = pcSession M [] key iv enc (withPad 1) chunks
  /-- the output of one call: at most one block more than the input, at most one block at the end -/
  sizes : ∀ (hist : List PcOp), (∀ op ∈ hist, op.Ok M) → ∀ (key iv : Bytes), key.length = M.keyLen → iv.length = M.ivLen →
    ∀ (enc : Bool) (pad : Nat) (chunks : List Bytes), (∀ x ∈ chunks, x.length + 16 ≤ intMax) →
    ∀ (c c' : EvpCtx σ) (o : Bytes), pcStart M hist key iv enc (withPad pad) = some c → pcFeed M c chunks = some (c', o) →
    (∀ x : Bytes, x.length + 16 ≤ intMax → (prov_cipher_update M c' x).2.1.length ≤ x.length + M.blockSize) ∧
    (prov_cipher_final M c').2.1.length ≤ M.blockSize

/-- What the cipher functions must satisfy. -/
structure BlockLaw (M : EvpMeth σ) (P : σ → Prop) (Enc Dec : Bytes → Bytes → Bytes → Bytes) : Prop where
  bw : Blockwise M P
  keeps : KeepsInit M P
  ok : ∀ s key iv enc, P s → key.length = M.keyLen → iv.length = M.ivLen → (M.init s (some key) (some iv) enc).2 = true
  out : ∀ s key iv enc x, P s → key.length = M.keyLen → iv.length = M.ivLen → M.blockSize ∣ x.length →
    (M.doCipher (M.init s (some key) (some iv) enc).1 x).2 = (if enc then Enc else Dec) key iv x

theorem start_eq {M : EvpMeth σ} {P : σ → Prop} {Enc Dec : Bytes → Bytes → Bytes → Bytes} (L : BlockLaw M P Enc Dec)
    (hist : List PcOp) (hok : ∀ op ∈ hist, op.Ok M) (key iv : Bytes) (hk : key.length = M.keyLen) (hiv : iv.length = M.ivLen)
    (enc : Bool) (pad : Nat) :
    ∃ s c, P s ∧ pcStart M hist key iv enc (withPad pad) = some c ∧
      Started M (M.init s (some key) (some iv) enc).1 c ∧ c.encrypt = enc ∧ c.noPadding = (pad == 0) := by
  have hkept := run_keep L.bw L.keeps hist hok _ (new_kept L.bw)
  unfold pcStart
  show ∃ s c, P s ∧ _ ∧ _
  change Kept M P (pcRun M prov_cipher_newctx hist) at hkept
  generalize pcRun M prov_cipher_newctx hist = c0 at hkept ⊢
  have hs : P (c0.data.getD M.fresh) := by
    cases hd : c0.data with
    | none => exact L.keeps.fresh
    | some s => exact hkept.data s hd
  have hi := L.ok _ key iv enc hs hk hiv
  have hparam : prov_cipher_set_ctx_params M c0 .none = (c0, true) := rfl
  have hinit : prov_cipher_init M c0 (some key) (some iv) key.length iv.length .none enc =
      evpCipherInit M c0 (some key) (some iv) enc := by
    unfold prov_cipher_init
    rw [hparam]
    dsimp only
    rw [if_pos rfl, if_neg (by rw [hk, hiv]; omega)]
  refine ⟨c0.data.getD M.fresh, ?_⟩
  rw [hinit]
  unfold evpCipherInit
  dsimp only
  rw [if_pos hi]
  exact ⟨_, hs, rfl, ⟨rfl, rfl, rfl⟩, rfl, rfl⟩

theorem decFinal_len (M : EvpMeth σ) (c : EvpCtx σ) : (evpDecryptFinal M c).2.1.length ≤ M.blockSize := by
  unfold evpDecryptFinal
  by_cases h1 : c.noPadding = true
  · rw [if_pos h1]; simp
  rw [if_neg h1]
  by_cases h2 : 1 < M.blockSize
  · rw [if_pos h2]
    by_cases h3 : c.buf.length ≠ 0 ∨ c.finalUsed = false
    · rw [if_pos h3]; simp
    rw [if_neg h3]
    dsimp only
    generalize (at_ c.final (M.blockSize - 1)).toNat = n
    by_cases h4 : n = 0 ∨ M.blockSize < n
    · rw [if_pos h4]; simp
    rw [if_neg h4]
    by_cases h5 : ((List.range n).all fun i => at_ c.final (M.blockSize - 1 - i) == BitVec.ofNat 8 n) = true
    · rw [if_pos h5, List.length_take]; omega
    · rw [if_neg h5]; simp
  · rw [if_neg h2]; simp

theorem BlockLaw.mode {M : EvpMeth σ} {P : σ → Prop} {Enc Dec : Bytes → Bytes → Bytes → Bytes} (L : BlockLaw M P Enc Dec) :
    IsBlockMode M Enc Dec := by
  have hb := L.bw.gt
  have hkeep : ∀ s key iv enc, P s → key.length = M.keyLen → iv.length = M.ivLen → P (M.init s (some key) (some iv) enc).1 := by
    intro s key iv enc hs hk hiv
    exact L.keeps.init s _ _ enc hs (fun k hk' => by cases hk'; omega) (fun v hv => by cases hv; omega)
  have hpad : ∀ x : Bytes, M.blockSize ∣ (pkcs7 M.blockSize x).length := by
    intro x
    have h1 := Nat.mod_lt x.length (show M.blockSize > 0 by omega)
    have h2 := Nat.div_add_mod x.length M.blockSize
    refine ⟨x.length / M.blockSize + 1, ?_⟩
    rw [pkcs7, List.length_append, List.length_replicate, Nat.mul_add, Nat.mul_one]
    omega
  refine ⟨?_, ?_, ?_, ?_, ?_, ?_⟩
  · intro hist hok key iv hk hiv pad hp chunks hx
    obtain ⟨s, c, hs, h1, h2, h3, h4⟩ := start_eq L hist hok key iv hk hiv true pad
    unfold pcSession
    rw [h1]
    dsimp only
    rw [message_enc L.bw h2 h3 (by rw [h4]; simpa using hp) chunks hx, L.out s key iv true _ hs hk hiv (hpad _)]
    rfl
  · intro hist hok key iv hk hiv chunks hx
    obtain ⟨s, c, hs, h1, h2, h3, h4⟩ := start_eq L hist hok key iv hk hiv true 0
    unfold pcSession
    rw [h1]
    dsimp only
    rw [message_plain L.bw h2 h4 chunks hx]
    by_cases hd : M.blockSize ∣ chunks.flatten.length
    · rw [if_pos hd, if_pos hd, L.out s key iv true _ hs hk hiv hd]; rfl
    · rw [if_neg hd, if_neg hd]
  · intro hist hok key iv hk hiv pad hp chunks hx m
    obtain ⟨s, c, hs, h1, h2, h3, h4⟩ := start_eq L hist hok key iv hk hiv false pad
    unfold pcSession
    rw [h1]
    dsimp only
    rw [message_dec L.bw (hkeep s key iv false hs hk hiv) h2 h3 (by rw [h4]; simpa using hp) chunks hx m]
    constructor
    · rintro ⟨hd, he⟩
      rw [L.out s key iv false _ hs hk hiv hd] at he
      exact ⟨hd, he⟩
    · rintro ⟨hd, he⟩
      refine ⟨hd, ?_⟩
      rw [L.out s key iv false _ hs hk hiv hd]
      exact he
  · intro hist hok key iv hk hiv chunks hx
    obtain ⟨s, c, hs, h1, h2, h3, h4⟩ := start_eq L hist hok key iv hk hiv false 0
    unfold pcSession
    rw [h1]
    dsimp only
    rw [message_plain L.bw h2 h4 chunks hx]
    by_cases hd : M.blockSize ∣ chunks.flatten.length
    · rw [if_pos hd, if_pos hd, L.out s key iv false _ hs hk hiv hd]; rfl
    · rw [if_neg hd, if_neg hd]
  · intro key iv hk hiv enc chunks
    have hi := L.ok _ key iv enc L.keeps.fresh hk hiv
    have hparam : prov_cipher_set_ctx_params M (EvpCtx.new : EvpCtx σ) .none = (EvpCtx.new, true) := rfl
    have hinit : prov_cipher_init M (pcRun M prov_cipher_newctx []) (some key) (some iv) key.length iv.length .none enc =
        evpCipherInit M EvpCtx.new (some key) (some iv) enc := by
      unfold prov_cipher_init
      rw [show pcRun M prov_cipher_newctx [] = EvpCtx.new from rfl, hparam]
      dsimp only
      rw [if_pos rfl, if_neg (by rw [hk, hiv]; omega)]
    have hev : evpCipherInit M EvpCtx.new (some key) (some iv) enc =
        (⟨some (M.init M.fresh (some key) (some iv) enc).1, enc, [], [], false, false⟩, true) := if_pos hi
    unfold pcSession pcStart
    rw [hinit, hev]
    rfl
  · intro hist hok key iv hk hiv enc pad chunks hx c c' o hc hf
    obtain ⟨s, c1, hs, h1, h2, h3, h4⟩ := start_eq L hist hok key iv hk hiv enc pad
    rw [h1] at hc
    cases hc
    have hP := hkeep s key iv enc hs hk hiv
    have hlt := fun n => sub_whole_lt (show 0 < M.blockSize by omega) n
    have hwle := fun n => whole_le M.blockSize n
    by_cases hm : c.encrypt = true ∨ c.noPadding = true
    · obtain ⟨d, o1, g1, R, e1, n1⟩ := plain_feed L.bw chunks hx _ _ _ (h2.plain L.bw) hm
      rw [hf] at g1
      cases g1
      simp only [List.nil_append] at R
      have l1 := plain_out_len L.bw hP R
      refine ⟨fun x hxl => ?_, ?_⟩
      · obtain ⟨d2, o2, g2, R2, _, _⟩ := plain_step L.bw R (by rw [e1, n1]; exact hm) x hxl
        have l2 := plain_out_len L.bw hP R2
        rw [g2]
        dsimp only
        rw [List.length_append, List.length_append] at l2
        have := hlt chunks.flatten.length
        have := hwle (chunks.flatten.length + x.length)
        omega
      · have hbuf : c'.buf.length < M.blockSize := by rw [R.buf]; exact buf_lt L.bw _
        have hPd := L.bw.keep _ (chunks.flatten.take (whole M.blockSize chunks.flatten.length)) hP
          (by rw [List.length_take, Nat.min_eq_left (whole_le _ _)]; exact whole_dvd _ _)
        unfold prov_cipher_final evpCipherFinal
        rw [R.data]
        dsimp only
        by_cases he : c'.encrypt = true
        · rw [if_pos he]
          unfold evpEncryptFinal
          rw [if_neg (by omega)]
          by_cases hn : c'.noPadding = true
          · rw [if_pos hn]; simp
          · rw [if_neg hn]
            dsimp only
            have hl : (c'.buf ++ List.replicate (M.blockSize - c'.buf.length)
                (BitVec.ofNat 8 (M.blockSize - c'.buf.length))).length = M.blockSize := by
              rw [List.length_append, List.length_replicate]; omega
            rw [L.bw.length _ _ hPd ⟨1, by rw [hl, Nat.mul_one]⟩]
            exact Nat.le_of_eq hl
        · rw [if_neg he]
          have hn : c'.noPadding = true := by
            rw [e1] at he
            rw [n1]
            rcases hm with h | h
            · exact absurd h he
            · exact h
          unfold evpDecryptFinal
          rw [if_pos hn]; simp
    · have he : c.encrypt = false := by
        cases h : c.encrypt
        · rfl
        · exact absurd (Or.inl h) hm
      have hn : c.noPadding = false := by
        cases h : c.noPadding
        · rfl
        · exact absurd (Or.inr h) hm
      obtain ⟨d, o1, g1, R, e1, n1⟩ := held_feed L.bw hP chunks hx _ _ _ (h2.held L.bw) he hn
      rw [hf] at g1
      cases g1
      simp only [List.nil_append] at R
      have l1 := held_out_len L.bw hP R
      refine ⟨fun x hxl => ?_, ?_⟩
      · obtain ⟨d2, o2, g2, R2, _, _⟩ := held_step L.bw hP R e1 n1 x hxl
        have l2 := held_out_len L.bw hP R2
        rw [g2]
        dsimp only
        rw [List.length_append, List.length_append] at l2
        omega
      · unfold prov_cipher_final evpCipherFinal
        rw [R.data]
        dsimp only
        rw [if_neg (by rw [e1]; simp)]
        exact decFinal_len M c'

/-- **C66** Whatever the histories of the two contexts and the splits, decryption restores the message. -/
theorem IsBlockMode.roundtrip {M : EvpMeth σ} {Enc Dec : Bytes → Bytes → Bytes → Bytes} (B : IsBlockMode M Enc Dec)
    (hb : 0 < M.blockSize)
    (hlen : ∀ key iv x : Bytes, key.length = M.keyLen → iv.length = M.ivLen → M.blockSize ∣ x.length →
      (Enc key iv x).length = x.length ∧ Dec key iv (Enc key iv x) = x)
    (hist hist' : List PcOp) (hok : ∀ op ∈ hist, op.Ok M) (hok' : ∀ op ∈ hist', op.Ok M)
    (key iv : Bytes) (hk : key.length = M.keyLen) (hiv : iv.length = M.ivLen) (pad pad' : Nat) (hp : pad ≠ 0) (hp' : pad' ≠ 0)
    (chunks chunks' : List Bytes) (hx : ∀ x ∈ chunks, x.length + 16 ≤ intMax) (hx' : ∀ x ∈ chunks', x.length + 16 ≤ intMax)
    (h : pcSession M hist key iv true (withPad pad) chunks = some chunks'.flatten) :
    pcSession M hist' key iv false (withPad pad') chunks' = some chunks.flatten := by
  rw [B.encPad hist hok key iv hk hiv pad hp chunks hx] at h
  have hd : M.blockSize ∣ (pkcs7 M.blockSize chunks.flatten).length := by
    have h1 := Nat.mod_lt chunks.flatten.length hb
    have h2 := Nat.div_add_mod chunks.flatten.length M.blockSize
    refine ⟨chunks.flatten.length / M.blockSize + 1, ?_⟩
    rw [pkcs7, List.length_append, List.length_replicate, Nat.mul_add, Nat.mul_one]
    omega
  obtain ⟨l1, l2⟩ := hlen key iv _ hk hiv hd
  simp only [Option.some.injEq] at h
  rw [B.decPad hist' hok' key iv hk hiv pad' hp' chunks' hx', ← h]
  exact ⟨by rw [l1]; exact hd, l2⟩

/-! ## The block ciphers -/

/-- Ciphers that work block by block. -/
theorem blockwise_of {M : EvpMeth σ} {P : σ → Prop} {body : σ → Bytes → σ × Bytes} (gt : 1 < M.blockSize) (le : M.blockSize ≤ 16)
    (hdo : M.doCipher = fun s x => ((whileBlocks M.blockSize body s x).1, (whileBlocks M.blockSize body s x).2.1))
    (hbody : ∀ s b, P s → b.length = M.blockSize → P (body s b).1 ∧ (body s b).2.length = M.blockSize) : Blockwise M P := by
  have hb : 0 < M.blockSize := by omega
  have hrun : ∀ s x, M.blockSize ∣ x.length → M.doCipher s x =
      ((foldB body s (blocks M.blockSize x)).1, (foldB body s (blocks M.blockSize x)).2.flatten) := by
    intro s x h
    rw [hdo]
    dsimp only
    rw [whileBlocks_blocks _ hb _ _ _ h]
  have hfold : ∀ (bs : List Bytes), (∀ b ∈ bs, b.length = M.blockSize) → ∀ s, P s →
      P (foldB body s bs).1 ∧ (foldB body s bs).2.flatten.length = bs.flatten.length := by
    intro bs
    induction bs with
    | nil => intro _ s h; exact ⟨h, rfl⟩
    | cons b bs ih =>
      intro hall s h
      have hl := hall b (by simp)
      obtain ⟨h1, h2⟩ := hbody s b h hl
      obtain ⟨h3, h4⟩ := ih (fun x hx => hall x (by simp [hx])) _ h1
      refine ⟨h3, ?_⟩
      simp only [foldB, List.flatten_cons, List.length_append, h2, h4, hl]
  refine ⟨gt, le, fun s => ?_, fun s x y hx hy => ?_, fun s x hs hx => ?_, fun s x hs hx => ?_⟩
  · rw [hrun s [] (by simp), blocks_nil]; rfl
  · rw [hrun s (x ++ y) (by rw [List.length_append]; exact Nat.dvd_add hx hy), hrun s x hx, hrun _ y hy, blocks_append _ hb _ _ hx,
      foldB_append]
    simp
  · rw [hrun s x hx]
    exact (hfold _ (blocks_all_length _ hb x hx) s hs).1
  · rw [hrun s x hx]
    dsimp only
    rw [(hfold _ (blocks_all_length _ hb x hx) s hs).2, blocks_flatten _ hb]

/-- The contexts of the 8-byte ciphers. -/
structure GostKept (box : KBox) (e : CipherCtx) : Prop where
  iv : e.iv.length = 8
  oiv : e.oiv.length = 8
  box : e.appData = true → e.cctx.box = box

theorem memcpy_len {d s : Bytes} {n m : Nat} (hd : d.length = m) (hs : n ≤ s.length) (hn : n ≤ m) : (memcpy d s n).length = m := by
  simp [memcpy]; omega

theorem setIv_kept {box : KBox} {e : CipherCtx} (h : GostKept box e) (iv : Option Bytes) (n : Nat) (hn : n ≤ 8)
    (hiv : ∀ v, iv = some v → n ≤ v.length) : GostKept box (setIv e iv n) := by
  cases iv with
  | none => exact ⟨memcpy_len h.iv (by rw [h.oiv]; exact hn) hn, h.oiv, h.box⟩
  | some v =>
    have ho : (memcpy e.oiv v n).length = 8 := memcpy_len h.oiv (hiv v rfl) hn
    exact ⟨memcpy_len h.iv (by rw [ho]; exact hn) hn, ho, h.box⟩

theorem setIv_iv {e : CipherCtx} (h1 : e.iv.length = 8) (h2 : e.oiv.length = 8) (v : Bytes) (hl : v.length = 8) :
    (setIv e (some v) 8).iv = v := by
  show memcpy e.iv (memcpy e.oiv v 8) 8 = v
  rw [memcpy8 _ v h2 hl, memcpy8 _ v h1 hl]

/-- `gost_key` on a context. -/
def keyed (e : CipherCtx) : Option Bytes → CipherCtx
  | some k => { e with cctx := gost_key e.cctx k }
  | none => e

theorem keyed_kept {box : KBox} {e : CipherCtx} (h : GostKept box e) (key : Option Bytes) : GostKept box (keyed e key) := by
  cases key with
  | none => exact h
  | some k => exact ⟨h.iv, h.oiv, h.box⟩

theorem keyed_facts (e : CipherCtx) (key : Option Bytes) :
    (keyed e key).cctx.box = e.cctx.box ∧ (keyed e key).encrypting = e.encrypting ∧
    (∀ k, key = some k → k.length = 32 → gost_get_key (keyed e key).cctx = k) ∧
    (keyed e key).num = e.num ∧ (keyed e key).count = e.count ∧ (keyed e key).key_meshing = e.key_meshing ∧
    (keyed e key).buf = e.buf ∧ (keyed e key).stash = e.stash := by
  cases key with
  | none => exact ⟨rfl, rfl, fun k hk => (by cases hk), rfl, rfl, rfl, rfl, rfl⟩
  | some k =>
    refine ⟨rfl, rfl, fun k' hk hl => ?_, rfl, rfl, rfl, rfl, rfl⟩
    cases hk
    exact gost_get_key_set _ _ hl

theorem init_param_old (e : CipherCtx) (ha : e.appData = true) (key iv : Option Bytes) (enc : Bool) (env : Option (Option ParamNID)) :
    gost_cipher_init_param e key iv enc env = some (setIv (keyed { e with encrypting := enc } key) iv 8) := by
  unfold gost_cipher_init_param
  simp only [ha, if_true]
  cases key <;> rfl

theorem init_param_new (e : CipherCtx) (ha : e.appData = false) (key iv : Option Bytes) (enc : Bool) (env : Option (Option ParamNID))
    (p : ParamNID) (hp : get_encryption_params none env = some p) :
    gost_cipher_init_param e key iv enc env =
      some (setIv (keyed { gost_cipher_set_param { e with encrypting := enc } p with appData := true } key) iv 8) := by
  unfold gost_cipher_init_param
  simp only [ha, hp]
  cases key <;> rfl

theorem init_param_kept {env : Option (Option ParamNID)} {p : ParamNID} (hp : get_encryption_params none env = some p)
    {e : CipherCtx} (h : GostKept (boxOf p) e) (key iv : Option Bytes) (enc : Bool)
    (hiv : ∀ v, iv = some v → 8 ≤ v.length) :
    ∃ e', gost_cipher_init_param e key iv enc env = some e' ∧ GostKept (boxOf p) e' ∧ e'.cctx.box = boxOf p ∧ e'.encrypting = enc ∧
      (∀ k, key = some k → k.length = 32 → gost_get_key e'.cctx = k) ∧ (∀ v, iv = some v → v.length = 8 → e'.iv = v) := by
  have main : ∀ e1 : CipherCtx, GostKept (boxOf p) e1 → e1.cctx.box = boxOf p → e1.encrypting = enc →
      GostKept (boxOf p) (setIv (keyed e1 key) iv 8) ∧ (setIv (keyed e1 key) iv 8).cctx.box = boxOf p ∧
        (setIv (keyed e1 key) iv 8).encrypting = enc ∧
        (∀ k, key = some k → k.length = 32 → gost_get_key (setIv (keyed e1 key) iv 8).cctx = k) ∧
        (∀ v, iv = some v → v.length = 8 → (setIv (keyed e1 key) iv 8).iv = v) := by
    intro e1 h1 h2 h3
    have hk := keyed_kept h1 key
    obtain ⟨f1, f2, f3, _⟩ := keyed_facts e1 key
    generalize keyed e1 key = e2 at *
    refine ⟨setIv_kept hk iv 8 (Nat.le_refl _) hiv, f1.trans h2, f2.trans h3, f3, ?_⟩
    intro v hv hl
    subst hv
    exact setIv_iv hk.iv hk.oiv v hl
  cases ha : e.appData with
  | true => exact ⟨_, init_param_old e ha key iv enc env, main _ ⟨h.iv, h.oiv, h.box⟩ (h.box ha) rfl⟩
  | false =>
    have h1 := init_param_new e ha key iv enc env p hp
    have h2 : (gost_cipher_set_param { e with encrypting := enc } p).cctx.box = boxOf p := by
      simp only [gost_cipher_set_param, gost_init]
    have h3 : (gost_cipher_set_param { e with encrypting := enc } p).iv = e.iv := by simp only [gost_cipher_set_param]
    have h4 : (gost_cipher_set_param { e with encrypting := enc } p).oiv = e.oiv := by simp only [gost_cipher_set_param]
    have h5 : (gost_cipher_set_param { e with encrypting := enc } p).encrypting = enc := by simp only [gost_cipher_set_param]
    generalize gost_cipher_set_param { e with encrypting := enc } p = q at *
    exact ⟨_, h1, main { q with appData := true } ⟨(congrArg List.length h3).trans h.iv, (congrArg List.length h4).trans h.oiv,
      fun _ => h2⟩ h2 h5⟩

theorem gostCbc_law (rng : Nat → Fin 8 → W32) (env : Option (Option ParamNID)) (p : ParamNID)
    (hp : get_encryption_params none env = some p) :
    BlockLaw (methGostCbc rng env) (GostKept (boxOf p))
      (fun key iv x => (cbcEnc (E89 (boxOf p) key) iv (blocks 8 x)).flatten)
      (fun key iv x => (cbcDec (D89 (boxOf p) key) iv (blocks 8 x)).flatten) := by
  have hinit : ∀ s key iv enc, GostKept (boxOf p) s → (∀ v, iv = some v → 8 ≤ v.length) →
      ∃ e', (methGostCbc rng env).init s key iv enc = (e', true) ∧ GostKept (boxOf p) e' ∧ e'.cctx.box = boxOf p ∧
        e'.encrypting = enc ∧ (∀ k, key = some k → k.length = 32 → gost_get_key e'.cctx = k) ∧
        (∀ v, iv = some v → v.length = 8 → e'.iv = v) := by
    intro s key iv enc hs hiv
    obtain ⟨e', h1, h2⟩ := init_param_kept hp hs key iv enc hiv
    refine ⟨e', ?_, h2⟩
    show initOr s enc (gost_cipher_init_param s key iv enc env) = _
    rw [h1]
    rfl
  refine ⟨blockwise_of (body := cbcBody) (by decide : 1 < 8) (by decide : 8 ≤ 16) rfl ?_, ⟨?_, ?_, ?_⟩, ?_, ?_⟩
  · intro s b hs hb
    unfold cbcBody
    have hb8 : b.length = 8 := hb
    split
    · exact ⟨⟨gostcrypt_length _ _, hs.oiv, hs.box⟩, gostcrypt_length _ _⟩
    · refine ⟨⟨hb8, hs.oiv, hs.box⟩, ?_⟩
      show (xorB s.iv (gostdecrypt s.cctx b)).length = 8
      simp [hs.iv]
  · exact ⟨rfl, rfl, fun h => by cases h⟩
  · intro s key iv enc hs _ hiv
    obtain ⟨e', h1, h2, _⟩ := hinit s key iv enc hs hiv
    rw [h1]; exact h2
  · intro s a hs
    show GostKept _ (gost_cipher_ctl s _).1
    unfold gost_cipher_ctl
    dsimp only
    split
    · exact hs
    · exact ⟨hs.iv, hs.oiv, hs.box⟩
  · intro s key iv enc hs _ hiv
    obtain ⟨e', h1, _⟩ := hinit s (some key) (some iv) enc hs (fun v hv => by cases hv; exact Nat.le_of_eq hiv.symm)
    rw [h1]
  · intro s key iv enc x hs hk hiv hx
    obtain ⟨e', h1, _, h3, h4, h5, h6⟩ := hinit s (some key) (some iv) enc hs (fun v hv => by cases hv; exact Nat.le_of_eq hiv.symm)
    rw [h1]
    show (gost_cipher_do_cbc e' x).2 = _
    have g5 := h5 key rfl hk
    have g6 := h6 iv rfl hiv
    cases enc with
    | true =>
      have h := cbc_history_enc (boxOf p) e' h3 h4 [x] (by intro c hc; simp only [List.mem_singleton] at hc; subst hc; exact hx)
      simp only [feed, List.append_nil, List.flatten_cons, List.flatten_nil] at h
      rw [h, g5, g6]; rfl
    | false =>
      have h := cbc_history_dec (boxOf p) e' h3 h4 [x] (by intro c hc; simp only [List.mem_singleton] at hc; subst hc; exact hx)
      simp only [feed, List.append_nil, List.flatten_cons, List.flatten_nil] at h
      rw [h, g5, g6]; rfl

/-- `magma_key` on a context. -/
def magmaKeyed (e : CipherCtx) : Option Bytes → CipherCtx
  | some k => { e with cctx := magma_key e.cctx k, masterKey := k.take 32 }
  | none => e

/-- The context with its S-box set. -/
def magmaBoxed (e : CipherCtx) : CipherCtx := if e.appData then e else { gost_cipher_set_param e .tc26Z with appData := true }

theorem magma_init_eq (e : CipherCtx) (key iv : Option Bytes) (enc : Bool) (n : Nat) (acpkm : Bool) :
    magma_cipher_init e key iv enc n acpkm =
      { setIv (magmaKeyed (magmaBoxed { e with encrypting := enc }) key) iv n with key_meshing := if acpkm then 1024 else 0 } := by
  unfold magma_cipher_init magmaBoxed
  cases key <;> rfl

theorem magmaBoxed_facts {e : CipherCtx} (h : GostKept magmaBox e) :
    GostKept magmaBox (magmaBoxed e) ∧ (magmaBoxed e).cctx.box = magmaBox ∧ (magmaBoxed e).encrypting = e.encrypting := by
  cases ha : e.appData with
  | true =>
    have : magmaBoxed e = e := by unfold magmaBoxed; rw [if_pos ha]
    rw [this]
    exact ⟨h, h.box ha, rfl⟩
  | false =>
    have h1 : magmaBoxed e = { gost_cipher_set_param e .tc26Z with appData := true } := by
      unfold magmaBoxed; rw [if_neg (by rw [ha]; simp)]
    have h2 : (gost_cipher_set_param e .tc26Z).cctx.box = magmaBox := by
      simp only [gost_cipher_set_param, gost_init, gost_cipher_list]
    have h3 : (gost_cipher_set_param e .tc26Z).iv = e.iv := by simp only [gost_cipher_set_param]
    have h4 : (gost_cipher_set_param e .tc26Z).oiv = e.oiv := by simp only [gost_cipher_set_param]
    have h5 : (gost_cipher_set_param e .tc26Z).encrypting = e.encrypting := by simp only [gost_cipher_set_param]
    rw [h1]
    generalize gost_cipher_set_param e .tc26Z = q at *
    exact ⟨⟨(congrArg List.length h3).trans h.iv, (congrArg List.length h4).trans h.oiv, fun _ => h2⟩, h2, h5⟩

theorem magma_init_kept {e : CipherCtx} (h : GostKept magmaBox e) (key iv : Option Bytes) (enc : Bool) (n : Nat) (hn : n ≤ 8) (acpkm : Bool)
    (hiv : ∀ v, iv = some v → n ≤ v.length) :
    GostKept magmaBox (magma_cipher_init e key iv enc n acpkm) ∧ (magma_cipher_init e key iv enc n acpkm).cctx.box = magmaBox ∧
    (magma_cipher_init e key iv enc n acpkm).encrypting = enc ∧
    (∀ k, key = some k → k.length = 32 → magma_get_key (magma_cipher_init e key iv enc n acpkm).cctx = k) ∧
    (∀ v, iv = some v → v.length = 8 → n = 8 → (magma_cipher_init e key iv enc n acpkm).iv = v) := by
  rw [magma_init_eq]
  obtain ⟨g1, g2, g3⟩ := magmaBoxed_facts (e := { e with encrypting := enc }) ⟨h.iv, h.oiv, h.box⟩
  generalize magmaBoxed { e with encrypting := enc } = e1 at *
  have hk : GostKept magmaBox (magmaKeyed e1 key) ∧ (magmaKeyed e1 key).cctx.box = magmaBox ∧ (magmaKeyed e1 key).encrypting = enc ∧
      (∀ k, key = some k → k.length = 32 → magma_get_key (magmaKeyed e1 key).cctx = k) := by
    cases key with
    | none => exact ⟨g1, g2, g3, fun k hk => (by cases hk)⟩
    | some k =>
      refine ⟨⟨g1.iv, g1.oiv, fun _ => g2⟩, g2, g3, fun k' hk hl => ?_⟩
      cases hk
      exact magma_get_key_set _ _ hl
  generalize magmaKeyed e1 key = e2 at *
  obtain ⟨k1, k2, k3, k4⟩ := hk
  have hs := setIv_kept k1 iv n hn hiv
  refine ⟨⟨hs.iv, hs.oiv, hs.box⟩, k2, k3, k4, ?_⟩
  intro v hv hl h8
  subst hv
  subst h8
  exact setIv_iv k1.iv k1.oiv v hl

theorem ctl_kept {box : KBox} {s : CipherCtx} (hs : GostKept box s) (a : Int) : GostKept box (gostKeyMesh s a).1 := by
  unfold gostKeyMesh gost_cipher_ctl
  dsimp only
  split
  · exact hs
  · exact ⟨hs.iv, hs.oiv, hs.box⟩

theorem magmaCtl_kept {box : KBox} {s : CipherCtx} (hs : GostKept box s) (a : Nat) : GostKept box (magma_cipher_ctl_key_mesh s a).1 := by
  unfold magma_cipher_ctl_key_mesh
  split
  · exact hs
  · exact ⟨hs.iv, hs.oiv, hs.box⟩

theorem magmaCbc_law (rng : Nat → Fin 8 → W32) :
    BlockLaw (methMagmaCbc rng) (GostKept magmaBox)
      (fun key iv x => (cbcEnc (EMagma magmaBox key) iv (blocks 8 x)).flatten)
      (fun key iv x => (cbcDec (DMagma magmaBox key) iv (blocks 8 x)).flatten) := by
  refine ⟨blockwise_of (body := magmaCbcBody) (by decide : 1 < 8) (by decide : 8 ≤ 16) rfl ?_, ⟨?_, ?_, ?_⟩, fun _ _ _ _ _ _ _ => rfl, ?_⟩
  · intro s b hs hb
    unfold magmaCbcBody
    have hb8 : b.length = 8 := hb
    split
    · exact ⟨⟨magmacrypt_length _ _, hs.oiv, hs.box⟩, magmacrypt_length _ _⟩
    · refine ⟨⟨hb8, hs.oiv, hs.box⟩, ?_⟩
      show (xorB s.iv (magmadecrypt s.cctx b)).length = 8
      simp [hs.iv]
  · exact ⟨rfl, rfl, fun h => by cases h⟩
  · intro s key iv enc hs _ hiv
    exact (magma_init_kept hs key iv enc 8 (Nat.le_refl _) false hiv).1
  · intro s a hs
    exact ctl_kept hs a
  · intro s key iv enc x hs hk hiv hx
    obtain ⟨_, f1, f2, f3, f4⟩ := magma_init_kept hs (some key) (some iv) enc 8 (Nat.le_refl _) false
      (fun v hv => by cases hv; exact Nat.le_of_eq hiv.symm)
    have g3 := f3 key rfl hk
    have g4 := f4 iv rfl hiv rfl
    show (magma_cipher_do_cbc (magma_cipher_init s (some key) (some iv) enc 8 false) x).2 = _
    generalize magma_cipher_init s (some key) (some iv) enc 8 false = e at *
    have hx8 : 8 ∣ x.length := hx
    have hdo : magma_cipher_do_cbc e x = ((whileBlocks 8 magmaCbcBody e x).1, (whileBlocks 8 magmaCbcBody e x).2.1) := rfl
    rw [hdo, whileBlocks_blocks 8 (by decide) magmaCbcBody e x hx8]
    dsimp only
    cases enc with
    | true =>
      rw [foldB_cbcEnc magmaCbcBody (fun e => e.iv) (EMagma magmaBox key)
        (fun s => s.cctx = e.cctx ∧ s.encrypting = true) _ e ⟨rfl, f2⟩, g4]
      · rfl
      · rintro s b ⟨h3, h4⟩
        simp [magmaCbcBody, h4, h3, magmacrypt_eq, f1, g3]
    | false =>
      rw [foldB_cbcDec magmaCbcBody (fun e => e.iv) (DMagma magmaBox key)
        (fun s => s.cctx = e.cctx ∧ s.encrypting = false) _ e ⟨rfl, f2⟩, g4]
      · rfl
      · rintro s b ⟨h3, h4⟩
        simp [magmaCbcBody, h4, h3, magmadecrypt_eq, f1, g3]

theorem magmaEcb_law (rng : Nat → Fin 8 → W32) :
    BlockLaw (methMagmaEcb rng) (GostKept magmaBox)
      (fun key _ x => ecb 8 (EMagma magmaBox key) x) (fun key _ x => ecb 8 (DMagma magmaBox key) x) := by
  refine ⟨blockwise_of (body := magmaEcbBody) (by decide : 1 < 8) (by decide : 8 ≤ 16) rfl ?_, ⟨?_, ?_, ?_⟩, fun _ _ _ _ _ _ _ => rfl, ?_⟩
  · intro s b hs hb
    unfold magmaEcbBody
    split
    · exact ⟨hs, magmacrypt_length _ _⟩
    · exact ⟨hs, magmadecrypt_length _ _⟩
  · exact ⟨rfl, rfl, fun h => by cases h⟩
  · intro s key iv enc hs _ hiv
    exact (magma_init_kept hs key iv enc 0 (by decide) false hiv).1
  · intro s a hs
    exact magmaCtl_kept hs _
  · intro s key iv enc x hs hk hiv hx
    obtain ⟨_, f1, f2, f3, _⟩ := magma_init_kept hs (some key) (some iv) enc 0 (by decide) false (fun v hv => Nat.zero_le _)
    have g3 := f3 key rfl hk
    show (magma_cipher_do_ecb (magma_cipher_init s (some key) (some iv) enc 0 false) x).2 = _
    generalize magma_cipher_init s (some key) (some iv) enc 0 false = e at *
    have hx8 : 8 ∣ x.length := hx
    have hdo : magma_cipher_do_ecb e x = ((whileBlocks 8 magmaEcbBody e x).1, (whileBlocks 8 magmaEcbBody e x).2.1) := rfl
    rw [hdo, whileBlocks_blocks 8 (by decide) magmaEcbBody e x hx8]
    dsimp only
    rw [foldB_ecb magmaEcbBody (if enc then EMagma magmaBox key else DMagma magmaBox key) (fun s => s = e) _ e rfl]
    · cases enc <;> rfl
    · rintro s b rfl
      subst f2
      cases hb : s.encrypting <;> simp [magmaEcbBody, hb, magmacrypt_eq, magmadecrypt_eq, f1, g3]

/-- The contexts of Kuznyechik. -/
structure KuzKept (c : KCtx) : Prop where
  iv : c.iv.length = 16
  oiv : c.oiv.length = 16
  ek : (c.encrypt_round_keys 9).length = 16
  dk0 : (c.decrypt_round_keys 0).length = 16
  dk1 : (c.decrypt_round_keys 1).length = 16

theorem encrypt_block_len (sk : Nat → Bytes) (h : (sk 9).length = 16) (b : Bytes) : (grasshopper_encrypt_block sk b).length = 16 := by
  unfold grasshopper_encrypt_block
  dsimp only
  rw [xorB_length, h, List.range_succ, List.foldl_append]
  simp only [List.foldl_cons, List.foldl_nil]
  rw [append128multi_length]
  · rfl
  · intro i x; rw [grasshopper_pil_enc128, tab128_eq, bytes16_length]

theorem decrypt_block_len (sk : Nat → Bytes) (h0 : (sk 0).length = 16) (h1 : (sk 1).length = 16) (b : Bytes) :
    (grasshopper_decrypt_block sk b).length = 16 := by
  unfold grasshopper_decrypt_block
  simp only [List.foldl_cons, List.foldl_nil, grasshopper_convert128, xorB_length, List.length_map]
  rw [h0, h1, append128multi_length]
  · rfl
  · intro i x; rw [grasshopper_pil_dec128, tab128_eq, bytes16_length]

theorem memcpyTo_len {d s : Bytes} {n m : Nat} (hd : d.length = m) (hs : n ≤ s.length) (hn : n ≤ m) : (memcpyTo d s n).length = m := by
  simp [memcpyTo]; omega

/-- Key and master key. -/
def kKeyed (c : KCtx) : Option Bytes → KCtx
  | some k => gost_grasshopper_master_key (gost_grasshopper_cipher_key c k) k
  | none => c

/-- The IV. -/
def kIved (c : KCtx) (n : Nat) : Option Bytes → KCtx
  | some v => { c with oiv := memcpyTo c.oiv v n }
  | none => c

theorem kuz_init_eq (c : KCtx) (key iv : Option Bytes) (enc : Bool) (n : Nat) :
    gost_grasshopper_cipher_init c key iv enc n =
      { kIved (kKeyed { c with encrypting := enc, appData := true } key) n iv with
        iv := memcpyTo (kIved (kKeyed { c with encrypting := enc, appData := true } key) n iv).iv
          (kIved (kKeyed { c with encrypting := enc, appData := true } key) n iv).oiv n } := by
  unfold gost_grasshopper_cipher_init
  cases key <;> cases iv <;> rfl

theorem kKeyed_kept {c : KCtx} (h : KuzKept c) (key : Option Bytes) : KuzKept (kKeyed c key) := by
  cases key with
  | none => exact h
  | some k =>
    have hl := fun n (hn : n < 10) => set_encrypt_key_length (copyN 32 k) (copyN_length 32 k) n hn
    have d0 : (grasshopper_set_decrypt_key (copyN 32 k) 0).length = 16 := by
      unfold grasshopper_set_decrypt_key
      rw [if_neg (by decide)]
      exact hl 0 (by decide)
    have d1 : (grasshopper_set_decrypt_key (copyN 32 k) 1).length = 16 := by
      unfold grasshopper_set_decrypt_key
      rw [if_pos (by decide)]
      exact l_inv_length _ (hl 1 (by decide))
    have e9 := hl 9 (by decide)
    unfold kKeyed gost_grasshopper_cipher_key gost_grasshopper_master_key
    dsimp only
    generalize grasshopper_set_encrypt_key (copyN 32 k) = ek at *
    generalize grasshopper_set_decrypt_key (copyN 32 k) = dk at *
    exact ⟨h.iv, h.oiv, e9, d0, d1⟩

theorem kuz_init_kept {c : KCtx} (h : KuzKept c) (key iv : Option Bytes) (enc : Bool) (n : Nat) (hn : n ≤ 16)
    (hiv : ∀ v, iv = some v → n ≤ v.length) : KuzKept (gost_grasshopper_cipher_init c key iv enc n) := by
  rw [kuz_init_eq]
  have h1 := kKeyed_kept (c := { c with encrypting := enc, appData := true }) ⟨h.iv, h.oiv, h.ek, h.dk0, h.dk1⟩ key
  generalize kKeyed { c with encrypting := enc, appData := true } key = d at *
  have h2 : KuzKept (kIved d n iv) := by
    cases iv with
    | none => exact h1
    | some v => exact ⟨h1.iv, memcpyTo_len h1.oiv (hiv v rfl) hn, h1.ek, h1.dk0, h1.dk1⟩
  generalize kIved d n iv = f at *
  exact ⟨memcpyTo_len h2.iv (by rw [h2.oiv]; exact hn) hn, h2.oiv, h2.ek, h2.dk0, h2.dk1⟩

theorem kuzCtl_kept {c : KCtx} (h : KuzKept c) (a : Int) : KuzKept (gost_grasshopper_cipher_ctl_key_mesh c a).1 := by
  unfold gost_grasshopper_cipher_ctl_key_mesh
  split
  · exact h
  · exact ⟨h.iv, h.oiv, h.ek, h.dk0, h.dk1⟩

theorem freshK_kept : KuzKept freshKCtx := ⟨rfl, rfl, rfl, rfl, rfl⟩

theorem kEcb_body {s : KCtx} (hs : KuzKept s) (b : Bytes) : KuzKept (kEcbBody s b).1 ∧ (kEcbBody s b).2.length = 16 := by
  have h1 := encrypt_block_len s.encrypt_round_keys hs.ek b
  have h2 := decrypt_block_len s.decrypt_round_keys hs.dk0 hs.dk1 b
  unfold kEcbBody
  generalize grasshopper_encrypt_block s.encrypt_round_keys b = x at *
  generalize grasshopper_decrypt_block s.decrypt_round_keys b = y at *
  split
  · exact ⟨hs, h1⟩
  · exact ⟨hs, h2⟩

theorem kCbc_body {s : KCtx} (hs : KuzKept s) (b : Bytes) (hb : b.length = 16) :
    KuzKept (kCbcBody s b).1 ∧ (kCbcBody s b).2.length = 16 := by
  have h1 := encrypt_block_len s.encrypt_round_keys hs.ek (xorB s.iv b)
  have h2 := decrypt_block_len s.decrypt_round_keys hs.dk0 hs.dk1 b
  unfold kCbcBody
  dsimp only
  generalize grasshopper_encrypt_block s.encrypt_round_keys (xorB s.iv b) = x at *
  generalize grasshopper_decrypt_block s.decrypt_round_keys b = y at *
  split
  · exact ⟨⟨h1, hs.oiv, hs.ek, hs.dk0, hs.dk1⟩, h1⟩
  · refine ⟨⟨hb, hs.oiv, hs.ek, hs.dk0, hs.dk1⟩, ?_⟩
    show (xorB y s.iv).length = 16
    rw [xorB_length, h2, hs.iv]
    rfl

theorem kuzEcb_law :
    BlockLaw methKuzEcb KuzKept (fun key _ x => ecb 16 (EKuz key) x) (fun key _ x => ecb 16 (DKuz key) x) := by
  refine ⟨blockwise_of (body := kEcbBody) (by decide : 1 < 16) (by decide : 16 ≤ 16) rfl ?_, ⟨freshK_kept, ?_, fun s a hs => kuzCtl_kept hs a⟩,
    fun _ _ _ _ _ _ _ => rfl, ?_⟩
  · exact fun s b hs _ => kEcb_body hs b
  · intro s key iv enc hs _ hiv
    exact kuz_init_kept (c := { s with type := .ecb }) ⟨hs.iv, hs.oiv, hs.ek, hs.dk0, hs.dk1⟩ key iv enc 0 (by decide) hiv
  · intro s key iv enc x hs hk hiv hx
    show (gost_grasshopper_cipher_do_ecb (gost_grasshopper_cipher_init_ecb s (some key) (some iv) enc) x).2 = _
    have f1 : KOk (gost_grasshopper_cipher_init_ecb s (some key) (some iv) enc) := ⟨rfl, rfl, copyN_length _ _⟩
    have f2 : (gost_grasshopper_cipher_init_ecb s (some key) (some iv) enc).encrypting = enc := rfl
    have f3 : (gost_grasshopper_cipher_init_ecb s (some key) (some iv) enc).key = key := copyN_self hk
    generalize gost_grasshopper_cipher_init_ecb s (some key) (some iv) enc = e at *
    have hx16 : 16 ∣ x.length := hx
    have hdo : gost_grasshopper_cipher_do_ecb e x = ((whileBlocks 16 kEcbBody e x).1, (whileBlocks 16 kEcbBody e x).2.1) := rfl
    rw [hdo, whileBlocks_blocks 16 (by decide) kEcbBody e x hx16]
    dsimp only
    have hall := blocks_all_length 16 (by decide) x hx16
    have key' : ∀ bs : List Bytes, (∀ b ∈ bs, b.length = 16) →
        (foldB kEcbBody e bs).2 = bs.map (if enc then EKuz key else DKuz key) := by
      intro bs
      induction bs with
      | nil => intro _; rfl
      | cons b bs ih =>
        intro hb
        have hbl : b.length = 16 := hb b (by simp)
        have hbody : kEcbBody e b = (e, (if enc then EKuz key else DKuz key) b) := by
          cases enc
          · simp only [kEcbBody, f2, Bool.false_eq_true, if_false, f1.dec b hbl, f3]
          · simp only [kEcbBody, f2, if_true, f1.enc b hbl, f3]
        rw [foldB, hbody]
        simp only [List.map_cons]
        rw [ih (fun x hx => hb x (by simp [hx]))]
    rw [key' _ hall]
    cases enc <;> rfl

theorem kuzCbc_law :
    BlockLaw methKuzCbc KuzKept (fun key iv x => (cbcEnc (EKuz key) iv (blocks 16 x)).flatten)
      (fun key iv x => (cbcDec (DKuz key) iv (blocks 16 x)).flatten) := by
  refine ⟨blockwise_of (body := kCbcBody) (by decide : 1 < 16) (by decide : 16 ≤ 16) rfl ?_, ⟨freshK_kept, ?_, fun s a hs => kuzCtl_kept hs a⟩,
    fun _ _ _ _ _ _ _ => rfl, ?_⟩
  · exact fun s b hs hb => kCbc_body hs b hb
  · intro s key iv enc hs _ hiv
    exact kuz_init_kept (c := { s with type := .cbc }) ⟨hs.iv, hs.oiv, hs.ek, hs.dk0, hs.dk1⟩ key iv enc 16 (Nat.le_refl _) hiv
  · intro s key iv enc x hs hk hiv hx
    show (gost_grasshopper_cipher_do_cbc (gost_grasshopper_cipher_init_cbc s (some key) (some iv) enc) x).2 = _
    obtain ⟨f1, f2, f3, f4, _⟩ := kinit_facts { s with type := .cbc } key iv hk hiv hs.iv hs.oiv enc
    rw [gost_grasshopper_cipher_init_cbc]
    generalize gost_grasshopper_cipher_init { s with type := .cbc } (some key) (some iv) enc 16 = e at *
    have hx1 : ∀ c ∈ [x], 16 ∣ c.length := by intro c hc; simp only [List.mem_singleton] at hc; subst hc; exact hx
    cases enc with
    | true =>
      have h := kcbc_history_enc e f1 f4 [x] hx1
      simp only [feed, List.append_nil, List.flatten_cons, List.flatten_nil] at h
      rw [h, f2, f3]; rfl
    | false =>
      have h := kcbc_history_dec e f1 f4 [x] hx1
      simp only [feed, List.append_nil, List.flatten_cons, List.flatten_nil] at h
      rw [h, f2, f3]; rfl

/-! ## C66 for the block ciphers -/

/-- **C66** GOST 28147-89 CBC (with the parameter set `p` that the environment or the default selects). -/
theorem C66_gost_cbc (rng : Nat → Fin 8 → W32) (env : Option (Option ParamNID)) (p : ParamNID)
    (hp : get_encryption_params none env = some p) :
    IsBlockMode (methGostCbc rng env)
      (fun key iv x => (cbcEnc (E89 (boxOf p) key) iv (blocks 8 x)).flatten)
      (fun key iv x => (cbcDec (D89 (boxOf p) key) iv (blocks 8 x)).flatten) := (gostCbc_law rng env p hp).mode

/-- **C66** Magma CBC. -/
theorem C66_magma_cbc (rng : Nat → Fin 8 → W32) :
    IsBlockMode (methMagmaCbc rng)
      (fun key iv x => (cbcEnc (EMagma magmaBox key) iv (blocks 8 x)).flatten)
      (fun key iv x => (cbcDec (DMagma magmaBox key) iv (blocks 8 x)).flatten) := (magmaCbc_law rng).mode

/-- **C66** Magma ECB (the engine has it, the provider does not). -/
theorem C66_magma_ecb (rng : Nat → Fin 8 → W32) :
    IsBlockMode (methMagmaEcb rng)
      (fun key _ x => ecb 8 (EMagma magmaBox key) x) (fun key _ x => ecb 8 (DMagma magmaBox key) x) := (magmaEcb_law rng).mode

/-- **C66** Kuznyechik ECB. -/
theorem C66_kuz_ecb :
    IsBlockMode methKuzEcb (fun key _ x => ecb 16 (EKuz key) x) (fun key _ x => ecb 16 (DKuz key) x) := kuzEcb_law.mode

/-- **C66** Kuznyechik CBC. -/
theorem C66_kuz_cbc :
    IsBlockMode methKuzCbc (fun key iv x => (cbcEnc (EKuz key) iv (blocks 16 x)).flatten)
      (fun key iv x => (cbcDec (DKuz key) iv (blocks 16 x)).flatten) := kuzCbc_law.mode

/-- What two contexts with any histories do to any message under any two splits. -/
def RoundTrips (M : EvpMeth σ) : Prop :=
  ∀ (hist hist' : List PcOp), (∀ op ∈ hist, op.Ok M) → (∀ op ∈ hist', op.Ok M) →
  ∀ (key iv : Bytes), key.length = M.keyLen → iv.length = M.ivLen → ∀ (pad pad' : Nat), pad ≠ 0 → pad' ≠ 0 →
  ∀ (chunks chunks' : List Bytes), (∀ x ∈ chunks, x.length + 16 ≤ intMax) → (∀ x ∈ chunks', x.length + 16 ≤ intMax) →
  pcSession M hist key iv true (withPad pad) chunks = some chunks'.flatten →
  pcSession M hist' key iv false (withPad pad') chunks' = some chunks.flatten

theorem cbc_pair (bl : Nat) (hb : 0 < bl) (E D : Bytes → Bytes) (hED : ∀ b : Bytes, b.length = bl → D (E b) = b)
    (hE : ∀ b, (E b).length = bl) (iv x : Bytes) (hiv : iv.length = bl) (hx : bl ∣ x.length) :
    (cbcEnc E iv (blocks bl x)).flatten.length = x.length ∧
      (cbcDec D iv (blocks bl (cbcEnc E iv (blocks bl x)).flatten)).flatten = x := by
  constructor
  · have hall := cbcEnc_all bl E hE iv (blocks bl x)
    have hl := cbcEnc_length E iv (blocks bl x)
    have h1 : ∀ (l : List Bytes), (∀ b ∈ l, b.length = bl) → l.flatten.length = l.length * bl := by
      intro l
      induction l with
      | nil => intro _; simp
      | cons b l ih =>
        intro h
        rw [List.flatten_cons, List.length_append, h b (by simp), ih (fun y hy => h y (by simp [hy])), List.length_cons, Nat.succ_mul]
        omega
    rw [h1 _ hall, hl, ← h1 _ (blocks_all_length bl hb x hx), blocks_flatten bl hb]
  · rw [blocks_of_flatten bl hb _ (cbcEnc_all bl _ hE _ _),
      cbcDec_cbcEnc bl _ _ hED hE iv hiv _ (blocks_all_length bl hb _ hx), blocks_flatten bl hb]

theorem ecb_pair (bl : Nat) (hb : 0 < bl) (E D : Bytes → Bytes) (hED : ∀ b : Bytes, b.length = bl → D (E b) = b)
    (hE : ∀ b, (E b).length = bl) (x : Bytes) (hx : bl ∣ x.length) :
    (ecb bl E x).length = x.length ∧ ecb bl D (ecb bl E x) = x := by
  refine ⟨?_, ecb_inverse bl hb E D hED hE x hx⟩
  unfold ecb
  have h1 : ∀ (l : List Bytes), (∀ b ∈ l, b.length = bl) → (l.map E).flatten.length = l.flatten.length := by
    intro l
    induction l with
    | nil => intro _; rfl
    | cons b l ih =>
      intro h
      rw [List.map_cons, List.flatten_cons, List.flatten_cons, List.length_append, List.length_append, h b (by simp), hE,
        ih (fun y hy => h y (by simp [hy]))]
  rw [h1 _ (blocks_all_length bl hb x hx), blocks_flatten bl hb]

/-- **C66** Decryption restores the message for all five block ciphers. -/
theorem C66_roundtrip (rng : Nat → Fin 8 → W32) (env : Option (Option ParamNID)) (p : ParamNID)
    (hp : get_encryption_params none env = some p) :
    RoundTrips (methGostCbc rng env) ∧ RoundTrips (methMagmaCbc rng) ∧ RoundTrips (methMagmaEcb rng) ∧ RoundTrips methKuzEcb ∧
    RoundTrips methKuzCbc := by
  refine ⟨?_, ?_, ?_, ?_, ?_⟩
  · intro hist hist' hok hok' key iv hk hiv pad pad' hpa hpa' chunks chunks' hx hx' h
    exact (C66_gost_cbc rng env p hp).roundtrip (by decide : 0 < 8) (fun key iv x _ hi hd =>
      cbc_pair 8 (by decide) _ _ (fun b hb => D89_E89 _ _ b hb) (fun b => by simp) iv x hi hd)
      hist hist' hok hok' key iv hk hiv pad pad' hpa hpa' chunks chunks' hx hx' h
  · intro hist hist' hok hok' key iv hk hiv pad pad' hpa hpa' chunks chunks' hx hx' h
    exact (C66_magma_cbc rng).roundtrip (by decide : 0 < 8) (fun key iv x _ hi hd =>
      cbc_pair 8 (by decide) _ _ (fun b hb => DMagma_EMagma _ _ b hb) (fun b => by simp) iv x hi hd)
      hist hist' hok hok' key iv hk hiv pad pad' hpa hpa' chunks chunks' hx hx' h
  · intro hist hist' hok hok' key iv hk hiv pad pad' hpa hpa' chunks chunks' hx hx' h
    exact (C66_magma_ecb rng).roundtrip (by decide : 0 < 8) (fun key iv x _ _ hd =>
      ecb_pair 8 (by decide) _ _ (fun b hb => DMagma_EMagma _ _ b hb) (fun b => by simp) x hd)
      hist hist' hok hok' key iv hk hiv pad pad' hpa hpa' chunks chunks' hx hx' h
  · intro hist hist' hok hok' key iv hk hiv pad pad' hpa hpa' chunks chunks' hx hx' h
    exact C66_kuz_ecb.roundtrip (by decide : 0 < 16) (fun key iv x _ _ hd =>
      ecb_pair 16 (by decide) _ _ (fun b hb => DKuz_EKuz _ b hb) (fun b => EKuz_length _ _) x hd)
      hist hist' hok hok' key iv hk hiv pad pad' hpa hpa' chunks chunks' hx hx' h
  · intro hist hist' hok hok' key iv hk hiv pad pad' hpa hpa' chunks chunks' hx hx' h
    exact C66_kuz_cbc.roundtrip (by decide : 0 < 16) (fun key iv x _ hi hd =>
      cbc_pair 16 (by decide) _ _ (fun b hb => DKuz_EKuz _ b hb) (fun b => EKuz_length _ _) iv x hi hd)
      hist hist' hok hok' key iv hk hiv pad pad' hpa hpa' chunks chunks' hx hx' h

/-! ## C66 for the stream ciphers -/

/-- A new context, init, parameters, any updates, final: the output is the transformation of the whole data. -/
def IsStreamMode (M : EvpMeth σ) (p : PcParams) (T : Bool → Bytes → Bytes → Bytes → Bytes) : Prop :=
  ∀ (key iv : Bytes), key.length = M.keyLen → iv.length = M.ivLen → ∀ (enc : Bool) (chunks : List Bytes),
    (∀ x ∈ chunks, x.length + 16 ≤ intMax) → pcSession M [] key iv enc p chunks = some (T enc key iv chunks.flatten)

theorem streamMode_of {M : EvpMeth σ} (h1 : M.blockSize = 1) {T : Bool → Bytes → Bytes → Bytes → Bytes}
    (h : ∀ (key iv : Bytes), key.length = M.keyLen → iv.length = M.ivLen → ∀ enc, ∃ s, M.init M.fresh (some key) (some iv) enc = (s, true) ∧
      ∀ chunks : List Bytes, (feed M.doCipher s chunks).2 = T enc key iv chunks.flatten) :
    IsStreamMode M .none T := by
  intro key iv hk hiv enc chunks hx
  obtain ⟨s, hi, hf⟩ := h key iv hk hiv enc
  have hev : evpCipherInit M EvpCtx.new (some key) (some iv) enc = (⟨some s, enc, [], [], false, false⟩, true) := by
    unfold evpCipherInit
    have : M.init ((EvpCtx.new : EvpCtx σ).data.getD M.fresh) (some key) (some iv) enc = (s, true) := hi
    rw [this]
    rfl
  have hinit : prov_cipher_init M (pcRun M prov_cipher_newctx []) (some key) (some iv) key.length iv.length .none enc =
      evpCipherInit M EvpCtx.new (some key) (some iv) enc := by
    unfold prov_cipher_init
    rw [show prov_cipher_set_ctx_params M (pcRun M prov_cipher_newctx []) .none = (EvpCtx.new, true) from rfl]
    dsimp only
    rw [if_pos rfl, if_neg (by rw [hk, hiv]; omega)]
  unfold pcSession pcStart
  rw [hinit, hev]
  show pcMessage M ⟨some s, enc, [], [], false, false⟩ chunks = _
  rw [message_stream h1 chunks hx ⟨rfl, rfl, rfl⟩, hf, filter_flatten]

theorem streamMode_mesh {M : EvpMeth σ} (h1 : M.blockSize = 1) {T : Bool → Bytes → Bytes → Bytes → Bytes} (n : Nat)
    (h : ∀ (key iv : Bytes), key.length = M.keyLen → iv.length = M.ivLen → ∀ enc, ∃ s s' r,
      M.init M.fresh (some key) (some iv) enc = (s, true) ∧ M.keyMesh s (intOfSize n) = (s', r) ∧ 0 < r ∧
      ∀ chunks : List Bytes, (feed M.doCipher s' chunks).2 = T enc key iv chunks.flatten) :
    IsStreamMode M (withMesh n) T := by
  intro key iv hk hiv enc chunks hx
  obtain ⟨s, s', r, hi, hm, hr, hf⟩ := h key iv hk hiv enc
  have hev : evpCipherInit M EvpCtx.new (some key) (some iv) enc = (⟨some s, enc, [], [], false, false⟩, true) := by
    unfold evpCipherInit
    have : M.init ((EvpCtx.new : EvpCtx σ).data.getD M.fresh) (some key) (some iv) enc = (s, true) := hi
    rw [this]
    rfl
  have hinit : prov_cipher_init M (pcRun M prov_cipher_newctx []) (some key) (some iv) key.length iv.length .none enc =
      evpCipherInit M EvpCtx.new (some key) (some iv) enc := by
    unfold prov_cipher_init
    rw [show prov_cipher_set_ctx_params M (pcRun M prov_cipher_newctx []) .none = (EvpCtx.new, true) from rfl]
    dsimp only
    rw [if_pos rfl, if_neg (by rw [hk, hiv]; omega)]
  have hpar : prov_cipher_set_ctx_params M ⟨some s, enc, [], [], false, false⟩ (withMesh n) =
      (⟨some s', enc, [], [], false, false⟩, true) := by
    have hk1 : pcSetKeyMesh M ⟨some s, enc, [], [], false, false⟩ (some n) = (⟨some s', enc, [], [], false, false⟩, true) := by
      unfold pcSetKeyMesh evpKeyMesh
      dsimp only
      rw [hm]
      simp [hr]
    unfold prov_cipher_set_ctx_params
    show (if true = true then _ else _) = _
    rw [if_pos rfl]
    show (if (pcSetKeyMesh M ⟨some s, enc, [], [], false, false⟩ (some n)).2 = true then _ else _) = _
    simp only [pcSetPadding, withMesh]
    rw [hk1]
    rfl
  unfold pcSession pcStart
  rw [hinit, hev]
  simp only [if_true]
  rw [hpar]
  simp only [if_true]
  rw [message_stream h1 chunks hx ⟨rfl, rfl, rfl⟩, hf, filter_flatten]

theorem intOfSize_nat {n : Nat} (h : n < 2^31) : (intOfSize n % 2^32).toNat = n := by
  rw [intOfSize_small h]
  have : (n : Int) % 2^32 = n := Int.emod_eq_of_lt (by omega) (by omega)
  rw [this]
  rfl

theorem meth_gost_mesh (rng : Nat → Fin 8 → W32) (block : SubstBlock) (s) (a : Int) :
    (methGostCnt rng block).keyMesh s a = gost_cipher_ctl s (.keyMesh (a % 2^32).toNat) := rfl

theorem meth_magma_mesh (rng : Nat → Fin 8 → W32) (s) (a : Int) :
    (methMagmaCtr rng true).keyMesh s a = magma_cipher_ctl_key_mesh s (a % 2^32).toNat := rfl

/-- **C66** GOST 28147-89 CNT with CryptoPro-A or TC26-Z (or any S-box set): with meshing as init leaves it, and as set by the
parameter `key-mesh`. -/
theorem C66_gost_cnt (rng : Nat → Fin 8 → W32) (block : SubstBlock) :
    IsStreamMode (methGostCnt rng block) .none (fun _ key iv x =>
      xorStream 8 (cntGamma (E89 (kboxinit block)) (cryptoProMesh (D89 (kboxinit block))) cntIncr true key iv) x) ∧
    ∀ mesh < 2^31, IsStreamMode (methGostCnt rng block) (withMesh mesh) (fun _ key iv x =>
      xorStream 8 (cntGamma (E89 (kboxinit block)) (cryptoProMesh (D89 (kboxinit block))) cntIncr (decide (mesh ≠ 0)) key iv) x) := by
  constructor
  · refine streamMode_of rfl ?_
    intro key iv hk hiv enc
    refine ⟨_, rfl, fun chunks => ?_⟩
    have h := C11_cnt_keystream rng enc block 1 key iv hk hiv chunks
    exact h
  · intro mesh hm
    refine streamMode_mesh rfl mesh ?_
    intro key iv hk hiv enc
    refine ⟨_, cntSession rng enc block mesh key iv, 1, rfl, ?_, by decide, fun chunks => C11_cnt_keystream rng enc block mesh key iv hk hiv chunks⟩
    rw [meth_gost_mesh, intOfSize_nat hm]
    rfl

/-- **C66** Magma CTR. -/
theorem C66_magma_ctr (rng : Nat → Fin 8 → W32) :
    IsStreamMode (methMagmaCtr rng false) .none (fun _ key iv x =>
      xorStream 8 (ctrGamma 8 (EMagma magmaBox key) (iv ++ zeros 4)) x) := by
  refine streamMode_of rfl ?_
  intro key iv hk hiv enc
  exact ⟨_, rfl, fun chunks => C14_magma_ctr_keystream rng enc key iv hk hiv chunks⟩

/-- **C66** Magma CTR-ACPKM: sections of 1024 bytes, or as set by `key-mesh`. -/
theorem C66_magma_ctr_acpkm (rng : Nat → Fin 8 → W32) :
    IsStreamMode (methMagmaCtr rng true) .none (fun _ key iv x =>
      xorStream 8 (ctrAcpkmGamma 8 (EMagma magmaBox) (Spec.acpkm 8 (EMagma magmaBox)) 1024 key (iv ++ zeros 4)) x) ∧
    ∀ sec < 2^31, IsStreamMode (methMagmaCtr rng true) (withMesh sec) (fun _ key iv x =>
      xorStream 8 (ctrAcpkmGamma 8 (EMagma magmaBox) (Spec.acpkm 8 (EMagma magmaBox)) ((sec + 7) / 8 * 8) key (iv ++ zeros 4)) x) := by
  constructor
  · refine streamMode_of rfl ?_
    intro key iv hk hiv enc
    exact ⟨_, rfl, fun chunks => C15_magma_acpkm_keystream rng enc 1024 (by decide) key iv hk hiv chunks⟩
  · intro sec hs
    refine streamMode_mesh rfl sec ?_
    intro key iv hk hiv enc
    refine ⟨_, (magma_cipher_ctl_key_mesh (magmaSession rng enc 4 true key iv) sec).1, 1, rfl, ?_, by decide,
      fun chunks => C15_magma_acpkm_keystream rng enc sec hs key iv hk hiv chunks⟩
    rw [meth_magma_mesh, intOfSize_nat hs]
    rfl

/-- **C66** Kuznyechik CTR, OFB and CFB. -/
theorem C66_kuz_streams :
    IsStreamMode methKuzCtr .none (fun _ key iv x => xorStream 16 (ctrGamma 16 (EKuz key) (iv ++ zeros 8)) x) ∧
    IsStreamMode methKuzOfb .none (fun _ key iv x => xorStream 16 (ofbGamma (EKuz key) iv) x) ∧
    IsStreamMode methKuzCfb .none (fun enc key iv x =>
      if enc then (cfbPlainEnc (EKuz key) iv (blocks 16 x)).flatten else (cfbPlainDec (EKuz key) iv (blocks 16 x)).flatten) := by
  refine ⟨streamMode_of rfl ?_, streamMode_of rfl ?_, streamMode_of rfl ?_⟩
  · intro key iv hk hiv enc
    exact ⟨kCtrSession enc key iv, rfl, fun chunks => C14_kuz_ctr_keystream enc key iv hk hiv chunks⟩
  · intro key iv hk hiv enc
    exact ⟨kOfbSession enc key iv, rfl, fun chunks => C16_ofb_keystream enc key iv hk hiv chunks⟩
  · intro key iv hk hiv enc
    refine ⟨kCfbSession enc key iv, rfl, fun chunks => ?_⟩
    cases enc with
    | true => exact C16_cfb_enc key iv hk hiv chunks
    | false => exact C16_cfb_dec key iv hk hiv chunks

/-- **C66** Kuznyechik CTR-ACPKM: sections of 4096 bytes, or as set by `key-mesh` (whole blocks). -/
theorem C66_kuz_ctr_acpkm :
    IsStreamMode methKuzCtrAcpkm .none (fun _ key iv x =>
      xorStream 16 (fun j => EKuz (iter (Spec.acpkm 16 EKuz) (16 * j / 4096) key) (ctrBlock 16 (iv ++ zeros 8) j)) x) ∧
    ∀ sec, 0 < sec → sec < 2^31 → 16 ∣ sec → IsStreamMode methKuzCtrAcpkm (withMesh sec) (fun _ key iv x =>
      xorStream 16 (fun j => EKuz (iter (Spec.acpkm 16 EKuz) (16 * j / sec) key) (ctrBlock 16 (iv ++ zeros 8) j)) x) := by
  constructor
  · refine streamMode_of rfl ?_
    intro key iv hk hiv enc
    exact ⟨kAcpkmSession enc key iv, rfl, fun chunks => C15_kuz_acpkm_default enc key iv hk hiv chunks⟩
  · intro sec h0 hs h16
    refine streamMode_mesh rfl sec ?_
    intro key iv hk hiv enc
    have h := fun chunks => C15_kuz_acpkm_keystream enc sec hs h0 h16 key iv hk hiv chunks
    refine ⟨kAcpkmSession enc key iv, (gost_grasshopper_cipher_ctl_key_mesh (kAcpkmSession enc key iv) sec).1,
      (gost_grasshopper_cipher_ctl_key_mesh (kAcpkmSession enc key iv) sec).2, rfl, ?_, ?_, fun chunks => (h chunks).2⟩
    · show gost_grasshopper_cipher_ctl_key_mesh _ (intOfSize sec) = _
      rw [intOfSize_small hs]
    · rw [(h []).1]; decide

theorem cfb_init_facts (rng : Nat → Fin 8 → W32) (env : Option (Option ParamNID)) (p : ParamNID)
    (hp : get_encryption_params none env = some p) (enc : Bool) (key iv : Bytes) (hk : key.length = 32) (hiv : iv.length = 8) :
    ∃ e, (methGostCfb rng env).init (methGostCfb rng env).fresh (some key) (some iv) enc = (e, true) ∧
      CfbInv (boxOf p) (decide ((gost_cipher_list p).2 ≠ 0)) enc e ∧ e.num = 0 ∧ e.count = 0 ∧ gost_get_key e.cctx = key ∧ e.iv = iv := by
  have h : (methGostCfb rng env).init (methGostCfb rng env).fresh (some key) (some iv) enc =
      initOr (freshCtx rng false) enc (gost_cipher_init_param (freshCtx rng false) (some key) (some iv) enc env) := rfl
  have hq : gost_cipher_init_param (freshCtx rng false) (some key) (some iv) enc env =
      some (setIv { gost_cipher_set_param { freshCtx rng false with encrypting := enc } p with
        appData := true, cctx := gost_key (gost_cipher_set_param { freshCtx rng false with encrypting := enc } p).cctx key } (some iv) 8) := by
    unfold gost_cipher_init_param
    rw [hp]
    rfl
  rw [h, hq]
  refine ⟨_, rfl, ⟨rfl, ?_, rfl, rfl, rfl, (show (0:Nat) < 8 by decide)⟩, rfl, rfl, ?_, ?_⟩
  · exact (decide_eq_true_iff (p := (gost_cipher_list p).2 ≠ 0)).symm
  · exact gost_get_key_set _ _ hk
  · show memcpy (zeros 8) (memcpy (zeros 8) iv 8) 8 = iv
    obtain ⟨b0, b1, b2, b3, b4, b5, b6, b7, rfl⟩ := list8 hiv
    rfl

theorem cfb_feed {p : ParamNID} {on enc : Bool} {e : CipherCtx} (hi : CfbInv (boxOf p) on enc e) (h0 : e.num = 0) (hc : e.count = 0)
    {key iv : Bytes} (hk : gost_get_key e.cctx = key) (hv : e.iv = iv) (chunks : List Bytes) :
    (feed gost_cipher_do_cfb e chunks).2 =
      if enc then (cfbEnc (E89 (boxOf p)) (cryptoProMesh (D89 (boxOf p))) on key iv 0 (blocks 8 chunks.flatten)).flatten
      else (cfbDec (E89 (boxOf p)) (cryptoProMesh (D89 (boxOf p))) on key iv 0 (blocks 8 chunks.flatten)).flatten := by
  have h := cfb_history (boxOf p) on enc e hi h0 hc chunks
  rw [hk, hv] at h
  cases enc with
  | true =>
    have hcl := cfb_closed_enc (boxOf p) on key iv 0 chunks.flatten
    rw [show (⟨key, iv, [], cntCount 0⟩ : CfbSt) = ⟨key, iv, [], 0⟩ from rfl, h] at hcl
    exact hcl
  | false =>
    have hcl := cfb_closed_dec (boxOf p) on key iv 0 chunks.flatten
    rw [show (⟨key, iv, [], cntCount 0⟩ : CfbSt) = ⟨key, iv, [], 0⟩ from rfl, h] at hcl
    exact hcl

theorem meth_cfb_mesh (rng : Nat → Fin 8 → W32) (env : Option (Option ParamNID)) (s) (a : Int) :
    (methGostCfb rng env).keyMesh s a = gost_cipher_ctl s (.keyMesh (a % 2^32).toNat) := rfl

/-- **C66** GOST 28147-89 CFB with the parameter set `p` that the environment or the default selects: with the meshing of the parameter
set, and as set by the parameter `key-mesh`. -/
theorem C66_gost_cfb (rng : Nat → Fin 8 → W32) (env : Option (Option ParamNID)) (p : ParamNID)
    (hp : get_encryption_params none env = some p) :
    IsStreamMode (methGostCfb rng env) .none (fun enc key iv x =>
      if enc then (cfbEnc (E89 (boxOf p)) (cryptoProMesh (D89 (boxOf p))) (decide ((gost_cipher_list p).2 ≠ 0)) key iv 0 (blocks 8 x)).flatten
      else (cfbDec (E89 (boxOf p)) (cryptoProMesh (D89 (boxOf p))) (decide ((gost_cipher_list p).2 ≠ 0)) key iv 0 (blocks 8 x)).flatten) ∧
    ∀ mesh < 2^31, IsStreamMode (methGostCfb rng env) (withMesh mesh) (fun enc key iv x =>
      if enc then (cfbEnc (E89 (boxOf p)) (cryptoProMesh (D89 (boxOf p))) (decide (mesh ≠ 0)) key iv 0 (blocks 8 x)).flatten
      else (cfbDec (E89 (boxOf p)) (cryptoProMesh (D89 (boxOf p))) (decide (mesh ≠ 0)) key iv 0 (blocks 8 x)).flatten) := by
  constructor
  · refine streamMode_of rfl ?_
    intro key iv hk hiv enc
    obtain ⟨e, h1, h2, h3, h4, h5, h6⟩ := cfb_init_facts rng env p hp enc key iv hk hiv
    exact ⟨e, h1, fun chunks => cfb_feed h2 h3 h4 h5 h6 chunks⟩
  · intro mesh hm
    refine streamMode_mesh rfl mesh ?_
    intro key iv hk hiv enc
    obtain ⟨e, h1, h2, h3, h4, h5, h6⟩ := cfb_init_facts rng env p hp enc key iv hk hiv
    refine ⟨e, { e with key_meshing := mesh }, 1, h1, ?_, by decide, fun chunks => cfb_feed (e := { e with key_meshing := mesh }) (on := decide (mesh ≠ 0))
      ⟨h2.box, (decide_eq_true_iff (p := mesh ≠ 0)).symm, h2.enc, h2.buf, h2.stash, h2.num⟩ h3 h4 h5 h6 chunks⟩
    rw [meth_cfb_mesh, intOfSize_nat hm]
    unfold gost_cipher_ctl
    dsimp only
    rw [if_neg (by rw [h4]; simp)]

/-! ## C66: what is refused -/

/-- **C66** On a context without a cipher (no init yet, in whatever state) every parameter is refused, also when it is given with the
first init, which then fails, with whatever key and IV; and updates and final fail without output. -/
theorem C66_parameters_need_a_cipher (M : EvpMeth σ) (c : EvpCtx σ) (hc : c.data = none) (p : PcParams)
    (hp : p.padding ≠ none ∨ p.keyMesh ≠ none ∨ p.ivlen ≠ none ∨ p.tag ≠ none) :
    (prov_cipher_set_ctx_params M c p).2 = false ∧
    (∀ key iv kl il enc, (prov_cipher_init M c key iv kl il p enc).2 = false ∧ (prov_cipher_init M c key iv kl il p enc).1.data = none) ∧
    (∀ x, (prov_cipher_update M c x).2 = ([], false)) ∧ (prov_cipher_final M c).2 = ([], false) := by
  have hset : (prov_cipher_set_ctx_params M c p).2 = false ∧ (prov_cipher_set_ctx_params M c p).1.data = none := by
    unfold prov_cipher_set_ctx_params
    cases hpad : p.padding with
    | some n =>
      simp only [pcSetPadding, evpSetPadding, hc, Option.isSome_none]
      exact ⟨rfl, rfl⟩
    | none =>
      simp only [pcSetPadding, if_true]
      cases hm : p.keyMesh with
      | some n =>
        simp only [pcSetKeyMesh, evpKeyMesh, hc]
        exact ⟨rfl, hc⟩
      | none =>
        simp only [pcSetKeyMesh, if_true]
        refine ⟨?_, hc⟩
        rcases hp with h | h | h | h
        · exact absurd hpad h
        · exact absurd hm h
        · cases hi : p.ivlen with
          | none => exact absurd hi h
          | some _ => rfl
        · cases hi : p.tag with
          | none => exact absurd hi h
          | some _ => simp
  refine ⟨hset.1, fun key iv kl il enc => ?_, fun x => ?_, ?_⟩
  · unfold prov_cipher_init
    dsimp only
    rw [hset.1]
    exact ⟨rfl, hset.2⟩
  · unfold prov_cipher_update evpCipherUpdate
    rw [hc]
  · unfold prov_cipher_final evpCipherFinal
    rw [hc]

/-- **C66** The parameters of AEAD ciphers are refused always, and an init that states a key or IV longer than the cipher's is; the
cipher data is then not touched. -/
theorem C66_refused (M : EvpMeth σ) (c : EvpCtx σ) :
    (∀ p : PcParams, p.ivlen ≠ none ∨ p.tag ≠ none → (prov_cipher_set_ctx_params M c p).2 = false ∧
      ∀ key iv kl il enc, (prov_cipher_init M c key iv kl il p enc).2 = false) ∧
    ∀ key iv kl il enc, M.keyLen < kl ∨ M.ivLen < il → prov_cipher_init M c key iv kl il .none enc = (c, false) := by
  constructor
  · intro p hp
    have hset : (prov_cipher_set_ctx_params M c p).2 = false := by
      unfold prov_cipher_set_ctx_params
      dsimp only
      split
      · split
        · rcases hp with h | h
          · cases hi : p.ivlen with
            | none => exact absurd hi h
            | some _ => rfl
          · cases hi : p.tag with
            | none => exact absurd hi h
            | some _ => simp
        · rfl
      · rfl
    refine ⟨hset, fun key iv kl il enc => ?_⟩
    unfold prov_cipher_init
    dsimp only
    rw [hset]
    rfl
  · intro key iv kl il enc h
    unfold prov_cipher_init
    rw [show prov_cipher_set_ctx_params M c .none = (c, true) from rfl]
    dsimp only
    rw [if_pos rfl, if_pos h]

/-- **C66** A piece of `2^31` bytes or more, which no function of EVP passes on (their lengths are `int`s), but which the function of the
provider accepts: its length is taken modulo `2^32`, the rest of the piece is ignored without an error, or it is refused. -/
theorem C66_piece_too_long (M : EvpMeth σ) (c : EvpCtx σ) (x : Bytes) :
    (x.length % 2^32 < 2^31 → prov_cipher_update M c x = prov_cipher_update M c (x.take (x.length % 2^32))) ∧
    (2^31 ≤ x.length % 2^32 → prov_cipher_update M c x = (c, [], false)) := by
  constructor
  · intro h
    unfold prov_cipher_update evpCipherUpdate
    have hl : (x.take (x.length % 2^32)).length = x.length % 2^32 := by
      rw [List.length_take]; exact Nat.min_eq_left (Nat.mod_le _ _)
    have h2 : intOfSize (x.take (x.length % 2^32)).length = ((x.length % 2^32 : Nat) : Int) := by
      rw [hl, intOfSize_small h]
    have h1 : intOfSize x.length = ((x.length % 2^32 : Nat) : Int) := by
      unfold intOfSize; rw [if_pos h]
    rw [h1, h2]
    have h3 : ((x.length % 2^32 : Nat) : Int).toNat = x.length % 2^32 := Int.toNat_natCast _
    rw [h3, List.take_take, Nat.min_self]
  · intro h
    unfold prov_cipher_update evpCipherUpdate
    have h1 : intOfSize x.length = ((x.length % 2^32 : Nat) : Int) - 2^32 := by
      unfold intOfSize; rw [if_neg (by omega)]
    have h2 : intOfSize x.length < 0 := by
      rw [h1]
      have : x.length % 2^32 < 2^32 := Nat.mod_lt _ (by decide)
      omega
    cases hd : c.data with
    | none => rfl
    | some s =>
      dsimp only
      rw [if_pos (by omega)]
      have : (intOfSize x.length == 0) = false := by
        rw [beq_eq_false_iff_ne]; omega
      rw [this]

/-! ## Concrete cases -/

/-- A history that leaves a partial block, a padding flag and a context in the other direction behind. -/
def pcDirty : List PcOp :=
  [.setParams (withPad 0), .init (some (List.replicate 32 7)) (some (List.replicate 8 9)) 32 8 .none false, .setParams (withPad 0),
   .update (List.replicate 11 3), .dup, .final, .init none none 0 0 (withPad 0) true, .update [1, 2, 3]]

theorem pcDirty_ok (rng : Nat → Fin 8 → W32) : ∀ op ∈ pcDirty, op.Ok (methMagmaCbc rng) := by
  intro op h
  simp only [pcDirty, List.mem_cons, List.not_mem_nil, or_false] at h
  rcases h with rfl | rfl | rfl | rfl | rfl | rfl | rfl | rfl
  · exact True.intro
  · exact ⟨fun k hk => by cases hk; exact (by decide : 32 ≤ 32), fun v hv => by cases hv; exact (by decide : 8 ≤ 8)⟩
  · exact True.intro
  · exact True.intro
  · exact True.intro
  · exact True.intro
  · exact ⟨(fun k hk => by cases hk), (fun v hv => by cases hv)⟩
  · exact True.intro

/-- Thirteen bytes in pieces of 1, 0, 9 and 3 after that history: two blocks of Magma CBC, and deciphering gives them back. -/
example : ∃ ct, pcSession (methMagmaCbc witRng) pcDirty (List.replicate 32 5) (List.replicate 8 6) true (withPad 1)
      [[1], [], [2, 3, 4, 5, 6, 7, 8, 9, 10], [11, 12, 13]] = some ct ∧ ct.length = 16 ∧
    pcSession (methMagmaCbc witRng) [] (List.replicate 32 5) (List.replicate 8 6) false .none [ct.take 5, ct.drop 5] =
      some [1, 2, 3, 4, 5, 6, 7, 8, 9, 10, 11, 12, 13] := by
  refine ⟨_, (C66_magma_cbc witRng).encPad pcDirty (pcDirty_ok _) _ _ rfl rfl 1 (by decide) _ (by decide), by decide +kernel, ?_⟩
  decide +kernel

/-- GOST 28147-89 CFB has a parameter set for every environment but one that names none. -/
example : get_encryption_params none none = some .tc26Z ∧ get_encryption_params none (some (some .cryptoProA)) = some .cryptoProA := ⟨rfl, rfl⟩

end Gost
