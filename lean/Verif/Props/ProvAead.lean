import Verif.Model.ProvAead
import Verif.Props.MgmCtl

/-!
# C70, C71: the MGM ciphers through the provider; the length of the nonce

`Spec/Mgm.lean` has the standard's ciphertext and tag.  C70 is about applications that fetch `magma-mgm` or `kuznyechik-mgm` from the provider;
the context may have any history before the session.  C71 is about `EVP_CTRL_AEAD_SET_IVLEN`.
-/

namespace Gost
open Spec

variable {alg : MgmAlg}

/-- What an application can do with a provider context that it did not get by duplication (copies of MGM contexts are C67). -/
inductive PaOp
  | init (key iv : Option Bytes) (keylen ivlen : Nat) (p : PcParams) (enc : Bool)
  | params (p : PcParams)
  | update (out : Bool) (inp : Option Bytes)
  | final

/-- One call: the context and whether the call succeeded. -/
def paStep (ks0 : alg.KS) (c : AeadCtx alg) : PaOp → AeadCtx alg × Bool
  | .init key iv kl il p enc => prov_aead_init ks0 c key iv kl il p enc
  | .params p => prov_aead_set_ctx_params c p
  | .update out inp => ((prov_aead_update c out inp).1, (prov_aead_update c out inp).2.2)
  | .final => ((prov_aead_final c).1, (prov_aead_final c).2.2)

/-- A new context after a history of calls. -/
def paRun (ks0 : alg.KS) (h : List PaOp) : AeadCtx alg := h.foldl (fun c o => (paStep ks0 c o).1) prov_aead_newctx

/-- Updates with associated data (`false`: no output buffer) or message data: the context, all the output, which calls succeeded. -/
def paFeed : AeadCtx alg → List (Bool × Bytes) → AeadCtx alg × Bytes × List Bool
  | c, [] => (c, [], [])
  | c, (o, d) :: l =>
    let r := prov_aead_update c o (some d)
    let t := paFeed r.1 l
    (t.1, r.2.1 ++ t.2.1, r.2.2 :: t.2.2)

/-- A session: initialisation of any context with key and nonce, no parameters, then the updates. -/
def paSession (m : MgmCipher) (ks0 : m.alg.KS) (c : AeadCtx m.alg) (key iv : Bytes) (enc : Bool) (calls : List (Bool × Bytes)) :
    AeadCtx m.alg × Bytes × List Bool :=
  paFeed (prov_aead_init ks0 c (some key) (some iv) key.length iv.length PcParams.none enc).1 calls

/-! ## From the provider to the cipher -/

theorem feed_calls (calls : List (Bool × Bytes)) : ∀ s : MgmCtx alg, (∀ x ∈ calls, x.2.length ≤ intMax) →
    paFeed { data := some s } calls =
      ({ data := some (mgmCalls s calls).1 }, (mgmCalls s calls).2.1, (mgmCalls s calls).2.2.map fun v => decide (0 ≤ v)) := by
  induction calls with
  | nil => intro s _; rfl
  | cons x t ih =>
    obtain ⟨o, d⟩ := x
    intro s h
    have hd : d.length ≤ intMax := h (o, d) (List.mem_cons_self ..)
    have hu : prov_aead_update { data := some s } o (some d) = paDo s o (some d) := by
      unfold prov_aead_update
      simp only
      rw [if_neg (Nat.not_lt.mpr hd)]
    rw [paFeed, hu, mgmCalls]
    simp only [paDo]
    rw [ih _ (fun x hx => h x (List.mem_cons_of_mem _ hx))]
    simp

/-- The state the init function of the cipher is called with. -/
def paBase (ks0 : alg.KS) (c : AeadCtx alg) : MgmCtx alg :=
  match c.data with
  | none => mgm_ctrl_init (mgmZero ks0)
  | some s => s

theorem init_base (ks0 : alg.KS) (c : AeadCtx alg) (key iv : Option Bytes) (kl il : Nat) (enc : Bool) (hk : kl ≤ 32) (hi : il ≤ alg.bl) :
    prov_aead_init ks0 c key iv kl il PcParams.none enc = ({ data := some (cipher_init_mgm (paBase ks0 c) key iv enc) }, true) := by
  obtain ⟨d⟩ := c
  cases d with
  | none =>
    have hp : prov_aead_set_ctx_params (⟨none⟩ : AeadCtx alg) PcParams.none = (⟨none⟩, true) := rfl
    rw [prov_aead_init, hp]
    simp only [if_true]
    rw [if_neg (by omega)]
    rfl
  | some s =>
    have hp : prov_aead_set_ctx_params (⟨some s⟩ : AeadCtx alg) PcParams.none = (⟨some s⟩, true) := rfl
    rw [prov_aead_init, hp]
    simp only [if_true]
    rw [if_neg (by omega)]
    rfl

theorem session_base (m : MgmCipher) (ks0 : m.alg.KS) (c : AeadCtx m.alg) (key iv : Bytes) (enc : Bool) (calls : List (Bool × Bytes))
    (hk : key.length = 32) (hi : iv.length = m.alg.bl) (hc : ∀ x ∈ calls, x.2.length ≤ intMax) :
    let s := mgmSession m (paBase ks0 c) key iv enc calls
    paSession m ks0 c key iv enc calls = ({ data := some s.1 }, s.2.1, s.2.2.map fun v => decide (0 ≤ v)) := by
  intro s
  rw [paSession, init_base ks0 c _ _ _ _ _ (by omega) (by omega)]
  exact feed_calls calls _ hc

theorem chunks_small {as ds : List Bytes} (ha : ∀ a ∈ as, a.length ≤ intMax) (hd : ∀ d ∈ ds, d.length ≤ intMax) :
    ∀ x ∈ mgmChunks as ds, x.2.length ≤ intMax := by
  intro x hx
  unfold mgmChunks at hx
  rw [List.mem_append, List.mem_map, List.mem_map] at hx
  rcases hx with ⟨a, h, rfl⟩ | ⟨a, h, rfl⟩
  · exact ha a h
  · exact hd a h

theorem all_done (l : List Bytes) : (l.map fun d => (d.length : Int)).map (fun v => decide (0 ≤ v)) = l.map fun _ => true := by
  rw [List.map_map]
  apply List.map_congr_left
  intro a _
  simp

theorem small_size (n : Nat) (h : n ≤ intMax) : intOfSize n = (n : Int) := by
  unfold intMax at h
  unfold intOfSize
  rw [Nat.mod_eq_of_lt (by omega), if_pos (by omega)]

/-! ## C70 -/

section
variable (m : MgmCipher) (ks0 : m.alg.KS) (h : List PaOp) (key iv : Bytes) (hk : key.length = 32) (hiv : iv.length = m.alg.bl)
include hk hiv

/-- **C70** Encryption through the provider: whatever was done with the context before, initialising it with a key and a nonce succeeds; however
associated data and plaintext are split into updates, all of them succeed and write the standard's ciphertext; the final call succeeds and
writes nothing; and the parameter `tag` of any size `t` from 1 to the block length is the standard's tag truncated to `t`. -/
theorem C70_encrypt_is_standard (as ds : List Bytes) (ha : ∀ a ∈ as, a.length ≤ intMax) (hd : ∀ d ∈ ds, d.length ≤ intMax)
    (t : Nat) (ht : 0 < t) (ht' : t ≤ m.alg.bl) (hl : as.flatten.length + ds.flatten.length ≤ mgmLimit m.alg.bl)
    (hA : as.flatten.length < mgmLimit m.alg.bl) (hP : ds.flatten.length < mgmLimit m.alg.bl) :
    let c := paRun ks0 h
    let s := paSession m ks0 c key iv true (mgmChunks as ds)
    let C := mgmCrypt m.alg.bl (m.E key) iv ds.flatten
    (prov_aead_init ks0 c (some key) (some iv) key.length iv.length PcParams.none true).2 = true ∧
    s.2.1 = C ∧ s.2.2 = (as ++ ds).map (fun _ => true) ∧
    (prov_aead_final s.1).2 = ([], true) ∧
    prov_aead_get_tag (prov_aead_final s.1).1 t = some ((mgmTag m.alg.bl (m.E key) m.alg.mul iv as.flatten C).take t) := by
  intro c s C
  have hbl := m.ok.bl_ok
  obtain ⟨e1, e2, e3, e4⟩ := C24_encrypt_is_standard m (paBase ks0 c) key iv hk hiv as ds true t ht ht' hl hA hP
  have hs := session_base m ks0 c key iv true (mgmChunks as ds) hk hiv (chunks_small ha hd)
  refine ⟨by rw [init_base ks0 c _ _ _ _ _ (by omega) (by omega)], ?_, ?_, ?_, ?_⟩
  · show (paSession m ks0 c key iv true (mgmChunks as ds)).2.1 = _
    rw [hs]; exact e2
  · show (paSession m ks0 c key iv true (mgmChunks as ds)).2.2 = _
    rw [hs]
    show List.map _ (mgmSession m (paBase ks0 c) key iv true (mgmChunks as ds)).2.2 = _
    rw [e1, all_done]
  · show (prov_aead_final (paSession m ks0 c key iv true (mgmChunks as ds)).1).2 = _
    rw [hs]
    simp only [prov_aead_final, paDo]
    rw [e3]; rfl
  · show prov_aead_get_tag (prov_aead_final (paSession m ks0 c key iv true (mgmChunks as ds)).1).1 t = _
    rw [hs]
    simp only [prov_aead_final, paDo, prov_aead_get_tag]
    rw [small_size t (by unfold intMax; omega)]
    exact e4

/-- **C70** Decryption through the provider, when at least one update with associated data is made (an empty one will do): the updates write
the standard's decryption; a tag of the block length is accepted as parameter after the updates; and the final call then succeeds if and only if
it is the standard's tag. What is missing: a session without any update with associated data, see `C70_decrypt_actual`. -/
theorem C70_decrypt_partial (as ds : List Bytes) (has : as ≠ []) (ha : ∀ a ∈ as, a.length ≤ intMax) (hd : ∀ d ∈ ds, d.length ≤ intMax)
    (tag : Bytes) (htag : tag.length = m.alg.bl) (hl : as.flatten.length + ds.flatten.length ≤ mgmLimit m.alg.bl)
    (hA : as.flatten.length < mgmLimit m.alg.bl) (hP : ds.flatten.length < mgmLimit m.alg.bl) :
    let c := paRun ks0 h
    let s := paSession m ks0 c key iv false (mgmChunks as ds)
    let p := prov_aead_set_ctx_params s.1 { PcParams.none with tag := some tag }
    s.2.1 = mgmCrypt m.alg.bl (m.E key) iv ds.flatten ∧ s.2.2 = (as ++ ds).map (fun _ => true) ∧ p.2 = true ∧
    ((prov_aead_final p.1).2.2 = true ↔ tag = mgmTag m.alg.bl (m.E key) m.alg.mul iv as.flatten ds.flatten) := by
  intro c s p
  have hbl := m.ok.bl_ok
  obtain ⟨e1, e2, e3⟩ := C27_mgm_tag_check_partial m (paBase ks0 c) key iv hk hiv as ds has true tag htag hl hA hP
  have e4 := C27_mgm_tag_check_actual m (paBase ks0 c) key iv hk hiv as ds true tag htag hl hA hP
  obtain ⟨_, e5, _⟩ := session_chunks m (paBase ks0 c) key iv hk hiv false as ds hl hA hP
  have hs := session_base m ks0 c key iv false (mgmChunks as ds) hk hiv (chunks_small ha hd)
  have hs' : s = _ := hs
  generalize mgmSession m (paBase ks0 c) key iv false (mgmChunks as ds) = r at *
  have hp : p = ({ data := some (mgm_ctrl_set_tag r.1 m.alg.bl tag).1 }, true) := by
    show prov_aead_set_ctx_params s.1 _ = _
    rw [hs']
    unfold prov_aead_set_ctx_params paSetAead
    simp only [PcParams.none, paSetIvlen, paSetTag, if_true, Option.isSome_none, Bool.false_eq_true, if_false]
    rw [if_neg (by omega)]
    simp only [htag]
    rw [e2]
    rfl
  refine ⟨by rw [hs']; exact e1, by rw [hs']; show List.map _ r.2.2 = _; rw [e5, all_done], by rw [hp], ?_⟩
  rw [hp]
  simp only [prov_aead_final, paDo, decide_eq_true_eq]
  rw [← e3]
  simp only at e4
  constructor
  · intro hx
    by_cases ht : tag = mgmTagFrom m.alg.bl (m.E key) m.alg.mul (if as ≠ [] then m.E key (nonce1 iv) else List.replicate m.alg.bl 0)
      as.flatten ds.flatten
    · rw [e4, if_pos ht]
    · rw [e4, if_neg ht] at hx; exact absurd hx (by decide)
  · intro hx; rw [hx]

/-- **C70** What a decryption through the provider compares the supplied tag with, in every case. -/
theorem C70_decrypt_actual (as ds : List Bytes) (ha : ∀ a ∈ as, a.length ≤ intMax) (hd : ∀ d ∈ ds, d.length ≤ intMax)
    (tag : Bytes) (htag : tag.length = m.alg.bl) (hl : as.flatten.length + ds.flatten.length ≤ mgmLimit m.alg.bl)
    (hA : as.flatten.length < mgmLimit m.alg.bl) (hP : ds.flatten.length < mgmLimit m.alg.bl) :
    let s := paSession m ks0 (paRun ks0 h) key iv false (mgmChunks as ds)
    let p := prov_aead_set_ctx_params s.1 { PcParams.none with tag := some tag }
    p.2 = true ∧ ((prov_aead_final p.1).2.2 = true ↔
      tag = mgmTagFrom m.alg.bl (m.E key) m.alg.mul (if as ≠ [] then m.E key (nonce1 iv) else List.replicate m.alg.bl 0)
        as.flatten ds.flatten) := by
  intro s p
  have hbl := m.ok.bl_ok
  have e4 := C27_mgm_tag_check_actual m (paBase ks0 (paRun ks0 h)) key iv hk hiv as ds true tag htag hl hA hP
  obtain ⟨s1, s2, s3, s4⟩ := session_chunks m (paBase ks0 (paRun ks0 h)) key iv hk hiv false as ds hl hA hP
  have e2 := (final_dec (m.ok.len key) m.ok.bl_ok _ s3 tag htag true).1
  have hs := session_base m ks0 (paRun ks0 h) key iv false (mgmChunks as ds) hk hiv (chunks_small ha hd)
  have hs' : s = _ := hs
  generalize mgmSession m (paBase ks0 (paRun ks0 h)) key iv false (mgmChunks as ds) = r at *
  have hp : p = ({ data := some (mgm_ctrl_set_tag r.1 m.alg.bl tag).1 }, true) := by
    show prov_aead_set_ctx_params s.1 _ = _
    rw [hs']
    unfold prov_aead_set_ctx_params paSetAead
    simp only [PcParams.none, paSetIvlen, paSetTag, if_true, Option.isSome_none, Bool.false_eq_true, if_false]
    rw [if_neg (by omega)]
    simp only [htag]
    rw [e2]
    rfl
  refine ⟨by rw [hp], ?_⟩
  rw [hp]
  simp only [prov_aead_final, paDo, decide_eq_true_eq]
  simp only at e4
  rw [e4]
  generalize mgmTagFrom m.alg.bl (m.E key) m.alg.mul _ as.flatten ds.flatten = T
  split
  · rename_i hx; exact ⟨fun _ => hx, fun _ => by decide⟩
  · rename_i hx; exact ⟨fun hy => absurd hy (by decide), fun hy => absurd hy hx⟩

end

/-- **C70** Round trip through the provider, the two contexts with any histories and the data in any chunks: what the one context encrypted the
other decrypts, and its final call accepts the tag — if it is given at least one update with associated data.
What is missing: without such an update it is false, see `C23_round_trip_false`. -/
theorem C70_round_trip_partial (m : MgmCipher) (ks0 : m.alg.KS) (h h' : List PaOp) (key iv : Bytes) (hk : key.length = 32)
    (hiv : iv.length = m.alg.bl) (as ds as' ds' : List Bytes) (ha : ∀ a ∈ as, a.length ≤ intMax) (hd : ∀ d ∈ ds, d.length ≤ intMax)
    (ha' : ∀ a ∈ as', a.length ≤ intMax) (hd' : ∀ d ∈ ds', d.length ≤ intMax)
    (hl : as.flatten.length + ds.flatten.length ≤ mgmLimit m.alg.bl) (hA : as.flatten.length < mgmLimit m.alg.bl)
    (hP : ds.flatten.length < mgmLimit m.alg.bl) (hA' : as'.flatten = as.flatten) (hne : as' ≠ [])
    (hC : ds'.flatten = (paSession m ks0 (paRun ks0 h) key iv true (mgmChunks as ds)).2.1) :
    let e := paSession m ks0 (paRun ks0 h) key iv true (mgmChunks as ds)
    let d := paSession m ks0 (paRun ks0 h') key iv false (mgmChunks as' ds')
    ∃ tag, prov_aead_get_tag (prov_aead_final e.1).1 m.alg.bl = some tag ∧ d.2.1 = ds.flatten ∧
      (prov_aead_set_ctx_params d.1 { PcParams.none with tag := some tag }).2 = true ∧
      (prov_aead_final (prov_aead_set_ctx_params d.1 { PcParams.none with tag := some tag }).1).2.2 = true := by
  intro e d
  have hbl := m.ok.bl_ok
  obtain ⟨_, e1, _, _, e2⟩ := C70_encrypt_is_standard m ks0 h key iv hk hiv as ds ha hd m.alg.bl (by omega) le_rfl hl hA hP
  rw [e1] at hC
  have hlen : ds'.flatten.length = ds.flatten.length := by rw [hC]; simp [mgmCrypt, xorStream]
  have htl : (mgmTag m.alg.bl (m.E key) m.alg.mul iv as.flatten ds'.flatten).length = m.alg.bl := m.ok.len key _
  obtain ⟨d1, _, d2, d3⟩ := C70_decrypt_partial m ks0 h' key iv hk hiv as' ds' hne ha' hd'
    (mgmTag m.alg.bl (m.E key) m.alg.mul iv as.flatten ds'.flatten) htl
    (by rw [hA', hlen]; exact hl) (by rw [hA']; exact hA) (by rw [hlen]; exact hP)
  refine ⟨mgmTag m.alg.bl (m.E key) m.alg.mul iv as.flatten ds'.flatten, ?_, ?_, d2, ?_⟩
  · show prov_aead_get_tag (prov_aead_final (paSession m ks0 (paRun ks0 h) key iv true (mgmChunks as ds)).1).1 m.alg.bl = _
    rw [e2, hC, List.take_of_length_le]
    rw [← hC]; exact le_of_eq htl
  · show (paSession m ks0 (paRun ks0 h') key iv false (mgmChunks as' ds')).2.1 = _
    rw [d1, hC]
    exact xorStream_twice _ _ _
  · rw [d3, hA']

/-! ## Contexts without a cipher, lengths, tags -/

/-- **C70** Before the first initialisation an update, a final call and reading the tag fail, and so does setting any parameter. -/
theorem C70_before_init (out : Bool) (inp : Option Bytes) (n : Nat) (p : PcParams)
    (hp : p.padding ≠ none ∨ p.keyMesh ≠ none ∨ p.ivlen ≠ none ∨ p.tag ≠ none) :
    let c : AeadCtx alg := prov_aead_newctx
    (prov_aead_update c out inp).2 = ([], false) ∧ (prov_aead_final c).2 = ([], false) ∧ prov_aead_get_tag c n = none ∧
    prov_aead_set_ctx_params c p = (c, false) := by
  refine ⟨rfl, rfl, rfl, ?_⟩
  unfold prov_aead_set_ctx_params prov_aead_newctx
  obtain ⟨a, b, c, d⟩ := p
  simp only at hp ⊢
  cases a <;> cases b <;> cases c <;> cases d <;> simp_all

/-- **C70** Initialisation refuses a key longer than 32 bytes and a nonce longer than the cipher's, and then changes nothing. -/
theorem C70_too_long_refused (ks0 : alg.KS) (c : AeadCtx alg) (key iv : Option Bytes) (kl il : Nat) (enc : Bool) :
    ((prov_aead_init ks0 c key iv kl il PcParams.none enc).2 = true ↔ kl ≤ 32 ∧ il ≤ alg.bl) ∧
    ((prov_aead_init ks0 c key iv kl il PcParams.none enc).2 = false →
      (prov_aead_init ks0 c key iv kl il PcParams.none enc).1 = c) := by
  by_cases hx : kl ≤ 32 ∧ il ≤ alg.bl
  · rw [init_base ks0 c key iv kl il enc hx.1 hx.2]
    exact ⟨⟨fun _ => hx, fun _ => rfl⟩, fun hf => Bool.noConfusion hf⟩
  · have hp : prov_aead_set_ctx_params c PcParams.none = (c, true) := by
      obtain ⟨d⟩ := c
      cases d <;> rfl
    have : prov_aead_init ks0 c key iv kl il PcParams.none enc = (c, false) := by
      rw [prov_aead_init, hp]
      simp only [if_true]
      rw [if_pos (by omega)]
    rw [this]
    exact ⟨⟨fun hf => Bool.noConfusion hf, fun hy => absurd hy hx⟩, fun _ => rfl⟩

/-- **C70** The parameter `tag` is accepted exactly from a context that was last initialised for decryption and with a value as long as a block;
refused, it changes nothing. -/
theorem C70_set_tag_accepts (m : MgmCipher) (s : MgmCtx m.alg) (tag : Bytes) :
    let r := prov_aead_set_ctx_params { data := some s } { PcParams.none with tag := some tag }
    (r.2 = true ↔ tag.length = m.alg.bl ∧ s.encrypting = false) ∧ (r.2 = false → r.1 = { data := some s }) := by
  intro r
  have hb : m.alg.bl = 8 ∨ m.alg.bl = 16 := m.ok.bl_ok
  obtain ⟨a1, a2⟩ := C25_set_tag_accepts m s (tag.length : Nat) tag
  have hr : r = if 1024 < tag.length then ({ data := some s }, false) else
      ({ data := some (mgm_ctrl_set_tag s (tag.length : Nat) tag).1 }, decide (0 < (mgm_ctrl_set_tag s (tag.length : Nat) tag).2)) := by
    show prov_aead_set_ctx_params _ _ = _
    unfold prov_aead_set_ctx_params paSetAead
    simp only [PcParams.none, paSetIvlen, paSetTag, if_true, Option.isSome_none, Bool.false_eq_true, if_false]
    split <;> rfl
  rw [hr]
  by_cases h1 : 1024 < tag.length
  · rw [if_pos h1]
    exact ⟨⟨fun hf => Bool.noConfusion hf, fun hf => by omega⟩, fun _ => rfl⟩
  · rw [if_neg h1]
    generalize mgm_ctrl_set_tag s (tag.length : Nat) tag = q at *
    by_cases h2 : q.2 = 1
    · have h3 := a1.mp h2
      refine ⟨⟨fun _ => ⟨by omega, h3.2⟩, fun _ => by simp [h2]⟩, fun hf => by simp [h2] at hf⟩
    · obtain ⟨h3, h4⟩ := a2 h2
      refine ⟨⟨fun hf => by simp [h3] at hf, fun hf => absurd (a1.mpr ⟨by omega, hf.2⟩) h2⟩, fun _ => by rw [h4]⟩

/-- A call after which the context has no tag if it had none before: no parameter `tag`, and not a call that ends an encryption. -/
def PaOp.noTag (c : AeadCtx alg) : PaOp → Prop
  | .init _ _ _ _ p _ => p.tag = none
  | .params p => p.tag = none
  | .update out none => (prov_aead_update c out none).2.2 = false
  | .final => (prov_aead_final c).2.2 = false
  | _ => True

/-- A history without a tag: none is supplied, and no message is finished. -/
def paNoTag (ks0 : alg.KS) : AeadCtx alg → List PaOp → Prop
  | _, [] => True
  | c, o :: os => o.noTag c ∧ paNoTag ks0 (paStep ks0 c o).1 os

/-- No tag in the context. -/
def TagFree (c : AeadCtx alg) : Prop := ∀ s, c.data = some s → s.taglen < 0

theorem params_tagFree (c : AeadCtx alg) (p : PcParams) (hp : p.tag = none) (h : TagFree c) :
    TagFree (prov_aead_set_ctx_params c p).1 := by
  obtain ⟨d⟩ := c
  cases d with
  | none => exact h
  | some s =>
    have hs := h s rfl
    unfold prov_aead_set_ctx_params
    simp only
    split
    · exact h
    · intro s' hs'
      have : s' = (paSetAead s p).1 := (Option.some.inj hs').symm
      rw [this]
      unfold paSetAead paSetTag
      rw [hp]
      have hv : (paSetIvlen s p.ivlen).1.taglen = s.taglen := by
        unfold paSetIvlen
        cases p.ivlen with
        | none => rfl
        | some n =>
          simp only
          unfold mgm_ctrl_set_ivlen
          (repeat' split) <;> rfl
      simp only
      split <;> rw [hv] <;> exact hs

theorem step_tagFree (ks0 : alg.KS) (c : AeadCtx alg) (o : PaOp) (ho : o.noTag c) (h : TagFree c) : TagFree (paStep ks0 c o).1 := by
  cases o with
  | params p => exact params_tagFree c p ho h
  | init key iv kl il p enc =>
    have h1 := params_tagFree c p ho h
    show TagFree (prov_aead_init ks0 c key iv kl il p enc).1
    unfold prov_aead_init
    generalize prov_aead_set_ctx_params c p = r at *
    simp only
    split
    · split
      · exact h1
      · intro s hs
        have hs' : s = cipher_init_mgm (paBase ks0 r.1) key iv enc := (Option.some.inj hs).symm
        rw [hs', (init_taglen _ key iv enc).1]
        obtain ⟨⟨d⟩, b⟩ := r
        cases d with
        | none => show (-1 : Int) < 0; decide
        | some s0 => exact h1 s0 rfl
    · exact h1
  | final =>
    obtain ⟨d⟩ := c
    cases d with
    | none => exact h
    | some s =>
      intro s' hs'
      have : s' = (cipher_do_mgm s true none).1 := (Option.some.inj hs').symm
      rw [this]
      refine final_taglen s true (h s rfl) ?_
      intro h0
      have : (prov_aead_final { data := some s }).2.2 = true := by
        simp only [prov_aead_final, paDo]
        rw [h0]; rfl
      have ho' : (prov_aead_final { data := some s }).2.2 = false := ho
      rw [this] at ho'
      cases ho'
  | update out inp =>
    obtain ⟨d⟩ := c
    cases d with
    | none => exact h
    | some s =>
      cases inp with
      | none =>
        intro s' hs'
        have : s' = (cipher_do_mgm s out none).1 := (Option.some.inj hs').symm
        rw [this]
        refine final_taglen s out (h s rfl) ?_
        intro h0
        have : (prov_aead_update { data := some s } out none).2.2 = true := by
          simp only [prov_aead_update, paDo]
          rw [h0]; rfl
        have ho' : (prov_aead_update { data := some s } out none).2.2 = false := ho
        rw [this] at ho'
        cases ho'
      | some d =>
        show TagFree (prov_aead_update { data := some s } out (some d)).1
        simp only [prov_aead_update]
        split
        · exact h
        · intro s' hs'
          have : s' = (cipher_do_mgm s out (some d)).1 := (Option.some.inj hs').symm
          rw [this, update_taglen]
          exact h s rfl

theorem run_tagFree (ks0 : alg.KS) (os : List PaOp) : ∀ c : AeadCtx alg, TagFree c → paNoTag ks0 c os →
    TagFree (os.foldl (fun c o => (paStep ks0 c o).1) c) := by
  induction os with
  | nil => intro c h _; exact h
  | cons o os ih => intro c h hn; exact ih _ (step_tagFree ks0 c o hn.1 h) hn.2

/-- **C70** No tag, no acceptance: over every history in which no tag was supplied and no message finished, a final call of a decryption fails —
unauthenticated data are never accepted — and no tag is handed out. -/
theorem C70_no_tag_refused (ks0 : alg.KS) (os : List PaOp) (h : paNoTag ks0 prov_aead_newctx os) (n : Nat) :
    let c := paRun ks0 os
    ((∀ s, c.data = some s → s.encrypting = false) → (prov_aead_final c).2.2 = false) ∧ prov_aead_get_tag c n = none := by
  intro c
  have ht : TagFree c := run_tagFree ks0 os prov_aead_newctx (fun s hs => by cases hs) h
  obtain ⟨d⟩ := c
  cases d with
  | none => exact ⟨fun _ => rfl, rfl⟩
  | some s =>
    have hs := ht s rfl
    refine ⟨fun he => ?_, ?_⟩
    · have he := he s rfl
      have : (cipher_do_mgm s true none).2.2 = -1 := by
        unfold cipher_do_mgm
        simp only [he]
        split
        · rfl
        · split
          · rfl
          · simp only [Bool.false_eq_true, not_false_eq_true, if_true]
      simp only [prov_aead_final, paDo]
      rw [this]; rfl
    · simp only [prov_aead_get_tag]
      unfold mgm_ctrl_get_tag
      rw [if_pos (Or.inr (Or.inr (Or.inr hs)))]

/-! ## C71: the length of the nonce -/

/-- The nonce the cipher gets when the caller's buffer is `buf`: the first bytes, as many as a block has, whatever length was set. -/
theorem init_takes_block (m : MgmCipher) (c : MgmCtx m.alg) (key buf : Bytes) (enc : Bool) (hb : m.alg.bl ≤ buf.length) :
    cipher_init_mgm c (some key) (some buf) enc = cipher_init_mgm c (some key) (some (buf.take m.alg.bl)) enc := by
  have hc : copyN m.alg.bl buf = copyN m.alg.bl (buf.take m.alg.bl) := by
    unfold copyN
    apply List.map_congr_left
    intro i hi
    rw [List.mem_range] at hi
    unfold at_
    rw [List.getD_eq_getElem?_getD, List.getD_eq_getElem?_getD, List.getElem?_take_of_lt hi]
  unfold cipher_init_mgm gost_mgm128_setiv
  simp only [hc]

/-- What a caller expects of a nonce length `n` that was accepted: with two buffers, the ciphertexts of a block are the same exactly when the
first `n` bytes of the buffers are the same (apart from the very first bit, which the standard reserves). -/
def NonceLength (m : MgmCipher) (c : MgmCtx m.alg) (n : Nat) : Prop :=
  ∀ key buf buf' p : Bytes, key.length = 32 → p.length = m.alg.bl → 16 ≤ buf.length → 16 ≤ buf'.length →
    ((mgmSession m c key buf true [(true, p)]).2.1 = (mgmSession m c key buf' true [(true, p)]).2.1 ↔
      sameButTop (buf.take n) (buf'.take n))

/-- **C71** The length set is not the length used: whatever length `n` was set, a session depends on the first bytes of the caller's buffer, as many
as a block has. -/
theorem C71_nonce_actual (m : MgmCipher) (c : MgmCtx m.alg) (n : Int) (key buf buf' p : Bytes) (hk : key.length = 32)
    (hp : p.length = m.alg.bl) (hb : 16 ≤ buf.length) (hb' : 16 ≤ buf'.length) :
    let c' := (mgm_ctrl_set_ivlen c n).1
    ((mgmSession m c' key buf true [(true, p)]).2.1 = (mgmSession m c' key buf' true [(true, p)]).2.1 ↔
      sameButTop (buf.take m.alg.bl) (buf'.take m.alg.bl)) := by
  intro c'
  have hbl := m.ok.bl_ok
  unfold mgmSession
  rw [init_takes_block m c' key buf true (by omega), init_takes_block m c' key buf' true (by omega)]
  exact (C26_nonce_bit_ignored m c' c' key (buf.take m.alg.bl) (buf'.take m.alg.bl) hk (by rw [List.length_take]; omega)
    (by rw [List.length_take]; omega)).1 p hp

theorem sameButTop_refl (l : Bytes) : sameButTop l l := by
  cases l with
  | nil => trivial
  | cons x xs => exact ⟨rfl, rfl⟩

/-- Of the lengths accepted the block length is the one that is honoured, and no other: a shorter one makes the ciphertext depend on memory behind
the nonce, a longer one makes different nonces collide. -/
theorem nonce_length_iff (m : MgmCipher) (c : MgmCtx m.alg) (n : Nat) (h1 : 1 ≤ n) (h16 : n ≤ 16) :
    NonceLength m (mgm_ctrl_set_ivlen c n).1 n ↔ n = m.alg.bl := by
  have hbl := m.ok.bl_ok
  constructor
  · intro h
    rcases Nat.lt_trichotomy n m.alg.bl with hlt | heq | hgt
    · exfalso
      have hx := C71_nonce_actual m c n (zeros 32) (zeros 16) (zeros n ++ List.replicate (16 - n) 1) (zeros m.alg.bl)
        (by simp [zeros]) (by simp [zeros]) (by simp [zeros]) (by simp [zeros]; omega)
      have hy := h (zeros 32) (zeros 16) (zeros n ++ List.replicate (16 - n) 1) (zeros m.alg.bl)
        (by simp [zeros]) (by simp [zeros]) (by simp [zeros]) (by simp [zeros]; omega)
      have hz := hx.mp (hy.mpr (by
        have : (zeros 16).take n = (zeros n ++ List.replicate (16 - n) 1).take n := by
          rw [List.take_append_of_le_length (by simp [zeros])]
          rw [zeros, zeros, List.take_replicate, List.take_replicate, Nat.min_eq_left h16, Nat.min_self]
        rw [this]
        exact sameButTop_refl _))
      clear hx hy h
      rcases hbl with hb | hb <;> rw [hb] at hz hlt
      · interval_cases n <;> exact absurd hz (by simp [sameButTop, zeros, List.replicate])
      · interval_cases n <;> exact absurd hz (by simp [sameButTop, zeros, List.replicate])
    · exact heq
    · exfalso
      have hb8 : m.alg.bl = 8 := by omega
      have hx := C71_nonce_actual m c n (zeros 32) (zeros 16) (zeros 8 ++ List.replicate 8 1) (zeros m.alg.bl)
        (by simp [zeros]) (by simp [zeros]) (by simp [zeros]) (by simp [zeros])
      have hy := h (zeros 32) (zeros 16) (zeros 8 ++ List.replicate 8 1) (zeros m.alg.bl)
        (by simp [zeros]) (by simp [zeros]) (by simp [zeros]) (by simp [zeros])
      have hz := hy.mp (hx.mpr (by rw [hb8]; exact sameButTop_refl (zeros 8)))
      clear hx hy h
      rw [hb8] at hgt
      interval_cases n <;> exact absurd hz (by simp [sameButTop, zeros, List.replicate])
  · rintro rfl key buf buf' p hk hp hb hb'
    exact C71_nonce_actual m c m.alg.bl key buf buf' p hk hp hb hb'

/-- **C71** The block length, which is the default, is accepted and honoured. What is missing: every other length from 1 to 16 is accepted too and
not honoured, see `C71_nonce_length_false`. -/
theorem C71_nonce_length_partial (m : MgmCipher) (c : MgmCtx m.alg) :
    (mgm_ctrl_set_ivlen c m.alg.bl).2 = 1 ∧ NonceLength m (mgm_ctrl_set_ivlen c m.alg.bl).1 m.alg.bl := by
  have hbl := m.ok.bl_ok
  refine ⟨?_, (nonce_length_iff m c m.alg.bl (by omega) (by omega)).mpr rfl⟩
  unfold mgm_ctrl_set_ivlen
  rw [if_neg (by omega), if_neg (by omega)]

/-- **C71** Every length from 1 to 16 is accepted by `EVP_CTRL_AEAD_SET_IVLEN`, of every context; none but the block length is honoured. -/
theorem C71_nonce_length_false (m : MgmCipher) (c : MgmCtx m.alg) (n : Nat) (h1 : 1 ≤ n) (h16 : n ≤ 16) (hn : n ≠ m.alg.bl) :
    (mgm_ctrl_set_ivlen c n).2 = 1 ∧ ¬ NonceLength m (mgm_ctrl_set_ivlen c n).1 n := by
  refine ⟨?_, fun h => hn ((nonce_length_iff m c n h1 h16).mp h)⟩
  unfold mgm_ctrl_set_ivlen
  rw [if_neg (by omega), if_neg (by omega)]

/-- **C71** In particular for Magma: with the accepted nonce length 16, all nonces that start with the same 8 bytes give the same ciphertext and tag
for all data (nonce reuse). -/
theorem C71_magma_long_nonces_collide (c : MgmCtx (MgmCipher.alg .magma)) (key buf buf' : Bytes) (hb : buf.length = 16)
    (hb' : buf'.length = 16) (h8 : buf.take 8 = buf'.take 8) (calls : List (Bool × Bytes)) :
    (mgm_ctrl_set_ivlen c 16).2 = 1 ∧
    mgmSession .magma (mgm_ctrl_set_ivlen c 16).1 key buf true calls = mgmSession .magma (mgm_ctrl_set_ivlen c 16).1 key buf' true calls := by
  refine ⟨?_, ?_⟩
  · unfold mgm_ctrl_set_ivlen
    rw [if_neg (by decide), if_neg (by omega)]
  · unfold mgmSession
    have e8 : (MgmCipher.alg .magma).bl = 8 := rfl
    rw [init_takes_block .magma _ key buf true (by rw [e8]; omega), init_takes_block .magma _ key buf' true (by rw [e8]; omega), e8, h8]

/-- **C71** Through the provider: the parameter `ivlen` is accepted for every length from 1 to 16 once the context has a cipher, it does to the
context what `EVP_CTRL_AEAD_SET_IVLEN` does, and other lengths below `2^31` are refused without effect.  The length reported stays that of the
cipher. -/
theorem C71_provider (m : MgmCipher) (s : MgmCtx m.alg) (hs : s.ivlen ≤ 16) (n : Nat) (hn : n ≤ intMax) :
    let r := prov_aead_set_ctx_params { data := some s } { PcParams.none with ivlen := some n }
    r.1 = { data := some (mgm_ctrl_set_ivlen s n).1 } ∧ (r.2 = true ↔ 1 ≤ n ∧ n ≤ 16) ∧
    (r.2 = false → r.1 = { data := some s }) ∧ prov_aead_ivlen m.alg = m.alg.bl := by
  intro r
  have hr : r = ({ data := some (mgm_ctrl_set_ivlen s n).1 }, decide (0 < (mgm_ctrl_set_ivlen s n).2)) := by
    show prov_aead_set_ctx_params _ _ = _
    have hv : paSetIvlen s (some n) = ((mgm_ctrl_set_ivlen s n).1, decide (0 < (mgm_ctrl_set_ivlen s n).2)) := by
      simp only [paSetIvlen, small_size n hn]
    unfold prov_aead_set_ctx_params paSetAead
    simp only [PcParams.none, Option.isSome_none, Bool.false_eq_true, if_false, hv, paSetTag]
    generalize mgm_ctrl_set_ivlen s n = q
    by_cases hq : 0 < q.2 <;> simp [hq]
  rw [hr]
  refine ⟨rfl, ?_, ?_, rfl⟩
  · unfold mgm_ctrl_set_ivlen
    by_cases h0 : (n : Int) ≤ 0
    · rw [if_pos h0]; simp; omega
    · rw [if_neg h0]
      by_cases h1 : (n : Int) > 16 ∧ (n : Int) > s.ivlen
      · rw [if_pos h1]; simp; omega
      · rw [if_neg h1]; simp; omega
  · unfold mgm_ctrl_set_ivlen
    by_cases h0 : (n : Int) ≤ 0
    · rw [if_pos h0]; intro _; rfl
    · rw [if_neg h0]
      by_cases h1 : (n : Int) > 16 ∧ (n : Int) > s.ivlen
      · rw [if_pos h1]; intro _; rfl
      · rw [if_neg h1]; intro h; simp at h

/-! ## The hypotheses are met -/

/-- A history: a wrong initialisation, one for encryption with a message, the final call, a shorter nonce length, then one for decryption. -/
def paExample : List PaOp :=
  [.update true (some [1, 2]), .params { PcParams.none with tag := some (zeros 8) },
   .init (some sampleKey) (some (zeros 9)) 32 9 PcParams.none true, .init (some sampleKey) (some (zeros 8)) 32 8 PcParams.none true,
   .update false (some [7]), .update true (some [1, 2, 3]), .final, .params { PcParams.none with ivlen := some 4 },
   .init none (some (zeros 8)) 0 8 PcParams.none false]

/-- C70 for this history: 3 bytes of associated data in two calls, 9 bytes of plaintext in three calls. -/
example : let s := paSession .magma (freshCtx witRng true) (paRun (freshCtx witRng true) paExample) sampleKey (zeros 8) true (mgmChunks [[1], [2, 3]] [[4, 5, 6, 7], [], [8, 9, 10, 11, 12]]);
    s.2.2 = [true, true, true, true, true] ∧ (prov_aead_final s.1).2 = ([], true) :=
  have h := C70_encrypt_is_standard .magma (freshCtx witRng true) paExample sampleKey (zeros 8) rfl rfl [[1], [2, 3]]
    [[4, 5, 6, 7], [], [8, 9, 10, 11, 12]] (by decide) (by decide) 8 (by decide) (le_refl 8) (by decide) (by decide) (by decide)
  ⟨h.2.2.1, h.2.2.2.1⟩

/-- A history without a tag for `C70_no_tag_refused`: a decryption that was never given one. -/
example : (prov_aead_final (paRun (alg := magmaMgm) (freshCtx witRng true)
    [.update true (some [1, 2, 3]), .init (some sampleKey) (some (zeros 8)) 32 8 PcParams.none false])).2.2 = false :=
  (C70_no_tag_refused (alg := magmaMgm) (freshCtx witRng true)
    [.update true (some [1, 2, 3]), .init (some sampleKey) (some (zeros 8)) 32 8 PcParams.none false]
    ⟨trivial, rfl, trivial⟩ 8).1 (fun s hs => by
      have h := init_base (alg := magmaMgm) (freshCtx witRng true) prov_aead_newctx (some sampleKey) (some (zeros 8)) 32 8 false (by decide) (le_refl 8)
      have hr : paRun (alg := magmaMgm) (freshCtx witRng true)
          [.update true (some [1, 2, 3]), .init (some sampleKey) (some (zeros 8)) 32 8 PcParams.none false] =
          (prov_aead_init (alg := magmaMgm) (freshCtx witRng true) prov_aead_newctx (some sampleKey) (some (zeros 8)) 32 8
            PcParams.none false).1 := rfl
      rw [hr, h] at hs
      rw [← Option.some.inj hs]
      exact (init_taglen _ _ _ _).2)

end Gost
