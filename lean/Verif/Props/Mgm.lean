import Verif.Lemmas.MgmEvp
import Verif.Props.Reinit

/-!
# C23-C27: MGM

The theorems are about EVP sessions of the two MGM ciphers: an initialisation of any earlier context with key and nonce, a
sequence of update calls with associated data or message data, the final call, and the tag controls. `Spec/Mgm.lean` has the
standard's ciphertext and tag.
-/

namespace Gost
open Spec

/-- The two MGM ciphers of the engine. -/
inductive MgmCipher
  | kuznyechik
  | magma

namespace MgmCipher

def alg : MgmCipher → MgmAlg
  | kuznyechik => kuzMgm
  | magma => magmaMgm

/-- The block cipher: key, block. -/
def E : MgmCipher → Bytes → Bytes → Bytes
  | kuznyechik => EKuz
  | magma => EMagma mgmMagmaBox

/-- The inverse block cipher. -/
def D : MgmCipher → Bytes → Bytes → Bytes
  | kuznyechik => DKuz
  | magma => DMagma mgmMagmaBox

theorem ok (m : MgmCipher) : MgmOk m.alg m.E := by
  cases m
  · exact kuz_mgm_ok
  · exact magma_mgm_ok

theorem D_E (m : MgmCipher) (k b : Bytes) (h : b.length = m.alg.bl) : m.D k (m.E k b) = b := by
  cases m
  · exact DKuz_EKuz k b h
  · exact DMagma_EMagma _ k b h

end MgmCipher

/-- A session: initialisation of the context `c0` with key and nonce, then the calls. -/
def mgmSession (m : MgmCipher) (c0 : MgmCtx m.alg) (key iv : Bytes) (enc : Bool) (calls : List (Bool × Bytes)) :
    MgmCtx m.alg × Bytes × List Int :=
  mgmCalls (cipher_init_mgm c0 (some key) (some iv) enc) calls

/-- Associated data in chunks, then message data in chunks. -/
def mgmChunks (as ds : List Bytes) : List (Bool × Bytes) := as.map (fun d => (false, d)) ++ ds.map (fun d => (true, d))

section
variable {alg : MgmAlg} {E : Bytes → Bytes} {enc : Bool} (hE : ∀ b, (E b).length = alg.bl) (hbl : alg.bl = 8 ∨ alg.bl = 16)
  (hM : ∀ b, alg.mul (E b) (zeros alg.bl) = zeros alg.bl)
include hE hbl hM

/-- Associated data in chunks, then message data in chunks, from a context without data. -/
theorem run_chunks (n z : Bytes) (hzl : z.length = alg.bl) (c : MgmCtx alg) (h : Ready E enc c) (as ds : List Bytes)
    (hi : AInv E alg.mul alg.bl n z [] c.mgm) (hl : as.flatten.length + ds.flatten.length ≤ 2^(alg.bl * 4 - 3))
    (hA : as.flatten.length < 2^(alg.bl * 4 - 3)) (hP : ds.flatten.length < 2^(alg.bl * 4 - 3)) :
    (mgmCalls c (mgmChunks as ds)).2.1 = mgmCrypt alg.bl E n ds.flatten ∧
    (mgmCalls c (mgmChunks as ds)).2.2 = (as ++ ds).map (fun d => (d.length : Int)) ∧
    Ready E enc (mgmCalls c (mgmChunks as ds)).1 ∧
    (mgmFinal E alg.mul alg.bl (mgmCalls c (mgmChunks as ds)).1.mgm).tag =
      mgmTagFrom alg.bl E alg.mul (if enc = true ∨ as ≠ [] then E (nonce1 n) else z) as.flatten
        (absorbed E alg.bl enc n ds.flatten) := by
  have hb : 0 < alg.bl := by omega
  obtain ⟨m1, r1, r2⟩ := run_aads hE hbl n z [] c h as hi (Or.inl rfl) (by simpa using le_trans (Nat.le_add_right _ _) hl)
  have hlb : ∀ p : Bytes, p.length < 2^(alg.bl * 4 - 3) →
      mgmLenBlock alg.bl as.flatten.length p.length = lenBlock alg.bl as.flatten.length p.length :=
    fun p hp => lenBlock_eq alg.bl hbl _ _ hA hp
  unfold mgmChunks
  rw [mgmCalls_append, r1]
  simp only
  rw [List.nil_append] at r2
  cases ds with
  | nil =>
    refine ⟨rfl, by simp [mgmCalls], h.mgm _, ?_⟩
    simp only [List.map_nil, mgmCalls]
    have ht := final_ainv E alg.mul alg.bl hb n _ as.flatten (by split_ifs <;> simp [hzl, hE]) m1 r2 (hlb [] (by simp))
    rw [ht, show absorbed E alg.bl enc n [].flatten = [] by cases enc <;> rfl]
    by_cases has : as = []
    · subst has
      exact tag_empty E alg.mul alg.bl hM hbl _ _
    · simp [has]
  | cons d ds =>
    obtain ⟨m2, r3, r4⟩ := run_first hE hbl n (if as = [] then z else E (nonce1 n)) as.flatten
      (by split_ifs <;> simp [hzl, hE]) { c with mgm := m1 } (h.mgm _) d ds r2
      (by by_cases has : as = [] <;> simp [has]) hl
    rw [r3]
    refine ⟨rfl, by simp, (h.mgm _), ?_⟩
    have ht := final_minv E alg.mul alg.bl hb enc n _ as.flatten _ (by split_ifs <;> simp [hzl, hE]) m2 r4 (hlb _ hP)
    simp only
    rw [ht]
    by_cases has : as = []
    · cases enc <;> simp [has]
    · cases enc <;> simp [has]

end

/-- What the calls do to a context, `(a, p)` being what was accepted so far; `z` is the start of the authentication counter. -/
theorem calls_run {alg : MgmAlg} {E : Bytes → Bytes} {enc : Bool} (hE : ∀ b, (E b).length = alg.bl)
    (hbl : alg.bl = 8 ∨ alg.bl = 16) (n z a p : Bytes) (c : MgmCtx alg) (h : Ready E enc c) (calls : List (Bool × Bytes))
    (hi : St E alg.mul alg.bl enc n z a p c.mgm) (hsz : ∀ x ∈ calls, x.2.length < 2^64) (hne : ∀ x ∈ calls, x.1 = true → x.2 ≠ []) :
    (mgmCalls c calls).2.2 = (mgmAccepted (mgmLimit alg.bl) a p calls).2.2 ∧
    mgmCrypt alg.bl E n (mgmAccepted (mgmLimit alg.bl) a p calls).2.1 = mgmCrypt alg.bl E n p ++ (mgmCalls c calls).2.1 ∧
    Ready E enc (mgmCalls c calls).1 ∧
    ∃ z', St E alg.mul alg.bl enc n z' (mgmAccepted (mgmLimit alg.bl) a p calls).1 (mgmAccepted (mgmLimit alg.bl) a p calls).2.1
      (mgmCalls c calls).1.mgm ∧ (z = E (nonce1 n) → z' = E (nonce1 n)) := by
  have h64 : 2^(alg.bl * 4 - 3) < 2^63 := by rcases hbl with h | h <;> rw [h] <;> decide
  have hb : 0 < alg.bl := by omega
  have he : alg.bl % 2 = 0 := by omega
  induction calls generalizing c a p z with
  | nil => exact ⟨rfl, by simp [mgmCalls, mgmAccepted], h, z, hi, id⟩
  | cons x calls ih =>
    obtain ⟨o, d⟩ := x
    have hd : d.length < 2^64 := hsz _ (List.mem_cons_self ..)
    have hsz' := fun x hx => hsz x (List.mem_cons_of_mem _ hx)
    have hne' := fun x hx => hne x (List.mem_cons_of_mem _ hx)
    rw [mgmCalls]
    simp only
    cases o with
    | false =>
      obtain ⟨t1, t2, t3⟩ := aad_step E alg.mul alg.bl hb hE h64 enc n z a p c.mgm hi d hd
      rw [do_aad c h d]
      simp only [List.nil_append]
      have hz' : z = E (nonce1 n) → (if p = [] then E (nonce1 n) else z) = E (nonce1 n) := by intro hz; simp [hz]
      by_cases hacc : accA alg.bl a p d
      · have hcond : p = [] ∧ a.length + d.length ≤ mgmLimit alg.bl := by simpa [accA, mgmLimit] using hacc
        rw [if_pos hacc] at t2
        obtain ⟨u1, u2, u3, z', u4, u5⟩ := ih _ _ _ _ (h.mgm _) t2 hsz' hne'
        rw [mgmAccepted, if_pos hcond]
        simp only
        rw [if_neg (by rw [ne_eq, not_not]; exact t1.mpr hacc), u1]
        exact ⟨rfl, u2, u3, z', u4, fun hz => u5 (hz' hz)⟩
      · have hcond : ¬ (p = [] ∧ a.length + d.length ≤ mgmLimit alg.bl) := by simpa [accA, mgmLimit] using hacc
        rw [if_neg hacc] at t2
        obtain ⟨u1, u2, u3, z', u4, u5⟩ := ih _ _ _ _ (h.mgm _) t2 hsz' hne'
        rw [mgmAccepted, if_neg hcond]
        simp only
        rw [if_pos (fun h => hacc (t1.mp h)), u1]
        exact ⟨rfl, u2, u3, z', u4, fun hz => u5 (hz' hz)⟩
    | true =>
      obtain ⟨t1, t2, t3, t4⟩ := data_step E alg.mul alg.bl hb he hE h64 enc n z a p c.mgm hi d hd (hne _ (List.mem_cons_self ..) rfl)
      rw [do_data c h d]
      simp only
      have hz' : z = E (nonce1 n) → zData E enc n z p = E (nonce1 n) := by intro hz; simp [zData, hz]
      by_cases hacc : accM alg.bl a p d
      · have hcond : a.length + p.length + d.length ≤ mgmLimit alg.bl := by simpa [accM, mgmLimit] using hacc
        rw [if_pos hacc] at t2 t3
        obtain ⟨u1, u2, u3, z', u4, u5⟩ := ih _ _ _ _ (h.mgm _) t2 hsz' hne'
        rw [mgmAccepted, if_pos hcond]
        simp only
        rw [if_neg (by rw [ne_eq, not_not]; exact t1.mpr hacc), u1]
        exact ⟨rfl, by rw [u2, t3, List.append_assoc], u3, z', u4, fun hz => u5 (hz' hz)⟩
      · have hcond : ¬ (a.length + p.length + d.length ≤ mgmLimit alg.bl) := by simpa [accM, mgmLimit] using hacc
        rw [if_neg hacc] at t2 t3
        obtain ⟨u1, u2, u3, z', u4, u5⟩ := ih _ _ _ _ (h.mgm _) t2 hsz' hne'
        rw [mgmAccepted, if_neg hcond]
        simp only
        rw [if_pos (fun h => hacc (t1.mp h)), u1]
        exact ⟨rfl, by rw [u2]; conv => lhs; rw [t3, List.append_assoc], u3, z', u4, fun hz => u5 (hz' hz)⟩

section
variable (m : MgmCipher) (c0 : MgmCtx m.alg) (key iv : Bytes) (hk : key.length = 32) (hiv : iv.length = m.alg.bl)
include hk hiv

theorem session_chunks (enc : Bool) (as ds : List Bytes)
    (hl : as.flatten.length + ds.flatten.length ≤ mgmLimit m.alg.bl) (hA : as.flatten.length < mgmLimit m.alg.bl)
    (hP : ds.flatten.length < mgmLimit m.alg.bl) :
    let s := mgmSession m c0 key iv enc (mgmChunks as ds)
    s.2.1 = mgmCrypt m.alg.bl (m.E key) iv ds.flatten ∧
    s.2.2 = (as ++ ds).map (fun d => (d.length : Int)) ∧
    Ready (m.E key) enc s.1 ∧
    (mgmFinal (m.E key) m.alg.mul m.alg.bl s.1.mgm).tag =
      mgmTagFrom m.alg.bl (m.E key) m.alg.mul (if enc = true ∨ as ≠ [] then m.E key (nonce1 iv) else zeros m.alg.bl) as.flatten
        (absorbed (m.E key) m.alg.bl enc iv ds.flatten) := by
  obtain ⟨h1, h2⟩ := init_ready m.ok c0 key iv enc hk hiv
  exact run_chunks (m.ok.len key) m.ok.bl_ok (fun b => m.ok.mul0 _ (m.ok.len key b)) iv _ (by simp [zeros]) _ h1 as ds h2 hl hA hP

/-- **C24** Encryption: whatever the earlier state of the context and however associated data and plaintext are split into calls
(empty calls included), all calls succeed, the ciphertext is the standard's MGM ciphertext of the whole plaintext and the tag is
the standard's tag, truncated to the length asked for. -/
theorem C24_encrypt_is_standard (as ds : List Bytes) (out : Bool) (t : Nat) (ht : 0 < t) (ht' : t ≤ m.alg.bl)
    (hl : as.flatten.length + ds.flatten.length ≤ mgmLimit m.alg.bl) (hA : as.flatten.length < mgmLimit m.alg.bl)
    (hP : ds.flatten.length < mgmLimit m.alg.bl) :
    let s := mgmSession m c0 key iv true (mgmChunks as ds)
    let C := mgmCrypt m.alg.bl (m.E key) iv ds.flatten
    s.2.2 = (as ++ ds).map (fun d => (d.length : Int)) ∧
    s.2.1 = C ∧
    (cipher_do_mgm s.1 out none).2 = ([], 0) ∧
    mgm_ctrl_get_tag (cipher_do_mgm s.1 out none).1 t =
      some ((mgmTag m.alg.bl (m.E key) m.alg.mul iv as.flatten C).take t) := by
  obtain ⟨s1, s2, s3, s4⟩ := session_chunks m c0 key iv hk hiv true as ds hl hA hP
  refine ⟨s2, s1, (final_enc (m.ok.len key) _ s3 out).1, ?_⟩
  rw [get_tag_enc (m.ok.len key) _ s3 out t ht ht', s4]
  simp [absorbed, mgmTag]

/-- **C24** Two ways of splitting the same associated data and plaintext give the same ciphertext and tag. -/
theorem C24_chunking (c0' : MgmCtx m.alg) (as ds as' ds' : List Bytes) (hA' : as.flatten = as'.flatten)
    (hP' : ds.flatten = ds'.flatten) (out : Bool) (t : Nat) (ht : 0 < t) (ht' : t ≤ m.alg.bl)
    (hl : as.flatten.length + ds.flatten.length ≤ mgmLimit m.alg.bl) (hA : as.flatten.length < mgmLimit m.alg.bl)
    (hP : ds.flatten.length < mgmLimit m.alg.bl) :
    let s := mgmSession m c0 key iv true (mgmChunks as ds)
    let s' := mgmSession m c0' key iv true (mgmChunks as' ds')
    s.2.1 = s'.2.1 ∧ mgm_ctrl_get_tag (cipher_do_mgm s.1 out none).1 t = mgm_ctrl_get_tag (cipher_do_mgm s'.1 out none).1 t := by
  obtain ⟨_, h1, _, h2⟩ := C24_encrypt_is_standard m c0 key iv hk hiv as ds out t ht ht' hl hA hP
  obtain ⟨_, h3, _, h4⟩ := C24_encrypt_is_standard m c0' key iv hk hiv as' ds' out t ht ht' (by rw [← hA', ← hP']; exact hl)
    (by rw [← hA']; exact hA) (by rw [← hP']; exact hP)
  simp only
  rw [h1, h2, h3, h4, hA', hP']
  exact ⟨rfl, rfl⟩

/-- **C24**, **C27** Decryption: the output is the standard's decryption, for every chunking; the final call after setting the
tag succeeds if and only if the tag is the standard's — provided at least one call with associated data (possibly an empty one)
was made. -/
theorem C27_mgm_tag_check_partial (as ds : List Bytes) (has : as ≠ []) (out : Bool) (tag : Bytes) (htag : tag.length = m.alg.bl)
    (hl : as.flatten.length + ds.flatten.length ≤ mgmLimit m.alg.bl) (hA : as.flatten.length < mgmLimit m.alg.bl)
    (hP : ds.flatten.length < mgmLimit m.alg.bl) :
    let s := mgmSession m c0 key iv false (mgmChunks as ds)
    s.2.1 = mgmCrypt m.alg.bl (m.E key) iv ds.flatten ∧
    (mgm_ctrl_set_tag s.1 m.alg.bl tag).2 = 1 ∧
    ((cipher_do_mgm (mgm_ctrl_set_tag s.1 m.alg.bl tag).1 out none).2.2 = 0 ↔
      tag = mgmTag m.alg.bl (m.E key) m.alg.mul iv as.flatten ds.flatten) := by
  obtain ⟨s1, s2, s3, s4⟩ := session_chunks m c0 key iv hk hiv false as ds hl hA hP
  obtain ⟨f1, f2⟩ := final_dec (m.ok.len key) m.ok.bl_ok _ s3 tag htag out
  refine ⟨s1, f1, ?_⟩
  rw [f2, s4]
  simp only [absorbed, Bool.false_eq_true, if_false, has, ne_eq, not_false_eq_true, or_true, if_true, mgmTag]
  split_ifs with h
  · simp [h]
  · simp [h]

/-- **C27** What the final call of a decryption compares the supplied tag with, in every case: without any call with associated
data the authentication counter starts at the zero block left by the key initialisation, not at `E(1 || nonce)`. -/
theorem C27_mgm_tag_check_actual (as ds : List Bytes) (out : Bool) (tag : Bytes) (htag : tag.length = m.alg.bl)
    (hl : as.flatten.length + ds.flatten.length ≤ mgmLimit m.alg.bl) (hA : as.flatten.length < mgmLimit m.alg.bl)
    (hP : ds.flatten.length < mgmLimit m.alg.bl) :
    let s := mgmSession m c0 key iv false (mgmChunks as ds)
    (cipher_do_mgm (mgm_ctrl_set_tag s.1 m.alg.bl tag).1 out none).2.2 =
      if tag = mgmTagFrom m.alg.bl (m.E key) m.alg.mul (if as ≠ [] then m.E key (nonce1 iv) else List.replicate m.alg.bl 0)
        as.flatten ds.flatten then 0 else -1 := by
  obtain ⟨s1, s2, s3, s4⟩ := session_chunks m c0 key iv hk hiv false as ds hl hA hP
  obtain ⟨f1, f2⟩ := final_dec (m.ok.len key) m.ok.bl_ok _ s3 tag htag out
  simp only
  rw [f2, s4]
  simp only [absorbed, Bool.false_eq_true, if_false, false_or, zeros]

/-- **C23** Decryption inverts encryption and the tag verifies, for every key, nonce, associated data, plaintext and chunking of
both sides, if the decrypting side makes at least one call with associated data (possibly an empty one). What is missing:
without such a call it is false for the code as it is, see `C23_round_trip_false`. -/
theorem C23_round_trip_partial (c0' : MgmCtx m.alg) (as ds as' ds' : List Bytes) (out out' : Bool)
    (hl : as.flatten.length + ds.flatten.length ≤ mgmLimit m.alg.bl) (hA : as.flatten.length < mgmLimit m.alg.bl)
    (hP : ds.flatten.length < mgmLimit m.alg.bl)
    (hA' : as'.flatten = as.flatten) (hne : as' ≠ [])
    (hC : ds'.flatten = (mgmSession m c0 key iv true (mgmChunks as ds)).2.1) :
    let e := mgmSession m c0 key iv true (mgmChunks as ds)
    let d := mgmSession m c0' key iv false (mgmChunks as' ds')
    ∃ tag, mgm_ctrl_get_tag (cipher_do_mgm e.1 out none).1 m.alg.bl = some tag ∧
      d.2.1 = ds.flatten ∧ (mgm_ctrl_set_tag d.1 m.alg.bl tag).2 = 1 ∧
      (cipher_do_mgm (mgm_ctrl_set_tag d.1 m.alg.bl tag).1 out' none).2.2 = 0 := by
  have hbl := m.ok.bl_ok
  obtain ⟨_, e1, _, e2⟩ := C24_encrypt_is_standard m c0 key iv hk hiv as ds out m.alg.bl (by omega) le_rfl hl hA hP
  rw [e1] at hC
  have hlen : ds'.flatten.length = ds.flatten.length := by rw [hC]; simp [mgmCrypt, xorStream]
  have htl : (mgmTag m.alg.bl (m.E key) m.alg.mul iv as.flatten ds'.flatten).length = m.alg.bl := m.ok.len key _
  obtain ⟨d1, d2, d3⟩ := C27_mgm_tag_check_partial m c0' key iv hk hiv as' ds' hne out'
    (mgmTag m.alg.bl (m.E key) m.alg.mul iv as.flatten ds'.flatten) htl
    (by rw [hA', hlen]; exact hl) (by rw [hA']; exact hA) (by rw [hlen]; exact hP)
  refine ⟨mgmTag m.alg.bl (m.E key) m.alg.mul iv as.flatten ds'.flatten, ?_, ?_, d2, ?_⟩
  · rw [e2, hC, List.take_of_length_le]
    rw [← hC]; exact le_of_eq htl
  · rw [d1, hC]
    exact xorStream_twice _ _ _
  · rw [d3, hA']


/-! ## C25: arbitrary sequences of calls -/

/-- **C25** Every sequence of calls of an encryption (message data calls non-empty): a call with associated data is refused
exactly when message data were already accepted or the limit would be exceeded, a call with message data exactly when the limit
would be exceeded; refused calls output nothing and do not influence the ciphertext or the tag, which are the standard's for
what was accepted. -/
theorem C25_encrypt_call_sequence (calls : List (Bool × Bytes)) (hsz : ∀ x ∈ calls, x.2.length < 2^64)
    (hne : ∀ x ∈ calls, x.1 = true → x.2 ≠ []) (out : Bool) :
    let acc := mgmAccepted (mgmLimit m.alg.bl) [] [] calls
    let s := mgmSession m c0 key iv true calls
    let C := mgmCrypt m.alg.bl (m.E key) iv acc.2.1
    s.2.2 = acc.2.2 ∧ s.2.1 = C ∧ acc.1.length + acc.2.1.length ≤ mgmLimit m.alg.bl ∧
    (acc.1.length < mgmLimit m.alg.bl → acc.2.1.length < mgmLimit m.alg.bl →
      mgm_ctrl_get_tag (cipher_do_mgm s.1 out none).1 m.alg.bl = some (mgmTag m.alg.bl (m.E key) m.alg.mul iv acc.1 C)) := by
  have hbl := m.ok.bl_ok
  have hb : 0 < m.alg.bl := by omega
  obtain ⟨h1, h2⟩ := init_ready m.ok c0 key iv true hk hiv
  obtain ⟨s1, s2, s3, z, s4, _⟩ := calls_run (m.ok.len key) hbl iv _ [] [] _ h1 calls
    ⟨by simp [zeros], Or.inl rfl, by simp, Or.inl ⟨rfl, h2⟩⟩ hsz hne
  simp only
  unfold mgmSession
  refine ⟨s1, by rw [s2, mgmCrypt_nil, List.nil_append], s4.2.2.1, ?_⟩
  intro hA hP
  rw [get_tag_enc (m.ok.len key) _ s3 out m.alg.bl hb le_rfl,
    st_tag (m.E key) m.alg.mul m.alg.bl hb true iv z _ _ _ s4 (lenBlock_eq _ hbl _ _ hA hP), List.take_of_length_le]
  · congr 1
    simp only [absorbed, if_true]
    obtain ⟨_, e1, _, e2⟩ := s4
    by_cases hp : (mgmAccepted (mgmLimit m.alg.bl) [] [] calls).2.1 = []
    · rcases e1 with e1 | e1
      · rw [e1, hp, mgmCrypt_nil]
        exact tag_empty _ _ _ (fun b => m.ok.mul0 _ (m.ok.len key b)) hbl _ _
      · rw [e1]; rfl
    · rcases e2 with ⟨e2, _⟩ | ⟨_, _, e2⟩
      · exact absurd e2 hp
      · rw [e2 rfl]; rfl
  · exact le_of_eq (m.ok.len key _)

/-- **C25** The same for a decryption whose first call passes associated data (possibly none): refused calls do not influence the
output or the tag. -/
theorem C25_decrypt_call_sequence (a0 : Bytes) (calls : List (Bool × Bytes)) (ha0 : a0.length < 2^64)
    (hsz : ∀ x ∈ calls, x.2.length < 2^64) (hne : ∀ x ∈ calls, x.1 = true → x.2 ≠ []) (out : Bool) (tag : Bytes)
    (htag : tag.length = m.alg.bl) :
    let acc := mgmAccepted (mgmLimit m.alg.bl) [] [] ((false, a0) :: calls)
    let s := mgmSession m c0 key iv false ((false, a0) :: calls)
    s.2.2 = acc.2.2 ∧ s.2.1 = mgmCrypt m.alg.bl (m.E key) iv acc.2.1 ∧
    acc.1.length + acc.2.1.length ≤ mgmLimit m.alg.bl ∧
    (acc.1.length < mgmLimit m.alg.bl → acc.2.1.length < mgmLimit m.alg.bl →
      (cipher_do_mgm (mgm_ctrl_set_tag s.1 m.alg.bl tag).1 out none).2.2 =
        if tag = mgmTag m.alg.bl (m.E key) m.alg.mul iv acc.1 acc.2.1 then 0 else -1) := by
  have hbl := m.ok.bl_ok
  have hb : 0 < m.alg.bl := by omega
  have h64 : 2^(m.alg.bl * 4 - 3) < 2^63 := by rcases hbl with h | h <;> rw [h] <;> decide
  obtain ⟨h1, h2⟩ := init_ready m.ok c0 key iv false hk hiv
  have hst : St (m.E key) m.alg.mul m.alg.bl false iv (zeros m.alg.bl) [] []
      (cipher_init_mgm c0 (some key) (some iv) false).mgm := ⟨by simp [zeros], Or.inl rfl, by simp, Or.inl ⟨rfl, h2⟩⟩
  -- the whole run, for output and return values
  obtain ⟨r1, r2, r3, _⟩ := calls_run (m.ok.len key) hbl iv _ [] [] _ h1 ((false, a0) :: calls) hst
    (by intro x hx; rcases List.mem_cons.mp hx with rfl | hx
        · exact ha0
        · exact hsz x hx)
    (by intro x hx; rcases List.mem_cons.mp hx with rfl | hx
        · intro h; simp at h
        · exact hne x hx)
  -- after the first call the authentication counter is the standard's
  obtain ⟨t1, t2, _⟩ := aad_step (m.E key) m.alg.mul m.alg.bl hb (m.ok.len key) h64 false iv _ [] [] _ hst a0 ha0
  rw [if_pos rfl] at t2
  have hfirst : ∃ z' : Bytes, z' = m.E key (nonce1 iv) ∧
      St (m.E key) m.alg.mul m.alg.bl false iv z' (mgmAccepted (mgmLimit m.alg.bl) [] [] ((false, a0) :: calls)).1
        (mgmAccepted (mgmLimit m.alg.bl) [] [] ((false, a0) :: calls)).2.1
        (mgmCalls (cipher_init_mgm c0 (some key) (some iv) false) ((false, a0) :: calls)).1.mgm := by
    rw [mgmCalls, mgmAccepted]
    simp only
    rw [do_aad _ h1 a0]
    simp only
    by_cases hacc : accA m.alg.bl [] [] a0
    · have hcond : True ∧ ([] : Bytes).length + a0.length ≤ mgmLimit m.alg.bl := by simpa [accA, mgmLimit] using hacc
      rw [if_pos hacc] at t2
      obtain ⟨_, _, _, z', u4, u5⟩ := calls_run (m.ok.len key) hbl iv _ _ _ _ (h1.mgm _) calls t2 hsz hne
      rw [if_pos hcond]
      exact ⟨z', u5 rfl, u4⟩
    · have hcond : ¬ (True ∧ ([] : Bytes).length + a0.length ≤ mgmLimit m.alg.bl) := by
        simpa [accA, mgmLimit] using hacc
      rw [if_neg hacc] at t2
      obtain ⟨_, _, _, z', u4, u5⟩ := calls_run (m.ok.len key) hbl iv _ _ _ _ (h1.mgm _) calls t2 hsz hne
      rw [if_neg hcond]
      exact ⟨z', u5 rfl, u4⟩
  obtain ⟨z', hz', s4⟩ := hfirst
  subst hz'
  simp only
  unfold mgmSession
  refine ⟨r1, by rw [r2, mgmCrypt_nil, List.nil_append], s4.2.2.1, ?_⟩
  intro hA hP
  obtain ⟨_, f2⟩ := final_dec (m.ok.len key) hbl _ r3 tag htag out
  rw [f2, st_tag (m.E key) m.alg.mul m.alg.bl hb false iv _ _ _ _ s4 (lenBlock_eq _ hbl _ _ hA hP)]
  simp only [absorbed, Bool.false_eq_true, if_false]
  rfl


omit hk in
/-- **C24** The same when an earlier key initialisation is kept and only a new nonce is set (the context may have been used in any
way in between; only the size of its buffer `Z` is assumed). -/
theorem C24_encrypt_new_nonce (c : MgmCtx m.alg) (hks : c.key_set = true) (hkey : m.alg.block c.ks = m.E key)
    (hZ : c.mgm.Zi.length = m.alg.bl) (as ds : List Bytes) (out : Bool) (t : Nat) (ht : 0 < t) (ht' : t ≤ m.alg.bl)
    (hl : as.flatten.length + ds.flatten.length ≤ mgmLimit m.alg.bl) (hA : as.flatten.length < mgmLimit m.alg.bl)
    (hP : ds.flatten.length < mgmLimit m.alg.bl) :
    let s := mgmCalls (cipher_init_mgm c none (some iv) true) (mgmChunks as ds)
    let C := mgmCrypt m.alg.bl (m.E key) iv ds.flatten
    s.2.2 = (as ++ ds).map (fun d => (d.length : Int)) ∧ s.2.1 = C ∧
    mgm_ctrl_get_tag (cipher_do_mgm s.1 out none).1 t =
      some ((mgmTag m.alg.bl (m.E key) m.alg.mul iv as.flatten C).take t) := by
  obtain ⟨h1, h2⟩ := reinit_ready m.ok.bl_ok c iv true hks hkey hiv
  obtain ⟨s1, s2, s3, s4⟩ := run_chunks (m.ok.len key) m.ok.bl_ok (fun b => m.ok.mul0 _ (m.ok.len key b)) iv _ hZ _ h1 as ds h2 hl hA hP
  refine ⟨s2, s1, ?_⟩
  rw [get_tag_enc (m.ok.len key) _ s3 out t ht ht', s4]
  simp [absorbed, mgmTag]

end

/-- The hypotheses of `C24_encrypt_new_nonce` hold after a key initialisation. -/
example (m : MgmCipher) (c0 : MgmCtx m.alg) (key iv : Bytes) (hk : key.length = 32) (enc : Bool) :
    let c := cipher_init_mgm c0 (some key) (some iv) enc
    c.key_set = true ∧ m.alg.block c.ks = m.E key ∧ c.mgm.Zi.length = m.alg.bl := by
  refine ⟨rfl, m.ok.keyed _ _ hk, ?_⟩
  show (zeros m.alg.bl).length = _
  simp [zeros]

/-! ## The length block -/

theorem beBytes_inj (k x y : Nat) (hx : x < 256^k) (hy : y < 256^k) (h : beBytes k x = beBytes k y) : x = y := by
  have := congrArg beNat h
  rw [beNat_beBytes, beNat_beBytes, Nat.mod_eq_of_lt hx, Nat.mod_eq_of_lt hy] at this
  exact this

/-- **C25** Below the limit the length block of the code is the standard's and determines both lengths. Missing: at exactly the
limit it does not, see `C25_length_block_false`. -/
theorem C25_length_block_partial (m : MgmCipher) (a c a' c' : Nat) (ha : a < mgmLimit m.alg.bl) (hc : c < mgmLimit m.alg.bl)
    (ha' : a' < mgmLimit m.alg.bl) (hc' : c' < mgmLimit m.alg.bl) :
    mgmLenBlock m.alg.bl a c = lenBlock m.alg.bl a c ∧
    (mgmLenBlock m.alg.bl a c = mgmLenBlock m.alg.bl a' c' → a = a' ∧ c = c') := by
  have hbl := m.ok.bl_ok
  refine ⟨lenBlock_eq _ hbl a c ha hc, ?_⟩
  rw [lenBlock_eq _ hbl a c ha hc, lenBlock_eq _ hbl a' c' ha' hc']
  intro h
  unfold lenBlock at h
  obtain ⟨h1, h2⟩ := List.append_inj h (by simp)
  have hpow : ∀ x, x < mgmLimit m.alg.bl → 8 * x < 256 ^ (m.alg.bl / 2) := by
    intro x hx
    unfold mgmLimit at hx
    rcases hbl with h | h <;> rw [h] at hx ⊢ <;> norm_num at hx ⊢ <;> omega
  have e1 := beBytes_inj _ _ _ (hpow a ha) (hpow a' ha') h1
  have e2 := beBytes_inj _ _ _ (hpow c hc) (hpow c' hc') h2
  omega

/-- **C25** The claim that accepted lengths always fit the length block is false: with Magma, `2^29` bytes of associated data are
accepted in one call, and the length block is then that of no associated data at all. -/
theorem C25_length_block_false (c0 : MgmCtx magmaMgm) (key iv d : Bytes) (hk : key.length = 32) (hiv : iv.length = 8)
    (hd : d.length = 2^29) :
    (mgmSession .magma c0 key iv true [(false, d)]).2.2 = [(2^29 : Int)] ∧
    (mgmSession .magma c0 key iv true [(false, d)]).1.mgm.lenA = 2^29 ∧
    mgmLenBlock 8 (2^29) 0 = mgmLenBlock 8 0 0 := by
  obtain ⟨h1, h2⟩ := init_ready magma_mgm_ok c0 key iv true hk hiv
  obtain ⟨s1, s2⟩ := aad_inv (EMagma mgmMagmaBox key) gf64_mul 8 (by decide) (fun b => EMagma_length _ key b) iv (zeros 8) []
    (cipher_init_mgm c0 (some key) (some iv) true).mgm h2 (Or.inl rfl) d (by rw [hd]; decide) (by decide)
  have hrun : mgmSession .magma c0 key iv true [(false, d)] =
      ({ cipher_init_mgm c0 (some key) (some iv) true with
          mgm := (gost_mgm128_aad (EMagma mgmMagmaBox key) gf64_mul 8 (cipher_init_mgm c0 (some key) (some iv) true).mgm d).1 },
        [], [(d.length : Int)]) := by
    have e := do_aad _ h1 d
    unfold mgmSession
    rw [mgmCalls]
    simp only
    have e' : (cipher_do_mgm (cipher_init_mgm c0 (some key) (some iv) true) false (some d) : MgmCtx MgmCipher.magma.alg × Bytes × Int) =
      ({ cipher_init_mgm c0 (some key) (some iv) true with
          mgm := (gost_mgm128_aad (EMagma mgmMagmaBox key) gf64_mul 8 (cipher_init_mgm c0 (some key) (some iv) true).mgm d).1 },
        [], (d.length : Int)) := by
      refine e.trans ?_
      rw [if_neg (by rw [ne_eq, not_not]; exact s1)]
      rfl
    rw [e']
    rfl
  rw [hrun]
  refine ⟨?_, ?_, by decide +kernel⟩
  · simp only [hd]; norm_num
  · have := s2.lenA
    simp only [List.nil_append, hd] at this
    exact this

/-- **C25** An empty call with message data does not end the associated data: a following call with associated data is still
accepted. -/
theorem C25_aad_after_empty_data (m : MgmCipher) (c0 : MgmCtx m.alg) (key iv d : Bytes) (hk : key.length = 32)
    (hiv : iv.length = m.alg.bl) (enc : Bool) (hd : d.length ≤ mgmLimit m.alg.bl) :
    (mgmSession m c0 key iv enc [(true, []), (false, d)]).2.2 = [0, (d.length : Int)] := by
  have hbl := m.ok.bl_ok
  have hb : 0 < m.alg.bl := by omega
  have he : m.alg.bl % 2 = 0 := by omega
  have h64 : 2^(m.alg.bl * 4 - 3) < 2^63 := by rcases hbl with h | h <;> rw [h] <;> decide
  obtain ⟨h1, h2⟩ := init_ready m.ok c0 key iv enc hk hiv
  unfold mgmSession
  rw [mgmCalls]
  simp only
  rw [do_data _ h1 []]
  simp only
  rw [mgmCalls]
  simp only
  rw [do_aad _ (h1.mgm _) d]
  obtain ⟨s1, s2⟩ : (dataCall (m.E key) m.alg.mul m.alg.bl enc (cipher_init_mgm c0 (some key) (some iv) enc).mgm []).2.2 = 0 ∧
      ∃ z, MInv (m.E key) m.alg.mul m.alg.bl enc iv z [] []
        (dataCall (m.E key) m.alg.mul m.alg.bl enc (cipher_init_mgm c0 (some key) (some iv) enc).mgm []).1 := by
    cases enc with
    | true =>
      obtain ⟨a, _, b⟩ := encrypt_first (m.E key) m.alg.mul m.alg.bl hb he (m.ok.len key) iv _ [] _ h2 (Or.inl rfl) [] h64 (by simp)
      exact ⟨a, _, b⟩
    | false =>
      obtain ⟨a, _, b⟩ := decrypt_first (m.E key) m.alg.mul m.alg.bl hb he (m.ok.len key) iv _ [] (by simp [zeros]) _ h2 [] h64 (by simp)
      exact ⟨a, _, b⟩
  obtain ⟨z, s2⟩ := s2
  have hr : (gost_mgm128_aad (m.E key) m.alg.mul m.alg.bl
      (dataCall (m.E key) m.alg.mul m.alg.bl enc (cipher_init_mgm c0 (some key) (some iv) enc).mgm []).1 d).2 = 0 := by
    generalize (dataCall (m.E key) m.alg.mul m.alg.bl enc (cipher_init_mgm c0 (some key) (some iv) enc).mgm []).1 = c at *
    have l1 : c.lenA = 0 := s2.lenA
    have l2 : c.lenM = 0 := s2.lenM
    have l3 : c.ares = 0 := s2.ares
    unfold gost_mgm128_aad
    rw [if_neg (by simp [l2]), if_pos l1]
    simp only
    unfold mgmLimit at hd
    rw [if_neg (by rw [aad_iff _ _ _ h64 (by omega) (by omega)]; omega), if_neg (by simp [l3])]
  simp [mgmCalls, s1, hr]

/-! ## C26: nonces -/

/-- Two nonces agree except possibly in the first bit. -/
def sameButTop : Bytes → Bytes → Prop
  | x :: xs, y :: ys => x &&& 0x7f = y &&& 0x7f ∧ xs = ys
  | [], [] => True
  | _, _ => False

theorem nonce0_eq_iff (a b : Bytes) : nonce0 a = nonce0 b ↔ sameButTop a b := by
  cases a <;> cases b <;> simp [nonce0, sameButTop]

theorem nonce1_eq_iff (a b : Bytes) : nonce1 a = nonce1 b ↔ sameButTop a b := by
  rw [← nonce0_eq_iff]
  constructor
  · intro h
    rw [← nonce0_1 a, ← nonce0_1 b, h]
  · intro h
    rw [← nonce1_0 a, ← nonce1_0 b, h]

@[simp] theorem nonce0_length (b : Bytes) : (nonce0 b).length = b.length := by cases b <;> rfl
@[simp] theorem nonce1_length (b : Bytes) : (nonce1 b).length = b.length := by cases b <;> rfl

/-- **C26** The two start blocks derived from a nonce differ, and two nonces have the same encryption start block, and the same
authentication start block, exactly when they differ at most in the first bit. -/
theorem C26_start_blocks (m : MgmCipher) (key iv iv' : Bytes) (h : iv.length = m.alg.bl) (h' : iv'.length = m.alg.bl) :
    m.E key (nonce0 iv) ≠ m.E key (nonce1 iv) ∧
    (m.E key (nonce0 iv) = m.E key (nonce0 iv') ↔ sameButTop iv iv') ∧
    (m.E key (nonce1 iv) = m.E key (nonce1 iv') ↔ sameButTop iv iv') := by
  have inj : ∀ a b : Bytes, a.length = m.alg.bl → b.length = m.alg.bl → m.E key a = m.E key b → a = b := by
    intro a b ha hb hab
    rw [← m.D_E key a ha, ← m.D_E key b hb, hab]
  refine ⟨?_, ?_, ?_⟩
  · intro he
    have := inj _ _ (by simp [h]) (by simp [h]) he
    cases iv with
    | nil => rcases m.ok.bl_ok with hb | hb <;> rw [hb] at h <;> simp at h
    | cons x xs =>
      simp only [nonce0, nonce1, List.cons.injEq, and_true] at this
      clear he h
      revert x; decide
  · rw [← nonce0_eq_iff]
    exact ⟨fun he => inj _ _ (by simp [h]) (by simp [h']) he, fun he => by rw [he]⟩
  · rw [← nonce1_eq_iff]
    exact ⟨fun he => inj _ _ (by simp [h]) (by simp [h']) he, fun he => by rw [he]⟩

theorem xorB_left_cancel (p q : Bytes) (h : p.length = q.length) : xorB p (xorB p q) = q := by
  induction p generalizing q with
  | nil => cases q <;> simp_all [xorB]
  | cons x p ih =>
    cases q with
    | nil => simp at h
    | cons y q =>
      simp only [xorB, List.zipWith_cons_cons, List.cons.injEq]
      exact ⟨by rw [← BitVec.xor_assoc, BitVec.xor_self, BitVec.zero_xor], ih q (by simpa using h)⟩

/-- **C26** On the API: one block of plaintext encrypts to the same ciphertext under two nonces if and only if the nonces differ at
most in the first bit; and nonces that differ at most there give the same ciphertext and tag for all data. -/
theorem C26_nonce_bit_ignored (m : MgmCipher) (c0 c0' : MgmCtx m.alg) (key iv iv' : Bytes) (hk : key.length = 32)
    (h : iv.length = m.alg.bl) (h' : iv'.length = m.alg.bl) :
    (∀ p : Bytes, p.length = m.alg.bl →
      ((mgmSession m c0 key iv true [(true, p)]).2.1 = (mgmSession m c0' key iv' true [(true, p)]).2.1 ↔ sameButTop iv iv')) ∧
    (sameButTop iv iv' → ∀ as ds : List Bytes, as.flatten.length + ds.flatten.length ≤ mgmLimit m.alg.bl →
      as.flatten.length < mgmLimit m.alg.bl → ds.flatten.length < mgmLimit m.alg.bl →
      let s := mgmSession m c0 key iv true (mgmChunks as ds)
      let s' := mgmSession m c0' key iv' true (mgmChunks as ds)
      s.2.1 = s'.2.1 ∧ mgm_ctrl_get_tag (cipher_do_mgm s.1 true none).1 m.alg.bl =
        mgm_ctrl_get_tag (cipher_do_mgm s'.1 true none).1 m.alg.bl) := by
  have hbl := m.ok.bl_ok
  have inj : ∀ a b : Bytes, a.length = m.alg.bl → b.length = m.alg.bl → m.E key a = m.E key b → a = b := by
    intro a b ha hb hab
    rw [← m.D_E key a ha, ← m.D_E key b hb, hab]
  have hlim : m.alg.bl < mgmLimit m.alg.bl := by unfold mgmLimit; rcases hbl with h | h <;> rw [h] <;> decide
  constructor
  · intro p hp
    have e : ([(true, p)] : List (Bool × Bytes)) = mgmChunks [] [p] := rfl
    obtain ⟨s1, _⟩ := session_chunks m c0 key iv hk h true [] [p] (by simp [hp]; omega) (by simp; omega) (by simp [hp]; omega)
    obtain ⟨s2, _⟩ := session_chunks m c0' key iv' hk h' true [] [p] (by simp [hp]; omega) (by simp; omega) (by simp [hp]; omega)
    rw [e, s1, s2]
    simp only [List.flatten_cons, List.flatten_nil, List.append_nil]
    have hblock : ∀ n : Bytes, mgmCrypt m.alg.bl (m.E key) n p = xorB p (m.E key (m.E key (nonce0 n))) := by
      intro n
      unfold mgmCrypt xorStream
      apply List.ext_getElem
      · simp [xorB, m.ok.len, hp]
      · intro i h1 h2
        simp at h1
        simp only [List.getElem_mapIdx, xorB, List.getElem_zipWith]
        rw [Nat.div_eq_of_lt (by omega), Nat.mod_eq_of_lt (by omega)]
        have hl : i < (m.E key (m.E key (nonce0 n))).length := by rw [m.ok.len]; omega
        show p[i] ^^^ (mgmGamma m.alg.bl (m.E key) n 0).getD i 0 = _
        rw [List.getD_eq_getElem?_getD]
        unfold mgmGamma iter
        rw [List.getElem?_eq_getElem hl]
        rfl
    rw [hblock, hblock, ← nonce0_eq_iff]
    constructor
    · intro hx
      have hx' := congrArg (xorB p) hx
      rw [xorB_left_cancel p _ (by rw [hp, m.ok.len]), xorB_left_cancel p _ (by rw [hp, m.ok.len])] at hx'
      exact inj _ _ (by simp [h]) (by simp [h']) (inj _ _ (m.ok.len _ _) (m.ok.len _ _) hx')
    · intro hx; rw [hx]
  · intro hs as ds hl hA hP
    obtain ⟨_, a1, _, a2⟩ := C24_encrypt_is_standard m c0 key iv hk h as ds true m.alg.bl (by omega) le_rfl hl hA hP
    obtain ⟨_, b1, _, b2⟩ := C24_encrypt_is_standard m c0' key iv' hk h' as ds true m.alg.bl (by omega) le_rfl hl hA hP
    have e0 := (nonce0_eq_iff iv iv').mpr hs
    have e1 := (nonce1_eq_iff iv iv').mpr hs
    have hc : ∀ P, mgmCrypt m.alg.bl (m.E key) iv P = mgmCrypt m.alg.bl (m.E key) iv' P := by
      intro P
      unfold mgmCrypt
      congr 1
      funext i
      unfold mgmGamma
      rw [e0]
    simp only
    rw [a1, b1, a2, b2, hc]
    refine ⟨rfl, ?_⟩
    unfold mgmTag
    rw [e1]

/-! ## C23: the missing case -/

/-- An MGM context as `EVP_CTRL_INIT` leaves it. -/
def freshMagmaMgm : MgmCtx magmaMgm where
  ks := freshCtx witRng true
  key_set := false
  iv_set := false
  mgm := gost_mgm128_init 8
  iv := zeros 16
  ivlen := 8
  taglen := -1
  buf := zeros 32
  encrypting := false

/-- **C23** The full claim is false for the code as it is: encrypting one byte without associated data and decrypting it, again
without associated data, under the same key and nonce fails the tag check. -/
theorem C23_round_trip_false :
    ∃ (key iv p tag : Bytes), key.length = 32 ∧ iv.length = 8 ∧
      let e := mgmSession .magma freshMagmaMgm key iv true [(true, p)]
      let d := mgmSession .magma freshMagmaMgm key iv false [(true, e.2.1)]
      mgm_ctrl_get_tag (cipher_do_mgm e.1 true none).1 8 = some tag ∧ d.2.1 = p ∧
      (mgm_ctrl_set_tag d.1 8 tag).2 = 1 ∧ (cipher_do_mgm (mgm_ctrl_set_tag d.1 8 tag).1 true none).2.2 = -1 := by
  generalize hC : mgmCrypt 8 (EMagma mgmMagmaBox sampleKey) (zeros 8) [0] = C
  generalize hT : mgmTag 8 (EMagma mgmMagmaBox sampleKey) gf64_mul (zeros 8) [] C = T
  have hne : T ≠ mgmTagFrom 8 (EMagma mgmMagmaBox sampleKey) gf64_mul (List.replicate 8 0) [] C := by
    rw [← hT, ← hC]; decide +kernel
  have hlen : C.length = 1 := by rw [← hC]; simp [mgmCrypt, xorStream]
  have htl : T.length = 8 := by rw [← hT]; exact EMagma_length _ _ _
  obtain ⟨_, e1, _, e2⟩ := C24_encrypt_is_standard .magma freshMagmaMgm sampleKey (zeros 8) rfl rfl [] [[0]] true 8 (by decide) (le_refl 8)
    (by decide) (by decide) (by decide)
  have e1' : (mgmSession .magma freshMagmaMgm sampleKey (zeros 8) true [(true, [0])]).2.1 = C := e1.trans hC
  have hlim : 1 < mgmLimit 8 := by decide
  have hd := C27_mgm_tag_check_actual .magma freshMagmaMgm sampleKey (zeros 8) rfl rfl [] [C] true T htl
    (by simp only [List.flatten_cons, List.flatten_nil, List.append_nil, hlen]; decide) (by decide)
    (by simp only [List.flatten_cons, List.flatten_nil, List.append_nil, hlen]; decide)
  obtain ⟨d1, _⟩ := session_chunks .magma freshMagmaMgm sampleKey (zeros 8) rfl rfl false [] [C]
    (by simp only [List.flatten_cons, List.flatten_nil, List.append_nil, hlen]; decide) (by decide)
    (by simp only [List.flatten_cons, List.flatten_nil, List.append_nil, hlen]; decide)
  have hfl : ([C] : List Bytes).flatten = C := by simp
  rw [hfl] at d1 hd
  refine ⟨sampleKey, zeros 8, [0], T, rfl, rfl, ?_⟩
  simp only
  rw [e1']
  refine ⟨?_, ?_, rfl, ?_⟩
  · refine e2.trans ?_
    have : mgmTag 8 (EMagma mgmMagmaBox sampleKey) gf64_mul (zeros 8) [] (mgmCrypt 8 (EMagma mgmMagmaBox sampleKey) (zeros 8) [0]) = T := by
      rw [hC, hT]
    exact congrArg some ((congrArg (List.take 8) this).trans (List.take_of_length_le (le_of_eq htl)))
  · refine d1.trans ?_
    rw [← hC]
    exact xorStream_twice _ _ _
  · refine hd.trans ?_
    exact if_neg hne

end Gost
