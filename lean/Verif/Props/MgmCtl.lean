import Verif.Props.Mgm

/-!
# C25, C27: the tag controls of the MGM ciphers over arbitrary histories

A context made by `EVP_CTRL_INIT` and then used by any sequence of EVP calls.
-/

namespace Gost
open Spec

/-- What a caller can do with an MGM context. -/
inductive MgmOp
  /-- `EVP_CipherInit_ex` with key and/or IV -/
  | init (key iv : Option Bytes) (enc : Bool)
  /-- `EVP_CipherUpdate`, with or without an output buffer -/
  | update (out : Bool) (d : Bytes)
  /-- `EVP_CipherFinal` -/
  | final (out : Bool)
  | setIvlen (arg : Int)
  | setTag (arg : Int) (tag : Bytes)

variable {alg : MgmAlg}

/-- One call. -/
def MgmOp.run (c : MgmCtx alg) : MgmOp → MgmCtx alg
  | init key iv enc => cipher_init_mgm c key iv enc
  | update out d => (cipher_do_mgm c out (some d)).1
  | final out => (cipher_do_mgm c out none).1
  | setIvlen arg => (mgm_ctrl_set_ivlen c arg).1
  | setTag arg tag => (mgm_ctrl_set_tag c arg tag).1

theorem init_taglen (c : MgmCtx alg) (key iv : Option Bytes) (enc : Bool) :
    (cipher_init_mgm c key iv enc).taglen = c.taglen ∧ (cipher_init_mgm c key iv enc).encrypting = enc := by
  unfold cipher_init_mgm
  cases key <;> cases iv <;> simp only <;> (repeat' split) <;> simp

theorem update_taglen (c : MgmCtx alg) (out : Bool) (d : Bytes) :
    (cipher_do_mgm c out (some d)).1.taglen = c.taglen := by
  unfold cipher_do_mgm
  simp only
  (repeat' split) <;> rfl

theorem init_buf (c : MgmCtx alg) (key iv : Option Bytes) (enc : Bool) : (cipher_init_mgm c key iv enc).buf = c.buf := by
  unfold cipher_init_mgm
  cases key <;> cases iv <;> simp only <;> (repeat' split) <;> rfl

theorem update_buf (c : MgmCtx alg) (out : Bool) (d : Bytes) : (cipher_do_mgm c out (some d)).1.buf = c.buf := by
  unfold cipher_do_mgm
  simp only
  (repeat' split) <;> rfl

theorem calls_tag (calls : List (Bool × Bytes)) : ∀ c : MgmCtx alg, (mgmCalls c calls).1.taglen = c.taglen ∧ (mgmCalls c calls).1.buf = c.buf := by
  induction calls with
  | nil => intro c; exact ⟨rfl, rfl⟩
  | cons x t ih =>
    intro c
    obtain ⟨o, d⟩ := x
    rw [mgmCalls]
    simp only
    rw [(ih _).1, (ih _).2, update_taglen, update_buf]
    exact ⟨rfl, rfl⟩

theorem final_taglen (c : MgmCtx alg) (out : Bool) (h : c.taglen < 0) (hf : (cipher_do_mgm c out none).2.2 ≠ 0) :
    (cipher_do_mgm c out none).1.taglen < 0 := by
  revert hf
  unfold cipher_do_mgm
  simp only
  (repeat' split) <;> intro hf <;> first | exact h | exact absurd rfl hf

/-- A call that leaves the context without a tag: not the final call of an encryption that succeeds, and not a tag of the
block's length. -/
def MgmOp.noTag (c : MgmCtx alg) : MgmOp → Prop
  | final out => (cipher_do_mgm c out none).2.2 ≠ 0
  | setTag arg tag => (mgm_ctrl_set_tag c arg tag).2 ≠ 1
  | _ => True

/-- A history in which no call supplies or computes a tag. -/
def mgmNoTag (c : MgmCtx alg) : List MgmOp → Prop
  | [] => True
  | o :: os => o.noTag c ∧ mgmNoTag (o.run c) os

theorem noTag_run {c : MgmCtx alg} (h : c.taglen < 0) (o : MgmOp) (ho : o.noTag c) : (o.run c).taglen < 0 := by
  cases o with
  | init key iv enc => rw [MgmOp.run, (init_taglen c key iv enc).1]; exact h
  | update out d => rw [MgmOp.run, update_taglen]; exact h
  | final out => exact final_taglen c out h ho
  | setIvlen arg =>
    rw [MgmOp.run]; unfold mgm_ctrl_set_ivlen
    (repeat' split) <;> exact h
  | setTag arg tag =>
    revert ho
    rw [MgmOp.run, MgmOp.noTag]; unfold mgm_ctrl_set_tag
    split
    · intro _; exact h
    · intro ho; exact absurd rfl ho

theorem noTag_history (os : List MgmOp) : ∀ (c : MgmCtx alg), c.taglen < 0 → mgmNoTag c os → (os.foldl MgmOp.run c).taglen < 0 := by
  induction os with
  | nil => intro c h _; exact h
  | cons o os ih => intro c h hn; exact ih _ (noTag_run h o hn.1) hn.2

/-- **C27** Whatever was done with the context before, as long as no tag was set and no encryption finished, the final call of a
decryption fails, and no tag is handed out. -/
theorem C27_mgm_no_tag_refused (m : MgmCipher) (c0 : MgmCtx m.alg) (os : List MgmOp) (h : mgmNoTag (mgm_ctrl_init c0) os)
    (out : Bool) (n : Int) :
    let c := os.foldl MgmOp.run (mgm_ctrl_init c0)
    (c.encrypting = false → (cipher_do_mgm c out none).2.2 = -1) ∧ mgm_ctrl_get_tag c n = none := by
  have ht := noTag_history os (mgm_ctrl_init c0) (by show (-1 : Int) < 0; decide) h
  intro c
  refine ⟨?_, ?_⟩
  · intro he
    unfold cipher_do_mgm
    simp only [he]
    split
    · rfl
    · split
      · rfl
      · simp only [Bool.false_eq_true, not_false_eq_true, if_true]
  · unfold mgm_ctrl_get_tag
    rw [if_pos (Or.inr (Or.inr (Or.inr ht)))]

/-- **C25** `EVP_CTRL_AEAD_SET_TAG` accepts exactly the tags of the length of a block, and only for decryption; refusing it
changes nothing. -/
theorem C25_set_tag_accepts (m : MgmCipher) (c : MgmCtx m.alg) (n : Int) (tag : Bytes) :
    ((mgm_ctrl_set_tag c n tag).2 = 1 ↔ n = m.alg.bl ∧ c.encrypting = false) ∧
    ((mgm_ctrl_set_tag c n tag).2 ≠ 1 → (mgm_ctrl_set_tag c n tag).2 = 0 ∧ (mgm_ctrl_set_tag c n tag).1 = c) := by
  have hb : m.alg.bl = 8 ∨ m.alg.bl = 16 := m.ok.bl_ok
  unfold mgm_ctrl_set_tag
  by_cases hc : n ≤ 0 ∨ n ≠ m.alg.bl ∨ c.encrypting = true
  · rw [if_pos hc]
    refine ⟨⟨fun h => absurd (show (0 : Int) = 1 from h) (by decide), fun h => ?_⟩, fun _ => ⟨rfl, rfl⟩⟩
    rcases hc with hc | hc | hc
    · omega
    · exact absurd h.1 hc
    · rw [h.2] at hc; cases hc
  · rw [if_neg hc]
    push Not at hc
    refine ⟨⟨fun _ => ⟨hc.2.1, by simpa using hc.2.2⟩, fun _ => rfl⟩, fun h => absurd rfl h⟩

/-- **C25** `EVP_CTRL_AEAD_GET_TAG` after an encryption hands out tags of 1 to block-length bytes and refuses all other lengths;
on a decrypting context it always refuses. -/
theorem C25_get_tag_accepts (m : MgmCipher) (c : MgmCtx m.alg) (hk : c.key_set = true) (hi : c.iv_set = true) (out : Bool) (n : Int) :
    (c.encrypting = true → (mgm_ctrl_get_tag (cipher_do_mgm c out none).1 n = none ↔ ¬ (1 ≤ n ∧ n ≤ m.alg.bl))) ∧
    (c.encrypting = false → mgm_ctrl_get_tag c n = none ∧ mgm_ctrl_get_tag (cipher_do_mgm c out none).1 n = none) := by
  refine ⟨?_, ?_⟩
  · intro he
    unfold mgm_ctrl_get_tag cipher_do_mgm
    simp only [hk, hi, he, not_true, if_false]
    by_cases hn : 1 ≤ n ∧ n ≤ m.alg.bl
    · rw [if_neg (by push Not; exact ⟨by omega, by omega, trivial, by omega⟩)]; simp [hn]
    · rw [if_pos (by omega)]; simp [hn]
  · intro he
    refine ⟨by unfold mgm_ctrl_get_tag; rw [if_pos (by simp [he])], ?_⟩
    have : (cipher_do_mgm c out none).1.encrypting = false := by
      unfold cipher_do_mgm
      simp only [he]
      (repeat' split) <;> first | exact he | rfl
    unfold mgm_ctrl_get_tag
    rw [if_pos (by simp [this])]

/-- **C27** A tag stays in the context: after an encryption, a decryption started on the same context, of the ciphertext just
produced under the same key and nonce (with the same associated data), succeeds although the caller never supplied a tag. -/
theorem C27_mgm_stale_tag (m : MgmCipher) (c0 : MgmCtx m.alg) (key iv : Bytes) (hk : key.length = 32) (hiv : iv.length = m.alg.bl)
    (a d : Bytes) (hl : a.length + d.length ≤ mgmLimit m.alg.bl) (hA : a.length < mgmLimit m.alg.bl) (hP : d.length < mgmLimit m.alg.bl)
    (out out' : Bool) :
    let e := mgmSession m c0 key iv true (mgmChunks [a] [d])
    let c1 := (cipher_do_mgm e.1 out none).1
    (cipher_do_mgm (mgmSession m c1 key iv false (mgmChunks [a] [e.2.1])).1 out' none).2.2 = 0 := by
  intro e c1
  have hbl := m.ok.bl_ok
  obtain ⟨_, e1, e2, e3⟩ := C24_encrypt_is_standard m c0 key iv hk hiv [a] [d] out m.alg.bl (by omega) le_rfl
    (by simpa using hl) (by simpa using hA) (by simpa using hP)
  simp only [List.flatten_cons, List.flatten_nil, List.append_nil] at e1 e3
  have hlen : (mgmCrypt m.alg.bl (m.E key) iv d).length = d.length := by simp [mgmCrypt, xorStream]
  have htl : (mgmTag m.alg.bl (m.E key) m.alg.mul iv a (mgmCrypt m.alg.bl (m.E key) iv d)).length = m.alg.bl := m.ok.len key _
  rw [List.take_of_length_le (le_of_eq htl)] at e3
  obtain ⟨s1, s2, s3, s4⟩ := session_chunks m c1 key iv hk hiv false [a] [e.2.1]
    (by simp only [List.flatten_cons, List.flatten_nil, List.append_nil]; show a.length + (mgmSession m c0 key iv true (mgmChunks [a] [d])).2.1.length ≤ _; rw [e1, hlen]; exact hl)
    (by simpa using hA)
    (by simp only [List.flatten_cons, List.flatten_nil, List.append_nil]; show (mgmSession m c0 key iv true (mgmChunks [a] [d])).2.1.length < _; rw [e1, hlen]; exact hP)
  set T := mgmTag m.alg.bl (m.E key) m.alg.mul iv a (mgmCrypt m.alg.bl (m.E key) iv d) with hT
  have hc1 : c1.taglen = m.alg.bl ∧ c1.buf.take m.alg.bl = T := by
    have h := e3
    change mgm_ctrl_get_tag c1 _ = _ at h
    unfold mgm_ctrl_get_tag at h
    split at h
    · cases h
    · rename_i hc
      push Not at hc
      refine ⟨?_, by simpa using h⟩
      have hr : Ready (m.E key) true e.1 := (session_chunks m c0 key iv hk hiv true [a] [d]
        (by simpa using hl) (by simpa using hA) (by simpa using hP)).2.2.1
      obtain ⟨r1, r2, r3, r4⟩ := hr
      show (cipher_do_mgm e.1 out none).1.taglen = _
      unfold cipher_do_mgm
      simp only [r1, r2, r4, not_true, if_false]
  set s := mgmSession m c1 key iv false (mgmChunks [a] [e.2.1]) with hs
  have hst : s.1.taglen = m.alg.bl ∧ s.1.buf.take m.alg.bl = T := by
    have h1 := calls_tag (mgmChunks [a] [e.2.1]) (cipher_init_mgm c1 (some key) (some iv) false)
    rw [(init_taglen c1 _ _ _).1, init_buf] at h1
    have h2 : s = mgmCalls (cipher_init_mgm c1 (some key) (some iv) false) (mgmChunks [a] [e.2.1]) := hs
    rw [h2, h1.1, h1.2]
    exact hc1
  have hset : mgm_ctrl_set_tag s.1 m.alg.bl T = (s.1, 1) := by
    obtain ⟨r1, r2, r3, r4⟩ := s3
    unfold mgm_ctrl_set_tag
    rw [if_neg (by rw [r4]; simp; omega)]
    have hb : memcpyTo s.1.buf T m.alg.bl = s.1.buf := by
      unfold memcpyTo
      rw [List.take_of_length_le (le_of_eq htl)]
      conv_rhs => rw [← List.take_append_drop m.alg.bl s.1.buf, hst.2]
    have hn : ((m.alg.bl : Int)).toNat = m.alg.bl := Int.toNat_natCast _
    rw [hn, hb]
    have ht := hst.1
    revert ht
    generalize s.1 = x
    intro ht
    cases x
    simp only at ht
    subst ht
    rfl
  obtain ⟨f1, f2⟩ := final_dec (m.ok.len key) m.ok.bl_ok _ s3 T htl out'
  rw [hset] at f2
  have s4' : (mgmFinal (m.E key) m.alg.mul m.alg.bl s.1.mgm).tag = T := by
    refine s4.trans ?_
    simp only [absorbed, Bool.false_eq_true, if_false, List.flatten_cons, List.flatten_nil, List.append_nil, false_or, ne_eq,
      List.cons_ne_nil, not_false_eq_true, if_true]
    rw [hT, ← e1]
    rfl
  show (cipher_do_mgm s.1 out' none).2.2 = 0
  rw [f2, s4', if_pos rfl]

/-- The hypotheses can be met: a key, an IV, data, a tag of a wrong length, data. -/
example : mgmNoTag (mgm_ctrl_init freshMagmaMgm) [.init (some sampleKey) (some (zeros 8)) false, .update false [1, 2],
    .setTag 4 [1, 2, 3, 4], .update true [3]] := by
  refine ⟨trivial, trivial, ?_, trivial, trivial⟩
  exact fun h => absurd ((C25_set_tag_accepts .magma _ 4 _).1.1 h).1 (by decide)

end Gost
