import Verif.Lemmas.MgmRun
import Verif.Lemmas.Gost89Key

/-! # MGM: EVP sessions -/

namespace Gost
open Spec

variable {alg : MgmAlg}

/-- A sequence of update calls: `(false, d)` passes associated data (no output buffer), `(true, d)` message data. Collects the
outputs and the return values. -/
def mgmCalls : MgmCtx alg → List (Bool × Bytes) → MgmCtx alg × Bytes × List Int
  | c, [] => (c, [], [])
  | c, x :: xs =>
    let r := cipher_do_mgm c x.1 (some x.2)
    let t := mgmCalls r.1 xs
    (t.1, r.2.1 ++ t.2.1, r.2.2 :: t.2.2)

/-- The context is keyed with the cipher `E` and has an IV. -/
structure Ready (E : Bytes → Bytes) (enc : Bool) (c : MgmCtx alg) : Prop where
  key_set : c.key_set = true
  iv_set : c.iv_set = true
  block : alg.block c.ks = E
  dir : c.encrypting = enc

theorem do_aad {E : Bytes → Bytes} {enc : Bool} (c : MgmCtx alg) (h : Ready E enc c) (d : Bytes) :
    cipher_do_mgm c false (some d) =
      ({ c with mgm := (gost_mgm128_aad E alg.mul alg.bl c.mgm d).1 }, [],
        if (gost_mgm128_aad E alg.mul alg.bl c.mgm d).2 ≠ 0 then (-1 : Int) else (d.length : Int)) := by
  obtain ⟨h1, h2, h3, h4⟩ := h
  unfold cipher_do_mgm
  rw [h1, h2, h3]
  simp

theorem do_data {E : Bytes → Bytes} {enc : Bool} (c : MgmCtx alg) (h : Ready E enc c) (d : Bytes) :
    cipher_do_mgm c true (some d) =
      ({ c with mgm := (dataCall E alg.mul alg.bl enc c.mgm d).1 }, (dataCall E alg.mul alg.bl enc c.mgm d).2.1,
        if (dataCall E alg.mul alg.bl enc c.mgm d).2.2 ≠ 0 then (-1 : Int) else (d.length : Int)) := by
  obtain ⟨h1, h2, h3, h4⟩ := h
  unfold cipher_do_mgm dataCall
  rw [h1, h2, h3, h4]
  cases enc <;> simp

theorem Ready.mgm {E : Bytes → Bytes} {enc : Bool} {c : MgmCtx alg} (h : Ready E enc c) (m : Mgm) :
    Ready E enc { c with mgm := m } := ⟨h.key_set, h.iv_set, h.block, h.dir⟩

section
variable {E : Bytes → Bytes} {enc : Bool} (hE : ∀ b, (E b).length = alg.bl) (hbl : alg.bl = 8 ∨ alg.bl = 16)
include hE hbl

theorem run_aads (n z a : Bytes) (c : MgmCtx alg) (h : Ready E enc c) (as : List Bytes) (hi : AInv E alg.mul alg.bl n z a c.mgm)
    (hz : a = [] ∨ z = E (nonce1 n)) (hl : a.length + as.flatten.length ≤ 2^(alg.bl * 4 - 3)) :
    ∃ m, mgmCalls c (as.map fun d => (false, d)) = ({ c with mgm := m }, [], as.map fun d => (d.length : Int)) ∧
      AInv E alg.mul alg.bl n (if as = [] then z else E (nonce1 n)) (a ++ as.flatten) m := by
  have h64 : 2^(alg.bl * 4 - 3) < 2^64 := by rcases hbl with h | h <;> rw [h] <;> decide
  have hb : 0 < alg.bl := by omega
  induction as generalizing c a z with
  | nil => exact ⟨c.mgm, rfl, by simpa using hi⟩
  | cons d as ih =>
    simp only [List.flatten_cons, List.length_append] at hl
    obtain ⟨s1, s2⟩ := aad_inv E alg.mul alg.bl hb hE n z a c.mgm hi hz d (by omega) h64
    obtain ⟨m, m1, m2⟩ := ih (E (nonce1 n)) (a ++ d) { c with mgm := (gost_mgm128_aad E alg.mul alg.bl c.mgm d).1 } (h.mgm _) s2
      (Or.inr rfl) (by rw [List.length_append]; omega)
    refine ⟨m, ?_, ?_⟩
    · rw [List.map_cons, mgmCalls]
      simp only
      rw [do_aad c h d]
      simp only
      rw [m1]
      simp [s1]
    · rw [if_neg (by simp)]
      rw [ite_self, List.append_assoc] at m2
      simpa using m2

theorem run_next (n z a i : Bytes) (hzl : z.length = alg.bl) (c : MgmCtx alg) (h : Ready E enc c) (ds : List Bytes)
    (hi : MInv E alg.mul alg.bl enc n z a i c.mgm) (hz : enc = true → z = E (nonce1 n))
    (hl : a.length + i.length + ds.flatten.length ≤ 2^(alg.bl * 4 - 3)) :
    ∃ m o, mgmCalls c (ds.map fun d => (true, d)) = ({ c with mgm := m }, o, ds.map fun d => (d.length : Int)) ∧
      mgmCrypt alg.bl E n (i ++ ds.flatten) = mgmCrypt alg.bl E n i ++ o ∧
      MInv E alg.mul alg.bl enc n z a (i ++ ds.flatten) m := by
  have h64 : 2^(alg.bl * 4 - 3) < 2^63 := by rcases hbl with h | h <;> rw [h] <;> decide
  have hb : 0 < alg.bl := by omega
  have he : alg.bl % 2 = 0 := by omega
  induction ds generalizing c i with
  | nil => exact ⟨c.mgm, [], rfl, by simp, by simpa using hi⟩
  | cons d ds ih =>
    simp only [List.flatten_cons, List.length_append] at hl
    obtain ⟨s1, s2, s3⟩ : (dataCall E alg.mul alg.bl enc c.mgm d).2.2 = 0 ∧
        mgmCrypt alg.bl E n (i ++ d) = mgmCrypt alg.bl E n i ++ (dataCall E alg.mul alg.bl enc c.mgm d).2.1 ∧
        MInv E alg.mul alg.bl enc n z a (i ++ d) (dataCall E alg.mul alg.bl enc c.mgm d).1 := by
      cases enc with
      | true =>
        have := hz rfl
        subst this
        exact encrypt_next E alg.mul alg.bl hb he hE n a i c.mgm hi d h64 (by omega)
      | false => exact decrypt_next E alg.mul alg.bl hb he hE n z a i hzl c.mgm hi d h64 (by omega)
    obtain ⟨m, o, m1, m2, m3⟩ := ih (i ++ d) { c with mgm := (dataCall E alg.mul alg.bl enc c.mgm d).1 } (h.mgm _) s3
      (by rw [List.length_append]; omega)
    refine ⟨m, (dataCall E alg.mul alg.bl enc c.mgm d).2.1 ++ o, ?_, ?_, by simpa using m3⟩
    · rw [List.map_cons, mgmCalls]
      simp only
      rw [do_data c h d]
      simp only
      rw [m1]
      simp [s1]
    · rw [List.flatten_cons, ← List.append_assoc, m2, s2, List.append_assoc]

theorem run_first (n z a : Bytes) (hzl : z.length = alg.bl) (c : MgmCtx alg) (h : Ready E enc c) (d : Bytes) (ds : List Bytes)
    (hi : AInv E alg.mul alg.bl n z a c.mgm) (hz : a = [] ∨ z = E (nonce1 n))
    (hl : a.length + (d :: ds).flatten.length ≤ 2^(alg.bl * 4 - 3)) :
    ∃ m, mgmCalls c ((d :: ds).map fun d => (true, d)) =
        ({ c with mgm := m }, mgmCrypt alg.bl E n (d :: ds).flatten, (d :: ds).map fun d => (d.length : Int)) ∧
      MInv E alg.mul alg.bl enc n (if enc then E (nonce1 n) else z) a (d :: ds).flatten m := by
  have h64 : 2^(alg.bl * 4 - 3) < 2^63 := by rcases hbl with h | h <;> rw [h] <;> decide
  have hb : 0 < alg.bl := by omega
  have he : alg.bl % 2 = 0 := by omega
  simp only [List.flatten_cons, List.length_append] at hl
  obtain ⟨s1, s2, s3⟩ : (dataCall E alg.mul alg.bl enc c.mgm d).2.2 = 0 ∧
      (dataCall E alg.mul alg.bl enc c.mgm d).2.1 = mgmCrypt alg.bl E n d ∧
      MInv E alg.mul alg.bl enc n (if enc then E (nonce1 n) else z) a d (dataCall E alg.mul alg.bl enc c.mgm d).1 := by
    cases enc with
    | true => exact encrypt_first E alg.mul alg.bl hb he hE n z a c.mgm hi hz d h64 (by omega)
    | false => exact decrypt_first E alg.mul alg.bl hb he hE n z a hzl c.mgm hi d h64 (by omega)
  obtain ⟨m, o, m1, m2, m3⟩ := run_next hE hbl n (if enc then E (nonce1 n) else z) a d
    (by cases enc <;> simp [hzl, hE]) { c with mgm := (dataCall E alg.mul alg.bl enc c.mgm d).1 } (h.mgm _) ds s3
    (by rintro rfl; simp) (by omega)
  refine ⟨m, ?_, by simpa using m3⟩
  rw [List.map_cons, mgmCalls]
  simp only
  rw [do_data c h d]
  simp only
  rw [m1, s2]
  simp only [s1, ne_eq, not_true, if_false, List.map_cons, List.flatten_cons]
  rw [m2]

end

/-- A run of calls: appended. -/
theorem mgmCalls_append (c : MgmCtx alg) (xs ys : List (Bool × Bytes)) :
    mgmCalls c (xs ++ ys) =
      ((mgmCalls (mgmCalls c xs).1 ys).1, (mgmCalls c xs).2.1 ++ (mgmCalls (mgmCalls c xs).1 ys).2.1,
        (mgmCalls c xs).2.2 ++ (mgmCalls (mgmCalls c xs).1 ys).2.2) := by
  induction xs generalizing c with
  | nil => rfl
  | cons x xs ih =>
    rw [List.cons_append, mgmCalls, ih, mgmCalls]
    simp

/-! ## Initialisation -/

/-- After an initialisation with key and nonce. -/
theorem init_ready {E : Bytes → Bytes → Bytes} (ok : MgmOk alg E) (c0 : MgmCtx alg) (key iv : Bytes) (enc : Bool)
    (hk : key.length = 32) (hiv : iv.length = alg.bl) :
    Ready (E key) enc (cipher_init_mgm c0 (some key) (some iv) enc) ∧
    AInv (E key) alg.mul alg.bl iv (zeros alg.bl) [] (cipher_init_mgm c0 (some key) (some iv) enc).mgm := by
  have hb : 0 < alg.bl := by rcases ok.bl_ok with h | h <;> omega
  refine ⟨⟨rfl, rfl, ok.keyed _ _ hk, rfl⟩, ?_⟩
  refine ⟨?_, rfl, rfl, rfl, ?_, [], [], rfl, by simp, hb, ⟨rfl, rfl⟩, rfl, rfl⟩
  · show nonce0 (clrTop (copyN alg.bl iv)) = _ ∧ nonce1 (clrTop (copyN alg.bl iv)) = _
    rw [clrTop_eq, copyN_self hiv]
    exact ⟨nonce0_0 iv, nonce1_0 iv⟩
  · show (zeros alg.bl).length = alg.bl
    simp [zeros]

/-- After a later initialisation with a new nonce only. -/
theorem reinit_ready {E : Bytes → Bytes} (hbl : alg.bl = 8 ∨ alg.bl = 16) (c : MgmCtx alg) (iv : Bytes) (enc : Bool)
    (hks : c.key_set = true) (hE : alg.block c.ks = E) (hiv : iv.length = alg.bl) :
    Ready E enc (cipher_init_mgm c none (some iv) enc) ∧
    AInv E alg.mul alg.bl iv c.mgm.Zi [] (cipher_init_mgm c none (some iv) enc).mgm := by
  have hb : 0 < alg.bl := by rcases hbl with h | h <;> omega
  have hm : cipher_init_mgm c none (some iv) enc =
      { c with encrypting := enc, mgm := gost_mgm128_setiv alg.bl c.mgm iv, iv_set := true } := by
    unfold cipher_init_mgm
    simp [hks]
  rw [hm]
  refine ⟨⟨hks, rfl, hE, rfl⟩, ?_⟩
  refine ⟨?_, rfl, rfl, rfl, ?_, [], [], rfl, by simp, hb, ⟨rfl, rfl⟩, rfl, rfl⟩
  · show nonce0 (clrTop (copyN alg.bl iv)) = _ ∧ nonce1 (clrTop (copyN alg.bl iv)) = _
    rw [clrTop_eq, copyN_self hiv]
    exact ⟨nonce0_0 iv, nonce1_0 iv⟩
  · show (zeros alg.bl).length = alg.bl
    simp [zeros]

/-! ## The final call -/

theorem mgmFinal_tag_length (E : Bytes → Bytes) (M : Bytes → Bytes → Bytes) (bl : Nat) (hE : ∀ b, (E b).length = bl) (c : Mgm) :
    (mgmFinal E M bl c).tag.length = bl := by unfold mgmFinal; exact hE _

theorem final_enc {E : Bytes → Bytes} (hE : ∀ b, (E b).length = alg.bl) (c : MgmCtx alg) (h : Ready E true c) (out : Bool) :
    (cipher_do_mgm c out none).2 = ([], 0) ∧ (cipher_do_mgm c out none).1.encrypting = true ∧
    (cipher_do_mgm c out none).1.taglen = alg.bl ∧
    ∃ rest, (cipher_do_mgm c out none).1.buf = (mgmFinal E alg.mul alg.bl c.mgm).tag ++ rest := by
  obtain ⟨h1, h2, h3, h4⟩ := h
  have hl := mgmFinal_tag_length E alg.mul alg.bl hE c.mgm
  unfold cipher_do_mgm gost_mgm128_tag gost_mgm128_finish
  rw [h1, h2, h3, h4]
  refine ⟨by simp, by simp [h4], by simp, c.buf.drop alg.bl, ?_⟩
  simp only [memcpyTo, Bool.not_eq_true, Bool.true_eq_false, not_false_eq_true, not_true, if_false]
  rw [List.take_of_length_le (by simp), List.take_of_length_le (by omega)]

/-- `EVP_CTRL_AEAD_GET_TAG` after the final call of an encryption. -/
theorem get_tag_enc {E : Bytes → Bytes} (hE : ∀ b, (E b).length = alg.bl) (c : MgmCtx alg) (h : Ready E true c) (out : Bool)
    (t : Nat) (ht : 0 < t) (ht' : t ≤ alg.bl) :
    mgm_ctrl_get_tag (cipher_do_mgm c out none).1 t = some ((mgmFinal E alg.mul alg.bl c.mgm).tag.take t) := by
  obtain ⟨_, h2, h3, rest, h4⟩ := final_enc hE c h out
  have hl := mgmFinal_tag_length E alg.mul alg.bl hE c.mgm
  unfold mgm_ctrl_get_tag
  rw [if_neg (by rw [h2, h3]; simp; omega), h4, Int.toNat_natCast, List.take_append_of_le_length (by omega)]

/-- The final call of a decryption after `EVP_CTRL_AEAD_SET_TAG`. -/
theorem final_dec {E : Bytes → Bytes} (hE : ∀ b, (E b).length = alg.bl) (hbl : alg.bl = 8 ∨ alg.bl = 16) (c : MgmCtx alg)
    (h : Ready E false c) (tag : Bytes) (ht : tag.length = alg.bl) (out : Bool) :
    (mgm_ctrl_set_tag c alg.bl tag).2 = 1 ∧
    (cipher_do_mgm (mgm_ctrl_set_tag c alg.bl tag).1 out none).2 =
      ([], if tag = (mgmFinal E alg.mul alg.bl c.mgm).tag then 0 else -1) := by
  obtain ⟨h1, h2, h3, h4⟩ := h
  have hl := mgmFinal_tag_length E alg.mul alg.bl hE c.mgm
  have hset : mgm_ctrl_set_tag c alg.bl tag = ({ c with buf := memcpyTo c.buf tag alg.bl, taglen := alg.bl }, 1) := by
    unfold mgm_ctrl_set_tag
    rw [if_neg (by rw [h4]; simp; omega)]
    rfl
  rw [hset]
  refine ⟨rfl, ?_⟩
  have hneg : ¬ ((alg.bl : Int) < 0) := by omega
  unfold cipher_do_mgm gost_mgm128_finish
  simp only [h1, h2, h3, h4, not_true, if_false, Bool.false_eq_true, not_false_eq_true, if_true, hneg, Int.toNat_natCast]
  rw [if_pos (show alg.bl ≤ 16 by omega)]
  have e1 : (mgmFinal E alg.mul alg.bl c.mgm).tag.take alg.bl = (mgmFinal E alg.mul alg.bl c.mgm).tag :=
    List.take_of_length_le (by omega)
  have e2 : (memcpyTo c.buf tag alg.bl).take alg.bl = tag := by
    unfold memcpyTo
    rw [List.take_append_of_le_length (by simp; omega), List.take_take, Nat.min_self, List.take_of_length_le (by omega)]
  simp only [e1, e2]
  by_cases heq : tag = (mgmFinal E alg.mul alg.bl c.mgm).tag
  · simp [← heq]
  · have heq' : ¬ ((mgmFinal E alg.mul alg.bl c.mgm).tag = tag) := fun h => heq h.symm
    simp [heq, heq']

/-! ## The two ciphers -/

theorem gfMul_zero_right {n : Nat} (hn : 0 < n) (c a : BitVec n) : gfMul c a 0#n = 0#n := by
  apply toPoly_injective
  rw [gfMul_poly hn, toPoly_zero, mul_zero, Polynomial.zero_modByMonic]

theorem kuz_mgm_ok : MgmOk kuzMgm EKuz where
  keyed := by
    intro ks key hk
    funext b
    have e : ∀ (c : KCtx) (b : Bytes), kuzMgm.block c b = grasshopper_encrypt_block c.encrypt_round_keys (copyN 16 b) :=
      fun _ _ => rfl
    have e3 : ∀ c : KCtx, (gost_grasshopper_cipher_key c key).encrypt_round_keys = grasshopper_set_encrypt_key (copyN 32 key) :=
      fun _ => rfl
    rw [EKuz_def]
    refine (e _ _).trans ?_
    exact congrArg (fun k => grasshopper_encrypt_block k (copyN 16 b)) (e3 ks)
  len := fun k b => EKuz_length k b
  mul0 := by
    intro h hh
    show gf128_mul_uint64 h (zeros 16) = zeros 16
    rw [gf128_mul_eq h (zeros 16) hh rfl, show BitVec.ofNat 128 (beNat (zeros 16)) = 0#128 by decide +kernel,
      gfMul_zero_right (by decide)]
    decide +kernel
  bl_ok := Or.inr rfl

/-- The substitution box of Magma. -/
def mgmMagmaBox : KBox := kboxinit Gost28147_TC26ParamSetZ

theorem magma_wrap_eq (c : Ctx) (b : Bytes) : gost_magma_encrypt_wrap c b = magmacrypt c b := by
  have hl : loadLE (copyN 8 b).reverse = loadBE b := by
    unfold copyN
    rw [show List.range 8 = [0, 1, 2, 3, 4, 5, 6, 7] from rfl]
    simp only [List.map_cons, List.map_nil, List.reverse_cons, List.reverse_nil, List.nil_append, List.cons_append]
    rfl
  unfold gost_magma_encrypt_wrap gostcrypt magmacrypt
  simp only
  rw [hl]
  rfl

theorem magma_mgm_ok : MgmOk magmaMgm (EMagma mgmMagmaBox) where
  keyed := by
    intro ks key hk
    funext b
    show gost_magma_encrypt_wrap (magma_key (gost_cipher_set_param ks .tc26Z).cctx key) b = _
    rw [magma_wrap_eq, magmacrypt_eq, magma_get_key_set _ _ hk]
    rfl
  len := fun k b => EMagma_length _ k b
  mul0 := by
    intro h hh
    show gf64_mul h (zeros 8) = zeros 8
    rw [gf64_mul_eq h (zeros 8) hh rfl, show BitVec.ofNat 64 (beNat (zeros 8)) = 0#64 by decide +kernel,
      gfMul_zero_right (by decide)]
    decide +kernel
  bl_ok := Or.inl rfl

end Gost
