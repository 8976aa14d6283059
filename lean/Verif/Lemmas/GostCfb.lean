import Verif.Lemmas.GostModes

/-! # GOST 28147-89 CFB: refinement proofs -/

namespace Gost
open Spec

/-- Abstract state of CFB: key, register (ciphertext of the current block so far, or the complete
register when no gamma is left), unused gamma bytes, byte counter. -/
structure CfbSt where
  k : Bytes
  reg : Bytes
  gam : Bytes
  n : Nat

/-- Start a new block. -/
def cfbNew (box : KBox) (on : Bool) (s : CfbSt) : CfbSt :=
  let kv := if on ∧ s.n = 1024 then meshed (E89 box) (mesh89 box) s.k s.reg else (s.k, s.reg)
  { k := kv.1, reg := [], gam := E89 box kv.1 kv.2, n := s.n % 1024 + 8 }

/-- One byte of CFB. -/
def cfbStep (box : KBox) (on enc : Bool) (s : CfbSt) (x : Byte) : CfbSt × Byte :=
  let s := if s.gam = [] then cfbNew box on s else s
  let out := x ^^^ s.gam.getD 0 0
  ({ s with gam := s.gam.drop 1, reg := s.reg ++ [if enc then out else x] }, out)

theorem cfb_inverse (box : KBox) (on : Bool) (s : CfbSt) (x : Byte) :
    cfbStep box on false s (cfbStep box on true s x).2 = ((cfbStep box on true s x).1, x) := by
  unfold cfbStep
  split <;> simp [BitVec.xor_assoc]

theorem cfb_rest (box : KBox) (on enc : Bool) (s : CfbSt) (xs : Bytes) (h : xs.length ≤ s.gam.length) :
    runM (cfbStep box on enc) s xs =
      ({ s with gam := s.gam.drop xs.length, reg := s.reg ++ (if enc then xorB xs s.gam else xs) },
        xorB xs s.gam) := by
  induction xs generalizing s with
  | nil => simp [runM]
  | cons x xs ih =>
    obtain ⟨k, reg, gam, n⟩ := s
    cases gam with
    | nil => simp at h
    | cons g gs =>
      simp only [runM, cfbStep, List.cons_ne_nil, if_false, List.drop_succ_cons, List.drop_zero,
        List.getD_cons_zero]
      rw [ih _ (by simpa using h)]
      cases enc <;> simp

theorem cfb_block (box : KBox) (on enc : Bool) (s : CfbSt) (xs : Bytes) (hg : s.gam = []) (hx : xs ≠ [])
    (h : xs.length ≤ 8) :
    runM (cfbStep box on enc) s xs =
      ({ k := (cfbNew box on s).k, n := (cfbNew box on s).n,
         gam := (cfbNew box on s).gam.drop xs.length,
         reg := if enc then xorB xs (cfbNew box on s).gam else xs },
        xorB xs (cfbNew box on s).gam) := by
  cases xs with
  | nil => exact absurd rfl hx
  | cons x xs =>
    have hl : (cfbNew box on s).gam.length = 8 := by simp [cfbNew]
    have hne : (cfbNew box on s).gam ≠ [] := by intro hh; simp [hh] at hl
    have hr : (cfbNew box on s).reg = [] := rfl
    have := cfb_rest box on enc (cfbNew box on s) (x :: xs) (by omega)
    rw [hr, List.nil_append] at this
    rw [← this]
    simp only [runM, cfbStep, hg, if_true, hne, if_false]

/-- Abstraction. -/
def cfbAbs (e : CipherCtx) : CfbSt where
  k := gost_get_key e.cctx
  reg := if e.num = 0 then e.iv else e.stash.take e.num
  gam := if e.num = 0 then [] else e.buf.drop e.num
  n := e.count

structure CfbInv (box : KBox) (on enc : Bool) (e : CipherCtx) : Prop where
  box : e.cctx.box = box
  on : (e.key_meshing ≠ 0) ↔ on = true
  enc : e.encrypting = enc
  buf : e.buf.length = 8
  stash : e.stash.length = 8
  num : e.num < 8

theorem gost_crypt_mesh_refines (box : KBox) (on enc : Bool) (e : CipherCtx) (h : CfbInv box on enc e)
    (h0 : e.num = 0) :
    (cfbNew box on (cfbAbs e)).k = gost_get_key (gost_crypt_mesh e).cctx ∧
    (cfbNew box on (cfbAbs e)).gam = (gost_crypt_mesh e).buf ∧
    (cfbNew box on (cfbAbs e)).n = (gost_crypt_mesh e).count ∧
    CfbInv box on enc (gost_crypt_mesh e) ∧ (gost_crypt_mesh e).num = 0 ∧
    (gost_crypt_mesh e).stash = e.stash := by
  have hm := meshing_eq e.cctx e.iv
  have hb := h.box
  have hreg : (cfbAbs e).reg = e.iv := by simp [cfbAbs, h0]
  by_cases hc : e.key_meshing ≠ 0 ∧ e.count = 1024
  · have hon : on = true := h.on.mp hc.1
    have hnew : cfbNew box on (cfbAbs e) =
        { k := mesh89 box (gost_get_key e.cctx), reg := [],
          gam := E89 box (mesh89 box (gost_get_key e.cctx)) (E89 box (mesh89 box (gost_get_key e.cctx)) e.iv),
          n := e.count % 1024 + 8 } := by
      unfold cfbNew
      rw [hreg, if_pos (show on = true ∧ (cfbAbs e).n = 1024 from ⟨hon, hc.2⟩)]
      rfl
    rw [hnew]
    unfold gost_crypt_mesh
    rw [if_pos hc]
    refine ⟨?_, ?_, rfl, ⟨?_, h.on, h.enc, ?_, h.stash, h.num⟩, h0, rfl⟩
    · rw [hm.2.1, hb]
    · simp only [gostcrypt_eq, hm.1, hm.2.1, hm.2.2, hb]
    · simp only [hm.1, hb]
    · simp
  · have hon : ¬ (on = true ∧ (cfbAbs e).n = 1024) := by rw [← h.on]; exact hc
    have hnew : cfbNew box on (cfbAbs e) =
        { k := gost_get_key e.cctx, reg := [],
          gam := E89 box (gost_get_key e.cctx) e.iv,
          n := e.count % 1024 + 8 } := by
      unfold cfbNew
      rw [hreg, if_neg hon]
      rfl
    rw [hnew]
    unfold gost_crypt_mesh
    rw [if_neg hc]
    refine ⟨rfl, ?_, rfl, ⟨hb, h.on, h.enc, ?_, h.stash, h.num⟩, h0, rfl⟩
    · simp only [gostcrypt_eq, hb]
    · simp

theorem cfbBody_refines (box : KBox) (on enc : Bool) (e : CipherCtx) (xs : Bytes)
    (h : CfbInv box on enc e ∧ e.num = 0) (hx : xs.length = 8) :
    (CfbInv box on enc (cfbBody e xs).1 ∧ (cfbBody e xs).1.num = 0) ∧
    runM (cfbStep box on enc) (cfbAbs e) xs = (cfbAbs (cfbBody e xs).1, (cfbBody e xs).2) := by
  obtain ⟨h1, h2, h3, hi, hn, hs⟩ := gost_crypt_mesh_refines box on enc e h.1 h.2
  refine ⟨⟨⟨hi.box, hi.on, hi.enc, hi.buf, hi.stash, hi.num⟩, hn⟩, ?_⟩
  have hne : xs ≠ [] := by intro hh; simp [hh] at hx
  rw [cfb_block _ _ _ _ _ (by simp [cfbAbs, h.2]) hne (by omega)]
  rw [h1, h2, h3]
  simp only [cfbBody, cfbAbs, hn, if_true, hi.enc]
  rw [List.drop_eq_nil_of_le (by simp [hi.buf, hx]), xorB_comm xs]

theorem memcpy_take (dst src : Bytes) (n : Nat) (h : src.length = n) : (memcpy dst src n).take n = src := by
  rw [memcpy, List.take_of_length_le (by omega : src.length ≤ n), List.take_append_of_le_length (by omega),
    List.take_of_length_le (by omega)]

theorem memcpy_length (dst src : Bytes) (n : Nat) (h : n ≤ src.length) (hd : n ≤ dst.length) :
    (memcpy dst src n).length = dst.length := by
  simp [memcpy]; omega

theorem cfbMain_refines (box : KBox) (on enc : Bool) (e : CipherCtx) (xs : Bytes)
    (h : CfbInv box on enc e) (h0 : e.num = 0) :
    CfbInv box on enc (cfbMain e xs).1 ∧
    runM (cfbStep box on enc) (cfbAbs e) xs = (cfbAbs (cfbMain e xs).1, (cfbMain e xs).2) := by
  obtain ⟨⟨h1, h1'⟩, h2, used, h3, h4⟩ :=
    whileBlocks_refines 8 (by decide) cfbBody (cfbStep box on enc) cfbAbs
      (fun e => CfbInv box on enc e ∧ e.num = 0) (fun s xs hs hx => cfbBody_refines box on enc s xs hs hx)
      e ⟨h, h0⟩ xs
  unfold cfbMain
  generalize whileBlocks 8 cfbBody e xs = r at *
  obtain ⟨e', out, rest⟩ := r
  simp only at h1 h1' h2 h3 h4 ⊢
  subst h3
  rw [runM_append, h4]
  by_cases hr : 0 < rest.length
  · obtain ⟨g1, g2, g3, hi, hn, hs⟩ := gost_crypt_mesh_refines box on enc e' h1 h1'
    have hne : rest ≠ [] := List.length_pos_iff.mp hr
    have hlen : (xorB rest (gost_crypt_mesh e').buf).length = rest.length := by simp [hi.buf]; omega
    have hr0 : rest.length ≠ 0 := by omega
    simp only [if_pos hr, xorB_take_left]
    constructor
    · refine ⟨hi.box, hi.on, hi.enc, hi.buf, ?_, h2⟩
      simp only
      split
      · rw [memcpy_length _ _ _ (by omega) (by rw [hi.stash]; omega), hi.stash]
      · rw [memcpy_length _ _ _ (by omega) (by rw [hi.stash]; omega), hi.stash]
    · rw [cfb_block _ _ _ _ _ (by simp [cfbAbs, h1']) hne (by omega)]
      simp only [cfbAbs] at g1 g2 g3
      simp only [cfbAbs, hr0, if_false, g1, g2, g3, hi.enc]
      congr 2
      cases enc
      · simp [memcpy_take]
      · simp [memcpy_take _ _ _ hlen]
  · have hnil : rest = [] := List.length_eq_zero_iff.mp (by omega)
    subst hnil
    simp only [List.length_nil, Nat.lt_irrefl, if_false, runM, List.append_nil]
    refine ⟨⟨h1.box, h1.on, h1.enc, h1.buf, h1.stash, by simp⟩, ?_⟩
    simp only [cfbAbs, h1', if_true]

theorem set_split (l : Bytes) (j : Nat) (y : Byte) (h : j < l.length) :
    l.set j y = l.take j ++ y :: l.drop (j + 1) := by
  rw [List.set_eq_take_append_cons_drop, if_pos h]

theorem cfbPart_eq (enc : Bool) (buf : Bytes) (hbuf : buf.length = 8) (j : Nat) (stash inp : Bytes)
    (hs : stash.length = 8) (hj : j ≤ 8) :
    cfbPart enc buf j stash inp =
      (j + min (8 - j) inp.length,
       stash.take j ++ (if enc then xorB (inp.take (8 - j)) (buf.drop j) else inp.take (8 - j)) ++
         stash.drop (j + min (8 - j) inp.length),
       xorB (inp.take (8 - j)) (buf.drop j), inp.drop (8 - j)) := by
  induction inp generalizing j stash with
  | nil => simp [cfbPart]
  | cons x xs ih =>
    rw [cfbPart]
    by_cases h : j < 8
    · rw [if_pos h]
      have hx : at_ buf j ^^^ x = x ^^^ buf[j]'(by omega) := by
        rw [show at_ buf j = buf[j]'(by omega) by
          simp only [at_]; rw [List.getD_eq_getElem?_getD, List.getElem?_eq_getElem (by omega)]; rfl,
          BitVec.xor_comm]
      obtain ⟨m, hm⟩ : ∃ m, 8 - j = m + 1 := ⟨8 - j - 1, by omega⟩
      have hm' : 8 - (j + 1) = m := by omega
      have hst : ∀ y : Byte, (stash.set j y).take (j + 1) = stash.take j ++ [y] := by
        intro y
        rw [set_split _ _ _ (by omega), List.take_append, List.take_of_length_le (by simp; omega)]
        simp [hs, show j + 1 - min j 8 = 1 by omega]
      have hst2 : ∀ (y : Byte) (k : Nat), j < k → (stash.set j y).drop k = stash.drop k := by
        intro y k hk
        exact List.drop_set_of_lt hk
      simp only
      rw [ih (j + 1) _ (by split <;> simp [hs]) (by omega)]
      simp only [hm', hm, List.drop_eq_getElem_cons (by omega : j < buf.length), List.take_succ_cons,
        List.drop_succ_cons, List.length_cons, xorB_cons, hx]
      have ha : j + 1 + min m xs.length = j + min (m + 1) (xs.length + 1) := by omega
      rw [ha]
      congr 2
      cases enc
      · simp only [Bool.false_eq_true, if_false]
        rw [hst, hst2 _ _ (by omega)]; simp
      · simp only [if_true]
        rw [hst, hst2 _ _ (by omega)]; simp
    · have : 8 - j = 0 := by omega
      rw [if_neg h, this]
      cases enc <;> simp

theorem do_cfb_refines (box : KBox) (on enc : Bool) (e : CipherCtx) (xs : Bytes) (h : CfbInv box on enc e) :
    CfbInv box on enc (gost_cipher_do_cfb e xs).1 ∧
    runM (cfbStep box on enc) (cfbAbs e) xs =
      (cfbAbs (gost_cipher_do_cfb e xs).1, (gost_cipher_do_cfb e xs).2) := by
  have henc := h.enc
  subst henc
  unfold gost_cipher_do_cfb
  by_cases h0 : e.num = 0
  · simp only [h0, ne_eq, not_true_eq_false, if_false]
    exact cfbMain_refines box on e.encrypting e xs h h0
  · have hlt := h.num
    have hb := h.buf
    have hst := h.stash
    have habs : cfbAbs e = ⟨gost_get_key e.cctx, e.stash.take e.num, e.buf.drop e.num, e.count⟩ := by simp [cfbAbs, h0]
    rw [if_pos h0, cfbPart_eq _ e.buf hb e.num _ xs hst (by omega)]
    simp only
    by_cases hlong : 8 - e.num ≤ xs.length
    · have hmin : min (8 - e.num) xs.length = 8 - e.num := by omega
      have h8 : e.num + (8 - e.num) = 8 := by omega
      have hlen : (xs.take (8 - e.num)).length = 8 - e.num := by simp; omega
      rw [hmin, h8, if_pos rfl]
      have hd : e.stash.drop 8 = [] := List.drop_eq_nil_of_le (by omega)
      rw [hd, List.append_nil]
      obtain ⟨hm1, hm2⟩ := cfbMain_refines box on e.encrypting
        { e with num := 0
                 stash := e.stash.take e.num ++
            (if e.encrypting then xorB (xs.take (8 - e.num)) (e.buf.drop e.num) else xs.take (8 - e.num))
                 iv := e.stash.take e.num ++
            (if e.encrypting then xorB (xs.take (8 - e.num)) (e.buf.drop e.num) else xs.take (8 - e.num)) }
        (xs.drop (8 - e.num))
        ⟨h.box, h.on, h.enc, h.buf, by split <;> simp <;> omega, by simp⟩ rfl
      refine ⟨hm1, ?_⟩
      conv => lhs; rw [← List.take_append_drop (8 - e.num) xs]
      rw [runM_append, habs, cfb_rest _ _ _ _ (xs.take (8 - e.num)) (by simp; omega)]
      have hdrop : (e.buf.drop e.num).drop (xs.take (8 - e.num)).length = [] := by
        apply List.drop_eq_nil_of_le; simp; omega
      rw [hdrop]
      simp only [cfbAbs, if_true] at hm2
      simp only [hm2, cfbAbs]
    · have hmin : min (8 - e.num) xs.length = xs.length := by omega
      have htake : xs.take (8 - e.num) = xs := List.take_of_length_le (by omega)
      rw [hmin, if_neg (by omega), htake]
      refine ⟨⟨h.box, h.on, h.enc, h.buf, ?_, by simp; omega⟩, ?_⟩
      · split <;> simp <;> omega
      · rw [habs, cfb_rest _ _ _ _ _ (by simp; omega)]
        have hl : (e.stash.take e.num ++
            (if e.encrypting = true then xorB xs (e.buf.drop e.num) else xs)).length =
            e.num + xs.length := by split <;> simp <;> omega
        have hreg : (e.stash.take e.num ++
            (if e.encrypting = true then xorB xs (e.buf.drop e.num) else xs) ++
            e.stash.drop (e.num + xs.length)).take (e.num + xs.length) = e.stash.take e.num ++
            (if e.encrypting = true then xorB xs (e.buf.drop e.num) else xs) := by
          rw [List.take_append_of_le_length (by omega), List.take_of_length_le (by omega)]
        have hne : e.num + xs.length ≠ 0 := by omega
        simp only [cfbAbs, hne, if_false, hreg, List.drop_drop]

/-- Closed form of the CFB machine started at block `j`. -/
theorem cfb_closed_enc (box : KBox) (on : Bool) (k r : Bytes) (j : Nat) (xs : Bytes) :
    (runM (cfbStep box on true) { k := k, reg := r, gam := [], n := cntCount j } xs).2 =
      (cfbEnc (E89 box) (mesh89 box) on k r j (blocks 8 xs)).flatten := by
  generalize hn : xs.length = n
  induction n using Nat.strongRecOn generalizing k r j xs with
  | ind n ih =>
    subst hn
    by_cases hx : xs = []
    · subst hx; simp [runM, blocks_nil, cfbEnc]
    · have hpos : 0 < xs.length := List.length_pos_iff.mpr hx
      have htake : xs.take 8 ≠ [] := by
        intro h; have := congrArg List.length h
        simp only [List.length_take, List.length_nil] at this; omega
      rw [blocks_cons 8 (by decide) xs hx, cfbEnc]
      conv => lhs; rw [← List.take_append_drop 8 xs]
      rw [runM_append, cfb_block _ _ _ _ _ rfl htake (by simp; omega)]
      have hkv : cfbNew box on { k := k, reg := r, gam := [], n := cntCount j } =
          let kv := if on = true ∧ j ≠ 0 ∧ (8 * j) % 1024 = 0 then meshed (E89 box) (mesh89 box) k r else (k, r)
          { k := kv.1, reg := [], gam := E89 box kv.1 kv.2, n := cntCount (j + 1) } := by
        unfold cfbNew
        simp only [cntCount_succ]
        by_cases hj : j = 0
        · subst hj; simp [cntCount]
        · have := cntCount_mesh j hj
          simp only [this, ne_eq, hj, not_false_eq_true, true_and]
      simp only at hkv
      generalize (if on = true ∧ j ≠ 0 ∧ (8 * j) % 1024 = 0 then meshed (E89 box) (mesh89 box) k r else (k, r)) = kv at *
      simp only [hkv, if_true, List.flatten_cons, xor_eq_xorB]
      congr 1
      by_cases hle : xs.length ≤ 8
      · rw [List.drop_eq_nil_of_le hle]; simp [runM, blocks_nil, cfbEnc]
      · have : ((E89 box kv.1 kv.2).drop (xs.take 8).length) = [] := by
          apply List.drop_eq_nil_of_le; simp; omega
        rw [this]
        exact ih _ (by simp; omega) _ _ _ _ rfl

theorem cfb_closed_dec (box : KBox) (on : Bool) (k r : Bytes) (j : Nat) (xs : Bytes) :
    (runM (cfbStep box on false) { k := k, reg := r, gam := [], n := cntCount j } xs).2 =
      (cfbDec (E89 box) (mesh89 box) on k r j (blocks 8 xs)).flatten := by
  generalize hn : xs.length = n
  induction n using Nat.strongRecOn generalizing k r j xs with
  | ind n ih =>
    subst hn
    by_cases hx : xs = []
    · subst hx; simp [runM, blocks_nil, cfbDec]
    · have hpos : 0 < xs.length := List.length_pos_iff.mpr hx
      have htake : xs.take 8 ≠ [] := by
        intro h; have := congrArg List.length h
        simp only [List.length_take, List.length_nil] at this; omega
      rw [blocks_cons 8 (by decide) xs hx, cfbDec]
      conv => lhs; rw [← List.take_append_drop 8 xs]
      rw [runM_append, cfb_block _ _ _ _ _ rfl htake (by simp; omega)]
      have hkv : cfbNew box on { k := k, reg := r, gam := [], n := cntCount j } =
          let kv := if on = true ∧ j ≠ 0 ∧ (8 * j) % 1024 = 0 then meshed (E89 box) (mesh89 box) k r else (k, r)
          { k := kv.1, reg := [], gam := E89 box kv.1 kv.2, n := cntCount (j + 1) } := by
        unfold cfbNew
        simp only [cntCount_succ]
        by_cases hj : j = 0
        · subst hj; simp [cntCount]
        · have := cntCount_mesh j hj
          simp only [this, ne_eq, hj, not_false_eq_true, true_and]
      simp only at hkv
      generalize (if on = true ∧ j ≠ 0 ∧ (8 * j) % 1024 = 0 then meshed (E89 box) (mesh89 box) k r else (k, r)) = kv at *
      simp only [hkv, Bool.false_eq_true, if_false, List.flatten_cons, xor_eq_xorB]
      congr 1
      by_cases hle : xs.length ≤ 8
      · rw [List.drop_eq_nil_of_le hle]; simp [runM, blocks_nil, cfbDec]
      · have : ((E89 box kv.1 kv.2).drop (xs.take 8).length) = [] := by
          apply List.drop_eq_nil_of_le; simp; omega
        rw [this]
        exact ih _ (by simp; omega) _ _ _ _ rfl

/-- Number of key meshings performed before or at the start of block number `j - 1`, i.e. after
`j` blocks have been started. -/
def meshCount (j : Nat) : Nat := (j - 1) / 128

theorem meshCount_succ (j : Nat) :
    meshCount (j + 1) = if j ≠ 0 ∧ (8 * j) % 1024 = 0 then meshCount j + 1 else meshCount j := by
  unfold meshCount
  split <;> omega

/-- Key and byte counter of the CFB machine after any input. -/
theorem cfb_state (box : KBox) (on enc : Bool) (K r : Bytes) (j : Nat) (xs : Bytes) :
    (runM (cfbStep box on enc)
      ⟨iter (mesh89 box) (if on then meshCount j else 0) K, r, [], cntCount j⟩ xs).1.k =
        iter (mesh89 box) (if on then meshCount (j + (xs.length + 7) / 8) else 0) K ∧
    (runM (cfbStep box on enc)
      ⟨iter (mesh89 box) (if on then meshCount j else 0) K, r, [], cntCount j⟩ xs).1.n =
        cntCount (j + (xs.length + 7) / 8) := by
  generalize hn : xs.length = n
  induction n using Nat.strongRecOn generalizing r j xs with
  | ind n ih =>
    subst hn
    by_cases hx : xs = []
    · subst hx
      simp [runM]
    · have hpos : 0 < xs.length := List.length_pos_iff.mpr hx
      have htake : xs.take 8 ≠ [] := by
        intro h; have := congrArg List.length h
        simp only [List.length_take, List.length_nil] at this; omega
      rw [show runM (cfbStep box on enc)
          ⟨iter (mesh89 box) (if on then meshCount j else 0) K, r, [], cntCount j⟩ xs =
          runM (cfbStep box on enc)
          ⟨iter (mesh89 box) (if on then meshCount j else 0) K, r, [], cntCount j⟩ (xs.take 8 ++ xs.drop 8) by
        rw [List.take_append_drop]]
      rw [runM_append, cfb_block _ _ _ _ _ rfl htake (by simp; omega)]
      have hk : (cfbNew box on ⟨iter (mesh89 box) (if on then meshCount j else 0) K, r, [], cntCount j⟩).k =
          iter (mesh89 box) (if on then meshCount (j + 1) else 0) K := by
        unfold cfbNew
        cases on
        · simp
        · by_cases hj : j = 0
          · subst hj; simp [cntCount, meshCount]
          · have hm := cntCount_mesh j hj
            rw [meshCount_succ]
            by_cases hd : 8 * j % 1024 = 0
            · simp only [hm.mpr hd, and_self, if_true, meshed, hd, ne_eq, hj, not_false_eq_true, iter_succ_out]
            · simp only [hm, hd, and_false, if_false, if_true]
      have hnn : (cfbNew box on ⟨iter (mesh89 box) (if on then meshCount j else 0) K, r, [], cntCount j⟩).n =
          cntCount (j + 1) := by
        unfold cfbNew; simp only [cntCount_succ]
      simp only [hk, hnn]
      by_cases hle : xs.length ≤ 8
      · rw [List.drop_eq_nil_of_le hle, show (xs.length + 7) / 8 = 1 by omega]
        simp [runM]
      · have hg : ∀ s : CfbSt, (cfbNew box on s).gam.drop (xs.take 8).length = [] := by
          intro s
          apply List.drop_eq_nil_of_le
          simp [cfbNew]; omega
        rw [hg]
        have := ih (xs.drop 8).length (by simp; omega)
          (if enc = true then xorB (xs.take 8) (cfbNew box on
            ⟨iter (mesh89 box) (if on then meshCount j else 0) K, r, [], cntCount j⟩).gam else xs.take 8)
          (j + 1) (xs.drop 8) rfl
        rw [show j + (xs.length + 7) / 8 = j + 1 + ((xs.drop 8).length + 7) / 8 by simp; omega]
        exact this

/-- Key and byte counter of the CNT generator after `j` blocks. -/
theorem cnt_iter_key (box : KBox) (on : Bool) (K iv : Bytes) (j : Nat) :
    (iter (fun i => (cntNext box on i).1) j (K, iv, 0)).1 =
      iter (mesh89 box) (if on then meshCount j else 0) K := by
  induction j with
  | zero => simp [iter, meshCount]
  | succ j ih =>
    have hcount := (cnt_iter box on K iv j).1
    rw [iter_succ_out]
    generalize iter (fun i => (cntNext box on i).1) j (K, iv, 0) = s at *
    obtain ⟨k, v, n⟩ := s
    simp only at ih hcount
    subst ih hcount
    cases on
    · simp [cntNext]
    · by_cases hj : j = 0
      · subst hj; simp [cntNext, cntCount, meshCount]
      · have hm := cntCount_mesh j hj
        rw [meshCount_succ]
        by_cases hd : 8 * j % 1024 = 0
        · simp only [cntNext, hm.mpr hd, and_self, if_true, meshed, hd, ne_eq, hj, not_false_eq_true, iter_succ_out]
        · simp only [cntNext, hm, hd, and_false, if_false, if_true]

end Gost
