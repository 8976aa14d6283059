import Verif.Lemmas.StreebogCore
import Verif.Lemmas.StreebogBE

/-! # Streebog: 512-bit addition and the incremental hash -/

namespace Gost
open Spec

/-! ## Addition -/

/-- What a step of the addition must do. -/
def StepOk (step : W64 → W64 → W64 → W64 × W64) : Prop :=
  ∀ CF l y : W64, CF.toNat ≤ 1 →
    (step CF l y).1.toNat ≤ 1 ∧
    (step CF l y).2.toNat + 2^64 * (step CF l y).1.toNat = l.toNat + y.toNat + CF.toNat

theorem addStep_ok : StepOk addStep := by
  intro CF l y hc
  have hl := l.isLt
  have hy := y.isLt
  have hs : (l + y + CF).toNat = (l.toNat + y.toNat + CF.toNat) % 2^64 := by
    rw [BitVec.toNat_add, BitVec.toNat_add]; omega
  simp only [addStep]
  by_cases h : l + y + CF = l
  · have h1 := congrArg BitVec.toNat h
    rw [if_neg (by simpa using h)]
    refine ⟨hc, ?_⟩
    rw [hs] at h1 ⊢
    have : CF.toNat = 0 ∨ CF.toNat = 1 := by omega
    rcases this with h0 | h0 <;> rw [h0] at h1 ⊢ <;> omega
  · rw [if_pos (by simpa using h)]
    have h1 : (l + y + CF).toNat ≠ l.toNat := fun e => h (BitVec.eq_of_toNat_eq e)
    by_cases h2 : l + y + CF < l
    · rw [if_pos h2]
      rw [BitVec.lt_def] at h2
      refine ⟨by decide, ?_⟩
      rw [hs] at h1 h2 ⊢
      rw [show (1 : W64).toNat = 1 from rfl]
      omega
    · rw [if_neg h2]
      rw [BitVec.lt_def] at h2
      refine ⟨by decide, ?_⟩
      rw [hs] at h1 h2 ⊢
      rw [show (0 : W64).toNat = 0 from rfl]
      omega

theorem adcStep_ok : StepOk adcStep := by
  intro CF l y hc
  have hl := l.isLt
  have hy := y.isLt
  simp only [adcStep]
  have hs : (l.setWidth 65 + y.setWidth 65 + CF.setWidth 65).toNat = l.toNat + y.toNat + CF.toNat := by
    rw [BitVec.toNat_add, BitVec.toNat_add, BitVec.toNat_setWidth, BitVec.toNat_setWidth, BitVec.toNat_setWidth]; omega
  generalize l.setWidth 65 + y.setWidth 65 + CF.setWidth 65 = s at hs
  have hb : s.getLsbD 64 = decide (2^64 ≤ s.toNat) := by
    rw [BitVec.getLsbD, Nat.testBit_eq_decide_div_mod_eq]
    congr 1
    apply propext
    omega
  rw [hb, BitVec.toNat_setWidth]
  by_cases h : 2^64 ≤ s.toNat
  · rw [if_pos (by simpa using h)]
    refine ⟨by decide, ?_⟩
    rw [show (1 : W64).toNat = 1 from rfl]; omega
  · rw [if_neg (by simpa using h)]
    refine ⟨by decide, ?_⟩
    rw [show (0 : W64).toNat = 0 from rfl]; omega

theorem ofQwords_cons (w : W64) (q : List W64) : ofQwords (w :: q) = stLE64 w ++ ofQwords q := by
  simp [ofQwords]

theorem leNat_stLE64 (w : W64) : leNat (stLE64 w) = w.toNat := by
  rw [stLE64_nat, leNat_leBytes]
  exact Nat.mod_eq_of_lt w.isLt

theorem leNat_ofQwords_cons (w : W64) (q : List W64) : leNat (ofQwords (w :: q)) = w.toNat + 2^64 * leNat (ofQwords q) := by
  rw [ofQwords_cons, leNat_append, leNat_stLE64, stLE64_length, show (256 : Nat) ^ 8 = 2 ^ 64 from by norm_num]

theorem addLoop_length (step : W64 → W64 → W64 → W64 × W64) (CF : W64) (xs ys : List W64) (h : xs.length = ys.length) :
    (addLoop step CF xs ys).length = xs.length := by
  induction xs generalizing CF ys with
  | nil => simp [addLoop]
  | cons x xs ih =>
    cases ys with
    | nil => simp at h
    | cons y ys => simp only [addLoop, List.length_cons]; rw [ih _ _ (by simpa using h)]

theorem addLoop_spec (step : W64 → W64 → W64 → W64 × W64) (hs : StepOk step) (xs ys : List W64) (h : xs.length = ys.length)
    (CF : W64) (hc : CF.toNat ≤ 1) :
    leNat (ofQwords (addLoop step CF xs ys)) % 2 ^ (64 * xs.length) =
      (leNat (ofQwords xs) + leNat (ofQwords ys) + CF.toNat) % 2 ^ (64 * xs.length) := by
  induction xs generalizing CF ys with
  | nil => simp [Nat.mod_one]
  | cons x xs ih =>
    cases ys with
    | nil => simp at h
    | cons y ys =>
      have hk := hs CF x y hc
      have hi := ih ys (by simpa using h) _ hk.1
      simp only [addLoop]
      rw [leNat_ofQwords_cons, leNat_ofQwords_cons, leNat_ofQwords_cons, List.length_cons,
        show 64 * (xs.length + 1) = 64 + 64 * xs.length by omega, Nat.pow_add]
      generalize leNat (ofQwords (addLoop step (step CF x y).1 xs ys)) = r at hi ⊢
      generalize leNat (ofQwords xs) = a at hi ⊢
      generalize leNat (ofQwords ys) = b at hi ⊢
      generalize hM : (2 : Nat) ^ (64 * xs.length) = M at hi ⊢
      have h1 : (2^64 * r) % (2^64 * M) = (2^64 * (a + b + (step CF x y).1.toNat)) % (2^64 * M) := by
        rw [Nat.mul_mod_mul_left, Nat.mul_mod_mul_left, hi]
      have h2 : x.toNat + 2^64 * a + (y.toNat + 2^64 * b) + CF.toNat =
          (step CF x y).2.toNat + 2^64 * (a + b + (step CF x y).1.toNat) := by
        have := hk.2
        rw [Nat.mul_add, Nat.mul_add]
        omega
      rw [h2, Nat.add_mod, h1, ← Nat.add_mod]

theorem add_eq (step : W64 → W64 → W64 → W64 × W64) (hs : StepOk step) (x y : Bytes) (hx : x.length = 64) (hy : y.length = 64) :
    ofQwords (addLoop step 0 ((List.range 8).map (qword x)) ((List.range 8).map (qword y))) =
      leBytes 64 (leNat x + leNat y) := by
  have h := addLoop_spec step hs ((List.range 8).map (qword x)) ((List.range 8).map (qword y)) (by simp) 0 (by decide)
  rw [ofQwords_qword x hx, ofQwords_qword y hy] at h
  have hl : (ofQwords (addLoop step 0 ((List.range 8).map (qword x)) ((List.range 8).map (qword y)))).length = 64 := by
    rw [ofQwords_length, addLoop_length _ _ _ _ (by simp)]; simp
  generalize ofQwords (addLoop step 0 ((List.range 8).map (qword x)) ((List.range 8).map (qword y))) = z at h hl
  rw [← leBytes_leNat 64 z hl, ← leBytes_mod, ← leBytes_mod 64 (leNat x + leNat y)]
  rw [List.length_map, List.length_range, show (2 : Nat) ^ (64 * 8) = 256 ^ 64 from by rw [show (256 : Nat) = 2 ^ 8 from rfl, ← Nat.pow_mul],
    show (0 : W64).toNat = 0 from rfl, Nat.add_zero] at h
  rw [h]

theorem add512_eq (x y : Bytes) (hx : x.length = 64) (hy : y.length = 64) : add512 x y = leBytes 64 (leNat x + leNat y) :=
  add_eq addStep addStep_ok x y hx hy

theorem add512Adc_eq (x y : Bytes) (hx : x.length = 64) (hy : y.length = 64) : add512Adc x y = leBytes 64 (leNat x + leNat y) :=
  add_eq adcStep adcStep_ok x y hx hy

theorem add512Bytes_spec (buf : Nat) (x y : Bytes) (h : x.length = y.length) :
    add512Bytes buf x y = leBytes x.length (leNat x + leNat y + buf / 256) := by
  induction x generalizing buf y with
  | nil => cases y <;> rfl
  | cons a x ih =>
    cases y with
    | nil => simp at h
    | cons b y =>
      simp only [add512Bytes, List.length_cons, leBytes, leNat]
      rw [ih _ _ (by simpa using h), Nat.shiftRight_eq_div_pow, show (255 : Nat) = 2^8 - 1 from rfl, Nat.and_two_pow_sub_one_eq_mod]
      congr 1
      · apply BitVec.eq_of_toNat_eq
        rw [BitVec.toNat_ofNat, BitVec.toNat_ofNat]; omega
      · congr 1
        omega

theorem build_add (b : SbBuild) (x y : Bytes) (hx : x.length = 64) (hy : y.length = 64) :
    b.add x y = leBytes 64 (leNat x + leNat y) := by
  unfold SbBuild.add
  split
  · rw [add512Bytes_spec 0 x y (by omega), hx]; rfl
  · split
    · exact add512Adc_eq x y hx hy
    · exact add512_eq x y hx hy

theorem build_g (b : SbBuild) (h N m : Bytes) (hh : h.length = 64) (hN : N.length = 64) (hm : m.length = 64) :
    b.g h N m = Streebog.g N h m := by
  unfold SbBuild.g
  split
  · rw [gRefBE_eq]; exact gRef_eq h N m hh hN hm
  · split
    · split
      · rw [gSse2_32_eq]; exact gSse2_eq h N m hh hN hm
      · exact gSse2_eq h N m hh hN hm
    · exact gRef_eq h N m hh hN hm

theorem build_buffer512 (b : SbBuild) : b.buffer512 = buffer512 := by
  unfold SbBuild.buffer512
  split
  · exact buffer512BE_eq
  · rfl

theorem build_buffer0 (b : SbBuild) : b.buffer0 = buffer0 := by
  unfold SbBuild.buffer0
  split
  · exact buffer0BE_eq
  · rfl

theorem build_sizeWord (b : SbBuild) (n : Nat) : b.sizeWord n = stLE64 (BitVec.ofNat 64 n <<< 3) := by
  unfold SbBuild.sizeWord
  split
  · rw [stBE64_eq, bswap_bswap]
  · rfl

theorem buffer512_eq : buffer512 = leBytes 64 512 := by decide +kernel

theorem vec_length (n : Nat) : (Streebog.vec n).length = 64 := leBytes_length 64 n

theorem leBytes_add (n a : Nat) (y : Nat) : leBytes n (leNat (leBytes n a) + y) = leBytes n (a + y) := by
  rw [leNat_leBytes, ← leBytes_mod, ← leBytes_mod n (a + y), Nat.mod_add_mod]

theorem buffer0_eq : buffer0 = Streebog.vec 0 := by decide +kernel

/-! ## The incremental hash -/

/-- The chaining value after whole blocks. -/
def sbFold (iv : Bytes) (bs : List Bytes) : Bytes :=
  bs.zipIdx.foldl (fun h p => Streebog.g (Streebog.vec (512 * p.2)) h p.1) iv

theorem sbFold_concat (iv : Bytes) (bs : List Bytes) (b : Bytes) :
    sbFold iv (bs ++ [b]) = Streebog.g (Streebog.vec (512 * bs.length)) (sbFold iv bs) b := by
  simp [sbFold, List.zipIdx_append, List.foldl_append]

/-- The state after the whole blocks `bs`. -/
structure SbCore (iv : Bytes) (bs : List Bytes) (c : SbCtx) : Prop where
  all : ∀ x ∈ bs, x.length = 64
  h : c.h = sbFold iv bs
  hlen : c.h.length = 64
  N : c.N = Streebog.vec (512 * bs.length)
  S : c.Sigma = Streebog.vec ((bs.map leNat).sum)
  buf : c.buffer.length = 64

theorem SbCore.buffer {iv : Bytes} {bs : List Bytes} {c : SbCtx} (h : SbCore iv bs c) (b : Bytes) (hb : b.length = 64) :
    SbCore iv bs { c with buffer := b } := ⟨h.all, h.h, h.hlen, h.N, h.S, hb⟩

theorem stage2_core (b : SbBuild) (iv : Bytes) (bs : List Bytes) (c : SbCtx) (h : SbCore iv bs c) :
    SbCore iv (bs ++ [c.buffer]) (stage2 b c) := by
  have hN : c.N.length = 64 := by rw [h.N]; exact vec_length _
  have hS : c.Sigma.length = 64 := by rw [h.S]; exact vec_length _
  have hg : (stage2 b c).h = Streebog.g c.N c.h c.buffer := build_g b _ _ _ h.hlen hN h.buf
  refine ⟨?_, ?_, ?_, ?_, ?_, h.buf⟩
  · intro x hx
    rw [List.mem_append, List.mem_singleton] at hx
    rcases hx with hx | rfl
    · exact h.all x hx
    · exact h.buf
  · rw [hg, sbFold_concat, h.N, h.h]
  · rw [hg]; exact g_length _ _ _ h.hlen hN h.buf
  · have : (stage2 b c).N = b.add c.N b.buffer512 := rfl
    rw [this, build_buffer512, build_add b _ _ hN (by rw [buffer512_eq]; simp), h.N, buffer512_eq, Streebog.vec, leBytes_add, leNat_leBytes]
    rw [List.length_append, List.length_singleton]
    rw [Streebog.vec, Nat.mod_eq_of_lt (by decide)]
    congr 1
  · have : (stage2 b c).Sigma = b.add c.Sigma c.buffer := rfl
    rw [this, build_add b _ _ hS h.buf, h.S, Streebog.vec, leBytes_add, List.map_append, List.sum_append]
    simp [Streebog.vec]

theorem stage2_size (b : SbBuild) (c : SbCtx) : (stage2 b c).digest_size = c.digest_size := rfl

/-- The context after absorbing the message `m`. -/
structure SbInv (iv m : Bytes) (c : SbCtx) (n : Nat) : Prop where
  ex : ∃ bs r, m = bs.flatten ++ r ∧ SbCore iv bs c ∧ r.length < 64 ∧ n = r.length ∧ c.buffer.take r.length = r

theorem sbRest_inv (b : SbBuild) (iv : Bytes) (data m : Bytes) (c : SbCtx) (n : Nat) (h : SbInv iv m c n) :
    SbInv iv (m ++ data) (sbRest b c n data).1 (sbRest b c n data).2 ∧
    (sbRest b c n data).1.digest_size = c.digest_size := by
  induction hd : data.length using Nat.strong_induction_on generalizing data m c n with
  | _ len ih =>
    obtain ⟨bs, r, hm, hc, hr, hn, hbuf⟩ := h.ex
    rw [sbRest]
    split
    · rename_i hcond
      have hpos := List.length_pos_iff.mpr hcond.1
      simp only
      generalize hk : (if 64 - n > data.length then data.length else 64 - n) = k
      have hk1 : k ≤ data.length := by rw [← hk]; split <;> omega
      have hk2 : n + k ≤ 64 := by rw [← hk]; split <;> omega
      have hk3 : 0 < k := by rw [← hk]; split <;> omega
      have hkm : k = data.length ∨ n + k = 64 := by rw [← hk]; split <;> omega
      have hnl : (c.buffer.take n ++ data.take k ++ c.buffer.drop (n + k)).length = 64 := by
        have := hc.buf; simp; omega
      have hb : c.buffer.take n = r := by rw [hn]; exact hbuf
      rw [hb] at hnl ⊢
      have hc2 := hc.buffer _ hnl
      by_cases h64 : n + k = 64
      · rw [if_pos h64]
        have hbe : r ++ data.take k ++ c.buffer.drop (n + k) = r ++ data.take k := by
          rw [List.drop_of_length_le (by rw [hc.buf, h64]), List.append_nil]
        rw [hbe] at hc2 ⊢
        have hs := stage2_core b iv bs _ hc2
        have hinv : SbInv iv (m ++ data.take k) (stage2 b { c with buffer := r ++ data.take k }) 0 := by
          refine ⟨_, [], ?_, hs, by simp, rfl, by simp⟩
          simp [hm]
        have := ih (data.drop k).length (by simp; omega) (data.drop k) (m ++ data.take k) _ 0 hinv rfl
        rw [List.append_assoc, List.take_append_drop] at this
        exact this
      · rw [if_neg h64]
        have hke : k = data.length := by omega
        have hinv : SbInv iv (m ++ data.take k) { c with buffer := r ++ data.take k ++ c.buffer.drop (n + k) } (n + k) := by
          refine ⟨bs, r ++ data.take k, ?_, hc2, ?_, ?_, ?_⟩
          · simp [hm]
          · simp; omega
          · simp; omega
          · exact List.take_left' rfl
        have := ih (data.drop k).length (by simp; omega) (data.drop k) (m ++ data.take k) _ (n + k) hinv rfl
        rw [List.append_assoc, List.take_append_drop] at this
        exact this
    · rename_i hcond
      have : data = [] := by
        by_contra hne
        exact hcond ⟨hne, by omega⟩
      subst this
      simpa using h

theorem full_inv (b : SbBuild) (iv : Bytes) (data m : Bytes) (c : SbCtx) (h : SbInv iv m c 0) :
    ∃ d, data = d ++ (whileBlocks 64 (sbFull b) c data).2.2 ∧
      SbInv iv (m ++ d) (whileBlocks 64 (sbFull b) c data).1 0 ∧
      (whileBlocks 64 (sbFull b) c data).1.digest_size = c.digest_size := by
  induction hd : data.length using Nat.strong_induction_on generalizing data m c with
  | _ len ih =>
    by_cases hl : 64 ≤ data.length
    · rw [whileBlocks_step 64 _ _ _ (by omega) hl]
      obtain ⟨bs, r, hm, hc, hr, hn, hbuf⟩ := h.ex
      have hr0 : r = [] := List.length_eq_zero_iff.mp hn.symm
      subst hr0
      have hinv : SbInv iv (m ++ data.take 64) (sbFull b c (data.take 64)).1 0 := by
        refine ⟨bs ++ [data.take 64], [], ?_, stage2_core b iv bs _ (hc.buffer (data.take 64) (by simp; omega)), by simp, rfl, by simp⟩
        simp [hm]
      obtain ⟨d, hd1, hd2, hd3⟩ := ih (data.drop 64).length (by simp; omega) (data.drop 64) (m ++ data.take 64) _ hinv rfl
      refine ⟨data.take 64 ++ d, ?_, ?_, hd3⟩
      · simp only
        rw [List.append_assoc, ← hd1, List.take_append_drop]
      · simpa using hd2
    · rw [whileBlocks_small 64 _ _ _ (by omega)]
      exact ⟨[], by simp, by simpa using h, rfl⟩

theorem hash_block_inv (b : SbBuild) (iv : Bytes) (data m : Bytes) (c : SbCtx) (h : SbInv iv m c c.bufsize) :
    SbInv iv (m ++ data) (gost2012_hash_block b c data) (gost2012_hash_block b c data).bufsize ∧
    (gost2012_hash_block b c data).digest_size = c.digest_size := by
  have key : ∀ (c' : SbCtx) (n : Nat) (m' d : Bytes), SbInv iv m' c' n → c'.digest_size = c.digest_size → m' ++ d = m ++ data →
      SbInv iv (m ++ data) { (sbRest b c' n d).1 with bufsize := (sbRest b c' n d).2 } (sbRest b c' n d).2 ∧
      (sbRest b c' n d).1.digest_size = c.digest_size := by
    intro c' n m' d hi hs he
    have := sbRest_inv b iv d m' c' n hi
    rw [he] at this
    refine ⟨?_, by rw [this.2, hs]⟩
    obtain ⟨bs, r, h1, h2, h3, h4, h5⟩ := this.1.ex
    exact ⟨bs, r, h1, ⟨h2.all, h2.h, h2.hlen, h2.N, h2.S, h2.buf⟩, h3, h4, h5⟩
  unfold gost2012_hash_block
  simp only
  by_cases h0 : c.bufsize = 0
  · rw [if_pos h0]
    rw [h0] at h ⊢
    obtain ⟨d, hd1, hd2, hd3⟩ := full_inv b iv data m c h
    exact key _ 0 (m ++ d) _ hd2 hd3 (by rw [List.append_assoc, ← hd1])
  · rw [if_neg h0]
    exact key c c.bufsize m data h rfl rfl

theorem absorb_inv (b : SbBuild) (iv : Bytes) (chunks : List Bytes) (m : Bytes) (c : SbCtx) (h : SbInv iv m c c.bufsize) :
    SbInv iv (m ++ chunks.flatten) (absorb (gost2012_hash_block b) c chunks) (absorb (gost2012_hash_block b) c chunks).bufsize ∧
    (absorb (gost2012_hash_block b) c chunks).digest_size = c.digest_size := by
  induction chunks generalizing m c with
  | nil => simpa [absorb] using h
  | cons x xs ih =>
    have h1 := hash_block_inv b iv x m c h
    have h2 := ih _ _ h1.1
    rw [absorb, List.flatten_cons, ← List.append_assoc]
    exact ⟨h2.1, h2.2.trans h1.2⟩

theorem whole_eq (bs : List Bytes) (r : Bytes) (h : ∀ x ∈ bs, x.length = 64) (hr : r.length < 64) :
    Streebog.whole (bs.flatten ++ r) = bs ∧ (bs.flatten ++ r).length / 64 = bs.length ∧
    Streebog.padded (bs.flatten ++ r) = r ++ [1] ++ List.replicate (63 - r.length) 0 := by
  have hl : bs.flatten.length = 64 * bs.length := by
    clear hr
    induction bs with
    | nil => rfl
    | cons b bs ih =>
      rw [List.flatten_cons, List.length_append, ih (fun x hx => h x (List.mem_cons_of_mem _ hx)), h b List.mem_cons_self,
        List.length_cons]; omega
  have h1 : (bs.flatten ++ r).length / 64 = bs.length := by rw [List.length_append, hl]; omega
  refine ⟨?_, h1, ?_⟩
  · rw [Streebog.whole, h1, ← hl, List.take_left, blocks_of_flatten 64 (by omega) bs h]
  · rw [Streebog.padded, h1, ← hl, List.drop_left]

theorem pad_buffer (c : SbCtx) (r : Bytes) (hr : r.length < 64) (hn : c.bufsize = r.length) (hb : c.buffer.take r.length = r) :
    (sbPad c).buffer = r ++ [1] ++ List.replicate (63 - r.length) 0 := by
  have : (sbPad c).buffer = (c.buffer.take c.bufsize ++ zeros (64 - c.bufsize)).set c.bufsize 1 := rfl
  rw [this, hn, hb, List.set_append_right _ _ (by omega), Nat.sub_self, zeros,
    show 64 - r.length = (63 - r.length) + 1 by omega, List.replicate_succ, List.set_cons_zero]
  simp

theorem finish_eq (b : SbBuild) (iv m : Bytes) (c : SbCtx) (h : SbInv iv m c c.bufsize) :
    (gost2012_finish_hash b c).2 =
      if c.digest_size = 256 then (Streebog.hash iv m).drop 32 else Streebog.hash iv m := by
  obtain ⟨bs, r, hm, hc, hr, hn, hbuf⟩ := h.ex
  obtain ⟨hw, hq, hp⟩ := whole_eq bs r hc.all hr
  have hN : c.N.length = 64 := by rw [hc.N]; exact vec_length _
  have hS : c.Sigma.length = 64 := by rw [hc.S]; exact vec_length _
  have hpb := pad_buffer c r hr hn hbuf
  rw [← hp] at hpb
  have hpl : (Streebog.padded (bs.flatten ++ r)).length = 64 := by rw [hp]; simp; omega
  rw [← hm] at hw hq hp hpb hpl
  -- the steps of stage 3
  have h1 : b.g c.h c.N (sbPad c).buffer = Streebog.g c.N c.h (Streebog.padded m) := by
    rw [hpb]; exact build_g b _ _ _ hc.hlen hN hpl
  have h1l := g_length c.h c.N (Streebog.padded m) hc.hlen hN hpl
  have h2 : b.add c.Sigma (sbPad c).buffer = Streebog.vec (((Streebog.whole m ++ [Streebog.padded m]).map leNat).sum) := by
    rw [hpb, build_add b _ _ hS hpl, hc.S, Streebog.vec, leBytes_add, hw]
    simp [Streebog.vec]
  have hbits : stLE64 (BitVec.ofNat 64 c.bufsize <<< 3) ++ zeros 56 = leBytes 64 (8 * r.length) := by
    rw [hn]
    clear * - hr
    generalize r.length = n at hr
    interval_cases n <;> decide +kernel
  have hmlen : m.length = 64 * bs.length + r.length := by
    rw [← hq]
    have : m.length % 64 = r.length := by
      have hfl : m.length = bs.flatten.length + r.length := by rw [hm]; simp
      have hq' := hq
      have : bs.flatten.length = 64 * bs.length := by
        have hall := hc.all
        clear * - hall
        induction bs with
        | nil => rfl
        | cons b bs ih =>
          rw [List.flatten_cons, List.length_append, ih (fun x hx => hall x (List.mem_cons_of_mem _ hx)),
            hall b List.mem_cons_self, List.length_cons]; omega
      omega
    omega
  have h3 : b.add c.N (leBytes 64 (8 * r.length)) = Streebog.vec (8 * m.length) := by
    rw [build_add b _ _ hN (by simp), hc.N, Streebog.vec, leBytes_add, leNat_leBytes, Streebog.vec,
      Nat.mod_eq_of_lt (lt_of_lt_of_le (show 8 * r.length < 512 by omega) (by decide)), hmlen]
    congr 1; omega
  have h4 : b.g (Streebog.g c.N c.h (Streebog.padded m)) buffer0 (Streebog.vec (8 * m.length)) =
      Streebog.g (Streebog.vec 0) (Streebog.g c.N c.h (Streebog.padded m)) (Streebog.vec (8 * m.length)) := by
    rw [buffer0_eq]; exact build_g b _ _ _ h1l (vec_length _) (vec_length _)
  have h4l := g_length _ (Streebog.vec 0) (Streebog.vec (8 * m.length)) h1l (vec_length _) (vec_length _)
  have hh : (stage3 b c).h = Streebog.hash iv m := by
    have : (stage3 b c).h = b.g (b.g (b.g c.h c.N (sbPad c).buffer) b.buffer0
        (b.add c.N (b.sizeWord c.bufsize ++ zeros 56))) b.buffer0 (b.add c.Sigma (sbPad c).buffer) := rfl
    rw [this, build_buffer0, build_sizeWord, h1, h2, hbits, h3, h4, buffer0_eq, build_g b _ _ _ h4l (vec_length _) (vec_length _), hc.N, hc.h, ← hw]
    unfold Streebog.hash
    simp only
    rw [hq, hw]
    rfl
  have hl : (Streebog.hash iv m).length = 64 := by
    rw [← hh]
    have : (stage3 b c).h = b.g (b.g (b.g c.h c.N (sbPad c).buffer) b.buffer0
        (b.add c.N (b.sizeWord c.bufsize ++ zeros 56))) b.buffer0 (b.add c.Sigma (sbPad c).buffer) := rfl
    rw [this, build_buffer0, build_sizeWord, h1, h2, hbits, h3, h4, buffer0_eq, build_g b _ _ _ h4l (vec_length _) (vec_length _)]
    exact g_length _ _ _ h4l (vec_length _) (vec_length _)
  have : (gost2012_finish_hash b c).2 =
      if c.digest_size = 256 then ((stage3 b c).h.drop 32).take 32 else (stage3 b c).h.take 64 := rfl
  rw [this, hh, List.take_of_length_le (l := (Streebog.hash iv m)) (by omega),
    List.take_of_length_le (by simp; omega)]

theorem init_inv (ds : Nat) :
    SbInv (if ds = 256 then List.replicate 64 1 else List.replicate 64 0) [] (init_gost2012_hash_ctx ds) 0 := by
  refine ⟨[], [], rfl, ⟨by simp, ?_, ?_, ?_, ?_, ?_⟩, by simp, rfl, by simp⟩
  · rfl
  · simp only [init_gost2012_hash_ctx]; split <;> simp
  · simp only [init_gost2012_hash_ctx]; decide +kernel
  · simp only [init_gost2012_hash_ctx]; decide +kernel
  · simp [init_gost2012_hash_ctx]

end Gost
