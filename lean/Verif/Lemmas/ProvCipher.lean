import Verif.Model.ProvCipher
import Verif.Lemmas.BlockModes
import Verif.Spec.ProvCipher
import Mathlib.Tactic.ByContra

/-! # The buffering of EVP: any split of the data into calls gives the whole blocks of all the data -/

namespace Gost
open Spec

variable {σ : Type}

/-- What the block buffering relies on. -/
structure Blockwise (M : EvpMeth σ) (P : σ → Prop) : Prop where
  gt : 1 < M.blockSize
  le : M.blockSize ≤ 16
  nil : ∀ s, M.doCipher s [] = (s, [])
  append : ∀ s x y, M.blockSize ∣ x.length → M.blockSize ∣ y.length →
    M.doCipher s (x ++ y) = ((M.doCipher (M.doCipher s x).1 y).1, (M.doCipher s x).2 ++ (M.doCipher (M.doCipher s x).1 y).2)
  keep : ∀ s x, P s → M.blockSize ∣ x.length → P (M.doCipher s x).1
  length : ∀ s x, P s → M.blockSize ∣ x.length → (M.doCipher s x).2.length = x.length

/-- The length of the whole blocks. -/
def whole (b n : Nat) : Nat := n - n % b

theorem whole_dvd (b n : Nat) : b ∣ whole b n := ⟨n / b, by have := Nat.div_add_mod n b; unfold whole; omega⟩

theorem whole_le (b n : Nat) : whole b n ≤ n := Nat.sub_le _ _

theorem whole_of_dvd {b n : Nat} (h : b ∣ n) : whole b n = n := by unfold whole; rw [Nat.mod_eq_zero_of_dvd h]; rfl

theorem whole_lt {b n : Nat} (h : n < b) : whole b n = 0 := by unfold whole; rw [Nat.mod_eq_of_lt h]; omega

theorem whole_add {b : Nat} {m : Nat} (h : b ∣ m) (n : Nat) : whole b (m + n) = m + whole b n := by
  obtain ⟨k, rfl⟩ := h
  unfold whole
  rw [Nat.mul_add_mod]
  have := Nat.mod_le n b
  omega

theorem sub_whole_lt {b : Nat} (hb : 0 < b) (n : Nat) : n - whole b n < b := by
  have := Nat.mod_lt n hb
  have := Nat.mod_le n b
  unfold whole; omega

theorem sub_whole (b n : Nat) : n - whole b n = n % b := by
  have := Nat.mod_le n b
  unfold whole; omega

theorem drop_app (a q : Bytes) (n : Nat) : (a ++ q).drop (a.length + n) = q.drop n := by
  induction a with
  | nil => simp
  | cons x a ih => rw [List.cons_append, List.length_cons, Nat.add_right_comm, List.drop_succ_cons, ih]

theorem take_app (a q : Bytes) (n : Nat) : (a ++ q).take (a.length + n) = a ++ q.take n := by
  induction a with
  | nil => simp
  | cons x a ih => rw [List.cons_append, List.length_cons, Nat.add_right_comm, List.take_succ_cons, ih, List.cons_append]

/-- One call. -/
theorem core_eq {M : EvpMeth σ} {P : σ → Prop} (B : Blockwise M P) (s : σ) (buf inp : Bytes) (hbuf : buf.length < M.blockSize)
    (hin : inp.length + 16 ≤ intMax) :
    evpEncryptDecryptUpdate M s buf inp =
      some ((M.doCipher s ((buf ++ inp).take (whole M.blockSize (buf ++ inp).length))).1,
        (buf ++ inp).drop (whole M.blockSize (buf ++ inp).length),
        (M.doCipher s ((buf ++ inp).take (whole M.blockSize (buf ++ inp).length))).2) := by
  have hb : 0 < M.blockSize := Nat.lt_trans Nat.zero_lt_one B.gt
  unfold evpEncryptDecryptUpdate
  by_cases h0 : buf.length = 0
  · have hnil : buf = [] := List.length_eq_zero_iff.mp h0
    subst hnil
    by_cases h1 : inp.length % M.blockSize = 0
    · rw [if_pos ⟨rfl, h1⟩]
      simp only [List.nil_append]
      rw [whole_of_dvd (Nat.dvd_of_mod_eq_zero h1), List.take_length, List.drop_length]
    · rw [if_neg (by simp [h1]), if_neg (by simp), if_neg (by simp)]
      simp only [List.length_nil, ne_eq, not_true_eq_false, if_false, List.nil_append]
      have hw : inp.length - inp.length % M.blockSize = whole M.blockSize inp.length := rfl
      rw [hw]
      by_cases h2 : 0 < whole M.blockSize inp.length
      · rw [if_pos h2]
      · rw [if_neg h2]
        have : whole M.blockSize inp.length = 0 := by omega
        rw [this, List.take_zero, B.nil]
  · rw [if_neg (by simp [h0])]
    by_cases h1 : inp.length < M.blockSize - buf.length
    · rw [if_pos ⟨h0, h1⟩]
      have hlt : (buf ++ inp).length < M.blockSize := by simp; omega
      rw [whole_lt hlt, List.take_zero, B.nil]
      rfl
    · have hle := B.le
      have h2 := Nat.mod_le (inp.length - (M.blockSize - buf.length)) M.blockSize
      rw [if_neg (by simp [h0]; omega), if_neg (by simp only [not_and]; intro _; omega)]
      simp only [ne_eq, h0, not_false_eq_true, if_true]
      generalize hj : M.blockSize - buf.length = j at *
      have hrl : (inp.drop j).length = inp.length - j := by simp
      have hfl : (buf ++ inp.take j).length = M.blockSize := by simp; omega
      have hcat : buf ++ inp = (buf ++ inp.take j) ++ inp.drop j := by
        rw [List.append_assoc, List.take_append_drop]
      have hwl : whole M.blockSize (buf ++ inp).length = M.blockSize + whole M.blockSize (inp.drop j).length := by
        rw [hcat, List.length_append, hfl, whole_add (Nat.dvd_refl _)]
      have htake : (buf ++ inp).take (whole M.blockSize (buf ++ inp).length) =
          (buf ++ inp.take j) ++ (inp.drop j).take (whole M.blockSize (inp.drop j).length) := by
        rw [hwl, hcat, List.take_append, hfl, List.take_of_length_le (by omega), Nat.add_sub_cancel_left]
      have hdrop : (buf ++ inp).drop (whole M.blockSize (buf ++ inp).length) =
          (inp.drop j).drop (whole M.blockSize (inp.drop j).length) := by
        rw [hwl, hcat, List.drop_append, hfl, List.drop_of_length_le (by omega), List.nil_append, Nat.add_sub_cancel_left]
      rw [htake, hdrop]
      have hw : (inp.drop j).length - (inp.drop j).length % M.blockSize = whole M.blockSize (inp.drop j).length := rfl
      rw [hw]
      have hd2 : M.blockSize ∣ ((inp.drop j).take (whole M.blockSize (inp.drop j).length)).length := by
        rw [List.length_take, Nat.min_eq_left (whole_le _ _)]
        exact whole_dvd _ _
      rw [B.append s _ _ ⟨1, by rw [hfl, Nat.mul_one]⟩ hd2]
      by_cases h3 : 0 < whole M.blockSize (inp.drop j).length
      · rw [if_pos h3]
      · rw [if_neg h3]
        have h4 : whole M.blockSize (inp.drop j).length = 0 := by omega
        rw [h4, List.take_zero, B.nil]

theorem intOfSize_small {n : Nat} (h : n < 2^31) : intOfSize n = (n : Int) := by
  unfold intOfSize
  have h1 : n % 2^32 = n := Nat.mod_eq_of_lt (Nat.lt_of_lt_of_le h (by decide))
  rw [h1, if_pos h]

/-- The context after all data `t` since the cipher state was `s₀`, without padding or for encryption. -/
structure PlainRel (M : EvpMeth σ) (s₀ : σ) (t : Bytes) (c : EvpCtx σ) (out : Bytes) : Prop where
  data : c.data = some (M.doCipher s₀ (t.take (whole M.blockSize t.length))).1
  buf : c.buf = t.drop (whole M.blockSize t.length)
  out : out = (M.doCipher s₀ (t.take (whole M.blockSize t.length))).2

/-- The whole blocks of the data so far and the data of one more call. -/
theorem whole_step {M : EvpMeth σ} {P : σ → Prop} (B : Blockwise M P) (s₀ : σ) (t x : Bytes) :
    let s := (M.doCipher s₀ (t.take (whole M.blockSize t.length))).1
    let u := t.drop (whole M.blockSize t.length) ++ x
    (M.doCipher s (u.take (whole M.blockSize u.length))).1 =
        (M.doCipher s₀ ((t ++ x).take (whole M.blockSize (t ++ x).length))).1 ∧
      u.drop (whole M.blockSize u.length) = (t ++ x).drop (whole M.blockSize (t ++ x).length) ∧
      (M.doCipher s₀ (t.take (whole M.blockSize t.length))).2 ++ (M.doCipher s (u.take (whole M.blockSize u.length))).2 =
        (M.doCipher s₀ ((t ++ x).take (whole M.blockSize (t ++ x).length))).2 := by
  intro s u
  have hA : (t.take (whole M.blockSize t.length)).length = whole M.blockSize t.length := by
    rw [List.length_take, Nat.min_eq_left (whole_le _ _)]
  have hcat : t ++ x = t.take (whole M.blockSize t.length) ++ u := by
    show _ = _ ++ (_ ++ _)
    rw [← List.append_assoc, List.take_append_drop]
  have hwl : whole M.blockSize (t ++ x).length = whole M.blockSize t.length + whole M.blockSize u.length := by
    rw [hcat, List.length_append, hA, whole_add (whole_dvd _ _)]
  have htake : (t ++ x).take (whole M.blockSize (t ++ x).length) =
      t.take (whole M.blockSize t.length) ++ u.take (whole M.blockSize u.length) := by
    rw [hwl, hcat, List.take_append, hA, List.take_of_length_le (by omega), Nat.add_sub_cancel_left]
  have hdrop : (t ++ x).drop (whole M.blockSize (t ++ x).length) = u.drop (whole M.blockSize u.length) := by
    rw [hwl, hcat, List.drop_append, hA, List.drop_of_length_le (by omega), List.nil_append, Nat.add_sub_cancel_left]
  have hd1 : M.blockSize ∣ (t.take (whole M.blockSize t.length)).length := by rw [hA]; exact whole_dvd _ _
  have hd2 : M.blockSize ∣ (u.take (whole M.blockSize u.length)).length := by
    rw [List.length_take, Nat.min_eq_left (whole_le _ _)]; exact whole_dvd _ _
  rw [htake, hdrop, B.append s₀ _ _ hd1 hd2]
  exact ⟨rfl, rfl, rfl⟩

theorem buf_lt {M : EvpMeth σ} {P : σ → Prop} (B : Blockwise M P) (t : Bytes) :
    (t.drop (whole M.blockSize t.length)).length < M.blockSize := by
  rw [List.length_drop]
  exact sub_whole_lt (Nat.lt_trans Nat.zero_lt_one B.gt) _

theorem plain_step {M : EvpMeth σ} {P : σ → Prop} (B : Blockwise M P) {s₀ : σ} {t : Bytes} {c : EvpCtx σ} {out : Bytes}
    (R : PlainRel M s₀ t c out) (hm : c.encrypt = true ∨ c.noPadding = true) (x : Bytes) (hx : x.length + 16 ≤ intMax) :
    ∃ c' o, prov_cipher_update M c x = (c', o, true) ∧ PlainRel M s₀ (t ++ x) c' (out ++ o) ∧ c'.encrypt = c.encrypt ∧
      c'.noPadding = c.noPadding := by
  have hint : intOfSize x.length = (x.length : Int) := intOfSize_small (by unfold intMax at hx; omega)
  unfold prov_cipher_update evpCipherUpdate
  rw [R.data, hint]
  dsimp only
  by_cases h0 : x.length = 0
  · have hnil : x = [] := List.length_eq_zero_iff.mp h0
    subst hnil
    exact ⟨c, [], rfl, by simpa using R, rfl, rfl⟩
  · rw [if_neg (by omega)]
    have hxt : x.take (x.length : Int).toNat = x := by simp
    rw [hxt]
    have key : ∀ s, s = (M.doCipher s₀ (t.take (whole M.blockSize t.length))).1 →
        ∃ c' o, evpEncryptUpdate M c s x = (c', o, true) ∧ PlainRel M s₀ (t ++ x) c' (out ++ o) ∧ c'.encrypt = c.encrypt ∧
          c'.noPadding = c.noPadding := by
      intro s hs
      unfold evpEncryptUpdate
      rw [R.buf, core_eq B s _ x (buf_lt B t) hx]
      dsimp only
      obtain ⟨h1, h2, h3⟩ := whole_step B s₀ t x
      rw [← hs] at h1 h3
      exact ⟨_, _, rfl, ⟨by rw [← h1], h2, by rw [R.out, ← h3]⟩, rfl, rfl⟩
    by_cases he : c.encrypt = true
    · rw [if_pos he]; exact key _ rfl
    · rw [if_neg he]
      have hn : c.noPadding = true := by rcases hm with h | h; exact absurd h he; exact h
      unfold evpDecryptUpdate
      rw [if_pos hn]
      exact key _ rfl

/-- The context after all data `t` since the cipher state was `s₀`, for decryption with padding. -/
structure HeldRel (M : EvpMeth σ) (s₀ : σ) (t : Bytes) (c : EvpCtx σ) (out : Bytes) : Prop where
  data : c.data = some (M.doCipher s₀ (t.take (whole M.blockSize t.length))).1
  buf : c.buf = t.drop (whole M.blockSize t.length)
  used : c.finalUsed = true ↔ t ≠ [] ∧ M.blockSize ∣ t.length
  final : c.finalUsed = true →
    c.final = (M.doCipher s₀ t).2.drop ((M.doCipher s₀ t).2.length - M.blockSize) ∧
      out = (M.doCipher s₀ t).2.take ((M.doCipher s₀ t).2.length - M.blockSize)
  out : c.finalUsed = false → out = (M.doCipher s₀ (t.take (whole M.blockSize t.length))).2

theorem held_step {M : EvpMeth σ} {P : σ → Prop} (B : Blockwise M P) {s₀ : σ} (hs : P s₀) {t : Bytes} {c : EvpCtx σ} {out : Bytes}
    (R : HeldRel M s₀ t c out) (he : c.encrypt = false) (hn : c.noPadding = false) (x : Bytes) (hx : x.length + 16 ≤ intMax) :
    ∃ c' o, prov_cipher_update M c x = (c', o, true) ∧ HeldRel M s₀ (t ++ x) c' (out ++ o) ∧ c'.encrypt = false ∧
      c'.noPadding = false := by
  have hb : 0 < M.blockSize := Nat.lt_trans Nat.zero_lt_one B.gt
  have hint : intOfSize x.length = (x.length : Int) := intOfSize_small (by unfold intMax at hx; omega)
  unfold prov_cipher_update evpCipherUpdate
  rw [R.data, hint]
  dsimp only
  by_cases h0 : x.length = 0
  · have hnil : x = [] := List.length_eq_zero_iff.mp h0
    subst hnil
    exact ⟨c, [], rfl, by simpa using R, he, hn⟩
  have hxne : x ≠ [] := fun h => h0 (by rw [h]; rfl)
  rw [if_neg (by omega)]
  have hxt : x.take (x.length : Int).toNat = x := by simp
  rw [hxt, if_neg (by rw [he]; simp)]
  unfold evpDecryptUpdate
  have hle := B.le
  have hmod := Nat.mod_le x.length M.blockSize
  rw [if_neg (by rw [hn]; simp), if_neg (by simp only [not_and]; intro _; omega), R.buf,
    core_eq B _ _ x (buf_lt B t) hx]
  dsimp only
  obtain ⟨h1, h2, h3⟩ := whole_step B s₀ t x
  rw [h2]
  generalize hQ : (M.doCipher (M.doCipher s₀ (t.take (whole M.blockSize t.length))).1
    ((t.drop (whole M.blockSize t.length) ++ x).take (whole M.blockSize (t.drop (whole M.blockSize t.length) ++ x).length))).2 = Q at h3 ⊢
  -- the part held back and the output so far are the decryption of all whole blocks so far
  have hheld : out ++ (if c.finalUsed = true then c.final else []) = (M.doCipher s₀ (t.take (whole M.blockSize t.length))).2 := by
    by_cases hu : c.finalUsed = true
    · rw [if_pos hu, (R.final hu).1, (R.final hu).2, List.take_append_drop,
        whole_of_dvd ((R.used.mp hu).2), List.take_length]
    · rw [if_neg hu, List.append_nil]
      exact R.out (by simpa using hu)
  have hdd : ((t ++ x).drop (whole M.blockSize (t ++ x).length)).length = (t ++ x).length % M.blockSize := by
    rw [List.length_drop, sub_whole]
  by_cases hz : M.blockSize ∣ (t ++ x).length
  · have hzm : (t ++ x).length % M.blockSize = 0 := Nat.mod_eq_zero_of_dvd hz
    have hbufnil : (t ++ x).drop (whole M.blockSize (t ++ x).length) = [] := List.length_eq_zero_iff.mp (by rw [hdd, hzm])
    have hall : (t ++ x).take (whole M.blockSize (t ++ x).length) = t ++ x := by rw [whole_of_dvd hz, List.take_length]
    rw [hall] at h3 h1
    -- at least one block came out of this call
    have hQlen : M.blockSize ≤ Q.length := by
      have hl1 : (M.doCipher s₀ (t ++ x)).2.length = (t ++ x).length := B.length s₀ _ hs hz
      have hl2 : (M.doCipher s₀ (t.take (whole M.blockSize t.length))).2.length = whole M.blockSize t.length := by
        rw [B.length s₀ _ hs (by rw [List.length_take, Nat.min_eq_left (whole_le _ _)]; exact whole_dvd _ _), List.length_take,
          Nat.min_eq_left (whole_le _ _)]
      have hl3 := congrArg List.length h3
      rw [List.length_append, hl1, hl2, List.length_append] at hl3
      have hd : M.blockSize ∣ Q.length := by
        have : Q.length = (t ++ x).length - whole M.blockSize t.length := by rw [List.length_append]; omega
        rw [this]
        exact Nat.dvd_sub hz (whole_dvd _ _)
      have hwle := whole_le M.blockSize t.length
      exact Nat.le_of_dvd (by omega) hd
    have hlen3 : (M.doCipher s₀ (t ++ x)).2.length - M.blockSize =
        (M.doCipher s₀ (t.take (whole M.blockSize t.length))).2.length + (Q.length - M.blockSize) := by
      rw [← h3, List.length_append]; omega
    rw [if_pos ⟨B.gt, by rw [hbufnil]; rfl⟩]
    refine ⟨_, _, rfl, ⟨?_, rfl, ?_, fun _ => ⟨?_, ?_⟩, fun h => ?_⟩, he, hn⟩
    · rw [hall, ← h1]
    · simp only [true_iff]
      exact ⟨by simp [hxne], hz⟩
    · show Q.drop (Q.length - M.blockSize) = _
      rw [hlen3, ← h3, drop_app]
    · rw [hlen3, ← List.append_assoc, hheld, ← h3, take_app]
    · cases h
  · have hzm : (t ++ x).length % M.blockSize ≠ 0 := fun h => hz (Nat.dvd_of_mod_eq_zero h)
    rw [if_neg (by rw [hdd]; omega)]
    refine ⟨_, _, rfl, ⟨?_, rfl, ?_, fun h => ?_, fun _ => ?_⟩, he, hn⟩
    · rw [← h1]
    · exact ⟨fun h => (by cases h), fun h => absurd h.2 hz⟩
    · cases h
    · rw [← List.append_assoc, hheld, h3]

/-- For block size 1 every call goes to the cipher. -/
theorem stream_step {M : EvpMeth σ} (h1 : M.blockSize = 1) {c : EvpCtx σ} {s : σ} (hd : c.data = some s) (hb : c.buf = [])
    (hf : c.finalUsed = false) (x : Bytes) (hx : x.length + 16 ≤ intMax) (hne : x ≠ []) :
    prov_cipher_update M c x = ({ c with data := some (M.doCipher s x).1, buf := [], finalUsed := false }, (M.doCipher s x).2, true) := by
  have hint : intOfSize x.length = (x.length : Int) := intOfSize_small (by unfold intMax at hx; omega)
  have h0 : x.length ≠ 0 := fun h => hne (List.length_eq_zero_iff.mp h)
  have hcore : evpEncryptDecryptUpdate M s [] x = some ((M.doCipher s x).1, [], (M.doCipher s x).2) := by
    unfold evpEncryptDecryptUpdate
    rw [if_pos ⟨rfl, by rw [h1]; exact Nat.mod_one _⟩]
  unfold prov_cipher_update evpCipherUpdate
  rw [hd, hint]
  dsimp only
  rw [if_neg (by omega)]
  have hxt : x.take (x.length : Int).toNat = x := by simp
  have he : evpEncryptUpdate M c s x =
      ({ c with data := some (M.doCipher s x).1, buf := [], finalUsed := false }, (M.doCipher s x).2, true) := by
    unfold evpEncryptUpdate
    rw [hb, hcore]
    dsimp only
    rw [← hf]
  rw [hxt]
  by_cases hen : c.encrypt = true
  · rw [if_pos hen, he]
  · rw [if_neg hen]
    unfold evpDecryptUpdate
    by_cases hn : c.noPadding = true
    · rw [if_pos hn, he]
    · rw [if_neg hn, if_neg (by rw [hf]; simp), hb, hcore]
      dsimp only
      rw [if_neg (by rw [h1]; simp), hf]
      simp

/-! ## The calls of one message -/

/-- Updates with the given pieces: all outputs; `none`: a call failed. -/
def pcFeed (M : EvpMeth σ) (c : EvpCtx σ) : List Bytes → Option (EvpCtx σ × Bytes)
  | [] => some (c, [])
  | x :: xs =>
    let r := prov_cipher_update M c x
    if r.2.2 then (pcFeed M r.1 xs).map fun t => (t.1, r.2.1 ++ t.2) else none

/-- Updates with the given pieces, then final: the whole output; `none`: a call failed. -/
def pcMessage (M : EvpMeth σ) (c : EvpCtx σ) (chunks : List Bytes) : Option Bytes :=
  match pcFeed M c chunks with
  | none => none
  | some t =>
    let f := prov_cipher_final M t.1
    if f.2.2 then some (t.2 ++ f.2.1) else none

theorem plain_feed {M : EvpMeth σ} {P : σ → Prop} (B : Blockwise M P) {s₀ : σ} (chunks : List Bytes)
    (hx : ∀ x ∈ chunks, x.length + 16 ≤ intMax) : ∀ (t : Bytes) (c : EvpCtx σ) (out : Bytes), PlainRel M s₀ t c out →
    (c.encrypt = true ∨ c.noPadding = true) →
    ∃ c' o, pcFeed M c chunks = some (c', o) ∧ PlainRel M s₀ (t ++ chunks.flatten) c' (out ++ o) ∧ c'.encrypt = c.encrypt ∧
      c'.noPadding = c.noPadding := by
  induction chunks with
  | nil => intro t c out R _; exact ⟨c, [], rfl, by simpa using R, rfl, rfl⟩
  | cons x xs ih =>
    intro t c out R hm
    obtain ⟨c1, o1, h1, R1, e1, n1⟩ := plain_step B R hm x (hx x (by simp))
    obtain ⟨c2, o2, h2, R2, e2, n2⟩ := ih (fun y hy => hx y (by simp [hy])) _ _ _ R1 (by rw [e1, n1]; exact hm)
    refine ⟨c2, o1 ++ o2, ?_, ?_, e2.trans e1, n2.trans n1⟩
    · simp only [pcFeed, h1, if_true, h2, Option.map_some]
    · simpa [List.append_assoc] using R2

theorem held_feed {M : EvpMeth σ} {P : σ → Prop} (B : Blockwise M P) {s₀ : σ} (hs : P s₀) (chunks : List Bytes)
    (hx : ∀ x ∈ chunks, x.length + 16 ≤ intMax) : ∀ (t : Bytes) (c : EvpCtx σ) (out : Bytes), HeldRel M s₀ t c out →
    c.encrypt = false → c.noPadding = false →
    ∃ c' o, pcFeed M c chunks = some (c', o) ∧ HeldRel M s₀ (t ++ chunks.flatten) c' (out ++ o) ∧ c'.encrypt = false ∧
      c'.noPadding = false := by
  induction chunks with
  | nil => intro t c out R he hn; exact ⟨c, [], rfl, by simpa using R, he, hn⟩
  | cons x xs ih =>
    intro t c out R he hn
    obtain ⟨c1, o1, h1, R1, e1, n1⟩ := held_step B hs R he hn x (hx x (by simp))
    obtain ⟨c2, o2, h2, R2, e2, n2⟩ := ih (fun y hy => hx y (by simp [hy])) _ _ _ R1 e1 n1
    refine ⟨c2, o1 ++ o2, ?_, ?_, e2, n2⟩
    · simp only [pcFeed, h1, if_true, h2, Option.map_some]
    · simpa [List.append_assoc] using R2

/-- A context just after init. -/
structure Started (M : EvpMeth σ) (s : σ) (c : EvpCtx σ) : Prop where
  data : c.data = some s
  buf : c.buf = []
  used : c.finalUsed = false

theorem Started.plain {M : EvpMeth σ} {P : σ → Prop} (B : Blockwise M P) {s : σ} {c : EvpCtx σ} (h : Started M s c) :
    PlainRel M s [] c [] :=
  ⟨by simp [h.data, B.nil], by simp [h.buf], by simp [B.nil]⟩

theorem Started.held {M : EvpMeth σ} {P : σ → Prop} (B : Blockwise M P) {s : σ} {c : EvpCtx σ} (h : Started M s c) :
    HeldRel M s [] c [] :=
  ⟨by simp [h.data, B.nil], by simp [h.buf], by simp [h.used], by simp [h.used], by simp [B.nil]⟩

/-- Encryption with padding. -/
theorem message_enc {M : EvpMeth σ} {P : σ → Prop} (B : Blockwise M P) {s : σ} {c : EvpCtx σ} (h : Started M s c)
    (he : c.encrypt = true) (hn : c.noPadding = false) (chunks : List Bytes) (hx : ∀ x ∈ chunks, x.length + 16 ≤ intMax) :
    pcMessage M c chunks = some (M.doCipher s (pkcs7 M.blockSize chunks.flatten)).2 := by
  obtain ⟨c', o, h1, R, e1, n1⟩ := plain_feed B chunks hx _ _ _ (h.plain B) (Or.inl he)
  rw [he] at e1
  rw [hn] at n1
  simp only [List.nil_append] at R
  generalize chunks.flatten = t at R ⊢
  have hb := B.gt
  have hfin : prov_cipher_final M c' =
      ({ c' with data := some (M.doCipher (M.doCipher s (t.take (whole M.blockSize t.length))).1
            (c'.buf ++ List.replicate (M.blockSize - c'.buf.length) (BitVec.ofNat 8 (M.blockSize - c'.buf.length)))).1 },
        (M.doCipher (M.doCipher s (t.take (whole M.blockSize t.length))).1
            (c'.buf ++ List.replicate (M.blockSize - c'.buf.length) (BitVec.ofNat 8 (M.blockSize - c'.buf.length)))).2, true) := by
    unfold prov_cipher_final evpCipherFinal
    rw [R.data]
    dsimp only
    rw [if_pos e1]
    unfold evpEncryptFinal
    rw [if_neg (by omega), if_neg (by rw [n1]; simp)]
  unfold pcMessage
  rw [h1]
  dsimp only
  rw [hfin]
  simp only [if_true]
  have hbl : c'.buf.length = t.length % M.blockSize := by rw [R.buf, List.length_drop, sub_whole]
  rw [hbl, R.buf, R.out]
  have hmod := Nat.mod_lt t.length (show M.blockSize > 0 by omega)
  have hlen : (t.drop (whole M.blockSize t.length) ++ List.replicate (M.blockSize - t.length % M.blockSize)
      (BitVec.ofNat 8 (M.blockSize - t.length % M.blockSize))).length = M.blockSize := by
    rw [List.length_append, List.length_drop, sub_whole, List.length_replicate]; omega
  have h2 := B.append s (t.take (whole M.blockSize t.length)) (t.drop (whole M.blockSize t.length) ++
    List.replicate (M.blockSize - t.length % M.blockSize) (BitVec.ofNat 8 (M.blockSize - t.length % M.blockSize)))
    (by rw [List.length_take, Nat.min_eq_left (whole_le _ _)]; exact whole_dvd _ _) (by rw [hlen]; exact Nat.dvd_refl _)
  rw [← List.append_assoc, List.take_append_drop] at h2
  have h3 := congrArg Prod.snd h2
  dsimp only at h3
  rw [pkcs7, h3]

/-- Without padding, either direction. -/
theorem message_plain {M : EvpMeth σ} {P : σ → Prop} (B : Blockwise M P) {s : σ} {c : EvpCtx σ} (h : Started M s c)
    (hn : c.noPadding = true) (chunks : List Bytes) (hx : ∀ x ∈ chunks, x.length + 16 ≤ intMax) :
    pcMessage M c chunks =
      if M.blockSize ∣ chunks.flatten.length then some (M.doCipher s chunks.flatten).2 else none := by
  obtain ⟨c', o, h1, R, e1, n1⟩ := plain_feed B chunks hx _ _ _ (h.plain B) (Or.inr hn)
  rw [hn] at n1
  simp only [List.nil_append] at R
  generalize chunks.flatten = t at R ⊢
  have hb := B.gt
  have hfin : prov_cipher_final M c' = (c', [], c'.buf.length == 0) := by
    unfold prov_cipher_final evpCipherFinal
    rw [R.data]
    dsimp only
    have h2 : evpEncryptFinal M c' (M.doCipher s (t.take (whole M.blockSize t.length))).1 = (c', [], c'.buf.length == 0) := by
      unfold evpEncryptFinal
      rw [if_neg (by omega), if_pos n1]
    have h3 : evpDecryptFinal M c' = (c', [], c'.buf.length == 0) := by
      unfold evpDecryptFinal
      rw [if_pos n1]
    rw [h2, h3, ite_self]
  unfold pcMessage
  rw [h1]
  dsimp only
  rw [hfin]
  dsimp only
  have hbl : c'.buf.length = t.length % M.blockSize := by rw [R.buf, List.length_drop, sub_whole]
  rw [hbl]
  by_cases hd : M.blockSize ∣ t.length
  · rw [if_pos hd, if_pos (by rw [Nat.mod_eq_zero_of_dvd hd]; rfl), List.append_nil, R.out, whole_of_dvd hd, List.take_length]
  · have : t.length % M.blockSize ≠ 0 := fun h => hd (Nat.dvd_of_mod_eq_zero h)
    rw [if_neg hd, if_neg (by simpa using this)]

/-- The check of the last block and the bytes it yields. -/
theorem unpad_iff {b : Nat} (hb : 1 < b) (hb2 : b ≤ 16) (L : Bytes) (hL : L.length = b) (n : Nat) :
    ((at_ L (b - 1)).toNat = n ∧ ¬ (n = 0 ∨ b < n) ∧
      ((List.range n).all fun i => at_ L (b - 1 - i) == BitVec.ofNat 8 n) = true) ↔
    (1 ≤ n ∧ n ≤ b ∧ L = L.take (b - n) ++ List.replicate n (BitVec.ofNat 8 n)) := by
  have hat : ∀ i (h : i < L.length), at_ L i = L[i] := by
    intro i h
    rw [at_]
    simp [List.getD_eq_getElem?_getD, List.getElem?_eq_getElem h]
  constructor
  · rintro ⟨_, h2, h3⟩
    refine ⟨by omega, by omega, ?_⟩
    apply List.ext_getElem
    · simp; omega
    · intro i h4 h5
      by_cases hi : i < b - n
      · rw [List.getElem_append_left (by simp; omega), List.getElem_take]
      · rw [List.getElem_append_right (by simp; omega), List.getElem_replicate]
        have h6 := List.all_eq_true.mp h3 (b - 1 - i) (List.mem_range.mpr (by omega))
        rw [show b - 1 - (b - 1 - i) = i by omega] at h6
        rw [← hat i h4]
        exact eq_of_beq h6
  · rintro ⟨h1, h2, h3⟩
    have key : ∀ j, b - n ≤ j → j < b → at_ L j = BitVec.ofNat 8 n := by
      intro j h4 h5
      rw [hat j (by omega), List.getElem_of_eq h3, List.getElem_append_right (by simp; omega), List.getElem_replicate]
    refine ⟨?_, by omega, ?_⟩
    · rw [key (b - 1) (by omega) (by omega), BitVec.toNat_ofNat]
      exact Nat.mod_eq_of_lt (by omega)
    · apply List.all_eq_true.mpr
      intro i hi
      rw [List.mem_range] at hi
      rw [key _ (by omega) (by omega)]
      exact beq_self_eq_true _

/-- Decryption with padding. -/
theorem message_dec {M : EvpMeth σ} {P : σ → Prop} (B : Blockwise M P) {s : σ} (hs : P s) {c : EvpCtx σ} (h : Started M s c)
    (he : c.encrypt = false) (hn : c.noPadding = false) (chunks : List Bytes) (hx : ∀ x ∈ chunks, x.length + 16 ≤ intMax) (m : Bytes) :
    pcMessage M c chunks = some m ↔
      M.blockSize ∣ chunks.flatten.length ∧ (M.doCipher s chunks.flatten).2 = pkcs7 M.blockSize m := by
  obtain ⟨c', o, h1, R, e1, n1⟩ := held_feed B hs chunks hx _ _ _ (h.held B) he hn
  simp only [List.nil_append] at R
  generalize chunks.flatten = t at R ⊢
  have hb := B.gt
  have hle := B.le
  have hbl : c'.buf.length = t.length % M.blockSize := by rw [R.buf, List.length_drop, sub_whole]
  have hpk : ∀ x : Bytes, (pkcs7 M.blockSize x).length ≠ 0 := by
    intro x
    have := Nat.mod_lt x.length (show M.blockSize > 0 by omega)
    simp [pkcs7]
    omega
  have hfin : prov_cipher_final M c' = evpDecryptFinal M c' := by
    unfold prov_cipher_final evpCipherFinal
    rw [R.data]
    dsimp only
    rw [if_neg (by rw [e1]; simp)]
  unfold pcMessage
  rw [h1]
  dsimp only
  rw [hfin]
  unfold evpDecryptFinal
  rw [if_neg (show ¬ (c'.noPadding = true) by rw [n1]; simp), if_pos hb]
  by_cases hu : c'.finalUsed = true
  · obtain ⟨hne, hd⟩ := R.used.mp hu
    obtain ⟨hf, ho⟩ := R.final hu
    have hm0 : t.length % M.blockSize = 0 := Nat.mod_eq_zero_of_dvd hd
    have hlen : (M.doCipher s t).2.length = t.length := B.length s t hs hd
    rw [if_neg (show ¬ (c'.buf.length ≠ 0 ∨ c'.finalUsed = false) by rw [hbl, hm0, hu]; simp)]
    generalize hy : (M.doCipher s t).2 = y at *
    have hpos : 0 < t.length := List.length_pos_iff.mpr hne
    have hge : M.blockSize ≤ y.length := by rw [hlen]; exact Nat.le_of_dvd hpos hd
    have hdy : M.blockSize ∣ y.length := by rw [hlen]; exact hd
    have hfl : c'.final.length = M.blockSize := by rw [hf, List.length_drop]; omega
    have hol : M.blockSize ∣ o.length := by
      rw [ho, List.length_take, Nat.min_eq_left (by omega)]
      exact Nat.dvd_sub hdy (Nat.dvd_refl _)
    have hyo : y = o ++ c'.final := by rw [hf, ho, List.take_append_drop]
    have hiff := fun n => unpad_iff hb hle c'.final hfl n
    -- what a correct padding means for the message
    have hpad : ∀ n, 1 ≤ n → n ≤ M.blockSize → ∀ z : Bytes, z.length = M.blockSize - n →
        pkcs7 M.blockSize (o ++ z) = o ++ z ++ List.replicate n (BitVec.ofNat 8 n) := by
      intro n hn1 hn2 z hz
      obtain ⟨k, hk⟩ := hol
      have hmod : (o ++ z).length % M.blockSize = if n = M.blockSize then 0 else M.blockSize - n := by
        rw [List.length_append, hk, hz, Nat.mul_add_mod]
        by_cases hnb : n = M.blockSize
        · rw [if_pos hnb, hnb]; simp
        · rw [if_neg hnb, Nat.mod_eq_of_lt (by omega)]
      have : M.blockSize - (o ++ z).length % M.blockSize = n := by
        rw [hmod]
        by_cases hnb : n = M.blockSize
        · rw [if_pos hnb]; omega
        · rw [if_neg hnb]; omega
      rw [pkcs7, this]
    generalize hn0 : (at_ c'.final (M.blockSize - 1)).toNat = n0
    constructor
    · intro hres
      refine ⟨hd, ?_⟩
      by_cases hbad : n0 = 0 ∨ M.blockSize < n0
      · rw [if_pos hbad] at hres
        simp at hres
      · rw [if_neg hbad] at hres
        by_cases hall : ((List.range n0).all fun i => at_ c'.final (M.blockSize - 1 - i) == BitVec.ofNat 8 n0) = true
        · rw [if_pos hall] at hres
          simp only [if_true, Option.some.injEq] at hres
          obtain ⟨g1, g2, g3⟩ := (hiff n0).mp ⟨hn0, hbad, hall⟩
          rw [← hres, hpad n0 g1 g2 _ (by rw [List.length_take, hfl]; omega), List.append_assoc, ← g3, ← hyo]
        · rw [if_neg hall] at hres
          simp at hres
    · rintro ⟨_, hyp⟩
      -- the padding of `m` is inside the last block
      have hq := Nat.mod_lt m.length (show M.blockSize > 0 by omega)
      generalize hnn : M.blockSize - m.length % M.blockSize = n at *
      have hyl : y = m ++ List.replicate n (BitVec.ofNat 8 n) := by rw [hyp, pkcs7, hnn]
      have hyl2 : y.length = m.length + n := by rw [hyl]; simp
      have hol2 : o.length = y.length - M.blockSize := by
        rw [ho, List.length_take, Nat.min_eq_left (by omega)]
      have hmo : m = o ++ m.drop o.length := by
        have h8 : o = m.take o.length := by
          have h9 : o = y.take o.length := by rw [hyo, List.take_left]
          rw [hyl] at h9
          rw [List.take_append_of_le_length (by omega)] at h9
          exact h9
        conv_lhs => rw [← List.take_append_drop o.length m]
        rw [← h8]
      have hfin2 : c'.final = m.drop o.length ++ List.replicate n (BitVec.ofNat 8 n) := by
        have h9 : o ++ c'.final = o ++ (m.drop o.length ++ List.replicate n (BitVec.ofNat 8 n)) := by
          rw [← List.append_assoc, ← hmo, ← hyo, hyl]
        exact List.append_cancel_left h9
      have hdl : (m.drop o.length).length = M.blockSize - n := by rw [List.length_drop]; omega
      have htk : c'.final.take (M.blockSize - n) = m.drop o.length := by
        rw [hfin2, ← hdl, List.take_left]
      obtain ⟨g1, g2, g3⟩ := (hiff n).mpr ⟨by omega, by omega, by rw [htk]; exact hfin2⟩
      rw [hn0] at g1
      subst g1
      rw [if_neg g2, if_pos g3]
      simp only [if_true]
      rw [htk, ← hmo]
  · have hnd : ¬ (t ≠ [] ∧ M.blockSize ∣ t.length) := fun h => hu (R.used.mpr h)
    have huf : c'.finalUsed = false := by simpa using hu
    rw [if_pos (Or.inr huf)]
    simp only [Bool.false_eq_true, if_false, reduceCtorEq, false_iff, not_and]
    intro hd hy
    have ht : t = [] := by
      by_contra hne
      exact hnd ⟨hne, hd⟩
    subst ht
    rw [B.nil] at hy
    exact hpk m (by rw [← hy]; rfl)

/-- Ciphers with block size 1. -/
theorem message_stream {M : EvpMeth σ} (h1 : M.blockSize = 1) (chunks : List Bytes) (hx : ∀ x ∈ chunks, x.length + 16 ≤ intMax) :
    ∀ {s : σ} {c : EvpCtx σ}, Started M s c → pcMessage M c chunks = some (feed M.doCipher s (chunks.filter (· ≠ []))).2 := by
  have key : ∀ (chunks : List Bytes), (∀ x ∈ chunks, x.length + 16 ≤ intMax) → ∀ (s : σ) (c : EvpCtx σ), Started M s c →
      ∃ c', pcFeed M c chunks = some (c', (feed M.doCipher s (chunks.filter (· ≠ []))).2) ∧
        Started M (feed M.doCipher s (chunks.filter (· ≠ []))).1 c' := by
    intro chunks
    induction chunks with
    | nil => intro _ s c h; exact ⟨c, rfl, h⟩
    | cons x xs ih =>
      intro hx s c h
      by_cases hne : x = []
      · subst hne
        obtain ⟨c', g1, g2⟩ := ih (fun y hy => hx y (by simp [hy])) s c h
        refine ⟨c', ?_, by simpa using g2⟩
        have : prov_cipher_update M c [] = (c, [], true) := by
          unfold prov_cipher_update evpCipherUpdate
          rw [h.data]
          rfl
        simp only [pcFeed, this, if_true, g1, Option.map_some]
        simp
      · have hst := stream_step h1 h.data h.buf h.used x (hx x (by simp)) hne
        obtain ⟨c', g1, g2⟩ := ih (fun y hy => hx y (by simp [hy])) (M.doCipher s x).1
          { c with data := some (M.doCipher s x).1, buf := [], finalUsed := false } ⟨rfl, rfl, rfl⟩
        have hf : (x :: xs).filter (· ≠ []) = x :: xs.filter (· ≠ []) := by simp [hne]
        refine ⟨c', ?_, by rw [hf]; exact g2⟩
        simp only [pcFeed, hst, if_true, g1, Option.map_some]
        rw [hf]
        rfl
  intro s c h
  obtain ⟨c', g1, g2⟩ := key chunks hx s c h
  have hfin : prov_cipher_final M c' = (c', [], true) := by
    unfold prov_cipher_final evpCipherFinal
    rw [g2.data]
    dsimp only
    have h2 : evpEncryptFinal M c' (feed M.doCipher s (chunks.filter (· ≠ []))).1 = (c', [], true) := by
      unfold evpEncryptFinal
      rw [if_pos h1]
    have h3 : evpDecryptFinal M c' = (c', [], true) := by
      unfold evpDecryptFinal
      rw [if_neg (by omega : ¬ 1 < M.blockSize), g2.buf]
      simp
    rw [h2, h3, ite_self]
  unfold pcMessage
  rw [g1]
  dsimp only
  rw [hfin]
  simp

theorem filter_flatten (chunks : List Bytes) : (chunks.filter (· ≠ [])).flatten = chunks.flatten := by
  induction chunks with
  | nil => rfl
  | cons x xs ih =>
    by_cases h : x = []
    · subst h; simpa using ih
    · have hf : (x :: xs).filter (· ≠ []) = x :: xs.filter (· ≠ []) := by simp [h]
      rw [hf, List.flatten_cons, List.flatten_cons, ih]

/-! ## Histories -/

/-- A call on a context of the provider.  `dup`: the work goes on with the copy. -/
inductive PcOp where
  | init (key iv : Option Bytes) (keylen ivlen : Nat) (p : PcParams) (enc : Bool)
  | setParams (p : PcParams)
  | update (x : Bytes)
  | final
  | dup

/-- The key and IV buffers are as long as the cipher reads. -/
def PcOp.Ok (M : EvpMeth σ) : PcOp → Prop
  | .init key iv _ _ _ _ => (∀ k, key = some k → M.keyLen ≤ k.length) ∧ ∀ v, iv = some v → M.ivLen ≤ v.length
  | _ => True

/-- The context after one call. -/
def pcStep (M : EvpMeth σ) (c : EvpCtx σ) : PcOp → EvpCtx σ
  | .init key iv kl il p enc => (prov_cipher_init M c key iv kl il p enc).1
  | .setParams p => (prov_cipher_set_ctx_params M c p).1
  | .update x => (prov_cipher_update M c x).1
  | .final => (prov_cipher_final M c).1
  | .dup => prov_cipher_dupctx c

/-- The context after a history of calls. -/
def pcRun (M : EvpMeth σ) (c : EvpCtx σ) (h : List PcOp) : EvpCtx σ := h.foldl (pcStep M) c

/-- What the histories keep. -/
structure Kept (M : EvpMeth σ) (P : σ → Prop) (c : EvpCtx σ) : Prop where
  data : ∀ s, c.data = some s → P s
  buf : c.buf.length < M.blockSize

/-- What the calls other than update and final keep. -/
structure KeepsInit (M : EvpMeth σ) (P : σ → Prop) : Prop where
  fresh : P M.fresh
  init : ∀ s key iv enc, P s → (∀ k, key = some k → M.keyLen ≤ k.length) → (∀ v, iv = some v → M.ivLen ≤ v.length) →
    P (M.init s key iv enc).1
  mesh : ∀ s a, P s → P (M.keyMesh s a).1

theorem core_keep {M : EvpMeth σ} {P : σ → Prop} (B : Blockwise M P) (s : σ) (hs : P s) (buf inp : Bytes)
    (hbuf : buf.length < M.blockSize) (s' : σ) (buf' out : Bytes)
    (h : evpEncryptDecryptUpdate M s buf inp = some (s', buf', out)) :
    P s' ∧ buf'.length < M.blockSize ∧ out.length + buf'.length = buf.length + inp.length := by
  have hb : 0 < M.blockSize := Nat.lt_trans Nat.zero_lt_one B.gt
  unfold evpEncryptDecryptUpdate at h
  split at h
  · rename_i hc
    simp only [Option.some.injEq, Prod.mk.injEq] at h
    obtain ⟨rfl, rfl, rfl⟩ := h
    have hd := Nat.dvd_of_mod_eq_zero hc.2
    exact ⟨B.keep s inp hs hd, hb, by rw [B.length s inp hs hd, hc.1]; simp⟩
  split at h
  · rename_i hc
    simp only [Option.some.injEq, Prod.mk.injEq] at h
    obtain ⟨rfl, rfl, rfl⟩ := h
    exact ⟨hs, by simp; omega, by simp⟩
  split at h
  · cases h
  rename_i h2 _
  have tail : ∀ (s1 : σ) (o1 rest : Bytes), P s1 →
      some ((if 0 < rest.length - rest.length % M.blockSize then M.doCipher s1 (rest.take (rest.length - rest.length % M.blockSize))
          else (s1, [])).1, rest.drop (rest.length - rest.length % M.blockSize),
          o1 ++ (if 0 < rest.length - rest.length % M.blockSize then M.doCipher s1 (rest.take (rest.length - rest.length % M.blockSize))
          else (s1, [])).2) = some (s', buf', out) →
      P s' ∧ buf'.length < M.blockSize ∧ out.length + buf'.length = o1.length + rest.length := by
    intro s1 o1 rest h1 he
    simp only [Option.some.injEq, Prod.mk.injEq] at he
    obtain ⟨rfl, rfl, rfl⟩ := he
    have hw : rest.length - rest.length % M.blockSize = whole M.blockSize rest.length := rfl
    have hl : (rest.take (rest.length - rest.length % M.blockSize)).length = whole M.blockSize rest.length := by
      rw [List.length_take, hw, Nat.min_eq_left (whole_le _ _)]
    have hd : M.blockSize ∣ (rest.take (rest.length - rest.length % M.blockSize)).length := by rw [hl]; exact whole_dvd _ _
    have hlt := sub_whole_lt hb rest.length
    have hle := whole_le M.blockSize rest.length
    refine ⟨?_, by rw [List.length_drop, hw]; exact hlt, ?_⟩
    · split
      · exact B.keep _ _ h1 hd
      · exact h1
    · split
      · rw [List.length_append, B.length _ _ h1 hd, hl, List.length_drop, hw]; omega
      · rename_i h0
        rw [List.length_append, List.length_drop]
        simp only [List.length_nil]; omega
  by_cases h0 : buf.length ≠ 0
  · simp only [if_pos h0] at h
    have hj : M.blockSize - buf.length ≤ inp.length := by
      by_contra hlt
      exact h2 ⟨h0, by omega⟩
    have hfl : (buf ++ inp.take (M.blockSize - buf.length)).length = M.blockSize := by simp; omega
    have hd : M.blockSize ∣ (buf ++ inp.take (M.blockSize - buf.length)).length := by rw [hfl]; exact Nat.dvd_refl _
    obtain ⟨g1, g2, g3⟩ := tail _ _ _ (B.keep s _ hs hd) h
    refine ⟨g1, g2, ?_⟩
    rw [g3, B.length s _ hs hd, hfl, List.length_drop]
    omega
  · simp only [if_neg h0] at h
    obtain ⟨g1, g2, g3⟩ := tail _ _ _ hs h
    refine ⟨g1, g2, ?_⟩
    rw [g3]
    simp only [List.length_nil]
    omega

theorem update_keep {M : EvpMeth σ} {P : σ → Prop} (B : Blockwise M P) (c : EvpCtx σ) (h : Kept M P c) (x : Bytes) :
    Kept M P (prov_cipher_update M c x).1 := by
  unfold prov_cipher_update evpCipherUpdate
  cases hd : c.data with
  | none => exact h
  | some s =>
    dsimp only
    generalize intOfSize x.length = n
    by_cases h0 : n ≤ 0
    · rw [if_pos h0]; exact h
    rw [if_neg h0]
    have hP := h.data s hd
    generalize x.take n.toNat = y
    have hb := h.buf
    have enc : Kept M P (evpEncryptUpdate M c s y).1 := by
      unfold evpEncryptUpdate
      cases hr : evpEncryptDecryptUpdate M s c.buf y with
      | none => exact h
      | some r =>
        obtain ⟨s', buf', out⟩ := r
        obtain ⟨g1, g2, g3⟩ := core_keep B s hP c.buf y hb _ _ _ hr
        refine ⟨?_, g2⟩
        intro t ht
        cases ht
        exact g1
    by_cases he : c.encrypt = true
    · rw [if_pos he]; exact enc
    rw [if_neg he]
    unfold evpDecryptUpdate
    by_cases hn : c.noPadding = true
    · rw [if_pos hn]; exact enc
    rw [if_neg hn]
    by_cases hov : c.finalUsed = true ∧ intMax - M.blockSize < y.length - y.length % M.blockSize
    · rw [if_pos hov]; exact h
    rw [if_neg hov]
    cases hr : evpEncryptDecryptUpdate M s c.buf y with
    | none => exact h
    | some r =>
      obtain ⟨s', buf', out⟩ := r
      obtain ⟨g1, g2, g3⟩ := core_keep B s hP c.buf y hb _ _ _ hr
      dsimp only
      by_cases hz : 1 < M.blockSize ∧ buf'.length = 0
      · rw [if_pos hz]
        refine ⟨?_, g2⟩
        intro t ht; cases ht; exact g1
      · rw [if_neg hz]
        refine ⟨?_, g2⟩
        intro t ht; cases ht; exact g1

theorem final_keep {M : EvpMeth σ} {P : σ → Prop} (B : Blockwise M P) (c : EvpCtx σ) (h : Kept M P c) :
    Kept M P (prov_cipher_final M c).1 := by
  have hb := h.buf
  unfold prov_cipher_final evpCipherFinal
  cases hd : c.data with
  | none => exact h
  | some s =>
    dsimp only
    have hP := h.data s hd
    have hlen : (c.buf ++ List.replicate (M.blockSize - c.buf.length) (BitVec.ofNat 8 (M.blockSize - c.buf.length))).length =
        M.blockSize := by simp; omega
    have e1 : Kept M P (evpEncryptFinal M c s).1 := by
      unfold evpEncryptFinal
      by_cases g1 : M.blockSize = 1
      · rw [if_pos g1]; exact h
      rw [if_neg g1]
      by_cases g2 : c.noPadding = true
      · rw [if_pos g2]; exact h
      rw [if_neg g2]
      refine ⟨?_, hb⟩
      intro t ht
      cases ht
      exact B.keep s _ hP (by rw [hlen]; exact Nat.dvd_refl _)
    have e2 : (evpDecryptFinal M c).1 = c := by
      unfold evpDecryptFinal
      split; · rfl
      split
      · split; · rfl
        dsimp only
        split; · rfl
        split <;> rfl
      · rfl
    by_cases he : c.encrypt = true
    · rw [if_pos he]; exact e1
    · rw [if_neg he, e2]; exact h

theorem params_keep {M : EvpMeth σ} {P : σ → Prop} (I : KeepsInit M P) (c : EvpCtx σ) (h : Kept M P c) (p : PcParams) :
    Kept M P (prov_cipher_set_ctx_params M c p).1 := by
  have h1 : Kept M P (pcSetPadding c p.padding).1 := by
    cases p.padding with
    | none => exact h
    | some n => exact ⟨h.data, h.buf⟩
  have h2 : Kept M P (pcSetKeyMesh M (pcSetPadding c p.padding).1 p.keyMesh).1 := by
    generalize (pcSetPadding c p.padding).1 = d at h1
    cases p.keyMesh with
    | none => exact h1
    | some n =>
      show Kept M P (evpKeyMesh M d (intOfSize n)).1
      unfold evpKeyMesh
      cases hd : d.data with
      | none => exact h1
      | some s =>
        refine ⟨?_, h1.buf⟩
        intro t ht
        cases ht
        exact I.mesh s _ (h1.data s hd)
  unfold prov_cipher_set_ctx_params
  dsimp only
  split
  · split
    · exact h2
    · exact h2
  · exact h1

theorem init_keep {M : EvpMeth σ} {P : σ → Prop} (B : Blockwise M P) (I : KeepsInit M P) (c : EvpCtx σ) (h : Kept M P c)
    (key iv : Option Bytes) (kl il : Nat) (p : PcParams) (enc : Bool) (hk : ∀ k, key = some k → M.keyLen ≤ k.length)
    (hi : ∀ v, iv = some v → M.ivLen ≤ v.length) :
    Kept M P (prov_cipher_init M c key iv kl il p enc).1 := by
  have hp := params_keep I c h p
  have hb : 0 < M.blockSize := Nat.lt_trans Nat.zero_lt_one B.gt
  unfold prov_cipher_init
  dsimp only
  generalize prov_cipher_set_ctx_params M c p = r at hp
  split
  · split
    · exact hp
    · unfold evpCipherInit
      have hP : P (M.init (r.1.data.getD M.fresh) key iv enc).1 := by
        refine I.init _ _ _ _ ?_ hk hi
        cases hd : r.1.data with
        | none => exact I.fresh
        | some s => exact hp.data s hd
      generalize M.init (r.1.data.getD M.fresh) key iv enc = q at hP
      dsimp only
      split
      · refine ⟨?_, hb⟩
        intro t ht
        cases ht
        exact hP
      · refine ⟨?_, hp.buf⟩
        intro t ht
        cases ht
        exact hP
  · exact hp

theorem run_keep {M : EvpMeth σ} {P : σ → Prop} (B : Blockwise M P) (I : KeepsInit M P) (hist : List PcOp)
    (hok : ∀ op ∈ hist, op.Ok M) : ∀ c, Kept M P c → Kept M P (pcRun M c hist) := by
  induction hist with
  | nil => intro c h; exact h
  | cons op ops ih =>
    intro c h
    refine ih (fun o ho => hok o (by simp [ho])) _ ?_
    have h1 := hok op (by simp)
    cases op with
    | init key iv kl il p enc => exact init_keep B I c h key iv kl il p enc h1.1 h1.2
    | setParams p => exact params_keep I c h p
    | update x => exact update_keep B c h x
    | final => exact final_keep B c h
    | dup =>
      show Kept M P (prov_cipher_dupctx c)
      unfold prov_cipher_dupctx
      cases hd : c.data with
      | none => exact ⟨fun s hs => (by cases hs), Nat.lt_trans Nat.zero_lt_one B.gt⟩
      | some s => exact h

theorem new_kept {M : EvpMeth σ} {P : σ → Prop} (B : Blockwise M P) : Kept M P EvpCtx.new :=
  ⟨fun s hs => (by cases hs), Nat.lt_trans Nat.zero_lt_one B.gt⟩

/-! ## Lengths of the outputs -/

theorem plain_out_len {M : EvpMeth σ} {P : σ → Prop} (B : Blockwise M P) {s₀ : σ} (hs : P s₀) {t : Bytes} {c : EvpCtx σ} {out : Bytes}
    (R : PlainRel M s₀ t c out) : out.length = whole M.blockSize t.length := by
  have hl : (t.take (whole M.blockSize t.length)).length = whole M.blockSize t.length := by
    rw [List.length_take, Nat.min_eq_left (whole_le _ _)]
  rw [R.out, B.length s₀ _ hs (by rw [hl]; exact whole_dvd _ _), hl]

theorem held_out_len {M : EvpMeth σ} {P : σ → Prop} (B : Blockwise M P) {s₀ : σ} (hs : P s₀) {t : Bytes} {c : EvpCtx σ} {out : Bytes}
    (R : HeldRel M s₀ t c out) : out.length ≤ t.length ∧ t.length ≤ out.length + M.blockSize := by
  have hlt := sub_whole_lt (Nat.lt_trans Nat.zero_lt_one B.gt) t.length
  have hle := whole_le M.blockSize t.length
  by_cases hu : c.finalUsed = true
  · have hd := (R.used.mp hu).2
    rw [(R.final hu).2, List.length_take, B.length s₀ t hs hd]
    omega
  · have hl : (t.take (whole M.blockSize t.length)).length = whole M.blockSize t.length := by
      rw [List.length_take, Nat.min_eq_left (whole_le _ _)]
    rw [R.out (by simpa using hu), B.length s₀ _ hs (by rw [hl]; exact whole_dvd _ _), hl]
    omega

end Gost
