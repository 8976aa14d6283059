import Verif.Lemmas.Buffers

/-!
# C73: buffers — in-place operation, and nothing outside the output is written

A caller may pass the same buffer as input and output, or two buffers that do not overlap.  For every cipher callback that takes data, the
call on memory leaves in the output buffer exactly the bytes that the function on bytes computes from what the input buffer contained
before the call, changes no byte outside the `n` bytes of the output buffer, and leaves the context in the same state.
-/

namespace Gost

/-- The call `mf` on `n` bytes of memory does what the function `f` does on bytes: for buffers that are equal or do not overlap, the
context afterwards is that of `f`, the output buffer holds the output of `f`, which is `n` bytes, and no other byte of memory changes. -/
def ActsOn {S : Type} (mf : BMem → Nat → Nat → Nat → S × BMem) (f : Bytes → S × Bytes) (n : Nat) : Prop :=
  ∀ (m : BMem) (i o : Nat), (i = o ∨ i + n ≤ o ∨ o + n ≤ i) →
    (f (memRd m i n)).2.length = n ∧
    (mf m i o n).1 = (f (memRd m i n)).1 ∧
    memRd (mf m i o n).2 o n = (f (memRd m i n)).2 ∧
    ∀ y, y < o ∨ o + n ≤ y → (mf m i o n).2 y = m y

/-- The form used in the proofs, with an invariant of the context. -/
def ActsInv {S : Type} (Inv : S → Prop) (mf : BMem → Nat → Nat → Nat → S × BMem) (f : Bytes → S × Bytes) (n : Nat) : Prop :=
  ∀ (m : BMem) (i o : Nat), BufsOk i o n →
    mf m i o n = ((f (memRd m i n)).1, memWr m o (f (memRd m i n)).2) ∧ (f (memRd m i n)).2.length = n ∧ Inv (f (memRd m i n)).1

theorem ActsInv.acts {S : Type} {Inv : S → Prop} {mf : BMem → Nat → Nat → Nat → S × BMem} {f : Bytes → S × Bytes} {n : Nat}
    (h : ActsInv Inv mf f n) : ActsOn mf f n := by
  intro m i o hb
  obtain ⟨e, l, _⟩ := h m i o hb
  refine ⟨l, by rw [e], ?_, ?_⟩
  · rw [e]; exact memRd_memWr' _ _ _ _ l
  · intro y hy
    rw [e]
    exact memWr_out _ _ _ _ (by omega)

/-- Every list of bytes can lie in memory. -/
theorem memRd_of (inp : Bytes) : memRd (memWr (fun _ => 0) 0 inp) 0 inp.length = inp := memRd_memWr _ _ _

theorem ActsInv.inv {S : Type} {Inv : S → Prop} {mf : BMem → Nat → Nat → Nat → S × BMem} {f : Bytes → S × Bytes} {n : Nat}
    (h : ActsInv Inv mf f n) (inp : Bytes) (hn : inp.length = n) : Inv (f inp).1 := by
  subst hn
  have := (h (memWr (fun _ => 0) 0 inp) 0 0 (Or.inl rfl)).2.2
  rwa [memRd_of] at this

/-- A loop over blocks that covers the whole input. -/
theorem blocks_acts {S : Type} (bl : Nat) (hbl : 0 < bl) (Inv : S → Prop) (body : S → Bytes → S × Bytes)
    (bodyM : S → BMem → Nat → Nat → S × BMem) (hbody : BodySame bl Inv body bodyM) (s : S) (hs : Inv s) (n : Nat) (hn : bl ∣ n) :
    ActsInv Inv (fun m i o n => ((memBlocks bl bodyM s m i o n).s, (memBlocks bl bodyM s m i o n).m))
      (fun inp => ((whileBlocks bl body s inp).1, (whileBlocks bl body s inp).2.1)) n := by
  intro m i o hb
  obtain ⟨t, ti⟩ := memBlocks_same bl hbl Inv body bodyM hbody n s m i o hs hb
  refine ⟨?_, ?_, ti⟩
  · dsimp only
    rw [t.s, t.m']; rfl
  · -- the loop stops only when less than a block is left
    dsimp only
    have key : ∀ (k : Nat) (s : S) (m : BMem) (i o : Nat), Inv s → BufsOk i o (k * bl) →
        (whileBlocks bl body s (memRd m i (k * bl))).2.1.length = k * bl := by
      intro k
      induction k with
      | zero => intro s m i o _ _; rw [whileBlocks, dif_neg (by simp; omega)]; simp
      | succ k ih =>
        intro s m i o hs hb
        have hle : bl ≤ (k + 1) * bl := Nat.le_mul_of_pos_left bl (by omega)
        have hsub : (k + 1) * bl - bl = k * bl := by rw [Nat.add_mul, Nat.one_mul, Nat.add_sub_cancel]
        rw [whileBlocks, dif_pos (by simpa using ⟨hbl, hle⟩)]
        rw [memRd_take _ _ _ _ hle]
        obtain ⟨e, el, einv⟩ := hbody s m i o hs (hb.first bl hle)
        have hd := memRd_rest hb m (body s (memRd m i bl)).2 (by omega)
        rw [el] at hd
        rw [← hd, hsub]
        have hb' := hb.advance bl hle
        rw [hsub] at hb'
        simp only [List.length_append, el]
        rw [ih _ _ _ (o + bl) einv hb']
        rw [Nat.add_mul, Nat.one_mul, Nat.add_comm]
    obtain ⟨k, hk⟩ := hn
    rw [Nat.mul_comm] at hk
    subst hk
    exact key k s m i o hs hb

/-- Leftovers, whole blocks, tail: a function made of a loop over the rest of a gamma block followed by another function. -/
theorem part_then {S T : Type} {Inv : S → Prop} {r : MemAt T} {w : T × Bytes × Bytes} {m : BMem} {i o n : Nat} (hb : BufsOk i o n)
    (h : LoopSame id r w m i o n) (mf : BMem → Nat → Nat → Nat → S × BMem) (f : Bytes → S × Bytes)
    (hf : ActsInv Inv mf f r.n) :
    mf r.m r.i r.o r.n = ((f w.2.2).1, memWr m o (w.2.1 ++ (f w.2.2).2)) ∧ (w.2.1 ++ (f w.2.2).2).length = n ∧ Inv (f w.2.2).1 := by
  have hb' : BufsOk r.i r.o r.n := by rw [h.i', h.o', h.n']; exact hb.advance _ h.le
  obtain ⟨e, l, inv⟩ := hf r.m r.i r.o hb'
  have hr : memRd r.m r.i r.n = w.2.2 := by
    rw [h.m', h.i', h.n', memRd_rest hb m _ h.le, h.rest]
  rw [hr] at e l inv
  have hle := h.le
  have hn' := h.n'
  refine ⟨?_, ?_, inv⟩
  · rw [e, h.m', h.o', memWr_append]
  · simp only [List.length_append, l]; omega

/-! ## GOST 28147-89 and Magma -/

/-- The buffers inside the context have the sizes they have in C (8 bytes each). -/
structure GLens (e : CipherCtx) : Prop where
  iv : e.iv.length = 8
  buf : e.buf.length = 8
  stash : e.stash.length = 8

theorem GLens.mesh {e : CipherCtx} (h : GLens e) : GLens (gost_crypt_mesh e) := by
  unfold gost_crypt_mesh
  split
  · exact ⟨by simp [cryptopro_key_meshing], by simp, h.stash⟩
  · exact ⟨h.iv, by simp, h.stash⟩

theorem GLens.cnt {e : CipherCtx} (h : GLens e) : GLens (gost_cnt_next e) := by
  have hs : (gost_cnt_next e).stash = e.stash := by unfold gost_cnt_next; split <;> rfl
  exact ⟨by simp [gost_cnt_next, cntAdd], by simp [gost_cnt_next], by rw [hs]; exact h.stash⟩

theorem GLens.gamma {e : CipherCtx} (h : GLens e) : GLens (magmaCtrGamma e) := by
  have h1 : (apply_acpkm_magma e).iv = e.iv := by unfold apply_acpkm_magma; split <;> rfl
  have h2 : (apply_acpkm_magma e).stash = e.stash := by unfold apply_acpkm_magma; split <;> rfl
  refine ⟨?_, by simp [magmaCtrGamma], ?_⟩
  · simp only [magmaCtrGamma, inc_counter_length, h1, h.iv]
  · simp only [magmaCtrGamma, h2, h.stash]

/-- In CFB and counter mode the number of gamma bytes used is at most a block. -/
structure GFb (e : CipherCtx) : Prop extends GLens e where
  num : e.num ≤ 8

theorem mesh_num (e : CipherCtx) : (gost_crypt_mesh e).num = e.num := by unfold gost_crypt_mesh; split <;> rfl

theorem cntNext_num (e : CipherCtx) : (gost_cnt_next e).num = e.num := by unfold gost_cnt_next; split <;> rfl

theorem GFb.mesh {e : CipherCtx} (h : GFb e) : GFb (gost_crypt_mesh e) :=
  { h.toGLens.mesh with num := by rw [mesh_num]; exact h.num }

theorem GFb.cnt {e : CipherCtx} (h : GFb e) : GFb (gost_cnt_next e) :=
  { h.toGLens.cnt with num := by rw [cntNext_num]; exact h.num }

theorem cbc_body : BodySame 8 GLens cbcBody cbcBodyM := by
  intro e m i o h hb
  unfold cbcBody cbcBodyM
  by_cases he : e.encrypting = true
  · simp only [he, if_true]
    refine ⟨?_, by simp, ⟨by simp, h.buf, h.stash⟩⟩
    rw [memRd_memWr' _ _ _ _ (by simp)]
  · simp only [he]
    exact ⟨rfl, by simp [h.iv], ⟨by simp, h.buf, h.stash⟩⟩

theorem magmaEcb_body : BodySame 8 GLens magmaEcbBody magmaEcbBodyM := by
  intro e m i o h hb
  unfold magmaEcbBody magmaEcbBodyM
  cases he : e.encrypting
  · exact ⟨rfl, by simp, h⟩
  · exact ⟨rfl, by simp, h⟩

theorem magmaCbc_body : BodySame 8 GLens magmaCbcBody magmaCbcBodyM := by
  intro e m i o h hb
  unfold magmaCbcBody magmaCbcBodyM
  by_cases he : e.encrypting = true
  · simp only [he, if_true]
    refine ⟨?_, by simp, ⟨by simp, h.buf, h.stash⟩⟩
    rw [memXor_full _ _ hb h.iv, memRd_memWr' m o 8 _ (by simp [h.iv]), memRd_memWr' _ _ _ _ (by simp)]
    rw [memWr_same _ _ _ _ (by simp [h.iv])]
  · simp only [he]
    exact ⟨rfl, by simp [h.iv], ⟨by simp, h.buf, h.stash⟩⟩

theorem magmaCtr_body : BodySame 8 GLens magmaCtrBody magmaCtrBodyM := by
  intro e m i o h hb
  have hg := h.gamma
  unfold magmaCtrBody magmaCtrBodyM
  refine ⟨?_, by simp [hg.buf], ⟨hg.iv, hg.buf, hg.stash⟩⟩
  simp only [memXor_full _ _ hb hg.buf]

theorem cfb_body : BodySame 8 GFb cfbBody cfbBodyM := by
  intro e m i o h hb
  have hg := h.mesh
  unfold cfbBody cfbBodyM
  generalize gost_crypt_mesh e = e1 at hg
  by_cases he : e1.encrypting = true
  · simp only [he, if_true]
    rw [memXor_full _ _ hb hg.buf, memRd_memWr' m o 8 _ (by simp [hg.buf])]
    exact ⟨rfl, by simp [hg.buf], ⟨⟨by simp [hg.buf], hg.buf, hg.stash⟩, hg.num⟩⟩
  · simp only [he]
    rw [memXor_full _ _ hb (by exact hg.buf)]
    exact ⟨rfl, by simp [hg.buf], ⟨⟨by simp, hg.buf, hg.stash⟩, hg.num⟩⟩

theorem cnt_body : BodySame 8 GFb cntBody cntBodyM := by
  intro e m i o h hb
  have hg := h.cnt
  unfold cntBody cntBodyM
  refine ⟨?_, by simp [hg.buf], hg⟩
  simp only [memXor_full _ _ hb hg.buf]

/-- The tail of CFB on bytes: what `cfbMain` does with the last bytes. -/
def cfbTail (e : CipherCtx) (rest : Bytes) : CipherCtx × Bytes :=
  if 0 < rest.length then
    let e := gost_crypt_mesh e
    let out := xorB (e.buf.take rest.length) rest
    let stash := if e.encrypting then memcpy e.stash out rest.length
      else memcpy e.stash rest rest.length
    ({ e with num := rest.length, stash := stash }, out)
  else ({ e with num := 0 }, [])

theorem cfbMain_split (e : CipherCtx) (inp : Bytes) :
    cfbMain e inp = ((cfbTail (whileBlocks 8 cfbBody e inp).1 (whileBlocks 8 cfbBody e inp).2.2).1,
      (whileBlocks 8 cfbBody e inp).2.1 ++ (cfbTail (whileBlocks 8 cfbBody e inp).1 (whileBlocks 8 cfbBody e inp).2.2).2) := by
  unfold cfbMain cfbTail
  generalize whileBlocks 8 cfbBody e inp = w
  by_cases h : 0 < w.2.2.length
  · simp only [if_pos h]
  · simp only [if_neg h, List.append_nil]

theorem memcpy_length8 (d s : Bytes) (k : Nat) (hd : d.length = 8) (hs : s.length = k) (hk : k ≤ 8) : (memcpy d s k).length = 8 := by
  simp [memcpy, hd, hs]; omega

theorem cfbTail_acts (e : CipherCtx) (h : GFb e) (n : Nat) (hn : n ≤ 8) :
    ActsInv GFb (fun m i o n => cfbTailM ⟨e, m, i, o, n⟩) (cfbTail e) n := by
  intro m i o hb
  have hg := h.mesh
  unfold cfbTail cfbTailM
  by_cases h0 : 0 < n
  · simp only [memRd_length, if_pos h0]
    generalize gost_crypt_mesh e = e1 at hg
    by_cases he : e1.encrypting = true
    · simp only [he, if_true]
      rw [memXor_eq _ _ hb (by rw [hg.buf]; exact hn), memRd_memWr' m o n _ (by simp [hg.buf]; omega)]
      exact ⟨rfl, by simp [hg.buf]; omega, ⟨⟨hg.iv, hg.buf, memcpy_length8 _ _ _ hg.stash (by simp [hg.buf]; omega) hn⟩, hn⟩⟩
    · simp only [he]
      rw [memXor_eq _ _ hb (by show n ≤ e1.buf.length; rw [hg.buf]; exact hn)]
      exact ⟨rfl, by simp [hg.buf]; omega, ⟨⟨hg.iv, hg.buf, memcpy_length8 _ _ _ hg.stash (by simp) hn⟩, hn⟩⟩
  · simp only [memRd_length, if_neg h0]
    exact ⟨by simp, by simp; omega, ⟨⟨h.iv, h.buf, h.stash⟩, Nat.zero_le _⟩⟩

theorem memBlocks_left {S : Type} (bl : Nat) (hbl : 0 < bl) (body : S → BMem → Nat → Nat → S × BMem) : ∀ (n : Nat) (s : S) (m : BMem) (i o : Nat),
    (memBlocks bl body s m i o n).n < bl := by
  intro n
  induction n using Nat.strongRecOn with
  | _ n ih =>
    intro s m i o
    rw [memBlocks]
    by_cases hn : 0 < bl ∧ bl ≤ n
    · rw [dif_pos hn]; exact ih _ (by omega) _ _ _ _
    · rw [dif_neg hn]; dsimp only; omega

theorem memBlocksLt_left {S : Type} (bl : Nat) (hbl : 0 < bl) (body : S → BMem → Nat → Nat → S × BMem) : ∀ (n : Nat) (s : S) (m : BMem) (i o : Nat),
    (memBlocksLt bl body s m i o n).n ≤ bl := by
  intro n
  induction n using Nat.strongRecOn with
  | _ n ih =>
    intro s m i o
    rw [memBlocksLt]
    by_cases hn : 0 < bl ∧ bl < n
    · rw [dif_pos hn]; exact ih _ (by omega) _ _ _ _
    · rw [dif_neg hn]; dsimp only; omega

/-- Blocks and tail. -/
theorem blocks_tail {S : Type} (bl : Nat) (hbl : 0 < bl) (Inv : S → Prop) (body : S → Bytes → S × Bytes)
    (bodyM : S → BMem → Nat → Nat → S × BMem) (hbody : BodySame bl Inv body bodyM) (tail : S → Bytes → S × Bytes)
    (tailM : MemAt S → S × BMem) (htail : ∀ s, Inv s → ∀ n ≤ bl, ActsInv Inv (fun m i o n => tailM ⟨s, m, i, o, n⟩) (tail s) n)
    (s : S) (hs : Inv s) (n : Nat) :
    ActsInv Inv (fun m i o n => tailM (memBlocks bl bodyM s m i o n))
      (fun inp => ((tail (whileBlocks bl body s inp).1 (whileBlocks bl body s inp).2.2).1,
        (whileBlocks bl body s inp).2.1 ++ (tail (whileBlocks bl body s inp).1 (whileBlocks bl body s inp).2.2).2)) n := by
  intro m i o hb
  obtain ⟨t, ti⟩ := memBlocks_same bl hbl Inv body bodyM hbody n s m i o hs hb
  have hl := memBlocks_left bl hbl bodyM n s m i o
  dsimp only
  generalize whileBlocks bl body s (memRd m i n) = w at t ti
  generalize memBlocks bl bodyM s m i o n = r at t hl
  have hs' : r.s = w.1 := t.s
  have hh := htail w.1 ti r.n (by omega)
  have := part_then hb t (fun m i o n => tailM ⟨w.1, m, i, o, n⟩) (tail w.1) hh
  rw [← hs'] at this
  rw [← hs']
  exact this

theorem blocksLt_tail {S : Type} (bl : Nat) (hbl : 0 < bl) (Inv : S → Prop) (body : S → Bytes → S × Bytes)
    (bodyM : S → BMem → Nat → Nat → S × BMem) (hbody : BodySame bl Inv body bodyM) (tail : S → Bytes → S × Bytes)
    (tailM : MemAt S → S × BMem) (htail : ∀ s, Inv s → ∀ n ≤ bl, ActsInv Inv (fun m i o n => tailM ⟨s, m, i, o, n⟩) (tail s) n)
    (s : S) (hs : Inv s) (n : Nat) :
    ActsInv Inv (fun m i o n => tailM (memBlocksLt bl bodyM s m i o n))
      (fun inp => ((tail (whileBlocksLt bl body s inp).1 (whileBlocksLt bl body s inp).2.2).1,
        (whileBlocksLt bl body s inp).2.1 ++ (tail (whileBlocksLt bl body s inp).1 (whileBlocksLt bl body s inp).2.2).2)) n := by
  intro m i o hb
  obtain ⟨t, ti⟩ := memBlocksLt_same bl hbl Inv body bodyM hbody n s m i o hs hb
  have hl := memBlocksLt_left bl hbl bodyM n s m i o
  dsimp only
  generalize whileBlocksLt bl body s (memRd m i n) = w at t ti
  generalize memBlocksLt bl bodyM s m i o n = r at t hl
  have hs' : r.s = w.1 := t.s
  have hh := htail w.1 ti r.n (by omega)
  have := part_then hb t (fun m i o n => tailM ⟨w.1, m, i, o, n⟩) (tail w.1) hh
  rw [← hs'] at this
  rw [← hs']
  exact this

theorem cfbMain_acts (e : CipherCtx) (h : GFb e) (n : Nat) : ActsInv GFb (cfbMainM e) (cfbMain e) n := by
  have := blocks_tail 8 (by decide) GFb cfbBody cfbBodyM cfb_body cfbTail cfbTailM cfbTail_acts e h n
  intro m i o hb
  have := this m i o hb
  rw [cfbMain_split]
  exact this

theorem cfbPartB_shape (bl : Nat) (enc : Bool) (buf : Bytes) : ∀ (xs : Bytes) (j : Nat) (st : Bytes),
    (cfbPartB bl enc buf j st xs).1.2.length = st.length ∧ (bl ≤ (cfbPartB bl enc buf j st xs).1.1 ∨ (cfbPartB bl enc buf j st xs).2.2 = []) := by
  intro xs
  induction xs with
  | nil => intro j st; exact ⟨rfl, Or.inr rfl⟩
  | cons x xs ih =>
    intro j st
    rw [cfbPartB]
    by_cases hj : j < bl
    · rw [if_pos hj]
      have := ih (j + 1) (if enc = true then st.set j (at_ buf j ^^^ x) else st.set j x)
      refine ⟨?_, this.2⟩
      rw [this.1]; split <;> simp
    · rw [if_neg hj]; exact ⟨rfl, Or.inl (by simpa using hj)⟩

/-- The pointers and the count after a loop that used up all the input. -/
theorem LoopSame.all {S T : Type} {f : T → S} {r : MemAt S} {w : T × Bytes × Bytes} {m : BMem} {i o n : Nat} (h : LoopSame f r w m i o n)
    (he : w.2.2 = []) : w.2.1.length = n := by
  have h1 := h.rest
  rw [he] at h1
  have := congrArg List.length h1
  simp at this
  have := h.le
  omega

theorem cfbPartB_pos (bl : Nat) (enc : Bool) (buf : Bytes) : ∀ (xs : Bytes) (j : Nat) (st : Bytes), j ≤ bl →
    (cfbPartB bl enc buf j st xs).1.1 ≤ bl := by
  intro xs
  induction xs with
  | nil => intro j st h; exact h
  | cons x xs ih =>
    intro j st h
    rw [cfbPartB]
    by_cases hj : j < bl
    · rw [if_pos hj]; exact ih _ _ hj
    · rw [if_neg hj]; exact h

theorem cfb_acts (e : CipherCtx) (h : GFb e) (n : Nat) : ActsInv GFb (gost_cipher_do_cfbM e) (gost_cipher_do_cfb e) n := by
  intro m i o hb
  unfold gost_cipher_do_cfbM gost_cipher_do_cfb
  by_cases h0 : e.num ≠ 0
  · simp only [if_pos h0]
    have t := memCfbPart_same 8 e.encrypting e.buf n e.num e.stash m i o hb
    have sh := cfbPartB_shape 8 e.encrypting e.buf (memRd m i n) e.num e.stash
    have ps := cfbPartB_pos 8 e.encrypting e.buf (memRd m i n) e.num e.stash h.num
    rw [cfbPartB_gost]
    generalize cfbPartB 8 e.encrypting e.buf e.num e.stash (memRd m i n) = w at t sh ps
    generalize memCfbPart 8 e.encrypting e.buf e.num e.stash m i o n = r at t
    have hs' : r.s = w.1 := t.s
    rw [hs']
    by_cases h8 : w.1.1 = 8
    · simp only [if_pos h8]
      have hl : GFb { e with stash := w.1.2, iv := w.1.2, num := 0 } := ⟨⟨by rw [sh.1]; exact h.stash, h.buf, by rw [sh.1]; exact h.stash⟩, Nat.zero_le _⟩
      exact part_then hb t _ _ (cfbMain_acts _ hl r.n)
    · simp only [if_neg h8]
      have he : w.2.2 = [] := sh.2.resolve_left (by omega)
      exact ⟨by rw [t.m'], t.all he, ⟨⟨h.iv, h.buf, by rw [sh.1]; exact h.stash⟩, ps⟩⟩
  · simp only [if_neg h0]
    exact cfbMain_acts e h n m i o hb

/-- The tail of counter mode on bytes. -/
def cntTail (e : CipherCtx) (rest : Bytes) : CipherCtx × Bytes :=
  if 0 < rest.length then
    let e := gost_cnt_next e
    ({ e with num := rest.length }, xorB (e.buf.take rest.length) rest)
  else ({ e with num := 0 }, [])

theorem cntMain_split (e : CipherCtx) (inp : Bytes) :
    cntMain e inp = ((cntTail (whileBlocks 8 cntBody e inp).1 (whileBlocks 8 cntBody e inp).2.2).1,
      (whileBlocks 8 cntBody e inp).2.1 ++ (cntTail (whileBlocks 8 cntBody e inp).1 (whileBlocks 8 cntBody e inp).2.2).2) := by
  unfold cntMain cntTail
  generalize whileBlocks 8 cntBody e inp = w
  by_cases h : 0 < w.2.2.length
  · simp only [if_pos h]
  · simp only [if_neg h, List.append_nil]

theorem cntTail_acts (e : CipherCtx) (h : GFb e) (n : Nat) (hn : n ≤ 8) :
    ActsInv GFb (fun m i o n => cntTailM ⟨e, m, i, o, n⟩) (cntTail e) n := by
  intro m i o hb
  have hg := h.cnt
  unfold cntTail cntTailM
  by_cases h0 : 0 < n
  · simp only [memRd_length, if_pos h0]
    generalize gost_cnt_next e = e1 at hg
    rw [memXor_eq _ _ hb (by rw [hg.buf]; exact hn)]
    exact ⟨rfl, by simp [hg.buf]; omega, ⟨⟨hg.iv, hg.buf, hg.stash⟩, hn⟩⟩
  · simp only [memRd_length, if_neg h0]
    exact ⟨by simp, by simp; omega, ⟨⟨h.iv, h.buf, h.stash⟩, Nat.zero_le _⟩⟩

theorem cntMain_acts (e : CipherCtx) (h : GFb e) (n : Nat) : ActsInv GFb (cntMainM e) (cntMain e) n := by
  have := blocks_tail 8 (by decide) GFb cntBody cntBodyM cnt_body cntTail cntTailM cntTail_acts e h n
  intro m i o hb
  have := this m i o hb
  rw [cntMain_split]
  exact this

theorem xorPart_shape (bl : Nat) (buf : Bytes) : ∀ (xs : Bytes) (j : Nat), j ≤ bl →
    (xorPart bl buf j xs).1 ≤ bl ∧ (bl ≤ (xorPart bl buf j xs).1 ∨ (xorPart bl buf j xs).2.2 = []) := by
  intro xs
  induction xs with
  | nil => intro j h; exact ⟨h, Or.inr rfl⟩
  | cons x xs ih =>
    intro j h
    rw [xorPart]
    by_cases hj : j < bl
    · rw [if_pos hj]; exact ih _ hj
    · rw [if_neg hj]; exact ⟨h, Or.inl (by simpa using hj)⟩

theorem cnt_acts (e : CipherCtx) (h : GFb e) (n : Nat) : ActsInv GFb (gost_cipher_do_cntM e) (gost_cipher_do_cnt e) n := by
  intro m i o hb
  unfold gost_cipher_do_cntM gost_cipher_do_cnt
  by_cases h0 : e.num ≠ 0
  · simp only [if_pos h0]
    have t := memXorPart_same 8 e.buf n e.num m i o hb
    have sh := xorPart_shape 8 e.buf (memRd m i n) e.num h.num
    generalize xorPart 8 e.buf e.num (memRd m i n) = w at t sh
    generalize memXorPart 8 e.buf e.num m i o n = r at t
    have hs' : r.s = w.1 := t.s
    rw [hs']
    by_cases h8 : w.1 = 8
    · simp only [if_pos h8]
      have hl : GFb { e with num := 0 } := ⟨⟨h.iv, h.buf, h.stash⟩, Nat.zero_le _⟩
      exact part_then hb t _ _ (cntMain_acts _ hl r.n)
    · simp only [if_neg h8]
      have he : w.2.2 = [] := sh.2.resolve_left (by omega)
      exact ⟨by rw [t.m'], t.all he, ⟨⟨h.iv, h.buf, h.stash⟩, sh.1⟩⟩
  · simp only [if_neg h0]
    exact cntMain_acts e h n m i o hb

/-- The tail of Magma CTR on bytes. -/
def magmaCtrTail (e : CipherCtx) (rest : Bytes) : CipherCtx × Bytes :=
  if 0 < rest.length then
    let e := magmaCtrGamma e
    ({ e with num := (e.num + rest.length) % 2^32 }, xorB (e.buf.take rest.length) rest)
  else (e, [])

theorem magmaCtrTail_acts (e : CipherCtx) (h : GLens e) (n : Nat) (hn : n ≤ 8) :
    ActsInv GLens (fun m i o n => magmaCtrTailM ⟨e, m, i, o, n⟩) (magmaCtrTail e) n := by
  intro m i o hb
  have hg := h.gamma
  unfold magmaCtrTail magmaCtrTailM
  by_cases h0 : 0 < n
  · simp only [memRd_length, if_pos h0]
    generalize magmaCtrGamma e = e1 at hg
    rw [memXor_eq _ _ hb (by rw [hg.buf]; exact hn)]
    exact ⟨rfl, by simp [hg.buf]; omega, ⟨hg.iv, hg.buf, hg.stash⟩⟩
  · simp only [memRd_length, if_neg h0]
    exact ⟨by simp, by simp; omega, ⟨h.iv, h.buf, h.stash⟩⟩

theorem magmaCtr_acts (e : CipherCtx) (h : GLens e) (n : Nat) : ActsInv GLens (magma_cipher_do_ctrM e) (magma_cipher_do_ctr e) n := by
  intro m i o hb
  unfold magma_cipher_do_ctrM magma_cipher_do_ctr
  have t := memCtrPart_same (· % 8) (fun k => (k + 1) % 2^32) e.buf n e.num m i o hb
  rw [ctrPart_magma] at t
  dsimp only
  generalize magmaCtrPart e.buf e.num (memRd m i n) = w at t
  generalize memCtrPart (· % 8) (fun k => (k + 1) % 2^32) e.buf e.num m i o n = r at t
  have hs' : r.s = w.1 := t.s
  rw [hs']
  have hl : GLens { e with num := w.1 } := ⟨h.iv, h.buf, h.stash⟩
  have k := part_then hb t _ _ (blocks_tail 8 (by decide) GLens magmaCtrBody magmaCtrBodyM magmaCtr_body magmaCtrTail magmaCtrTailM
    magmaCtrTail_acts _ hl r.n)
  rw [List.append_assoc]
  exact k

/-! ## Kuznyechik -/

/-- The buffers inside the context have 16 bytes and the round keys belong to the key. -/
structure KLens (c : KCtx) : Prop extends KOk c where
  iv : c.iv.length = 16
  buf : c.buf.length = 16
  stash : c.stash.length = 16
  pb : c.partial_buffer.length = 16

theorem KLens.enc_length {c : KCtx} (h : KLens c) (b : Bytes) (hb : b.length = 16) :
    (grasshopper_encrypt_block c.encrypt_round_keys b).length = 16 := by
  rw [h.toKOk.enc b hb]; exact EKuz_length _ _

theorem KLens.dec_length {c : KCtx} (h : KLens c) (b : Bytes) (hb : b.length = 16) :
    (grasshopper_decrypt_block c.decrypt_round_keys b).length = 16 := by
  rw [h.toKOk.dec b hb]; exact DKuz_length _ _

theorem kEcb_same : BodySame 16 KLens kEcbBody kEcbBodyM := by
  intro c m i o h hb
  have h1 := h.enc_length (memRd m i 16) (by simp)
  have h2 := h.dec_length (memRd m i 16) (by simp)
  unfold kEcbBody kEcbBodyM
  generalize grasshopper_encrypt_block c.encrypt_round_keys (memRd m i 16) = out at h1
  generalize grasshopper_decrypt_block c.decrypt_round_keys (memRd m i 16) = out' at h2
  cases he : c.encrypting
  · exact ⟨rfl, h2, h⟩
  · exact ⟨rfl, h1, h⟩

theorem kCbc_same : BodySame 16 KLens kCbcBody kCbcBodyM := by
  intro c m i o h hb
  unfold kCbcBody kCbcBodyM
  by_cases he : c.encrypting = true
  · simp only [he, if_true]
    have hl := h.enc_length (xorB c.iv (memRd m i 16)) (by simp [h.iv])
    generalize grasshopper_encrypt_block c.encrypt_round_keys (xorB c.iv (memRd m i 16)) = out at hl
    rw [memRd_memWr' m o 16 _ hl]
    exact ⟨rfl, hl, ⟨⟨h.ek, h.dk, h.len⟩, hl, h.buf, h.stash, h.pb⟩⟩
  · have he : c.encrypting = false := by simpa using he
    simp only [he, if_neg (show ¬ false = true by decide)]
    have hl := h.dec_length (memRd m i 16) (by simp)
    generalize grasshopper_decrypt_block c.decrypt_round_keys (memRd m i 16) = out at hl
    refine ⟨?_, by simp [hl, h.iv], ⟨⟨h.ek, h.dk, h.len⟩, by simp, h.buf, h.stash, h.pb⟩⟩
    unfold memAppend128
    rw [memRd_memWr' m o 16 _ hl, memWr_same _ _ _ _ (by simp [hl, h.iv])]

theorem kCtr_body : BodySame 16 KLens kCtrBody kCtrBodyM := by
  intro c m i o h hb
  unfold kCtrBody kCtrBodyM
  have hl := h.enc_length c.iv h.iv
  generalize grasshopper_encrypt_block c.encrypt_round_keys c.iv = out at hl
  exact ⟨rfl, by simp [hl], ⟨⟨h.ek, h.dk, h.len⟩, by rw [inc_counter_length]; exact h.iv, h.buf, h.stash, hl⟩⟩

theorem cipher_key_lens {c : KCtx} (h : KLens c) (k : Bytes) : KLens (gost_grasshopper_cipher_key c k) := by
  have hk := KOk_cipher_key c k
  unfold gost_grasshopper_cipher_key at hk ⊢
  exact ⟨hk, h.iv, h.buf, h.stash, h.pb⟩

theorem acpkm_next_lens {c : KCtx} (h : KLens c) : KLens (acpkm_next c) := by
  unfold acpkm_next
  exact cipher_key_lens h _

theorem KLens.gamma {c : KCtx} (h : KLens c) : KLens (kAcpkmGamma c) := by
  have h1 : KLens (apply_acpkm_grasshopper c) := by
    unfold apply_acpkm_grasshopper
    by_cases hc : c.section_size = 0 ∨ c.num < c.section_size
    · rw [if_pos hc]; exact h
    · rw [if_neg hc]
      have := acpkm_next_lens h
      exact ⟨⟨this.ek, this.dk, this.len⟩, this.iv, this.buf, this.stash, this.pb⟩
  unfold kAcpkmGamma
  generalize apply_acpkm_grasshopper c = c1 at h1
  have hl := h1.enc_length c1.iv h1.iv
  exact ⟨⟨h1.ek, h1.dk, h1.len⟩, by dsimp only; rw [inc_counter_length]; exact h1.iv, h1.buf, h1.stash, hl⟩

theorem kAcpkm_body : BodySame 16 KLens kAcpkmBody kAcpkmBodyM := by
  intro c m i o h hb
  have hg := h.gamma
  unfold kAcpkmBody kAcpkmBodyM
  generalize kAcpkmGamma c = c1 at hg
  exact ⟨rfl, by simp [hg.pb], ⟨⟨hg.ek, hg.dk, hg.len⟩, hg.iv, hg.buf, hg.stash, hg.pb⟩⟩

/-- In OFB and CFB mode the number of gamma bytes used is at most a block. -/
structure KFb (c : KCtx) : Prop extends KLens c where
  num : c.num ≤ 16

theorem KFb.cnt {c : KCtx} (h : KFb c) : KFb (gost_grasshopper_cnt_next c) := by
  unfold gost_grasshopper_cnt_next
  have hl := h.toKLens.enc_length c.iv h.iv
  generalize grasshopper_encrypt_block c.encrypt_round_keys c.iv = out at hl
  exact ⟨⟨⟨h.ek, h.dk, h.len⟩, hl, hl, h.stash, h.pb⟩, h.num⟩

theorem kOfb_body : BodySame 16 KFb kOfbBody kOfbBodyM := by
  intro c m i o h hb
  have hg := h.cnt
  unfold kOfbBody kOfbBodyM
  generalize gost_grasshopper_cnt_next c = c1 at hg
  refine ⟨?_, by simp [hg.buf], hg⟩
  simp only [memXor_full _ _ hb hg.buf]

theorem kCfb_body : BodySame 16 KFb kCfbBody kCfbBodyM := by
  intro c m i o h hb
  unfold kCfbBody kCfbBodyM
  have hl := h.toKLens.enc_length c.iv h.iv
  generalize grasshopper_encrypt_block c.encrypt_round_keys c.iv = out at hl
  dsimp only
  by_cases he : c.encrypting = true
  · simp only [he, if_true]
    rw [memXor_full _ _ hb hl, memRd_memWr' m o 16 _ (by simp [hl])]
    exact ⟨rfl, by simp [hl], ⟨⟨⟨h.ek, h.dk, h.len⟩, by simp [hl], hl, h.stash, h.pb⟩, h.num⟩⟩
  · have he : c.encrypting = false := by simpa using he
    simp only [he, if_neg (show ¬ false = true by decide)]
    rw [memXor_full _ _ hb hl]
    exact ⟨rfl, by simp [hl], ⟨⟨⟨h.ek, h.dk, h.len⟩, by simp, hl, h.stash, h.pb⟩, h.num⟩⟩

/-- The tail of OFB on bytes. -/
def kOfbTail (c : KCtx) (rest : Bytes) : KCtx × Bytes :=
  if 0 < rest.length then
    let c := gost_grasshopper_cnt_next c
    ({ c with num := rest.length }, xorB (c.buf.take rest.length) rest)
  else ({ c with num := 0 }, [])

theorem kOfbMain_split (c : KCtx) (inp : Bytes) :
    kOfbMain c inp = ((kOfbTail (whileBlocksLt 16 kOfbBody c inp).1 (whileBlocksLt 16 kOfbBody c inp).2.2).1,
      (whileBlocksLt 16 kOfbBody c inp).2.1 ++ (kOfbTail (whileBlocksLt 16 kOfbBody c inp).1 (whileBlocksLt 16 kOfbBody c inp).2.2).2) := by
  unfold kOfbMain kOfbTail
  generalize whileBlocksLt 16 kOfbBody c inp = w
  by_cases h : 0 < w.2.2.length
  · simp only [if_pos h]
  · simp only [if_neg h, List.append_nil]

theorem kOfbTail_acts (c : KCtx) (h : KFb c) (n : Nat) (hn : n ≤ 16) :
    ActsInv KFb (fun m i o n => kOfbTailM ⟨c, m, i, o, n⟩) (kOfbTail c) n := by
  intro m i o hb
  have hg := h.cnt
  unfold kOfbTail kOfbTailM
  by_cases h0 : 0 < n
  · simp only [memRd_length, if_pos h0]
    generalize gost_grasshopper_cnt_next c = e1 at hg
    rw [memXor_eq _ _ hb (by rw [hg.buf]; exact hn)]
    exact ⟨rfl, by simp [hg.buf]; omega, ⟨⟨⟨hg.ek, hg.dk, hg.len⟩, hg.iv, hg.buf, hg.stash, hg.pb⟩, hn⟩⟩
  · simp only [memRd_length, if_neg h0]
    exact ⟨by simp, by simp; omega, ⟨⟨⟨h.ek, h.dk, h.len⟩, h.iv, h.buf, h.stash, h.pb⟩, Nat.zero_le _⟩⟩

theorem kOfbMain_acts (c : KCtx) (h : KFb c) (n : Nat) : ActsInv KFb (kOfbMainM c) (kOfbMain c) n := by
  have := blocksLt_tail 16 (by decide) KFb kOfbBody kOfbBodyM kOfb_body kOfbTail kOfbTailM kOfbTail_acts c h n
  intro m i o hb
  have := this m i o hb
  rw [kOfbMain_split]
  exact this

theorem kOfb_acts (c : KCtx) (h : KFb c) (n : Nat) :
    ActsInv KFb (gost_grasshopper_cipher_do_ofbM c) (gost_grasshopper_cipher_do_ofb c) n := by
  intro m i o hb
  unfold gost_grasshopper_cipher_do_ofbM gost_grasshopper_cipher_do_ofb
  by_cases h0 : c.num > 0
  · simp only [if_pos h0]
    have t := memXorPart_same 16 c.buf n c.num m i o hb
    have sh := xorPart_shape 16 c.buf (memRd m i n) c.num h.num
    generalize xorPart 16 c.buf c.num (memRd m i n) = w at t sh
    generalize memXorPart 16 c.buf c.num m i o n = r at t
    have hs' : r.s = w.1 := t.s
    rw [hs']
    by_cases h8 : w.1 = 16
    · simp only [if_pos h8]
      have hl : KFb { c with num := 0 } := ⟨⟨⟨h.ek, h.dk, h.len⟩, h.iv, h.buf, h.stash, h.pb⟩, Nat.zero_le _⟩
      exact part_then hb t _ _ (kOfbMain_acts _ hl r.n)
    · simp only [if_neg h8]
      have he : w.2.2 = [] := sh.2.resolve_left (by omega)
      exact ⟨by rw [t.m'], t.all he, ⟨⟨⟨h.ek, h.dk, h.len⟩, h.iv, h.buf, h.stash, h.pb⟩, sh.1⟩⟩
  · simp only [if_neg h0]
    exact kOfbMain_acts c h n m i o hb

/-- The tail of CFB on bytes. -/
def kCfbTail (c : KCtx) (rest : Bytes) : KCtx × Bytes :=
  if 0 < rest.length then
    let c := { c with buf := grasshopper_encrypt_block c.encrypt_round_keys c.iv }
    let c := if c.encrypting then c else { c with stash := memcpyTo c.stash rest rest.length }
    let out := xorB (c.buf.take rest.length) rest
    let c := { c with num := rest.length }
    let c := if c.encrypting then { c with stash := memcpyTo c.stash out rest.length } else c
    (c, out)
  else ({ c with num := 0 }, [])

theorem kCfbMain_split (c : KCtx) (inp : Bytes) :
    kCfbMain c inp = ((kCfbTail (whileBlocksLt 16 kCfbBody c inp).1 (whileBlocksLt 16 kCfbBody c inp).2.2).1,
      (whileBlocksLt 16 kCfbBody c inp).2.1 ++ (kCfbTail (whileBlocksLt 16 kCfbBody c inp).1 (whileBlocksLt 16 kCfbBody c inp).2.2).2) := by
  unfold kCfbMain kCfbTail
  generalize whileBlocksLt 16 kCfbBody c inp = w
  by_cases h : 0 < w.2.2.length
  · simp only [if_pos h]
  · simp only [if_neg h, List.append_nil]

theorem memcpyTo_length16 (d s : Bytes) (k : Nat) (hd : d.length = 16) (hs : s.length = k) (hk : k ≤ 16) : (memcpyTo d s k).length = 16 := by
  simp [memcpyTo, hd, hs]; omega

theorem kCfbTail_acts (c : KCtx) (h : KFb c) (n : Nat) (hn : n ≤ 16) :
    ActsInv KFb (fun m i o n => kCfbTailM ⟨c, m, i, o, n⟩) (kCfbTail c) n := by
  intro m i o hb
  have hl := h.toKLens.enc_length c.iv h.iv
  unfold kCfbTail kCfbTailM
  dsimp only
  generalize grasshopper_encrypt_block c.encrypt_round_keys c.iv = out at hl
  by_cases h0 : 0 < n
  · simp only [memRd_length, if_pos h0]
    by_cases he : c.encrypting = true
    · simp only [he, if_true]
      rw [memXor_eq _ _ hb (by rw [hl]; exact hn), memRd_memWr' m o n _ (by simp [hl]; omega)]
      exact ⟨rfl, by simp [hl]; omega,
        ⟨⟨⟨h.ek, h.dk, h.len⟩, h.iv, hl, memcpyTo_length16 _ _ _ h.stash (by simp [hl]; omega) hn, h.pb⟩, hn⟩⟩
    · have he : c.encrypting = false := by simpa using he
      simp only [he, if_neg (show ¬ false = true by decide)]
      rw [memXor_eq _ _ hb (by rw [hl]; exact hn)]
      exact ⟨rfl, by simp [hl]; omega,
        ⟨⟨⟨h.ek, h.dk, h.len⟩, h.iv, hl, memcpyTo_length16 _ _ _ h.stash (by simp) hn, h.pb⟩, hn⟩⟩
  · simp only [memRd_length, if_neg h0]
    exact ⟨by simp, by simp; omega, ⟨⟨⟨h.ek, h.dk, h.len⟩, h.iv, h.buf, h.stash, h.pb⟩, Nat.zero_le _⟩⟩

theorem kCfbMain_acts (c : KCtx) (h : KFb c) (n : Nat) : ActsInv KFb (kCfbMainM c) (kCfbMain c) n := by
  have := blocksLt_tail 16 (by decide) KFb kCfbBody kCfbBodyM kCfb_body kCfbTail kCfbTailM kCfbTail_acts c h n
  intro m i o hb
  have := this m i o hb
  rw [kCfbMain_split]
  exact this

theorem kCfb_acts (c : KCtx) (h : KFb c) (n : Nat) :
    ActsInv KFb (gost_grasshopper_cipher_do_cfbM c) (gost_grasshopper_cipher_do_cfb c) n := by
  intro m i o hb
  unfold gost_grasshopper_cipher_do_cfbM gost_grasshopper_cipher_do_cfb
  by_cases h0 : c.num > 0
  · simp only [if_pos h0]
    have t := memCfbPart_same 16 c.encrypting c.buf n c.num c.stash m i o hb
    have sh := cfbPartB_shape 16 c.encrypting c.buf (memRd m i n) c.num c.stash
    have ps := cfbPartB_pos 16 c.encrypting c.buf (memRd m i n) c.num c.stash h.num
    rw [cfbPartB_kuz]
    generalize cfbPartB 16 c.encrypting c.buf c.num c.stash (memRd m i n) = w at t sh ps
    generalize memCfbPart 16 c.encrypting c.buf c.num c.stash m i o n = r at t
    have hs' : r.s = w.1 := t.s
    rw [hs']
    by_cases h8 : w.1.1 = 16
    · simp only [if_pos h8]
      have hl : KFb { c with stash := w.1.2, iv := w.1.2, num := 0 } :=
        ⟨⟨⟨h.ek, h.dk, h.len⟩, by rw [sh.1]; exact h.stash, h.buf, by rw [sh.1]; exact h.stash, h.pb⟩, Nat.zero_le _⟩
      exact part_then hb t _ _ (kCfbMain_acts _ hl r.n)
    · simp only [if_neg h8]
      have he : w.2.2 = [] := sh.2.resolve_left (by omega)
      exact ⟨by rw [t.m'], t.all he, ⟨⟨⟨h.ek, h.dk, h.len⟩, h.iv, h.buf, by rw [sh.1]; exact h.stash, h.pb⟩, ps⟩⟩
  · simp only [if_neg h0]
    exact kCfbMain_acts c h n m i o hb

/-- The tail of CTR on bytes. -/
def kCtrTail (c : KCtx) (rest : Bytes) : KCtx × Bytes :=
  if 0 < rest.length then
    let pb := grasshopper_encrypt_block c.encrypt_round_keys c.iv
    ({ c with partial_buffer := pb, num := rest.length, iv := inc_counter c.iv 16 }, xorB (pb.take rest.length) rest)
  else (c, [])

theorem kCtrTail_acts (c : KCtx) (h : KLens c) (n : Nat) (hn : n ≤ 16) :
    ActsInv KLens (fun m i o n => kCtrTailM ⟨c, m, i, o, n⟩) (kCtrTail c) n := by
  intro m i o hb
  have hl := h.enc_length c.iv h.iv
  unfold kCtrTail kCtrTailM
  dsimp only
  generalize grasshopper_encrypt_block c.encrypt_round_keys c.iv = out at hl
  by_cases h0 : 0 < n
  · simp only [memRd_length, if_pos h0]
    rw [memXor_eq _ _ hb (by rw [hl]; exact hn)]
    exact ⟨rfl, by simp [hl]; omega, ⟨⟨h.ek, h.dk, h.len⟩, by dsimp only; rw [inc_counter_length]; exact h.iv, h.buf, h.stash, hl⟩⟩
  · simp only [memRd_length, if_neg h0]
    exact ⟨by simp, by simp; omega, h⟩

theorem kCtr_acts (c : KCtx) (h : KLens c) (n : Nat) :
    ActsInv KLens (gost_grasshopper_cipher_do_ctrM c) (gost_grasshopper_cipher_do_ctr c) n := by
  intro m i o hb
  unfold gost_grasshopper_cipher_do_ctrM gost_grasshopper_cipher_do_ctr
  have t := memCtrPart_same id (fun k => (k + 1) % 16) c.partial_buffer n c.num m i o hb
  rw [ctrPart_kuz] at t
  dsimp only
  generalize kCtrPart c.partial_buffer c.num (memRd m i n) = w at t
  generalize memCtrPart id (fun k => (k + 1) % 16) c.partial_buffer c.num m i o n = r at t
  have hs' : r.s = w.1 := t.s
  rw [hs']
  have hl : KLens { c with num := w.1 } := ⟨⟨h.ek, h.dk, h.len⟩, h.iv, h.buf, h.stash, h.pb⟩
  have k := part_then hb t _ _ (blocks_tail 16 (by decide) KLens kCtrBody kCtrBodyM kCtr_body kCtrTail kCtrTailM
    kCtrTail_acts _ hl r.n)
  rw [List.append_assoc]
  exact k

/-- The tail of CTR-ACPKM on bytes. -/
def kAcpkmTail (c : KCtx) (rest : Bytes) : KCtx × Bytes :=
  if 0 < rest.length then
    let c := kAcpkmGamma c
    ({ c with num := (c.num + rest.length) % 2^32 }, xorB (c.partial_buffer.take rest.length) rest)
  else (c, [])

theorem kAcpkmTail_acts (c : KCtx) (h : KLens c) (n : Nat) (hn : n ≤ 16) :
    ActsInv KLens (fun m i o n => kAcpkmTailM ⟨c, m, i, o, n⟩) (kAcpkmTail c) n := by
  intro m i o hb
  have hg := h.gamma
  unfold kAcpkmTail kAcpkmTailM
  by_cases h0 : 0 < n
  · simp only [memRd_length, if_pos h0]
    generalize kAcpkmGamma c = c1 at hg
    rw [memXor_eq _ _ hb (by rw [hg.pb]; exact hn)]
    exact ⟨rfl, by simp [hg.pb]; omega, ⟨⟨hg.ek, hg.dk, hg.len⟩, hg.iv, hg.buf, hg.stash, hg.pb⟩⟩
  · simp only [memRd_length, if_neg h0]
    exact ⟨by simp, by simp; omega, h⟩

theorem kAcpkm_acts (c : KCtx) (h : KLens c) (n : Nat) :
    ActsInv KLens (gost_grasshopper_cipher_do_ctracpkmM c) (gost_grasshopper_cipher_do_ctracpkm c) n := by
  intro m i o hb
  unfold gost_grasshopper_cipher_do_ctracpkmM gost_grasshopper_cipher_do_ctracpkm
  have t := memCtrPart_same (· % 16) (fun k => (k + 1) % 2^32) c.partial_buffer n c.num m i o hb
  rw [ctrPart_acpkm] at t
  dsimp only
  generalize kAcpkmPart c.partial_buffer c.num (memRd m i n) = w at t
  generalize memCtrPart (· % 16) (fun k => (k + 1) % 2^32) c.partial_buffer c.num m i o n = r at t
  have hs' : r.s = w.1 := t.s
  rw [hs']
  have hl : KLens { c with num := w.1 } := ⟨⟨h.ek, h.dk, h.len⟩, h.iv, h.buf, h.stash, h.pb⟩
  have k := part_then hb t _ _ (blocks_tail 16 (by decide) KLens kAcpkmBody kAcpkmBodyM kAcpkm_body kAcpkmTail kAcpkmTailM
    kAcpkmTail_acts _ hl r.n)
  rw [List.append_assoc]
  exact k

/-! ## MGM -/

section
variable (E : Bytes → Bytes) (M : Bytes → Bytes → Bytes) (bl : Nat)

theorem mgmByte_same (enc : Bool) (c : Mgm) (m : BMem) (i o : Nat) :
    mgmByteM E M bl enc c m i o = ((mgmByte E M bl enc c (m i)).1, memWr m o [(mgmByte E M bl enc c (m i)).2]) := by
  unfold mgmByteM mgmByte
  generalize (if c.mres = 0 then
      { c with EKi := E c.Yi, Yi := c.Yi.take (bl / 2) ++ inc_counter (c.Yi.drop (bl / 2)) (bl / 2) } else c) = c1
  cases enc
  · dsimp only
    simp only [if_neg (show ¬ false = true by decide), memSet_eq]
  · dsimp only
    have hw : ∀ x, memSet m o x o = x := by intro x; simp [memSet]
    simp only [if_true, hw, memSet_eq]

theorem mgmBytes_same (enc : Bool) : ∀ (n : Nat) (c : Mgm) (m : BMem) (i o : Nat), BufsOk i o n →
    mgmBytesM E M bl enc c m i o n = ((mgmBytes E M bl enc c (memRd m i n)).1, memWr m o (mgmBytes E M bl enc c (memRd m i n)).2) ∧
      (mgmBytes E M bl enc c (memRd m i n)).2.length = n := by
  intro n
  induction n with
  | zero => intro c m i o _; exact ⟨by simp [mgmBytesM, mgmBytes], rfl⟩
  | succ n ih =>
    intro c m i o h
    rw [mgmBytesM, memRd_succ, mgmBytes, mgmByte_same]
    generalize mgmByte E M bl enc c (m i) = r
    have hd := memRd_rest h m [r.2] (by simp)
    simp only [List.length_singleton, Nat.add_sub_cancel] at hd
    rw [memRd_drop _ _ _ _ (by omega), Nat.add_sub_cancel] at hd
    obtain ⟨t, tl⟩ := ih r.1 (memWr m o [r.2]) (i + 1) (o + 1) (h.advance 1 (by omega))
    rw [hd] at t tl
    refine ⟨?_, by simp [tl]⟩
    dsimp only
    rw [t]
    have ha := memWr_append m o [r.2] (mgmBytes E M bl enc r.1 (memRd m (i + 1) n)).2
    simp only [List.length_singleton, List.singleton_append] at ha
    rw [ha]

end

/-- What `cipher_do_mgm` does with data: the output of a refused call is empty and the memory is not touched. -/
theorem mgm_same {alg : MgmAlg} (c : MgmCtx alg) (m : BMem) (i o n : Nat) (h : BufsOk i o n) :
    cipher_do_mgmM c m i o n = ((cipher_do_mgm c true (some (memRd m i n))).1,
      memWr m o (cipher_do_mgm c true (some (memRd m i n))).2.1, (cipher_do_mgm c true (some (memRd m i n))).2.2) ∧
    ((cipher_do_mgm c true (some (memRd m i n))).2.2 = n → (cipher_do_mgm c true (some (memRd m i n))).2.1.length = n) ∧
    ((cipher_do_mgm c true (some (memRd m i n))).2.2 ≠ n → (cipher_do_mgm c true (some (memRd m i n))).2.1 = []) := by
  unfold cipher_do_mgmM cipher_do_mgm
  have hneg : (-1 : Int) ≠ n := by omega
  by_cases hk : ¬ c.key_set
  · rw [if_pos hk, if_pos hk]; simp [hneg]
  rw [if_neg hk, if_neg hk]
  by_cases hi : ¬ c.iv_set
  · rw [if_pos hi, if_pos hi]; simp [hneg]
  rw [if_neg hi, if_neg hi]
  dsimp only
  rw [if_neg (show ¬ ¬ (true = true) by simp)]
  by_cases he : c.encrypting = true
  · rw [if_pos he, if_pos he]
    simp only [gost_mgm128_encryptM, gost_mgm128_encrypt, memRd_length]
    split
    · simp [hneg]
    · obtain ⟨t, tl⟩ := mgmBytes_same (alg.block c.ks) alg.mul alg.bl true n
        { mgmCloseAad (alg.block c.ks) alg.mul alg.bl
            { mgmEncStart (alg.block c.ks) c.mgm with lenM := ((mgmEncStart (alg.block c.ks) c.mgm).lenM + n) % 2 ^ 64 } with
          mres := (mgmCloseAad (alg.block c.ks) alg.mul alg.bl
            { mgmEncStart (alg.block c.ks) c.mgm with lenM := ((mgmEncStart (alg.block c.ks) c.mgm).lenM + n) % 2 ^ 64 }).mres % alg.bl }
        m i o h
      rw [t]
      exact ⟨rfl, fun _ => tl, fun h => absurd rfl h⟩
  · rw [if_neg he, if_neg he]
    simp only [gost_mgm128_decryptM, gost_mgm128_decrypt, memRd_length]
    split
    · simp [hneg]
    · obtain ⟨t, tl⟩ := mgmBytes_same (alg.block c.ks) alg.mul alg.bl false n
        { mgmCloseAad (alg.block c.ks) alg.mul alg.bl
            { mgmDecStart (alg.block c.ks) c.mgm with lenM := ((mgmDecStart (alg.block c.ks) c.mgm).lenM + n) % 2 ^ 64 } with
          mres := (mgmCloseAad (alg.block c.ks) alg.mul alg.bl
            { mgmDecStart (alg.block c.ks) c.mgm with lenM := ((mgmDecStart (alg.block c.ks) c.mgm).lenM + n) % 2 ^ 64 }).mres % alg.bl }
        m i o h
      rw [t]
      exact ⟨rfl, fun _ => tl, fun h => absurd rfl h⟩

/-! ## The theorems -/

/-- **C73** for GOST 28147-89 CBC: whole blocks, same buffer or separate buffers. -/
theorem C73_gost_cbc (e : CipherCtx) (h : GLens e) (n : Nat) (hn : 8 ∣ n) :
    ActsOn (gost_cipher_do_cbcM e) (gost_cipher_do_cbc e) n :=
  (blocks_acts 8 (by decide) GLens cbcBody cbcBodyM cbc_body e h n hn).acts

/-- **C73** for GOST 28147-89 CFB: any number of bytes. -/
theorem C73_gost_cfb (e : CipherCtx) (h : GFb e) (n : Nat) : ActsOn (gost_cipher_do_cfbM e) (gost_cipher_do_cfb e) n :=
  (cfb_acts e h n).acts

/-- **C73** for GOST 28147-89 counter mode. -/
theorem C73_gost_cnt (e : CipherCtx) (h : GFb e) (n : Nat) : ActsOn (gost_cipher_do_cntM e) (gost_cipher_do_cnt e) n :=
  (cnt_acts e h n).acts

/-- **C73** for Magma ECB. -/
theorem C73_magma_ecb (e : CipherCtx) (h : GLens e) (n : Nat) (hn : 8 ∣ n) :
    ActsOn (magma_cipher_do_ecbM e) (magma_cipher_do_ecb e) n :=
  (blocks_acts 8 (by decide) GLens magmaEcbBody magmaEcbBodyM magmaEcb_body e h n hn).acts

/-- **C73** for Magma CBC. -/
theorem C73_magma_cbc (e : CipherCtx) (h : GLens e) (n : Nat) (hn : 8 ∣ n) :
    ActsOn (magma_cipher_do_cbcM e) (magma_cipher_do_cbc e) n :=
  (blocks_acts 8 (by decide) GLens magmaCbcBody magmaCbcBodyM magmaCbc_body e h n hn).acts

/-- **C73** for Magma CTR and CTR-ACPKM. -/
theorem C73_magma_ctr (e : CipherCtx) (h : GLens e) (n : Nat) : ActsOn (magma_cipher_do_ctrM e) (magma_cipher_do_ctr e) n :=
  (magmaCtr_acts e h n).acts

/-- **C73** for Kuznyechik ECB. -/
theorem C73_kuz_ecb (c : KCtx) (h : KLens c) (n : Nat) (hn : 16 ∣ n) :
    ActsOn (gost_grasshopper_cipher_do_ecbM c) (gost_grasshopper_cipher_do_ecb c) n :=
  (blocks_acts 16 (by decide) KLens kEcbBody kEcbBodyM kEcb_same c h n hn).acts

/-- **C73** for Kuznyechik CBC. -/
theorem C73_kuz_cbc (c : KCtx) (h : KLens c) (n : Nat) (hn : 16 ∣ n) :
    ActsOn (gost_grasshopper_cipher_do_cbcM c) (gost_grasshopper_cipher_do_cbc c) n :=
  (blocks_acts 16 (by decide) KLens kCbcBody kCbcBodyM kCbc_same c h n hn).acts

/-- **C73** for Kuznyechik CTR. -/
theorem C73_kuz_ctr (c : KCtx) (h : KLens c) (n : Nat) :
    ActsOn (gost_grasshopper_cipher_do_ctrM c) (gost_grasshopper_cipher_do_ctr c) n := (kCtr_acts c h n).acts

/-- **C73** for Kuznyechik CTR-ACPKM. -/
theorem C73_kuz_ctracpkm (c : KCtx) (h : KLens c) (n : Nat) :
    ActsOn (gost_grasshopper_cipher_do_ctracpkmM c) (gost_grasshopper_cipher_do_ctracpkm c) n := (kAcpkm_acts c h n).acts

/-- **C73** for Kuznyechik OFB. -/
theorem C73_kuz_ofb (c : KCtx) (h : KFb c) (n : Nat) :
    ActsOn (gost_grasshopper_cipher_do_ofbM c) (gost_grasshopper_cipher_do_ofb c) n := (kOfb_acts c h n).acts

/-- **C73** for Kuznyechik CFB. -/
theorem C73_kuz_cfb (c : KCtx) (h : KFb c) (n : Nat) :
    ActsOn (gost_grasshopper_cipher_do_cfbM c) (gost_grasshopper_cipher_do_cfb c) n := (kCfb_acts c h n).acts

/-- **C73** for Magma CTR-ACPKM-OMAC: also the MAC is computed over the same bytes (the plaintext), wherever the buffers are. -/
theorem C73_magma_ctr_acpkm_omac (a : AoCtx CipherCtx) (h : GLens a.c) (n : Nat) (m : BMem) (i o : Nat)
    (hb : i = o ∨ i + n ≤ o ∨ o + n ≤ i) :
    match magma_cipher_do_ctr_acpkm_omac a (memRd m i n), magma_cipher_do_ctr_acpkm_omacM a m i o n with
    | .nullDeref, none => a.omac_ctx = none
    | .ret a' out r, some (b, m') => out.length = n ∧ r = n ∧ b = a' ∧ memRd m' o n = out ∧ ∀ y, y < o ∨ o + n ≤ y → m' y = m y
    | _, _ => False := by
  obtain ⟨hl, h1, h2, h3⟩ := C73_magma_ctr a.c h n m i o hb
  unfold magma_cipher_do_ctr_acpkm_omac magma_cipher_do_ctr_acpkm_omacM
  rcases ho : a.omac_ctx with _ | s
  · rfl
  · dsimp only
    refine ⟨hl, by simp, ?_, h2, h3⟩
    rw [h1, h2]
    cases a.c.encrypting <;> rfl

/-- **C73** for Kuznyechik CTR-ACPKM-OMAC. -/
theorem C73_kuz_ctr_acpkm_omac (a : AoCtx KCtx) (h : KLens a.c) (n : Nat) (m : BMem) (i o : Nat)
    (hb : i = o ∨ i + n ≤ o ∨ o + n ≤ i) :
    match gost_grasshopper_cipher_do_ctracpkm_omac a (memRd m i n), gost_grasshopper_cipher_do_ctracpkm_omacM a m i o n with
    | .nullDeref, none => a.omac_ctx = none
    | .ret a' out r, some (b, m') => out.length = n ∧ r = n ∧ b = a' ∧ memRd m' o n = out ∧ ∀ y, y < o ∨ o + n ≤ y → m' y = m y
    | _, _ => False := by
  obtain ⟨hl, h1, h2, h3⟩ := C73_kuz_ctracpkm a.c h n m i o hb
  unfold gost_grasshopper_cipher_do_ctracpkm_omac gost_grasshopper_cipher_do_ctracpkm_omacM
  rcases ho : a.omac_ctx with _ | s
  · rfl
  · dsimp only
    refine ⟨hl, by simp, ?_, h2, h3⟩
    rw [h1, h2]
    cases a.c.encrypting <;> rfl

/-- **C73** for the MGM ciphers: a call that succeeds writes exactly the output, a call that fails writes nothing. -/
theorem C73_mgm {alg : MgmAlg} (c : MgmCtx alg) (n : Nat) (m : BMem) (i o : Nat) (hb : i = o ∨ i + n ≤ o ∨ o + n ≤ i) :
    (cipher_do_mgmM c m i o n).1 = (cipher_do_mgm c true (some (memRd m i n))).1 ∧
    (cipher_do_mgmM c m i o n).2.2 = (cipher_do_mgm c true (some (memRd m i n))).2.2 ∧
    ((cipher_do_mgmM c m i o n).2.2 = n → memRd (cipher_do_mgmM c m i o n).2.1 o n = (cipher_do_mgm c true (some (memRd m i n))).2.1) ∧
    ((cipher_do_mgmM c m i o n).2.2 ≠ n → (cipher_do_mgmM c m i o n).2.1 = m) ∧
    ∀ y, y < o ∨ o + n ≤ y → (cipher_do_mgmM c m i o n).2.1 y = m y := by
  obtain ⟨e, l, l'⟩ := mgm_same c m i o n hb
  rw [e]
  refine ⟨rfl, rfl, fun h => memRd_memWr' _ _ _ _ (l h), fun h => by dsimp only at h ⊢; rw [l' h, memWr_nil], ?_⟩
  intro y hy
  dsimp only
  by_cases hr : (cipher_do_mgm c true (some (memRd m i n))).2.2 = n
  · exact memWr_out _ _ _ _ (by rw [l hr]; omega)
  · rw [l' hr, memWr_nil]

/-- **C73**, the reading for callers: encrypting (or decrypting) in place gives the same bytes and the same context as encrypting into
another buffer, which leaves the input as it was. -/
theorem C73_in_place {S : Type} (mf : BMem → Nat → Nat → Nat → S × BMem) (f : Bytes → S × Bytes) (n : Nat) (h : ActsOn mf f n)
    (m : BMem) (i o : Nat) (hio : i + n ≤ o ∨ o + n ≤ i) :
    memRd (mf m i i n).2 i n = memRd (mf m i o n).2 o n ∧ (mf m i i n).1 = (mf m i o n).1 ∧ memRd (mf m i o n).2 i n = memRd m i n := by
  obtain ⟨_, a1, a2, _⟩ := h m i i (Or.inl rfl)
  obtain ⟨_, b1, b2, b3⟩ := h m i o (Or.inr hio)
  refine ⟨by rw [a2, b2], by rw [a1, b1], ?_⟩
  apply memRd_ext
  intro k hk
  exact b3 _ (by omega)

/-! ## Contexts have this shape -/

theorem GLens.fresh (rng : Nat → Fin 8 → W32) (enc : Bool) : GLens (freshCtx rng enc) := ⟨rfl, rfl, rfl⟩

/-- The buffers of a context are 8 bytes, and so is the saved IV. -/
theorem memcpy_len8 (d v : Bytes) (k : Nat) (hd : d.length = 8) (hk : k ≤ 8) (hv : k ≤ v.length) : (memcpy d v k).length = 8 := by
  simp [memcpy, hd]; omega

theorem setIv_lens (e : CipherCtx) (h : GLens e) (ho : e.oiv.length = 8) (iv : Option Bytes) (k : Nat) (hk : k ≤ 8)
    (hv : ∀ v, iv = some v → k ≤ v.length) : GLens (setIv e iv k) ∧ (setIv e iv k).oiv.length = 8 := by
  have h1 : (match iv with | some v => memcpy e.oiv v k | none => e.oiv).length = 8 := by
    cases iv with
    | none => exact ho
    | some v => exact memcpy_len8 _ _ _ ho hk (hv v rfl)
  refine ⟨⟨?_, h.buf, h.stash⟩, h1⟩
  exact memcpy_len8 _ _ _ h.iv hk (h1 ▸ hk)

/-- **C73**: a new context that was initialised has the shape the theorems ask for (GOST 28147-89 counter mode). -/
theorem C73_shape_cnt (rng : Nat → Fin 8 → W32) (key iv : Option Bytes) (enc : Bool) (b : SubstBlock)
    (hv : ∀ v, iv = some v → v.length = 8) : GFb (gost_cipher_init_cnt (freshCtx rng enc) key iv enc b) := by
  unfold gost_cipher_init_cnt
  cases key with
  | none => exact ⟨(setIv_lens _ ⟨rfl, rfl, rfl⟩ rfl iv 8 (Nat.le_refl _) (fun v hv' => Nat.le_of_eq (hv v hv').symm)).1, Nat.zero_le _⟩
  | some k => exact ⟨(setIv_lens _ ⟨rfl, rfl, rfl⟩ rfl iv 8 (Nat.le_refl _) (fun v hv' => Nat.le_of_eq (hv v hv').symm)).1, Nat.zero_le _⟩

/-- **C73**: the same for GOST 28147-89 CFB and CBC, when the initialisation succeeds. -/
theorem C73_shape_param (rng : Nat → Fin 8 → W32) (key iv : Option Bytes) (enc : Bool) (env : Option (Option ParamNID))
    (hv : ∀ v, iv = some v → v.length = 8) (e : CipherCtx) (h : gost_cipher_init_param (freshCtx rng enc) key iv enc env = some e) :
    GFb e := by
  unfold gost_cipher_init_param at h
  have ha : (freshCtx rng enc).appData = false := rfl
  cases hp : get_encryption_params none env with
  | none => simp [ha, hp] at h
  | some p =>
    simp only [ha, hp, Bool.false_eq_true, if_false, Option.bind_eq_bind, Option.bind_some, Option.some.injEq] at h
    rw [← h]
    cases key with
    | none => exact ⟨(setIv_lens _ ⟨rfl, rfl, rfl⟩ rfl iv 8 (Nat.le_refl _) (fun v hv' => Nat.le_of_eq (hv v hv').symm)).1, Nat.zero_le _⟩
    | some k => exact ⟨(setIv_lens _ ⟨rfl, rfl, rfl⟩ rfl iv 8 (Nat.le_refl _) (fun v hv' => Nat.le_of_eq (hv v hv').symm)).1, Nat.zero_le _⟩

/-- **C73**: the same for Magma (ECB, CBC, CTR, CTR-ACPKM: `k` bytes of IV). -/
theorem C73_shape_magma (rng : Nat → Fin 8 → W32) (key iv : Option Bytes) (enc acpkm : Bool) (k : Nat) (hk : k ≤ 8)
    (hv : ∀ v, iv = some v → k ≤ v.length) : GLens (magma_cipher_init (freshCtx rng enc) key iv enc k acpkm) := by
  unfold magma_cipher_init
  have ha : (freshCtx rng enc).appData = false := rfl
  simp only [ha, Bool.false_eq_true, if_false]
  cases key with
  | none =>
    have := (setIv_lens { gost_cipher_set_param { freshCtx rng enc with encrypting := enc } .tc26Z with appData := true }
      ⟨rfl, rfl, rfl⟩ rfl iv k hk hv).1
    exact ⟨this.iv, this.buf, this.stash⟩
  | some kk =>
    have := (setIv_lens { gost_cipher_set_param { freshCtx rng enc with encrypting := enc } .tc26Z with
        appData := true
        cctx := magma_key (gost_cipher_set_param { freshCtx rng enc with encrypting := enc } .tc26Z).cctx kk
        masterKey := kk.take 32 } ⟨rfl, rfl, rfl⟩ rfl iv k hk hv).1
    exact ⟨this.iv, this.buf, this.stash⟩

/-- **C73**: the block modes keep the shape. -/
theorem C73_shape_kept_blocks (e : CipherCtx) (h : GLens e) (inp : Bytes) (hn : 8 ∣ inp.length) :
    GLens (gost_cipher_do_cbc e inp).1 ∧ GLens (magma_cipher_do_cbc e inp).1 ∧ GLens (magma_cipher_do_ecb e inp).1 :=
  ⟨(blocks_acts 8 (by decide) GLens cbcBody cbcBodyM cbc_body e h _ hn).inv inp rfl,
   (blocks_acts 8 (by decide) GLens magmaCbcBody magmaCbcBodyM magmaCbc_body e h _ hn).inv inp rfl,
   (blocks_acts 8 (by decide) GLens magmaEcbBody magmaEcbBodyM magmaEcb_body e h _ hn).inv inp rfl⟩

/-- **C73**: and those of Kuznyechik. -/
theorem C73_shape_kept_blocks_kuz (c : KCtx) (h : KLens c) (inp : Bytes) (hn : 16 ∣ inp.length) :
    KLens (gost_grasshopper_cipher_do_cbc c inp).1 ∧ KLens (gost_grasshopper_cipher_do_ecb c inp).1 :=
  ⟨(blocks_acts 16 (by decide) KLens kCbcBody kCbcBodyM kCbc_same c h _ hn).inv inp rfl,
   (blocks_acts 16 (by decide) KLens kEcbBody kEcbBodyM kEcb_same c h _ hn).inv inp rfl⟩

/-- **C73**: the shape is kept by every call (CFB, counter mode and CTR of the 8-byte ciphers). -/
theorem C73_shape_kept (e : CipherCtx) (inp : Bytes) :
    (GFb e → GFb (gost_cipher_do_cfb e inp).1) ∧ (GFb e → GFb (gost_cipher_do_cnt e inp).1) ∧
    (GLens e → GLens (magma_cipher_do_ctr e inp).1) :=
  ⟨fun h => (cfb_acts e h _).inv inp rfl, fun h => (cnt_acts e h _).inv inp rfl, fun h => (magmaCtr_acts e h _).inv inp rfl⟩

/-- **C73**: the same for Kuznyechik. -/
theorem C73_shape_kept_kuz (c : KCtx) (inp : Bytes) :
    (KFb c → KFb (gost_grasshopper_cipher_do_cfb c inp).1) ∧ (KFb c → KFb (gost_grasshopper_cipher_do_ofb c inp).1) ∧
    (KLens c → KLens (gost_grasshopper_cipher_do_ctr c inp).1) ∧ (KLens c → KLens (gost_grasshopper_cipher_do_ctracpkm c inp).1) :=
  ⟨fun h => (kCfb_acts c h _).inv inp rfl, fun h => (kOfb_acts c h _).inv inp rfl, fun h => (kCtr_acts c h _).inv inp rfl,
   fun h => (kAcpkm_acts c h _).inv inp rfl⟩

/-- **C73**: a new Kuznyechik context given a key has the shape. -/
theorem C73_shape_kuz (key : Bytes) (enc : Bool) (iv : Bytes) (k : Nat) (hk : k ≤ 16) (hv : k ≤ iv.length) :
    KFb (gost_grasshopper_cipher_init freshKCtx (some key) (some iv) enc k) := by
  unfold gost_grasshopper_cipher_init
  have hK := KOk_cipher_key { freshKCtx with encrypting := enc, appData := true } key
  dsimp only
  unfold gost_grasshopper_master_key gost_grasshopper_cipher_key at *
  generalize grasshopper_set_encrypt_key (copyN 32 key) = ek at hK
  generalize grasshopper_set_decrypt_key (copyN 32 key) = dk at hK
  have h1 : (memcpyTo (zeros 16) iv k).length = 16 := by simp [memcpyTo, zeros]; omega
  refine ⟨⟨⟨hK.ek, hK.dk, hK.len⟩, ?_, rfl, rfl, rfl⟩, Nat.zero_le _⟩
  show (memcpyTo (zeros 16) (memcpyTo (zeros 16) iv k) k).length = 16
  rw [memcpyTo, List.length_append, List.length_take, h1, List.length_drop]
  simp [zeros]; omega

/-- Ten bytes in place at address 100, and from 100 to 300: the theorems apply to such calls. -/
example : (100 = 100 ∨ 100 + 10 ≤ 100 ∨ 100 + 10 ≤ 100) ∧ (100 = 300 ∨ 100 + 10 ≤ 300 ∨ 300 + 10 ≤ 100) := by decide

/-- A concrete call in place: the second byte of the buffer is decrypted and the byte behind the buffer is untouched. -/
example : (gost_cipher_do_cntM (gost_cipher_init_cnt (freshCtx (fun _ _ => 0) true) (some (zeros 32)) (some (zeros 8)) true
      Gost28147_TC26ParamSetZ) (fun a => BitVec.ofNat 8 a) 100 100 10).2 110 = BitVec.ofNat 8 110 := by
  have h := C73_gost_cnt (gost_cipher_init_cnt (freshCtx (fun _ _ => 0) true) (some (zeros 32)) (some (zeros 8)) true
    Gost28147_TC26ParamSetZ) (C73_shape_cnt _ _ _ _ _ (by intro v hv; cases hv; rfl)) 10 (fun a => BitVec.ofNat 8 a) 100 100 (Or.inl rfl)
  exact h.2.2.2 110 (Or.inr (by decide))

/-- The order of reading and writing matters: for CBC decryption with overlapping buffers that are not equal the statement is false in
general, so `ActsOn` asks for equal or separate buffers.  (Here: output one byte before the input would be fine, one byte after is not.) -/
example : memXor (zeros 2) (fun a => BitVec.ofNat 8 a) 100 101 2 102 ≠ memWr (fun a => BitVec.ofNat 8 a) 101
    (xorB (zeros 2) (memRd (fun a => BitVec.ofNat 8 a) 100 2)) 102 := by decide

end Gost
