import Verif.Model.Buffers
import Verif.Lemmas.Loops
import Verif.Lemmas.KuzModes
import Verif.Lemmas.Gost89

/-!
# Lemmas about the callbacks on memory
-/

namespace Gost

/-- The two buffers of `n` bytes are the same one or do not overlap. -/
def BufsOk (i o n : Nat) : Prop := i = o ∨ i + n ≤ o ∨ o + n ≤ i

theorem BufsOk.advance {i o n : Nat} (h : BufsOk i o n) (k : Nat) (hk : k ≤ n) : BufsOk (i + k) (o + k) (n - k) := by
  unfold BufsOk at *; omega

theorem BufsOk.first {i o n : Nat} (h : BufsOk i o n) (k : Nat) (hk : k ≤ n) : BufsOk i o k := by
  unfold BufsOk at *; omega

@[simp] theorem memRd_length (m : BMem) (a n : Nat) : (memRd m a n).length = n := by simp [memRd]

theorem memRd_getElem? (m : BMem) (a n k : Nat) (h : k < n) : (memRd m a n)[k]? = some (m (a + k)) := by
  simp [memRd, h]

theorem memRd_ext (m m' : BMem) (a a' n : Nat) (h : ∀ k < n, m (a + k) = m' (a' + k)) : memRd m a n = memRd m' a' n := by
  unfold memRd
  apply List.map_congr_left
  intro k hk
  exact h k (List.mem_range.1 hk)

theorem memRd_take (m : BMem) (a n k : Nat) (h : k ≤ n) : (memRd m a n).take k = memRd m a k := by
  unfold memRd
  rw [← List.map_take, List.take_range, Nat.min_eq_left h]

theorem memRd_drop (m : BMem) (a n k : Nat) (h : k ≤ n) : (memRd m a n).drop k = memRd m (a + k) (n - k) := by
  apply List.ext_getElem?
  intro j
  rw [List.getElem?_drop]
  rcases Nat.lt_or_ge (k + j) n with hj | hj
  · rw [memRd_getElem? _ _ _ _ hj, memRd_getElem? _ _ _ _ (by omega), Nat.add_assoc]
  · rw [List.getElem?_eq_none (by simp; omega), List.getElem?_eq_none (by simp; omega)]

theorem memRd_succ (m : BMem) (a n : Nat) : memRd m a (n + 1) = m a :: memRd m (a + 1) n := by
  have h1 := memRd_take m a (n + 1) 1 (by omega)
  have h2 := memRd_drop m a (n + 1) 1 (by omega)
  rw [← List.take_append_drop 1 (memRd m a (n + 1)), h1, h2]
  simp [memRd]

@[simp] theorem memRd_zero (m : BMem) (a : Nat) : memRd m a 0 = [] := rfl

@[simp] theorem memWr_nil (m : BMem) (a : Nat) : memWr m a [] = m := by
  funext y
  unfold memWr
  rw [if_neg]
  simp

theorem memSet_eq (m : BMem) (a : Nat) (x : Byte) : memSet m a x = memWr m a [x] := by
  funext y
  unfold memSet memWr
  by_cases h : y = a
  · subst h; simp [at_]
  · rw [if_neg h, if_neg]
    simp only [List.length_singleton]
    omega

theorem memWr_append (m : BMem) (a : Nat) (b c : Bytes) : memWr (memWr m a b) (a + b.length) c = memWr m a (b ++ c) := by
  funext y
  simp only [memWr, List.length_append]
  by_cases h1 : a + b.length ≤ y ∧ y < a + b.length + c.length
  · rw [if_pos h1, if_pos (by omega)]
    simp only [at_, List.getD_eq_getElem?_getD]
    rw [List.getElem?_append_right (by omega)]
    congr 2
    omega
  · rw [if_neg h1]
    by_cases h2 : a ≤ y ∧ y < a + b.length
    · rw [if_pos h2, if_pos (by omega)]
      simp only [at_, List.getD_eq_getElem?_getD]
      rw [List.getElem?_append_left (by omega)]
    · rw [if_neg h2, if_neg (by omega)]

theorem memWr_same (m : BMem) (a : Nat) (b c : Bytes) (h : b.length = c.length) : memWr (memWr m a b) a c = memWr m a c := by
  funext y
  simp only [memWr, h]
  by_cases h1 : a ≤ y ∧ y < a + c.length
  · rw [if_pos h1, if_pos h1]
  · rw [if_neg h1, if_neg h1, if_neg h1]

theorem memWr_get (m : BMem) (a : Nat) (b : Bytes) (k : Nat) (h : k < b.length) : memWr m a b (a + k) = at_ b k := by
  unfold memWr
  rw [if_pos (by omega)]
  congr 1
  omega

theorem memWr_out (m : BMem) (a : Nat) (b : Bytes) (y : Nat) (h : ¬ (a ≤ y ∧ y < a + b.length)) : memWr m a b y = m y := by
  unfold memWr
  rw [if_neg h]

theorem memRd_memWr (m : BMem) (a : Nat) (b : Bytes) : memRd (memWr m a b) a b.length = b := by
  apply List.ext_getElem?
  intro k
  rcases Nat.lt_or_ge k b.length with h | h
  · rw [memRd_getElem? _ _ _ _ h, memWr_get _ _ _ _ h]
    simp [at_, h]
  · rw [List.getElem?_eq_none (by simpa using h), List.getElem?_eq_none h]

theorem memRd_memWr' (m : BMem) (a n : Nat) (b : Bytes) (h : b.length = n) : memRd (memWr m a b) a n = b := by
  subst h; exact memRd_memWr m a b

/-- What is left of the input after the first bytes of output were written. -/
theorem memRd_rest {i o n : Nat} (h : BufsOk i o n) (m : BMem) (b : Bytes) (hb : b.length ≤ n) :
    memRd (memWr m o b) (i + b.length) (n - b.length) = (memRd m i n).drop b.length := by
  rw [memRd_drop _ _ _ _ hb]
  apply memRd_ext
  intro k hk
  apply memWr_out
  unfold BufsOk at h
  omega

theorem memXorFrom_eq (buf : Bytes) (i o : Nat) : ∀ (n j : Nat) (m : BMem), BufsOk (i + j) (o + j) n → j + n ≤ buf.length →
    memXorFrom buf i o m j n = memWr m (o + j) (xorB ((buf.drop j).take n) (memRd m (i + j) n)) := by
  intro n
  induction n with
  | zero => intro j m _ _; simp [memXorFrom, xorB]
  | succ n ih =>
    intro j m h hb
    have hj : j < buf.length := by omega
    rw [memXorFrom, ih (j + 1) _ (by simpa [Nat.add_assoc] using h.advance 1 (by omega)) (by omega)]
    rw [memRd_succ, List.drop_eq_getElem_cons hj, List.take_succ_cons, xorB_cons]
    rw [memSet_eq]
    have e : at_ buf j = buf[j] := by simp [at_, hj]
    rw [e]
    have hr := memRd_rest h m [buf[j] ^^^ m (i + j)] (by simp)
    simp only [List.length_singleton, Nat.add_sub_cancel] at hr
    rw [memRd_drop _ _ _ _ (by omega), Nat.add_sub_cancel] at hr
    rw [show i + (j + 1) = i + j + 1 from rfl, hr]
    have ha := memWr_append m (o + j) [buf[j] ^^^ m (i + j)] (xorB (List.take n (List.drop (j + 1) buf)) (memRd m (i + j + 1) n))
    simp only [List.length_singleton, List.singleton_append] at ha
    rw [← ha, show o + (j + 1) = o + j + 1 from rfl]

theorem memXor_eq {i o n : Nat} (buf : Bytes) (m : BMem) (h : BufsOk i o n) (hb : n ≤ buf.length) :
    memXor buf m i o n = memWr m o (xorB (buf.take n) (memRd m i n)) := by
  unfold memXor
  rw [memXorFrom_eq buf i o n 0 m h (by omega)]
  simp

theorem memXor_full {i o n : Nat} (buf : Bytes) (m : BMem) (h : BufsOk i o n) (hb : buf.length = n) :
    memXor buf m i o n = memWr m o (xorB buf (memRd m i n)) := by
  rw [memXor_eq buf m h (by omega), List.take_of_length_le (by omega)]

/-- A loop body on memory does what the body on bytes does. -/
def BodySame {S : Type} (bl : Nat) (Inv : S → Prop) (body : S → Bytes → S × Bytes) (bodyM : S → BMem → Nat → Nat → S × BMem) : Prop :=
  ∀ s m i o, Inv s → BufsOk i o bl →
    bodyM s m i o = ((body s (memRd m i bl)).1, memWr m o (body s (memRd m i bl)).2) ∧
    (body s (memRd m i bl)).2.length = bl ∧ Inv (body s (memRd m i bl)).1

/-- What a loop on memory leaves, from what it leaves on bytes. -/
structure LoopSame {S T : Type} (f : T → S) (r : MemAt S) (w : T × Bytes × Bytes) (m : BMem) (i o n : Nat) : Prop where
  s : r.s = f w.1
  m' : r.m = memWr m o w.2.1
  i' : r.i = i + w.2.1.length
  o' : r.o = o + w.2.1.length
  n' : r.n = n - w.2.1.length
  le : w.2.1.length ≤ n
  rest : w.2.2 = (memRd m i n).drop w.2.1.length

theorem LoopSame.done {S T : Type} (f : T → S) (t : T) (m : BMem) (i o n : Nat) :
    LoopSame f ⟨f t, m, i, o, n⟩ (t, [], memRd m i n) m i o n :=
  ⟨rfl, by simp, by simp, by simp, by simp, by simp, by simp⟩

/-- One more step in front. -/
theorem LoopSame.step {S T : Type} {f : T → S} {r : MemAt S} {w : T × Bytes × Bytes} {m : BMem} {i o n k : Nat} {b : Bytes}
    (hk : b.length = k) (hle : k ≤ n) (h : BufsOk i o n) (hr : LoopSame f r w (memWr m o b) (i + k) (o + k) (n - k)) :
    LoopSame f r (w.1, b ++ w.2.1, w.2.2) m i o n := by
  subst hk
  obtain ⟨h1, h2, h3, h4, h5, h6, h7⟩ := hr
  refine ⟨h1, ?_, ?_, ?_, ?_, ?_, ?_⟩
  · rw [h2, memWr_append]
  · rw [h3]; simp; omega
  · rw [h4]; simp; omega
  · rw [h5]; simp; omega
  · simp; omega
  · rw [h7, memRd_rest h m b hle]; simp [List.drop_drop]

theorem memBlocks_same {S : Type} (bl : Nat) (hbl : 0 < bl) (Inv : S → Prop) (body : S → Bytes → S × Bytes)
    (bodyM : S → BMem → Nat → Nat → S × BMem) (hbody : BodySame bl Inv body bodyM) :
    ∀ (n : Nat) (s : S) (m : BMem) (i o : Nat), Inv s → BufsOk i o n →
      LoopSame id (memBlocks bl bodyM s m i o n) (whileBlocks bl body s (memRd m i n)) m i o n ∧
      Inv (whileBlocks bl body s (memRd m i n)).1 := by
  intro n
  induction n using Nat.strongRecOn with
  | _ n ih =>
    intro s m i o hi h
    rw [memBlocks, whileBlocks]
    by_cases hn : 0 < bl ∧ bl ≤ n
    · rw [dif_pos hn, dif_pos (by simpa using hn)]
      rw [memRd_take _ _ _ _ hn.2]
      obtain ⟨e, el, einv⟩ := hbody s m i o hi (h.first bl hn.2)
      simp only [e]
      have hd := memRd_rest h m (body s (memRd m i bl)).2 (by omega)
      rw [el] at hd
      rw [← hd]
      have t := ih (n - bl) (by omega) _ (memWr m o (body s (memRd m i bl)).2) (i + bl) (o + bl) einv (h.advance bl hn.2)
      exact ⟨t.1.step el hn.2 h, t.2⟩
    · rw [dif_neg hn, dif_neg (by simpa using hn)]
      exact ⟨LoopSame.done id s m i o n, hi⟩

theorem memBlocksLt_same {S : Type} (bl : Nat) (hbl : 0 < bl) (Inv : S → Prop) (body : S → Bytes → S × Bytes)
    (bodyM : S → BMem → Nat → Nat → S × BMem) (hbody : BodySame bl Inv body bodyM) :
    ∀ (n : Nat) (s : S) (m : BMem) (i o : Nat), Inv s → BufsOk i o n →
      LoopSame id (memBlocksLt bl bodyM s m i o n) (whileBlocksLt bl body s (memRd m i n)) m i o n ∧
      Inv (whileBlocksLt bl body s (memRd m i n)).1 := by
  intro n
  induction n using Nat.strongRecOn with
  | _ n ih =>
    intro s m i o hi h
    rw [memBlocksLt, whileBlocksLt]
    by_cases hn : 0 < bl ∧ bl < n
    · rw [dif_pos hn, dif_pos (by simpa using hn)]
      rw [memRd_take _ _ _ _ (by omega)]
      obtain ⟨e, el, einv⟩ := hbody s m i o hi (h.first bl (by omega))
      simp only [e]
      have hd := memRd_rest h m (body s (memRd m i bl)).2 (by omega)
      rw [el] at hd
      rw [← hd]
      have t := ih (n - bl) (by omega) _ (memWr m o (body s (memRd m i bl)).2) (i + bl) (o + bl) einv (h.advance bl (by omega))
      exact ⟨t.1.step el (by omega) h, t.2⟩
    · rw [dif_neg hn, dif_neg (by simpa using hn)]
      exact ⟨LoopSame.done id s m i o n, hi⟩

theorem memXorPart_same (bl : Nat) (buf : Bytes) : ∀ (n j : Nat) (m : BMem) (i o : Nat), BufsOk i o n →
    LoopSame id (memXorPart bl buf j m i o n) (xorPart bl buf j (memRd m i n)) m i o n := by
  intro n
  induction n with
  | zero => intro j m i o _; exact LoopSame.done id j m i o 0
  | succ n ih =>
    intro j m i o h
    rw [memXorPart, memRd_succ, xorPart]
    by_cases hj : j < bl
    · rw [if_pos hj, if_pos hj, memSet_eq]
      have t := ih (j + 1) (memWr m o [at_ buf j ^^^ m i]) (i + 1) (o + 1) (h.advance 1 (by omega))
      have hd := memRd_rest h m [at_ buf j ^^^ m i] (by simp)
      simp only [List.length_singleton, Nat.add_sub_cancel] at hd
      rw [memRd_drop _ _ _ _ (by omega), Nat.add_sub_cancel] at hd
      rw [hd] at t
      exact LoopSame.step (k := 1) rfl (by omega) h t
    · rw [if_neg hj, if_neg hj, ← memRd_succ]
      exact LoopSame.done id j m i o (n + 1)

/-- The loop of the CTR functions on bytes, for any position and step. -/
def ctrPart (pos next : Nat → Nat) (buf : Bytes) : Nat → Bytes → Nat × Bytes × Bytes
  | n, [] => (n, [], [])
  | n, x :: xs =>
    if pos n ≠ 0 then
      let t := ctrPart pos next buf (next n) xs
      (t.1, (x ^^^ at_ buf (pos n)) :: t.2.1, t.2.2)
    else (n, [], x :: xs)

theorem ctrPart_magma (buf : Bytes) : ∀ (xs : Bytes) (n : Nat),
    ctrPart (· % 8) (fun k => (k + 1) % 2^32) buf n xs = magmaCtrPart buf n xs := by
  intro xs
  induction xs with
  | nil => intro n; rfl
  | cons x xs ih => intro n; simp only [ctrPart, magmaCtrPart]; rw [ih]

theorem ctrPart_kuz (buf : Bytes) : ∀ (xs : Bytes) (n : Nat), ctrPart id (fun k => (k + 1) % 16) buf n xs = kCtrPart buf n xs := by
  intro xs
  induction xs with
  | nil => intro n; rfl
  | cons x xs ih => intro n; simp only [ctrPart, kCtrPart, id]; rw [ih]

theorem ctrPart_acpkm (buf : Bytes) : ∀ (xs : Bytes) (n : Nat),
    ctrPart (· % 16) (fun k => (k + 1) % 2^32) buf n xs = kAcpkmPart buf n xs := by
  intro xs
  induction xs with
  | nil => intro n; rfl
  | cons x xs ih => intro n; simp only [ctrPart, kAcpkmPart]; rw [ih]

theorem memCtrPart_same (pos next : Nat → Nat) (buf : Bytes) : ∀ (n j : Nat) (m : BMem) (i o : Nat), BufsOk i o n →
    LoopSame id (memCtrPart pos next buf j m i o n) (ctrPart pos next buf j (memRd m i n)) m i o n := by
  intro n
  induction n with
  | zero => intro j m i o _; exact LoopSame.done id j m i o 0
  | succ n ih =>
    intro j m i o h
    rw [memCtrPart, memRd_succ, ctrPart]
    by_cases hj : pos j ≠ 0
    · rw [if_pos hj, if_pos hj, memSet_eq]
      have t := ih (next j) (memWr m o [m i ^^^ at_ buf (pos j)]) (i + 1) (o + 1) (h.advance 1 (by omega))
      have hd := memRd_rest h m [m i ^^^ at_ buf (pos j)] (by simp)
      simp only [List.length_singleton, Nat.add_sub_cancel] at hd
      rw [memRd_drop _ _ _ _ (by omega), Nat.add_sub_cancel] at hd
      rw [hd] at t
      exact LoopSame.step (k := 1) rfl (by omega) h t
    · rw [if_neg hj, if_neg hj, ← memRd_succ]
      exact LoopSame.done id j m i o (n + 1)

/-- The partial-block loop of the CFB functions on bytes, for any block length. -/
def cfbPartB (bl : Nat) (enc : Bool) (buf : Bytes) : Nat → Bytes → Bytes → (Nat × Bytes) × Bytes × Bytes
  | j, stash, [] => ((j, stash), [], [])
  | j, stash, x :: xs =>
    if j < bl then
      let out := at_ buf j ^^^ x
      let t := cfbPartB bl enc buf (j + 1) (if enc then stash.set j out else stash.set j x) xs
      (t.1, out :: t.2.1, t.2.2)
    else ((j, stash), [], x :: xs)

theorem cfbPartB_gost (enc : Bool) (buf : Bytes) : ∀ (xs : Bytes) (j : Nat) (st : Bytes),
    cfbPart enc buf j st xs = ((cfbPartB 8 enc buf j st xs).1.1, (cfbPartB 8 enc buf j st xs).1.2, (cfbPartB 8 enc buf j st xs).2) := by
  intro xs
  induction xs with
  | nil => intro j st; rfl
  | cons x xs ih =>
    intro j st
    rw [cfbPart, cfbPartB]
    by_cases hj : j < 8
    · rw [if_pos hj, if_pos hj]; simp only [ih]
    · rw [if_neg hj, if_neg hj]

theorem cfbPartB_kuz (enc : Bool) (buf : Bytes) : ∀ (xs : Bytes) (j : Nat) (st : Bytes),
    kCfbPart enc buf j st xs = ((cfbPartB 16 enc buf j st xs).1.1, (cfbPartB 16 enc buf j st xs).1.2, (cfbPartB 16 enc buf j st xs).2) := by
  intro xs
  induction xs with
  | nil => intro j st; rfl
  | cons x xs ih =>
    intro j st
    rw [kCfbPart, cfbPartB]
    by_cases hj : j < 16
    · rw [if_pos hj, if_pos hj]; simp only [ih]; cases enc <;> rfl
    · rw [if_neg hj, if_neg hj]

theorem memCfbPart_same (bl : Nat) (enc : Bool) (buf : Bytes) : ∀ (n j : Nat) (st : Bytes) (m : BMem) (i o : Nat), BufsOk i o n →
    LoopSame id (memCfbPart bl enc buf j st m i o n) (cfbPartB bl enc buf j st (memRd m i n)) m i o n := by
  intro n
  induction n with
  | zero => intro j st m i o _; exact LoopSame.done id (j, st) m i o 0
  | succ n ih =>
    intro j st m i o h
    rw [memCfbPart, memRd_succ, cfbPartB]
    by_cases hj : j < bl
    · rw [if_pos hj, if_pos hj]
      have hw : memSet m o (at_ buf j ^^^ m i) o = at_ buf j ^^^ m i := by simp [memSet]
      simp only [hw]
      have he : (if enc = true then (if enc = true then st else st.set j (m i)).set j (at_ buf j ^^^ m i)
          else (if enc = true then st else st.set j (m i))) =
          (if enc = true then st.set j (at_ buf j ^^^ m i) else st.set j (m i)) := by cases enc <;> rfl
      rw [he, memSet_eq]
      have t := ih (j + 1) (if enc = true then st.set j (at_ buf j ^^^ m i) else st.set j (m i)) (memWr m o [at_ buf j ^^^ m i])
        (i + 1) (o + 1) (h.advance 1 (by omega))
      have hd := memRd_rest h m [at_ buf j ^^^ m i] (by simp)
      simp only [List.length_singleton, Nat.add_sub_cancel] at hd
      rw [memRd_drop _ _ _ _ (by omega), Nat.add_sub_cancel] at hd
      rw [hd] at t
      exact LoopSame.step (k := 1) rfl (by omega) h t
    · rw [if_neg hj, if_neg hj, ← memRd_succ]
      exact LoopSame.done id (j, st) m i o (n + 1)

end Gost
