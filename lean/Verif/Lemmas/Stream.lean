import Verif.Lemmas.Basic
import Verif.Spec.Stream

/-!
# Byte-step machines: refinement lemmas used for all streaming modes
-/

namespace Gost
open Spec

/-- Run a byte-at-a-time machine over a byte string. -/
def runM {A : Type} (step : A → Byte → A × Byte) : A → Bytes → A × Bytes
  | a, [] => (a, [])
  | a, x :: xs =>
    let r := step a x
    let t := runM step r.1 xs
    (t.1, r.2 :: t.2)

theorem runM_append {A : Type} (step : A → Byte → A × Byte) (a : A) (xs ys : Bytes) :
    runM step a (xs ++ ys) =
      ((runM step (runM step a xs).1 ys).1, (runM step a xs).2 ++ (runM step (runM step a xs).1 ys).2) := by
  induction xs generalizing a with
  | nil => simp [runM]
  | cons x xs ih => simp [runM, ih]

theorem runM_length {A : Type} (step : A → Byte → A × Byte) (a : A) (xs : Bytes) :
    (runM step a xs).2.length = xs.length := by
  induction xs generalizing a with
  | nil => simp [runM]
  | cons x xs ih => simp [runM, ih]

/-- Refinement of histories: if every single update refines the machine, so does every history. -/
theorem feed_refines {S A : Type} (upd : S → Bytes → S × Bytes) (step : A → Byte → A × Byte)
    (abs : S → A) (Inv : S → Prop)
    (h : ∀ s xs, Inv s → Inv (upd s xs).1 ∧ runM step (abs s) xs = (abs (upd s xs).1, (upd s xs).2))
    (s : S) (hs : Inv s) (chunks : List Bytes) :
    Inv (feed upd s chunks).1 ∧
    runM step (abs s) chunks.flatten = (abs (feed upd s chunks).1, (feed upd s chunks).2) := by
  induction chunks generalizing s with
  | nil => exact ⟨hs, rfl⟩
  | cons x xs ih =>
    obtain ⟨hi, he⟩ := h s x hs
    obtain ⟨hi2, he2⟩ := ih _ hi
    refine ⟨hi2, ?_⟩
    rw [List.flatten_cons, runM_append, he]
    simp only [he2, feed]

/-- If the decrypting step undoes the encrypting step and reaches the same state,
whole messages are restored. -/
theorem runM_inverse {A : Type} (e d : A → Byte → A × Byte)
    (h : ∀ a x, d a (e a x).2 = ((e a x).1, x)) (a : A) (xs : Bytes) :
    runM d a (runM e a xs).2 = ((runM e a xs).1, xs) := by
  induction xs generalizing a with
  | nil => rfl
  | cons x xs ih => simp [runM, h, ih]

/-! ### Keystream machine: an inner generator plus the unused bytes of the last gamma block -/

/-- One byte of a keystream cipher whose generator is `next`. -/
def ksStep {I : Type} (next : I → I × Bytes) (s : I × Bytes) (x : Byte) : (I × Bytes) × Byte :=
  match s.2 with
  | [] =>
    let r := next s.1
    ((r.1, r.2.drop 1), x ^^^ r.2.getD 0 0)
  | g :: gs => ((s.1, gs), x ^^^ g)

theorem ks_rest {I : Type} (next : I → I × Bytes) (i : I) (rest xs : Bytes)
    (h : xs.length ≤ rest.length) :
    runM (ksStep next) (i, rest) xs = ((i, rest.drop xs.length), xorB xs rest) := by
  induction xs generalizing rest with
  | nil => simp [runM]
  | cons x xs ih =>
    cases rest with
    | nil => simp at h
    | cons g gs =>
      simp only [runM, ksStep]
      rw [ih gs (by simpa using h)]
      simp

theorem ks_block {I : Type} (next : I → I × Bytes) (i : I) (xs : Bytes) (hx : xs ≠ [])
    (h : xs.length ≤ (next i).2.length) :
    runM (ksStep next) (i, []) xs = (((next i).1, (next i).2.drop xs.length), xorB xs (next i).2) := by
  cases xs with
  | nil => exact absurd rfl hx
  | cons x xs =>
    simp only [runM, ksStep]
    generalize hn : next i = r at *
    obtain ⟨i', g⟩ := r
    cases g with
    | nil => simp at h
    | cons g gs =>
      simp only [List.drop_succ_cons, List.drop_zero]
      rw [ks_rest next i' gs xs (by simpa using h)]
      simp

/-- A keystream machine is its own inverse. -/
theorem ks_inverse {I : Type} (next : I → I × Bytes) (s : I × Bytes) (x : Byte) :
    ksStep next s (ksStep next s x).2 = ((ksStep next s x).1, x) := by
  unfold ksStep
  split <;> simp [BitVec.xor_assoc]

theorem iter_succ_out {A : Type} (f : A → A) (n : Nat) (a : A) : iter f (n + 1) a = f (iter f n a) := by
  induction n generalizing a with
  | zero => rfl
  | succ n ih => rw [iter, ih]; rfl

theorem iter_add {A : Type} (f : A → A) (m n : Nat) (a : A) :
    iter f (m + n) a = iter f n (iter f m a) := by
  induction m generalizing a with
  | zero => simp [iter]
  | succ m ih => rw [Nat.succ_add, iter, ih]; rfl

/-- Closed form of the keystream: block `j` of gamma is the output of the generator after
`j` previous calls. -/
theorem ks_closed {I : Type} (next : I → I × Bytes) (bl : Nat) (hbl : 0 < bl) (P : I → Prop)
    (hP : ∀ i, P i → P (next i).1 ∧ (next i).2.length = bl) (i : I) (hi : P i) (xs : Bytes) :
    (runM (ksStep next) (i, []) xs).2 =
      xorStream bl (fun j => (next (iter (fun i => (next i).1) j i)).2) xs := by
  generalize hn : xs.length = n
  induction n using Nat.strongRecOn generalizing i xs with
  | ind n ih =>
    subst hn
    obtain ⟨hi', hlen⟩ := hP i hi
    by_cases hx : xs = []
    · subst hx; simp [runM, xorStream]
    · have hpos : 0 < xs.length := List.length_pos_iff.mpr hx
      conv => lhs; rw [← List.take_append_drop bl xs]
      rw [runM_append]
      have htake : xs.take bl ≠ [] := by
        intro h; have := congrArg List.length h
        simp only [List.length_take, List.length_nil] at this; omega
      rw [ks_block next i _ htake (by simp; omega)]
      simp only
      -- first part
      have hfirst : xorB (xs.take bl) (next i).2 =
          (xs.take bl).mapIdx fun k x => x ^^^ ((next i).2).getD k 0 := by
        apply List.ext_getElem
        · simp; omega
        · intro k h1 h2
          simp only [xorB, List.getElem_zipWith, List.getElem_mapIdx]
          simp at h1
          rw [List.getD_eq_getElem?_getD, List.getElem?_eq_getElem (by omega)]
          rfl
      by_cases hlt : xs.length ≤ bl
      · -- only one block
        rw [List.drop_eq_nil_of_le hlt]
        simp only [runM, List.append_nil]
        rw [hfirst, List.take_of_length_le hlt]
        unfold xorStream
        apply List.ext_getElem
        · simp
        · intro k h1 h2
          simp at h1
          simp only [List.getElem_mapIdx]
          rw [Nat.div_eq_of_lt (by omega), Nat.mod_eq_of_lt (by omega)]
          rfl
      · have hdrop : ((next i).2.drop (xs.take bl).length) = [] := by
          apply List.drop_eq_nil_of_le; simp; omega
        rw [hdrop, ih (xs.drop bl).length (by simp; omega) (next i).1 hi' _ rfl, hfirst]
        unfold xorStream
        apply List.ext_getElem
        · simp; omega
        · intro k h1 h2
          simp at h1
          by_cases hk : k < bl
          · rw [List.getElem_append_left (by simp; omega)]
            simp only [List.getElem_mapIdx, List.getElem_take]
            rw [Nat.div_eq_of_lt hk, Nat.mod_eq_of_lt hk]
            rfl
          · rw [List.getElem_append_right (by simp; omega)]
            simp only [List.getElem_mapIdx, List.getElem_drop, List.length_mapIdx, List.length_take]
            have e1 : min bl xs.length = bl := by omega
            simp only [e1]
            have e2 : bl + (k - bl) = k := by omega
            have e3 : k / bl = (k - bl) / bl + 1 := by
              rw [← Nat.add_div_right _ hbl]; congr 1; omega
            have e4 : k % bl = (k - bl) % bl := by
              conv => lhs; rw [← e2]
              simp
            simp only [e2, e3, e4]
            rfl

/-- The generator is called once per started block. -/
theorem ks_state {I : Type} (next : I → I × Bytes) (bl : Nat) (hbl : 0 < bl) (P : I → Prop)
    (hP : ∀ i, P i → P (next i).1 ∧ (next i).2.length = bl) (i : I) (hi : P i) (xs : Bytes) :
    (runM (ksStep next) (i, []) xs).1.1 =
      iter (fun i => (next i).1) ((xs.length + (bl - 1)) / bl) i := by
  generalize hn : xs.length = n
  induction n using Nat.strongRecOn generalizing i xs with
  | ind n ih =>
    subst hn
    obtain ⟨hi', hlen⟩ := hP i hi
    by_cases hx : xs = []
    · subst hx
      rw [show (([] : Bytes).length + (bl - 1)) / bl = 0 from Nat.div_eq_of_lt (by simp; omega)]
      rfl
    · have hpos : 0 < xs.length := List.length_pos_iff.mpr hx
      conv => lhs; rw [← List.take_append_drop bl xs]
      rw [runM_append]
      have htake : xs.take bl ≠ [] := by
        intro h; have := congrArg List.length h
        simp only [List.length_take, List.length_nil] at this; omega
      rw [ks_block next i _ htake (by simp; omega)]
      simp only
      by_cases hlt : xs.length ≤ bl
      · rw [List.drop_eq_nil_of_le hlt]
        simp only [runM]
        rw [show (xs.length + (bl - 1)) / bl = 1 by
          rw [Nat.div_eq_iff hbl]; omega]
        rfl
      · have hdrop : ((next i).2.drop (xs.take bl).length) = [] := by
          apply List.drop_eq_nil_of_le; simp; omega
        rw [hdrop, ih (xs.drop bl).length (by simp; omega) (next i).1 hi' _ rfl]
        rw [show (xs.length + (bl - 1)) / bl = ((xs.drop bl).length + (bl - 1)) / bl + 1 by
          rw [← Nat.add_div_right _ hbl]; congr 1; simp; omega]
        rfl

/-- XORing twice with the same keystream is the identity. -/
theorem xorStream_twice (bl : Nat) (gamma : Nat → Bytes) (xs : Bytes) :
    xorStream bl gamma (xorStream bl gamma xs) = xs := by
  unfold xorStream
  apply List.ext_getElem
  · simp
  · intro k h1 h2
    simp [BitVec.xor_assoc]

end Gost
