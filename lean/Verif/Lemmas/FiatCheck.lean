import Verif.Model.Fiat
import Mathlib.Tactic.Ring
import Mathlib.Tactic.Linarith
import Mathlib.Data.Int.ModEq

/-!
# A checker for straight-line field arithmetic

`bounds` computes intervals for the variables of a program and fails when an operation could wrap around.  `back` takes a
linear form in the variables (with products of two) and replaces the variables, last to first, by what the statements say about
them; the value of the form does not change modulo `N`.
-/

namespace Gost.Fiat

/-! ## Evaluation order -/

/-- `k n`, with `n` evaluated first. -/
def forceN {α : Type} (n : Nat) (k : Nat → α) : α := Nat.rec (k 0) (fun m _ => k m.succ) n

theorem forceN_eq {α : Type} (n : Nat) (k : Nat → α) : forceN n k = k n := by cases n <;> rfl

/-! ## Intervals -/

/-- Intervals for the arguments and the first `n` variables; those of the variables are packed into a number, 320 bits each. -/
structure IEnv where
  a : List (Nat × Nat)
  b : List (Nat × Nat)
  x : Nat
  n : Nat

/-- Field number `j` of 320 bits. -/
def slot (x j : Nat) : Nat := Nat.mod (Nat.shiftRight x (Nat.mul 320 j)) (2 ^ 320)

theorem slot_eq (x j : Nat) : slot x j = x / 2 ^ (320 * j) % 2 ^ 320 := by
  unfold slot
  rw [show Nat.shiftRight x (Nat.mul 320 j) = x >>> (320 * j) from rfl, Nat.shiftRight_eq_div_pow]
  rfl

/-- An interval, with the bounds evaluated. -/
def mk2 (lo hi : Nat) : Option (Nat × Nat) := forceN lo fun lo => forceN hi fun hi => some (lo, hi)

theorem mk2_eq (lo hi : Nat) : mk2 lo hi = some (lo, hi) := by simp only [mk2, forceN_eq]

/-- Element number `i`. -/
noncomputable def nth (l : List (Nat × Nat)) : Nat → Option (Nat × Nat) :=
  List.rec (motive := fun _ => Nat → Option (Nat × Nat)) (fun _ => none)
    (fun p _ ih i => Nat.rec (motive := fun _ => Option (Nat × Nat)) (some p) (fun j _ => ih j) i) l

theorem nth_eq (l : List (Nat × Nat)) : ∀ i, nth l i = l[i]? := by
  induction l with
  | nil => intro i; rfl
  | cons p t ih =>
    intro i
    cases i with
    | zero => rfl
    | succ i => rw [List.getElem?_cons_succ, ← ih]; rfl

def IEnv.getX (I : IEnv) (n : Nat) : Option (Nat × Nat) :=
  bif Nat.ble 1 n && Nat.ble n I.n then
    forceN (slot I.x (n - 1)) fun v => mk2 (Nat.mod v (2 ^ 160)) (Nat.div v (2 ^ 160))
  else none

theorem IEnv.getX_eq (I : IEnv) (n : Nat) : I.getX n = if 1 ≤ n ∧ n ≤ I.n then
    some (slot I.x (n - 1) % 2 ^ 160, slot I.x (n - 1) / 2 ^ 160) else none := by
  simp only [IEnv.getX, cond_eq_ite, Nat.ble_eq, Bool.and_eq_true, forceN_eq, mk2_eq]
  rfl

theorem slot_push {x n v j : Nat} (hx : x < 2 ^ (320 * n)) (hv : v < 2 ^ 320) (hj : j ≤ n) :
    slot (x + v * 2 ^ (320 * n)) j = if j = n then v else slot x j := by
  rw [slot_eq, slot_eq]
  split
  · rename_i h
    subst h
    rw [Nat.add_mul_div_right _ _ (by positivity), Nat.div_eq_of_lt hx, zero_add, Nat.mod_eq_of_lt hv]
  · rename_i h
    obtain ⟨d, rfl⟩ : ∃ d, n = j + 1 + d := ⟨n - j - 1, by omega⟩
    rw [show v * 2 ^ (320 * (j + 1 + d)) = (v * 2 ^ (320 * d) * 2 ^ 320) * 2 ^ (320 * j) by
      rw [mul_assoc, mul_assoc, ← pow_add, ← pow_add]; congr 2; omega]
    rw [Nat.add_mul_div_right _ _ (by positivity), Nat.add_mul_mod_self_right]

/-- The interval of an expression, `none` if an operation could wrap around. -/
noncomputable def iv (I : IEnv) : CExp → Option (Nat × Nat)
  | .a i => nth I.a i
  | .b i => nth I.b i
  | .x n => I.getX n
  | .c v => some (v, v)
  | .add w e f => (iv I e).bind fun p => (iv I f).bind fun q =>
    bif Nat.blt (p.2 + q.2) (2 ^ w) then mk2 (p.1 + q.1) (p.2 + q.2) else none
  | .sub w e f => (iv I e).bind fun p => (iv I f).bind fun q =>
    bif Nat.ble q.2 p.1 && Nat.blt p.2 (2 ^ w) then mk2 (p.1 - q.2) (p.2 - q.1) else none
  | .mul w e f => (iv I e).bind fun p => (iv I f).bind fun q =>
    bif Nat.blt (p.2 * q.2) (2 ^ w) then mk2 (p.1 * q.1) (p.2 * q.2) else none
  | .shr e k => (iv I e).bind fun p => mk2 (p.1 / 2 ^ k) (p.2 / 2 ^ k)
  | .shl w e k => (iv I e).bind fun p => bif Nat.blt (p.2 * 2 ^ k) (2 ^ w) then mk2 (p.1 * 2 ^ k) (p.2 * 2 ^ k) else none
  | .and e f => (iv I e).bind fun p => (iv I f).bind fun q =>
    bif Nat.beq p.1 p.2 && Nat.beq q.1 q.2 then mk2 (p.1 &&& q.1) (p.1 &&& q.1)
    else mk2 0 (bif Nat.ble p.2 q.2 then p.2 else q.2)
  | .cast w e => (iv I e).bind fun p => bif Nat.blt p.2 (2 ^ w) then some p else none

/-- An environment within intervals. -/
structure Mem (E : CEnv) (I : IEnv) : Prop where
  a : ∀ i p, I.a[i]? = some p → p.1 ≤ E.a.getD i 0 ∧ E.a.getD i 0 ≤ p.2
  b : ∀ i p, I.b[i]? = some p → p.1 ≤ E.b.getD i 0 ∧ E.b.getD i 0 ≤ p.2
  n : E.x.length = I.n
  lt : I.x < 2 ^ (320 * I.n)
  x : ∀ n p, I.getX n = some p → p.1 ≤ E.x.getD (n - 1) 0 ∧ E.x.getD (n - 1) 0 ≤ p.2

theorem land_le_left' (a b : Nat) : a &&& b ≤ a := Nat.and_le_left
theorem land_le_right' (a b : Nat) : a &&& b ≤ b := Nat.and_le_right

theorem iv_sound {E : CEnv} {I : IEnv} (h : Mem E I) : ∀ (e : CExp) (p : Nat × Nat), iv I e = some p → p.1 ≤ e.val E ∧ e.val E ≤ p.2 := by
  intro e
  induction e with
  | a i => intro p hp; rw [iv, nth_eq] at hp; exact h.a i p hp
  | b i => intro p hp; rw [iv, nth_eq] at hp; exact h.b i p hp
  | x n => intro p hp; exact h.x n p hp
  | c v => intro p hp; simp only [iv, Option.some.injEq] at hp; subst hp; exact ⟨le_refl _, le_refl _⟩
  | add w e f ihe ihf =>
    intro p hp
    simp only [iv, Option.bind_eq_some_iff, cond_eq_ite, Nat.blt_eq, Nat.ble_eq, Nat.beq_eq, Bool.and_eq_true, mk2_eq] at hp
    obtain ⟨q, hq, r, hr, hp⟩ := hp
    split at hp
    · rename_i hb
      obtain rfl := Option.some.inj hp
      have := ihe q hq; have := ihf r hr
      simp only [CExp.val]
      rw [Nat.mod_eq_of_lt (by omega)]
      omega
    · cases hp
  | sub w e f ihe ihf =>
    intro p hp
    simp only [iv, Option.bind_eq_some_iff, cond_eq_ite, Nat.blt_eq, Nat.ble_eq, Nat.beq_eq, Bool.and_eq_true, mk2_eq] at hp
    obtain ⟨q, hq, r, hr, hp⟩ := hp
    split at hp
    · rename_i hb
      obtain rfl := Option.some.inj hp
      have h1 := ihe q hq; have h2 := ihf r hr
      have hv : (CExp.sub w e f).val E = e.val E - f.val E := by
        simp only [CExp.val]
        rw [Nat.mod_eq_of_lt (show f.val E < 2 ^ w by omega)]
        rw [show e.val E + (2 ^ w - f.val E) = (e.val E - f.val E) + 2 ^ w by omega, Nat.add_mod_right, Nat.mod_eq_of_lt (by omega)]
      rw [hv]; dsimp only; omega
    · cases hp
  | mul w e f ihe ihf =>
    intro p hp
    simp only [iv, Option.bind_eq_some_iff, cond_eq_ite, Nat.blt_eq, Nat.ble_eq, Nat.beq_eq, Bool.and_eq_true, mk2_eq] at hp
    obtain ⟨q, hq, r, hr, hp⟩ := hp
    split at hp
    · rename_i hb
      obtain rfl := Option.some.inj hp
      have h1 := ihe q hq; have h2 := ihf r hr
      have hu := Nat.mul_le_mul h1.2 h2.2
      have hl := Nat.mul_le_mul h1.1 h2.1
      simp only [CExp.val]
      rw [Nat.mod_eq_of_lt (by omega)]
      exact ⟨hl, hu⟩
    · cases hp
  | shr e k ihe =>
    intro p hp
    simp only [iv, Option.bind_eq_some_iff, cond_eq_ite, Nat.blt_eq, Nat.ble_eq, Nat.beq_eq, Bool.and_eq_true, mk2_eq] at hp
    obtain ⟨q, hq, hp⟩ := hp
    obtain rfl := Option.some.inj hp
    have h1 := ihe q hq
    exact ⟨Nat.div_le_div_right h1.1, Nat.div_le_div_right h1.2⟩
  | shl w e k ihe =>
    intro p hp
    simp only [iv, Option.bind_eq_some_iff, cond_eq_ite, Nat.blt_eq, Nat.ble_eq, Nat.beq_eq, Bool.and_eq_true, mk2_eq] at hp
    obtain ⟨q, hq, hp⟩ := hp
    split at hp
    · rename_i hb
      obtain rfl := Option.some.inj hp
      have h1 := ihe q hq
      have hu := Nat.mul_le_mul_right (2 ^ k) h1.2
      have hl := Nat.mul_le_mul_right (2 ^ k) h1.1
      simp only [CExp.val]
      rw [Nat.mod_eq_of_lt (by omega)]
      exact ⟨hl, hu⟩
    · cases hp
  | and e f ihe ihf =>
    intro p hp
    simp only [iv, Option.bind_eq_some_iff, cond_eq_ite, Nat.blt_eq, Nat.ble_eq, Nat.beq_eq, Bool.and_eq_true, mk2_eq] at hp
    obtain ⟨q, hq, r, hr, hp⟩ := hp
    have h1 := ihe q hq; have h2 := ihf r hr
    split at hp
    · rename_i hb
      obtain rfl := Option.some.inj hp
      have e1 : e.val E = q.1 := by omega
      have e2 : f.val E = r.1 := by omega
      simp only [CExp.val, e1, e2]
      exact ⟨le_refl _, le_refl _⟩
    · obtain rfl := Option.some.inj hp
      simp only [CExp.val]
      have a1 := land_le_left' (e.val E) (f.val E)
      have a2 := land_le_right' (e.val E) (f.val E)
      refine ⟨Nat.zero_le _, ?_⟩
      split <;> omega
  | cast w e ihe =>
    intro p hp
    simp only [iv, Option.bind_eq_some_iff, cond_eq_ite, Nat.blt_eq, Nat.ble_eq, Nat.beq_eq, Bool.and_eq_true, mk2_eq] at hp
    obtain ⟨q, hq, hp⟩ := hp
    split at hp
    · rename_i hb
      obtain rfl := Option.some.inj hp
      have h1 := ihe q hq
      simp only [CExp.val]
      rw [Nat.mod_eq_of_lt (by omega)]
      exact h1
    · cases hp

/-- The intervals of the values a statement sets. -/
noncomputable def ivStmt (I : IEnv) : CStmt → Option (List (Nat × Nat))
  | .set e => (iv I e).bind fun p => some [p]
  | .adc h u c e f => (iv I c).bind fun p => (iv I e).bind fun q => (iv I f).bind fun r =>
    forceN (p.2 + q.2 + r.2) fun hi => forceN (p.1 + q.1 + r.1) fun lo => forceN (2 ^ u) fun U =>
    bif Nat.blt hi (2 ^ h) && Nat.blt (hi / U) (2 ^ 8) then
      some [bif Nat.blt hi U then (lo, hi) else (0, U - 1), (lo / U, hi / U)]
    else none
  | .sbb h u c e f => (iv I c).bind fun p => (iv I e).bind fun q => (iv I f).bind fun r =>
    forceN (2 ^ u) fun U => forceN (p.2 + r.2) fun sh => forceN (r.1 + p.1) fun sl =>
    bif Nat.ble 1 h && (Nat.blt q.2 (2 ^ (h - 1)) && (Nat.ble sh (2 ^ (h - 1)) && (Nat.blt q.2 (U + sl) && Nat.ble sh (q.1 + U)))) then
      some [bif Nat.ble sh q.1 then (q.1 - sh, q.2 - sl) else (0, U - 1),
        (bif Nat.blt q.2 sl then 1 else 0, bif Nat.ble sh q.1 then 0 else 1)]
    else none
  | .mulx u e f => (iv I e).bind fun q => (iv I f).bind fun r =>
    forceN (2 ^ u) fun U => forceN (q.1 * r.1) fun lo => forceN (q.2 * r.2) fun hi =>
    bif Nat.blt q.2 U && Nat.blt r.2 U then
      some [bif Nat.blt hi U then (lo, hi) else (0, U - 1), (lo / U, hi / U)]
    else none
  | .cmov w c e f => (iv I c).bind fun p => (iv I e).bind fun q => (iv I f).bind fun r =>
    bif Nat.blt q.2 (2 ^ w) && Nat.blt r.2 (2 ^ w) then
      some [bif Nat.beq p.2 0 then q else bif Nat.ble 1 p.1 then r else
        (bif Nat.ble q.1 r.1 then q.1 else r.1, bif Nat.ble q.2 r.2 then r.2 else q.2)]
    else none

/-- What a statement says about the values it sets. -/
def stmtFact (E : CEnv) : CStmt → List Nat → Prop
  | .set e, v => v = [e.val E]
  | .adc _ u c e f, v => ∃ y z, v = [y, z] ∧ y < 2 ^ u ∧ y + 2 ^ u * z = c.val E + e.val E + f.val E
  | .sbb _ u c e f, v => ∃ y z, v = [y, z] ∧ y < 2 ^ u ∧ z ≤ 1 ∧ (y : Int) - 2 ^ u * z = (e.val E : Int) - c.val E - f.val E
  | .mulx u e f, v => ∃ y z, v = [y, z] ∧ y < 2 ^ u ∧ y + 2 ^ u * z = e.val E * f.val E
  | .cmov _ c e f, v => v = [if c.val E = 0 then e.val E else f.val E]

theorem land_mask (a u : Nat) : a &&& (2 ^ u - 1) = a % 2 ^ u := Nat.and_two_pow_sub_one_eq_mod a u

theorem cmovznz_eq {w c e f : Nat} (he : e < 2 ^ w) (hf : f < 2 ^ w) : cmovznz w c e f = if c = 0 then e else f := by
  unfold cmovznz
  by_cases hc : c = 0
  · simp [hc, Nat.and_comm _ e, land_mask, Nat.mod_eq_of_lt he]
  · simp [hc, Nat.and_comm _ f, land_mask, Nat.mod_eq_of_lt hf]

theorem ivStmt_fact {E : CEnv} {I : IEnv} (h : Mem E I) (s : CStmt) (l : List (Nat × Nat)) (hl : ivStmt I s = some l) :
    stmtFact E s (s.vals E) := by
  cases s with
  | set e => rfl
  | adc hh u c e f =>
    simp only [ivStmt, Option.bind_eq_some_iff, forceN_eq, cond_eq_ite, Nat.blt_eq, Nat.ble_eq, Nat.beq_eq, Bool.and_eq_true] at hl
    obtain ⟨p, hp, q, hq, r, hr, hl⟩ := hl
    split at hl
    · rename_i hb
      have h1 := iv_sound h c p hp; have h2 := iv_sound h e q hq; have h3 := iv_sound h f r hr
      refine ⟨_, _, rfl, ?_, ?_⟩
      · simp only [addcarryx, land_mask]; exact Nat.mod_lt _ (by positivity)
      · simp only [addcarryx, land_mask]
        rw [Nat.mod_eq_of_lt (show c.val E + e.val E + f.val E < 2 ^ hh by omega)]
        have : (c.val E + e.val E + f.val E) / 2 ^ u < 2 ^ 8 :=
          lt_of_le_of_lt (Nat.div_le_div_right (by omega)) hb.2
        rw [Nat.mod_eq_of_lt this]
        exact Nat.mod_add_div _ _
    · cases hl
  | sbb hh u c e f =>
    simp only [ivStmt, Option.bind_eq_some_iff, forceN_eq, cond_eq_ite, Nat.blt_eq, Nat.ble_eq, Nat.beq_eq, Bool.and_eq_true] at hl
    obtain ⟨p, hp, q, hq, r, hr, hl⟩ := hl
    split at hl
    · rename_i hb
      obtain ⟨b0, b1, b2, b3, b4⟩ := hb
      have h1 := iv_sound h c p hp; have h2 := iv_sound h e q hq; have h3 := iv_sound h f r hr
      have hpow : 2 ^ hh = 2 * 2 ^ (hh - 1) := by
        obtain ⟨m, rfl⟩ : ∃ m, hh = m + 1 := ⟨hh - 1, by omega⟩
        rw [Nat.add_sub_cancel, pow_succ, mul_comm]
      have hx : ((e.val E : Int) - c.val E - f.val E).bmod (2 ^ hh) = (e.val E : Int) - c.val E - f.val E := by
        apply Int.bmod_eq_of_le
        · rw [hpow]; generalize 2 ^ (hh - 1) = H at *; omega
        · rw [hpow]; generalize 2 ^ (hh - 1) = H at *; omega
      simp only [stmtFact, CStmt.vals, subborrowx, hx]
      set d : Int := (e.val E : Int) - c.val E - f.val E with hd
      have hP : (0 : Int) < 2 ^ u := by positivity
      have hPc : ((2 ^ u : Nat) : Int) = (2 : Int) ^ u := by push_cast; rfl
      have hlo : -(2 : Int) ^ u ≤ d := by rw [hd, ← hPc]; omega
      have hhi : d < 2 ^ u := by rw [hd, ← hPc]; omega
      have hm0 := Int.emod_nonneg d (ne_of_gt hP)
      have hm1 := Int.emod_lt_of_pos d hP
      have hdm := Int.mul_ediv_add_emod d (2 ^ u)
      have hq : d / 2 ^ u = 0 ∨ d / 2 ^ u = -1 := by
        have a1 : -1 ≤ d / 2 ^ u := (Int.le_ediv_iff_mul_le hP).2 (by linarith)
        have a2 : d / 2 ^ u < 1 := (Int.ediv_lt_iff_lt_mul hP).2 (by linarith)
        omega
      refine ⟨_, _, rfl, ?_, ?_, ?_⟩
      · have : ((d % 2 ^ u).toNat : Int) < ((2 ^ u : Nat) : Int) := by rw [Int.toNat_of_nonneg hm0, hPc]; exact hm1
        exact_mod_cast this
      · rcases hq with hq | hq <;> rw [hq] <;> decide
      · rw [Int.toNat_of_nonneg hm0]
        rcases hq with hq | hq
        · rw [hq] at hdm ⊢
          have h0 : (((((0 : Int) - Int.bmod 0 (2 ^ 8)) % 2 ^ 8).toNat : Nat) : Int) = 0 := by decide
          rw [h0]
          linarith
        · rw [hq] at hdm ⊢
          have h0 : (((((0 : Int) - Int.bmod (-1) (2 ^ 8)) % 2 ^ 8).toNat : Nat) : Int) = 1 := by decide
          rw [h0]
          linarith
    · cases hl
  | mulx u e f =>
    simp only [ivStmt, Option.bind_eq_some_iff, forceN_eq, cond_eq_ite, Nat.blt_eq, Nat.ble_eq, Nat.beq_eq, Bool.and_eq_true] at hl
    obtain ⟨q, hq, r, hr, hl⟩ := hl
    split at hl
    · rename_i hb
      have h2 := iv_sound h e q hq; have h3 := iv_sound h f r hr
      have a1 : e.val E < 2 ^ u := by omega
      have a2 : f.val E < 2 ^ u := by omega
      have a3 : e.val E * f.val E < 2 ^ u * 2 ^ u := Nat.mul_lt_mul'' a1 a2
      refine ⟨_, _, rfl, ?_, ?_⟩
      · simp only [Gost.mulx, land_mask]; exact Nat.mod_lt _ (by positivity)
      · simp only [Gost.mulx, land_mask]
        rw [Nat.mod_eq_of_lt (show e.val E * f.val E < 2 ^ (2 * u) by rw [two_mul, pow_add]; exact a3)]
        rw [Nat.mod_eq_of_lt (show e.val E * f.val E / 2 ^ u < 2 ^ u by rw [Nat.div_lt_iff_lt_mul (by positivity)]; exact a3)]
        exact Nat.mod_add_div _ _
    · cases hl
  | cmov w c e f =>
    simp only [ivStmt, Option.bind_eq_some_iff, forceN_eq, cond_eq_ite, Nat.blt_eq, Nat.ble_eq, Nat.beq_eq, Bool.and_eq_true] at hl
    obtain ⟨p, hp, q, hq, r, hr, hl⟩ := hl
    split at hl
    · rename_i hb
      have h2 := iv_sound h e q hq; have h3 := iv_sound h f r hr
      simp only [stmtFact, CStmt.vals]
      rw [cmovznz_eq (by omega) (by omega)]
    · cases hl

/-- Values within intervals. -/
def MemL : List Nat → List (Nat × Nat) → Prop
  | [], [] => True
  | v :: vs, p :: ps => (p.1 ≤ v ∧ v ≤ p.2) ∧ MemL vs ps
  | _, _ => False

theorem quot_cases {y z S P : Nat} (hP : 0 < P) (h1 : y < P) (h2 : y + P * z = S) : z = S / P ∧ y = S % P := by
  have hz : S / P = z := by
    rw [← h2, Nat.add_mul_div_left _ _ hP, Nat.div_eq_of_lt h1, zero_add]
  have hy : S % P = y := by rw [← h2, Nat.add_mul_mod_self_left, Nat.mod_eq_of_lt h1]
  exact ⟨hz.symm, hy.symm⟩

theorem ivStmt_mem {E : CEnv} {I : IEnv} (h : Mem E I) (s : CStmt) (l : List (Nat × Nat)) (hl : ivStmt I s = some l) :
    MemL (s.vals E) l := by
  have hf := ivStmt_fact h s l hl
  generalize s.vals E = v at hf
  cases s with
  | set e =>
    simp only [stmtFact] at hf
    simp only [ivStmt, Option.bind_eq_some_iff, forceN_eq, cond_eq_ite, Nat.blt_eq, Nat.ble_eq, Nat.beq_eq, Bool.and_eq_true] at hl
    obtain ⟨p, hp, hl⟩ := hl
    obtain rfl := Option.some.inj hl
    subst hf
    exact ⟨iv_sound h e p hp, trivial⟩
  | adc hh u c e f =>
    obtain ⟨y, z, rfl, hy, hyz⟩ := hf
    simp only [ivStmt, Option.bind_eq_some_iff, forceN_eq, cond_eq_ite, Nat.blt_eq, Nat.ble_eq, Nat.beq_eq, Bool.and_eq_true] at hl
    obtain ⟨p, hp, q, hq, r, hr, hl⟩ := hl
    split at hl
    · rename_i hb
      obtain rfl := Option.some.inj hl
      have h1 := iv_sound h c p hp; have h2 := iv_sound h e q hq; have h3 := iv_sound h f r hr
      have hP : 0 < 2 ^ u := by positivity
      obtain ⟨e1, e2⟩ := quot_cases hP hy hyz
      refine ⟨?_, ?_, trivial⟩
      · split
        · rename_i hs
          rw [e2, Nat.mod_eq_of_lt (by omega)]; dsimp only; omega
        · exact ⟨Nat.zero_le _, by dsimp only; omega⟩
      · rw [e1]
        exact ⟨Nat.div_le_div_right (by omega), Nat.div_le_div_right (by omega)⟩
    · cases hl
  | sbb hh u c e f =>
    obtain ⟨y, z, rfl, hy, hz, hyz⟩ := hf
    simp only [ivStmt, Option.bind_eq_some_iff, forceN_eq, cond_eq_ite, Nat.blt_eq, Nat.ble_eq, Nat.beq_eq, Bool.and_eq_true] at hl
    obtain ⟨p, hp, q, hq, r, hr, hl⟩ := hl
    split at hl
    · rename_i hb
      obtain rfl := Option.some.inj hl
      have h1 := iv_sound h c p hp; have h2 := iv_sound h e q hq; have h3 := iv_sound h f r hr
      have hPc : ((2 ^ u : Nat) : Int) = (2 : Int) ^ u := by push_cast; rfl
      rw [← hPc] at hyz
      generalize 2 ^ u = P at *
      have hz' : z = 0 ∨ z = 1 := by omega
      refine ⟨?_, ⟨?_, ?_⟩, trivial⟩
      · rcases hz' with rfl | rfl <;> split <;> dsimp only <;> constructor <;> omega
      · rcases hz' with rfl | rfl <;> dsimp only <;> split <;> omega
      · rcases hz' with rfl | rfl <;> dsimp only <;> split <;> omega
    · cases hl
  | mulx u e f =>
    obtain ⟨y, z, rfl, hy, hyz⟩ := hf
    simp only [ivStmt, Option.bind_eq_some_iff, forceN_eq, cond_eq_ite, Nat.blt_eq, Nat.ble_eq, Nat.beq_eq, Bool.and_eq_true] at hl
    obtain ⟨q, hq, r, hr, hl⟩ := hl
    split at hl
    · rename_i hb
      obtain rfl := Option.some.inj hl
      have h2 := iv_sound h e q hq; have h3 := iv_sound h f r hr
      have hP : 0 < 2 ^ u := by positivity
      obtain ⟨e1, e2⟩ := quot_cases hP hy hyz
      have hu := Nat.mul_le_mul h2.2 h3.2
      have hlo := Nat.mul_le_mul h2.1 h3.1
      refine ⟨?_, ?_, trivial⟩
      · split
        · rename_i hs
          rw [e2, Nat.mod_eq_of_lt (by omega)]; exact ⟨hlo, hu⟩
        · exact ⟨Nat.zero_le _, by dsimp only; omega⟩
      · rw [e1]
        exact ⟨Nat.div_le_div_right hlo, Nat.div_le_div_right hu⟩
    · cases hl
  | cmov w c e f =>
    simp only [stmtFact] at hf
    simp only [ivStmt, Option.bind_eq_some_iff, forceN_eq, cond_eq_ite, Nat.blt_eq, Nat.ble_eq, Nat.beq_eq, Bool.and_eq_true] at hl
    obtain ⟨p, hp, q, hq, r, hr, hl⟩ := hl
    split at hl
    · rename_i hb
      obtain rfl := Option.some.inj hl
      have h1 := iv_sound h c p hp; have h2 := iv_sound h e q hq; have h3 := iv_sound h f r hr
      subst hf
      refine ⟨?_, trivial⟩
      by_cases hc : c.val E = 0
      · rw [if_pos hc]
        split
        · exact h2
        · split
          · omega
          · dsimp only; constructor <;> split <;> omega
      · rw [if_neg hc]
        split
        · omega
        · split
          · exact h3
          · dsimp only; constructor <;> split <;> omega
    · cases hl

/-- The value assumed for variable `n`. -/
def assumed (as : List (Nat × Nat)) (n : Nat) : Option Nat :=
  match as with
  | [] => none
  | (m, v) :: t => bif Nat.beq m n then some v else assumed t n

/-- Add a variable. -/
def push (as : List (Nat × Nat)) (I : IEnv) (p : Nat × Nat) : Option IEnv :=
  match I with
  | ⟨a, b, x, n⟩ =>
    (match assumed as (n + 1) with | some v => mk2 v v | none => mk2 p.1 p.2).bind fun q =>
      bif Nat.blt q.1 (2 ^ 160) && Nat.blt q.2 (2 ^ 160) then
        forceN (Nat.add x (Nat.shiftLeft (q.2 * 2 ^ 160 + q.1) (Nat.mul 320 n))) fun y => forceN (n + 1) fun m => some ⟨a, b, y, m⟩
      else none

def pushL (as : List (Nat × Nat)) (I : IEnv) : List (Nat × Nat) → Option IEnv
  | [] => some I
  | p :: ps => (push as I p).bind fun I => pushL as I ps

/-- The intervals after a statement. -/
noncomputable def ivStep (as : List (Nat × Nat)) (I : IEnv) (s : CStmt) : Option IEnv := (ivStmt I s).bind fun l => pushL as I l

/-- The intervals after a sequence of statements. -/
noncomputable def bounds (as : List (Nat × Nat)) : List CStmt → IEnv → Option IEnv
  | [], I => some I
  | s :: code, I => (ivStep as I s).bind fun J => bounds as code J

/-- The variables have the assumed values. -/
def Holds (as : List (Nat × Nat)) (E : CEnv) : Prop := ∀ n v, assumed as n = some v → 1 ≤ n → n ≤ E.x.length → E.x.getD (n - 1) 0 = v

theorem Holds.prefix {as : List (Nat × Nat)} {E : CEnv} {vs : List Nat} (h : Holds as { E with x := E.x ++ vs }) : Holds as E := by
  intro n v hv h1 h2
  have := h n v hv h1 (by simp; omega)
  rw [← this]
  simp only [List.getD_eq_getElem?_getD]
  rw [List.getElem?_append_left (by omega)]

theorem push_mem {as : List (Nat × Nat)} {E : CEnv} {I J : IEnv} (h : Mem E I) {p : Nat × Nat} {v : Nat} (hv : p.1 ≤ v ∧ v ≤ p.2)
    (ha : Holds as { E with x := E.x ++ [v] }) (hJ : push as I p = some J) : Mem { E with x := E.x ++ [v] } J := by
  have key : ∀ lo hi : Nat, lo ≤ v → v ≤ hi → lo < 2 ^ 160 → hi < 2 ^ 160 →
      Mem { E with x := E.x ++ [v] } { I with x := I.x + (hi * 2 ^ 160 + lo) * 2 ^ (320 * I.n), n := I.n + 1 } := by
    intro lo hi h1 h2 h3 h4
    have hs : hi * 2 ^ 160 + lo < 2 ^ 320 := by
      rw [show 320 = 160 + 160 from rfl, pow_add]; generalize 2 ^ 160 = P at *; nlinarith
    refine ⟨h.a, h.b, by simp [h.n], ?_, ?_⟩
    · have := h.lt
      dsimp only
      rw [show 320 * (I.n + 1) = 320 + 320 * I.n by ring, pow_add]
      generalize 2 ^ (320 * I.n) = P at *
      generalize 2 ^ 320 = Q at *
      generalize hi * 2 ^ 160 + lo = s at *
      nlinarith
    intro n q hq
    rw [IEnv.getX_eq] at hq
    split at hq
    · rename_i hn
      obtain rfl := Option.some.inj hq
      dsimp only at hn ⊢
      rw [slot_push h.lt hs (by omega)]
      by_cases hn' : n = I.n + 1
      · subst hn'
        simp only [Nat.add_sub_cancel, if_true]
        have e1 : (hi * 2 ^ 160 + lo) % 2 ^ 160 = lo := by
          rw [add_comm, Nat.add_mul_mod_self_right, Nat.mod_eq_of_lt h3]
        have e2 : (hi * 2 ^ 160 + lo) / 2 ^ 160 = hi := by
          rw [add_comm, Nat.add_mul_div_right _ _ (by positivity), Nat.div_eq_of_lt h3, zero_add]
        rw [e1, e2, ← h.n]
        simp [List.getD_eq_getElem?_getD, h1, h2]
      · rw [if_neg (by omega)]
        have := h.x n _ (by rw [IEnv.getX_eq, if_pos ⟨hn.1, by omega⟩])
        simp only [List.getD_eq_getElem?_getD] at this ⊢
        rw [List.getElem?_append_left (by rw [h.n]; omega)]
        exact this
    · cases hq
  have hpush : push as I p = (match assumed as (I.n + 1) with | some v => some (v, v) | none => some (p.1, p.2)).bind fun q =>
      if q.1 < 2 ^ 160 ∧ q.2 < 2 ^ 160 then some { I with x := I.x + (q.2 * 2 ^ 160 + q.1) * 2 ^ (320 * I.n), n := I.n + 1 } else none := by
    cases I with
    | mk a b x n =>
      simp only [push, forceN_eq, mk2_eq, cond_eq_ite, Nat.blt_eq, Bool.and_eq_true]
      have hsh : ∀ z, Nat.shiftLeft z (Nat.mul 320 n) = z * 2 ^ (320 * n) := fun z => by
        rw [show Nat.shiftLeft z (Nat.mul 320 n) = z <<< (320 * n) from rfl, Nat.shiftLeft_eq]
      simp only [hsh]
      rfl
  rw [hpush] at hJ
  cases he : assumed as (I.n + 1) with
  | some w =>
    have := ha (I.n + 1) w he (by omega) (by simp [h.n])
    rw [Nat.add_sub_cancel, ← h.n] at this
    simp only [List.getD_eq_getElem?_getD, List.getElem?_concat_length, Option.getD_some] at this
    subst this
    rw [he] at hJ
    simp only [Option.bind_some] at hJ
    split at hJ
    · rename_i hb
      obtain rfl := Option.some.inj hJ
      exact key v v (le_refl _) (le_refl _) hb.1 hb.2
    · cases hJ
  | none =>
    rw [he] at hJ
    simp only [Option.bind_some] at hJ
    split at hJ
    · rename_i hb
      obtain rfl := Option.some.inj hJ
      exact key _ _ hv.1 hv.2 hb.1 hb.2
    · cases hJ

theorem pushL_mem {as : List (Nat × Nat)} : ∀ (l : List (Nat × Nat)) (vs : List Nat) (E : CEnv) (I J : IEnv), Mem E I → MemL vs l →
    Holds as { E with x := E.x ++ vs } → pushL as I l = some J → Mem { E with x := E.x ++ vs } J := by
  intro l
  induction l with
  | nil =>
    intro vs E I J h hm ha hJ
    obtain rfl := Option.some.inj hJ
    cases vs with
    | nil => simpa using h
    | cons => exact hm.elim
  | cons p ps ih =>
    intro vs E I J h hm ha hJ
    cases vs with
    | nil => exact hm.elim
    | cons v vs =>
      obtain ⟨h1, h2⟩ := hm
      simp only [pushL, Option.bind_eq_some_iff] at hJ
      obtain ⟨K, hK, hJ⟩ := hJ
      have ha' : Holds as { E with x := E.x ++ [v] ++ vs } := by simpa using ha
      have := ih vs { E with x := E.x ++ [v] } K J (push_mem h h1 (Holds.prefix (E := { E with x := E.x ++ [v] }) ha') hK) h2 ha' hJ
      simpa using this

theorem ivStep_mem {as : List (Nat × Nat)} {E : CEnv} {I J : IEnv} (h : Mem E I) (s : CStmt) (hs : ivStep as I s = some J)
    (ha : Holds as (s.step E)) : Mem (s.step E) J := by
  simp only [ivStep, Option.bind_eq_some_iff] at hs
  obtain ⟨l, hl, hJ⟩ := hs
  exact pushL_mem l _ E I J h (ivStmt_mem h s l hl) ha hJ

theorem run_ext (code : List CStmt) : ∀ E : CEnv, ∃ vs, code.foldl CStmt.step E = { E with x := E.x ++ vs } := by
  induction code with
  | nil => intro E; exact ⟨[], by simp⟩
  | cons s code ih =>
    intro E
    obtain ⟨vs, hvs⟩ := ih (s.step E)
    exact ⟨s.vals E ++ vs, by rw [List.foldl_cons, hvs]; simp [CStmt.step]⟩

theorem Holds.mono {as : List (Nat × Nat)} {code : List CStmt} {E : CEnv} (h : Holds as (code.foldl CStmt.step E)) : Holds as E := by
  obtain ⟨vs, hvs⟩ := run_ext code E
  rw [hvs] at h
  exact h.prefix

theorem bounds_mem {as : List (Nat × Nat)} : ∀ (code : List CStmt) (E : CEnv) (I J : IEnv), Mem E I → bounds as code I = some J →
    Holds as (code.foldl CStmt.step E) → Mem (code.foldl CStmt.step E) J := by
  intro code
  induction code with
  | nil => intro E I J h hb _; obtain rfl := Option.some.inj hb; exact h
  | cons s code ih =>
    intro E I J h hb ha
    simp only [bounds, Option.bind_eq_some_iff] at hb
    obtain ⟨K, hK, hb⟩ := hb
    exact ih _ K J (ivStep_mem h s hK (Holds.mono (code := code) ha)) hb ha

end Gost.Fiat
