import Verif.Lemmas.CtRefine

/-!
# The program of `var_smul_wnaf_two` computes what `Model/EcpSmul.lean` says
-/

namespace Gost.Ct

variable {prj aff leg : Type}

/-- One round of `wnafLoop`: the digit and the next window. -/
def wnafStep (nb : Nat) (b : Bytes) (i : Nat) (window : Int) : Int × Int :=
  let d := wnafDigit window
  let window := int8 ((window - d) / 2)
  (d, int8 (window + scalar_get_bit nb b ((i : Int) + 1 + 5) * 32))

theorem wnafLoop_step (nb : Nat) (b : Bytes) (fuel i : Nat) (window : Int) :
    wnafLoop nb b (fuel + 1) i window =
      (wnafStep nb b i window).1 :: wnafLoop nb b fuel (i + 1) (wnafStep nb b i window).2 := rfl

theorem wnafDigit_bounds (w : Int) : -32 ≤ wnafDigit w ∧ wnafDigit w ≤ 31 := by
  unfold wnafDigit int8
  dsimp only
  split
  · split <;> omega
  · omega

theorem wnafLoop_bounds (nb : Nat) (b : Bytes) : ∀ (fuel i : Nat) (w : Int), ∀ d ∈ wnafLoop nb b fuel i w, -32 ≤ d ∧ d ≤ 31
  | 0, _, _, d, h => by simp [wnafLoop] at h
  | fuel + 1, i, w, d, h => by
    rw [wnafLoop_step, List.mem_cons] at h
    rcases h with h | h
    · subst h; exact wnafDigit_bounds w
    · exact wnafLoop_bounds nb b fuel _ _ d h

theorem getD_bounds (l : List Int) (h : ∀ d ∈ l, -32 ≤ d ∧ d ≤ 31) (j : Nat) : -32 ≤ l.getD j 0 ∧ l.getD j 0 ≤ 31 := by
  by_cases hj : j < l.length
  · rw [List.getD_eq_getElem?_getD, List.getElem?_eq_getElem hj]; exact h _ (List.getElem_mem hj)
  · rw [List.getD_eq_getElem?_getD, List.getElem?_eq_none (by omega)]; simp

theorem run_wnafBody (lut : Nat → Nat → aff) (nb : Nat) (a o : Arr) (hao : a ≠ o) (b : Bytes) (i : Nat)
    (s : State prj aff leg) (ha : s.arr a = bytesArr b) (hi : s.vars .i = (i : Int)) :
    let r := (run lut (wnafBody nb a o) s).1
    r.arr = Function.update s.arr o (Function.update (s.arr o) (i : Int) (wnafStep nb b i (s.vars .window)).1) ∧
    r.pt = s.pt ∧ r.af = s.af ∧ r.precomp = s.precomp ∧ r.P = s.P ∧
    r.vars .window = (wnafStep nb b i (s.vars .window)).2 := by
  unfold wnafBody
  simp only [Stmt.block, run_seq, run_skip]
  have e0 : let q := (run lut (.ite (.op1 (fun w => w % 2) (.var .window))
      (.seq (.set .d (.op1 (fun w => int8 (w % 64)) (.var .window)))
        (.ite (.op1 (fun d => d / 32 % 2) (.var .d)) (.set .d (.op1 (fun d => int8 (d - 64)) (.var .d))) .skip)) .skip)
      (run lut (.set .d (.lit 0)) s).1).1
      q.vars .d = wnafDigit (s.vars .window) ∧ q.vars .i = s.vars .i ∧ q.vars .window = s.vars .window ∧ Frame s q := by
    by_cases h1 : s.vars .window % 2 ≠ 0
    · by_cases h2 : int8 (s.vars .window % 64) / 32 % 2 ≠ 0
      · simp [run, Expr.eval, wnafDigit, h1, h2, Frame]
      · have h2' : int8 (s.vars .window % 64) / 32 % 2 = 0 := by omega
        simp [run, Expr.eval, wnafDigit, h1, h2', Frame]
    · have h1' : s.vars .window % 2 = 0 := by omega
      simp [run, Expr.eval, wnafDigit, h1', Frame]
  dsimp only at e0 ⊢
  generalize (run lut (.ite (.op1 (fun w => w % 2) (.var .window))
      (.seq (.set .d (.op1 (fun w => int8 (w % 64)) (.var .window)))
        (.ite (.op1 (fun d => d / 32 % 2) (.var .d)) (.set .d (.op1 (fun d => int8 (d - 64)) (.var .d))) .skip)) .skip)
      (run lut (.set .d (.lit 0)) s).1).1 = s1 at e0 ⊢
  obtain ⟨e1, e2, e3, e4⟩ := e0
  have f0 : let q := (run lut (.set .window (.op2 (fun w d => int8 ((w - d) / 2)) (.var .window) (.var .d)))
      (run lut (.store o (.var .i) (.var .d)) s1).1).1
      q.arr = Function.update s.arr o (Function.update (s.arr o) (i : Int) (wnafStep nb b i (s.vars .window)).1) ∧
      q.pt = s.pt ∧ q.af = s.af ∧ q.precomp = s.precomp ∧ q.P = s.P ∧ q.vars .i = (i : Int) ∧
      q.vars .window = int8 ((s.vars .window - wnafDigit (s.vars .window)) / 2) := by
    refine ⟨?_, e4.2.1, e4.2.2.1, e4.2.2.2.1, e4.2.2.2.2, ?_, ?_⟩
    · simp [run, Expr.eval, e1, e2, e4.1, hi, wnafStep]
    · simp [run, e2, hi]
    · simp [run, Expr.eval, e1, e3]
  dsimp only at f0 ⊢
  generalize (run lut (.set .window (.op2 (fun w d => int8 ((w - d) / 2)) (.var .window) (.var .d)))
      (run lut (.store o (.var .i) (.var .d)) s1).1).1 = s2 at f0 ⊢
  obtain ⟨f1, f2, f3, f4, f5, f6, f7⟩ := f0
  obtain ⟨g1, g2, g3⟩ := run_getBit lut nb a (.op1 (fun i => i + 1 + 5) (.var .i)) b s2 (by rw [f1]; simp [hao, ha])
  generalize (run lut (getBit nb a (.op1 (fun i => i + 1 + 5) (.var .i))) s2).1 = s3 at g1 g2 g3 ⊢
  refine ⟨g1.1.trans f1, g1.2.1.trans f2, g1.2.2.1.trans f3, g1.2.2.2.1.trans f4, g1.2.2.2.2.trans f5, ?_⟩
  simp only [run, Expr.eval, Function.update_self, g2, g3 .window (by decide) (by decide) (by decide) (by decide) (by decide), f6, f7]
  rfl

theorem run_wnaf_loop (lut : Nat → Nat → aff) (nb : Nat) (a o : Arr) (hao : a ≠ o) (b : Bytes) :
    ∀ (fuel i : Nat) (s : State prj aff leg), s.arr a = bytesArr b →
    let r := loopState lut .i (wnafBody nb a o) (List.range' i fuel) s
    (∀ x, x ≠ o → r.arr x = s.arr x) ∧
    (∀ j : Nat, j < fuel → r.arr o (i + j : Nat) = (wnafLoop nb b fuel i (s.vars .window)).getD j 0) ∧
    (∀ j : Nat, j < i → r.arr o j = s.arr o j) ∧
    r.pt = s.pt ∧ r.af = s.af ∧ r.precomp = s.precomp ∧ r.P = s.P := by
  intro fuel
  induction fuel with
  | zero => intro i s ha; exact ⟨fun _ _ => rfl, fun j h => absurd h (by omega), fun _ _ => rfl, rfl, rfl, rfl, rfl⟩
  | succ fuel ih =>
    intro i s ha
    obtain ⟨e1, e2, e3, e4, e5, e6⟩ := run_wnafBody lut nb a o hao b i (s.setVar .i (i : Int)) ha (by simp [State.setVar])
    rw [List.range'_succ, loopState_cons, wnafLoop_step]
    rw [show (s.setVar .i (i : Int)).vars Var.window = s.vars .window from by simp [State.setVar]] at e1 e6
    generalize (run lut (wnafBody nb a o) (s.setVar .i (i : Int))).1 = r1 at e1 e2 e3 e4 e5 e6 ⊢
    obtain ⟨g1, g2, g3, g5, g6, g7, g8⟩ := ih (i + 1) r1 (by rw [e1]; simpa [State.setVar, hao] using ha)
    refine ⟨?_, ?_, ?_, g5.trans e2, g6.trans e3, g7.trans e4, g8.trans e5⟩
    · intro x hx; rw [g1 x hx, e1]; simp [hx, State.setVar]
    · intro j hj
      match j with
      | 0 =>
        refine (g3 i (by omega)).trans ?_
        rw [e1]
        simp
      | j + 1 =>
        have := g2 j (by omega)
        rw [e6] at this
        rw [show i + (j + 1) = i + 1 + j from by omega, this]
        rfl
    · intro j hj
      rw [g3 j (by omega), e1]
      have : (j : Int) ≠ (i : Int) := by omega
      simp [this, State.setVar]

/-- `scalar_wnaf` fills its array with the digits. -/
theorem run_wnafProg (lut : Nat → Nat → aff) (nb n : Nat) (a o : Arr) (hao : a ≠ o) (b : Bytes) (s : State prj aff leg)
    (ha : s.arr a = bytesArr b) :
    let r := (run lut (wnafProg nb n a o) s).1
    (∀ x, x ≠ o → r.arr x = s.arr x) ∧
    (∀ j : Nat, j < n → r.arr o j = (scalar_wnaf nb n b).getD j 0) ∧
    r.pt = s.pt ∧ r.af = s.af ∧ r.precomp = s.precomp ∧ r.P = s.P := by
  unfold wnafProg
  simp only [Stmt.block, run_seq, run_loop, run_skip]
  generalize h0 : (run lut (.set .window (.op1 (fun x => int8 ((x.toNat % 64 : Nat) : Int)) (.var .byte)))
    (run lut (.load .byte a (.lit 0)) s).1).1 = s0
  have hw : s0.vars .window = int8 (((at_ b 0).toNat % 64 : Nat) : Int) := by
    rw [← h0]; simp [run, Expr.eval, ha, bytesArr]
  have hf : Frame s s0 := by rw [← h0]; exact ⟨rfl, rfl, rfl, rfl, rfl⟩
  rw [List.range_eq_range']
  obtain ⟨g1, g2, -, g5, g6, g7, g8⟩ := run_wnaf_loop lut nb a o hao b n 0 s0 (by rw [hf.1]; exact ha)
  rw [hw] at g2
  refine ⟨fun x hx => by rw [g1 x hx, hf.1], ?_, g5.trans hf.2.1, g6.trans hf.2.2.1, g7.trans hf.2.2.2.1, g8.trans hf.2.2.2.2⟩
  intro j hj
  have := g2 j hj
  rw [Nat.zero_add] at this
  rw [this]; rfl

/-- The variables of the program and those of the model. -/
def Two (s : State prj aff leg) (t : TwoState prj) : Prop :=
  s.pt .Q = t.Q ∧ s.vars .isInf = cBool t.is_inf ∧ s.vars .flipped = cBool t.flipped

theorem run_twoDigit (lut : Nat → Nat → aff) (O : SmulCode prj aff leg) (digits : Arr) (fetch init add : Stmt prj aff leg)
    (init' : Nat → prj) (add' : prj → Nat → prj) (pc : Int → prj) (i : Nat) (d : Int)
    (hinit : ∀ (u : State prj aff leg) (k : Nat), k < 16 → u.vars .d = (k : Int) → u.precomp = pc →
      let q := (run lut init (run lut fetch u).1).1
      q.pt .Q = init' k ∧ q.vars = u.vars ∧ q.arr = u.arr ∧ q.precomp = u.precomp)
    (hadd : ∀ (u : State prj aff leg) (k : Nat), k < 16 → u.vars .d = (k : Int) → u.precomp = pc →
      let q := (run lut add (run lut fetch u).1).1
      q.pt .Q = add' (u.pt .Q) k ∧ q.vars = u.vars ∧ q.arr = u.arr ∧ q.precomp = u.precomp)
    (hfetch : ∀ u : State prj aff leg, (run lut fetch u).1.vars = u.vars)
    (hb : -32 ≤ d ∧ d ≤ 31) (s : State prj aff leg) (t : TwoState prj) (h : Two s t)
    (hi : s.vars .i = (i : Int)) (hd : s.arr digits (i : Int) = d) (hp : s.precomp = pc) :
    let q := (run lut (twoDigitProg O digits fetch init add) s).1
    Two q (twoDigit O d init' add' t) ∧ q.vars .i = s.vars .i ∧ q.arr = s.arr ∧ q.precomp = s.precomp := by
  unfold twoDigitProg twoDigit
  dsimp only
  rw [run_seq]
  have h1 : (run lut (.load .d digits (.var .i)) s).1.vars .d = d := by simp [run, Expr.eval, hi, hd]
  have h1' : Two (run lut (.load .d digits (.var .i)) s).1 t := by
    obtain ⟨a1, a2, a3⟩ := h
    exact ⟨a1, by simp [run, a2], by simp [run, a3]⟩
  have h1'' : (run lut (.load .d digits (.var .i)) s).1.vars .i = s.vars .i ∧
      Frame s (run lut (.load .d digits (.var .i)) s).1 := ⟨by simp [run], ⟨rfl, rfl, rfl, rfl, rfl⟩⟩
  generalize (run lut (.load .d digits (.var .i)) s).1 = s1 at h1 h1' h1'' ⊢
  obtain ⟨hi1, hf1⟩ := h1''
  by_cases hd0 : d = 0
  · have : (Expr.var .d).eval s1.vars = 0 := by simp [Expr.eval, h1, hd0]
    rw [run, if_neg (by rw [this]; exact fun h => h rfl), if_neg (by rw [hd0]; exact fun h => h rfl)]
    exact ⟨h1', hi1, hf1.1, hf1.2.2.2.1⟩
  · have : (Expr.var .d).eval s1.vars = d := by simp [Expr.eval, h1]
    rw [run, if_pos (by rw [this]; exact hd0), if_pos hd0]
    simp only [Stmt.block, run_seq, run_skip]
    -- the sign
    have k2 : let q := (run lut (.ite (.op2 (fun x y => cBool (x ≠ y)) (.var .isNeg) (.var .flipped))
          (.seq (.pcall "opp" .Q (fun s => O.opp (s.pt .Q))) (.set .flipped (.op1 (fun x => 1 - x) (.var .flipped)))) .skip)
          (run lut (.set .isNeg (.op1 (fun d => cBool (d < 0)) (.var .d))) s1).1).1
        Two q (if decide (d < 0) ≠ t.flipped then { t with Q := O.opp t.Q, flipped := !t.flipped } else t) ∧
        q.vars .isNeg = cBool (d < 0) ∧ q.vars .d = d ∧ q.vars .i = s.vars .i ∧ q.arr = s.arr ∧ q.precomp = s.precomp := by
      obtain ⟨a1, a2, a3⟩ := h1'
      have b1 := hf1.1
      have b2 := hf1.2.2.2.1
      by_cases hn : d < 0
      · cases hfl : t.flipped <;> simp [run, Expr.eval, Two, h1, a1, a2, a3, hn, hfl, cBool, hi1, b1, b2]
      · cases hfl : t.flipped <;> simp [run, Expr.eval, Two, h1, a1, a2, a3, hn, hfl, cBool, hi1, b1, b2]
    dsimp only at k2
    generalize (run lut (.ite (.op2 (fun x y => cBool (x ≠ y)) (.var .isNeg) (.var .flipped))
          (.seq (.pcall "opp" .Q (fun s => O.opp (s.pt .Q))) (.set .flipped (.op1 (fun x => 1 - x) (.var .flipped)))) .skip)
          (run lut (.set .isNeg (.op1 (fun d => cBool (d < 0)) (.var .d))) s1).1).1 = s2 at k2 ⊢
    generalize (if decide (d < 0) ≠ t.flipped then { t with Q := O.opp t.Q, flipped := !t.flipped } else t) = t2 at k2 ⊢
    obtain ⟨c1, c2, c3, c4, c5, c6⟩ := k2
    -- the index
    have k3 : let q := (run lut (.ite (.var .isNeg) (.set .d (.op1 (fun d => (-d - 1) / 2) (.var .d)))
          (.set .d (.op1 (fun d => (d - 1) / 2) (.var .d)))) s2).1
        Two q t2 ∧ q.vars .d = (((if decide (d < 0) = true then (-d - 1) / 2 else (d - 1) / 2).toNat : Nat) : Int) ∧
        q.vars .i = s.vars .i ∧ q.arr = s.arr ∧ q.precomp = s.precomp := by
      obtain ⟨a1, a2, a3⟩ := c1
      by_cases hn : d < 0
      · have : ((-d - 1) / 2 : Int) = (((-d - 1) / 2).toNat : Int) := by omega
        simp [run, Expr.eval, Two, c2, c3, c4, c5, c6, a1, a2, a3, hn, cBool]
        omega
      · have : ((d - 1) / 2 : Int) = (((d - 1) / 2).toNat : Int) := by omega
        simp [run, Expr.eval, Two, c2, c3, c4, c5, c6, a1, a2, a3, hn, cBool]
        omega
    dsimp only at k3
    have hk : (if decide (d < 0) = true then (-d - 1) / 2 else (d - 1) / 2).toNat < 16 := by
      split
      · omega
      · omega
    generalize (if decide (d < 0) = true then (-d - 1) / 2 else (d - 1) / 2).toNat = k at k3 hk ⊢
    generalize (run lut (.ite (.var .isNeg) (.set .d (.op1 (fun d => (-d - 1) / 2) (.var .d)))
          (.set .d (.op1 (fun d => (d - 1) / 2) (.var .d)))) s2).1 = s3 at k3 ⊢
    obtain ⟨⟨e0, e0', e0''⟩, e1, e2, e3, e4⟩ := k3
    obtain ⟨i1, i2, i3, i4⟩ := hinit s3 k hk e1 (e4.trans hp)
    obtain ⟨j1, j2, j3, j4⟩ := hadd s3 k hk e1 (e4.trans hp)
    have hinf : (Expr.var .isInf).eval (run lut fetch s3).1.vars = cBool t2.is_inf := by
      simp only [Expr.eval]; rw [hfetch, e0']
    rw [run]
    cases ht : t2.is_inf
    · rw [if_neg (by rw [hinf, ht]; exact fun h => h rfl)]
      refine ⟨⟨?_, ?_, ?_⟩, ?_, ?_, ?_⟩
      · rw [j1, e0]; simp
      · rw [j2, e0', ht]; rfl
      · rw [j2, e0'']; rfl
      · rw [j2, e2]
      · rw [j3, e3]
      · rw [j4, e4]
    · rw [if_pos (by rw [hinf, ht]; decide), run_seq]
      refine ⟨⟨?_, ?_, ?_⟩, ?_, ?_, ?_⟩
      · show (run lut init (run lut fetch s3).1).1.pt .Q = _
        rw [i1]; simp
      · simp [run, Expr.eval, cBool]
      · simp only [run]; simp only [ne_eq, reduceCtorEq, not_false_eq_true, Function.update_of_ne]; rw [i2, e0'']; rfl
      · simp only [run]; simp only [ne_eq, reduceCtorEq, not_false_eq_true, Function.update_of_ne]; rw [i2, e2]
      · simp only [run]; rw [i3, e3]
      · simp only [run]; rw [i4, e4]

theorem run_twoBody (O : SmulCode prj aff leg) (precomp : List prj) (anaf bnaf : List Int)
    (ha : ∀ d ∈ anaf, -32 ≤ d ∧ d ≤ 31) (hb : ∀ d ∈ bnaf, -32 ≤ d ∧ d ≤ 31) (pc : Int → prj)
    (hpc : ∀ j : Nat, j < 16 → pc (j : Int) = precomp.getD j O.zeroPrj) :
    ∀ (n : Nat) (s : State prj aff leg) (t : TwoState prj), Two s t →
      (∀ j : Nat, j < n → s.arr .rnaf (j : Int) = anaf.getD j 0) → (∀ j : Nat, j < n → s.arr .bnaf (j : Int) = bnaf.getD j 0) →
      s.precomp = pc →
      Two (loopState O.lut_cmb .i (twoBody O) (List.range n).reverse s) (twoRounds O precomp anaf bnaf n t) := by
  intro n
  induction n with
  | zero => intro s t h _ _ _; exact h
  | succ n ih =>
    intro s t h hra hrb hp
    rw [List.range_succ, List.reverse_append, List.reverse_singleton, List.singleton_append, loopState_cons]
    have k1 : let q := (run O.lut_cmb (.ite (.op1 (fun x => cBool (x = 0)) (.var .isInf))
          (.pcall "point_double" .Q (fun s => O.point_double (s.pt .Q))) .skip) (s.setVar .i (n : Int))).1
        Two q (if t.is_inf then t else { t with Q := O.point_double t.Q }) ∧ q.vars .i = (n : Int) ∧ q.arr = s.arr ∧
          q.precomp = pc := by
      obtain ⟨a1, a2, a3⟩ := h
      cases ht : t.is_inf
      · simp [run, Expr.eval, Two, State.setVar, a1, a2, a3, ht, cBool, hp]
      · simp [run, Expr.eval, Two, State.setVar, a1, a2, a3, ht, cBool, hp]
    dsimp only at k1
    obtain ⟨c1, c2, c3, c4⟩ := k1
    have k2 := run_twoDigit O.lut_cmb O .bnaf (.pload .t1 (.var .d)) (.pcall "fe_copy" .Q (fun s => s.pt .t1))
      (.pcall "point_add_proj" .Q (fun s => O.point_add_proj (s.pt .Q) (s.pt .t1)))
      (fun k => precomp.getD k O.zeroPrj) (fun Q k => O.point_add_proj Q (precomp.getD k O.zeroPrj)) pc n (bnaf.getD n 0)
      (fun u k hk hd hu => by
        refine ⟨?_, rfl, rfl, rfl⟩
        simp only [run, Expr.eval, hd, hu, Function.update_self]; exact hpc k hk)
      (fun u k hk hd hu => by
        refine ⟨?_, rfl, rfl, rfl⟩
        simp only [run, Expr.eval, hd, hu, Function.update_self, ne_eq, reduceCtorEq, not_false_eq_true, Function.update_of_ne]
        rw [hpc k hk])
      (fun _ => rfl) (getD_bounds _ hb n) _ _ c1 c2 (by rw [c3]; exact hrb n (by omega)) c4
    dsimp only at k2
    obtain ⟨d1, d2, d3, d4⟩ := k2
    have k3 := run_twoDigit O.lut_cmb O .rnaf (.aload .t (.lit 0) (.var .d)) (.pcall "fe_copy" .Q (fun s => O.ofAff (s.af .t)))
      (.pcall "point_add_mixed" .Q (fun s => O.point_add_mixed (s.pt .Q) (s.af .t)))
      (fun k => O.ofAff (O.lut_cmb 0 k)) (fun Q k => O.point_add_mixed Q (O.lut_cmb 0 k)) pc n (anaf.getD n 0)
      (fun u k hk hd hu => by
        refine ⟨?_, rfl, rfl, rfl⟩
        simp [run, Expr.eval, hd])
      (fun u k hk hd hu => by
        refine ⟨?_, rfl, rfl, rfl⟩
        simp [run, Expr.eval, hd])
      (fun _ => rfl) (getD_bounds _ ha n) _ _ d1 (d2.trans c2) (by rw [d3, c3]; exact hra n (by omega)) (d4.trans c4)
    dsimp only at k3
    obtain ⟨e1, e2, e3, e4⟩ := k3
    refine ih _ _ e1 ?_ ?_ ?_
    · intro j hj
      show (run O.lut_cmb (twoBody O) (s.setVar .i (n : Int))).1.arr .rnaf (j : Int) = _
      unfold twoBody
      simp only [Stmt.block, run_seq, run_skip]
      rw [e3, d3, c3]; exact hra j (by omega)
    · intro j hj
      show (run O.lut_cmb (twoBody O) (s.setVar .i (n : Int))).1.arr .bnaf (j : Int) = _
      unfold twoBody
      simp only [Stmt.block, run_seq, run_skip]
      rw [e3, d3, c3]; exact hrb j (by omega)
    · show (run O.lut_cmb (twoBody O) (s.setVar .i (n : Int))).1.precomp = _
      unfold twoBody
      simp only [Stmt.block, run_seq, run_skip]
      rw [e4, d4, c4]

/-- The program of `var_smul_wnaf_two` leaves in `Q` what the model of the function says, whatever the memory holds besides the
scalars and the point. -/
theorem two_result (O : SmulCode prj aff leg) (a b : Bytes) (s : State prj aff leg)
    (hsa : s.arr .scalar = bytesArr a) (hsb : s.arr .scalar2 = bytesArr b) :
    (run O.lut_cmb (twoProg O) s).1.pt .Q = var_smul_wnaf_two_prj O a b s.P := by
  unfold twoProg var_smul_wnaf_two_prj
  simp only [Stmt.block, run_seq, run_loop, run_skip]
  obtain ⟨a1, a2, -, -⟩ := run_precomp O.lut_cmb O s
  have s1a : (run O.lut_cmb (precompProg O) s).1.arr .scalar = bytesArr a := by
    rw [a2, hsa]
  have s1b : (run O.lut_cmb (precompProg O) s).1.arr .scalar2 = bytesArr b := by
    rw [a2, hsb]
  have a1' : ∀ j : Nat, j < 16 → (run O.lut_cmb (precompProg O) s).1.precomp (j : Int)
      = (precomp_wnaf O s.P).getD j O.zeroPrj := a1
  generalize (run O.lut_cmb (precompProg O) s).1 = s1 at a1' s1a s1b ⊢
  obtain ⟨b1, b2, -, -, b5, -⟩ := run_wnafProg O.lut_cmb O.nb (8 * O.nb + 1) .scalar .rnaf (by decide) a s1 s1a
  generalize (run O.lut_cmb (wnafProg O.nb (8 * O.nb + 1) .scalar .rnaf) s1).1 = s2 at b1 b2 b5 ⊢
  obtain ⟨c1, c2, -, -, c5, -⟩ := run_wnafProg O.lut_cmb O.nb (8 * O.nb + 1) .scalar2 .bnaf (by decide) b s2
    (by rw [b1 _ (by decide), s1b])
  generalize (run O.lut_cmb (wnafProg O.nb (8 * O.nb + 1) .scalar2 .bnaf) s2).1 = s3 at c1 c2 c5 ⊢
  have h0 : Two (run O.lut_cmb (.set .flipped (.lit 0)) (run O.lut_cmb (.set .isInf (.lit 1))
      (run O.lut_cmb (.pcall "init" .Q (fun _ => O.zeroPrj)) s3).1).1).1 ⟨O.zeroPrj, true, false⟩ := by
    simp [Two, run, Expr.eval, cBool]
  have ha : (run O.lut_cmb (.set .flipped (.lit 0)) (run O.lut_cmb (.set .isInf (.lit 1))
      (run O.lut_cmb (.pcall "init" .Q (fun _ => O.zeroPrj)) s3).1).1).1.arr = s3.arr := rfl
  have hp : (run O.lut_cmb (.set .flipped (.lit 0)) (run O.lut_cmb (.set .isInf (.lit 1))
      (run O.lut_cmb (.pcall "init" .Q (fun _ => O.zeroPrj)) s3).1).1).1.precomp = s3.precomp := rfl
  generalize (run O.lut_cmb (.set .flipped (.lit 0)) (run O.lut_cmb (.set .isInf (.lit 1))
      (run O.lut_cmb (.pcall "init" .Q (fun _ => O.zeroPrj)) s3).1).1).1 = s4 at h0 ha hp ⊢
  have k := run_twoBody O (precomp_wnaf O s.P) (scalar_wnaf O.nb (8 * O.nb + 1) a) (scalar_wnaf O.nb (8 * O.nb + 1) b)
    (wnafLoop_bounds _ _ _ _ _) (wnafLoop_bounds _ _ _ _ _) s4.precomp
    (fun j hj => by rw [hp, c5, b5]; exact a1' j hj) (8 * O.nb + 1) s4 _ h0
    (fun j hj => by rw [ha, c1 _ (by decide)]; exact b2 j hj) (fun j hj => by rw [ha]; exact c2 j hj) rfl
  generalize loopState O.lut_cmb .i (twoBody O) (List.range (8 * O.nb + 1)).reverse s4 = s5 at k ⊢
  generalize twoRounds O (precomp_wnaf O s.P) (scalar_wnaf O.nb (8 * O.nb + 1) a) (scalar_wnaf O.nb (8 * O.nb + 1) b)
    (8 * O.nb + 1) ⟨O.zeroPrj, true, false⟩ = t at k ⊢
  obtain ⟨e1, e2, e3⟩ := k
  cases h1 : t.is_inf <;> cases h2 : t.flipped <;> simp [run, Expr.eval, e1, e2, e3, h1, h2, cBool]

end Gost.Ct
