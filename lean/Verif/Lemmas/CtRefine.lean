import Verif.Lemmas.CtNonInterference

/-!
# The programs of `Model/EcpTrace.lean` compute what `Model/EcpSmul.lean` says
-/

namespace Gost.Ct

variable {prj aff leg : Type}

/-- Everything but variables is unchanged. -/
def Frame (s r : State prj aff leg) : Prop :=
  r.arr = s.arr ∧ r.pt = s.pt ∧ r.af = s.af ∧ r.precomp = s.precomp ∧ r.P = s.P

theorem run_getBit (lut : Nat → Nat → aff) (nb : Nat) (a : Arr) (e : Expr) (b : Bytes) (s : State prj aff leg)
    (ha : s.arr a = bytesArr b) :
    Frame s (run lut (getBit nb a e) s).1 ∧
    (run lut (getBit nb a e) s).1.vars .bit = scalar_get_bit nb b (e.eval s.vars) ∧
    ∀ v, v ≠ .bit → v ≠ .idx → v ≠ .widx → v ≠ .rshift → v ≠ .byte →
      (run lut (getBit nb a e) s).1.vars v = s.vars v := by
  unfold getBit scalar_get_bit
  simp only [Stmt.block, run, Expr.eval, cBool]
  by_cases h1 : e.eval s.vars < 0
  · simp [h1, Frame]
    intro v h2 h3 h4 h5 h6
    simp [h2, h3, h4, h5]
  · by_cases h2 : e.eval s.vars / 8 ≥ (nb : Int)
    · simp [h1, h2, Frame]
      intro v h2 h3 h4 h5 h6
      simp [h2, h3, h4, h5]
    · have h2' : ¬ ((nb : Int) ≤ e.eval s.vars / 8) := h2
      simp [h1, h2', Frame, ha, bytesArr]
      intro v h2 h3 h4 h5 h6
      simp [h2, h3, h4, h5, h6]

theorem Frame.refl (s : State prj aff leg) : Frame s s := ⟨rfl, rfl, rfl, rfl, rfl⟩

theorem Frame.trans {s r t : State prj aff leg} (h : Frame s r) (h' : Frame r t) : Frame s t :=
  ⟨h'.1.trans h.1, h'.2.1.trans h.2.1, h'.2.2.1.trans h.2.2.1, h'.2.2.2.1.trans h.2.2.2.1, h'.2.2.2.2.trans h.2.2.2.2⟩

theorem run_addBit (lut : Nat → Nat → aff) (nb : Nat) (a : Arr) (k : Nat) (b : Bytes) (s : State prj aff leg)
    (ha : s.arr a = bytesArr b) :
    Frame s (run lut (addBit nb a k) s).1 ∧
    (run lut (addBit nb a k) s).1.vars .window =
      int8 (s.vars .window + scalar_get_bit nb b ((s.vars .i + 1) * 5 + k) * 2 ^ k) ∧
    (run lut (addBit nb a k) s).1.vars .i = s.vars .i ∧ (run lut (addBit nb a k) s).1.vars .d = s.vars .d := by
  obtain ⟨hf, hb, hv⟩ := run_getBit lut nb a (.op1 (fun i => (i + 1) * 5 + k) (.var .i)) b s ha
  unfold addBit
  simp only [run]
  generalize run lut (getBit nb a (.op1 (fun i => (i + 1) * 5 + k) (.var .i))) s = r at hf hb hv ⊢
  refine ⟨hf, ?_, ?_, ?_⟩
  · simp [Expr.eval, hb, hv .window (by decide) (by decide) (by decide) (by decide) (by decide)]
  · simp [hv .i (by decide) (by decide) (by decide) (by decide) (by decide)]
  · simp [hv .d (by decide) (by decide) (by decide) (by decide) (by decide)]

/-- One round of `rwnafLoop`: the digit and the next window. -/
def rwnafStep (nb : Nat) (b : Bytes) (i : Nat) (window : Int) : Int × Int :=
  let d := int8 (window % 64 - 32)
  let window := int8 ((window - d) / 32)
  let window := int8 (window + scalar_get_bit nb b (((i : Int) + 1) * 5 + 1) * 2)
  let window := int8 (window + scalar_get_bit nb b (((i : Int) + 1) * 5 + 2) * 4)
  let window := int8 (window + scalar_get_bit nb b (((i : Int) + 1) * 5 + 3) * 8)
  let window := int8 (window + scalar_get_bit nb b (((i : Int) + 1) * 5 + 4) * 16)
  let window := int8 (window + scalar_get_bit nb b (((i : Int) + 1) * 5 + 5) * 32)
  (d, window)

theorem rwnafLoop_step (nb : Nat) (b : Bytes) (fuel i : Nat) (window : Int) :
    rwnafLoop nb b (fuel + 1) i window =
      (rwnafStep nb b i window).1 :: rwnafLoop nb b fuel (i + 1) (rwnafStep nb b i window).2 := rfl

theorem run_rwnafBody (lut : Nat → Nat → aff) (nb : Nat) (b : Bytes) (i : Nat) (s : State prj aff leg)
    (ha : s.arr .scalar = bytesArr b) (hi : s.vars .i = (i : Int)) :
    let r := (run lut (rwnafBody nb) s).1
    r.arr = Function.update s.arr .rnaf (Function.update (s.arr .rnaf) (i : Int) (rwnafStep nb b i (s.vars .window)).1) ∧
    r.pt = s.pt ∧ r.af = s.af ∧ r.precomp = s.precomp ∧ r.P = s.P ∧
    r.vars .window = (rwnafStep nb b i (s.vars .window)).2 := by
  unfold rwnafBody
  simp only [Stmt.block, run]
  simp only [Expr.eval, Function.update_self, ne_eq, reduceCtorEq, not_false_eq_true, Function.update_of_ne]
  generalize h0 : ({
      vars := Function.update (Function.update s.vars Var.d (int8 (s.vars Var.window % 64 - 32))) Var.window
        (int8 ((s.vars Var.window - int8 (s.vars Var.window % 64 - 32)) / 32)),
      arr := Function.update s.arr Arr.rnaf (Function.update (s.arr Arr.rnaf) (s.vars Var.i) (int8 (s.vars Var.window % 64 - 32))),
      pt := s.pt, af := s.af, precomp := s.precomp, P := s.P } : State prj aff leg) = s0
  have hs0 : s0.arr .scalar = bytesArr b := by rw [← h0]; simp [ha]
  have hi0 : s0.vars .i = (i : Int) := by rw [← h0]; simp [hi]
  have hw0 : s0.vars .window = int8 ((s.vars Var.window - int8 (s.vars Var.window % 64 - 32)) / 32) := by rw [← h0]; simp
  obtain ⟨f1, w1, i1, -⟩ := run_addBit lut nb .scalar 1 b s0 hs0
  generalize run lut (addBit nb .scalar 1) s0 = s1 at f1 w1 i1 ⊢
  obtain ⟨f2, w2, i2, -⟩ := run_addBit lut nb .scalar 2 b s1.1 (by rw [f1.1, hs0])
  generalize run lut (addBit nb .scalar 2) s1.1 = s2 at f2 w2 i2 ⊢
  obtain ⟨f3, w3, i3, -⟩ := run_addBit lut nb .scalar 3 b s2.1 (by rw [f2.1, f1.1, hs0])
  generalize run lut (addBit nb .scalar 3) s2.1 = s3 at f3 w3 i3 ⊢
  obtain ⟨f4, w4, i4, -⟩ := run_addBit lut nb .scalar 4 b s3.1 (by rw [f3.1, f2.1, f1.1, hs0])
  generalize run lut (addBit nb .scalar 4) s3.1 = s4 at f4 w4 i4 ⊢
  obtain ⟨f5, w5, -, -⟩ := run_addBit lut nb .scalar 5 b s4.1 (by rw [f4.1, f3.1, f2.1, f1.1, hs0])
  generalize run lut (addBit nb .scalar 5) s4.1 = s5 at f5 w5 ⊢
  have F := f1.trans (f2.trans (f3.trans (f4.trans f5)))
  obtain ⟨Fa, Fp, Ff, Fc, FP⟩ := F
  refine ⟨?_, ?_, ?_, ?_, ?_, ?_⟩
  · rw [Fa, ← h0, hi]; rfl
  · rw [Fp, ← h0]
  · rw [Ff, ← h0]
  · rw [Fc, ← h0]
  · rw [FP, ← h0]
  · rw [w5, w4, w3, w2, w1, i4, i3, i2, i1, hi0, hw0]
    rfl

theorem rwnafLoop_length (nb : Nat) (b : Bytes) : ∀ (fuel i : Nat) (w : Int), (rwnafLoop nb b fuel i w).length = fuel + 1
  | 0, _, _ => rfl
  | fuel + 1, i, w => by rw [rwnafLoop_step, List.length_cons, rwnafLoop_length]

/-- A variable set to a value. -/
def State.setVar (s : State prj aff leg) (v : Var) (x : Int) : State prj aff leg :=
  { s with vars := Function.update s.vars v x }

/-- The memory after a loop. -/
def loopState (lut : Nat → Nat → aff) (v : Var) (body : Stmt prj aff leg) (vals : List Nat) (s : State prj aff leg) :
    State prj aff leg :=
  vals.foldl (fun s (x : Nat) => (run lut body (s.setVar v (x : Int))).1) s

theorem run_loop (lut : Nat → Nat → aff) (v : Var) (body : Stmt prj aff leg) (vals : List Nat) (s : State prj aff leg) :
    (run lut (.loop v vals body) s).1 = loopState lut v body vals s := by
  have key : ∀ (vals : List Nat) (s : State prj aff leg) (t : List Ev),
      (vals.foldl (fun (acc : State prj aff leg × List Ev) (x : Nat) =>
          ((run lut body { acc.1 with vars := Function.update acc.1.vars v (x : Int) }).1, acc.2 ++ Ev.round ::
            (run lut body { acc.1 with vars := Function.update acc.1.vars v (x : Int) }).2)) (s, t)).1
        = loopState lut v body vals s := by
    intro vals
    induction vals with
    | nil => intro s t; rfl
    | cons x l ih => intro s t; rw [List.foldl_cons]; exact ih _ _
  exact key vals s []

theorem loopState_cons (lut : Nat → Nat → aff) (v : Var) (body : Stmt prj aff leg) (x : Nat) (l : List Nat)
    (s : State prj aff leg) :
    loopState lut v body (x :: l) s = loopState lut v body l (run lut body (s.setVar v (x : Int))).1 := rfl

theorem run_skip (lut : Nat → Nat → aff) (s : State prj aff leg) : (run lut .skip s).1 = s := rfl

theorem run_seq (lut : Nat → Nat → aff) (p q : Stmt prj aff leg) (s : State prj aff leg) :
    (run lut (.seq p q) s).1 = (run lut q (run lut p s).1).1 := rfl

/-- The state of the loop of `scalar_rwnaf` started at `i`. -/
theorem run_rwnaf_loop (lut : Nat → Nat → aff) (nb : Nat) (b : Bytes) : ∀ (fuel i : Nat) (s : State prj aff leg),
    s.arr .scalar = bytesArr b →
    let r := loopState lut .i (rwnafBody nb) (List.range' i fuel) s
    r.arr .scalar = bytesArr b ∧
    (∀ j : Nat, j < fuel → r.arr .rnaf (i + j : Nat) = (rwnafLoop nb b fuel i (s.vars .window)).getD j 0) ∧
    (∀ j : Nat, j < i → r.arr .rnaf j = s.arr .rnaf j) ∧
    r.vars .window = (rwnafLoop nb b fuel i (s.vars .window)).getD fuel 0 ∧
    r.pt = s.pt ∧ r.af = s.af ∧ r.precomp = s.precomp ∧ r.P = s.P := by
  intro fuel
  induction fuel with
  | zero => intro i s ha; exact ⟨ha, fun j h => absurd h (by omega), fun _ _ => rfl, rfl, rfl, rfl, rfl, rfl⟩
  | succ fuel ih =>
    intro i s ha
    obtain ⟨e1, e2, e3, e4, e5, e6⟩ := run_rwnafBody lut nb b i (s.setVar .i (i : Int)) ha (by simp [State.setVar])
    rw [List.range'_succ, loopState_cons, rwnafLoop_step]
    rw [show (s.setVar .i (i : Int)).vars Var.window = s.vars .window from by simp [State.setVar]] at e1 e6
    generalize (run lut (rwnafBody nb) (s.setVar .i (i : Int))).1 = r1 at e1 e2 e3 e4 e5 e6 ⊢
    obtain ⟨g1, g2, g3, g4, g5, g6, g7, g8⟩ := ih (i + 1) r1 (by rw [e1]; simpa [State.setVar] using ha)
    refine ⟨g1, ?_, ?_, ?_, g5.trans e2, g6.trans e3, g7.trans e4, g8.trans e5⟩
    · intro j hj
      match j with
      | 0 =>
        refine (g3 i (by omega)).trans ?_
        rw [e1]
        simp
      | j + 1 =>
        have := g2 j (by omega)
        rw [e6] at this
        rw [show i + (j + 1) = i + 1 + j from by omega, this]
        rfl
    · intro j hj
      rw [g3 j (by omega), e1]
      have : (j : Int) ≠ (i : Int) := by omega
      simp [this, State.setVar]
    · rw [g4, e6]; rfl

/-- `scalar_rwnaf` fills `rnaf` with the digits. -/
theorem run_rwnafProg (lut : Nat → Nat → aff) (nb n : Nat) (b : Bytes) (s : State prj aff leg)
    (ha : s.arr .scalar = bytesArr b) :
    let r := (run lut (rwnafProg nb n) s).1
    r.arr .scalar = bytesArr b ∧
    (∀ j : Nat, j ≤ n → r.arr .rnaf j = (scalar_rwnaf nb n b).getD j 0) ∧
    r.pt = s.pt ∧ r.af = s.af ∧ r.precomp = s.precomp ∧ r.P = s.P := by
  unfold rwnafProg
  simp only [Stmt.block, run_seq, run_loop]
  generalize h0 : (run lut (.set .window (.op1 (fun x => int8 ((((x.toNat % 64) ||| 1 : Nat)) : Int)) (.var .byte)))
    (run lut (.load .byte .scalar (.lit 0)) s).1).1 = s0
  have hw : s0.vars .window = int8 (((((at_ b 0).toNat % 64) ||| 1 : Nat)) : Int) := by
    rw [← h0]; simp [run, Expr.eval, ha, bytesArr]
  have hf : Frame s s0 := by rw [← h0]; exact ⟨rfl, rfl, rfl, rfl, rfl⟩
  rw [List.range_eq_range']
  obtain ⟨g1, g2, g3, g4, g5, g6, g7, g8⟩ := run_rwnaf_loop lut nb b n 0 s0 (by rw [hf.1]; exact ha)
  rw [hw] at g2 g4
  generalize loopState lut .i (rwnafBody nb) (List.range' 0 n) s0 = r1 at g1 g2 g3 g4 g5 g6 g7 g8 ⊢
  refine ⟨by simpa [run] using g1, ?_, g5.trans hf.2.1, g6.trans hf.2.2.1, g7.trans hf.2.2.2.1, g8.trans hf.2.2.2.2⟩
  intro j hj
  rcases Nat.lt_or_eq_of_le hj with h | h
  · have := g2 j h
    have hne : (j : Int) ≠ (n : Int) := by omega
    rw [Nat.zero_add] at this
    simp [run, Expr.eval, hne, this]
    rfl
  · subst h
    simp [run, Expr.eval, g4]
    rfl

/-! ## The variable point multiplication -/

theorem run_doubles (lut : Nat → Nat → aff) (O : SmulCode prj aff leg) (k : Nat) (s : State prj aff leg) :
    let r := (run lut (doublesProg O k) s).1
    r.pt .Q = doubles O k (s.pt .Q) ∧ (∀ x, x ≠ .Q → r.pt x = s.pt x) ∧ r.arr = s.arr ∧ r.af = s.af ∧
      r.precomp = s.precomp ∧ r.P = s.P ∧ (∀ v, v ≠ .j → r.vars v = s.vars v) := by
  unfold doublesProg
  rw [run_loop, List.range_eq_range']
  have key : ∀ (k i : Nat) (s : State prj aff leg),
      let r := loopState lut .j (.pcall "point_double" .Q (fun s => O.point_double (s.pt .Q))) (List.range' i k) s
      r.pt .Q = doubles O k (s.pt .Q) ∧ (∀ x, x ≠ .Q → r.pt x = s.pt x) ∧ r.arr = s.arr ∧ r.af = s.af ∧
      r.precomp = s.precomp ∧ r.P = s.P ∧ (∀ v, v ≠ .j → r.vars v = s.vars v) := by
    intro k
    induction k with
    | zero => intro i s; exact ⟨rfl, fun _ _ => rfl, rfl, rfl, rfl, rfl, fun _ _ => rfl⟩
    | succ k ih =>
      intro i s
      rw [List.range'_succ, loopState_cons]
      obtain ⟨g1, g2, g3, g4, g5, g6, g7⟩ := ih (i + 1)
        (run lut (.pcall "point_double" .Q (fun s => O.point_double (s.pt .Q))) (s.setVar .j (i : Int))).1
      refine ⟨?_, ?_, g3, g4, g5, g6, ?_⟩
      · rw [g1]; simp [run, State.setVar, doubles]
      · intro x hx; rw [g2 x hx]; simp [run, State.setVar, hx]
      · intro v hv; rw [g7 v hv]; simp [run, State.setVar, hv]
  exact key k 0 s

theorem foldl_range'_select {α : Type} (d : BitVec 32) (tab : Nat → α) (i n : Nat) (init : α) :
    (List.range' i (n + 1)).foldl (fun acc j => if diffBit d (BitVec.ofNat 32 j) = 0 then acc else tab j) init
      = (List.range' (i + 1) n).foldl (fun acc j => if diffBit d (BitVec.ofNat 32 j) = 0 then acc else tab j)
          (if diffBit d (BitVec.ofNat 32 i) = 0 then init else tab i) := by
  rw [List.range'_succ, List.foldl_cons]

theorem toInt_ne_zero_iff (x : BitVec 32) : x.toInt = 0 ↔ x = 0 := by
  constructor
  · intro h
    have := congrArg (BitVec.ofInt 32) h
    simpa using this
  · intro h; subst h; decide

theorem run_selectPrj (lut : Nat → Nat → aff) (r : PReg) (hr : r ≠ .t1) (s : State prj aff leg) (d : BitVec 32)
    (hd : s.vars .d = d.toInt) :
    let q := (run lut (selectPrj r) s).1
    q.pt r = selectLoop d (fun j => s.precomp (j : Int)) (s.pt r) ∧ (∀ x, x ≠ r → x ≠ .t1 → q.pt x = s.pt x) ∧
      q.arr = s.arr ∧ q.af = s.af ∧ q.precomp = s.precomp ∧ q.P = s.P ∧
      (∀ v, v ≠ .j → v ≠ .diff → q.vars v = s.vars v) := by
  unfold selectPrj selectLoop
  rw [run_loop, List.range_eq_range']
  have key : ∀ (k i : Nat) (s : State prj aff leg), s.vars .d = d.toInt →
      let q := loopState lut .j (.block [setDiff .j, .pload .t1 (.var .j), .psel r (.var .diff) r .t1]) (List.range' i k) s
      q.pt r = (List.range' i k).foldl (fun acc j => if diffBit d (BitVec.ofNat 32 j) = 0 then acc else s.precomp (j : Int))
        (s.pt r) ∧ (∀ x, x ≠ r → x ≠ .t1 → q.pt x = s.pt x) ∧ q.arr = s.arr ∧ q.af = s.af ∧
      q.precomp = s.precomp ∧ q.P = s.P ∧ (∀ v, v ≠ .j → v ≠ .diff → q.vars v = s.vars v) := by
    intro k
    induction k with
    | zero => intro i s _; exact ⟨rfl, fun _ _ _ => rfl, rfl, rfl, rfl, rfl, fun _ _ _ => rfl⟩
    | succ k ih =>
      intro i s hd
      rw [foldl_range'_select, List.range'_succ, loopState_cons]
      obtain ⟨g1, g2, g3, g4, g5, g6, g7⟩ := ih (i + 1)
        (run lut (.block [setDiff .j, .pload .t1 (.var .j), .psel r (.var .diff) r .t1]) (s.setVar .j (i : Int))).1
        (by simp [run, Stmt.block, State.setVar, setDiff, hd])
      refine ⟨?_, ?_, g3, g4, g5, g6, ?_⟩
      · rw [g1]
        congr 1
        simp [run, Stmt.block, State.setVar, setDiff, Expr.eval, hd, hr, toInt_ne_zero_iff]
      · intro x hx hx'; rw [g2 x hx hx']; simp [run, Stmt.block, State.setVar, setDiff, hx, hx']
      · intro v hv hv'; rw [g7 v hv hv']; simp [run, Stmt.block, State.setVar, setDiff, hv, hv']
  exact key 16 0 s hd

/-- `precomp_wnaf` fills the table, whatever it held before. -/
theorem run_precomp (lut : Nat → Nat → aff) (O : SmulCode prj aff leg) (s : State prj aff leg) :
    let q := (run lut (precompProg O) s).1
    (∀ j : Nat, j < 16 → q.precomp (j : Int) = (precomp_wnaf O s.P).getD j O.zeroPrj) ∧ q.arr = s.arr ∧ q.af = s.af ∧
      q.P = s.P := by
  unfold precompProg precomp_wnaf
  simp only [Stmt.block, run_seq, run_loop]
  set body : Stmt prj aff leg := .seq (.pload .t1 (.lit 15)) (.seq (.pload .t2 (.var .i))
      (.seq (.pcall "point_add_proj" .t3 (fun s => O.point_add_proj (s.pt .t1) (s.pt .t2)))
        (.seq (.pstore (.op1 (· + 1) (.var .i)) .t3) .skip))) with hbody
  have key : ∀ (k i : Nat) (s : State prj aff leg) (pc : List prj), i + k ≤ 15 → pc.length = 16 →
      (∀ j : Nat, j ≤ i ∨ j = 15 → s.precomp (j : Int) = pc.getD j O.zeroPrj) →
      let q := loopState lut .i body (List.range' i k) s
      let pc' := (List.range' i k).foldl (fun pc i =>
        pc.set (i + 1) (O.point_add_proj (pc.getD 15 O.zeroPrj) (pc.getD i O.zeroPrj))) pc
      (∀ j : Nat, j ≤ i + k ∨ j = 15 → q.precomp (j : Int) = pc'.getD j O.zeroPrj) ∧ q.arr = s.arr ∧ q.af = s.af ∧ q.P = s.P := by
    intro k
    induction k with
    | zero => intro i s pc _ _ h; exact ⟨h, rfl, rfl, rfl⟩
    | succ k ih =>
      intro i s pc hi hl h
      simp only [List.range'_succ, loopState_cons, List.foldl_cons]
      obtain ⟨g1, g2, g3, g4⟩ := ih (i + 1) (run lut body (s.setVar .i (i : Int))).1
        (pc.set (i + 1) (O.point_add_proj (pc.getD 15 O.zeroPrj) (pc.getD i O.zeroPrj))) (by omega) (by simpa using hl) (by
          intro j hj
          rw [← h 15 (by omega), ← h i (by omega)]
          by_cases hji : j = i + 1
          · have hj' : j < 16 := by omega
            subst hji
            simp [hbody, run, State.setVar, Expr.eval, hl, hj']
          · have : (j : Int) ≠ (i : Int) + 1 := by omega
            have hji' : i + 1 ≠ j := fun h => hji h.symm
            simp [hbody, run, State.setVar, Expr.eval, this, List.getElem?_set_ne hji', h j (by omega)])
      refine ⟨fun j hj => g1 j (by omega), g2, g3, g4⟩
  rw [List.range_eq_range']
  obtain ⟨g1, g2, g3, g4⟩ := key 15 0
    (run lut (.pstore (.lit 15) .t2) (run lut (.pcall "point_double" .t2 (fun s => O.point_double (s.pt .t1)))
      (run lut (.pload .t1 (.lit 0)) (run lut (.pstore (.lit 0) .t1)
        (run lut (.pcall "fe_copy" .t1 (fun s => O.ofLeg s.P)) s).1).1).1).1).1
    (((List.replicate 16 O.zeroPrj).set 0 (O.ofLeg s.P)).set 15
      (O.point_double (((List.replicate 16 O.zeroPrj).set 0 (O.ofLeg s.P)).getD 0 O.zeroPrj)))
    (by omega) (by simp) (by
      intro j hj
      simp only [run, Expr.eval, Function.update_self]
      rcases (by omega : j = 0 ∨ j = 15) with h | h
      · subst h; simp
      · subst h; simp)
  exact ⟨fun j hj => g1 j (by omega), g2, g3, g4⟩

/-! ### `var_smul_rwnaf` -/

theorem run_splitDigit (lut : Nat → Nat → aff) (s : State prj aff leg) :
    let q := (run lut splitDigit s).1
    q.vars .isNeg = (isNegBit (BitVec.ofInt 32 (s.vars .d))).toInt ∧
    q.vars .d = (digitIndex (BitVec.ofInt 32 (s.vars .d))).toInt ∧
    (∀ v, v ≠ .d → v ≠ .isNeg → q.vars v = s.vars v) ∧ Frame s q := by
  unfold splitDigit
  refine ⟨by simp [run, Stmt.block, Expr.eval], by simp [run, Stmt.block, Expr.eval], ?_, ⟨rfl, rfl, rfl, rfl, rfl⟩⟩
  intro v h1 h2
  simp [run, Stmt.block, h1, h2]

theorem selectLoop_congr {α : Type} (d : BitVec 32) (tab tab' : Nat → α) (init : α) (h : ∀ j, j < 16 → tab j = tab' j) :
    selectLoop d tab init = selectLoop d tab' init := by
  unfold selectLoop
  have key : ∀ (l : List Nat) (acc : α), (∀ j ∈ l, j < 16) →
      l.foldl (fun acc j => if diffBit d (BitVec.ofNat 32 j) = 0 then acc else tab j) acc
        = l.foldl (fun acc j => if diffBit d (BitVec.ofNat 32 j) = 0 then acc else tab' j) acc := by
    intro l
    induction l with
    | nil => intro _ _; rfl
    | cons x l ih =>
      intro acc hl
      rw [List.foldl_cons, List.foldl_cons, h x (hl x (List.mem_cons_self ..))]
      exact ih _ (fun j hj => hl j (List.mem_cons_of_mem _ hj))
  exact key _ _ (fun j hj => List.mem_range.mp hj)

theorem run_rwnafRound (lut : Nat → Nat → aff) (O : SmulCode prj aff leg) (pc : List prj) (rnaf : List Int) (i : Nat)
    (s : State prj aff leg) (hi : s.vars .i = (i : Int)) (hr : s.arr .rnaf (i : Int) = rnaf.getD i 0)
    (hp : ∀ j : Nat, j < 16 → s.precomp (j : Int) = pc.getD j O.zeroPrj) :
    let q := (run lut (rwnafRound O) s).1
    let d := BitVec.ofInt 32 (rnaf.getD i 0)
    let l := selectLoop (digitIndex d) (fun j => pc.getD j O.zeroPrj) (s.pt .lut)
    let l := if isNegBit d = 0 then l else O.opp l
    q.pt .lut = l ∧ q.pt .Q = O.point_add_proj (doubles O 5 (s.pt .Q)) l ∧ q.arr = s.arr ∧ q.precomp = s.precomp := by
  unfold rwnafRound
  simp only [Stmt.block, run_seq]
  obtain ⟨a1, a2, a3, a4, a5, a6, a7⟩ := run_doubles lut O 5 s
  generalize (run lut (doublesProg O 5) s).1 = s1 at a1 a2 a3 a4 a5 a6 a7 ⊢
  have b0 : (run lut (.load .d .rnaf (.var .i)) s1).1.vars .d = rnaf.getD i 0 := by
    simp [run, Expr.eval, a7 .i (by decide), hi, a3, hr]
  have bf : Frame s1 (run lut (.load .d .rnaf (.var .i)) s1).1 := ⟨rfl, rfl, rfl, rfl, rfl⟩
  generalize (run lut (.load .d .rnaf (.var .i)) s1).1 = s2 at b0 bf ⊢
  obtain ⟨c1, c2, -, c4⟩ := run_splitDigit lut s2
  rw [b0] at c1 c2
  generalize (run lut splitDigit s2).1 = s3 at c1 c2 c4 ⊢
  obtain ⟨d1, d2, d3, -, d5, -, d7⟩ := run_selectPrj lut .lut (by decide) s3 _ c2
  generalize (run lut (selectPrj .lut) s3).1 = s4 at d1 d2 d3 d5 d7 ⊢
  have hpc : ∀ j : Nat, j < 16 → s3.precomp (j : Int) = pc.getD j O.zeroPrj := by
    intro j hj; rw [c4.2.2.2.1, bf.2.2.2.1, a5]; exact hp j hj
  have hl : s3.pt .lut = s.pt .lut := by rw [c4.2.1, bf.2.1, a2 _ (by decide)]
  have hQ : s4.pt .Q = doubles O 5 (s.pt .Q) := by rw [d2 _ (by decide) (by decide), c4.2.1, bf.2.1, a1]
  have hn : s4.vars .isNeg = (isNegBit (BitVec.ofInt 32 (rnaf.getD i 0))).toInt := by
    rw [d7 _ (by decide) (by decide), c1]
  rw [hl, selectLoop_congr _ _ (fun j => pc.getD j O.zeroPrj) _ hpc] at d1
  refine ⟨?_, ?_, ?_, ?_⟩
  · simp [run, Expr.eval, hn, toInt_ne_zero_iff, d1]
  · simp [run, Expr.eval, hn, toInt_ne_zero_iff, d1, hQ]
  · simp only [run]; rw [d3, c4.1, bf.1, a3]
  · simp only [run]; rw [d5, c4.2.2.2.1, bf.2.2.2.1, a5]

theorem run_rwnafRounds (lut : Nat → Nat → aff) (O : SmulCode prj aff leg) (pc : List prj) (rnaf : List Int) :
    ∀ (n : Nat) (s : State prj aff leg), (∀ j : Nat, j < n → s.arr .rnaf (j : Int) = rnaf.getD j 0) →
      (∀ j : Nat, j < 16 → s.precomp (j : Int) = pc.getD j O.zeroPrj) →
      let q := loopState lut .i (rwnafRound O) (List.range n).reverse s
      q.pt .Q = (rwnafRounds O pc rnaf n (s.pt .Q) (s.pt .lut)).1 ∧ q.arr = s.arr ∧ q.precomp = s.precomp := by
  intro n
  induction n with
  | zero => intro s _ _; exact ⟨rfl, rfl, rfl⟩
  | succ n ih =>
    intro s hr hp
    rw [List.range_succ, List.reverse_append, List.reverse_singleton, List.singleton_append, loopState_cons]
    obtain ⟨e1, e2, e3, e4⟩ := run_rwnafRound lut O pc rnaf n (s.setVar .i (n : Int)) (by simp [State.setVar])
      (hr n (by omega)) hp
    generalize (run lut (rwnafRound O) (s.setVar .i (n : Int))).1 = s1 at e1 e2 e3 e4 ⊢
    obtain ⟨g1, g2, g3⟩ := ih s1 (fun j hj => by rw [e3]; exact hr j (by omega)) (fun j hj => by rw [e4]; exact hp j hj)
    refine ⟨?_, g2.trans e3, g3.trans e4⟩
    rw [g1, e1, e2]
    rfl

theorem low_bit (x : Byte) : ((x.toNat : Int) % 2 = 0) ↔ x &&& 1 = 0 := by
  have h : (x &&& 1).toNat = x.toNat % 2 := by
    rw [BitVec.toNat_and]; exact Nat.and_one_is_mod _
  constructor
  · intro hx
    apply BitVec.eq_of_toNat_eq
    rw [h]
    show x.toNat % 2 = 0
    omega
  · intro hx
    have h2 : x.toNat % 2 = 0 := by rw [← h, hx]; rfl
    omega

/-- The program of `var_smul_rwnaf` leaves in `Q` what the model of the function says, whatever the memory holds besides the
scalar and the point. -/
theorem varSmul_result (lut : Nat → Nat → aff) (O : SmulCode prj aff leg) (scalar : Bytes) (s : State prj aff leg)
    (hs : s.arr .scalar = bytesArr scalar) :
    (run lut (varSmulProg O) s).1.pt .Q = var_smul_rwnaf_prj O scalar s.P := by
  unfold varSmulProg var_smul_rwnaf_prj
  simp only [Stmt.block, run_seq, run_loop]
  obtain ⟨a1, a2, -, -⟩ := run_precomp lut O s
  generalize (run lut (precompProg O) s).1 = s1 at a1 a2 ⊢
  generalize s.P = P at a1 ⊢
  have a1' : ∀ j : Nat, j < 16 → s1.precomp (j : Int) = (precomp_wnaf O P).getD j O.zeroPrj := a1
  obtain ⟨b1, b2, -, -, b5, -⟩ := run_rwnafProg lut O.nb O.n scalar s1 (by rw [a2, hs])
  generalize (run lut (rwnafProg O.nb O.n) s1).1 = s2 at b1 b2 b5 ⊢
  generalize hs3 : (run lut (.set .d (.op1 (fun d => ((BitVec.ofInt 32 d - 1).sshiftRight 1).toInt) (.var .d)))
    (run lut (.load .d .rnaf (.lit O.n)) (run lut (.pcall "init" .lut (fun _ => O.zeroPrj))
      (run lut (.pcall "init" .Q (fun _ => O.zeroPrj)) s2).1).1).1).1 = s3
  have c1 : s3.arr = s2.arr := by rw [← hs3]; rfl
  have c2 : s3.precomp = s2.precomp := by rw [← hs3]; rfl
  have c3 : s3.pt .Q = O.zeroPrj ∧ s3.pt .lut = O.zeroPrj := by rw [← hs3]; simp [run]
  have c4 : s3.vars .d = ((BitVec.ofInt 32 ((scalar_rwnaf O.nb O.n scalar).getD O.n 0) - 1).sshiftRight 1).toInt := by
    rw [← hs3]; simp [run, Expr.eval]; rw [b2 O.n (by omega)]; rfl
  obtain ⟨d1, d2, d3, -, d5, -, -⟩ := run_selectPrj lut .Q (by decide) s3 _ c4
  generalize (run lut (selectPrj .Q) s3).1 = s4 at d1 d2 d3 d5 ⊢
  have hp : ∀ j : Nat, j < 16 → s3.precomp (j : Int) = (precomp_wnaf O P).getD j O.zeroPrj := by
    intro j hj; rw [c2, b5]; exact a1' j hj
  rw [selectLoop_congr _ _ _ _ hp, c3.1] at d1
  obtain ⟨e1, e2, e3⟩ := run_rwnafRounds lut O (precomp_wnaf O P) (scalar_rwnaf O.nb O.n scalar) O.n s4
    (fun j hj => by rw [d3, c1]; exact b2 j (by omega)) (fun j hj => by rw [d5]; exact hp j hj)
  rw [d1, d2 _ (by decide) (by decide), c3.2] at e1
  generalize loopState lut .i (rwnafRound O) (List.range O.n).reverse s4 = s5 at e1 e2 e3 ⊢
  have e4 : s5.arr .scalar = bytesArr scalar := by rw [e2, d3, c1, b1]
  have e5 : s5.precomp 0 = (precomp_wnaf O P).getD 0 O.zeroPrj := by rw [e3, d5]; exact hp 0 (by omega)
  rw [run_skip, (run_doubles lut O O.finalDoubles _).1]
  congr 1
  have e6 : ((at_ scalar 0).toNat : Int) % 2 = 0 ↔ at_ scalar 0 &&& 1 = 0 := low_bit _
  simp only [run, Expr.eval, Function.update_self, ne_eq, reduceCtorEq, not_false_eq_true, Function.update_of_ne, e1, e4, e5,
    bytesArr, Int.toNat_zero, e6]

/-! ## The fixed point multiplication -/

theorem run_selectAff (O : SmulCode prj aff leg) (s : State prj aff leg) (d : BitVec 32) (j : Nat)
    (hd : s.vars .d = d.toInt) (hj : s.vars .j = (j : Int)) :
    let q := (run O.lut_cmb selectAff s).1
    q.af .lut = selectLoop d (fun k => O.lut_cmb j k) (s.af .lut) ∧ q.pt = s.pt ∧ q.arr = s.arr ∧
      (∀ v, v ≠ .k → v ≠ .diff → q.vars v = s.vars v) := by
  unfold selectAff selectLoop
  rw [run_loop, List.range_eq_range']
  have key : ∀ (n i : Nat) (s : State prj aff leg), s.vars .d = d.toInt → s.vars .j = (j : Int) →
      let q := loopState O.lut_cmb .k (.block [setDiff .k, .aload .t (.var .j) (.var .k), .asel .lut (.var .diff) .lut .t])
        (List.range' i n) s
      q.af .lut = (List.range' i n).foldl (fun acc k => if diffBit d (BitVec.ofNat 32 k) = 0 then acc else O.lut_cmb j k)
        (s.af .lut) ∧ q.pt = s.pt ∧ q.arr = s.arr ∧ (∀ v, v ≠ .k → v ≠ .diff → q.vars v = s.vars v) := by
    intro n
    induction n with
    | zero => intro i s _ _; exact ⟨rfl, rfl, rfl, fun _ _ _ => rfl⟩
    | succ n ih =>
      intro i s hd hj
      rw [foldl_range'_select, List.range'_succ, loopState_cons]
      obtain ⟨g1, g2, g3, g4⟩ := ih (i + 1)
        (run O.lut_cmb (.block [setDiff .k, .aload .t (.var .j) (.var .k), .asel .lut (.var .diff) .lut .t])
          (s.setVar .k (i : Int))).1
        (by simp [run, Stmt.block, State.setVar, setDiff, hd]) (by simp [run, Stmt.block, State.setVar, setDiff, hj])
      refine ⟨?_, g2, g3, ?_⟩
      · rw [g1]
        congr 1
        simp [run, Stmt.block, State.setVar, setDiff, Expr.eval, hd, hj, toInt_ne_zero_iff]
      · intro v hv hv'; rw [g4 v hv hv']; simp [run, Stmt.block, State.setVar, setDiff, hv, hv']
  exact key 16 0 s hd hj

theorem run_cmbBody (O : SmulCode prj aff leg) (rnaf : List Int) (i j : Nat) (s : State prj aff leg)
    (hi : s.vars .i = (i : Int)) (hj : s.vars .j = (j : Int))
    (hr : ∀ x : Nat, x ≤ O.n → s.arr .rnaf (x : Int) = rnaf.getD x 0) :
    let q := (run O.lut_cmb (cmbBody O) s).1
    (q.pt .Q, q.af .lut) = cmbRow O rnaf i j (s.pt .Q) (s.af .lut) ∧ q.arr = s.arr ∧ q.vars .i = s.vars .i := by
  unfold cmbBody cmbRow
  by_cases hc : j * O.cols + i > O.n
  · have hc' : (j : Int) * O.cols + i > O.n := by exact_mod_cast hc
    simp only [run, Expr.eval, hi, hj, cBool, hc', decide_true, if_true, ne_eq, one_ne_zero, not_false_eq_true]
    rw [if_pos hc]
    simp
  · have hc' : ¬ ((j : Int) * O.cols + i > O.n) := by exact_mod_cast hc
    rw [if_neg hc]
    have hx : (j : Int) * O.cols + i = ((j * O.cols + i : Nat) : Int) := by push_cast; rfl
    have hite : (run O.lut_cmb (.ite (.op2 (fun j i => cBool (j * O.cols + i > O.n)) (.var .j) (.var .i)) .skip
      (.block [
      .load .d .rnaf (.op2 (fun j i => j * O.cols + i) (.var .j) (.var .i)),
      splitDigit,
      selectAff,
      .acall "opp" .out (fun s => O.oppAff (s.af .lut)),
      .asel .lut (.var .isNeg) .lut .out,
      .pcall "point_add_mixed" .Q (fun s => O.point_add_mixed (s.pt .Q) (s.af .lut))])) s).1
      = (run O.lut_cmb (.block [
      .load .d .rnaf (.op2 (fun j i => j * O.cols + i) (.var .j) (.var .i)),
      splitDigit,
      selectAff,
      .acall "opp" .out (fun s => O.oppAff (s.af .lut)),
      .asel .lut (.var .isNeg) .lut .out,
      .pcall "point_add_mixed" .Q (fun s => O.point_add_mixed (s.pt .Q) (s.af .lut))]) s).1 := by
      rw [run]
      have : (Expr.op2 (fun j i => cBool (j * O.cols + i > O.n)) (.var .j) (.var .i)).eval s.vars = 0 := by
        simp only [Expr.eval, hi, hj, cBool, hc', decide_false]
        rfl
      rw [if_neg (by rw [this]; exact fun h => h rfl)]
    dsimp only
    rw [hite]
    simp only [Stmt.block, run_seq, run_skip]
    have b0 : (run O.lut_cmb (.load .d .rnaf (.op2 (fun j i => j * O.cols + i) (.var .j) (.var .i))) s).1.vars .d
        = rnaf.getD (j * O.cols + i) 0 := by
      simp only [run, Expr.eval, Function.update_self, hi, hj]
      rw [hx]
      exact hr _ (by omega)
    have bf : Frame s (run O.lut_cmb (.load .d .rnaf (.op2 (fun j i => j * O.cols + i) (.var .j) (.var .i))) s).1 :=
      ⟨rfl, rfl, rfl, rfl, rfl⟩
    have bi : (run O.lut_cmb (.load .d .rnaf (.op2 (fun j i => j * O.cols + i) (.var .j) (.var .i))) s).1.vars .i = s.vars .i := by
      simp [run]
    have bj : (run O.lut_cmb (.load .d .rnaf (.op2 (fun j i => j * O.cols + i) (.var .j) (.var .i))) s).1.vars .j = s.vars .j := by
      simp [run]
    generalize (run O.lut_cmb (.load .d .rnaf (.op2 (fun j i => j * O.cols + i) (.var .j) (.var .i))) s).1 = s2 at b0 bf bi bj ⊢
    obtain ⟨c1, c2, c3, c4⟩ := run_splitDigit O.lut_cmb s2
    rw [b0] at c1 c2
    generalize (run O.lut_cmb splitDigit s2).1 = s3 at c1 c2 c3 c4 ⊢
    obtain ⟨d1, d2, d3, d4⟩ := run_selectAff O s3 _ j c2 (by rw [c3 _ (by decide) (by decide), bj, hj])
    generalize (run O.lut_cmb selectAff s3).1 = s4 at d1 d2 d3 d4 ⊢
    have hn : s4.vars .isNeg = (isNegBit (BitVec.ofInt 32 (rnaf.getD (j * O.cols + i) 0))).toInt := by
      rw [d4 _ (by decide) (by decide), c1]
    have hl : s3.af .lut = s.af .lut := by rw [c4.2.2.1, bf.2.2.1]
    have hQ : s4.pt .Q = s.pt .Q := by rw [d2, c4.2.1, bf.2.1]
    rw [hl] at d1
    refine ⟨?_, ?_, ?_⟩
    · simp [run, Expr.eval, hn, toInt_ne_zero_iff, d1, hQ]
    · simp only [run]; rw [d3, c4.1, bf.1]
    · simp only [run]; rw [d4 _ (by decide) (by decide), c3 _ (by decide) (by decide), bi]

theorem run_cmbRows (O : SmulCode prj aff leg) (rnaf : List Int) (i : Nat) : ∀ (l : List Nat) (s : State prj aff leg),
    s.vars .i = (i : Int) → (∀ x : Nat, x ≤ O.n → s.arr .rnaf (x : Int) = rnaf.getD x 0) →
    let q := loopState O.lut_cmb .j (cmbBody O) l s
    (q.pt .Q, q.af .lut) = l.foldl (fun (s : prj × aff) j => cmbRow O rnaf i j s.1 s.2) (s.pt .Q, s.af .lut) ∧
      q.arr = s.arr := by
  intro l
  induction l with
  | nil => intro s _ _; exact ⟨rfl, rfl⟩
  | cons j l ih =>
    intro s hi hr
    rw [loopState_cons, List.foldl_cons]
    obtain ⟨e1, e2, e3⟩ := run_cmbBody O rnaf i j (s.setVar .j (j : Int)) (by simp [State.setVar, hi]) (by simp [State.setVar]) hr
    generalize (run O.lut_cmb (cmbBody O) (s.setVar .j (j : Int))).1 = s1 at e1 e2 e3 ⊢
    obtain ⟨g1, g2⟩ := ih s1 (by rw [e3]; simp [State.setVar, hi]) (fun x hx => by rw [e2]; exact hr x hx)
    refine ⟨?_, g2.trans e2⟩
    rw [g1, e1]
    rfl

theorem run_cmbRounds (O : SmulCode prj aff leg) (rnaf : List Int) : ∀ (n : Nat) (s : State prj aff leg), n ≤ O.cols →
    (∀ x : Nat, x ≤ O.n → s.arr .rnaf (x : Int) = rnaf.getD x 0) →
    let q := loopState O.lut_cmb .i (.block [
      .ite (.op1 (fun i => cBool (i ≠ (O.cols : Int) - 1)) (.var .i)) (doublesProg O 5) .skip,
      .loop .j (List.range O.rows) (cmbBody O)]) (List.range n).reverse s
    q.pt .Q = (cmbRounds O rnaf n (s.pt .Q) (s.af .lut)).1 ∧ q.arr = s.arr := by
  intro n
  induction n with
  | zero => intro s _ _; exact ⟨rfl, rfl⟩
  | succ n ih =>
    intro s hn hr
    rw [List.range_succ, List.reverse_append, List.reverse_singleton, List.singleton_append, loopState_cons]
    simp only [Stmt.block] at ih ⊢
    rw [run_seq, run_seq, run_skip, run_loop]
    have e1 : let q := (run O.lut_cmb (.ite (.op1 (fun i => cBool (i ≠ (O.cols : Int) - 1)) (.var .i)) (doublesProg O 5) .skip)
          (s.setVar .i (n : Int))).1
        q.pt .Q = (if n ≠ O.cols - 1 then doubles O 5 (s.pt .Q) else s.pt .Q) ∧ q.af = s.af ∧ q.arr = s.arr ∧
          q.vars .i = (n : Int) := by
      dsimp only
      rw [run]
      by_cases hc : n ≠ O.cols - 1
      · have hc' : (n : Int) ≠ (O.cols : Int) - 1 := by omega
        have hv : (Expr.op1 (fun i => cBool (i ≠ (O.cols : Int) - 1)) (.var .i)).eval (s.setVar .i (n : Int)).vars = 1 := by
          simp [Expr.eval, State.setVar, cBool, hc']
        rw [if_pos (by rw [hv]; decide), if_pos hc]
        obtain ⟨a1, -, a3, a4, -, -, a7⟩ := run_doubles O.lut_cmb O 5 (s.setVar .i (n : Int))
        exact ⟨a1, a4, a3, by rw [a7 _ (by decide)]; simp [State.setVar]⟩
      · have hc' : (n : Int) = (O.cols : Int) - 1 := by omega
        have hv : (Expr.op1 (fun i => cBool (i ≠ (O.cols : Int) - 1)) (.var .i)).eval (s.setVar .i (n : Int)).vars = 0 := by
          simp [Expr.eval, State.setVar, cBool, hc']
        rw [if_neg (by rw [hv]; exact fun h => h rfl), if_neg hc]
        exact ⟨rfl, rfl, rfl, by simp [State.setVar, run]⟩
    dsimp only at e1 ⊢
    generalize (run O.lut_cmb (.ite (.op1 (fun i => cBool (i ≠ (O.cols : Int) - 1)) (.var .i)) (doublesProg O 5) .skip)
          (s.setVar .i (n : Int))).1 = s1 at e1 ⊢
    obtain ⟨b1, b2, b3, b4⟩ := e1
    obtain ⟨c1, c2⟩ := run_cmbRows O rnaf n (List.range O.rows) s1 b4 (fun x hx => by rw [b3]; exact hr x hx)
    generalize loopState O.lut_cmb .j (cmbBody O) (List.range O.rows) s1 = s2 at c1 c2 ⊢
    obtain ⟨g1, g2⟩ := ih s2 (by omega) (fun x hx => by rw [c2, b3]; exact hr x hx)
    refine ⟨?_, by rw [g2, c2, b3]⟩
    rw [g1]
    have h1 : s2.pt .Q = ((List.range O.rows).foldl (fun (s : prj × aff) j => cmbRow O rnaf n j s.1 s.2) (s1.pt .Q, s1.af .lut)).1 := by
      rw [← c1]
    have h2 : s2.af .lut = ((List.range O.rows).foldl (fun (s : prj × aff) j => cmbRow O rnaf n j s.1 s.2) (s1.pt .Q, s1.af .lut)).2 := by
      rw [← c1]
    rw [h1, h2, b1, b2]
    rfl

/-- The program of `fixed_smul_cmb` leaves in `Q` what the model of the function says. -/
theorem fixedSmul_result (O : SmulCode prj aff leg) (scalar : Bytes) (s : State prj aff leg)
    (hs : s.arr .scalar = bytesArr scalar) :
    (run O.lut_cmb (fixedSmulProg O) s).1.pt .Q = fixed_smul_cmb_prj O scalar := by
  unfold fixedSmulProg fixed_smul_cmb_prj
  rw [Stmt.block, run_seq, Stmt.block, run_seq, Stmt.block, run_seq, Stmt.block, run_seq, run_loop]
  have a0 : (run O.lut_cmb (.acall "init" .lut (fun _ => O.zeroAff)) s).1.arr .scalar = bytesArr scalar := by
    simp [run, hs]
  have a1 : (run O.lut_cmb (.acall "init" .lut (fun _ => O.zeroAff)) s).1.af .lut = O.zeroAff := by
    simp [run]
  generalize (run O.lut_cmb (.acall "init" .lut (fun _ => O.zeroAff)) s).1 = s1 at a0 a1 ⊢
  obtain ⟨b1, b2, -, b4, -, -⟩ := run_rwnafProg O.lut_cmb O.nb O.n scalar s1 a0
  generalize (run O.lut_cmb (rwnafProg O.nb O.n) s1).1 = s2 at b1 b2 b4 ⊢
  obtain ⟨g1, g2⟩ := run_cmbRounds O (scalar_rwnaf O.nb O.n scalar) O.cols
    (run O.lut_cmb (.pcall "fe_set_zero, fe_copy" .Q (fun _ => O.inf)) s2).1 (Nat.le_refl _) b2
  have h1 : (run O.lut_cmb (.pcall "fe_set_zero, fe_copy" .Q (fun _ => O.inf)) s2).1.pt .Q = O.inf := by simp [run]
  have h2 : (run O.lut_cmb (.pcall "fe_set_zero, fe_copy" .Q (fun _ => O.inf)) s2).1.af .lut = O.zeroAff := by
    simp only [run]; rw [b4, a1]
  have h3 : (run O.lut_cmb (.pcall "fe_set_zero, fe_copy" .Q (fun _ => O.inf)) s2).1.arr .scalar = bytesArr scalar := b1
  rw [h1, h2] at g1
  generalize (run O.lut_cmb (.pcall "fe_set_zero, fe_copy" .Q (fun _ => O.inf)) s2).1 = s3 at g1 g2 h3 ⊢
  generalize loopState O.lut_cmb .i _ (List.range O.cols).reverse s3 = s4 at g1 g2 ⊢
  have e4 : s4.arr .scalar = bytesArr scalar := by rw [g2, h3]
  have e6 : ((at_ scalar 0).toNat : Int) % 2 = 0 ↔ at_ scalar 0 &&& 1 = 0 := low_bit _
  simp only [Stmt.block, run, Expr.eval, Function.update_self, ne_eq, reduceCtorEq, not_false_eq_true, Function.update_of_ne,
    g1, e4, bytesArr, Int.toNat_zero, e6]

end Gost.Ct
