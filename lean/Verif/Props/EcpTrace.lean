import Verif.Lemmas.CtTwo

/-!
# C90: what the running time of a scalar multiplication depends on

`C90_mul_time` and `C90_mul_g_time`: the branches taken, the indices of all accesses to arrays and tables, the routines called and
the rounds of all loops of `var_smul_rwnaf` and `fixed_smul_cmb` are the same for all scalars and all points, for every curve.
`C90_mul_value` and `C90_mul_g_value` say that the programs these theorems speak of compute what `Model/EcpSmul.lean` says, so that
they are the functions of C45.  `C90_two_time`, for contrast: the simultaneous multiplication, used for verification, shows whether
its first scalar is odd.
-/

namespace Gost.Ct

variable {prj aff leg : Type}

/-- The variables that may influence the trace: counters of loops, and the position of a bit. -/
def isPublic : Var → Bool
  | .i | .j | .k | .idx | .widx | .rshift => true
  | _ => false

theorem start_agree (O : SmulCode prj aff leg) (a a' b b' : Bytes) (P P' : leg) :
    Agree isPublic (start O a P b) (start O a' P' b') := fun _ _ => rfl

/-- **C90**: two runs of the variable point multiplication with different scalars and points have the same trace. -/
theorem C90_mul_time (O : SmulCode prj aff leg) (scalar scalar' : Bytes) (P P' : leg) :
    (run O.lut_cmb (varSmulProg O) (start O scalar P)).2 = (run O.lut_cmb (varSmulProg O) (start O scalar' P')).2 :=
  (secure_sound O.lut_cmb O.lut_cmb isPublic (varSmulProg O) _ _ rfl (start_agree O _ _ _ _ _ _)).1

/-- **C90**: two runs of the multiplication of the base point with different scalars have the same trace. -/
theorem C90_mul_g_time (O : SmulCode prj aff leg) (scalar scalar' : Bytes) (P P' : leg) :
    (run O.lut_cmb (fixedSmulProg O) (start O scalar P)).2 = (run O.lut_cmb (fixedSmulProg O) (start O scalar' P')).2 :=
  (secure_sound O.lut_cmb O.lut_cmb isPublic (fixedSmulProg O) _ _ rfl (start_agree O _ _ _ _ _ _)).1

theorem start_scalar (O : SmulCode prj aff leg) (a b : Bytes) (P : leg) : (start O a P b).arr .scalar = bytesArr a := by
  funext i; simp [start]

theorem start_scalar2 (O : SmulCode prj aff leg) (a b : Bytes) (P : leg) : (start O a P b).arr .scalar2 = bytesArr b := by
  funext i; simp [start]

/-- **C90**: the program of `C90_mul_time` computes the multiplication of C45. -/
theorem C90_mul_value (O : SmulCode prj aff leg) (scalar : Bytes) (P : leg) :
    O.toLeg ((run O.lut_cmb (varSmulProg O) (start O scalar P)).1.pt .Q) = var_smul_rwnaf O scalar P := by
  rw [varSmul_result _ _ _ _ (start_scalar O scalar [] P)]; rfl

/-- **C90**: the program of `C90_mul_g_time` computes the multiplication of C45. -/
theorem C90_mul_g_value (O : SmulCode prj aff leg) (scalar : Bytes) (P : leg) :
    O.toLeg ((run O.lut_cmb (fixedSmulProg O) (start O scalar P)).1.pt .Q) = fixed_smul_cmb O scalar := by
  rw [fixedSmul_result _ _ _ (start_scalar O scalar [] P)]; rfl

/-- **C90**: the program of `C90_two_time` computes the simultaneous multiplication of C45. -/
theorem C90_two_value (O : SmulCode prj aff leg) (a b : Bytes) (P : leg) :
    O.toLeg ((run O.lut_cmb (twoProg O) (start O a P b)).1.pt .Q) = var_smul_wnaf_two O a b P := by
  rw [two_result _ _ _ _ (start_scalar O a b P) (start_scalar2 O a b P)]; rfl

theorem run_loop_prefix (lut : Nat → Nat → aff) (v : Var) (x : Nat) (l : List Nat) (body : Stmt prj aff leg)
    (s : State prj aff leg) :
    ∃ more, (run lut (.loop v (x :: l) body) s).2 = Ev.round :: ((run lut body (s.setVar v (x : Int))).2 ++ more) := by
  have key : ∀ (l : List Nat) (a : State prj aff leg × List Ev), ∃ more,
      (l.foldl (fun (acc : State prj aff leg × List Ev) (x : Nat) =>
          ((run lut body { acc.1 with vars := Function.update acc.1.vars v (x : Int) }).1, acc.2 ++ Ev.round ::
            (run lut body { acc.1 with vars := Function.update acc.1.vars v (x : Int) }).2)) a).2 = a.2 ++ more := by
    intro l
    induction l with
    | nil => intro a; exact ⟨[], by simp⟩
    | cons y l ih =>
      intro a
      obtain ⟨m, hm⟩ := ih _
      exact ⟨_, by rw [List.foldl_cons, hm, List.append_assoc]⟩
  obtain ⟨m, hm⟩ := key l ((run lut body (s.setVar v (x : Int))).1, Ev.round :: (run lut body (s.setVar v (x : Int))).2)
  exact ⟨m, hm⟩

theorem run_seq_trace (lut : Nat → Nat → aff) (p q : Stmt prj aff leg) (s : State prj aff leg) :
    (run lut (.seq p q) s).2 = (run lut p s).2 ++ (run lut q (run lut p s).1).2 := rfl

theorem run_load_trace (lut : Nat → Nat → aff) (v : Var) (a : Arr) (e : Expr) (s : State prj aff leg) :
    (run lut (.load v a e) s).2 = [.addr a (e.eval s.vars)] := rfl

theorem run_set_trace (lut : Nat → Nat → aff) (v : Var) (e : Expr) (s : State prj aff leg) :
    (run lut (.set v e) s).2 = [] := rfl

theorem run_ite_trace (lut : Nat → Nat → aff) (e : Expr) (p q : Stmt prj aff leg) (s : State prj aff leg) :
    (run lut (.ite e p q) s).2 = Ev.branch (decide (e.eval s.vars ≠ 0)) ::
      (if e.eval s.vars ≠ 0 then (run lut p s).2 else (run lut q s).2) := by
  rw [run]
  by_cases h : e.eval s.vars ≠ 0
  · rw [if_pos h, if_pos h, decide_eq_true h]
  · rw [if_neg h, if_neg h, decide_eq_false h]

theorem window_odd (x : Byte) : int8 (((x.toNat % 64 : Nat) : Int)) % 2 = (x.toNat % 2 : Nat) := by
  unfold int8; omega

/-- The beginning of the trace of `scalar_wnaf`. -/
theorem wnaf_prefix (lut : Nat → Nat → aff) (nb n : Nat) (b : Bytes) (s : State prj aff leg)
    (ha : s.arr .scalar = bytesArr b) :
    ∃ more, (run lut (wnafProg nb (n + 1) .scalar .rnaf) s).2 =
      Ev.addr .scalar 0 :: Ev.round :: Ev.branch (decide ((at_ b 0).toNat % 2 = 1)) :: more := by
  unfold wnafProg
  have hr : List.range (n + 1) = 0 :: (List.range n).map Nat.succ := List.range_succ_eq_map
  simp only [Stmt.block]
  rw [run_seq_trace, run_seq_trace, run_seq_trace, run_load_trace, run_set_trace, hr]
  obtain ⟨m, hm⟩ := run_loop_prefix lut .i 0 ((List.range n).map Nat.succ) (wnafBody nb .scalar .rnaf)
    (run lut (.set .window (.op1 (fun x => int8 ((x.toNat % 64 : Nat) : Int)) (.var .byte)))
      (run lut (.load .byte .scalar (.lit 0)) s).1).1
  rw [hm]
  have hb : ∃ m', (run lut (wnafBody nb .scalar .rnaf)
      ((run lut (.set .window (.op1 (fun x => int8 ((x.toNat % 64 : Nat) : Int)) (.var .byte)))
      (run lut (.load .byte .scalar (.lit 0)) s).1).1.setVar .i ((0 : Nat) : Int))).2
      = Ev.branch (decide ((at_ b 0).toNat % 2 = 1)) :: m' := by
    unfold wnafBody
    simp only [Stmt.block]
    rw [run_seq_trace, run_seq_trace, run_set_trace]
    generalize hs' : (run lut (.set .d (.lit 0)) ((run lut (.set .window (.op1 (fun x => int8 ((x.toNat % 64 : Nat) : Int)) (.var .byte)))
      (run lut (.load .byte .scalar (.lit 0)) s).1).1.setVar .i ((0 : Nat) : Int))).1 = s'
    have hw : s'.vars .window = int8 (((at_ b 0).toNat % 64 : Nat) : Int) := by
      rw [← hs']; simp [run, State.setVar, Expr.eval, ha, bytesArr]
    have he : (Expr.op1 (fun w => w % 2) (.var .window)).eval s'.vars = ((at_ b 0).toNat % 2 : Nat) := by
      simp only [Expr.eval]; rw [hw, window_odd]
    have hd : decide ((Expr.op1 (fun w => w % 2) (.var .window)).eval s'.vars ≠ 0) = decide ((at_ b 0).toNat % 2 = 1) := by
      rw [he, decide_eq_decide]; omega
    rw [run_ite_trace, hd]
    exact ⟨_, rfl⟩
  obtain ⟨m', hm'⟩ := hb
  rw [hm']
  exact ⟨_, rfl⟩

/-- **C90**: the simultaneous multiplication is not of this kind: its trace shows whether the first scalar is odd, whatever the
other arguments are. -/
theorem C90_two_time (O : SmulCode prj aff leg) (a a' b b' : Bytes) (P P' : leg)
    (h : ((at_ a 0).toNat + (at_ a' 0).toNat) % 2 = 1) :
    (run O.lut_cmb (twoProg O) (start O a P b)).2 ≠ (run O.lut_cmb (twoProg O) (start O a' P' b')).2 := by
  unfold twoProg
  simp only [Stmt.block]
  rw [run_seq_trace _ (precompProg O) _ (start O a P b), run_seq_trace _ (precompProg O) _ (start O a' P' b'),
    run_seq_trace _ (wnafProg O.nb (8 * O.nb + 1) .scalar .rnaf) _ (run O.lut_cmb (precompProg O) (start O a P b)).1,
    run_seq_trace _ (wnafProg O.nb (8 * O.nb + 1) .scalar .rnaf) _ (run O.lut_cmb (precompProg O) (start O a' P' b')).1]
  have e1 := (secure_sound O.lut_cmb O.lut_cmb isPublic (precompProg O) _ _ rfl (start_agree O a a' b b' P P')).1
  obtain ⟨-, f1, -, -⟩ := run_precomp O.lut_cmb O (start O a P b)
  obtain ⟨-, f2, -, -⟩ := run_precomp O.lut_cmb O (start O a' P' b')
  obtain ⟨m1, h1⟩ := wnaf_prefix O.lut_cmb O.nb (8 * O.nb) a (run O.lut_cmb (precompProg O) (start O a P b)).1
    (by rw [f1]; funext i; simp [start])
  obtain ⟨m2, h2⟩ := wnaf_prefix O.lut_cmb O.nb (8 * O.nb) a' (run O.lut_cmb (precompProg O) (start O a' P' b')).1
    (by rw [f2]; funext i; simp [start])
  rw [h1, h2, e1]
  intro he
  have he' := List.append_cancel_left he
  simp only [List.cons_append, List.cons.injEq, true_and, Ev.branch.injEq, decide_eq_decide] at he'
  have := he'.1
  omega

/-! ## A concrete case: the integers in the place of the curve, scalars of one byte -/

/-- Multiples of 1 in the integers. -/
def intCode : SmulCode Int Int Int where
  point_double := fun x => 2 * x
  point_add_mixed := fun x y => x + y
  point_add_proj := fun x y => x + y
  opp := fun x => -x
  oppAff := fun x => -x
  ofLeg := id
  ofAff := id
  inf := 0
  zeroPrj := 0
  zeroAff := 0
  toLeg := id
  lut_cmb := fun j k => (2 * k + 1) * 32 ^ (2 * j)
  nb := 1
  n := 2
  rows := 2
  cols := 2
  finalDoubles := 0

/-- `7 * 6` and `200 * 6` are computed with the same trace. -/
example : (run intCode.lut_cmb (varSmulProg intCode) (start intCode [7] 6)).1.pt .Q = 42 ∧
    (run intCode.lut_cmb (varSmulProg intCode) (start intCode [200] 6)).1.pt .Q = 1200 ∧
    (run intCode.lut_cmb (varSmulProg intCode) (start intCode [7] 6)).2.length = 290 ∧
    (run intCode.lut_cmb (varSmulProg intCode) (start intCode [7] 6)).2
      = (run intCode.lut_cmb (varSmulProg intCode) (start intCode [200] 6)).2 := by decide +kernel

example : (run intCode.lut_cmb (fixedSmulProg intCode) (start intCode [7] 6)).1.pt .Q = 7 ∧
    (run intCode.lut_cmb (fixedSmulProg intCode) (start intCode [200] 6)).1.pt .Q = 200 ∧
    (run intCode.lut_cmb (fixedSmulProg intCode) (start intCode [7] 6)).2
      = (run intCode.lut_cmb (fixedSmulProg intCode) (start intCode [200] 6)).2 := by decide +kernel

/-- `7 + 3 * 6` and `8 + 3 * 6` are not. -/
example : (run intCode.lut_cmb (twoProg intCode) (start intCode [7] 6 [3])).1.pt .Q = 25 ∧
    (run intCode.lut_cmb (twoProg intCode) (start intCode [8] 6 [3])).1.pt .Q = 26 ∧
    (run intCode.lut_cmb (twoProg intCode) (start intCode [7] 6 [3])).2
      ≠ (run intCode.lut_cmb (twoProg intCode) (start intCode [8] 6 [3])).2 := by decide +kernel

end Gost.Ct
