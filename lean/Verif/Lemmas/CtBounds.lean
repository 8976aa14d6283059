import Verif.Lemmas.CtTwo
import Mathlib.Tactic.Positivity

/-!
# The accesses of the programs of `Model/EcpTrace.lean`
-/

namespace Gost.Ct

variable {prj aff leg : Type}

/-- All observed events of a run satisfy `P`. -/
structure Ok (lut : Nat → Nat → aff) (P : Ev → Prop) (p : Stmt prj aff leg) (s : State prj aff leg) : Prop where
  all : ∀ e ∈ (run lut p s).2, P e

theorem ok_skip (lut : Nat → Nat → aff) (P : Ev → Prop) (s : State prj aff leg) : Ok lut P .skip s := by
  refine ⟨fun e he => ?_⟩; simp [run] at he

theorem ok_seq {lut : Nat → Nat → aff} {P : Ev → Prop} {p q : Stmt prj aff leg} {s : State prj aff leg}
    (h1 : Ok lut P p s) (h2 : Ok lut P q (run lut p s).1) : Ok lut P (.seq p q) s := by
  refine ⟨fun e he => ?_⟩
  rw [show (run lut (.seq p q) s).2 = (run lut p s).2 ++ (run lut q (run lut p s).1).2 from rfl, List.mem_append] at he
  exact he.elim (h1.all e) (h2.all e)

theorem ok_ite {lut : Nat → Nat → aff} {P : Ev → Prop} {c : Expr} {p q : Stmt prj aff leg} {s : State prj aff leg}
    (hb : ∀ b, P (.branch b)) (h1 : c.eval s.vars ≠ 0 → Ok lut P p s) (h2 : c.eval s.vars = 0 → Ok lut P q s) :
    Ok lut P (.ite c p q) s := by
  refine ⟨fun e he => ?_⟩
  rw [run] at he
  by_cases hc : c.eval s.vars ≠ 0
  · rw [if_pos hc] at he
    rcases List.mem_cons.mp he with h | h
    · rw [h]; exact hb _
    · exact (h1 hc).all e h
  · rw [if_neg hc] at he
    rcases List.mem_cons.mp he with h | h
    · rw [h]; exact hb _
    · exact (h2 (by omega)).all e h

/-- A loop with an invariant `I` of the memory before each round. -/
theorem ok_loop {lut : Nat → Nat → aff} {P : Ev → Prop} {v : Var} {body : Stmt prj aff leg} (I : State prj aff leg → Prop)
    (hr : P .round) : ∀ (vals : List Nat) (s : State prj aff leg), I s →
    (∀ x ∈ vals, ∀ s, I s → Ok lut P body (s.setVar v (x : Int)) ∧ I (run lut body (s.setVar v (x : Int))).1) →
    Ok lut P (.loop v vals body) s := by
  intro vals s hI h
  refine ⟨fun e he => ?_⟩
  have key : ∀ (vals : List Nat) (a : State prj aff leg × List Ev), I a.1 → (∀ e ∈ a.2, P e) →
      (∀ x ∈ vals, ∀ s, I s → Ok lut P body (s.setVar v (x : Int)) ∧ I (run lut body (s.setVar v (x : Int))).1) →
      ∀ e ∈ (vals.foldl (fun (acc : State prj aff leg × List Ev) (x : Nat) =>
          ((run lut body { acc.1 with vars := Function.update acc.1.vars v (x : Int) }).1, acc.2 ++ Ev.round ::
            (run lut body { acc.1 with vars := Function.update acc.1.vars v (x : Int) }).2)) a).2, P e := by
    intro vals
    induction vals with
    | nil => intro a _ h2 _; exact h2
    | cons x l ih =>
      intro a h1 h2 h3
      rw [List.foldl_cons]
      have hx := h3 x (List.mem_cons_self ..) a.1 h1
      refine ih _ hx.2 ?_ (fun y hy => h3 y (List.mem_cons_of_mem _ hy))
      intro e he
      rcases List.mem_append.mp he with h | h
      · exact h2 e h
      · rcases List.mem_cons.mp h with h | h
        · rw [h]; exact hr
        · exact hx.1.all e h
  exact key vals (s, []) hI (fun e he => by cases he) h e he

/-- An access stays inside: scalars of `nb` bytes, arrays of `len` digits, 16 points in `precomp`, `rows` rows of 16 points in
`lut_cmb`. -/
def InBounds (nb len rows : Nat) : Ev → Prop
  | .addr .scalar i => 0 ≤ i ∧ i < nb
  | .addr .scalar2 i => 0 ≤ i ∧ i < nb
  | .addr .rnaf i => 0 ≤ i ∧ i < len
  | .addr .bnaf i => 0 ≤ i ∧ i < len
  | .precomp i => 0 ≤ i ∧ i < 16
  | .table r c => 0 ≤ r ∧ r < rows ∧ 0 ≤ c ∧ c < 16
  | _ => True

section
variable {lut : Nat → Nat → aff} {nb len rows : Nat} {s : State prj aff leg}

theorem ok_set (v : Var) (e : Expr) : Ok lut (InBounds nb len rows) (.set v e) s := by
  refine ⟨fun x hx => ?_⟩; simp [run] at hx

theorem ok_pcall (n : String) (r : PReg) (f : State prj aff leg → prj) : Ok lut (InBounds nb len rows) (.pcall n r f) s := by
  refine ⟨fun x hx => ?_⟩; simp [run] at hx; subst hx; trivial

theorem ok_acall (n : String) (r : AReg) (f : State prj aff leg → aff) : Ok lut (InBounds nb len rows) (.acall n r f) s := by
  refine ⟨fun x hx => ?_⟩; simp [run] at hx; subst hx; trivial

theorem ok_psel (r : PReg) (e : Expr) (a b : PReg) : Ok lut (InBounds nb len rows) (.psel r e a b) s := by
  refine ⟨fun x hx => ?_⟩; simp [run] at hx; subst hx; trivial

theorem ok_asel (r : AReg) (e : Expr) (a b : AReg) : Ok lut (InBounds nb len rows) (.asel r e a b) s := by
  refine ⟨fun x hx => ?_⟩; simp [run] at hx; subst hx; trivial

theorem ok_load (v : Var) (a : Arr) (e : Expr) (h : InBounds nb len rows (.addr a (e.eval s.vars))) :
    Ok lut (InBounds nb len rows) (.load v a e) s := by
  refine ⟨fun x hx => ?_⟩; simp only [run, List.mem_singleton] at hx; subst hx; exact h

theorem ok_store (a : Arr) (e e' : Expr) (h : InBounds nb len rows (.addr a (e.eval s.vars))) :
    Ok lut (InBounds nb len rows) (.store a e e') s := by
  refine ⟨fun x hx => ?_⟩; simp only [run, List.mem_singleton] at hx; subst hx; exact h

theorem ok_pload (r : PReg) (e : Expr) (h : 0 ≤ e.eval s.vars ∧ e.eval s.vars < 16) :
    Ok lut (InBounds nb len rows) (.pload r e) s := by
  refine ⟨fun x hx => ?_⟩; simp only [run, List.mem_singleton] at hx; subst hx; exact h

theorem ok_pstore (r : PReg) (e : Expr) (h : 0 ≤ e.eval s.vars ∧ e.eval s.vars < 16) :
    Ok lut (InBounds nb len rows) (.pstore e r) s := by
  refine ⟨fun x hx => ?_⟩; simp only [run, List.mem_singleton] at hx; subst hx; exact h

theorem ok_aload (r : AReg) (e e' : Expr) (h : 0 ≤ e.eval s.vars ∧ e.eval s.vars < rows ∧ 0 ≤ e'.eval s.vars ∧ e'.eval s.vars < 16) :
    Ok lut (InBounds nb len rows) (.aload r e e') s := by
  refine ⟨fun x hx => ?_⟩; simp only [run, List.mem_singleton] at hx; subst hx; exact h

theorem ok_getBit (a : Arr) (ha : a = .scalar ∨ a = .scalar2) (e : Expr) :
    Ok lut (InBounds nb len rows) (getBit nb a e) s := by
  unfold getBit
  simp only [Stmt.block]
  refine ok_seq (ok_set ..) (ok_seq (ok_set ..) (ok_seq (ok_set ..) (ok_seq (ok_ite (fun _ => trivial) (fun _ => ok_set ..)
    (fun h1 => ok_ite (fun _ => trivial) (fun _ => ok_set ..) (fun h2 => ok_seq (ok_load _ _ _ ?_) (ok_seq (ok_set ..) (ok_skip ..)))))
    (ok_skip ..))))
  simp [run, Expr.eval, cBool] at h1 h2
  have : InBounds nb len rows (.addr .scalar (e.eval s.vars / 8)) := by
    refine ⟨?_, ?_⟩ <;> omega
  rcases ha with rfl | rfl <;> simpa [run, Expr.eval, InBounds] using this

theorem ok_addBit (a : Arr) (ha : a = .scalar ∨ a = .scalar2) (k : Nat) :
    Ok lut (InBounds nb len rows) (addBit nb a k) s :=
  ok_seq (ok_getBit a ha _) (ok_set ..)

theorem ok_doubles (O : SmulCode prj aff leg) (k : Nat) : Ok lut (InBounds nb len rows) (doublesProg O k) s :=
  ok_loop (fun _ => True) trivial _ _ trivial (fun _ _ _ _ => ⟨ok_pcall .., trivial⟩)

theorem ok_splitDigit : Ok lut (InBounds nb len rows) splitDigit s :=
  ok_seq (ok_set ..) (ok_seq (ok_set ..) (ok_skip ..))

theorem ok_selectPrj (r : PReg) : Ok lut (InBounds nb len rows) (selectPrj r) s := by
  refine ok_loop (fun _ => True) trivial _ _ trivial (fun x hx s _ => ⟨?_, trivial⟩)
  have hx := List.mem_range.mp hx
  refine ok_seq (ok_set ..) (ok_seq (ok_pload _ _ ?_) (ok_seq (ok_psel ..) (ok_skip ..)))
  simp [run, setDiff, Expr.eval, State.setVar]
  omega

theorem ok_precomp (O : SmulCode prj aff leg) : Ok lut (InBounds nb len rows) (precompProg O) s := by
  unfold precompProg
  simp only [Stmt.block]
  refine ok_seq (ok_pcall ..) (ok_seq (ok_pstore _ _ (by simp [Expr.eval])) (ok_seq (ok_pload _ _ (by simp [Expr.eval]))
    (ok_seq (ok_pcall ..) (ok_seq (ok_pstore _ _ (by simp [Expr.eval])) (ok_seq ?_ (ok_skip ..))))))
  refine ok_loop (fun _ => True) trivial _ _ trivial (fun x hx s _ => ⟨?_, trivial⟩)
  have hx := List.mem_range.mp hx
  refine ok_seq (ok_pload _ _ (by simp [Expr.eval])) (ok_seq (ok_pload _ _ ?_) (ok_seq (ok_pcall ..)
    (ok_seq (ok_pstore _ _ ?_) (ok_skip ..))))
  · simp [run, Expr.eval, State.setVar]; omega
  · simp [run, Expr.eval, State.setVar]; omega

end

/-- Whether a statement assigns a variable. -/
def Stmt.sets (v : Var) : Stmt prj aff leg → Bool
  | .set w _ => w = v
  | .load w _ _ => w = v
  | .seq p q => p.sets v || q.sets v
  | .ite _ p q => p.sets v || q.sets v
  | .loop w _ body => w = v || body.sets v
  | _ => false

/-- Whether a statement writes to an array. -/
def Stmt.stores (a : Arr) : Stmt prj aff leg → Bool
  | .store b _ _ => b = a
  | .seq p q => p.stores a || q.stores a
  | .ite _ p q => p.stores a || q.stores a
  | .loop _ _ body => body.stores a
  | _ => false

theorem run_not_sets (lut : Nat → Nat → aff) (v : Var) (p : Stmt prj aff leg) :
    p.sets v = false → ∀ s : State prj aff leg, (run lut p s).1.vars v = s.vars v := by
  induction p with
  | set w e =>
    intro h s
    have : v ≠ w := by intro e; simp [Stmt.sets, e] at h
    simp [run, this]
  | load w a e =>
    intro h s
    have : v ≠ w := by intro e; simp [Stmt.sets, e] at h
    simp [run, this]
  | seq p q ihp ihq =>
    intro h s
    simp only [Stmt.sets, Bool.or_eq_false_iff] at h
    rw [run_seq, ihq h.2, ihp h.1]
  | ite e p q ihp ihq =>
    intro h s
    simp only [Stmt.sets, Bool.or_eq_false_iff] at h
    rw [run]
    split
    · exact ihp h.1 s
    · exact ihq h.2 s
  | loop w vals body ih =>
    intro h s
    simp only [Stmt.sets, Bool.or_eq_false_iff] at h
    have hw : v ≠ w := by intro e; simp [e] at h
    rw [run_loop]
    induction vals generalizing s with
    | nil => rfl
    | cons x l ihl =>
      rw [loopState_cons, ihl, ih h.2]
      simp [State.setVar, hw]
  | _ => intro _ s; rfl

theorem run_not_stores (lut : Nat → Nat → aff) (a : Arr) (p : Stmt prj aff leg) :
    p.stores a = false → ∀ s : State prj aff leg, (run lut p s).1.arr a = s.arr a := by
  induction p with
  | store b e e' =>
    intro h s
    have : a ≠ b := by intro e; simp [Stmt.stores, e] at h
    simp [run, this]
  | seq p q ihp ihq =>
    intro h s
    simp only [Stmt.stores, Bool.or_eq_false_iff] at h
    rw [run_seq, ihq h.2, ihp h.1]
  | ite e p q ihp ihq =>
    intro h s
    simp only [Stmt.stores, Bool.or_eq_false_iff] at h
    rw [run]
    split
    · exact ihp h.1 s
    · exact ihq h.2 s
  | loop w vals body ih =>
    intro h s
    simp only [Stmt.stores] at h
    rw [run_loop]
    induction vals generalizing s with
    | nil => rfl
    | cons x l ihl =>
      rw [loopState_cons, ihl, ih h]
      rfl
  | _ => intro _ s; rfl

theorem ok_rwnaf {lut : Nat → Nat → aff} {nb len rows : Nat} (n : Nat) (hnb : 0 < nb) (hn : n < len) (s : State prj aff leg) :
    Ok lut (InBounds nb len rows) (rwnafProg nb n) s := by
  unfold rwnafProg
  simp only [Stmt.block]
  refine ok_seq (ok_load _ _ _ ⟨by simp [Expr.eval], by simpa [Expr.eval] using hnb⟩) (ok_seq (ok_set ..) (ok_seq ?_
    (ok_seq (ok_store _ _ _ ⟨by simp [Expr.eval], by simpa [Expr.eval] using hn⟩) (ok_skip ..))))
  refine ok_loop (fun _ => True) trivial _ _ trivial (fun x hx s _ => ⟨?_, trivial⟩)
  have hx := List.mem_range.mp hx
  unfold rwnafBody
  simp only [Stmt.block]
  refine ok_seq (ok_set ..) (ok_seq (ok_store _ _ _ ?_) (ok_seq (ok_set ..) (ok_seq (ok_addBit _ (.inl rfl) _)
    (ok_seq (ok_addBit _ (.inl rfl) _) (ok_seq (ok_addBit _ (.inl rfl) _) (ok_seq (ok_addBit _ (.inl rfl) _)
    (ok_seq (ok_addBit _ (.inl rfl) _) (ok_skip ..))))))))
  simp [run, Expr.eval, State.setVar, InBounds]
  omega

/-- `var_smul_rwnaf` -/
theorem ok_varSmul (O : SmulCode prj aff leg) (rows : Nat) (hnb : 0 < O.nb) (s : State prj aff leg) :
    Ok O.lut_cmb (InBounds O.nb (O.n + 1) rows) (varSmulProg O) s := by
  unfold varSmulProg
  simp only [Stmt.block]
  refine ok_seq (ok_precomp O) (ok_seq (ok_rwnaf _ hnb (by omega) _) (ok_seq (ok_pcall ..) (ok_seq (ok_pcall ..)
    (ok_seq (ok_load _ _ _ ⟨by simp [Expr.eval], by simp [Expr.eval]⟩) (ok_seq (ok_set ..) (ok_seq (ok_selectPrj _)
    (ok_seq ?_ (ok_seq (ok_pload _ _ (by simp [Expr.eval])) (ok_seq (ok_pcall ..) (ok_seq (ok_pcall ..)
    (ok_seq (ok_load _ _ _ ⟨by simp [Expr.eval], by simpa [Expr.eval] using hnb⟩) (ok_seq (ok_psel ..)
    (ok_seq (ok_doubles O _) (ok_skip ..))))))))))))))
  refine ok_loop (fun _ => True) trivial _ _ trivial (fun x hx s _ => ⟨?_, trivial⟩)
  have hx := List.mem_range.mp (List.mem_reverse.mp hx)
  unfold rwnafRound
  simp only [Stmt.block]
  refine ok_seq (ok_doubles O _) (ok_seq (ok_load _ _ _ ?_) (ok_seq ok_splitDigit (ok_seq (ok_selectPrj _)
    (ok_seq (ok_pcall ..) (ok_seq (ok_psel ..) (ok_seq (ok_pcall ..) (ok_skip ..)))))))
  have h1 : (run O.lut_cmb (doublesProg O 5) (s.setVar .i (x : Int))).1.vars .i = (x : Int) := by
    rw [run_not_sets _ .i _ rfl]; simp [State.setVar]
  simp only [Expr.eval, h1, InBounds]
  omega

/-- `fixed_smul_cmb` -/
theorem ok_fixedSmul (O : SmulCode prj aff leg) (hnb : 0 < O.nb) (hrows : 0 < O.rows) (s : State prj aff leg) :
    Ok O.lut_cmb (InBounds O.nb (O.n + 1) O.rows) (fixedSmulProg O) s := by
  unfold fixedSmulProg
  simp only [Stmt.block]
  refine ok_seq (ok_acall ..) (ok_seq (ok_rwnaf _ hnb (by omega) _) (ok_seq (ok_pcall ..) (ok_seq ?_
    (ok_seq (ok_aload _ _ _ (by simp [Expr.eval, hrows])) (ok_seq (ok_acall ..) (ok_seq (ok_pcall ..)
    (ok_seq (ok_load _ _ _ ⟨by simp [Expr.eval], by simpa [Expr.eval] using hnb⟩) (ok_seq (ok_psel ..) (ok_skip ..)))))))))
  refine ok_loop (fun _ => True) trivial _ _ trivial (fun x hx s _ => ⟨?_, trivial⟩)
  refine ok_seq (ok_ite (fun _ => trivial) (fun _ => ok_doubles O _) (fun _ => ok_skip ..)) (ok_seq ?_ (ok_skip ..))
  have hi : (run O.lut_cmb (.ite (.op1 (fun i => cBool (i ≠ (O.cols : Int) - 1)) (.var .i)) (doublesProg O 5) .skip)
      (s.setVar .i (x : Int))).1.vars .i = (x : Int) := by
    have hd := (run_doubles O.lut_cmb O 5 (s.setVar .i (x : Int))).2.2.2.2.2.2 .i (by decide)
    rw [run]
    split
    · rw [hd]; simp [State.setVar]
    · simp [run, State.setVar]
  refine ok_loop (fun s => s.vars .i = (x : Int)) trivial _ _ hi (fun j hj s hs => ?_)
  have hj := List.mem_range.mp hj
  have hs' : (s.setVar .j (j : Int)).vars .i = (x : Int) := by simp [State.setVar, hs]
  have hj' : (s.setVar .j (j : Int)).vars .j = (j : Int) := by simp [State.setVar]
  refine ⟨ok_ite (fun _ => trivial) (fun _ => ok_skip ..) (fun hc => ?_), ?_⟩
  · simp only [Stmt.block]
    simp [Expr.eval, hs', hj', cBool] at hc
    refine ok_seq (ok_load _ _ _ ?_) (ok_seq ok_splitDigit (ok_seq ?_ (ok_seq (ok_acall ..) (ok_seq (ok_asel ..)
      (ok_seq (ok_pcall ..) (ok_skip ..))))))
    · simp only [Expr.eval, hs', hj', InBounds]
      refine ⟨by positivity, by push_cast; omega⟩
    · refine ok_loop (fun s => s.vars .j = (j : Int)) trivial _ _ ?_ (fun k hk s hs => ⟨?_, ?_⟩)
      · simp [splitDigit, Stmt.block, run, hj']
      · have hk := List.mem_range.mp hk
        refine ok_seq (ok_set ..) (ok_seq (ok_aload _ _ _ ?_) (ok_seq (ok_asel ..) (ok_skip ..)))
        simp [run, setDiff, Expr.eval, State.setVar, hs]
        omega
      · simp [Stmt.block, run, setDiff, State.setVar, hs]
  · rw [run_not_sets _ .i _ rfl, hs']

theorem ok_wnaf {lut : Nat → Nat → aff} {nb len rows : Nat} (n : Nat) (a o : Arr) (ha : a = .scalar ∨ a = .scalar2)
    (ho : o = .rnaf ∨ o = .bnaf) (hnb : 0 < nb) (hn : n ≤ len) (s : State prj aff leg) :
    Ok lut (InBounds nb len rows) (wnafProg nb n a o) s := by
  unfold wnafProg
  simp only [Stmt.block]
  refine ok_seq (ok_load _ _ _ ?_) (ok_seq (ok_set ..) (ok_seq ?_ (ok_skip ..)))
  · rcases ha with rfl | rfl <;> simpa [InBounds, Expr.eval] using hnb
  refine ok_loop (fun _ => True) trivial _ _ trivial (fun x hx s _ => ⟨?_, trivial⟩)
  have hx := List.mem_range.mp hx
  unfold wnafBody
  simp only [Stmt.block]
  refine ok_seq (ok_set ..) (ok_seq (ok_ite (fun _ => trivial) (fun _ => ok_seq (ok_set ..)
    (ok_ite (fun _ => trivial) (fun _ => ok_set ..) (fun _ => ok_skip ..))) (fun _ => ok_skip ..)) (ok_seq (ok_store _ _ _ ?_)
    (ok_seq (ok_set ..) (ok_seq (ok_getBit a ha _) (ok_seq (ok_set ..) (ok_skip ..))))))
  simp only [Expr.eval]
  rw [run_not_sets _ .i _ rfl, run_not_sets _ .i _ rfl]
  rcases ho with rfl | rfl <;> simp [InBounds, State.setVar] <;> omega

theorem ok_twoDigit {lut : Nat → Nat → aff} {nb len rows : Nat} (O : SmulCode prj aff leg) (digits : Arr)
    (hdg : digits = .rnaf ∨ digits = .bnaf)
    (fetch init add : Stmt prj aff leg)
    (hfetch : ∀ u : State prj aff leg, 0 ≤ u.vars .d ∧ u.vars .d < 16 → Ok lut (InBounds nb len rows) fetch u)
    (hinit : ∀ u, Ok lut (InBounds nb len rows) init u) (hadd : ∀ u, Ok lut (InBounds nb len rows) add u)
    (s : State prj aff leg) (i : Nat) (hi : s.vars .i = (i : Int)) (hl : i < len)
    (hd : -32 ≤ s.arr digits (i : Int) ∧ s.arr digits (i : Int) ≤ 31) :
    Ok lut (InBounds nb len rows) (twoDigitProg O digits fetch init add) s := by
  unfold twoDigitProg
  refine ok_seq (ok_load _ _ _ ?_) (ok_ite (fun _ => trivial) (fun h0 => ?_) (fun _ => ok_skip ..))
  · simp only [Expr.eval, hi]
    rcases hdg with rfl | rfl <;> simp [InBounds] <;> omega
  have hv : (run lut (.load .d digits (.var .i)) s).1.vars .d = s.arr digits (i : Int) := by simp [run, Expr.eval, hi]
  have h0 : s.arr digits (i : Int) ≠ 0 := by rw [← hv]; exact h0
  generalize (run lut (.load .d digits (.var .i)) s).1 = s1 at hv
  generalize s.arr digits (i : Int) = d at hv h0 hd
  simp only [Stmt.block]
  refine ok_seq (ok_set ..) (ok_seq (ok_ite (fun _ => trivial) (fun _ => ok_seq (ok_pcall ..) (ok_set ..)) (fun _ => ok_skip ..))
    (ok_seq (ok_ite (fun _ => trivial) (fun _ => ok_set ..) (fun _ => ok_set ..)) (ok_seq (hfetch _ ?_)
    (ok_seq (ok_ite (fun _ => trivial) (fun _ => ok_seq (hinit _) (ok_set ..)) (fun _ => hadd _)) (ok_skip ..)))))
  have n1 : (run lut (.set .isNeg (.op1 (fun d => cBool (d < 0)) (.var .d))) s1).1.vars .isNeg = cBool (d < 0) := by
    simp [run, Expr.eval, hv]
  have n2 : (run lut (.set .isNeg (.op1 (fun d => cBool (d < 0)) (.var .d))) s1).1.vars .d = d := by
    simp [run, hv]
  generalize (run lut (.set .isNeg (.op1 (fun d => cBool (d < 0)) (.var .d))) s1).1 = s2 at n1 n2 ⊢
  have m1 := run_not_sets lut .isNeg (.ite (.op2 (fun x y => cBool (x ≠ y)) (.var .isNeg) (.var .flipped))
      (.seq (.pcall "opp" .Q (fun s => O.opp (s.pt .Q))) (.set .flipped (.op1 (fun x => 1 - x) (.var .flipped)))) .skip) rfl s2
  have m2 := run_not_sets lut .d (.ite (.op2 (fun x y => cBool (x ≠ y)) (.var .isNeg) (.var .flipped))
      (.seq (.pcall "opp" .Q (fun s => O.opp (s.pt .Q))) (.set .flipped (.op1 (fun x => 1 - x) (.var .flipped)))) .skip) rfl s2
  rw [n1] at m1
  rw [n2] at m2
  generalize (run lut (.ite (.op2 (fun x y => cBool (x ≠ y)) (.var .isNeg) (.var .flipped))
      (.seq (.pcall "opp" .Q (fun s => O.opp (s.pt .Q))) (.set .flipped (.op1 (fun x => 1 - x) (.var .flipped)))) .skip) s2).1
    = s3 at m1 m2 ⊢
  by_cases hn : d < 0
  · simp [run, Expr.eval, m1, m2, hn, cBool]; omega
  · simp [run, Expr.eval, m1, m2, hn, cBool]; omega

theorem ok_twoBody (O : SmulCode prj aff leg) (len : Nat) (hrows : 0 < O.rows) (s : State prj aff leg) (i : Nat)
    (hi : s.vars .i = (i : Int)) (hl : i < len)
    (ha : -32 ≤ s.arr .rnaf (i : Int) ∧ s.arr .rnaf (i : Int) ≤ 31)
    (hb : -32 ≤ s.arr .bnaf (i : Int) ∧ s.arr .bnaf (i : Int) ≤ 31) :
    Ok O.lut_cmb (InBounds O.nb len O.rows) (twoBody O) s := by
  unfold twoBody
  simp only [Stmt.block]
  refine ok_seq (ok_ite (fun _ => trivial) (fun _ => ok_pcall ..) (fun _ => ok_skip ..)) (ok_seq ?_ (ok_seq ?_ (ok_skip ..)))
  · refine ok_twoDigit O .bnaf (.inr rfl) _ _ _ (fun u hu => ok_pload .t1 (.var .d) hu) (fun _ => ok_pcall ..) (fun _ => ok_pcall ..) _ i
      ?_ hl ?_
    · rw [run_not_sets _ .i _ rfl, hi]
    · rw [run_not_stores _ .bnaf _ rfl]; exact hb
  · refine ok_twoDigit O .rnaf (.inl rfl) _ _ _ (fun u hu => ok_aload .t (.lit 0) (.var .d) ⟨by simp [Expr.eval], by simpa [Expr.eval] using hrows, hu⟩)
      (fun _ => ok_pcall ..) (fun _ => ok_pcall ..) _ i ?_ hl ?_
    · rw [run_not_sets _ .i _ rfl, run_not_sets _ .i _ rfl, hi]
    · rw [run_not_stores _ .rnaf _ rfl, run_not_stores _ .rnaf _ rfl]; exact ha

/-- `var_smul_wnaf_two` -/
theorem ok_two (O : SmulCode prj aff leg) (hnb : 0 < O.nb) (hrows : 0 < O.rows) (a b : Bytes)
    (s : State prj aff leg) (hsa : s.arr .scalar = bytesArr a) (hsb : s.arr .scalar2 = bytesArr b) :
    Ok O.lut_cmb (InBounds O.nb (8 * O.nb + 1) O.rows) (twoProg O) s := by
  unfold twoProg
  simp only [Stmt.block]
  refine ok_seq (ok_precomp O) (ok_seq (ok_wnaf _ _ _ (.inl rfl) (.inl rfl) hnb (le_refl _) _)
    (ok_seq (ok_wnaf _ _ _ (.inr rfl) (.inr rfl) hnb (le_refl _) _) (ok_seq (ok_pcall ..) (ok_seq (ok_set ..) (ok_seq (ok_set ..)
    (ok_seq ?_ (ok_seq (ok_ite (fun _ => trivial) (fun _ => ok_pcall ..) (fun _ => ok_skip ..))
    (ok_seq (ok_ite (fun _ => trivial) (fun _ => ok_pcall ..) (fun _ => ok_skip ..)) (ok_skip ..)))))))))
  have s1a : (run O.lut_cmb (precompProg O) s).1.arr .scalar = bytesArr a := by
    rw [run_not_stores _ _ _ rfl, hsa]
  have s1b : (run O.lut_cmb (precompProg O) s).1.arr .scalar2 = bytesArr b := by
    rw [run_not_stores _ _ _ rfl, hsb]
  generalize (run O.lut_cmb (precompProg O) s).1 = s1 at s1a s1b ⊢
  obtain ⟨b1, b2, -⟩ := run_wnafProg O.lut_cmb O.nb (8 * O.nb + 1) .scalar .rnaf (by decide) a s1 s1a
  generalize (run O.lut_cmb (wnafProg O.nb (8 * O.nb + 1) .scalar .rnaf) s1).1 = s2 at b1 b2 ⊢
  obtain ⟨c1, c2, -⟩ := run_wnafProg O.lut_cmb O.nb (8 * O.nb + 1) .scalar2 .bnaf (by decide) b s2
    (by rw [b1 _ (by decide), s1b])
  generalize (run O.lut_cmb (wnafProg O.nb (8 * O.nb + 1) .scalar2 .bnaf) s2).1 = s3 at c1 c2 ⊢
  refine ok_loop (fun s => ∀ j : Nat, j < 8 * O.nb + 1 → (-32 ≤ s.arr .rnaf (j : Int) ∧ s.arr .rnaf (j : Int) ≤ 31) ∧
    (-32 ≤ s.arr .bnaf (j : Int) ∧ s.arr .bnaf (j : Int) ≤ 31)) trivial _ _ ?_ (fun i hi s hs => ⟨?_, ?_⟩)
  · intro j hj
    refine ⟨?_, ?_⟩
    · show -32 ≤ s3.arr .rnaf (j : Int) ∧ s3.arr .rnaf (j : Int) ≤ 31
      rw [c1 _ (by decide), b2 j hj]
      exact getD_bounds _ (wnafLoop_bounds _ _ _ _ _) j
    · show -32 ≤ s3.arr .bnaf (j : Int) ∧ s3.arr .bnaf (j : Int) ≤ 31
      rw [c2 j hj]
      exact getD_bounds _ (wnafLoop_bounds _ _ _ _ _) j
  · have hi := List.mem_range.mp (List.mem_reverse.mp hi)
    exact ok_twoBody O _ hrows _ i (by simp [State.setVar]) hi (hs i hi).1 (hs i hi).2
  · intro j hj
    rw [run_not_stores _ .rnaf _ rfl, run_not_stores _ .bnaf _ rfl]
    exact hs j hj

end Gost.Ct
