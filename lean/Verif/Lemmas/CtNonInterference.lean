import Verif.Model.EcpTrace

/-!
# A checker for programs whose trace does not depend on secrets

`pub v` says that variable `v` may influence the trace.  `Stmt.secure` asks that branch conditions and indices are made of such
variables only, and that such variables are only assigned from such variables.
-/

namespace Gost.Ct

variable {prj aff leg : Type}

/-- All variables of an expression are public. -/
def Expr.isPub (pub : Var → Bool) : Expr → Bool
  | .lit _ => true
  | .var v => pub v
  | .op1 _ a => a.isPub pub
  | .op2 _ a b => a.isPub pub && b.isPub pub

/-- The check of a statement. -/
def Stmt.secure (pub : Var → Bool) : Stmt prj aff leg → Bool
  | .skip => true
  | .set v e => !pub v || e.isPub pub
  | .load v _ e => !pub v && e.isPub pub
  | .store _ e _ => e.isPub pub
  | .pcall _ _ _ => true
  | .acall _ _ _ => true
  | .pload _ e => e.isPub pub
  | .pstore e _ => e.isPub pub
  | .aload _ e e' => e.isPub pub && e'.isPub pub
  | .psel _ _ _ _ => true
  | .asel _ _ _ _ => true
  | .seq p q => p.secure pub && q.secure pub
  | .ite e p q => e.isPub pub && p.secure pub && q.secure pub
  | .loop _ _ body => body.secure pub

/-- The two memories agree on the public variables. -/
def Agree (pub : Var → Bool) (s s' : State prj aff leg) : Prop := ∀ v, pub v = true → s.vars v = s'.vars v

theorem eval_agree {pub : Var → Bool} {s s' : State prj aff leg} (h : Agree pub s s') (e : Expr)
    (he : e.isPub pub = true) : e.eval s.vars = e.eval s'.vars := by
  induction e with
  | lit n => rfl
  | var v => exact h v he
  | op1 f a ih => simp only [Expr.eval]; rw [ih he]
  | op2 f a b iha ihb =>
    simp only [Expr.isPub, Bool.and_eq_true] at he
    simp only [Expr.eval]; rw [iha he.1, ihb he.2]

theorem agree_update {pub : Var → Bool} {s s' : State prj aff leg} (h : Agree pub s s') (v : Var) (x x' : Int)
    (hx : pub v = true → x = x') :
    Agree pub { s with vars := Function.update s.vars v x } { s' with vars := Function.update s'.vars v x' } := by
  intro w hw
  by_cases hwv : w = v
  · subst hwv; simp [hx hw]
  · simp [hwv, h w hw]

/-- A checked program yields the same trace from memories that agree on the public variables. -/
theorem secure_sound (lut_cmb lut_cmb' : Nat → Nat → aff) (pub : Var → Bool) (p : Stmt prj aff leg) :
    ∀ s s' : State prj aff leg, p.secure pub = true → Agree pub s s' →
      (run lut_cmb p s).2 = (run lut_cmb' p s').2 ∧ Agree pub (run lut_cmb p s).1 (run lut_cmb' p s').1 := by
  induction p with
  | skip => intro s s' _ h; exact ⟨rfl, h⟩
  | set v e =>
    intro s s' hs h
    refine ⟨rfl, agree_update h v _ _ (fun hv => eval_agree h e ?_)⟩
    simpa [Stmt.secure, hv] using hs
  | load v a e =>
    intro s s' hs h
    simp only [Stmt.secure, Bool.and_eq_true, Bool.not_eq_true'] at hs
    refine ⟨by simp only [run]; rw [eval_agree h e hs.2], agree_update h v _ _ (fun hv => ?_)⟩
    rw [hs.1] at hv; exact absurd hv (by decide)
  | store a e e' =>
    intro s s' hs h
    exact ⟨by simp only [run]; rw [eval_agree h e hs], h⟩
  | pcall n r f => intro s s' _ h; exact ⟨rfl, h⟩
  | acall n r f => intro s s' _ h; exact ⟨rfl, h⟩
  | pload r e => intro s s' hs h; exact ⟨by simp only [run]; rw [eval_agree h e hs], h⟩
  | pstore e r => intro s s' hs h; exact ⟨by simp only [run]; rw [eval_agree h e hs], h⟩
  | aload r e e' =>
    intro s s' hs h
    simp only [Stmt.secure, Bool.and_eq_true] at hs
    exact ⟨by simp only [run]; rw [eval_agree h e hs.1, eval_agree h e' hs.2], h⟩
  | psel r e a b => intro s s' _ h; exact ⟨rfl, h⟩
  | asel r e a b => intro s s' _ h; exact ⟨rfl, h⟩
  | seq p q ihp ihq =>
    intro s s' hs h
    simp only [Stmt.secure, Bool.and_eq_true] at hs
    obtain ⟨h1, h2⟩ := ihp s s' hs.1 h
    obtain ⟨h3, h4⟩ := ihq _ _ hs.2 h2
    exact ⟨by simp only [run]; rw [h1, h3], h4⟩
  | ite e p q ihp ihq =>
    intro s s' hs h
    simp only [Stmt.secure, Bool.and_eq_true] at hs
    have he := eval_agree h e hs.1.1
    simp only [run]
    by_cases hc : e.eval s.vars ≠ 0
    · have hc' : e.eval s'.vars ≠ 0 := by rwa [← he]
      rw [if_pos hc, if_pos hc']
      obtain ⟨h1, h2⟩ := ihp s s' hs.1.2 h
      exact ⟨by simp only [h1], h2⟩
    · have hc' : ¬ e.eval s'.vars ≠ 0 := by rwa [← he]
      rw [if_neg hc, if_neg hc']
      obtain ⟨h1, h2⟩ := ihq s s' hs.2 h
      exact ⟨by simp only [h1], h2⟩
  | loop v vals body ih =>
    intro s s' hs h
    simp only [Stmt.secure] at hs
    simp only [run]
    have key : ∀ (vals : List Nat) (a a' : State prj aff leg × List Ev), a.2 = a'.2 → Agree pub a.1 a'.1 →
        (vals.foldl (fun (acc : State prj aff leg × List Ev) (x : Nat) =>
          ((run lut_cmb body { acc.1 with vars := Function.update acc.1.vars v (x : Int) }).1, acc.2 ++ Ev.round ::
            (run lut_cmb body { acc.1 with vars := Function.update acc.1.vars v (x : Int) }).2)) a).2
        = (vals.foldl (fun (acc : State prj aff leg × List Ev) (x : Nat) =>
          ((run lut_cmb' body { acc.1 with vars := Function.update acc.1.vars v (x : Int) }).1, acc.2 ++ Ev.round ::
            (run lut_cmb' body { acc.1 with vars := Function.update acc.1.vars v (x : Int) }).2)) a').2
        ∧ Agree pub (vals.foldl (fun (acc : State prj aff leg × List Ev) (x : Nat) =>
          ((run lut_cmb body { acc.1 with vars := Function.update acc.1.vars v (x : Int) }).1, acc.2 ++ Ev.round ::
            (run lut_cmb body { acc.1 with vars := Function.update acc.1.vars v (x : Int) }).2)) a).1
          (vals.foldl (fun (acc : State prj aff leg × List Ev) (x : Nat) =>
          ((run lut_cmb' body { acc.1 with vars := Function.update acc.1.vars v (x : Int) }).1, acc.2 ++ Ev.round ::
            (run lut_cmb' body { acc.1 with vars := Function.update acc.1.vars v (x : Int) }).2)) a').1 := by
      intro vals
      induction vals with
      | nil => intro a a' h1 h2; exact ⟨h1, h2⟩
      | cons x l ihl =>
        intro a a' h1 h2
        simp only [List.foldl_cons]
        obtain ⟨h3, h4⟩ := ih _ _ hs (agree_update h2 v (x : Int) (x : Int) (fun _ => rfl))
        exact ihl _ _ (by simp only [h1, h3]) h4
    exact key vals (s, []) (s', []) rfl h

end Gost.Ct
