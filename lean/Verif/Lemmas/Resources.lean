import Verif.Model.Resources
/-!
# A checker for `Tidy`, and its soundness

`post` computes, path by path, what each variable of a transcribed function can hold (nothing, an object the call owns, a freed object, an
object handed over, an object of the caller). `post_sound`: every execution, however often its loops run, is covered. `clean_of_check`: if no
path does something wrong and none ends with an object in hand, every execution is `Tidy`.
-/

namespace Gost.Res

open Spec

/-! ## The life of one object -/

inductive Ph where
  | absent | owned | freed | given | lent | bad
deriving DecidableEq, Repr

def phStep : Ph → ResEv → Ph
  | .absent, .alloc _ => .owned
  | .absent, .lent _ => .lent
  | .owned, .use _ => .owned
  | .given, .use _ => .given
  | .lent, .use _ => .lent
  | .owned, .free _ => .freed
  | .owned, .give _ => .given
  | _, _ => .bad

def phase1 (p : Nat) (h : Ph) (e : ResEv) : Ph := if e.obj = some p then phStep h e else h

def phaseFrom (p : Nat) (h : Ph) (tr : List ResEv) : Ph := tr.foldl (phase1 p) h

def phase (tr : List ResEv) (p : Nat) : Ph := phaseFrom p .absent tr

theorem phStep_bad (e : ResEv) : phStep .bad e = .bad := by cases e <;> rfl

theorem phase1_bad (p : Nat) (e : ResEv) : phase1 p .bad e = .bad := by
  unfold phase1; split
  · exact phStep_bad e
  · rfl

theorem phaseFrom_bad (p : Nat) (tr : List ResEv) : phaseFrom p .bad tr = .bad := by
  induction tr with
  | nil => rfl
  | cons e l ih => show phaseFrom p (phase1 p .bad e) l = .bad; rw [phase1_bad]; exact ih

theorem phase_append (tr : List ResEv) (e : ResEv) (p : Nat) : phase (tr ++ [e]) p = phase1 p (phase tr p) e := by
  simp [phase, phaseFrom, List.foldl_append]

theorem phase_snoc_other {tr : List ResEv} {e : ResEv} {p : Nat} (h : e.obj ≠ some p) : phase (tr ++ [e]) p = phase tr p := by
  rw [phase_append, phase1, if_neg h]

theorem phase_snoc_same {tr : List ResEv} {e : ResEv} {p : Nat} (h : e.obj = some p) : phase (tr ++ [e]) p = phStep (phase tr p) e := by
  rw [phase_append, phase1, if_pos h]

/-- After a free nothing can follow. -/
theorem phaseFrom_freed (p : Nat) : ∀ (l : List ResEv), phaseFrom p .freed l ≠ .bad → ∀ e ∈ l, e.obj ≠ some p
  | [], _, e, he => by cases he
  | a :: l, h, e, he => by
    by_cases ha : a.obj = some p
    · exfalso
      apply h
      show phaseFrom p (phase1 p .freed a) l = .bad
      have : phase1 p .freed a = .bad := by rw [phase1, if_pos ha]; cases a <;> rfl
      rw [this]; exact phaseFrom_bad p l
    · have h' : phaseFrom p .freed l ≠ .bad := by
        intro hb; apply h
        show phaseFrom p (phase1 p .freed a) l = .bad
        rw [phase1, if_neg ha]; exact hb
      rcases List.mem_cons.1 he with rfl | hm
      · exact ha
      · exact phaseFrom_freed p l h' e hm

/-- What the phase says about the trace. -/
def PhSays (tr : List ResEv) (p : Nat) : Ph → Prop
  | .absent => ∀ e ∈ tr, e.obj ≠ some p
  | .owned => tr.count (.free p) = 0 ∧ tr.count (.give p) = 0 ∧ .lent p ∉ tr
  | .freed => tr.count (.free p) = 1 ∧ tr.count (.give p) = 0 ∧ .lent p ∉ tr
  | .given => tr.count (.free p) = 0 ∧ tr.count (.give p) = 1 ∧ .lent p ∉ tr
  | .lent => tr.count (.free p) = 0 ∧ tr.count (.give p) = 0 ∧ .alloc p ∉ tr
  | .bad => True

theorem count_other {tr : List ResEv} {e f : ResEv} (h : f ≠ e) : (tr ++ [e]).count f = tr.count f := by
  rw [List.count_append, List.count_singleton]
  have : (e == f) = false := by simpa using fun h' => h h'.symm
  rw [this]; rfl

theorem count_same {tr : List ResEv} {e : ResEv} : (tr ++ [e]).count e = tr.count e + 1 := by
  rw [List.count_append, List.count_singleton]; simp

theorem notMem_snoc {tr : List ResEv} {e f : ResEv} (h : f ∉ tr) (hf : f ≠ e) : f ∉ tr ++ [e] := by
  simp [h, hf]

theorem absent_count {tr : List ResEv} {p : Nat} (h : ∀ e ∈ tr, e.obj ≠ some p) {f : ResEv} (hf : f.obj = some p) : f ∉ tr :=
  fun hm => h f hm hf

theorem phase_says (p : Nat) : ∀ (l tr : List ResEv), tr.reverse = l → PhSays tr p (phase tr p) := by
  intro l
  induction l with
  | nil =>
    intro tr h
    have : tr = [] := by simpa using h
    subst this
    intro e he; cases he
  | cons e l ih =>
    intro tr h
    have htr : tr = l.reverse ++ [e] := by
      have := congrArg List.reverse h; simpa using this
    have ih' := ih l.reverse (by simp)
    subst htr
    generalize l.reverse = t at ih'
    by_cases he : e.obj = some p
    · rw [phase_snoc_same he]
      cases e with
      | nullUse => cases he
      | alloc q =>
        cases he
        cases hp : phase t p <;> rw [hp] at ih' <;> try exact trivial
        refine ⟨?_, ?_, ?_⟩
        · rw [count_other (by simp)]; exact List.count_eq_zero.2 (absent_count ih' rfl)
        · rw [count_other (by simp)]; exact List.count_eq_zero.2 (absent_count ih' rfl)
        · exact notMem_snoc (absent_count ih' rfl) (by simp)
      | lent q =>
        cases he
        cases hp : phase t p <;> rw [hp] at ih' <;> try exact trivial
        refine ⟨?_, ?_, ?_⟩
        · rw [count_other (by simp)]; exact List.count_eq_zero.2 (absent_count ih' rfl)
        · rw [count_other (by simp)]; exact List.count_eq_zero.2 (absent_count ih' rfl)
        · exact notMem_snoc (absent_count ih' rfl) (by simp)
      | use q =>
        cases he
        cases hp : phase t p <;> rw [hp] at ih' <;> try exact trivial
        all_goals
          obtain ⟨h1, h2, h3⟩ := ih'
          refine ⟨?_, ?_, notMem_snoc h3 (by simp)⟩
          · rw [count_other (by simp)]; exact h1
          · rw [count_other (by simp)]; exact h2
      | free q =>
        cases he
        cases hp : phase t p <;> rw [hp] at ih' <;> try exact trivial
        obtain ⟨h1, h2, h3⟩ := ih'
        refine ⟨?_, ?_, notMem_snoc h3 (by simp)⟩
        · rw [count_same, h1]
        · rw [count_other (by simp)]; exact h2
      | give q =>
        cases he
        cases hp : phase t p <;> rw [hp] at ih' <;> try exact trivial
        obtain ⟨h1, h2, h3⟩ := ih'
        refine ⟨?_, ?_, notMem_snoc h3 (by simp)⟩
        · rw [count_other (by simp)]; exact h1
        · rw [count_same, h2]
    · rw [phase_snoc_other he]
      have hf : ∀ f : ResEv, f.obj = some p → f ≠ e := fun f hf h => he (h ▸ hf)
      cases hp : phase t p <;> rw [hp] at ih' <;> try exact trivial
      · intro x hx
        rcases List.mem_append.1 hx with h | h
        · exact ih' x h
        · have : x = e := by simpa using h
          subst this; exact he
      all_goals
        obtain ⟨h1, h2, h3⟩ := ih'
        refine ⟨?_, ?_, notMem_snoc h3 (hf _ rfl)⟩
        · rw [count_other (hf _ rfl)]; exact h1
        · rw [count_other (hf _ rfl)]; exact h2

theorem tidy_of_phase {tr : List ResEv} (hn : ResEv.nullUse ∉ tr)
    (hp : ∀ p, phase tr p ≠ .bad ∧ phase tr p ≠ .owned) : Tidy tr := by
  have says := fun p => phase_says p tr.reverse tr rfl
  refine ⟨hn, ?_, ?_, ?_⟩
  · intro p hm
    obtain ⟨h1, h2⟩ := hp p
    have h := says p
    cases hq : phase tr p <;> rw [hq] at h h1 h2
    · exact absurd rfl (h _ hm)
    · exact absurd rfl h2
    · obtain ⟨a, b, _⟩ := h; omega
    · obtain ⟨a, b, _⟩ := h; omega
    · exact absurd hm h.2.2
    · exact absurd rfl h1
  · intro p hm
    obtain ⟨h1, h2⟩ := hp p
    have h := says p
    cases hq : phase tr p <;> rw [hq] at h h1 h2
    · exact absurd rfl (h _ hm)
    · exact absurd rfl h2
    · exact absurd hm h.2.2
    · exact absurd hm h.2.2
    · exact ⟨List.count_eq_zero.1 h.1, List.count_eq_zero.1 h.2.1⟩
    · exact absurd rfl h1
  · intro p before after htr
    have hb := (hp p).1
    subst htr
    have hsplit : phase (before ++ ResEv.free p :: after) p = phaseFrom p (phase1 p (phase before p) (.free p)) after := by
      simp [phase, phaseFrom, List.foldl_append]
    rw [hsplit] at hb
    have hfr : phase1 p (phase before p) (.free p) = .freed ∨ phase1 p (phase before p) (.free p) = .bad := by
      rw [phase1, if_pos (show (ResEv.free p).obj = some p from rfl)]
      cases phase before p <;> simp [phStep]
    rcases hfr with h | h
    · rw [h] at hb; exact phaseFrom_freed p after hb
    · rw [h, phaseFrom_bad] at hb; exact absurd rfl hb

/-! ## The checker -/

/-- What a variable holds. -/
inductive Sta where
  | null | owned | freed | given | lent
deriving DecidableEq, Repr

def Sta.ph : Sta → Ph
  | .null => .absent
  | .owned => .owned
  | .freed => .freed
  | .given => .given
  | .lent => .lent

def put {α : Type} (d : α) : List α → Nat → α → List α
  | [], 0, v => [v]
  | [], n + 1, v => d :: put d [] n v
  | _ :: l, 0, v => v :: l
  | a :: l, n + 1, v => a :: put d l n v

theorem get_put {α : Type} (d : α) : ∀ (l : List α) (x : Nat) (v : α) (y : Nat),
    (put d l x v).getD y d = if y = x then v else l.getD y d
  | [], 0, v, 0 => by simp [put]
  | [], 0, v, y + 1 => by simp [put]
  | [], x + 1, v, 0 => by simp [put]
  | [], x + 1, v, y + 1 => by
    have := get_put d [] x v y
    simp only [put, List.getD_cons_succ, Nat.add_right_cancel_iff]
    rw [this]; simp
  | a :: l, 0, v, 0 => by simp [put]
  | a :: l, 0, v, y + 1 => by simp [put]
  | a :: l, x + 1, v, 0 => by simp [put]
  | a :: l, x + 1, v, y + 1 => by
    have := get_put d l x v y
    simp only [put, List.getD_cons_succ, Nat.add_right_cancel_iff]
    exact this

/-- What is known at a point of a path. -/
structure A where
  vars : List Sta
  flags : List Bool
deriving DecidableEq, Repr

def A.get (a : A) (x : Nat) : Sta := a.vars.getD x .null
def A.put (a : A) (x : Nat) (v : Sta) : A := { a with vars := Res.put .null a.vars x v }
def A.flag (a : A) (f : Nat) : Bool := a.flags.getD f false
def A.setFlag (a : A) (f : Nat) (b : Bool) : A := { a with flags := Res.put false a.flags f b }
def A.start : A := ⟨[], []⟩

theorem A.get_put (a : A) (x y : Nat) (v : Sta) : (a.put x v).get y = if y = x then v else a.get y := Res.get_put _ _ _ _ _
theorem A.flag_put (a : A) (x y : Nat) (v : Sta) : (a.put x v).flag y = a.flag y := rfl
theorem A.flag_set (a : A) (f g : Nat) (b : Bool) : (a.setFlag f b).flag g = if g = f then b else a.flag g := Res.get_put _ _ _ _ _
theorem A.get_set (a : A) (f : Nat) (b : Bool) (x : Nat) : (a.setFlag f b).get x = a.get x := rfl

abbrev Res := Option (List (A × Out))

/-- Add without repetition. -/
def addNew {α : Type} [DecidableEq α] (x : α) (l : List α) : List α := if x ∈ l then l else x :: l

def union {α : Type} [DecidableEq α] (l m : List α) : List α := l.foldr addNew m

theorem mem_addNew {α : Type} [DecidableEq α] {x y : α} {l : List α} : y ∈ addNew x l ↔ y = x ∨ y ∈ l := by
  unfold addNew
  by_cases h : x ∈ l
  · rw [if_pos h]; constructor
    · exact Or.inr
    · rintro (rfl | h') <;> assumption
  · rw [if_neg h]; exact List.mem_cons

theorem mem_union {α : Type} [DecidableEq α] {y : α} {l m : List α} : y ∈ union l m ↔ y ∈ l ∨ y ∈ m := by
  induction l with
  | nil => simp [union]
  | cons a l ih =>
    show y ∈ addNew a (union l m) ↔ _
    rw [mem_addNew, ih, List.mem_cons, or_assoc]

def both (r q : Res) : Res := match r, q with
  | some l, some m => some (union l m)
  | _, _ => none

/-- Continue the paths that fall through; keep the others. -/
def andThen (f : A → Res) : List (A × Out) → Res
  | [] => some []
  | (a, .fall) :: l => both (f a) (andThen f l)
  | (a, o) :: l => both (some [(a, o)]) (andThen f l)

def falls : List (A × Out) → List A
  | [] => []
  | (a, .fall) :: l => addNew a (falls l)
  | _ :: l => falls l

/-- The states at the head of a loop: rounds are added until nothing new turns up. -/
def closeLoop (f : A → Res) : Nat → List A → Res
  | 0, _ => none
  | n + 1, S => match andThen f (S.map fun a => (a, .fall)) with
    | none => none
    | some L => if falls L ⊆ S then some (union (S.map fun a => (a, .fall)) (L.filter fun r => r.2 ≠ .fall))
      else closeLoop f n (union (falls L) S)

def post (never : List Nat) : Stm → A → Res
  | .skip, a => some [(a, .fall)]
  | .alloc n x, a => if a.get x = .owned then none
      else if n ∈ never then some [(a.put x .owned, .fall)] else some [(a.put x .owned, .fall), (a.put x .null, .fall)]
  | .borrow x, a => if a.get x = .owned then none else some [(a.put x .lent, .fall)]
  | .null x, a => if a.get x = .owned then none else some [(a.put x .null, .fall)]
  | .free x, a => match a.get x with
    | .null => some [(a, .fall)]
    | .owned => some [(a.put x .freed, .fall)]
    | _ => none
  | .use x, a => match a.get x with
    | .null => none
    | .freed => none
    | _ => some [(a, .fall)]
  | .give x, a => match a.get x with
    | .null => some [(a, .fall)]
    | .owned => some [(a.put x .given, .fall)]
    | _ => none
  | .set f b, a => some [(a.setFlag f b, .fall)]
  | .seq s t, a => match post never s a with
    | none => none
    | some L => andThen (post never t) L
  | .choice n s t, a => if n ∈ never then post never t a else both (post never s a) (post never t a)
  | .ifnull x s t, a => if a.get x = .null then post never s a else post never t a
  | .ifset f s t, a => if a.flag f then post never s a else post never t a
  | .loop s, a => closeLoop (post never s) 20 [a]
  | .goto, a => some [(a, .jump)]
  | .ret, a => some [(a, .done)]
  | .block s, a => match post never s a with
    | none => none
    | some L => some (union (L.map fun r => (r.1, if r.2 = .done then .done else .fall)) [])

/-- No path goes wrong and none ends with an object in hand. -/
def check (never : List Nat) (p : Stm) : Bool := match post never p A.start with
  | none => false
  | some L => L.all fun r => r.1.vars.all fun v => v ≠ .owned

/-! ## Soundness -/

structure Rel (a : A) (s : St) : Prop where
  noNull : ResEv.nullUse ∉ s.tr
  fine : ∀ p, phase s.tr p ≠ .bad
  fresh : ∀ p, s.next ≤ p → phase s.tr p = .absent
  null : ∀ x, a.get x = .null → s.env x = none
  held : ∀ x, a.get x ≠ .null → ∃ p, p < s.next ∧ s.env x = some p ∧ phase s.tr p = (a.get x).ph
  alone : ∀ x y p, s.env x = some p → s.env y = some p → phase s.tr p = .owned → x = y
  kept : ∀ p, phase s.tr p = .owned → ∃ x, s.env x = some p
  flags : ∀ f, s.flag f = a.flag f

theorem rel_start : Rel .start .start where
  noNull := by intro h; cases h
  fine := by intro p h; cases h
  fresh := fun _ _ => rfl
  null := fun _ _ => rfl
  held := by intro x h; exact absurd rfl h
  alone := by intro x y p h; cases h
  kept := by intro p h; cases h
  flags := fun _ => rfl

variable {a : A} {s : St}

theorem Rel.sta (h : Rel a s) {x p : Nat} (hx : s.env x = some p) : a.get x ≠ .null ∧ p < s.next ∧ phase s.tr p = (a.get x).ph := by
  have hne : a.get x ≠ .null := fun h0 => by rw [h.null x h0] at hx; cases hx
  obtain ⟨q, hq, he, hp⟩ := h.held x hne
  have : q = p := by rw [he] at hx; exact Option.some.inj hx
  subst this
  exact ⟨hne, hq, hp⟩

theorem ph_owned {v : Sta} : v.ph = .owned ↔ v = .owned := by cases v <;> simp [Sta.ph]

theorem env_set (s : St) (x y : Nat) (v : Option Nat) : (s.setVar x v).env y = if y = x then v else s.env y := rfl

/-- A variable that owns nothing can be overwritten with NULL. -/
theorem Rel.setNull (h : Rel a s) {x : Nat} (hx : a.get x ≠ .owned) : Rel (a.put x .null) (s.setVar x none) where
  noNull := h.noNull
  fine := h.fine
  fresh := h.fresh
  null := by
    intro y hy
    rw [A.get_put] at hy
    rw [env_set]
    by_cases hyx : y = x
    · rw [if_pos hyx]
    · rw [if_neg hyx] at hy ⊢; exact h.null y hy
  held := by
    intro y hy
    rw [A.get_put] at hy ⊢
    rw [env_set]
    by_cases hyx : y = x
    · rw [if_pos hyx] at hy; exact absurd rfl hy
    · rw [if_neg hyx] at hy ⊢; rw [if_neg hyx]; exact h.held y hy
  alone := by
    intro y z p hy hz hp
    rw [env_set] at hy hz
    split at hy
    · cases hy
    · split at hz
      · cases hz
      · exact h.alone y z p hy hz hp
  kept := by
    intro p hp
    obtain ⟨y, hy⟩ := h.kept p hp
    refine ⟨y, ?_⟩
    rw [env_set, if_neg]
    · exact hy
    · intro hyx; subst hyx
      exact hx (ph_owned.1 ((h.sta hy).2.2.symm.trans hp))
  flags := h.flags

/-- A variable that owns nothing gets a new object. -/
theorem Rel.make (h : Rel a s) {x : Nat} (hx : a.get x ≠ .owned) {e : Nat → ResEv} {v : Sta} (he : ∀ p, (e p).obj = some p)
    (hn : ∀ p, e p ≠ .nullUse) (hv : ∀ p, phStep .absent (e p) = v.ph) (hv0 : v ≠ .null) (hvb : v.ph ≠ .bad) :
    Rel (a.put x v) (s.make x e) := by
  have hnew : phase (s.tr ++ [e s.next]) s.next = v.ph := by
    rw [phase_snoc_same (he _), h.fresh _ (Nat.le_refl _), hv]
  have hold : ∀ p, p ≠ s.next → phase (s.tr ++ [e s.next]) p = phase s.tr p := by
    intro p hp; apply phase_snoc_other; rw [he]; intro h; exact hp (Option.some.inj h).symm
  have henv : ∀ y, (s.make x e).env y = if y = x then some s.next else s.env y := fun _ => rfl
  refine ⟨?_, ?_, ?_, ?_, ?_, ?_, ?_, h.flags⟩
  · exact notMem_snoc h.noNull (fun h0 => hn _ h0.symm)
  · intro p
    show phase (s.tr ++ [e s.next]) p ≠ _
    by_cases hp : p = s.next
    · rw [hp, hnew]; exact hvb
    · rw [hold p hp]; exact h.fine p
  · intro p hp
    have hp' : s.next + 1 ≤ p := hp
    show phase (s.tr ++ [e s.next]) p = _
    rw [hold p (by omega)]; exact h.fresh p (by omega)
  · intro y hy
    rw [A.get_put] at hy
    rw [henv]
    by_cases hyx : y = x
    · rw [if_pos hyx] at hy; exact absurd hy hv0
    · rw [if_neg hyx] at hy ⊢; exact h.null y hy
  · intro y hy
    rw [A.get_put] at hy ⊢
    rw [henv]
    show ∃ p, p < s.next + 1 ∧ _ ∧ phase (s.tr ++ [e s.next]) p = _
    by_cases hyx : y = x
    · rw [if_pos hyx, if_pos hyx]
      exact ⟨s.next, Nat.lt_succ_self _, rfl, hnew⟩
    · rw [if_neg hyx] at hy
      rw [if_neg hyx, if_neg hyx]
      obtain ⟨p, h1, h2, h3⟩ := h.held y hy
      exact ⟨p, by omega, h2, by rw [hold p (by omega)]; exact h3⟩
  · intro y z p hy hz hp
    have hp' : phase (s.tr ++ [e s.next]) p = .owned := hp
    rw [henv] at hy hz
    by_cases hyx : y = x <;> by_cases hzx : z = x
    · rw [hyx, hzx]
    · rw [if_pos hyx] at hy; rw [if_neg hzx] at hz
      cases hy
      have := (h.sta hz).2.1; omega
    · rw [if_neg hyx] at hy; rw [if_pos hzx] at hz
      cases hz
      have := (h.sta hy).2.1; omega
    · rw [if_neg hyx] at hy; rw [if_neg hzx] at hz
      have hlt := (h.sta hy).2.1
      rw [hold p (by omega)] at hp'
      exact h.alone y z p hy hz hp'
  · intro p hp
    have hp' : phase (s.tr ++ [e s.next]) p = .owned := hp
    by_cases hps : p = s.next
    · exact ⟨x, by rw [henv, if_pos rfl, hps]⟩
    · rw [hold p hps] at hp'
      obtain ⟨y, hy⟩ := h.kept p hp'
      refine ⟨y, ?_⟩
      rw [henv, if_neg]
      · exact hy
      · intro hyx; subst hyx
        exact hx (ph_owned.1 ((h.sta hy).2.2.symm.trans hp'))

/-- An owned object is freed or handed over. -/
theorem Rel.drop (h : Rel a s) {x p : Nat} (hx : a.get x = .owned) (hp : s.env x = some p) {e : ResEv} {v : Sta} (he : e.obj = some p)
    (hv : phStep .owned e = v.ph) (hv0 : v ≠ .null) (hvo : v ≠ .owned) (hvb : v.ph ≠ .bad) (hn : e ≠ .nullUse) :
    Rel (a.put x v) (s.log e) := by
  have hph : phase s.tr p = .owned := by rw [(h.sta hp).2.2, hx]; rfl
  have hlt := (h.sta hp).2.1
  have hnew : phase (s.tr ++ [e]) p = v.ph := by rw [phase_snoc_same he, hph, hv]
  have hold : ∀ q, q ≠ p → phase (s.tr ++ [e]) q = phase s.tr q := by
    intro q hq; apply phase_snoc_other; rw [he]; intro h; exact hq (Option.some.inj h).symm
  refine ⟨?_, ?_, ?_, ?_, ?_, ?_, ?_, h.flags⟩
  · exact notMem_snoc h.noNull (fun h0 => hn h0.symm)
  · intro q
    show phase (s.tr ++ [e]) q ≠ _
    by_cases hq : q = p
    · rw [hq, hnew]; exact hvb
    · rw [hold q hq]; exact h.fine q
  · intro q hq
    have hq' : s.next ≤ q := hq
    show phase (s.tr ++ [e]) q = _
    rw [hold q (by omega)]; exact h.fresh q hq'
  · intro y hy
    rw [A.get_put] at hy
    by_cases hyx : y = x
    · rw [if_pos hyx] at hy; exact absurd hy hv0
    · rw [if_neg hyx] at hy; exact h.null y hy
  · intro y hy
    rw [A.get_put] at hy ⊢
    show ∃ q, q < s.next ∧ s.env y = some q ∧ phase (s.tr ++ [e]) q = _
    by_cases hyx : y = x
    · rw [if_pos hyx]
      exact ⟨p, hlt, by rw [hyx]; exact hp, hnew⟩
    · rw [if_neg hyx] at hy ⊢
      obtain ⟨q, h1, h2, h3⟩ := h.held y hy
      refine ⟨q, h1, h2, ?_⟩
      have hqp : q ≠ p := by
        intro hq; subst hq
        exact hyx (h.alone y x q h2 hp hph)
      rw [hold q hqp]; exact h3
  · intro y z q hy hz hq
    have hq' : phase (s.tr ++ [e]) q = .owned := hq
    have hqp : q ≠ p := by
      intro hqp; subst hqp
      rw [hnew] at hq'; exact hvo (ph_owned.1 hq')
    rw [hold q hqp] at hq'
    exact h.alone y z q hy hz hq'
  · intro q hq
    have hq' : phase (s.tr ++ [e]) q = .owned := hq
    have hqp : q ≠ p := by
      intro hqp; subst hqp
      rw [hnew] at hq'; exact hvo (ph_owned.1 hq')
    rw [hold q hqp] at hq'
    exact h.kept q hq'

/-- A use changes nothing. -/
theorem Rel.useVar (h : Rel a s) {x p : Nat} (h0 : a.get x ≠ .freed) (hp : s.env x = some p) : Rel a (s.log (.use p)) := by
  obtain ⟨hne, hlt, hph⟩ := h.sta hp
  have hsame : ∀ q, phase (s.tr ++ [.use p]) q = phase s.tr q := by
    intro q
    by_cases hq : q = p
    · subst hq
      rw [phase_snoc_same rfl, hph]
      cases hg : a.get x
      · exact absurd hg hne
      · rfl
      · exact absurd hg h0
      · rfl
      · rfl
    · apply phase_snoc_other; intro h; exact hq (Option.some.inj h).symm
  refine ⟨notMem_snoc h.noNull (by simp), ?_, ?_, h.null, ?_, ?_, ?_, h.flags⟩
  · intro q; show phase (s.tr ++ [.use p]) q ≠ _; rw [hsame]; exact h.fine q
  · intro q hq; show phase (s.tr ++ [.use p]) q = _; rw [hsame]; exact h.fresh q hq
  · intro y hy
    obtain ⟨q, h1, h2, h3⟩ := h.held y hy
    exact ⟨q, h1, h2, (hsame q).trans h3⟩
  · intro y z q hy hz hq
    exact h.alone y z q hy hz ((hsame q).symm.trans hq)
  · intro q hq
    exact h.kept q ((hsame q).symm.trans hq)

theorem Rel.setFlag (h : Rel a s) (f : Nat) (b : Bool) :
    Rel (a.setFlag f b) { s with flag := fun g => if g = f then b else s.flag g } where
  noNull := h.noNull
  fine := h.fine
  fresh := h.fresh
  null := h.null
  held := h.held
  alone := h.alone
  kept := h.kept
  flags := by
    intro g
    rw [A.flag_set]
    show (if g = f then b else s.flag g) = _
    rw [h.flags]

theorem both_some {r q : Res} {L : List (A × Out)} (h : both r q = some L) :
    ∃ l m, r = some l ∧ q = some m ∧ ∀ x, x ∈ L ↔ x ∈ l ∨ x ∈ m := by
  cases r with
  | none => cases h
  | some l =>
    cases q with
    | none => cases h
    | some m =>
      refine ⟨l, m, rfl, rfl, ?_⟩
      have : union l m = L := Option.some.inj h
      intro x; rw [← this]; exact mem_union

theorem andThen_some {f : A → Res} : ∀ {M L : List (A × Out)}, andThen f M = some L →
    (∀ a o, (a, o) ∈ M → o ≠ .fall → (a, o) ∈ L) ∧ (∀ a, (a, Out.fall) ∈ M → ∃ l, f a = some l ∧ ∀ x ∈ l, x ∈ L)
  | [], L, h => ⟨fun _ _ h => absurd h (by simp), fun _ h => absurd h (by simp)⟩
  | (a, .fall) :: M, L, h => by
    obtain ⟨l, m, h1, h2, h3⟩ := both_some h
    obtain ⟨k1, k2⟩ := andThen_some h2
    constructor
    · intro b o hb ho
      rcases List.mem_cons.1 hb with he | hb
      · cases he; exact absurd rfl ho
      · exact (h3 _).2 (Or.inr (k1 b o hb ho))
    · intro b hb
      rcases List.mem_cons.1 hb with he | hb
      · cases he; exact ⟨l, h1, fun x hx => (h3 x).2 (Or.inl hx)⟩
      · obtain ⟨l', e1, e2⟩ := k2 b hb
        exact ⟨l', e1, fun x hx => (h3 x).2 (Or.inr (e2 x hx))⟩
  | (a, .jump) :: M, L, h => by
    obtain ⟨l, m, h1, h2, h3⟩ := both_some h
    obtain ⟨k1, k2⟩ := andThen_some h2
    cases h1
    constructor
    · intro b o hb ho
      rcases List.mem_cons.1 hb with he | hb
      · cases he; exact (h3 _).2 (Or.inl List.mem_cons_self)
      · exact (h3 _).2 (Or.inr (k1 b o hb ho))
    · intro b hb
      rcases List.mem_cons.1 hb with he | hb
      · cases he
      · obtain ⟨l', e1, e2⟩ := k2 b hb
        exact ⟨l', e1, fun x hx => (h3 x).2 (Or.inr (e2 x hx))⟩
  | (a, .done) :: M, L, h => by
    obtain ⟨l, m, h1, h2, h3⟩ := both_some h
    obtain ⟨k1, k2⟩ := andThen_some h2
    cases h1
    constructor
    · intro b o hb ho
      rcases List.mem_cons.1 hb with he | hb
      · cases he; exact (h3 _).2 (Or.inl List.mem_cons_self)
      · exact (h3 _).2 (Or.inr (k1 b o hb ho))
    · intro b hb
      rcases List.mem_cons.1 hb with he | hb
      · cases he
      · obtain ⟨l', e1, e2⟩ := k2 b hb
        exact ⟨l', e1, fun x hx => (h3 x).2 (Or.inr (e2 x hx))⟩

theorem mem_falls : ∀ {L : List (A × Out)} {a : A}, (a, Out.fall) ∈ L → a ∈ falls L
  | (b, .fall) :: L, a, h => by
    show a ∈ addNew b (falls L)
    rw [mem_addNew]
    rcases List.mem_cons.1 h with he | h
    · cases he; exact Or.inl rfl
    · exact Or.inr (mem_falls h)
  | (b, .jump) :: L, a, h => by
    rcases List.mem_cons.1 h with he | h
    · cases he
    · exact mem_falls (L := L) h
  | (b, .done) :: L, a, h => by
    rcases List.mem_cons.1 h with he | h
    · cases he
    · exact mem_falls (L := L) h

/-- The closure of a loop is a set of head states that the body does not leave. -/
theorem closeLoop_some {f : A → Res} : ∀ {n : Nat} {S : List A} {L : List (A × Out)}, closeLoop f n S = some L →
    ∃ T : List A, S ⊆ T ∧ (∀ a ∈ T, (a, Out.fall) ∈ L) ∧
      ∀ a ∈ T, ∃ l, f a = some l ∧ ∀ b o, (b, o) ∈ l → (o = .fall → b ∈ T) ∧ (o ≠ .fall → (b, o) ∈ L)
  | 0, S, L, h => by cases h
  | n + 1, S, L, h => by
    rw [closeLoop] at h
    cases hM : andThen f (S.map fun a => (a, .fall)) with
    | none => rw [hM] at h; cases h
    | some M =>
      rw [hM] at h
      dsimp only at h
      obtain ⟨-, k2⟩ := andThen_some hM
      by_cases hs : falls M ⊆ S
      · rw [if_pos hs] at h
        have hL := Option.some.inj h
        refine ⟨S, fun _ h => h, ?_, ?_⟩
        · intro a ha
          rw [← hL, mem_union]
          exact Or.inl (List.mem_map.2 ⟨a, ha, rfl⟩)
        · intro a ha
          obtain ⟨l, e1, e2⟩ := k2 a (List.mem_map.2 ⟨a, ha, rfl⟩)
          refine ⟨l, e1, ?_⟩
          intro b o hb
          constructor
          · intro ho; subst ho; exact hs (mem_falls (e2 _ hb))
          · intro ho
            rw [← hL, mem_union]
            exact Or.inr (List.mem_filter.2 ⟨e2 _ hb, by simpa using ho⟩)
      · rw [if_neg hs] at h
        obtain ⟨T, h1, h2, h3⟩ := closeLoop_some h
        exact ⟨T, fun x hx => h1 (mem_union.2 (Or.inr hx)), h2, h3⟩

/-- **Soundness**: every execution is one of the paths of the checker. -/
theorem post_sound (never : List Nat) : ∀ (p : Stm) {a : A} {s t : St} {o : Out} {L : List (A × Out)},
    Rel a s → Exec never p s t o → post never p a = some L → ∃ b, (b, o) ∈ L ∧ Rel b t := by
  intro p
  induction p with
  | skip =>
    rintro a s t o L h ⟨rfl, rfl⟩ hL
    cases hL; exact ⟨a, List.mem_cons_self, h⟩
  | alloc n x =>
    rintro a s t o L h ⟨rfl, he⟩ hL
    unfold post at hL
    by_cases hx : a.get x = .owned
    · rw [if_pos hx] at hL; cases hL
    · rw [if_neg hx] at hL
      have hmk : Rel (a.put x .owned) (s.make x .alloc) :=
        h.make hx (fun _ => rfl) (fun _ => by simp) (fun _ => rfl) (by simp) (by simp [Sta.ph])
      by_cases hn : n ∈ never
      · rw [if_pos hn] at hL; cases hL
        rcases he with rfl | ⟨hn', _⟩
        · exact ⟨_, List.mem_cons_self, hmk⟩
        · exact absurd hn hn'
      · rw [if_neg hn] at hL; cases hL
        rcases he with rfl | ⟨_, rfl⟩
        · exact ⟨_, List.mem_cons_self, hmk⟩
        · exact ⟨_, List.mem_cons_of_mem _ List.mem_cons_self, h.setNull hx⟩
  | borrow x =>
    rintro a s t o L h ⟨rfl, rfl⟩ hL
    unfold post at hL
    by_cases hx : a.get x = .owned
    · rw [if_pos hx] at hL; cases hL
    · rw [if_neg hx] at hL; cases hL
      exact ⟨_, List.mem_cons_self, h.make hx (fun _ => rfl) (fun _ => by simp) (fun _ => rfl) (by simp) (by simp [Sta.ph])⟩
  | null x =>
    rintro a s t o L h ⟨rfl, rfl⟩ hL
    unfold post at hL
    by_cases hx : a.get x = .owned
    · rw [if_pos hx] at hL; cases hL
    · rw [if_neg hx] at hL; cases hL
      exact ⟨_, List.mem_cons_self, h.setNull hx⟩
  | free x =>
    rintro a s t o L h ⟨rfl, he⟩ hL
    unfold post at hL
    cases hx : a.get x <;> rw [hx] at hL <;> dsimp only at hL
    · cases hL
      rw [h.null x hx] at he; dsimp only at he; subst he
      exact ⟨_, List.mem_cons_self, h⟩
    · cases hL
      obtain ⟨p, hlt, hp, _⟩ := h.held x (by rw [hx]; simp)
      rw [hp] at he; dsimp only at he; subst he
      exact ⟨_, List.mem_cons_self, h.drop hx hp rfl rfl (by simp) (by simp) (by simp [Sta.ph]) (by simp)⟩
    · cases hL
    · cases hL
    · cases hL
  | use x =>
    rintro a s t o L h ⟨rfl, he⟩ hL
    unfold post at hL
    have key : a.get x ≠ .null → a.get x ≠ .freed → Rel a t := by
      intro h1 h2
      obtain ⟨p, hlt, hp, _⟩ := h.held x h1
      rw [hp] at he; dsimp only at he; subst he
      exact h.useVar h2 hp
    cases hx : a.get x <;> rw [hx] at hL key <;> dsimp only at hL
    · cases hL
    · cases hL; exact ⟨_, List.mem_cons_self, key (by simp) (by simp)⟩
    · cases hL
    · cases hL; exact ⟨_, List.mem_cons_self, key (by simp) (by simp)⟩
    · cases hL; exact ⟨_, List.mem_cons_self, key (by simp) (by simp)⟩
  | give x =>
    rintro a s t o L h ⟨rfl, he⟩ hL
    unfold post at hL
    cases hx : a.get x <;> rw [hx] at hL <;> dsimp only at hL
    · cases hL
      rw [h.null x hx] at he; dsimp only at he; subst he
      exact ⟨_, List.mem_cons_self, h⟩
    · cases hL
      obtain ⟨p, hlt, hp, _⟩ := h.held x (by rw [hx]; simp)
      rw [hp] at he; dsimp only at he; subst he
      exact ⟨_, List.mem_cons_self, h.drop hx hp rfl rfl (by simp) (by simp) (by simp [Sta.ph]) (by simp)⟩
    · cases hL
    · cases hL
    · cases hL
  | set f b =>
    rintro a s t o L h ⟨rfl, rfl⟩ hL
    cases hL; exact ⟨_, List.mem_cons_self, h.setFlag f b⟩
  | seq p q ihp ihq =>
    intro a s t o L h he hL
    unfold post at hL
    cases hM : post never p a with
    | none => rw [hM] at hL; cases hL
    | some M =>
      rw [hM] at hL; dsimp only at hL
      obtain ⟨k1, k2⟩ := andThen_some hL
      rcases he with ⟨m, e1, e2⟩ | ⟨ho, e⟩
      · obtain ⟨b, hb, hr⟩ := ihp h e1 hM
        obtain ⟨l, hl, hsub⟩ := k2 b hb
        obtain ⟨c, hc, hrc⟩ := ihq hr e2 hl
        exact ⟨c, hsub _ hc, hrc⟩
      · obtain ⟨b, hb, hr⟩ := ihp h e hM
        exact ⟨b, k1 b o hb ho, hr⟩
  | choice n p q ihp ihq =>
    intro a s t o L h he hL
    unfold post at hL
    by_cases hn : n ∈ never
    · rw [if_pos hn] at hL
      rcases he with ⟨hn', _⟩ | e
      · exact absurd hn hn'
      · exact ihq h e hL
    · rw [if_neg hn] at hL
      obtain ⟨l, m, h1, h2, h3⟩ := both_some hL
      rcases he with ⟨_, e⟩ | e
      · obtain ⟨b, hb, hr⟩ := ihp h e h1; exact ⟨b, (h3 _).2 (Or.inl hb), hr⟩
      · obtain ⟨b, hb, hr⟩ := ihq h e h2; exact ⟨b, (h3 _).2 (Or.inr hb), hr⟩
  | ifnull x p q ihp ihq =>
    intro a s t o L h he hL
    unfold post at hL
    by_cases hx : a.get x = .null
    · rw [if_pos hx] at hL
      rcases he with ⟨_, e⟩ | ⟨hne, _⟩
      · exact ihp h e hL
      · exact absurd (h.null x hx) hne
    · rw [if_neg hx] at hL
      obtain ⟨p', _, hp', _⟩ := h.held x hx
      rcases he with ⟨hn, _⟩ | ⟨_, e⟩
      · rw [hp'] at hn; cases hn
      · exact ihq h e hL
  | ifset f p q ihp ihq =>
    intro a s t o L h he hL
    unfold post at hL
    have hf := h.flags f
    cases hb : a.flag f <;> rw [hb] at hL hf
    · rcases he with ⟨e0, _⟩ | ⟨_, e⟩
      · rw [hf] at e0; cases e0
      · exact ihq h e hL
    · rcases he with ⟨_, e⟩ | ⟨e0, _⟩
      · exact ihp h e hL
      · rw [hf] at e0; cases e0
  | loop p ih =>
    intro a s t o L h he hL
    unfold post at hL
    obtain ⟨T, h1, h2, h3⟩ := closeLoop_some hL
    have ha : a ∈ T := h1 List.mem_cons_self
    clear h1 hL
    have he' : Rounds (Exec never p) s t o := he
    clear he
    induction he' generalizing a with
    | stop s => exact ⟨a, h2 a ha, h⟩
    | next e1 _ ih2 =>
      obtain ⟨l, hl, hc⟩ := h3 a ha
      obtain ⟨b, hb, hr⟩ := ih h e1 hl
      exact ih2 hr ((hc b _ hb).1 rfl)
    | leave e1 ho =>
      obtain ⟨l, hl, hc⟩ := h3 a ha
      obtain ⟨b, hb, hr⟩ := ih h e1 hl
      exact ⟨b, (hc b _ hb).2 ho, hr⟩
  | goto =>
    rintro a s t o L h ⟨rfl, rfl⟩ hL
    cases hL; exact ⟨a, List.mem_cons_self, h⟩
  | ret =>
    rintro a s t o L h ⟨rfl, rfl⟩ hL
    cases hL; exact ⟨a, List.mem_cons_self, h⟩
  | block p ih =>
    intro a s t o L h he hL
    unfold post at hL
    cases hM : post never p a with
    | none => rw [hM] at hL; cases hL
    | some M =>
      rw [hM] at hL; dsimp only at hL
      have hL' := Option.some.inj hL
      have hm : ∀ b o, (b, o) ∈ M → (b, if o = Out.done then Out.done else .fall) ∈ L := by
        intro b o hb
        rw [← hL', mem_union]
        exact Or.inl (List.mem_map.2 ⟨(b, o), hb, rfl⟩)
      rcases he with ⟨rfl, e | e⟩ | ⟨rfl, e⟩
      · obtain ⟨b, hb, hr⟩ := ih h e hM; exact ⟨b, hm b _ hb, hr⟩
      · obtain ⟨b, hb, hr⟩ := ih h e hM; exact ⟨b, hm b _ hb, hr⟩
      · obtain ⟨b, hb, hr⟩ := ih h e hM; exact ⟨b, hm b _ hb, hr⟩

theorem getD_mem_or {α : Type} (d : α) : ∀ (l : List α) (x : Nat), l.getD x d ∈ l ∨ l.getD x d = d
  | [], x => Or.inr (by simp)
  | a :: l, 0 => Or.inl (by simp)
  | a :: l, x + 1 => by
    rw [List.getD_cons_succ]
    rcases getD_mem_or d l x with h | h
    · exact Or.inl (List.mem_cons_of_mem _ h)
    · exact Or.inr h

theorem clean_of_check {never : List Nat} {p : Stm} (hc : check never p = true) {t : St} {o : Out} (he : Exec never p .start t o) :
    Tidy t.tr := by
  unfold check at hc
  cases hL : post never p A.start with
  | none => rw [hL] at hc; cases hc
  | some L =>
    rw [hL] at hc; dsimp only at hc
    obtain ⟨b, hb, hr⟩ := post_sound never p rel_start he hL
    have hv := List.all_eq_true.1 hc _ hb
    refine tidy_of_phase hr.noNull fun q => ⟨hr.fine q, ?_⟩
    intro hq
    obtain ⟨x, hx⟩ := hr.kept q hq
    have hown : b.get x = .owned := ph_owned.1 ((hr.sta hx).2.2.symm.trans hq)
    rcases getD_mem_or Sta.null b.vars x with h | h
    · have := List.all_eq_true.1 hv _ h
      have h2 : b.vars.getD x .null = .owned := hown
      rw [h2] at this; simp at this
    · have h2 : b.vars.getD x .null = .owned := hown
      rw [h] at h2; cases h2

/-! ## Runs are executions -/

theorem runLoop_sound {f : St → List Bool → Option (St × Out × List Bool)} {R : St → St → Out → Prop}
    (hf : ∀ s cs t o cs', f s cs = some (t, o, cs') → R s t o) :
    ∀ (n : Nat) (s : St) (cs : List Bool) (t : St) (o : Out) (cs' : List Bool), runLoop f n s cs = some (t, o, cs') → Rounds R s t o
  | 0, _, _, _, _, _, h => by cases h
  | _ + 1, _, [], _, _, _, h => by cases h
  | _ + 1, s, false :: cs, _, _, _, h => by cases h; exact .stop s
  | n + 1, s, true :: cs, t, o, cs', h => by
    rw [runLoop] at h
    cases hr : f s cs with
    | none => rw [hr] at h; cases h
    | some r =>
      obtain ⟨u, q, c2⟩ := r
      rw [hr] at h
      have hR := hf _ _ _ _ _ hr
      cases q with
      | fall => exact .next hR (runLoop_sound hf n u c2 t o cs' h)
      | jump => cases h; exact .leave hR (by simp)
      | done => cases h; exact .leave hR (by simp)

theorem run_sound : ∀ (p : Stm) (s : St) (cs : List Bool) (t : St) (o : Out) (cs' : List Bool),
    run p s cs = some (t, o, cs') → Exec [] p s t o := by
  intro p
  induction p with
  | skip => intro s cs t o cs' h; cases h; exact ⟨rfl, rfl⟩
  | alloc n x =>
    intro s cs t o cs' h
    cases cs with
    | nil => cases h
    | cons c cs =>
      cases h
      refine ⟨rfl, ?_⟩
      cases c
      · exact Or.inr ⟨by simp, rfl⟩
      · exact Or.inl rfl
  | borrow x => intro s cs t o cs' h; cases h; exact ⟨rfl, rfl⟩
  | null x => intro s cs t o cs' h; cases h; exact ⟨rfl, rfl⟩
  | free x =>
    intro s cs t o cs' h
    unfold run at h
    unfold Exec
    cases hx : s.env x <;> rw [hx] at h <;> cases h <;> exact ⟨rfl, rfl⟩
  | use x =>
    intro s cs t o cs' h
    unfold run at h
    unfold Exec
    cases hx : s.env x <;> rw [hx] at h <;> cases h <;> exact ⟨rfl, rfl⟩
  | give x =>
    intro s cs t o cs' h
    unfold run at h
    unfold Exec
    cases hx : s.env x <;> rw [hx] at h <;> cases h <;> exact ⟨rfl, rfl⟩
  | set f b => intro s cs t o cs' h; cases h; exact ⟨rfl, rfl⟩
  | seq p q ihp ihq =>
    intro s cs t o cs' h
    unfold run at h
    cases hr : run p s cs with
    | none => rw [hr] at h; cases h
    | some r =>
      obtain ⟨u, w, c2⟩ := r
      rw [hr] at h
      have e := ihp _ _ _ _ _ hr
      cases w with
      | fall => exact Or.inl ⟨u, e, ihq _ _ _ _ _ h⟩
      | jump => cases h; exact Or.inr ⟨by simp, e⟩
      | done => cases h; exact Or.inr ⟨by simp, e⟩
  | choice n p q ihp ihq =>
    intro s cs t o cs' h
    cases cs with
    | nil => cases h
    | cons c cs =>
      cases c
      · exact Or.inr (ihq _ _ _ _ _ h)
      · exact Or.inl ⟨by simp, ihp _ _ _ _ _ h⟩
  | ifnull x p q ihp ihq =>
    intro s cs t o cs' h
    unfold run at h
    by_cases hx : s.env x = none
    · rw [if_pos hx] at h; exact Or.inl ⟨hx, ihp _ _ _ _ _ h⟩
    · rw [if_neg hx] at h; exact Or.inr ⟨hx, ihq _ _ _ _ _ h⟩
  | ifset f p q ihp ihq =>
    intro s cs t o cs' h
    unfold run at h
    cases hx : s.flag f <;> rw [hx] at h
    · exact Or.inr ⟨hx, ihq _ _ _ _ _ h⟩
    · exact Or.inl ⟨hx, ihp _ _ _ _ _ h⟩
  | loop p ih =>
    intro s cs t o cs' h
    exact runLoop_sound ih _ _ _ _ _ _ h
  | goto => intro s cs t o cs' h; cases h; exact ⟨rfl, rfl⟩
  | ret => intro s cs t o cs' h; cases h; exact ⟨rfl, rfl⟩
  | block p ih =>
    intro s cs t o cs' h
    unfold run at h
    cases hr : run p s cs with
    | none => rw [hr] at h; cases h
    | some r =>
      obtain ⟨u, w, c2⟩ := r
      rw [hr] at h
      have e := ih _ _ _ _ _ hr
      cases w with
      | fall => cases h; exact Or.inl ⟨rfl, Or.inl e⟩
      | jump => cases h; exact Or.inl ⟨rfl, Or.inr e⟩
      | done => cases h; exact Or.inr ⟨rfl, e⟩

/-- The trace of a run from the start. -/
def runTrace (p : Stm) (cs : List Bool) : Option (List ResEv) := (run p .start cs).map fun r => r.1.tr

theorem exec_of_run {p : Stm} {cs : List Bool} {tr : List ResEv} (h : runTrace p cs = some tr) :
    ∃ t o, Exec [] p .start t o ∧ t.tr = tr := by
  unfold runTrace at h
  cases hr : run p .start cs with
  | none => rw [hr] at h; cases h
  | some r =>
    rw [hr] at h
    obtain ⟨t, o, c⟩ := r
    exact ⟨t, o, run_sound _ _ _ _ _ _ hr, Option.some.inj h⟩

end Gost.Res
