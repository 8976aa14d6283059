import Verif.Lemmas.FiatCheck
import Mathlib.Tactic.LinearCombination

/-!
# Certified linear combinations of the statements' equations

Every statement of a program within `bounds` gives an equation between the variables.  `check` forms the combination a
certificate asks for, adds it to a given form and verifies that all terms cancel modulo `N`; hence the form is 0 modulo `N` in
every execution.
-/

namespace Gost.Fiat

/-! ## Exact values -/

/-- The value of an expression when nothing wraps around. -/
def ival (E : CEnv) : CExp → Int
  | .a i => E.a.getD i 0
  | .b i => E.b.getD i 0
  | .x n => E.x.getD (n - 1) 0
  | .c v => v
  | .add _ e f => ival E e + ival E f
  | .sub _ e f => ival E e - ival E f
  | .mul _ e f => ival E e * ival E f
  | .shr e k => ival E e / 2 ^ k
  | .shl _ e k => ival E e * 2 ^ k
  | .and e f => ((ival E e).toNat &&& (ival E f).toNat : Nat)
  | .cast _ e => ival E e

/-- `F` is `E` with more variables. -/
structure Ext (E F : CEnv) : Prop where
  a : F.a = E.a
  b : F.b = E.b
  x : ∃ vs, F.x = E.x ++ vs

theorem Ext.getX {E F : CEnv} (h : Ext E F) {n : Nat} (hn : n < E.x.length) : F.x.getD n 0 = E.x.getD n 0 := by
  obtain ⟨vs, hvs⟩ := h.x
  rw [hvs, List.getD_eq_getElem?_getD, List.getD_eq_getElem?_getD, List.getElem?_append_left hn]

theorem Ext.trans {E F G : CEnv} (h : Ext E F) (g : Ext F G) : Ext E G := by
  obtain ⟨a, b, vs, hvs⟩ := h
  obtain ⟨a', b', ws, hws⟩ := g
  exact ⟨a'.trans a, b'.trans b, vs ++ ws, by rw [hws, hvs, List.append_assoc]⟩

theorem ext_step (E : CEnv) (s : CStmt) : Ext E (s.step E) := ⟨rfl, rfl, s.vals E, rfl⟩

theorem ext_run (code : List CStmt) (E : CEnv) : Ext E (code.foldl CStmt.step E) := by
  obtain ⟨vs, hvs⟩ := run_ext code E
  rw [hvs]; exact ⟨rfl, rfl, vs, rfl⟩

theorem ival_ext {E F : CEnv} {I : IEnv} (h : Mem E I) (hx : Ext E F) : ∀ (e : CExp) (p : Nat × Nat), iv I e = some p →
    ival F e = (e.val E : Int) := by
  intro e
  induction e with
  | a i => intro p hp; simp only [ival, CExp.val, hx.a]
  | b i => intro p hp; simp only [ival, CExp.val, hx.b]
  | x n =>
    intro p hp
    simp only [iv, IEnv.getX_eq] at hp
    split at hp
    · rename_i hn
      simp only [ival, CExp.val]
      rw [hx.getX (by rw [h.n]; omega)]
    · cases hp
  | c v => intro p hp; rfl
  | add w e f ihe ihf =>
    intro p hp
    have hs := iv_sound h _ p hp
    simp only [iv, Option.bind_eq_some_iff, cond_eq_ite, Nat.blt_eq, Nat.ble_eq, Nat.beq_eq, Bool.and_eq_true, mk2_eq] at hp
    obtain ⟨q, hq, r, hr, hp⟩ := hp
    split at hp
    · rename_i hb
      have h1 := iv_sound h e q hq; have h2 := iv_sound h f r hr
      simp only [ival, CExp.val, ihe q hq, ihf r hr]
      rw [Nat.mod_eq_of_lt (by omega)]; push_cast; rfl
    · cases hp
  | sub w e f ihe ihf =>
    intro p hp
    simp only [iv, Option.bind_eq_some_iff, cond_eq_ite, Nat.blt_eq, Nat.ble_eq, Nat.beq_eq, Bool.and_eq_true, mk2_eq] at hp
    obtain ⟨q, hq, r, hr, hp⟩ := hp
    split at hp
    · rename_i hb
      have h1 := iv_sound h e q hq; have h2 := iv_sound h f r hr
      simp only [ival, CExp.val, ihe q hq, ihf r hr]
      rw [Nat.mod_eq_of_lt (show f.val E < 2 ^ w by omega)]
      rw [show e.val E + (2 ^ w - f.val E) = (e.val E - f.val E) + 2 ^ w by omega, Nat.add_mod_right, Nat.mod_eq_of_lt (by omega)]
      omega
    · cases hp
  | mul w e f ihe ihf =>
    intro p hp
    simp only [iv, Option.bind_eq_some_iff, cond_eq_ite, Nat.blt_eq, Nat.ble_eq, Nat.beq_eq, Bool.and_eq_true, mk2_eq] at hp
    obtain ⟨q, hq, r, hr, hp⟩ := hp
    split at hp
    · rename_i hb
      have h1 := iv_sound h e q hq; have h2 := iv_sound h f r hr
      have hu := Nat.mul_le_mul h1.2 h2.2
      simp only [ival, CExp.val, ihe q hq, ihf r hr]
      rw [Nat.mod_eq_of_lt (by omega)]; push_cast; rfl
    · cases hp
  | shr e k ihe =>
    intro p hp
    simp only [iv, Option.bind_eq_some_iff, cond_eq_ite, Nat.blt_eq, Nat.ble_eq, Nat.beq_eq, Bool.and_eq_true, mk2_eq] at hp
    obtain ⟨q, hq, hp⟩ := hp
    simp only [ival, CExp.val, ihe q hq]; push_cast; rfl
  | shl w e k ihe =>
    intro p hp
    simp only [iv, Option.bind_eq_some_iff, cond_eq_ite, Nat.blt_eq, Nat.ble_eq, Nat.beq_eq, Bool.and_eq_true, mk2_eq] at hp
    obtain ⟨q, hq, hp⟩ := hp
    split at hp
    · rename_i hb
      have h1 := iv_sound h e q hq
      have hu := Nat.mul_le_mul_right (2 ^ k) h1.2
      simp only [ival, CExp.val, ihe q hq]
      rw [Nat.mod_eq_of_lt (by omega)]; push_cast; rfl
    · cases hp
  | and e f ihe ihf =>
    intro p hp
    simp only [iv, Option.bind_eq_some_iff, cond_eq_ite, Nat.blt_eq, Nat.ble_eq, Nat.beq_eq, Bool.and_eq_true, mk2_eq] at hp
    obtain ⟨q, hq, r, hr, hp⟩ := hp
    simp only [ival, CExp.val, ihe q hq, ihf r hr, Int.toNat_natCast]
  | cast w e ihe =>
    intro p hp
    simp only [iv, Option.bind_eq_some_iff, cond_eq_ite, Nat.blt_eq, Nat.ble_eq, Nat.beq_eq, Bool.and_eq_true, mk2_eq] at hp
    obtain ⟨q, hq, hp⟩ := hp
    split at hp
    · rename_i hb
      have h1 := iv_sound h e q hq
      simp only [ival, CExp.val, ihe q hq]
      rw [Nat.mod_eq_of_lt (by omega)]
    · cases hp

/-! ## Terms -/

/-- Atoms are numbered: 0 is the constant 1, then four interleaved sequences for `arg1`, `arg2`, the variables and the
quotients of those by powers of two. -/
def rho (E : CEnv) (c : Nat) : Int :=
  if c = 0 then 1
  else if (c - 1) % 4 = 0 then E.a.getD ((c - 1) / 4) 0
  else if (c - 1) % 4 = 1 then E.b.getD ((c - 1) / 4) 0
  else if (c - 1) % 4 = 2 then E.x.getD ((c - 1) / 4 - 1) 0
  else
    (if (c - 1) / 4 / 256 % 3 = 0 then (E.a.getD ((c - 1) / 4 / 256 / 3) 0 : Int)
      else if (c - 1) / 4 / 256 % 3 = 1 then (E.b.getD ((c - 1) / 4 / 256 / 3) 0 : Int)
      else (E.x.getD ((c - 1) / 4 / 256 / 3 - 1) 0 : Int)) / 2 ^ ((c - 1) / 4 % 256)

theorem rho_zero (E : CEnv) : rho E 0 = 1 := rfl
theorem rho_a (E : CEnv) (i : Nat) : rho E (1 + 4 * i) = E.a.getD i 0 := by
  rw [rho, if_neg (by omega), if_pos (by omega), show (1 + 4 * i - 1) / 4 = i by omega]
theorem rho_b (E : CEnv) (i : Nat) : rho E (2 + 4 * i) = E.b.getD i 0 := by
  rw [rho, if_neg (by omega), if_neg (by omega), if_pos (by omega), show (2 + 4 * i - 1) / 4 = i by omega]
theorem rho_x (E : CEnv) (n : Nat) : rho E (3 + 4 * n) = E.x.getD (n - 1) 0 := by
  rw [rho, if_neg (by omega), if_neg (by omega), if_neg (by omega), if_pos (by omega), show (3 + 4 * n - 1) / 4 = n by omega]

/-- The atom of a variable. -/
def atomOf : CExp → Option Nat
  | .a i => some (1 + 4 * i)
  | .b i => some (2 + 4 * i)
  | .x n => some (3 + 4 * n)
  | _ => none

/-- The atom of `e / 2 ^ k`. -/
def quotOf (e : CExp) (k : Nat) : Option Nat :=
  if k < 256 then
    match e with
    | .a i => some (4 + 4 * ((3 * i) * 256 + k))
    | .b i => some (4 + 4 * ((3 * i + 1) * 256 + k))
    | .x n => some (4 + 4 * ((3 * n + 2) * 256 + k))
    | _ => none
  else none

theorem atomOf_sound {E : CEnv} {e : CExp} {t : Nat} (h : atomOf e = some t) : rho E t = ival E e := by
  cases e <;> simp only [atomOf, Option.some.injEq, reduceCtorEq] at h <;> subst h
  · exact rho_a _ _
  · exact rho_b _ _
  · exact rho_x _ _

theorem quotOf_sound {E : CEnv} {e : CExp} {k t : Nat} (h : quotOf e k = some t) : rho E t = ival E e / 2 ^ k := by
  unfold quotOf at h
  split at h
  · rename_i hk
    have key : ∀ j, (4 + 4 * (j * 256 + k) - 1) % 4 = 3 ∧ (4 + 4 * (j * 256 + k) - 1) / 4 / 256 = j ∧ (4 + 4 * (j * 256 + k) - 1) / 4 % 256 = k := by
      intro j; omega
    cases e <;> simp only [Option.some.injEq, reduceCtorEq] at h <;> subst h
    · rename_i i
      obtain ⟨h1, h2, h3⟩ := key (3 * i)
      rw [rho, h1, h2, h3, if_neg (by omega), if_neg (by omega), if_neg (by omega), if_neg (by omega), if_pos (by omega),
        show 3 * i / 3 = i by omega]
      rfl
    · rename_i i
      obtain ⟨h1, h2, h3⟩ := key (3 * i + 1)
      rw [rho, h1, h2, h3, if_neg (by omega), if_neg (by omega), if_neg (by omega), if_neg (by omega), if_neg (by omega), if_pos (by omega),
        show (3 * i + 1) / 3 = i by omega]
      rfl
    · rename_i i
      obtain ⟨h1, h2, h3⟩ := key (3 * i + 2)
      rw [rho, h1, h2, h3, if_neg (by omega), if_neg (by omega), if_neg (by omega), if_neg (by omega), if_neg (by omega), if_neg (by omega),
        show (3 * i + 2) / 3 = i by omega]
      rfl
  · cases h

/-- Sums of terms: a product of two atoms (`key`) times `pos - neg`. -/
inductive Poly
  | nil
  | cons (key pos neg : Nat) (t : Poly)

def mono (E : CEnv) (key : Nat) : Int := rho E (key / 2 ^ 40) * rho E (key % 2 ^ 40)

def Poly.eval (E : CEnv) : Poly → Int
  | .nil => 0
  | .cons key pos neg t => ((pos : Int) - neg) * mono E key + t.eval E

/-- The signed number. -/
def sgn (s : Bool) (c : Nat) : Int := if s then -(c : Int) else c

/-- Add a term. -/
def put (s : Bool) (c u v : Nat) (acc : Poly) : Option Poly :=
  bif Nat.blt u (2 ^ 40) && Nat.blt v (2 ^ 40) then
    forceN (bif Nat.blt u v then v * 2 ^ 40 + u else u * 2 ^ 40 + v) fun key => forceN c fun c =>
      some (match s with | true => .cons key 0 c acc | false => .cons key c 0 acc)
  else none

theorem put_sound {E : CEnv} {s : Bool} {c u v : Nat} {acc acc' : Poly} (h : put s c u v acc = some acc') :
    acc'.eval E = acc.eval E + sgn s c * (rho E u * rho E v) := by
  unfold put at h
  simp only [cond_eq_ite, Nat.blt_eq, Bool.and_eq_true] at h
  split at h
  · rename_i hb
    simp only [forceN_eq] at h
    obtain rfl := Option.some.inj h
    have hm : mono E (if u < v then v * 2 ^ 40 + u else u * 2 ^ 40 + v) = rho E u * rho E v := by
      unfold mono
      split
      · rw [show (v * 2 ^ 40 + u) / 2 ^ 40 = v by omega, show (v * 2 ^ 40 + u) % 2 ^ 40 = u by omega, mul_comm]
      · rw [show (u * 2 ^ 40 + v) / 2 ^ 40 = u by omega, show (u * 2 ^ 40 + v) % 2 ^ 40 = v by omega]
    cases s <;> simp only [Poly.eval, hm, sgn] <;> push_cast <;> simp <;> ring
  · cases h

/-- The value of a constant. -/
def constOf : CExp → Option Nat
  | .c v => some v
  | _ => none

/-- A constant value forced by the intervals. -/
def single (p : Option (Nat × Nat)) : Option Nat := p.bind fun p => bif Nat.beq p.1 p.2 then some p.1 else none

/-- Add `sgn s c * cof * e` to `acc`. -/
noncomputable def go (I : IEnv) : CExp → Nat → Bool → Nat → Poly → Option Poly
  | .a i, cof, s, c, acc => put s c (1 + 4 * i) cof acc
  | .b i, cof, s, c, acc => put s c (2 + 4 * i) cof acc
  | .x n, cof, s, c, acc => put s c (3 + 4 * n) cof acc
  | .c v, cof, s, c, acc => put s (c * v) 0 cof acc
  | .add _ e f, cof, s, c, acc => (go I e cof s c acc).bind fun acc => go I f cof s c acc
  | .sub _ e f, cof, s, c, acc => (go I e cof s c acc).bind fun acc => go I f cof (!s) c acc
  | .mul _ e f, cof, s, c, acc =>
    (constOf e).elim
      ((constOf f).elim
        (bif Nat.beq cof 0 then (atomOf e).bind fun t => go I f t s c acc else none)
        fun v => go I e cof s (c * v) acc)
      fun v => go I f cof s (c * v) acc
  | .shr e k, cof, s, c, acc => (quotOf e k).bind fun t => put s c t cof acc
  | .shl _ e k, cof, s, c, acc => go I e cof s (c * 2 ^ k) acc
  | .and e f, cof, s, c, acc =>
    (single (iv I (.and e f))).elim
      ((constOf f).bind fun m =>
        if m + 1 = 2 ^ Nat.log2 (m + 1) then
          (atomOf e).bind fun t => (quotOf e (Nat.log2 (m + 1))).bind fun q =>
            (put s c t cof acc).bind fun acc => put (!s) (c * (m + 1)) q cof acc
        else none)
      fun v => put s (c * v) 0 cof acc
  | .cast _ e, cof, s, c, acc => go I e cof s c acc

theorem sgn_not (s : Bool) (c : Nat) : sgn (!s) c = -sgn s c := by cases s <;> simp [sgn]
theorem sgn_mul (s : Bool) (c v : Nat) : sgn s (c * v) = sgn s c * v := by cases s <;> simp [sgn]

theorem constOf_sound {e : CExp} {v : Nat} (h : constOf e = some v) : e = .c v := by
  cases e <;> simp only [constOf, Option.some.injEq, reduceCtorEq] at h; subst h; rfl

theorem atom_nonneg {E : CEnv} {e : CExp} {t : Nat} (h : atomOf e = some t) : 0 ≤ ival E e := by
  cases e <;> simp only [atomOf, Option.some.injEq, reduceCtorEq] at h <;> simp only [ival] <;> exact Int.natCast_nonneg _

theorem go_sound {E F : CEnv} {I : IEnv} (h : Mem E I) (hx : Ext E F) : ∀ (e : CExp) (cof : Nat) (s : Bool) (c : Nat) (acc acc' : Poly),
    go I e cof s c acc = some acc' → acc'.eval F = acc.eval F + sgn s c * (rho F cof * ival F e) := by
  intro e
  induction e with
  | a i => intro cof s c acc acc' hg; rw [go] at hg; rw [put_sound hg, rho_a, mul_comm (rho F cof)]; rfl
  | b i => intro cof s c acc acc' hg; rw [go] at hg; rw [put_sound hg, rho_b, mul_comm (rho F cof)]; rfl
  | x i => intro cof s c acc acc' hg; rw [go] at hg; rw [put_sound hg, rho_x, mul_comm (rho F cof)]; rfl
  | c v =>
    intro cof s c acc acc' hg; rw [go] at hg
    rw [put_sound hg, rho_zero, sgn_mul]; simp only [ival]; ring
  | add w e f ihe ihf =>
    intro cof s c acc acc' hg
    simp only [go, Option.bind_eq_some_iff] at hg
    obtain ⟨a1, h1, h2⟩ := hg
    rw [ihf _ _ _ _ _ h2, ihe _ _ _ _ _ h1]; simp only [ival]; ring
  | sub w e f ihe ihf =>
    intro cof s c acc acc' hg
    simp only [go, Option.bind_eq_some_iff] at hg
    obtain ⟨a1, h1, h2⟩ := hg
    rw [ihf _ _ _ _ _ h2, ihe _ _ _ _ _ h1, sgn_not]; simp only [ival]; ring
  | mul w e f ihe ihf =>
    intro cof s c acc acc' hg
    simp only [go] at hg
    cases he : constOf e with
    | some v =>
      rw [he, Option.elim] at hg
      obtain rfl := constOf_sound he
      rw [ihf _ _ _ _ _ hg, sgn_mul]; simp only [ival]; ring
    | none =>
      rw [he, Option.elim] at hg
      cases hf : constOf f with
      | some v =>
        rw [hf, Option.elim] at hg
        obtain rfl := constOf_sound hf
        rw [ihe _ _ _ _ _ hg, sgn_mul]; simp only [ival]; ring
      | none =>
        rw [hf, Option.elim] at hg
        simp only [cond_eq_ite, Nat.beq_eq] at hg
        split at hg
        · rename_i h0
          subst h0
          simp only [Option.bind_eq_some_iff] at hg
          obtain ⟨t, ht, hg⟩ := hg
          rw [ihf _ _ _ _ _ hg, atomOf_sound ht, rho_zero]; simp only [ival]; ring
        · cases hg
  | shr e k ihe =>
    intro cof s c acc acc' hg
    simp only [go, Option.bind_eq_some_iff] at hg
    obtain ⟨t, ht, hg⟩ := hg
    rw [put_sound hg, quotOf_sound ht]; simp only [ival]; ring
  | shl w e k ihe =>
    intro cof s c acc acc' hg
    rw [go] at hg
    rw [ihe _ _ _ _ _ hg, sgn_mul]; simp only [ival]; push_cast; ring
  | and e f ihe ihf =>
    intro cof s c acc acc' hg
    simp only [go] at hg
    cases hs : single (iv I (.and e f)) with
    | some v =>
      rw [hs, Option.elim] at hg
      simp only [single, Option.bind_eq_some_iff, cond_eq_ite, Nat.beq_eq] at hs
      obtain ⟨p, hp, hs⟩ := hs
      split at hs
      · rename_i hpp
        obtain rfl := Option.some.inj hs
        have h1 := iv_sound h _ p hp
        have h2 := ival_ext h hx _ p hp
        have h3 : (CExp.and e f).val E = p.1 := by omega
        rw [put_sound hg, h2, h3, sgn_mul, rho_zero]; ring
      · cases hs
    | none =>
      rw [hs, Option.elim] at hg
      simp only [Option.bind_eq_some_iff] at hg
      obtain ⟨m, hm, hg⟩ := hg
      split at hg
      · rename_i hk
        simp only [Option.bind_eq_some_iff] at hg
        obtain ⟨t, ht, q, hq, a1, hp1, hp2⟩ := hg
        obtain rfl := constOf_sound hm
        rw [put_sound hp2, put_sound hp1, sgn_not, sgn_mul, atomOf_sound ht, quotOf_sound hq]
        have hn := atom_nonneg (E := F) ht
        simp only [ival, Int.toNat_natCast]
        obtain ⟨z, hz⟩ := Int.eq_ofNat_of_zero_le hn
        rw [hz, Int.toNat_natCast]
        generalize hkk : Nat.log2 (m + 1) = k at *
        have hmm : m = 2 ^ k - 1 := by omega
        rw [hmm, land_mask]
        have h4 := Nat.mod_add_div z (2 ^ k)
        have h5 : ((z % 2 ^ k : Nat) : Int) = (z : Int) - 2 ^ k * ((z : Int) / 2 ^ k) := by
          have : (z : Int) = ((z % 2 ^ k + 2 ^ k * (z / 2 ^ k) : Nat) : Int) := by rw [h4]
          push_cast at this ⊢
          linarith
        rw [h5]
        have h6 : ((2 ^ k - 1 + 1 : Nat) : Int) = 2 ^ k := by
          rw [Nat.sub_add_cancel Nat.one_le_two_pow]; push_cast; rfl
        rw [h6]; ring
      · cases hg
  | cast w e ihe =>
    intro cof s c acc acc' hg
    rw [go] at hg
    rw [ihe _ _ _ _ _ hg]; rfl

/-! ## Using the equations -/

/-- One use of the equation (`kind = 0`) of statement `st`, or of the fact that its first or second variable has a constant value. -/
noncomputable def useEnt (I J : IEnv) (st : CStmt) (kind cof : Nat) (s : Bool) (c : Nat) (acc : Poly) : Option Poly :=
  bif Nat.beq kind 0 then
    match st with
    | .set e => (go I (.x (I.n + 1)) cof (!s) c acc).bind fun acc => go I e cof s c acc
    | .adc _ u d e f => (go I (.x (I.n + 1)) cof (!s) c acc).bind fun acc => (go I (.x (I.n + 2)) cof (!s) (c * 2 ^ u) acc).bind fun acc =>
      (go I d cof s c acc).bind fun acc => (go I e cof s c acc).bind fun acc => go I f cof s c acc
    | .sbb _ u d e f => (go I (.x (I.n + 1)) cof (!s) c acc).bind fun acc => (go I (.x (I.n + 2)) cof s (c * 2 ^ u) acc).bind fun acc =>
      (go I d cof (!s) c acc).bind fun acc => (go I e cof s c acc).bind fun acc => go I f cof (!s) c acc
    | .mulx u e f => (go I (.x (I.n + 1)) cof (!s) c acc).bind fun acc => (go I (.x (I.n + 2)) cof (!s) (c * 2 ^ u) acc).bind fun acc =>
      go I (.mul 0 e f) cof s c acc
    | .cmov _ d e f => (go I (.x (I.n + 1)) cof (!s) c acc).bind fun acc => (iv I d).bind fun p =>
      bif Nat.beq p.2 0 then go I e cof s c acc else bif Nat.ble 1 p.1 then go I f cof s c acc else none
  else
    (single (J.getX (I.n + kind))).bind fun v => (go I (.x (I.n + kind)) cof (!s) c acc).bind fun acc => put s (c * v) 0 cof acc

theorem x_val {E F : CEnv} {vs : List Nat} (hx : Ext { E with x := E.x ++ vs } F) {j : Nat} (hj : j < vs.length) {n : Nat} (hn : n = E.x.length) :
    ival F (.x (n + (j + 1))) = (vs.getD j 0 : Int) := by
  simp only [ival]
  rw [show n + (j + 1) - 1 = n + j by omega, hx.getX (by simp; omega), hn]
  simp [List.getD_eq_getElem?_getD, List.getElem?_append_right]

theorem useEnt_sound {as : List (Nat × Nat)} {E F : CEnv} {I J : IEnv} (h : Mem E I) {st : CStmt} (hJ : ivStep as I st = some J)
    (hm : Mem (st.step E) J) (hx : Ext (st.step E) F) {kind cof : Nat} {s : Bool} {c : Nat} {acc acc' : Poly}
    (hu : useEnt I J st kind cof s c acc = some acc') : acc'.eval F = acc.eval F := by
  have hEF : Ext E F := (ext_step E st).trans hx
  unfold useEnt at hu
  rw [cond_eq_ite] at hu
  split at hu
  · simp only [ivStep, Option.bind_eq_some_iff] at hJ
    obtain ⟨l, hl, -⟩ := hJ
    have hf := ivStmt_fact h st l hl
    have hx' : Ext { E with x := E.x ++ st.vals E } F := hx
    generalize st.vals E = vs at hf hx'
    cases st with
    | set e =>
      simp only [stmtFact] at hf
      subst hf
      simp only [Option.bind_eq_some_iff] at hu
      obtain ⟨a1, h1, h2⟩ := hu
      simp only [ivStmt, Option.bind_eq_some_iff, forceN_eq, cond_eq_ite, Nat.blt_eq, Nat.ble_eq, Nat.beq_eq, Bool.and_eq_true] at hl
      obtain ⟨p, hp, hl⟩ := hl
      rw [go_sound h hEF _ _ _ _ _ _ h2, go_sound h hEF _ _ _ _ _ _ h1, ival_ext h hEF e p hp, sgn_not,
        x_val (j := 0) hx' (by simp) h.n.symm]
      simp
    | adc hh u d e f =>
      obtain ⟨y, z, rfl, -, hyz⟩ := hf
      simp only [Option.bind_eq_some_iff] at hu
      obtain ⟨a1, h1, a2, h2, a3, h3, a4, h4, h5⟩ := hu
      simp only [ivStmt, Option.bind_eq_some_iff, forceN_eq, cond_eq_ite, Nat.blt_eq, Nat.ble_eq, Nat.beq_eq, Bool.and_eq_true] at hl
      obtain ⟨p, hp, q, hq, r, hr, hl⟩ := hl
      rw [go_sound h hEF _ _ _ _ _ _ h5, go_sound h hEF _ _ _ _ _ _ h4, go_sound h hEF _ _ _ _ _ _ h3, go_sound h hEF _ _ _ _ _ _ h2,
        go_sound h hEF _ _ _ _ _ _ h1, ival_ext h hEF d p hp, ival_ext h hEF e q hq, ival_ext h hEF f r hr, sgn_not, sgn_not, sgn_mul,
        x_val (j := 0) hx' (by simp) h.n.symm, x_val (j := 1) hx' (by simp) h.n.symm]
      have : (y : Int) + 2 ^ u * z = d.val E + e.val E + f.val E := by exact_mod_cast hyz
      simp only [List.getD_cons_zero, List.getD_cons_succ]
      push_cast
      linear_combination (-(sgn s c) * rho F cof) * this
    | sbb hh u d e f =>
      obtain ⟨y, z, rfl, -, -, hyz⟩ := hf
      simp only [Option.bind_eq_some_iff] at hu
      obtain ⟨a1, h1, a2, h2, a3, h3, a4, h4, h5⟩ := hu
      simp only [ivStmt, Option.bind_eq_some_iff, forceN_eq, cond_eq_ite, Nat.blt_eq, Nat.ble_eq, Nat.beq_eq, Bool.and_eq_true] at hl
      obtain ⟨p, hp, q, hq, r, hr, hl⟩ := hl
      rw [go_sound h hEF _ _ _ _ _ _ h5, go_sound h hEF _ _ _ _ _ _ h4, go_sound h hEF _ _ _ _ _ _ h3, go_sound h hEF _ _ _ _ _ _ h2,
        go_sound h hEF _ _ _ _ _ _ h1, ival_ext h hEF d p hp, ival_ext h hEF e q hq, ival_ext h hEF f r hr, sgn_not, sgn_mul,
        x_val (j := 0) hx' (by simp) h.n.symm, x_val (j := 1) hx' (by simp) h.n.symm]
      simp only [List.getD_cons_zero, List.getD_cons_succ]
      push_cast
      linear_combination (-(sgn s c) * rho F cof) * hyz
    | mulx u e f =>
      obtain ⟨y, z, rfl, -, hyz⟩ := hf
      simp only [Option.bind_eq_some_iff] at hu
      obtain ⟨a1, h1, a2, h2, h3⟩ := hu
      simp only [ivStmt, Option.bind_eq_some_iff, forceN_eq, cond_eq_ite, Nat.blt_eq, Nat.ble_eq, Nat.beq_eq, Bool.and_eq_true] at hl
      obtain ⟨q, hq, r, hr, hl⟩ := hl
      rw [go_sound h hEF _ _ _ _ _ _ h3, go_sound h hEF _ _ _ _ _ _ h2, go_sound h hEF _ _ _ _ _ _ h1]
      rw [show ival F (.mul 0 e f) = ival F e * ival F f from rfl, ival_ext h hEF e q hq, ival_ext h hEF f r hr, sgn_not, sgn_not, sgn_mul,
        x_val (j := 0) hx' (by simp) h.n.symm, x_val (j := 1) hx' (by simp) h.n.symm]
      have : (y : Int) + 2 ^ u * z = e.val E * f.val E := by exact_mod_cast hyz
      simp only [List.getD_cons_zero, List.getD_cons_succ]
      push_cast
      linear_combination (-(sgn s c) * rho F cof) * this
    | cmov w d e f =>
      simp only [stmtFact] at hf
      subst hf
      simp only [Option.bind_eq_some_iff] at hu
      obtain ⟨a1, h1, p, hp, h2⟩ := hu
      simp only [ivStmt, Option.bind_eq_some_iff, forceN_eq, cond_eq_ite, Nat.blt_eq, Nat.ble_eq, Nat.beq_eq, Bool.and_eq_true] at hl
      obtain ⟨p', hp', q, hq, r, hr, hl⟩ := hl
      have hd := iv_sound h d p hp
      simp only [cond_eq_ite, Nat.beq_eq, Nat.ble_eq] at h2
      split at h2
      · rw [go_sound h hEF _ _ _ _ _ _ h2, go_sound h hEF _ _ _ _ _ _ h1, ival_ext h hEF e q hq, sgn_not,
          x_val (j := 0) hx' (by simp) h.n.symm, if_pos (by omega)]
        simp
      · split at h2
        · rw [go_sound h hEF _ _ _ _ _ _ h2, go_sound h hEF _ _ _ _ _ _ h1, ival_ext h hEF f r hr, sgn_not,
            x_val (j := 0) hx' (by simp) h.n.symm, if_neg (by omega)]
          simp
        · cases h2
  · simp only [Option.bind_eq_some_iff, single, cond_eq_ite, Nat.beq_eq] at hu
    obtain ⟨v, ⟨p, hp, hv⟩, a1, h1, h2⟩ := hu
    split at hv
    · rename_i hpp
      obtain rfl := Option.some.inj hv
      have h3 := hm.x _ p hp
      rw [put_sound h2, go_sound h hEF _ _ _ _ _ _ h1, sgn_not, sgn_mul, rho_zero]
      have hlt : I.n + kind - 1 < (st.step E).x.length := by
        simp only [IEnv.getX_eq] at hp
        split at hp
        · rename_i hk
          rw [hm.n]; omega
        · cases hp
      have h4 : ival F (.x (I.n + kind)) = p.1 := by
        simp only [ival]
        rw [hx.getX hlt]
        exact_mod_cast (show _ = p.1 by omega)
      rw [h4]; ring
    · cases hv

/-- The uses of statement number `i`: entries `i + 2^16 kind + 2^18 sign + 2^20 cof + 2^40 coef`. -/
noncomputable def useAll (I J : IEnv) (st : CStmt) (i : Nat) : List Nat → Poly → Option (List Nat × Poly)
  | [], acc => some ([], acc)
  | t :: ts, acc =>
    bif Nat.beq (t % 2 ^ 16) i then
      (useEnt I J st (t / 2 ^ 16 % 4) (t / 2 ^ 20 % 2 ^ 20) (Nat.beq (t / 2 ^ 18 % 2) 1) (t / 2 ^ 40) acc).bind fun acc => useAll I J st i ts acc
    else some (t :: ts, acc)

theorem useAll_sound {as : List (Nat × Nat)} {E F : CEnv} {I J : IEnv} (h : Mem E I) {st : CStmt} (hJ : ivStep as I st = some J)
    (hm : Mem (st.step E) J) (hx : Ext (st.step E) F) {i : Nat} : ∀ (cert : List Nat) (acc : Poly) (r : List Nat × Poly),
    useAll I J st i cert acc = some r → r.2.eval F = acc.eval F := by
  intro cert
  induction cert with
  | nil => intro acc r hr; obtain rfl := Option.some.inj hr; rfl
  | cons t ts ih =>
    intro acc r hr
    rw [useAll, cond_eq_ite] at hr
    split at hr
    · simp only [Option.bind_eq_some_iff] at hr
      obtain ⟨a1, h1, h2⟩ := hr
      rw [ih _ _ h2, useEnt_sound h hJ hm hx h1]
    · obtain rfl := Option.some.inj hr; rfl

/-- `k I`, with `I` evaluated first. -/
def forceE {α : Type} (I : IEnv) (k : IEnv → α) : α := match I with | ⟨a, b, x, n⟩ => k ⟨a, b, x, n⟩

theorem forceE_eq {α : Type} (I : IEnv) (k : IEnv → α) : forceE I k = k I := by cases I; rfl

/-- Run through the program, computing intervals and collecting terms. -/
noncomputable def walk (as : List (Nat × Nat)) : List CStmt → Nat → IEnv → List Nat → Poly → Option (IEnv × Poly)
  | [], _, I, _, acc => some (I, acc)
  | st :: code, i, I, cert, acc => (ivStep as I st).bind fun J => forceE J fun J => (useAll I J st i cert acc).bind fun r =>
    forceN (i + 1) fun i => walk as code i J r.1 r.2

theorem walk_sound {as : List (Nat × Nat)} : ∀ (code : List CStmt) (i : Nat) (E : CEnv) (I : IEnv) (cert : List Nat) (acc : Poly) (r : IEnv × Poly),
    Mem E I → walk as code i I cert acc = some r → Holds as (code.foldl CStmt.step E) →
    Mem (code.foldl CStmt.step E) r.1 ∧ r.2.eval (code.foldl CStmt.step E) = acc.eval (code.foldl CStmt.step E) := by
  intro code
  induction code with
  | nil => intro i E I cert acc r h hw _; obtain rfl := Option.some.inj hw; exact ⟨h, rfl⟩
  | cons st code ih =>
    intro i E I cert acc r h hw ha
    simp only [walk, Option.bind_eq_some_iff, forceE_eq, forceN_eq] at hw
    obtain ⟨J, hJ, q, hq, hw⟩ := hw
    have hm : Mem (st.step E) J := ivStep_mem h st hJ (Holds.mono (code := code) ha)
    obtain ⟨h1, h2⟩ := ih _ _ _ _ _ _ hm hw ha
    refine ⟨h1, ?_⟩
    rw [List.foldl_cons, h2]
    exact useAll_sound h hJ hm (ext_run code _) _ _ _ hq

/-! ## Sorting -/

noncomputable def Poly.rev (p : Poly) : Poly → Poly :=
  Poly.rec (motive := fun _ => Poly → Poly) (fun acc => acc) (fun k p n _ ih acc => ih (.cons k p n acc)) p

/-- The inner loop of `mergeR`. -/
noncomputable def Poly.mergeIn (lt : Bool) (k p n : Nat) (cont : Poly → Poly → Poly) (ys : Poly) : Poly → Poly :=
  Poly.rec (motive := fun _ => Poly → Poly) (fun acc => cont .nil (.cons k p n acc))
    (fun k' p' n' ys ih acc =>
      Bool.rec
        (Bool.rec (ih (.cons k' p' n' acc)) (cont (.cons k' p' n' ys) (.cons k p n acc)) (xor (Nat.blt k k') lt))
        (forceN (Nat.add p p') fun p'' => forceN (Nat.add n n') fun n'' => cont ys (.cons k p'' n'' acc))
        (Nat.beq k k')) ys

/-- Merge two lists sorted by key; the result is in reverse order. -/
noncomputable def Poly.mergeR (lt : Bool) (xs : Poly) : Poly → Poly → Poly :=
  Poly.rec (motive := fun _ => Poly → Poly → Poly) (fun ys acc => ys.rev acc) (fun k p n _ ih ys acc => Poly.mergeIn lt k p n ih ys acc) xs

theorem Poly.rev_nil (acc : Poly) : Poly.nil.rev acc = acc := rfl
theorem Poly.rev_cons (k p n : Nat) (t acc : Poly) : (Poly.cons k p n t).rev acc = t.rev (.cons k p n acc) := rfl
theorem Poly.mergeIn_nil (lt : Bool) (k p n : Nat) (cont : Poly → Poly → Poly) (acc : Poly) :
    Poly.mergeIn lt k p n cont .nil acc = cont .nil (.cons k p n acc) := rfl
theorem Poly.mergeIn_cons (lt : Bool) (k p n : Nat) (cont : Poly → Poly → Poly) (k' p' n' : Nat) (ys acc : Poly) :
    Poly.mergeIn lt k p n cont (.cons k' p' n' ys) acc = if k = k' then cont ys (.cons k (p + p') (n + n') acc)
      else if xor (Nat.blt k k') lt then cont (.cons k' p' n' ys) (.cons k p n acc)
      else Poly.mergeIn lt k p n cont ys (.cons k' p' n' acc) := by
  have h : Poly.mergeIn lt k p n cont (.cons k' p' n' ys) acc =
      Bool.rec
        (Bool.rec (Poly.mergeIn lt k p n cont ys (.cons k' p' n' acc)) (cont (.cons k' p' n' ys) (.cons k p n acc)) (xor (Nat.blt k k') lt))
        (forceN (Nat.add p p') fun p'' => forceN (Nat.add n n') fun n'' => cont ys (.cons k p'' n'' acc))
        (Nat.beq k k') := rfl
  rw [h]
  by_cases hk : k = k'
  · rw [if_pos hk, show Nat.beq k k' = true by simpa using hk]
    simp only [forceN_eq]; rfl
  · rw [if_neg hk, show Nat.beq k k' = false from Bool.eq_false_iff.2 (fun h => hk (Nat.eq_of_beq_eq_true h))]
    cases xor (Nat.blt k k') lt <;> rfl
theorem Poly.mergeR_nil (lt : Bool) (ys acc : Poly) : Poly.mergeR lt .nil ys acc = ys.rev acc := rfl
theorem Poly.mergeR_cons (lt : Bool) (k p n : Nat) (xs ys acc : Poly) :
    Poly.mergeR lt (.cons k p n xs) ys acc = Poly.mergeIn lt k p n (Poly.mergeR lt xs) ys acc := rfl

theorem Poly.rev_eval (E : CEnv) : ∀ (p acc : Poly), (p.rev acc).eval E = p.eval E + acc.eval E := by
  intro p
  induction p with
  | nil => intro acc; simp [Poly.rev_nil, Poly.eval]
  | cons k a b t ih => intro acc; rw [Poly.rev_cons, ih]; simp only [Poly.eval]; ring

theorem Poly.mergeIn_eval (E : CEnv) (lt : Bool) (k p n : Nat) (cont : Poly → Poly → Poly) (z : Int)
    (hc : ∀ ys acc, (cont ys acc).eval E = z + ys.eval E + acc.eval E) : ∀ (ys acc : Poly),
    (Poly.mergeIn lt k p n cont ys acc).eval E = ((p : Int) - n) * mono E k + z + ys.eval E + acc.eval E := by
  intro ys
  induction ys with
  | nil => intro acc; rw [Poly.mergeIn_nil, hc]; simp only [Poly.eval]; ring
  | cons k' p' n' t ih =>
    intro acc
    rw [Poly.mergeIn_cons]
    split
    · rename_i hk
      subst hk
      rw [hc]; simp only [Poly.eval]; push_cast; ring
    · split
      · rw [hc]; simp only [Poly.eval]; ring
      · rw [ih]; simp only [Poly.eval]; ring

theorem Poly.mergeR_eval (E : CEnv) (lt : Bool) : ∀ (xs ys acc : Poly), (Poly.mergeR lt xs ys acc).eval E = xs.eval E + ys.eval E + acc.eval E := by
  intro xs
  induction xs with
  | nil => intro ys acc; rw [Poly.mergeR_nil, Poly.rev_eval]; simp only [Poly.eval]; ring
  | cons k p n t ih =>
    intro ys acc
    rw [Poly.mergeR_cons, Poly.mergeIn_eval E lt k p n _ (t.eval E) ih]; simp only [Poly.eval]

/-- A list of polynomials. -/
inductive Polys
  | nil
  | cons (p : Poly) (t : Polys)

def Polys.eval (E : CEnv) : Polys → Int
  | .nil => 0
  | .cons p t => p.eval E + t.eval E

/-- One-term polynomials. -/
def Poly.singles : Poly → Polys → Polys
  | .nil, acc => acc
  | .cons k p n t, acc => t.singles (.cons (.cons k p n .nil) acc)

/-- `k p`, with the first constructor of `p` evaluated. -/
def forceP {α : Type} (p : Poly) (k : Poly → α) : α := match p with | .nil => k .nil | .cons a b c t => k (.cons a b c t)

theorem forceP_eq {α : Type} (p : Poly) (k : Poly → α) : forceP p k = k p := by cases p <;> rfl

/-- Merge neighbours. -/
noncomputable def Polys.pairUp (lt : Bool) : Polys → Polys → Polys
  | .cons p (.cons q t), acc => forceP (Poly.mergeR lt p q .nil) fun r => Polys.pairUp lt t (.cons r acc)
  | .cons p .nil, acc => forceP (p.rev .nil) fun r => .cons r acc
  | .nil, acc => acc

/-- Merge all, in any order. -/
noncomputable def Polys.glue (lt : Bool) : Polys → Poly
  | .nil => .nil
  | .cons p t => Poly.mergeR lt p (glue lt t) .nil

/-- Merge until one is left. -/
noncomputable def Polys.sort : Nat → Bool → Polys → Poly
  | _, _, .nil => .nil
  | _, _, .cons p .nil => p
  | 0, lt, .cons p (.cons q t) => (Polys.cons p (.cons q t)).glue lt
  | f + 1, lt, .cons p (.cons q t) => Polys.sort f (!lt) (Polys.pairUp lt (.cons p (.cons q t)) .nil)

theorem Poly.singles_eval (E : CEnv) : ∀ (p : Poly) (acc : Polys), (p.singles acc).eval E = p.eval E + acc.eval E := by
  intro p
  induction p with
  | nil => intro acc; simp [Poly.singles, Poly.eval]
  | cons k a b t ih => intro acc; rw [Poly.singles, ih]; simp only [Polys.eval, Poly.eval]; ring

theorem Polys.pairUp_eval (E : CEnv) (lt : Bool) : ∀ (n : Nat) (l acc : Polys), sizeOf l ≤ n → (Polys.pairUp lt l acc).eval E = l.eval E + acc.eval E := by
  intro n
  induction n with
  | zero => intro l acc hl; cases l <;> simp at hl
  | succ n ih =>
    intro l acc hl
    match l with
    | .nil => simp [Polys.pairUp, Polys.eval]
    | .cons p .nil => rw [Polys.pairUp, forceP_eq]; simp only [Polys.eval, Poly.rev_eval, Poly.eval, add_zero]
    | .cons p (.cons q t) =>
      rw [Polys.pairUp, forceP_eq, ih]
      · simp only [Polys.eval, Poly.mergeR_eval, Poly.eval]; ring
      · simp at hl ⊢; omega

theorem Polys.glue_eval (E : CEnv) (lt : Bool) : ∀ l : Polys, (Polys.glue lt l).eval E = l.eval E := by
  intro l
  induction l with
  | nil => rfl
  | cons p t ih => rw [Polys.glue, Poly.mergeR_eval, ih]; simp only [Polys.eval, Poly.eval]; ring

theorem Polys.sort_eval (E : CEnv) : ∀ (f : Nat) (lt : Bool) (l : Polys), (Polys.sort f lt l).eval E = l.eval E := by
  intro f
  induction f with
  | zero =>
    intro lt l
    match l with
    | .nil => rfl
    | .cons p .nil => simp [Polys.sort, Polys.eval]
    | .cons p (.cons q t) => rw [Polys.sort, Polys.glue_eval]
  | succ f ih =>
    intro lt l
    match l with
    | .nil => rfl
    | .cons p .nil => simp [Polys.sort, Polys.eval]
    | .cons p (.cons q t) => rw [Polys.sort, ih, Polys.pairUp_eval E lt _ _ _ (le_refl _)]; simp [Polys.eval]

/-- All coefficients are 0 modulo `N`. -/
def Poly.zero (N : Nat) : Poly → Bool
  | .nil => true
  | .cons _ p n t => bif Nat.beq (p % N) (n % N) then t.zero N else false

theorem Poly.zero_sound (E : CEnv) (N : Nat) : ∀ p : Poly, p.zero N = true → p.eval E ≡ 0 [ZMOD N] := by
  intro p
  induction p with
  | nil => intro _; rfl
  | cons k a b t ih =>
    intro h
    simp only [Poly.zero, cond_eq_ite, Nat.beq_eq] at h
    split at h
    · rename_i hab
      have h1 := ih h
      have h2 : ((a : Int) - b) ≡ 0 [ZMOD N] := by
        have h3 : (a : Int) ≡ b [ZMOD N] := by
          rw [Int.natCast_modEq_iff]; exact hab
        simpa using h3.sub_right b
      simp only [Poly.eval]
      simpa using (h2.mul_right (mono E k)).add h1
    · cases h

/-! ## The check -/

/-- Linear combinations of expressions. -/
abbrev Form := List (Bool × Nat × CExp)

def Form.val (E : CEnv) (f : Form) : Int := (f.map fun t => sgn t.1 t.2.1 * ival E t.2.2).sum

theorem Form.val_nil (E : CEnv) : Form.val E [] = 0 := rfl
theorem Form.val_cons (E : CEnv) (s : Bool) (c : Nat) (e : CExp) (f : Form) : Form.val E ((s, c, e) :: f) = sgn s c * ival E e + Form.val E f := by
  simp [Form.val]
theorem Form.val_append (E : CEnv) (f g : Form) : Form.val E (f ++ g) = Form.val E f + Form.val E g := by
  simp [Form.val]

noncomputable def Form.terms : Form → Poly → Option Poly
  | [], acc => some acc
  | (s, c, e) :: f, acc => (go ⟨[], [], 0, 0⟩ e 0 s c acc).bind fun acc => Form.terms f acc

theorem Form.terms_sound (E : CEnv) : ∀ (f : Form) (acc acc' : Poly), f.terms acc = some acc' → acc'.eval E = acc.eval E + f.val E := by
  intro f
  induction f with
  | nil => intro acc acc' h; obtain rfl := Option.some.inj h; simp [Form.val]
  | cons t f ih =>
    obtain ⟨s, c, e⟩ := t
    intro acc acc' h
    simp only [Form.terms, Option.bind_eq_some_iff] at h
    obtain ⟨a1, h1, h2⟩ := h
    have hm : Mem ⟨E.a, E.b, []⟩ ⟨[], [], 0, 0⟩ := by
      refine ⟨by simp, by simp, rfl, by simp, ?_⟩
      intro n p hp
      simp only [IEnv.getX_eq] at hp
      split at hp
      · omega
      · cases hp
    rw [ih _ _ h2, go_sound (F := E) hm ⟨rfl, rfl, E.x, by simp⟩ _ _ _ _ _ _ h1, Form.val_cons, rho_zero]
    ring

/-- Upper bounds of the variables numbered `out`. -/
def outBounds (J : IEnv) : List Nat → List Nat → Bool
  | [], [] => true
  | n :: ns, b :: bs => ((J.getX n).elim false fun p => decide (p.2 ≤ b)) && outBounds J ns bs
  | _, _ => false

/-- Intervals from upper bounds. -/
def ups (l : List Nat) : List (Nat × Nat) := l.map fun b => (0, b)

/-- The certificate shows that `form` is 0 modulo `N` and the variables `os` are bounded by `ob`, for arguments bounded by `A` and `B`. -/
noncomputable def check (as : List (Nat × Nat)) (P : CProg) (A B : List Nat) (cert : List Nat) (form : Form) (N : Nat) (os ob : List Nat) : Bool :=
  (form.terms .nil).elim false fun acc => (walk as P.code 0 ⟨ups A, ups B, 0, 0⟩ cert acc).elim false fun r =>
    (Polys.sort 40 true (r.2.singles .nil)).zero N && outBounds r.1 os ob

/-- Lists bounded elementwise. -/
def Bounded : List Nat → List Nat → Prop
  | [], [] => True
  | v :: vs, b :: bs => v ≤ b ∧ Bounded vs bs
  | _, _ => False

theorem Bounded.get {l b : List Nat} (h : Bounded l b) : ∀ (i q : Nat), b[i]? = some q → l.getD i 0 ≤ q := by
  induction l generalizing b with
  | nil => cases b with
    | nil => intro i q hq; simp at hq
    | cons => exact h.elim
  | cons v vs ih => cases b with
    | nil => exact h.elim
    | cons c bs =>
      intro i q hq
      cases i with
      | zero => simp at hq; subst hq; exact h.1
      | succ i => simpa using ih h.2 i q (by simpa using hq)

theorem mem_init {a b A B : List Nat} (ha : Bounded a A) (hb : B = [] ∨ Bounded b B) : Mem ⟨a, b, []⟩ ⟨ups A, ups B, 0, 0⟩ := by
  refine ⟨?_, ?_, rfl, by simp, ?_⟩
  · intro i p hp
    simp only [ups, List.getElem?_map, Option.map_eq_some_iff] at hp
    obtain ⟨q, hq, rfl⟩ := hp
    exact ⟨Nat.zero_le _, ha.get i q hq⟩
  · intro i p hp
    simp only [ups, List.getElem?_map, Option.map_eq_some_iff] at hp
    obtain ⟨q, hq, rfl⟩ := hp
    rcases hb with rfl | hb
    · simp at hq
    · exact ⟨Nat.zero_le _, hb.get i q hq⟩
  · intro n p hp
    simp only [IEnv.getX_eq] at hp
    split at hp
    · omega
    · cases hp

theorem outBounds_sound {E : CEnv} {J : IEnv} (h : Mem E J) : ∀ (out ob : List Nat), outBounds J out ob = true →
    Bounded (out.map fun n => E.x.getD (n - 1) 0) ob := by
  intro out
  induction out with
  | nil => intro ob ho; cases ob with
    | nil => trivial
    | cons => simp [outBounds] at ho
  | cons n ns ih => intro ob ho; cases ob with
    | nil => simp [outBounds] at ho
    | cons b bs =>
      simp only [outBounds, Bool.and_eq_true] at ho
      obtain ⟨h1, h2⟩ := ho
      refine ⟨?_, ih bs h2⟩
      cases hg : J.getX n with
      | none => rw [hg] at h1; cases h1
      | some p =>
        rw [hg] at h1
        simp only [Option.elim, decide_eq_true_eq] at h1
        exact le_trans (h.x n p hg).2 h1

/-- What a successful check says of every execution. -/
theorem check_sound {as : List (Nat × Nat)} {P : CProg} {A B cert : List Nat} {form : Form} {N : Nat} {os ob : List Nat}
    (h : check as P A B cert form N os ob = true) {a b : List Nat} (ha : Bounded a A) (hb : B = [] ∨ Bounded b B)
    (hh : Holds as (P.env a b)) :
    form.val (P.env a b) ≡ 0 [ZMOD N] ∧ Bounded (os.map fun n => (P.env a b).x.getD (n - 1) 0) ob := by
  unfold check at h
  cases hf : form.terms .nil with
  | none => rw [hf] at h; cases h
  | some acc =>
    rw [hf, Option.elim] at h
    cases hw : walk as P.code 0 ⟨ups A, ups B, 0, 0⟩ cert acc with
    | none => rw [hw] at h; cases h
    | some r =>
      rw [hw, Option.elim, Bool.and_eq_true] at h
      obtain ⟨h1, h2⟩ := h
      obtain ⟨hm, he⟩ := walk_sound P.code 0 ⟨a, b, []⟩ _ cert acc r (mem_init ha hb) hw hh
      have h3 := Form.terms_sound (P.env a b) form .nil acc hf
      have h4 := Poly.zero_sound (P.env a b) N _ h1
      rw [Polys.sort_eval, Poly.singles_eval] at h4
      constructor
      · have he' : r.2.eval (P.env a b) = acc.eval (P.env a b) := he
        rw [he', h3] at h4
        simpa [Poly.eval, Polys.eval] using h4
      · exact outBounds_sound hm os ob h2

end Gost.Fiat
