import Verif.Lemmas.FiatCert
import Verif.Lemmas.EcpW
import Verif.Lemmas.StreebogCore
import Verif.Model.FiatField
import Mathlib.FieldTheory.Finite.Basic

/-!
# From checked certificates to the field operations
-/

namespace Gost.Fiat

open Spec (leNat leBytes)

/-! ## Values of lists of limbs -/

/-- The number a list of limbs stands for, with weights `ws`. -/
def dot : List Nat → List Nat → Nat
  | w :: ws, v :: vs => w * v + dot ws vs
  | _, _ => 0

theorem Bounded.length {l b : List Nat} (h : Bounded l b) : l.length = b.length := by
  induction l generalizing b with
  | nil => cases b with
    | nil => rfl
    | cons => exact h.elim
  | cons v vs ih => cases b with
    | nil => exact h.elim
    | cons c bs => simp [ih h.2]

theorem Bounded.dot_le {l b : List Nat} (h : Bounded l b) (ws : List Nat) : dot ws l ≤ dot ws b := by
  induction l generalizing b ws with
  | nil => cases b with
    | nil => exact le_refl _
    | cons => exact h.elim
  | cons v vs ih => cases b with
    | nil => exact h.elim
    | cons c bs =>
      cases ws with
      | nil => exact le_refl _
      | cons w ws => simp only [dot]; exact Nat.add_le_add (Nat.mul_le_mul_left _ h.1) (ih h.2 ws)

theorem Bounded.mono {l b c : List Nat} (h : Bounded l b) (g : Bounded b c) : Bounded l c := by
  induction l generalizing b c with
  | nil => cases b with
    | nil => exact g
    | cons => exact h.elim
  | cons v vs ih => cases b with
    | nil => exact h.elim
    | cons x bs => cases c with
      | nil => exact g.elim
      | cons y cs => exact ⟨le_trans h.1 g.1, ih h.2 g.2⟩

/-- The elementwise comparison, computed. -/
def boundedB : List Nat → List Nat → Bool
  | [], [] => true
  | v :: vs, b :: bs => Nat.ble v b && boundedB vs bs
  | _, _ => false

theorem boundedB_sound : ∀ {l b : List Nat}, boundedB l b = true → Bounded l b := by
  intro l
  induction l with
  | nil => intro b h; cases b with
    | nil => trivial
    | cons => cases h
  | cons v vs ih => intro b h; cases b with
    | nil => cases h
    | cons c bs =>
      simp only [boundedB, Bool.and_eq_true, Nat.ble_eq] at h
      exact ⟨h.1, ih h.2⟩

/-! ## Forms -/

/-- `± k Σ w e`. -/
def lin (s : Bool) (k : Nat) (ws : List Nat) (es : List CExp) : Form := List.zipWith (fun w e => (s, k * w, e)) ws es

/-- `± Σ w v e f`. -/
def prodForm (s : Bool) (ws : List Nat) (es fs : List CExp) : Form :=
  (List.zipWith (fun w e => List.zipWith (fun v f => (s, w * v, CExp.mul 0 e f)) ws fs) ws es).flatten

def argsA (n : Nat) : List CExp := (List.range n).map CExp.a
def argsB (n : Nat) : List CExp := (List.range n).map CExp.b
def vars (os : List Nat) : List CExp := os.map CExp.x

theorem lin_scale (E : CEnv) (s : Bool) (k : Nat) (ws : List Nat) (es : List CExp) :
    Form.val E (lin s k ws es) = sgn s k * Form.val E (lin false 1 ws es) := by
  induction ws generalizing es with
  | nil => simp [lin, Form.val_nil]
  | cons w ws ih => cases es with
    | nil => simp [lin, Form.val_nil]
    | cons e es =>
      have h1 : lin s k (w :: ws) (e :: es) = (s, k * w, e) :: lin s k ws es := rfl
      have h2 : lin false 1 (w :: ws) (e :: es) = (false, 1 * w, e) :: lin false 1 ws es := rfl
      rw [h1, h2, Form.val_cons, Form.val_cons, ih, sgn_mul, sgn_mul]
      simp only [sgn, if_neg (by decide : ¬ (false = true))]
      push_cast
      ring

theorem lin_val (E : CEnv) (s : Bool) (k : Nat) : ∀ (ws : List Nat) (es : List CExp) (vs : List Nat),
    es.map (ival E) = vs.map (fun v : Nat => (v : Int)) → Form.val E (lin s k ws es) = sgn s k * dot ws vs := by
  intro ws
  induction ws with
  | nil => intro es vs _; simp [lin, Form.val_nil, dot]
  | cons w ws ih =>
    intro es vs h
    cases es with
    | nil => cases vs with
      | nil => simp [lin, Form.val_nil, dot]
      | cons => simp at h
    | cons e es => cases vs with
      | nil => simp at h
      | cons v vs =>
        simp only [List.map_cons, List.cons.injEq] at h
        have h1 : lin s k (w :: ws) (e :: es) = (s, k * w, e) :: lin s k ws es := rfl
        rw [h1, Form.val_cons, ih es vs h.2, sgn_mul, h.1, dot]
        push_cast
        ring

theorem row_val (E : CEnv) (s : Bool) (w : Nat) (e : CExp) (x : Int) (hx : ival E e = x) : ∀ (ws : List Nat) (fs : List CExp) (us : List Nat),
    fs.map (ival E) = us.map (fun v : Nat => (v : Int)) →
    Form.val E (List.zipWith (fun v f => (s, w * v, CExp.mul 0 e f)) ws fs) = sgn s w * x * dot ws us := by
  intro ws
  induction ws with
  | nil => intro es vs _; simp [Form.val_nil, dot]
  | cons v ws ih =>
    intro fs us h
    cases fs with
    | nil => cases us with
      | nil => simp [Form.val_nil, dot]
      | cons => simp at h
    | cons f fs => cases us with
      | nil => simp at h
      | cons u us =>
        simp only [List.map_cons, List.cons.injEq] at h
        rw [List.zipWith_cons_cons, Form.val_cons, ih fs us h.2, sgn_mul, show ival E (.mul 0 e f) = ival E e * ival E f from rfl, hx, h.1, dot]
        push_cast
        ring

theorem prod_val (E : CEnv) (s : Bool) (ws : List Nat) (es fs : List CExp) (vs us : List Nat)
    (h : es.map (ival E) = vs.map (fun v : Nat => (v : Int))) (g : fs.map (ival E) = us.map (fun v : Nat => (v : Int))) :
    Form.val E (prodForm s ws es fs) = sgn s 1 * (dot ws vs * dot ws us) := by
  have key : ∀ (ws' : List Nat) (es : List CExp) (vs : List Nat), es.map (ival E) = vs.map (fun v : Nat => (v : Int)) →
      Form.val E (List.zipWith (fun w e => List.zipWith (fun v f => (s, w * v, CExp.mul 0 e f)) ws fs) ws' es).flatten =
        sgn s 1 * (dot ws' vs * dot ws us) := by
    intro ws'
    induction ws' with
    | nil => intro es vs _; simp [Form.val_nil, dot]
    | cons w ws' ih =>
      intro es vs h
      cases es with
      | nil => cases vs with
        | nil => simp [Form.val_nil, dot]
        | cons => simp at h
      | cons e es => cases vs with
        | nil => simp at h
        | cons v vs =>
          simp only [List.map_cons, List.cons.injEq] at h
          rw [List.zipWith_cons_cons, List.flatten_cons, Form.val_append, ih es vs h.2, row_val E s w e v h.1 ws fs us g, dot]
          have : sgn s w = sgn s 1 * w := by rw [← sgn_mul, one_mul]
          rw [this]
          push_cast
          ring
  exact key ws es vs h

theorem env_ab (P : CProg) (a b : List Nat) : (P.env a b).a = a ∧ (P.env a b).b = b := by
  have h := ext_run P.code ⟨a, b, []⟩
  exact ⟨h.a, h.b⟩

theorem map_range_getD (l : List Nat) : (List.range l.length).map (fun i => l.getD i 0) = l := by
  apply List.ext_getElem
  · simp
  · intro i h1 h2
    simp [List.getElem?_eq_getElem h2]

theorem argsA_val (P : CProg) (a b : List Nat) : (argsA a.length).map (ival (P.env a b)) = a.map (fun v : Nat => (v : Int)) := by
  conv_rhs => rw [← map_range_getD a]
  simp only [argsA, List.map_map]
  apply List.map_congr_left
  intro i _
  simp only [Function.comp, ival, (env_ab P a b).1]

theorem argsB_val (P : CProg) (a b : List Nat) : (argsB b.length).map (ival (P.env a b)) = b.map (fun v : Nat => (v : Int)) := by
  conv_rhs => rw [← map_range_getD b]
  simp only [argsB, List.map_map]
  apply List.map_congr_left
  intro i _
  simp only [Function.comp, ival, (env_ab P a b).2]

/-- The values of variables. -/
def xvals (E : CEnv) (os : List Nat) : List Nat := os.map fun n => E.x.getD (n - 1) 0

theorem vars_val (E : CEnv) (os : List Nat) : (vars os).map (ival E) = (xvals E os).map (fun v : Nat => (v : Int)) := by
  simp only [vars, xvals, List.map_map]
  rfl

theorem run_xvals (P : CProg) (a b : List Nat) : P.run a b = xvals (P.env a b) P.out := rfl

theorem holds_nil (E : CEnv) : Holds [] E := by
  intro n v h; cases h

/-! ## Functions with unsaturated limbs -/

section Sol
variable {P : CProg} {A B cert W ob : List Nat} {p : Nat} {a b : List Nat}

theorem natCast_of_modEq {x y : Nat} (h : (x : Int) - y ≡ 0 [ZMOD p]) : (x : ZMod p) = y := by
  have h2 := (ZMod.intCast_eq_intCast_iff _ _ p).2 h
  push_cast at h2
  exact sub_eq_zero.1 h2

theorem sol_mul (h : check [] P A B cert (lin false 1 W (vars P.out) ++ prodForm true W (argsA A.length) (argsB B.length)) p P.out ob = true)
    (ha : Bounded a A) (hb : Bounded b B) :
    Bounded (P.run a b) ob ∧ ((dot W (P.run a b) : Nat) : ZMod p) = dot W a * dot W b := by
  obtain ⟨h1, h2⟩ := check_sound h ha (Or.inr hb) (holds_nil _)
  refine ⟨h2, ?_⟩
  rw [← ha.length, ← hb.length, Form.val_append, lin_val _ _ _ _ _ _ (vars_val _ _), prod_val _ _ _ _ _ _ _ (argsA_val P a b) (argsB_val P a b),
    ← run_xvals] at h1
  have := natCast_of_modEq (p := p) (x := dot W (P.run a b)) (y := dot W a * dot W b) (by simpa [sgn, ← sub_eq_add_neg] using h1)
  rw [this]; push_cast; rfl

theorem sol_sq (h : check [] P A [] cert (lin false 1 W (vars P.out) ++ prodForm true W (argsA A.length) (argsA A.length)) p P.out ob = true)
    (ha : Bounded a A) :
    Bounded (P.run a b) ob ∧ ((dot W (P.run a b) : Nat) : ZMod p) = dot W a * dot W a := by
  obtain ⟨h1, h2⟩ := check_sound h ha (Or.inl rfl) (holds_nil (P.env a b))
  refine ⟨h2, ?_⟩
  rw [← ha.length, Form.val_append, lin_val _ _ _ _ _ _ (vars_val _ _), prod_val _ _ _ _ _ _ _ (argsA_val P a b) (argsA_val P a b),
    ← run_xvals] at h1
  have := natCast_of_modEq (p := p) (x := dot W (P.run a b)) (y := dot W a * dot W a) (by simpa [sgn, ← sub_eq_add_neg] using h1)
  rw [this]; push_cast; rfl

theorem sol_add (h : check [] P A B cert (lin false 1 W (vars P.out) ++ (lin true 1 W (argsA A.length) ++ lin true 1 W (argsB B.length))) p P.out ob = true)
    (ha : Bounded a A) (hb : Bounded b B) :
    Bounded (P.run a b) ob ∧ ((dot W (P.run a b) : Nat) : ZMod p) = dot W a + dot W b := by
  obtain ⟨h1, h2⟩ := check_sound h ha (Or.inr hb) (holds_nil _)
  refine ⟨h2, ?_⟩
  rw [← ha.length, ← hb.length, Form.val_append, Form.val_append, lin_val _ _ _ _ _ _ (vars_val _ _), lin_val _ _ _ _ _ _ (argsA_val P a b),
    lin_val _ _ _ _ _ _ (argsB_val P a b), ← run_xvals] at h1
  have h2 := (ZMod.intCast_eq_intCast_iff _ _ p).2 h1
  simp only [sgn] at h2
  push_cast at h2
  simp at h2
  linear_combination h2

theorem sol_sub (h : check [] P A B cert (lin false 1 W (vars P.out) ++ (lin true 1 W (argsA A.length) ++ lin false 1 W (argsB B.length))) p P.out ob = true)
    (ha : Bounded a A) (hb : Bounded b B) :
    Bounded (P.run a b) ob ∧ ((dot W (P.run a b) : Nat) : ZMod p) = dot W a - dot W b := by
  obtain ⟨h1, h2⟩ := check_sound h ha (Or.inr hb) (holds_nil _)
  refine ⟨h2, ?_⟩
  rw [← ha.length, ← hb.length, Form.val_append, Form.val_append, lin_val _ _ _ _ _ _ (vars_val _ _), lin_val _ _ _ _ _ _ (argsA_val P a b),
    lin_val _ _ _ _ _ _ (argsB_val P a b), ← run_xvals] at h1
  have h2 := (ZMod.intCast_eq_intCast_iff _ _ p).2 h1
  simp only [sgn] at h2
  push_cast at h2
  simp at h2
  linear_combination h2

theorem sol_opp (h : check [] P A [] cert (lin false 1 W (vars P.out) ++ lin false 1 W (argsA A.length)) p P.out ob = true)
    (ha : Bounded a A) :
    Bounded (P.run a b) ob ∧ ((dot W (P.run a b) : Nat) : ZMod p) = -dot W a := by
  obtain ⟨h1, h2⟩ := check_sound h ha (Or.inl rfl) (holds_nil (P.env a b))
  refine ⟨h2, ?_⟩
  rw [← ha.length, Form.val_append, lin_val _ _ _ _ _ _ (vars_val _ _), lin_val _ _ _ _ _ _ (argsA_val P a b), ← run_xvals] at h1
  have h2 := (ZMod.intCast_eq_intCast_iff _ _ p).2 h1
  simp only [sgn] at h2
  push_cast at h2
  simp at h2
  linear_combination h2

theorem sol_carry (h : check [] P A [] cert (lin false 1 W (vars P.out) ++ lin true 1 W (argsA A.length)) p P.out ob = true)
    (ha : Bounded a A) :
    Bounded (P.run a b) ob ∧ ((dot W (P.run a b) : Nat) : ZMod p) = dot W a := by
  obtain ⟨h1, h2⟩ := check_sound h ha (Or.inl rfl) (holds_nil (P.env a b))
  refine ⟨h2, ?_⟩
  rw [← ha.length, Form.val_append, lin_val _ _ _ _ _ _ (vars_val _ _), lin_val _ _ _ _ _ _ (argsA_val P a b), ← run_xvals] at h1
  have h2 := (ZMod.intCast_eq_intCast_iff _ _ p).2 h1
  simp only [sgn] at h2
  push_cast at h2
  simp at h2
  linear_combination h2

/-- Conversions that keep the number, with other weights. -/
theorem conv_exact {V : List Nat} (h : check [] P A [] cert (lin false 1 W (vars P.out) ++ lin true 1 V (argsA A.length)) 0 P.out ob = true)
    (ha : Bounded a A) :
    Bounded (P.run a b) ob ∧ dot W (P.run a b) = dot V a := by
  obtain ⟨h1, h2⟩ := check_sound h ha (Or.inl rfl) (holds_nil (P.env a b))
  refine ⟨h2, ?_⟩
  rw [← ha.length, Form.val_append, lin_val _ _ _ _ _ _ (vars_val _ _), lin_val _ _ _ _ _ _ (argsA_val P a b), ← run_xvals] at h1
  simp only [sgn, Int.ModEq] at h1
  simp at h1
  omega

end Sol

/-! ## Bytes -/

/-- The weights of bytes. -/
def byteW : Nat → List Nat
  | 0 => []
  | n + 1 => 1 :: (byteW n).map (256 * ·)

theorem dot_scale (k : Nat) : ∀ (ws vs : List Nat), dot (ws.map (k * ·)) vs = k * dot ws vs := by
  intro ws
  induction ws with
  | nil => intro vs; simp [dot]
  | cons w ws ih => intro vs; cases vs with
    | nil => simp [dot]
    | cons v vs => simp only [List.map_cons, dot, ih]; ring

theorem dot_bytes (b : Bytes) : dot (byteW b.length) (byteNats b) = leNat b := by
  induction b with
  | nil => rfl
  | cons x b ih =>
    simp only [List.length_cons, byteW, byteNats, List.map_cons, dot, one_mul]
    rw [dot_scale]
    rw [show List.map BitVec.toNat b = byteNats b from rfl, ih]
    rfl

theorem bounded_bytes (b : Bytes) : Bounded (byteNats b) (List.replicate b.length 255) := by
  induction b with
  | nil => trivial
  | cons x b ih => exact ⟨by have := x.isLt; omega, ih⟩

theorem byteNats_natBytes {l : List Nat} {n : Nat} (h : Bounded l (List.replicate n 255)) : byteNats (natBytes l) = l := by
  induction l generalizing n with
  | nil => rfl
  | cons v vs ih =>
    cases n with
    | zero => exact h.elim
    | succ n =>
      obtain ⟨h1, h2⟩ := h
      have := ih (n := n) h2
      simp only [natBytes, byteNats, List.map_map, List.map_cons, BitVec.toNat_ofNat] at this ⊢
      rw [this, Nat.mod_eq_of_lt (by omega)]

theorem natBytes_eq {l : List Nat} {n v : Nat} (h : Bounded l (List.replicate n 255)) (hv : dot (byteW n) l = v) : natBytes l = leBytes n v := by
  have hl : (natBytes l).length = n := by simp [natBytes, h.length]
  have h1 := dot_bytes (natBytes l)
  rw [hl, byteNats_natBytes h, hv] at h1
  rw [h1, leBytes_leNat n _ hl]

/-! ## Conditional subtraction -/

theorem condSub {p M R T S out f : Int} (hf : f = 0 ∨ f = 1) (h0 : 0 ≤ T) (h1 : T < 2 * p) (s0 : 0 ≤ S) (s1 : S < M) (hs : S - M * f = T - p)
    (ho : out ≡ T - p * (1 - f) [ZMOD R]) (o0 : 0 ≤ out) (o1 : out < R) (hp : p ≤ R) : out < p ∧ (out = T ∨ out = T - p) := by
  have key : ∀ y : Int, out ≡ y [ZMOD R] → 0 ≤ y → y < R → out = y := by
    intro y hy y0 y1
    unfold Int.ModEq at hy
    rwa [Int.emod_eq_of_lt o0 o1, Int.emod_eq_of_lt y0 y1] at hy
  rcases hf with rfl | rfl
  · have := key _ ho (by linarith) (by linarith)
    constructor
    · linarith
    · right; linarith
  · have := key _ ho (by linarith) (by linarith)
    constructor
    · linarith
    · left; linarith

theorem sgn_false (k : Nat) : sgn false k = k := rfl
theorem sgn_true (k : Nat) : sgn true k = -(k : Int) := rfl

theorem xvals_append (E : CEnv) (l m : List Nat) : xvals E (l ++ m) = xvals E l ++ xvals E m := by simp [xvals]

theorem Bounded.split {l m b c : List Nat} (h : Bounded (l ++ m) (b ++ c)) (hl : l.length = b.length) : Bounded l b ∧ Bounded m c := by
  induction l generalizing b with
  | nil => cases b with
    | nil => exact ⟨trivial, h⟩
    | cons => simp at hl
  | cons v vs ih => cases b with
    | nil => simp at hl
    | cons x bs =>
      obtain ⟨h1, h2⟩ := h
      obtain ⟨h3, h4⟩ := ih (b := bs) h2 (by simpa using hl)
      exact ⟨⟨h1, h3⟩, h4⟩

/-- The variable `f` has value `v`, besides other variables known to be 0. -/
theorem holds_cons {as : List (Nat × Nat)} {E : CEnv} {f v : Nat} (hf : E.x.getD (f - 1) 0 = v) (h : Holds as E) : Holds ((f, v) :: as) E := by
  intro n u hu h1 h2
  simp only [assumed, cond_eq_ite, Nat.beq_eq] at hu
  split at hu
  · rename_i hc
    obtain rfl := Option.some.inj hu
    subst hc
    exact hf
  · exact h n u hu h1 h2

/-- Certificates for a function that ends with a conditional subtraction: the terms `ts` make up the number that is reduced,
`ss` are the results of the subtraction of `p`, `bf` its borrow. -/
structure CondCert where
  ts : List CExp
  ss : List Nat
  bf : Nat
  chain : List Nat
  c0 : List Nat
  c1 : List Nat

/-- The checks: the subtraction is one of `p`, and the outputs `os`, of weights `V`, bounded by `ob`, are the difference or
the number itself, modulo `R`. -/
noncomputable def condChecks (as : List (Nat × Nat)) (P : CProg) (A B : List Nat) (K : CondCert) (W1 sb V ob : List Nat) (p M R : Nat) : Bool :=
  check as P A B K.chain (lin false 1 W1 (vars K.ss) ++ ([(true, M, .x K.bf), (false, p, .c 1)] ++ lin true 1 W1 K.ts)) 0 (K.ss ++ [K.bf]) (sb ++ [1]) &&
  (check ((K.bf, 0) :: as) P A B K.c0 (lin false 1 V (vars P.out) ++ (lin true 1 W1 K.ts ++ [(false, p, .c 1)])) R P.out ob &&
   check ((K.bf, 1) :: as) P A B K.c1 (lin false 1 V (vars P.out) ++ lin true 1 W1 K.ts) R P.out ob)

theorem condChecks_sound {as : List (Nat × Nat)} {P : CProg} {A B W1 sb V ob : List Nat} {K : CondCert} {p M R : Nat}
    (h : condChecks as P A B K W1 sb V ob p M R = true) {a b : List Nat} (ha : Bounded a A) (hb : B = [] ∨ Bounded b B)
    (hh : Holds as (P.env a b)) (hl : K.ss.length = sb.length) (hM : dot W1 sb < M) (hR : dot V ob < R) (hp : p ≤ R)
    (h0 : 0 ≤ Form.val (P.env a b) (lin false 1 W1 K.ts)) (h1 : Form.val (P.env a b) (lin false 1 W1 K.ts) < 2 * p) :
    Bounded (P.run a b) ob ∧ dot V (P.run a b) < p ∧
      ((dot V (P.run a b) : Int) = Form.val (P.env a b) (lin false 1 W1 K.ts) ∨
       (dot V (P.run a b) : Int) = Form.val (P.env a b) (lin false 1 W1 K.ts) - p) := by
  simp only [condChecks, Bool.and_eq_true] at h
  obtain ⟨hc, h0', h1'⟩ := h
  obtain ⟨c1, c2⟩ := check_sound hc ha hb hh
  change Bounded (xvals (P.env a b) (K.ss ++ [K.bf])) (sb ++ [1]) at c2
  rw [xvals_append] at c2
  obtain ⟨c3, c4⟩ := c2.split (by simp [xvals, hl])
  have hbf : (P.env a b).x.getD (K.bf - 1) 0 ≤ 1 := c4.1
  rw [Form.val_append, Form.val_append, Form.val_cons, Form.val_cons, Form.val_nil, lin_val _ _ _ _ _ _ (vars_val _ _), lin_scale _ true,
    sgn_false, sgn_false, sgn_true, sgn_true] at c1
  simp only [ival, Int.ModEq, Nat.cast_zero, Int.emod_zero] at c1
  have hS := c3.dot_le W1
  have e0 : Form.val (P.env a b) (lin true 1 W1 K.ts ++ [(false, p, .c 1)]) = -(Form.val (P.env a b) (lin false 1 W1 K.ts) - p * (1 - (0 : Nat))) := by
    rw [Form.val_append, lin_scale _ true, Form.val_cons, Form.val_nil, sgn_true, sgn_false]
    simp only [ival]
    push_cast; ring
  have e1 : Form.val (P.env a b) (lin true 1 W1 K.ts) = -(Form.val (P.env a b) (lin false 1 W1 K.ts) - p * (1 - (1 : Nat))) := by
    rw [lin_scale _ true, sgn_true]
    push_cast; ring
  generalize Form.val (P.env a b) (lin false 1 W1 K.ts) = T at *
  have fin : ∀ (f : Nat) (ck : List Nat) (F : Form), (P.env a b).x.getD (K.bf - 1) 0 = f → (f = 0 ∨ f = 1) →
      check ((K.bf, f) :: as) P A B ck (lin false 1 V (vars P.out) ++ F) R P.out ob = true → Form.val (P.env a b) F = -(T - p * (1 - f)) →
      Bounded (P.run a b) ob ∧ dot V (P.run a b) < p ∧ ((dot V (P.run a b) : Int) = T ∨ (dot V (P.run a b) : Int) = T - p) := by
    intro f ck F hf hf01 hk hF
    obtain ⟨k1, k2⟩ := check_sound hk ha hb (holds_cons hf hh)
    change Bounded (P.run a b) ob at k2
    rw [Form.val_append, lin_val _ _ _ _ _ _ (vars_val _ _), ← run_xvals, hF, sgn_false] at k1
    have ho := k2.dot_le V
    rw [hf] at c1
    have hm : ((dot V (P.run a b) : Nat) : Int) ≡ T - p * (1 - f) [ZMOD R] := by
      have := k1.add_right (T - p * (1 - f))
      rwa [zero_add, Nat.cast_one, one_mul, neg_add_cancel_right] at this
    obtain ⟨r1, r2⟩ := condSub (f := f) (M := M) (S := dot W1 (xvals (P.env a b) K.ss)) (by omega) h0 h1 (by omega) (by omega)
      (by push_cast at c1 ⊢; linarith) hm (by omega) (by omega) (by omega)
    exact ⟨k2, by omega, r2⟩
  have hcases : (P.env a b).x.getD (K.bf - 1) 0 = 0 ∨ (P.env a b).x.getD (K.bf - 1) 0 = 1 := by omega
  rcases hcases with e | e
  · exact fin 0 _ _ e (Or.inl rfl) h0' e0
  · exact fin 1 _ _ e (Or.inr rfl) h1' e1

/-! ## Inversion -/

/-- Exponents instead of field elements; 0 marks variables not yet set. -/
def expStep (σ : List Nat) : InvStep → Option (List Nat)
  | .mul d a b => forceN (σ.getD a 0) fun x => forceN (σ.getD b 0) fun y =>
    bif Nat.beq x 0 || Nat.beq y 0 then none else forceN (x + y) fun z => some (σ.set d z)
  | .sq d a n => forceN (σ.getD a 0) fun x => bif Nat.beq x 0 then none else forceN (x * 2 ^ n) fun z => some (σ.set d z)

def expRun : List InvStep → List Nat → Option (List Nat)
  | [], σ => some σ
  | s :: t, σ => (expStep σ s).bind fun σ => expRun t σ

section
variable {T F : Type} [Field F] {ok : T → Prop} {val : T → F} {mul : T → T → T} {sq : T → T} {dflt : T}

/-- The variables hold powers of `v`. -/
def PowState (ok : T → Prop) (val : T → F) (dflt : T) (v : F) (σ : List T) (ε : List Nat) : Prop :=
  σ.length = ε.length ∧ ∀ r, ε.getD r 0 ≠ 0 → ok (σ.getD r dflt) ∧ val (σ.getD r dflt) = v ^ ε.getD r 0

theorem getD_set {α : Type} (l : List α) (d r : Nat) (x dflt : α) :
    (l.set d x).getD r dflt = if d = r ∧ r < l.length then x else l.getD r dflt := by
  simp only [List.getD_eq_getElem?_getD, List.getElem?_set]
  by_cases h : d = r
  · subst h
    by_cases h2 : d < l.length
    · simp [h2]
    · simp [h2]
  · simp [h]

theorem PowState.set {v : F} {σ : List T} {ε : List Nat} (h : PowState ok val dflt v σ ε) {d e : Nat} {x : T} (hx : ok x) (hv : val x = v ^ e) :
    PowState ok val dflt v (σ.set d x) (ε.set d e) := by
  refine ⟨by simp [h.1], ?_⟩
  intro r hr
  rw [getD_set] at hr ⊢
  rw [getD_set]
  rw [h.1]
  by_cases hc : d = r ∧ r < ε.length
  · rw [if_pos hc, if_pos hc]; exact ⟨hx, hv⟩
  · rw [if_neg hc] at hr
    rw [if_neg hc, if_neg hc]
    exact h.2 r hr

theorem iterate_sq (hsq : ∀ x, ok x → ok (sq x) ∧ val (sq x) = val x * val x) (n : Nat) : ∀ x, ok x → ok (iterate sq n x) ∧ val (iterate sq n x) = val x ^ 2 ^ n := by
  induction n with
  | zero => intro x hx; exact ⟨hx, by simp [iterate]⟩
  | succ n ih =>
    intro x hx
    obtain ⟨h1, h2⟩ := hsq x hx
    obtain ⟨h3, h4⟩ := ih _ h1
    refine ⟨h3, ?_⟩
    rw [iterate, h4, h2, ← pow_two, ← pow_mul, pow_succ, mul_comm]

theorem expStep_sound (hmul : ∀ x y, ok x → ok y → ok (mul x y) ∧ val (mul x y) = val x * val y)
    (hsq : ∀ x, ok x → ok (sq x) ∧ val (sq x) = val x * val x) {v : F} {σ : List T} {ε ε' : List Nat} (h : PowState ok val dflt v σ ε)
    (s : InvStep) (hs : expStep ε s = some ε') : PowState ok val dflt v (s.exec mul sq dflt σ) ε' := by
  cases s with
  | mul d a b =>
    simp only [expStep, forceN_eq, cond_eq_ite, Bool.or_eq_true, Nat.beq_eq] at hs
    split at hs
    · cases hs
    · rename_i hc
      obtain rfl := Option.some.inj hs
      rw [not_or] at hc
      obtain ⟨o1, v1⟩ := h.2 a hc.1
      obtain ⟨o2, v2⟩ := h.2 b hc.2
      obtain ⟨o3, v3⟩ := hmul _ _ o1 o2
      exact h.set o3 (by rw [v3, v1, v2, pow_add])
  | sq d a n =>
    simp only [expStep, forceN_eq, cond_eq_ite, Nat.beq_eq] at hs
    split at hs
    · cases hs
    · rename_i hc
      obtain rfl := Option.some.inj hs
      obtain ⟨o1, v1⟩ := h.2 a hc
      obtain ⟨o3, v3⟩ := iterate_sq hsq n _ o1
      exact h.set o3 (by rw [v3, v1, pow_mul])

theorem expRun_sound (hmul : ∀ x y, ok x → ok y → ok (mul x y) ∧ val (mul x y) = val x * val y)
    (hsq : ∀ x, ok x → ok (sq x) ∧ val (sq x) = val x * val x) {v : F} (chain : List InvStep) : ∀ (σ : List T) (ε ε' : List Nat),
    PowState ok val dflt v σ ε → expRun chain ε = some ε' →
    PowState ok val dflt v (chain.foldl (fun σ s => s.exec mul sq dflt σ) σ) ε' := by
  induction chain with
  | nil => intro σ ε ε' h hr; obtain rfl := Option.some.inj hr; exact h
  | cons s t ih =>
    intro σ ε ε' h hr
    simp only [expRun, Option.bind_eq_some_iff] at hr
    obtain ⟨ε1, h1, h2⟩ := hr
    exact ih _ _ _ (expStep_sound hmul hsq h s h1) h2

/-- The exponent computed by a chain. -/
def chainExp (chain : List InvStep) : Nat := (expRun chain (1 :: List.replicate 31 0)).elim 0 fun ε => ε.getD 0 0

theorem invRun_sound (hmul : ∀ x y, ok x → ok y → ok (mul x y) ∧ val (mul x y) = val x * val y)
    (hsq : ∀ x, ok x → ok (sq x) ∧ val (sq x) = val x * val x) {chain : List InvStep} {e : Nat} (he : chainExp chain = e) (he0 : e ≠ 0)
    (x : T) (hx : ok x) : ok (invRun mul sq dflt chain x) ∧ val (invRun mul sq dflt chain x) = val x ^ e := by
  unfold chainExp at he
  cases hr : expRun chain (1 :: List.replicate 31 0) with
  | none => rw [hr] at he; exact absurd he.symm he0
  | some ε =>
    rw [hr, Option.elim] at he
    have hi : PowState ok val dflt (val x) (x :: List.replicate 31 dflt) (1 :: List.replicate 31 0) := by
      refine ⟨by simp, ?_⟩
      intro r hr
      cases r with
      | zero => exact ⟨hx, by simp⟩
      | succ r =>
        exfalso; apply hr
        rw [List.getD_cons_succ, List.getD_eq_getElem?_getD, List.getElem?_replicate]
        split <;> rfl
    have := (expRun_sound hmul hsq chain _ _ _ hi hr).2 0 (by rw [he]; exact he0)
    rw [he] at this
    exact this

end

theorem pow_inv {p : Nat} [Fact p.Prime] (x : ZMod p) (h2 : 2 < p) : x ^ (p - 2) = x⁻¹ := by
  by_cases hx : x = 0
  · rw [hx, zero_pow (by omega), inv_zero]
  · have h := ZMod.pow_card_sub_one_eq_one hx
    have : p - 1 = p - 2 + 1 := by omega
    rw [this, pow_succ] at h
    exact eq_inv_of_mul_eq_one_left h

/-! ## Files with unsaturated limbs -/

/-- What is known of the functions of a file with unsaturated limbs: `bal` bounds the limbs of all field elements, `tight`
those of products. -/
structure SolFacts (C : FiatSol) (p nb : Nat) (W bal tight : List Nat) : Prop where
  mul : ∀ a b, Bounded a bal → Bounded b bal → Bounded (C.carry_mul.run a b) tight ∧ ((dot W (C.carry_mul.run a b) : Nat) : ZMod p) = dot W a * dot W b
  sq : ∀ a, Bounded a bal → Bounded (C.carry_square.run a []) tight ∧ ((dot W (C.carry_square.run a []) : Nat) : ZMod p) = dot W a * dot W a
  add : ∀ a b, Bounded a bal → Bounded b bal → Bounded (C.carry.run (C.add.run a b) []) tight ∧
    ((dot W (C.carry.run (C.add.run a b) []) : Nat) : ZMod p) = dot W a + dot W b
  sub : ∀ a b, Bounded a bal → Bounded b bal → Bounded (C.carry.run (C.sub.run a b) []) tight ∧
    ((dot W (C.carry.run (C.sub.run a b) []) : Nat) : ZMod p) = dot W a - dot W b
  opp : ∀ a, Bounded a bal → Bounded (C.opp.run a []) bal ∧ ((dot W (C.opp.run a []) : Nat) : ZMod p) = -dot W a
  from_bytes : ∀ b : Bytes, b.length = nb → Bounded (C.from_bytes.run (byteNats b) []) tight ∧ dot W (C.from_bytes.run (byteNats b) []) = leNat b
  to_bytes : ∀ a, Bounded a tight → natBytes (C.to_bytes.run a []) = leBytes nb (dot W a % p)
  inv : chainExp C.inv = p - 2
  le : Bounded tight bal
  zero : Bounded (List.replicate C.limbs 0) bal
  consts : Bounded C.consts.one bal ∧ Bounded C.consts.a bal ∧ Bounded C.consts.b bal ∧ Bounded C.consts.b3 bal ∧
    Bounded C.consts.d bal ∧ Bounded C.consts.S bal ∧ Bounded C.consts.T bal
  one : dot W C.consts.one = 1

theorem dot_zero (W : List Nat) (n : Nat) : dot W (List.replicate n 0) = 0 := by
  induction W generalizing n with
  | nil => rfl
  | cons w W ih => cases n with
    | zero => rfl
    | succ n => simp only [List.replicate_succ, dot, ih, Nat.mul_zero, Nat.add_zero]

/-- The value of a field element given by limbs. -/
def solVal (p : Nat) (W : List Nat) (x : List Nat) : ZMod p := (dot W x : Nat)

theorem SolFacts.sound {C : FiatSol} {p nb : Nat} {W bal tight : List Nat} [Fact p.Prime] (h : SolFacts C p nb W bal tight) (h2 : 2 < p)
    (hp : p ≤ 256 ^ nb) : C.ops.Sound p nb (fun x => Bounded x bal) (solVal p W) where
  mul x y hx hy := ⟨(h.mul x y hx hy).1.mono h.le, (h.mul x y hx hy).2⟩
  sq x hx := ⟨(h.sq x hx).1.mono h.le, (h.sq x hx).2⟩
  add x y hx hy := ⟨(h.add x y hx hy).1.mono h.le, (h.add x y hx hy).2⟩
  sub x y hx hy := ⟨(h.sub x y hx hy).1.mono h.le, (h.sub x y hx hy).2⟩
  opp x hx := h.opp x hx
  inv x hx := by
    obtain ⟨h3, h4⟩ := invRun_sound (ok := fun x => Bounded x bal) (val := solVal p W) (dflt := List.replicate C.limbs 0)
      (mul := fun x y => C.carry_mul.run x y) (sq := fun x => C.carry_square.run x [])
      (fun x y hx hy => ⟨(h.mul x y hx hy).1.mono h.le, (h.mul x y hx hy).2⟩) (fun x hx => ⟨(h.sq x hx).1.mono h.le, (h.sq x hx).2⟩)
      h.inv (by omega) x hx
    exact ⟨h3, by rw [← pow_inv _ h2]; exact h4⟩
  zero := ⟨h.zero, by change ((dot W (List.replicate C.limbs 0) : Nat) : ZMod p) = 0; rw [dot_zero]; exact Nat.cast_zero⟩
  one := ⟨h.consts.1, by change ((dot W C.consts.one : Nat) : ZMod p) = 1; rw [h.one]; exact Nat.cast_one⟩
  fromBytes n hn := by
    obtain ⟨h3, h4⟩ := h.from_bytes (leBytes nb n) (leBytes_length _ _)
    refine ⟨h3.mono h.le, ?_⟩
    change ((dot W (C.from_bytes.run (byteNats (leBytes nb n)) []) : Nat) : ZMod p) = n
    rw [h4, leNat_leBytes, Nat.mod_eq_of_lt (by omega)]
  toBytes x y hx hy := by
    obtain ⟨h3, h4⟩ := h.mul x y hx hy
    have h5 := h.to_bytes _ h3
    change natBytes (C.to_bytes.run (C.carry_mul.run x y) []) = _
    rw [h5]
    congr 1
    rw [show solVal p W x * solVal p W y = ((dot W (C.carry_mul.run x y) : Nat) : ZMod p) from h4.symm, ZMod.val_natCast]
  const_a := h.consts.2.1
  const_b := h.consts.2.2.1
  const_b3 := h.consts.2.2.2.1
  const_d := h.consts.2.2.2.2.1
  const_S := h.consts.2.2.2.2.2.1
  const_T := h.consts.2.2.2.2.2.2

theorem to_bytes_sol {P : CProg} {K : CondCert} {W tight sb : List Nat} {p nb : Nat}
    (h : condChecks [] P tight [] K W sb (byteW nb) (List.replicate nb 255) p (256 ^ nb) (256 ^ nb) = true) (hts : K.ts = argsA tight.length)
    (hl : K.ss.length = sb.length) (hM : dot W sb < 256 ^ nb) (hV : dot (byteW nb) (List.replicate nb 255) < 256 ^ nb) (hp : p ≤ 256 ^ nb)
    (ht : dot W tight < 2 * p) (a : List Nat) (ha : Bounded a tight) : natBytes (P.run a []) = leBytes nb (dot W a % p) := by
  have hT : Form.val (P.env a []) (lin false 1 W K.ts) = dot W a := by
    rw [hts, ← ha.length, lin_val _ _ _ _ _ _ (argsA_val P a [])]
    simp [sgn]
  have hle := ha.dot_le W
  obtain ⟨r1, r2, r3⟩ := condChecks_sound h ha (Or.inl rfl) (holds_nil _) hl hM hV hp (by rw [hT]; omega) (by rw [hT]; omega)
  rw [hT] at r3
  apply natBytes_eq r1
  rcases r3 with r3 | r3
  · rw [Nat.mod_eq_of_lt (by omega)]; omega
  · have h1 : dot W a = dot (byteW nb) (P.run a []) + p := by omega
    rw [h1, Nat.add_mod_right, Nat.mod_eq_of_lt r2]

/-- Everything the checks give for a file with unsaturated limbs. -/
theorem SolFacts.of_checks {C : FiatSol} {p nb : Nat} {W bal tight wide sb : List Nat} {k1 k2 k3 k4 k5 k6 k7 : List Nat} {K : CondCert}
    (c1 : check [] C.carry_mul bal bal k1 (lin false 1 W (vars C.carry_mul.out) ++ prodForm true W (argsA bal.length) (argsB bal.length)) p C.carry_mul.out tight = true)
    (c2 : check [] C.carry_square bal [] k2 (lin false 1 W (vars C.carry_square.out) ++ prodForm true W (argsA bal.length) (argsA bal.length)) p C.carry_square.out tight = true)
    (c3 : check [] C.carry wide [] k3 (lin false 1 W (vars C.carry.out) ++ lin true 1 W (argsA wide.length)) p C.carry.out tight = true)
    (c4 : check [] C.add bal bal k4 (lin false 1 W (vars C.add.out) ++ (lin true 1 W (argsA bal.length) ++ lin true 1 W (argsB bal.length))) p C.add.out wide = true)
    (c5 : check [] C.sub bal bal k5 (lin false 1 W (vars C.sub.out) ++ (lin true 1 W (argsA bal.length) ++ lin false 1 W (argsB bal.length))) p C.sub.out wide = true)
    (c6 : check [] C.opp bal [] k6 (lin false 1 W (vars C.opp.out) ++ lin false 1 W (argsA bal.length)) p C.opp.out bal = true)
    (c7 : check [] C.from_bytes (List.replicate nb 255) [] k7 (lin false 1 W (vars C.from_bytes.out) ++ lin true 1 (byteW nb) (argsA (List.replicate nb 255).length)) 0 C.from_bytes.out tight = true)
    (c8 : condChecks [] C.to_bytes tight [] K W sb (byteW nb) (List.replicate nb 255) p (256 ^ nb) (256 ^ nb) = true) (hts : K.ts = argsA tight.length)
    (hl : K.ss.length = sb.length) (hM : dot W sb < 256 ^ nb) (hV : dot (byteW nb) (List.replicate nb 255) < 256 ^ nb) (hp : p ≤ 256 ^ nb)
    (ht : dot W tight < 2 * p) (hinv : chainExp C.inv = p - 2) (hle : boundedB tight bal = true) (hz : boundedB (List.replicate C.limbs 0) bal = true)
    (hc : (boundedB C.consts.one bal && boundedB C.consts.a bal && boundedB C.consts.b bal && boundedB C.consts.b3 bal &&
      boundedB C.consts.d bal && boundedB C.consts.S bal && boundedB C.consts.T bal) = true) (h1 : dot W C.consts.one = 1) :
    SolFacts C p nb W bal tight where
  mul a b ha hb := sol_mul c1 ha hb
  sq a ha := sol_sq c2 ha
  add a b ha hb := by
    obtain ⟨h1, h2⟩ := sol_add c4 ha hb
    obtain ⟨h3, h4⟩ := sol_carry (b := []) c3 h1
    exact ⟨h3, by rw [h4, h2]⟩
  sub a b ha hb := by
    obtain ⟨h1, h2⟩ := sol_sub c5 ha hb
    obtain ⟨h3, h4⟩ := sol_carry (b := []) c3 h1
    exact ⟨h3, by rw [h4, h2]⟩
  opp a ha := sol_opp c6 ha
  from_bytes b hb := by
    have hbb := bounded_bytes b
    rw [hb] at hbb
    obtain ⟨h3, h4⟩ := conv_exact (b := []) c7 hbb
    refine ⟨h3, ?_⟩
    rw [h4, ← hb, dot_bytes]
  to_bytes a ha := to_bytes_sol c8 hts hl hM hV hp ht a ha
  inv := hinv
  le := boundedB_sound hle
  zero := boundedB_sound hz
  consts := by
    simp only [Bool.and_eq_true] at hc
    obtain ⟨⟨⟨⟨⟨⟨a, b⟩, c⟩, d⟩, e⟩, f⟩, g⟩ := hc
    exact ⟨boundedB_sound a, boundedB_sound b, boundedB_sound c, boundedB_sound d, boundedB_sound e, boundedB_sound f, boundedB_sound g⟩
  one := h1

/-! ## Functions with Montgomery arithmetic -/

/-- Certificates for a function that ends with a Montgomery reduction: variables `zs` that are always 0, the quotients `qs`. -/
structure RedCert where
  zs : List Nat
  zc : List (List Nat)
  qs : List Nat
  main : List Nat
  cond : CondCert

/-- The checks that variables are 0: they are less than `w` and divisible by `w`. -/
noncomputable def zeroChecks (P : CProg) (A B : List Nat) (w : Nat) : List Nat → List (List Nat) → Bool
  | [], _ => true
  | z :: zs, [] => false && Nat.beq z zs.length
  | z :: zs, c :: cs => check [] P A B c [(false, 1, .x z)] w [z] [w - 1] && zeroChecks P A B w zs cs

theorem zeroChecks_sound {P : CProg} {A B : List Nat} {w : Nat} (hw : 0 < w) {a b : List Nat} (ha : Bounded a A) (hb : B = [] ∨ Bounded b B) :
    ∀ (zs : List Nat) (cs : List (List Nat)), zeroChecks P A B w zs cs = true → Holds (zs.map (·, 0)) (P.env a b) := by
  intro zs
  induction zs with
  | nil => intro cs _; exact holds_nil _
  | cons z zs ih =>
    intro cs h
    cases cs with
    | nil => simp [zeroChecks] at h
    | cons c cs =>
      simp only [zeroChecks, Bool.and_eq_true] at h
      obtain ⟨h1, h2⟩ := check_sound h.1 ha hb (holds_nil _)
      refine holds_cons ?_ (ih cs h.2)
      have h3 : (P.env a b).x.getD (z - 1) 0 ≤ w - 1 := h2.1
      rw [Form.val_cons, Form.val_nil, sgn_false] at h1
      simp only [ival, Nat.cast_one, one_mul, add_zero] at h1
      have h4 : (P.env a b).x.getD (z - 1) 0 ≡ 0 [MOD w] := by
        rw [← Int.natCast_modEq_iff]; simpa using h1
      unfold Nat.ModEq at h4
      rwa [Nat.mod_eq_of_lt (by omega), Nat.zero_mod] at h4

/-- The checks of a function with Montgomery reduction. -/
noncomputable def redChecks (P : CProg) (A B : List Nat) (K : RedCert) (target : Form) (fac w R p : Nat) (W W1 full full1 : List Nat) : Bool :=
  zeroChecks P A B w K.zs K.zc &&
  (check (K.zs.map (·, 0)) P A B K.main (lin false fac W1 K.cond.ts ++ (target ++ lin true p W (vars K.qs))) 0 K.qs (K.qs.map fun _ => w - 1) &&
   condChecks (K.zs.map (·, 0)) P A B K.cond W1 full1 W full p (R * w) R)

theorem redChecks_sound {P : CProg} {A B : List Nat} {K : RedCert} {target : Form} {fac w R p : Nat} {W W1 full full1 : List Nat}
    (h : redChecks P A B K target fac w R p W W1 full full1 = true) (hw : 0 < w) (hR : dot W full < R)
    (hR1 : dot W1 full1 < R * w) (hl : K.cond.ss.length = full1.length) (hp : p ≤ R) (hfac : 0 < fac) {a b : List Nat}
    (ha : Bounded a A) (hb : B = [] ∨ Bounded b B) {tv : Nat} (ht : Form.val (P.env a b) target = -(tv : Int))
    (hq : tv + p * dot W (K.qs.map fun _ => w - 1) < fac * (2 * p)) :
    Bounded (P.run a b) full ∧ dot W (P.run a b) < p ∧ ((fac * dot W (P.run a b) : Nat) : ZMod p) = tv := by
  simp only [redChecks, Bool.and_eq_true] at h
  obtain ⟨h1, h2, h3⟩ := h
  have hh := zeroChecks_sound hw ha hb _ _ h1
  obtain ⟨m1, m2⟩ := check_sound h2 ha hb hh
  change Bounded (xvals (P.env a b) K.qs) _ at m2
  have hQ := m2.dot_le W
  rw [Form.val_append, Form.val_append, ht, lin_scale, lin_val _ _ _ _ _ _ (vars_val _ _), sgn_false, sgn_true] at m1
  simp only [Int.ModEq, Nat.cast_zero, Int.emod_zero] at m1
  have key : 0 ≤ Form.val (P.env a b) (lin false 1 W1 K.cond.ts) ∧ Form.val (P.env a b) (lin false 1 W1 K.cond.ts) < 2 * p := by
    have hm : (fac : Int) * Form.val (P.env a b) (lin false 1 W1 K.cond.ts) = ((tv + p * dot W (xvals (P.env a b) K.qs) : Nat) : Int) := by
      push_cast; linarith
    have h5 : tv + p * dot W (xvals (P.env a b) K.qs) < fac * (2 * p) := lt_of_le_of_lt (Nat.add_le_add_left (Nat.mul_le_mul_left _ hQ) _) hq
    constructor
    · by_contra hc
      rw [not_le] at hc
      have := mul_neg_of_pos_of_neg (show (0 : Int) < fac by omega) hc
      omega
    · have h6 : (fac : Int) * Form.val (P.env a b) (lin false 1 W1 K.cond.ts) < fac * (2 * p) := by
        rw [hm]; exact_mod_cast h5
      exact lt_of_mul_lt_mul_left h6 (by omega)
  obtain ⟨r1, r2, r3⟩ := condChecks_sound h3 ha hb hh hl hR1 hR hp key.1 key.2
  refine ⟨r1, r2, ?_⟩
  have hz : (fac : Int) * dot W (P.run a b) ≡ tv [ZMOD p] := by
    rcases r3 with r3 | r3
    · rw [r3]
      have : (fac : Int) * Form.val (P.env a b) (lin false 1 W1 K.cond.ts) = tv + p * dot W (xvals (P.env a b) K.qs) := by linarith
      rw [this]
      exact Int.modEq_iff_dvd.2 ⟨-(dot W (xvals (P.env a b) K.qs) : Int), by ring⟩
    · rw [r3]
      have : (fac : Int) * (Form.val (P.env a b) (lin false 1 W1 K.cond.ts) - p) = tv + p * (dot W (xvals (P.env a b) K.qs) - fac) := by linarith
      rw [this]
      exact Int.modEq_iff_dvd.2 ⟨-((dot W (xvals (P.env a b) K.qs) : Int) - fac), by ring⟩
  have := (ZMod.intCast_eq_intCast_iff _ _ p).2 hz
  push_cast at this ⊢
  exact this

/-- Certificates for a subtraction. -/
structure SubCert where
  ss : List Nat
  bf : Nat
  chain : List Nat
  c0 : List Nat
  c1 : List Nat

/-- The checks of a subtraction with conditional addition of `p`; `target` is minus the difference. -/
noncomputable def subChecks (P : CProg) (A B : List Nat) (K : SubCert) (target : Form) (R p : Nat) (W full : List Nat) : Bool :=
  check [] P A B K.chain (lin false 1 W (vars K.ss) ++ ([(true, R, .x K.bf)] ++ target)) 0 (K.ss ++ [K.bf]) (full ++ [1]) &&
  (check [(K.bf, 0)] P A B K.c0 (lin false 1 W (vars P.out) ++ target) R P.out full &&
   check [(K.bf, 1)] P A B K.c1 (lin false 1 W (vars P.out) ++ (target ++ [(true, p, .c 1)])) R P.out full)

theorem subChecks_sound {P : CProg} {A B : List Nat} {K : SubCert} {target : Form} {R p : Nat} {W full : List Nat}
    (h : subChecks P A B K target R p W full = true) (hR : dot W full < R) (hl : K.ss.length = full.length) (hp : p ≤ R) {a b : List Nat}
    (ha : Bounded a A) (hb : B = [] ∨ Bounded b B) {d : Int} (ht : Form.val (P.env a b) target = -d) (h0 : -(p : Int) < d) (h1 : d < p)
    : Bounded (P.run a b) full ∧ dot W (P.run a b) < p ∧ ((dot W (P.run a b) : Int) = d ∨ (dot W (P.run a b) : Int) = d + p) := by
  simp only [subChecks, Bool.and_eq_true] at h
  obtain ⟨hc, h0', h1'⟩ := h
  obtain ⟨c1, c2⟩ := check_sound hc ha hb (holds_nil _)
  change Bounded (xvals (P.env a b) (K.ss ++ [K.bf])) (full ++ [1]) at c2
  rw [xvals_append] at c2
  obtain ⟨c3, c4⟩ := c2.split (by simp [xvals, hl])
  have hbf : (P.env a b).x.getD (K.bf - 1) 0 ≤ 1 := c4.1
  rw [Form.val_append, Form.val_append, ht, Form.val_cons, Form.val_nil, lin_val _ _ _ _ _ _ (vars_val _ _), sgn_false, sgn_true] at c1
  simp only [ival, Int.ModEq, Nat.cast_zero, Int.emod_zero] at c1
  have hS := c3.dot_le W
  have fin : ∀ (f : Nat) (ck : List Nat) (F : Form), (P.env a b).x.getD (K.bf - 1) 0 = f → (f = 0 ∨ f = 1) →
      check [(K.bf, f)] P A B ck (lin false 1 W (vars P.out) ++ F) R P.out full = true → Form.val (P.env a b) F = -(d + p * f) →
      Bounded (P.run a b) full ∧ dot W (P.run a b) < p ∧ ((dot W (P.run a b) : Int) = d ∨ (dot W (P.run a b) : Int) = d + p) := by
    intro f ck F hf hf01 hk hF
    obtain ⟨k1, k2⟩ := check_sound hk ha hb (holds_cons hf (holds_nil _))
    change Bounded (P.run a b) full at k2
    rw [Form.val_append, lin_val _ _ _ _ _ _ (vars_val _ _), ← run_xvals, hF, sgn_false] at k1
    have ho := k2.dot_le W
    rw [hf] at c1
    have hm : ((dot W (P.run a b) : Nat) : Int) ≡ d + p * f [ZMOD R] := by
      have := k1.add_right (d + p * f)
      rwa [zero_add, Nat.cast_one, one_mul, neg_add_cancel_right] at this
    unfold Int.ModEq at hm
    rw [Int.emod_eq_of_lt (by omega) (by omega)] at hm
    rcases hf01 with rfl | rfl
    · simp only [Nat.cast_zero, mul_zero, add_zero, Nat.cast_one, one_mul] at c1 hm
      rw [Int.emod_eq_of_lt (by omega) (by omega)] at hm
      exact ⟨k2, by omega, Or.inl hm⟩
    · simp only [Nat.cast_one, mul_one, one_mul] at c1 hm
      rw [Int.emod_eq_of_lt (by omega) (by omega)] at hm
      exact ⟨k2, by omega, Or.inr hm⟩
  have hcases : (P.env a b).x.getD (K.bf - 1) 0 = 0 ∨ (P.env a b).x.getD (K.bf - 1) 0 = 1 := by omega
  rcases hcases with e | e
  · exact fin 0 _ _ e (Or.inl rfl) h0' (by rw [ht]; push_cast; ring)
  · refine fin 1 _ _ e (Or.inr rfl) h1' ?_
    rw [Form.val_append, ht, Form.val_cons, Form.val_nil, sgn_true]
    simp only [ival]
    push_cast; ring

/-- Field elements in files with Montgomery arithmetic: full words, less than `p`. -/
def montOk (p : Nat) (W full : List Nat) (x : List Nat) : Prop := Bounded x full ∧ dot W x < p

/-- The field element a list of words stands for in Montgomery form. -/
def montVal (p : Nat) [Fact p.Prime] (R : Nat) (W : List Nat) (x : List Nat) : ZMod p := (dot W x : Nat) * (R : ZMod p)⁻¹

/-- The computed condition on constants. -/
def montOkB (p : Nat) (W full : List Nat) (x : List Nat) : Bool := boundedB x full && Nat.blt (dot W x) p

theorem montOkB_sound {p : Nat} {W full x : List Nat} (h : montOkB p W full x = true) : montOk p W full x := by
  simp only [montOkB, Bool.and_eq_true, Nat.blt_eq] at h
  exact ⟨boundedB_sound h.1, h.2⟩

/-- Everything the checks give for a file with Montgomery arithmetic. -/
theorem FiatMont.sound_of_checks {C : FiatMont} {p nb w R R2 : Nat} [Fact p.Prime] {W W1 full full1 : List Nat} {K1 K2 K3 K4 K5 : RedCert} {J1 J2 : SubCert}
    {k8 k9 : List Nat}
    (c1 : redChecks C.mul full full K1 (prodForm true W (argsA full.length) (argsB full.length)) R w R p W W1 full full1 = true)
    (c2 : redChecks C.square full [] K2 (prodForm true W (argsA full.length) (argsA full.length)) R w R p W W1 full full1 = true)
    (c3 : redChecks C.add full full K3 (lin true 1 W (argsA full.length) ++ lin true 1 W (argsB full.length)) 1 w R p W W1 full full1 = true)
    (c4 : redChecks C.from_montgomery full [] K4 (lin true 1 W (argsA full.length)) R w R p W W1 full full1 = true)
    (c5 : redChecks C.to_montgomery full [] K5 (lin true R2 W (argsA full.length)) R w R p W W1 full full1 = true)
    (c6 : subChecks C.sub full full J1 (lin true 1 W (argsA full.length) ++ lin false 1 W (argsB full.length)) R p W full = true)
    (c7 : subChecks C.opp full [] J2 (lin false 1 W (argsA full.length)) R p W full = true)
    (c8 : check [] C.from_bytes (List.replicate nb 255) [] k8 (lin false 1 W (vars C.from_bytes.out) ++ lin true 1 (byteW nb) (argsA (List.replicate nb 255).length)) 0 C.from_bytes.out full = true)
    (c9 : check [] C.to_bytes full [] k9 (lin false 1 (byteW nb) (vars C.to_bytes.out) ++ lin true 1 W (argsA full.length)) 0 C.to_bytes.out (List.replicate nb 255) = true)
    (hw : 0 < w) (hR : dot W full < R) (hR1 : dot W1 full1 < R * w) (hp : p ≤ R) (h2 : 2 < p) (hpb : p ≤ 256 ^ nb) (hRp : R % p ≠ 0) (hR2 : R2 < p)
    (hRR : R * R % p = R2)
    (hl : K1.cond.ss.length = full1.length ∧ K2.cond.ss.length = full1.length ∧ K3.cond.ss.length = full1.length ∧ K4.cond.ss.length = full1.length ∧
      K5.cond.ss.length = full1.length ∧ J1.ss.length = full.length ∧ J2.ss.length = full.length)
    (hq : dot W (K1.qs.map fun _ => w - 1) < R ∧ dot W (K2.qs.map fun _ => w - 1) < R ∧ K3.qs = [] ∧ dot W (K4.qs.map fun _ => w - 1) < R ∧
      dot W (K5.qs.map fun _ => w - 1) < R)
    (hinv : chainExp C.inv = p - 2) (hz : boundedB (List.replicate C.limbs 0) full = true)
    (hc : (montOkB p W full C.consts.one && montOkB p W full C.consts.a && montOkB p W full C.consts.b && montOkB p W full C.consts.b3 &&
      montOkB p W full C.consts.d && montOkB p W full C.consts.S && montOkB p W full C.consts.T) = true) (h1 : dot W C.consts.one = R % p) :
    C.ops.Sound p nb (montOk p W full) (montVal p R W) := by
  have hRz : (R : ZMod p) ≠ 0 := by
    intro hc
    rw [ZMod.natCast_eq_zero_iff] at hc
    exact hRp (Nat.mod_eq_zero_of_dvd hc)
  have lt2 : ∀ x y q : Nat, x < p → y < p → q < R → x * y + p * q < R * (2 * p) := by
    intro x y q hx hy hq
    have h1 : x * y ≤ p * p := Nat.mul_le_mul hx.le hy.le
    have h2 : p * p ≤ R * p := Nat.mul_le_mul_right _ hp
    have h3 : p * q < p * R := Nat.mul_lt_mul_of_pos_left hq (by omega)
    nlinarith
  have hmul : ∀ x y, montOk p W full x → montOk p W full y → montOk p W full (C.mul.run x y) ∧ montVal p R W (C.mul.run x y) = montVal p R W x * montVal p R W y := by
    intro x y hx hy
    obtain ⟨r1, r2, r3⟩ := redChecks_sound c1 hw hR hR1 hl.1 hp (by omega) hx.1 (Or.inr hy.1) (tv := dot W x * dot W y)
      (by rw [← hx.1.length, prod_val _ _ _ _ _ _ _ (argsA_val _ _ _) (by rw [hx.1.length, ← hy.1.length]; exact argsB_val _ _ _), sgn_true]; push_cast; ring)
      (lt2 _ _ _ hx.2 hy.2 hq.1)
    refine ⟨⟨r1, r2⟩, ?_⟩
    unfold montVal
    push_cast at r3
    field_simp
    linear_combination r3
  have hsq : ∀ x, montOk p W full x → montOk p W full (C.square.run x []) ∧ montVal p R W (C.square.run x []) = montVal p R W x * montVal p R W x := by
    intro x hx
    obtain ⟨r1, r2, r3⟩ := redChecks_sound (b := []) c2 hw hR hR1 hl.2.1 hp (by omega) hx.1 (Or.inl rfl) (tv := dot W x * dot W x)
      (by rw [← hx.1.length, prod_val _ _ _ _ _ _ _ (argsA_val _ _ _) (argsA_val _ _ _), sgn_true]; push_cast; ring)
      (lt2 _ _ _ hx.2 hx.2 hq.2.1)
    refine ⟨⟨r1, r2⟩, ?_⟩
    unfold montVal
    push_cast at r3
    field_simp
    linear_combination r3
  have hokz : montOk p W full (List.replicate C.limbs 0) := ⟨boundedB_sound hz, by rw [dot_zero]; omega⟩
  simp only [Bool.and_eq_true] at hc
  refine ⟨hmul, hsq, ?_, ?_, ?_, ?_, ⟨hokz, ?_⟩, ⟨montOkB_sound hc.1.1.1.1.1.1, ?_⟩, ?_, ?_, montOkB_sound hc.1.1.1.1.1.2, montOkB_sound hc.1.1.1.1.2,
    montOkB_sound hc.1.1.1.2, montOkB_sound hc.1.1.2, montOkB_sound hc.1.2, montOkB_sound hc.2⟩
  · intro x y hx hy
    obtain ⟨r1, r2, r3⟩ := redChecks_sound c3 hw hR hR1 hl.2.2.1 hp (by omega) hx.1 (Or.inr hy.1) (tv := dot W x + dot W y)
      (by rw [Form.val_append, ← hx.1.length, lin_val _ _ _ _ _ _ (argsA_val _ _ _), lin_val _ _ _ _ _ y (by rw [hx.1.length, ← hy.1.length]; exact argsB_val _ _ _), sgn_true]; push_cast; ring)
      (by rw [hq.2.2.1]
          have : dot W (List.map (fun _ : Nat => w - 1) []) = 0 := by cases W <;> rfl
          rw [this]
          have := hx.2
          have := hy.2
          omega)
    refine ⟨⟨r1, r2⟩, ?_⟩
    change montVal p R W (C.add.run x y) = _
    unfold montVal
    push_cast at r3
    linear_combination (R : ZMod p)⁻¹ * r3
  · intro x y hx hy
    obtain ⟨r1, r2, r3⟩ := subChecks_sound c6 hR hl.2.2.2.2.2.1 hp hx.1 (Or.inr hy.1) (d := (dot W x : Int) - dot W y)
      (by rw [Form.val_append, ← hx.1.length, lin_val _ _ _ _ _ _ (argsA_val _ _ _), lin_val _ _ _ _ _ y (by rw [hx.1.length, ← hy.1.length]; exact argsB_val _ _ _), sgn_true, sgn_false]; push_cast; ring)
      (by have := hy.2; omega) (by have := hx.2; omega)
    refine ⟨⟨r1, r2⟩, ?_⟩
    change montVal p R W (C.sub.run x y) = _
    have hz : ((dot W (C.sub.run x y) : Nat) : ZMod p) = dot W x - dot W y := by
      rcases r3 with r3 | r3
      · have := congrArg (fun z : Int => (z : ZMod p)) r3
        push_cast at this; exact this
      · have := congrArg (fun z : Int => (z : ZMod p)) r3
        push_cast at this
        rw [this, ZMod.natCast_self, add_zero]
    unfold montVal
    rw [hz]; ring
  · intro x hx
    obtain ⟨r1, r2, r3⟩ := subChecks_sound (b := []) c7 hR hl.2.2.2.2.2.2 hp hx.1 (Or.inl rfl) (d := -(dot W x : Int))
      (by rw [← hx.1.length, lin_val _ _ _ _ _ _ (argsA_val _ _ _), sgn_false]; push_cast; ring)
      (by have := hx.2; omega) (by omega)
    refine ⟨⟨r1, r2⟩, ?_⟩
    change montVal p R W (C.opp.run x []) = _
    have hz : ((dot W (C.opp.run x []) : Nat) : ZMod p) = -dot W x := by
      rcases r3 with r3 | r3
      · have := congrArg (fun z : Int => (z : ZMod p)) r3
        push_cast at this; exact this
      · have := congrArg (fun z : Int => (z : ZMod p)) r3
        push_cast at this
        rw [this, ZMod.natCast_self, add_zero]
    unfold montVal
    rw [hz]; ring
  · intro x hx
    obtain ⟨h3, h4⟩ := invRun_sound (ok := montOk p W full) (val := montVal p R W) (dflt := List.replicate C.limbs 0)
      (mul := fun x y => C.mul.run x y) (sq := fun x => C.square.run x []) hmul hsq hinv (by omega) x hx
    exact ⟨h3, by rw [← pow_inv _ h2]; exact h4⟩
  · change montVal p R W (List.replicate C.limbs 0) = 0
    unfold montVal
    rw [dot_zero, Nat.cast_zero, zero_mul]
  · change montVal p R W C.consts.one = 1
    unfold montVal
    rw [h1, ZMod.natCast_mod, mul_inv_cancel₀ hRz]
  · intro n hn
    have hbb := bounded_bytes (leBytes nb n)
    rw [leBytes_length] at hbb
    obtain ⟨h3, h4⟩ := conv_exact (b := []) c8 hbb
    have hd := dot_bytes (leBytes nb n)
    rw [leBytes_length, leNat_leBytes, Nat.mod_eq_of_lt (by omega)] at hd
    rw [hd] at h4
    change montOk p W full (C.to_montgomery.run (C.from_bytes.run (byteNats (leBytes nb n)) []) []) ∧
      montVal p R W (C.to_montgomery.run (C.from_bytes.run (byteNats (leBytes nb n)) []) []) = n
    obtain ⟨r1, r2, r3⟩ := redChecks_sound (b := []) c5 hw hR hR1 hl.2.2.2.2.1 hp (by omega) h3 (Or.inl rfl) (tv := R2 * n)
      (by rw [← h3.length, lin_val _ _ _ _ _ _ (argsA_val _ _ _), sgn_true, h4]; push_cast; ring)
      (lt2 _ _ _ hR2 hn hq.2.2.2.2)
    refine ⟨⟨r1, r2⟩, ?_⟩
    unfold montVal
    rw [← hRR] at r3
    push_cast at r3
    rw [ZMod.natCast_mod] at r3
    push_cast at r3
    have := mul_left_cancel₀ hRz (r3.trans (mul_assoc _ _ _))
    rw [this, mul_comm (R : ZMod p), mul_assoc, mul_inv_cancel₀ hRz, mul_one]
  · intro x y hx hy
    change natBytes (C.to_bytes.run (C.from_montgomery.run (C.mul.run x y) []) []) = _
    obtain ⟨m1, m2⟩ := hmul x y hx hy
    obtain ⟨r1, r2, r3⟩ := redChecks_sound (b := []) c4 hw hR hR1 hl.2.2.2.1 hp (by omega) m1.1 (Or.inl rfl) (tv := dot W (C.mul.run x y))
      (by rw [← m1.1.length, lin_val _ _ _ _ _ _ (argsA_val _ _ _), sgn_true]; push_cast; ring)
      (by have := lt2 1 (dot W (C.mul.run x y)) _ (by omega) m1.2 hq.2.2.2.1; rwa [one_mul] at this)
    obtain ⟨h3, h4⟩ := conv_exact (b := []) c9 r1
    apply natBytes_eq h3
    rw [h4, ← m2]
    unfold montVal
    push_cast at r3
    have : ((dot W (C.mul.run x y) : Nat) : ZMod p) * (R : ZMod p)⁻¹ = (dot W (C.from_montgomery.run (C.mul.run x y) []) : Nat) := by
      rw [← r3]; field_simp
    rw [this, ZMod.val_natCast, Nat.mod_eq_of_lt r2]

end Gost.Fiat
