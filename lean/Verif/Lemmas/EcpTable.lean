import Verif.Lemmas.FiatField
import Verif.Lemmas.EcpEd
import Verif.Lemmas.EcCompute

/-!
# The tables of multiples of the base point

A table is checked without divisions: each entry of a row is the previous one plus twice the first, the first entries are on a
chain of doublings of the base point.  The chain is given, every step is checked.
-/

namespace Gost.Fiat

open WeierstrassCurve

/-! ## Steps -/

section Generic
variable {G : Type} [AddCommGroup G] {IsPt : Nat → Nat → G → Prop} {dblB : Nat → Nat → Nat → Nat → Bool}
  {addB : Nat → Nat → Nat → Nat → Nat → Nat → Bool}

/-- Each pair is twice the one before. -/
def chainB (dblB : Nat → Nat → Nat → Nat → Bool) : Nat → Nat → List (Nat × Nat) → Bool
  | _, _, [] => true
  | x, y, (x', y') :: l => dblB x y x' y' && chainB dblB x' y' l

theorem chain_sound (hd : ∀ x1 y1 x3 y3 g, dblB x1 y1 x3 y3 = true → IsPt x1 y1 g → IsPt x3 y3 (g + g)) :
    ∀ (l : List (Nat × Nat)) (x y : Nat) (g : G), chainB dblB x y l = true → IsPt x y g →
      ∀ i v, ((x, y) :: l)[i]? = some v → IsPt v.1 v.2 (2 ^ i • g) := by
  intro l
  induction l with
  | nil =>
    intro x y g _ hg i v hv
    cases i with
    | zero => simp at hv; subst hv; simpa using hg
    | succ i => simp at hv
  | cons w l ih =>
    intro x y g h hg i v hv
    obtain ⟨x', y'⟩ := w
    simp only [chainB, Bool.and_eq_true] at h
    cases i with
    | zero => simp at hv; subst hv; simpa using hg
    | succ i =>
      have h1 := ih x' y' (g + g) h.2 (hd _ _ _ _ _ h.1 hg) i v (by simpa using hv)
      have : 2 ^ (i + 1) • g = 2 ^ i • (g + g) := by rw [pow_succ, mul_nsmul', two_nsmul]
      rwa [this]

variable {E : Type}

/-- The entries of a row after `(x, y)`: each is the previous one plus `(dx, dy)`. -/
def rowB (addB : Nat → Nat → Nat → Nat → Nat → Nat → Bool) (decX decY : E → Nat) (dx dy : Nat) : Nat → Nat → List E → Bool
  | _, _, [] => true
  | x, y, e :: l => forceN (decX e) fun x' => forceN (decY e) fun y' => addB x y dx dy x' y' && rowB addB decX decY dx dy x' y' l

theorem row_sound (ha : ∀ x1 y1 x2 y2 x3 y3 g g', addB x1 y1 x2 y2 x3 y3 = true → IsPt x1 y1 g → IsPt x2 y2 g' → IsPt x3 y3 (g + g'))
    {decX decY : E → Nat} {dx dy : Nat} {g : G} (hD : IsPt dx dy (2 • g)) : ∀ (l : List E) (x y m : Nat), rowB addB decX decY dx dy x y l = true →
      IsPt x y ((2 * m + 1) • g) → ∀ k e, l[k]? = some e → IsPt (decX e) (decY e) ((2 * (m + 1 + k) + 1) • g) := by
  intro l
  induction l with
  | nil => intro x y m _ _ k e he; simp at he
  | cons w l ih =>
    intro x y m h hg k e he
    simp only [rowB, forceN_eq, Bool.and_eq_true] at h
    have h1 := ha _ _ _ _ _ _ _ _ h.1 hg hD
    rw [← add_nsmul, show 2 * m + 1 + 2 = 2 * (m + 1) + 1 by ring] at h1
    cases k with
    | zero => simp at he; subst he; exact h1
    | succ k =>
      have := ih _ _ (m + 1) h.2 h1 k e (by simpa using he)
      rwa [show m + 1 + (k + 1) = m + 1 + 1 + k by ring]

/-- Row `j` of a table starts with the element `s j` of the chain. -/
def tabB (addB : Nat → Nat → Nat → Nat → Nat → Nat → Bool) (decX decY : E → Nat) (s : Nat) : List (Nat × Nat) → List (List E) → Bool
  | _, [] => true
  | (x, y) :: (dx, dy) :: ch, (e :: l) :: rows =>
    Nat.beq (decX e) x && (Nat.beq (decY e) y && (rowB addB decX decY dx dy x y l && tabB addB decX decY s (((x, y) :: (dx, dy) :: ch).drop s) rows))
  | _, _ => false

theorem tab_sound (ha : ∀ x1 y1 x2 y2 x3 y3 g g', addB x1 y1 x2 y2 x3 y3 = true → IsPt x1 y1 g → IsPt x2 y2 g' → IsPt x3 y3 (g + g'))
    {decX decY : E → Nat} {s : Nat} : ∀ (rows : List (List E)) (ch : List (Nat × Nat)) (g : G), tabB addB decX decY s ch rows = true →
      (∀ i v, ch[i]? = some v → IsPt v.1 v.2 (2 ^ i • g)) →
      ∀ j k r e, rows[j]? = some r → r[k]? = some e → IsPt (decX e) (decY e) (((2 * k + 1) * 2 ^ (s * j)) • g) := by
  intro rows
  induction rows with
  | nil => intro ch g _ _ j k r e hr; simp at hr
  | cons row rows ih =>
    intro ch g h hch j k r e hr he
    match ch, row, h with
    | [], _, h => simp [tabB] at h
    | [_], _, h => simp [tabB] at h
    | _ :: _ :: _, [], h => simp [tabB] at h
    | (x, y) :: (dx, dy) :: ch, f :: l, h =>
      simp only [tabB, Bool.and_eq_true, Nat.beq_eq] at h
      obtain ⟨h1, h2, h3, h4⟩ := h
      have hx := hch 0 (x, y) rfl
      have hD := hch 1 (dx, dy) rfl
      simp only [pow_zero, one_nsmul, pow_one] at hx hD
      cases j with
      | zero =>
        simp only [List.getElem?_cons_zero, Option.some.injEq] at hr
        subst hr
        rw [Nat.mul_zero, pow_zero, Nat.mul_one]
        cases k with
        | zero =>
          simp only [List.getElem?_cons_zero, Option.some.injEq] at he
          subst he
          rw [h1, h2]; simpa using hx
        | succ k =>
          have := row_sound ha hD l x y 0 h3 (by simpa using hx) k e (by simpa using he)
          rwa [show k + 1 = 0 + 1 + k by ring]
      | succ j =>
        have := ih _ (2 ^ s • g) h4 (by
          intro i v hv
          rw [List.getElem?_drop] at hv
          have := hch _ v hv
          rwa [← mul_nsmul', ← pow_add, Nat.add_comm i s]) j k r e (by simpa using hr) he
        rw [← mul_nsmul'] at this
        rwa [show (2 * k + 1) * 2 ^ (s * (j + 1)) = (2 * k + 1) * 2 ^ (s * j) * 2 ^ s by rw [mul_add, mul_one, pow_add]; ring]

end Generic

/-! ## Weierstrass coordinates -/

section W
variable {p : Nat} [Fact p.Prime] {a b : ZMod p}

/-- `(x, y)` are the coordinates of `g`. -/
def WPt (a b : ZMod p) (x y : Nat) (g : CurvePoint a b) : Prop :=
  ∃ h : (shortW a b).toAffine.Nonsingular (x : ZMod p) (y : ZMod p), g = .some _ _ h

def wDblB (p an x1 y1 x3 y3 : Nat) : Bool :=
  forceN ((3 * x1 * x1 + an) % p) fun n => Nat.blt 0 ((2 * y1) % p) &&
    (Nat.beq ((x3 + 2 * x1) * (4 * y1 * y1) % p) (n * n % p) && Nat.beq ((2 * y1 * (y3 + y1) + n * x3) % p) (n * x1 % p))

def wAddB (p x1 y1 x2 y2 x3 y3 : Nat) : Bool :=
  Nat.ble x1 p && (Nat.ble y1 p && forceN (x2 + (p - x1)) fun e => forceN (y2 + (p - y1)) fun f => Nat.blt 0 (e % p) &&
    (Nat.beq ((x1 + x2 + x3) * (e * e) % p) (f * f % p) && Nat.beq ((y2 * x1 + y1 * x3 + y3 * x1) % p) ((y2 * x3 + y3 * x2 + y1 * x2) % p)))

theorem cast_of_mod {x y : Nat} (h : x % p = y % p) : (x : ZMod p) = y := by
  have := congrArg (fun t : Nat => (t : ZMod p)) h
  simpa only [ZMod.natCast_mod] using this

theorem am3_of {a : Nat} (h : (a + 3) % p = 0) : (a : ZMod p) = -3 := by
  have e : ((a + 3 : Nat) : ZMod p) = (0 : Nat) := cast_of_mod (by rw [h, Nat.zero_mod])
  push_cast at e
  linear_combination e

theorem cast_ne_of_mod {x : Nat} (h : x % p ≠ 0) : (x : ZMod p) ≠ 0 := by
  intro hc
  rw [ZMod.natCast_eq_zero_iff] at hc
  exact h (Nat.mod_eq_zero_of_dvd hc)

theorem wDbl_sound {an : Nat} (ha : (an : ZMod p) = a) (x1 y1 x3 y3 : Nat) (g : CurvePoint a b) (h : wDblB p an x1 y1 x3 y3 = true) (hg : WPt a b x1 y1 g) :
    WPt a b x3 y3 (g + g) := by
  obtain ⟨hn, rfl⟩ := hg
  simp only [wDblB, forceN_eq, Bool.and_eq_true, Nat.beq_eq, Nat.blt_eq] at h
  obtain ⟨h0, h1, h2⟩ := h
  have n0 := cast_ne_of_mod h0.ne'
  have e1 := cast_of_mod h1
  have e2 := cast_of_mod h2
  simp only [ZMod.natCast_mod, Nat.cast_mul, Nat.cast_add, Nat.cast_ofNat, ha] at n0 e1 e2
  generalize (x1 : ZMod p) = X1 at *
  generalize (y1 : ZMod p) = Y1 at *
  have hne : Y1 ≠ (shortW a b).toAffine.negY X1 Y1 := by
    rw [shortW_negY]
    intro hc
    apply n0
    linear_combination hc
  have hl : (shortW a b).toAffine.slope X1 X1 Y1 Y1 = (3 * X1 ^ 2 + a) / (2 * Y1) := by
    rw [Affine.slope_of_Y_ne rfl hne, shortW_negY]
    simp; ring
  have hx3 : (shortW a b).toAffine.addX X1 X1 ((shortW a b).toAffine.slope X1 X1 Y1 Y1) = (x3 : ZMod p) := by
    rw [hl]
    simp only [Affine.addX]
    generalize hY : (2 : ZMod p) * Y1 = Y2 at *
    have e1' : (x3 + 2 * X1) * Y2 ^ 2 = (3 * X1 ^ 2 + a) ^ 2 := by
      rw [← hY]; linear_combination e1
    simp
    field_simp
    linear_combination -e1'
  have hy3 : (shortW a b).toAffine.addY X1 X1 Y1 ((shortW a b).toAffine.slope X1 X1 Y1 Y1) = (y3 : ZMod p) := by
    simp only [Affine.addY, Affine.negAddY]
    rw [hx3, hl, shortW_negY]
    generalize hY : (2 : ZMod p) * Y1 = Y2 at *
    field_simp
    linear_combination -e2
  refine ⟨?_, ?_⟩
  · rw [← hx3, ← hy3]
    exact (shortW a b).toAffine.nonsingular_add hn hn (fun h => hne h.2)
  · rw [Affine.Point.add_self_of_Y_ne hne]
    congr 1

theorem wAdd_sound (x1 y1 x2 y2 x3 y3 : Nat) (g g' : CurvePoint a b) (h : wAddB p x1 y1 x2 y2 x3 y3 = true) (hg : WPt a b x1 y1 g)
    (hg' : WPt a b x2 y2 g') : WPt a b x3 y3 (g + g') := by
  obtain ⟨hn, rfl⟩ := hg
  obtain ⟨hn', rfl⟩ := hg'
  simp only [wAddB, forceN_eq, Bool.and_eq_true, Nat.beq_eq, Nat.ble_eq, Nat.blt_eq] at h
  obtain ⟨l1, l2, h0, h1, h2⟩ := h
  have n0 := cast_ne_of_mod h0.ne'
  have e1 := cast_of_mod h1
  have e2 := cast_of_mod h2
  simp only [Nat.cast_mul, Nat.cast_add, Nat.cast_sub l1, Nat.cast_sub l2, ZMod.natCast_self, zero_sub] at n0 e1 e2
  generalize (x1 : ZMod p) = X1 at *
  generalize (y1 : ZMod p) = Y1 at *
  generalize (x2 : ZMod p) = X2 at *
  generalize (y2 : ZMod p) = Y2 at *
  have hne : X1 ≠ X2 := by
    intro hc; apply n0; rw [hc]; ring
  have hd : X1 - X2 ≠ 0 := sub_ne_zero.2 hne
  have hl : (shortW a b).toAffine.slope X1 X2 Y1 Y2 = (Y1 - Y2) / (X1 - X2) := Affine.slope_of_X_ne hne
  have hx3 : (shortW a b).toAffine.addX X1 X2 ((shortW a b).toAffine.slope X1 X2 Y1 Y2) = (x3 : ZMod p) := by
    rw [hl]
    simp only [Affine.addX]
    simp
    field_simp
    linear_combination -e1
  have hy3 : (shortW a b).toAffine.addY X1 X2 Y1 ((shortW a b).toAffine.slope X1 X2 Y1 Y2) = (y3 : ZMod p) := by
    simp only [Affine.addY, Affine.negAddY]
    rw [hx3, hl, shortW_negY]
    field_simp
    linear_combination -e2
  refine ⟨?_, ?_⟩
  · rw [← hx3, ← hy3]
    exact (shortW a b).toAffine.nonsingular_add hn hn' (fun h => hne h.1)
  · rw [Affine.Point.add_of_X_ne hne]
    congr 1

end W

/-! ## Edwards coordinates -/

section E
variable {p : Nat} [Fact p.Prime] {S T d : ZMod p}

/-- `(u, v)` are the Edwards coordinates of `g`. -/
def EPt (S T : ZMod p) (u v : Nat) (g : CurvePoint (edA S T) (edB S T)) : Prop := (u : ZMod p) = (edw S T g).1 ∧ (v : ZMod p) = (edw S T g).2

def eAddB (p d x1 y1 x2 y2 x3 y3 : Nat) : Bool :=
  forceN (d * (x1 * y1 % p) * (x2 * y2 % p) % p) fun t => Nat.beq (x3 * (1 + t) % p) ((x1 * y2 + y1 * x2) % p) &&
    Nat.beq ((y3 + x1 * x2) % p) ((y1 * y2 + y3 * t) % p)

theorem eAdd_sound (hE : EdParams S T d) {dn : Nat} (hd : (dn : ZMod p) = d) (x1 y1 x2 y2 x3 y3 : Nat) (g g' : CurvePoint (edA S T) (edB S T))
    (h : eAddB p dn x1 y1 x2 y2 x3 y3 = true) (hg : EPt S T x1 y1 g) (hg' : EPt S T x2 y2 g') : EPt S T x3 y3 (g + g') := by
  simp only [eAddB, forceN_eq, Bool.and_eq_true, Nat.beq_eq] at h
  have e1 := cast_of_mod h.1
  have e2 := cast_of_mod h.2
  simp only [ZMod.natCast_mod, Nat.cast_mul, Nat.cast_add, Nat.cast_one, hd] at e1 e2
  have r1 : EdRep S T (x1 : ZMod p) (y1 : ZMod p) 1 ((x1 : ZMod p) * y1) g := ⟨one_ne_zero, by rw [mul_one]; exact hg.1, by rw [mul_one]; exact hg.2, by rw [mul_one, hg.1, hg.2]⟩
  have r2 : EdRep S T (x2 : ZMod p) (y2 : ZMod p) 1 ((x2 : ZMod p) * y2) g' := ⟨one_ne_zero, by rw [mul_one]; exact hg'.1, by rw [mul_one]; exact hg'.2, by rw [mul_one, hg'.1, hg'.2]⟩
  obtain ⟨k1, k2, k3, _⟩ := ed_add_rep hE r1 r2
  simp only [one_mul] at k1 k2 k3
  constructor
  · apply mul_right_cancel₀ k1
    rw [← k2]
    linear_combination (1 - d * (x1 * y1) * (x2 * y2 : ZMod p)) * e1
  · apply mul_right_cancel₀ k1
    rw [← k3]
    linear_combination (1 + d * (x1 * y1) * (x2 * y2 : ZMod p)) * e2

/-- The base point. -/
theorem ePt_of {x y u v : Nat} (hn : (shortW (edA S T) (edB S T)).toAffine.Nonsingular (x : ZMod p) (y : ZMod p))
    (hy : (y : ZMod p) ≠ 0) (hs : (x : ZMod p) - T + S ≠ 0) (hu : (u : ZMod p) * y = x - T) (hv : (v : ZMod p) * (x - T + S) = x - T - S) :
    EPt S T u v (.some _ _ hn) := by
  constructor
  · simp only [edw, if_neg hy]
    rw [← hu]; field_simp
  · simp only [edw, if_neg hy]
    rw [← hv]; field_simp

end E

/-! ## Tables of limbs -/

/-- The number standing for limbs: `rinv` is 1, or the inverse of the Montgomery radix. -/
def decL (p rinv : Nat) (W l : List Nat) : Nat := dot W l * rinv % p

theorem decL_sol {p : Nat} (W l : List Nat) : ((decL p 1 W l : Nat) : ZMod p) = solVal p W l := by
  unfold decL solVal
  rw [ZMod.natCast_mod, Nat.mul_one]

theorem decL_mont {p : Nat} [Fact p.Prime] {R rinv : Nat} (h : R * rinv % p = 1) (W l : List Nat) :
    ((decL p rinv W l : Nat) : ZMod p) = montVal p R W l := by
  unfold decL montVal
  rw [ZMod.natCast_mod]
  have e := congrArg (fun t : Nat => (t : ZMod p)) h
  simp only [ZMod.natCast_mod, Nat.cast_mul, Nat.cast_one] at e
  rw [Nat.cast_mul, eq_inv_of_mul_eq_one_right e]

theorem getD_row {E : Type} {tab : List (List E)} {j k : Nat} {e0 : E} {n : Nat} (hj : j < tab.length) (hk : k < n)
    (hn : (tab.all fun r => Nat.beq r.length n) = true) : ∃ r, tab[j]? = some r ∧ r ∈ tab ∧ ∃ e, r[k]? = some e ∧ e ∈ r ∧ (tab.getD j []).getD k e0 = e := by
  have h1 := List.all_eq_true.1 hn (tab[j]) (List.getElem_mem hj)
  rw [Nat.beq_eq] at h1
  have hk' : k < (tab[j]).length := by omega
  refine ⟨tab[j], List.getElem?_eq_getElem hj, List.getElem_mem hj, (tab[j])[k], List.getElem?_eq_getElem hk', List.getElem_mem hk', ?_⟩
  simp [List.getD_eq_getElem?_getD, List.getElem?_eq_getElem hj, List.getElem?_eq_getElem hk']

/-- A checked table in Weierstrass coordinates. -/
theorem wTable {p : Nat} [Fact p.Prime] {a b : ZMod p} {O : FeOps (List Nat)} {ok : List Nat → Prop} {val : List Nat → ZMod p} {okB : List Nat → Bool}
    (hok : ∀ l, okB l = true → ok l) {rinv : Nat} {W : List Nat} (hdec : ∀ l, ((decL p rinv W l : Nat) : ZMod p) = val l)
    {tab : List (List (AffW (List Nat)))} {rows cols : Nat} {ch : List (Nat × Nat)} {x y an : Nat} {gen : CurvePoint a b}
    (hlen : tab.length = rows) (h16 : (tab.all fun r => Nat.beq r.length 16) = true)
    (hent : (tab.all fun r => r.all fun e => okB e.X && (okB e.Y && (O.nonzero e.Y && O.nonzero (O.opp e.Y)))) = true)
    (hch : chainB (wDblB p an) x y ch = true)
    (htab : tabB (wAddB p) (fun e : AffW (List Nat) => decL p rinv W e.X) (fun e => decL p rinv W e.Y) (5 * cols) ((x, y) :: ch) tab = true)
    (ha : (an : ZMod p) = a) (hg : WPt a b x y gen) (j k : Nat) (hj : j < rows) (hk : k < 16) :
    WRepA O ok val a b ((tab.getD j []).getD k ⟨[], []⟩) (((2 * k + 1) * 32 ^ (cols * j)) • gen) := by
  obtain ⟨r, hr, hrm, e, he, hem, hd⟩ := getD_row (e0 := (⟨[], []⟩ : AffW (List Nat))) (hlen ▸ hj) hk h16
  rw [hd]
  have h1 := List.all_eq_true.1 (List.all_eq_true.1 hent r hrm) e hem
  simp only [Bool.and_eq_true] at h1
  obtain ⟨k1, k2, k3, k4⟩ := h1
  have h2 := tab_sound (IsPt := WPt a b) (addB := wAddB p) wAdd_sound tab _ gen htab
    (chain_sound (IsPt := WPt a b) (dblB := wDblB p an) (wDbl_sound ha) ch x y gen hch hg) j k r e hr he
  rw [show (32 : Nat) ^ (cols * j) = 2 ^ (5 * cols * j) by rw [show (32 : Nat) = 2 ^ 5 by norm_num, ← pow_mul]; ring_nf]
  refine ⟨⟨hok _ k1, hok _ k2⟩, ⟨k3, k4⟩, ?_⟩
  obtain ⟨hn, hgen⟩ := h2
  rw [hgen, ← hdec, ← hdec]
  exact ⟨one_ne_zero, by rw [mul_one], by rw [mul_one]⟩

/-! ### Words of the opposite -/

/-- Weights of words. -/
def geo (w c : Nat) : Nat → List Nat
  | 0 => []
  | n + 1 => c :: geo w (c * w) n

/-- Some word has a low byte that is not zero. -/
def nzB (w : Nat) : Nat → Nat → Bool
  | 0, _ => false
  | k + 1, n => !(Nat.beq (n % 256) 0) || nzB w k (n / w)

/-- Number with the given words. -/
def wordsNat (w : Nat) : List Nat → Nat
  | [] => 0
  | x :: xs => x + w * wordsNat w xs

theorem dot_geo (w : Nat) : ∀ (x : List Nat) (n c : Nat), x.length = n → dot (geo w c n) x = c * wordsNat w x := by
  intro x
  induction x with
  | nil => intro n c h; subst h; simp [geo, dot, wordsNat]
  | cons a x ih =>
    intro n c h; subst h
    simp only [List.length_cons, geo, dot, wordsNat]
    rw [ih _ _ rfl]; ring

theorem foldl_or_mod : ∀ (x : List Nat) (a : Nat), x.foldl (· ||| ·) a % 256 = 0 → a % 256 = 0 ∧ ∀ v ∈ x, v % 256 = 0 := by
  intro x
  induction x with
  | nil => intro a h; exact ⟨h, by simp⟩
  | cons b x ih =>
    intro a h
    obtain ⟨h1, h2⟩ := ih _ h
    have e : (a ||| b) % 2 ^ 8 = a % 2 ^ 8 ||| b % 2 ^ 8 := Nat.or_mod_two_pow
    rw [show (2 : Nat) ^ 8 = 256 by norm_num, h1] at e
    have e2 := Nat.or_eq_zero_iff.1 e.symm
    refine ⟨e2.1, fun v hv => ?_⟩
    rcases List.mem_cons.1 hv with rfl | hv
    · exact e2.2
    · exact h2 v hv

theorem nzB_zero {w : Nat} (hw : 0 < w) (h256 : w % 256 = 0) : ∀ (k : Nat) (x : List Nat), (∀ v ∈ x, v < w ∧ v % 256 = 0) → nzB w k (wordsNat w x) = false := by
  intro k
  induction k with
  | zero => intro x _; rfl
  | succ k ih =>
    intro x hx
    cases x with
    | nil =>
      have := ih [] (by simp)
      simp only [nzB, wordsNat, Nat.zero_mod, Nat.zero_div] at this ⊢
      simpa using this
    | cons a x =>
      have ha := hx a List.mem_cons_self
      have h1 : (a + w * wordsNat w x) % 256 = 0 := by rw [Nat.add_mod, Nat.mul_mod, ha.2, h256, Nat.zero_mul]
      have h2 : (a + w * wordsNat w x) / w = wordsNat w x := by rw [Nat.add_mul_div_left _ _ hw, Nat.div_eq_of_lt ha.1, Nat.zero_add]
      simp only [nzB, wordsNat, h1, h2]
      rw [ih x fun v hv => hx v (List.mem_cons_of_mem _ hv)]
      rfl

theorem limbsNonzero_of {w : Nat} (hw : 0 < w) (h256 : w % 256 = 0) {x : List Nat} {L : Nat} (hx : ∀ v ∈ x, v < w)
    (h : nzB w L (wordsNat w x) = true) : limbsNonzero x = true := by
  by_contra hc
  have h0 : x.foldl (· ||| ·) 0 % 256 = 0 := by simpa [limbsNonzero] using hc
  have h1 := foldl_or_mod x 0 h0
  rw [nzB_zero hw h256 L x fun v hv => ⟨hx v hv, h1.2 v hv⟩] at h
  cases h

theorem bounded_replicate {w : Nat} : ∀ {x : List Nat} {L : Nat}, Bounded x (List.replicate L (w - 1)) → 0 < w → x.length = L ∧ ∀ v ∈ x, v < w := by
  intro x
  induction x with
  | nil => intro L h _; cases L with
    | zero => simp
    | succ L => exact h.elim
  | cons a x ih => intro L h hw; cases L with
    | zero => exact h.elim
    | succ L =>
      have h' : a ≤ w - 1 ∧ Bounded x (List.replicate L (w - 1)) := h
      obtain ⟨h1, h2⟩ := ih h'.2 hw
      refine ⟨by simp [h1], fun v hv => ?_⟩
      rcases List.mem_cons.1 hv with rfl | hv
      · omega
      · exact h2 v hv

/-- The entry of a table in Montgomery form. -/
def montEntB (p w L : Nat) (W full : List Nat) (e : AffW (List Nat)) : Bool :=
  montOkB p W full e.X && (montOkB p W full e.Y && (limbsNonzero e.Y && forceN (dot W e.Y) fun n => Nat.blt 0 n && forceN (p - n) fun m => nzB w L m))

theorem mont_entries {p nb R rinv w L : Nat} [Fact p.Prime] {O : FeOps (List Nat)} {W full : List Nat} (hs : O.Sound p nb (montOk p W full) (montVal p R W))
    (hz : O.nonzero = limbsNonzero) (hR : R * rinv % p = 1) (hW : W = geo w 1 L) (hfull : full = List.replicate L (w - 1)) (hw : 0 < w) (h256 : w % 256 = 0)
    {tab : List (List (AffW (List Nat)))} (h : (tab.all fun r => r.all (montEntB p w L W full)) = true) :
    (tab.all fun r => r.all fun e => montOkB p W full e.X && (montOkB p W full e.Y && (O.nonzero e.Y && O.nonzero (O.opp e.Y)))) = true := by
  refine List.all_eq_true.2 fun r hr => List.all_eq_true.2 fun e he => ?_
  have h1 := List.all_eq_true.1 (List.all_eq_true.1 h r hr) e he
  simp only [montEntB, forceN_eq, Bool.and_eq_true, Nat.blt_eq] at h1
  obtain ⟨k1, k2, k3, k4, k5⟩ := h1
  simp only [Bool.and_eq_true, hz]
  refine ⟨k1, k2, k3, ?_⟩
  have hy := montOkB_sound k2
  obtain ⟨o1, o2⟩ := hs.opp _ hy
  have hR0 : (R : ZMod p)⁻¹ ≠ 0 := by
    have e := congrArg (fun t : Nat => (t : ZMod p)) hR
    simp only [ZMod.natCast_mod, Nat.cast_mul, Nat.cast_one] at e
    exact inv_ne_zero (left_ne_zero_of_mul_eq_one e)
  have e1 : ((dot W (O.opp e.Y) + dot W e.Y : Nat) : ZMod p) = 0 := by
    unfold montVal at o2
    rw [← neg_mul] at o2
    have := mul_right_cancel₀ hR0 o2
    rw [Nat.cast_add, this, neg_add_cancel]
  have e2 : dot W (O.opp e.Y) = p - dot W e.Y := by
    have d1 := (ZMod.natCast_eq_zero_iff _ _).1 e1
    obtain ⟨c, hc⟩ := d1
    have hl1 := o1.2; have hl2 := hy.2
    have : c = 1 := by
      rcases c with _ | _ | c
      · omega
      · rfl
      · exfalso; have : p * 2 ≤ p * (c + 1 + 1) := Nat.mul_le_mul_left _ (by omega)
        omega
    subst this
    omega
  have hb := o1.1
  rw [hfull] at hb
  obtain ⟨b1, b2⟩ := bounded_replicate hb hw
  refine limbsNonzero_of hw h256 (L := L) b2 ?_
  have e3 := dot_geo w (O.opp e.Y) L 1 b1
  rw [Nat.one_mul, ← hW] at e3
  rw [← e3, e2]
  exact k5

/-- A checked table in Edwards coordinates. -/
theorem eTable {p : Nat} [Fact p.Prime] {S T d : ZMod p} (hE : EdParams S T d) {ok : List Nat → Prop} {val : List Nat → ZMod p}
    {okB : List Nat → Bool} (hok : ∀ l, okB l = true → ok l) {rinv : Nat} {W : List Nat} (hdec : ∀ l, ((decL p rinv W l : Nat) : ZMod p) = val l)
    {tab : List (List (AffE (List Nat)))} {rows cols : Nat} {ch : List (Nat × Nat)} {u v dn : Nat} {gen : CurvePoint (edA S T) (edB S T)}
    (hlen : tab.length = rows) (h16 : (tab.all fun r => Nat.beq r.length 16) = true)
    (hent : (tab.all fun r => r.all fun e => okB e.X && (okB e.Y && (okB e.T &&
      Nat.beq (decL p rinv W e.T) (decL p rinv W e.X * decL p rinv W e.Y % p)))) = true)
    (hch : chainB (fun x1 y1 => eAddB p dn x1 y1 x1 y1) u v ch = true)
    (htab : tabB (eAddB p dn) (fun e : AffE (List Nat) => decL p rinv W e.X) (fun e => decL p rinv W e.Y) (5 * cols) ((u, v) :: ch) tab = true)
    (hd : (dn : ZMod p) = d) (hg : EPt S T u v gen) (j k : Nat) (hj : j < rows) (hk : k < 16) :
    ERepA ok val S T ((tab.getD j []).getD k ⟨[], [], []⟩) (((2 * k + 1) * 32 ^ (cols * j)) • gen) := by
  obtain ⟨r, hr, hrm, e, he, hem, hdd⟩ := getD_row (e0 := (⟨[], [], []⟩ : AffE (List Nat))) (hlen ▸ hj) hk h16
  rw [hdd]
  have h1 := List.all_eq_true.1 (List.all_eq_true.1 hent r hrm) e hem
  simp only [Bool.and_eq_true, Nat.beq_eq] at h1
  obtain ⟨k1, k2, k3, k4⟩ := h1
  have h2 := tab_sound (IsPt := EPt S T) (addB := eAddB p dn) (eAdd_sound hE hd) tab _ gen htab
    (chain_sound (IsPt := EPt S T) (fun x1 y1 x3 y3 g h hg => eAdd_sound hE hd x1 y1 x1 y1 x3 y3 g g h hg hg) ch u v gen hch hg) j k r e hr he
  rw [show (32 : Nat) ^ (cols * j) = 2 ^ (5 * cols * j) by rw [show (32 : Nat) = 2 ^ 5 by norm_num, ← pow_mul]; ring_nf]
  refine ⟨⟨hok _ k1, hok _ k2, hok _ k3⟩, ?_⟩
  obtain ⟨e1, e2⟩ := h2
  have e3 := congrArg (fun t : Nat => (t : ZMod p)) k4
  simp only [ZMod.natCast_mod, Nat.cast_mul] at e3
  rw [e1, e2, hdec] at e3
  rw [hdec] at e1 e2
  exact ⟨one_ne_zero, by rw [mul_one, e1], by rw [mul_one, e2], by rw [mul_one, e3]⟩

end Gost.Fiat
