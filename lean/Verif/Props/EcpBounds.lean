import Verif.Lemmas.CtBounds
import Verif.Props.EcpTrace

/-!
# C91: the scalar multiplications stay inside their arrays and do not use what they have not written

The programs are those of C90 (`Verif/Model/EcpTrace.lean`).
-/

namespace Gost.Ct

variable {prj aff leg : Type}

/-- All accesses stay inside: scalars of `nb` bytes, arrays of `len` digits, the 16 points of `precomp`, the `rows` rows of 16
points of `lut_cmb`. -/
def Inside (nb len rows : Nat) (trace : List Ev) : Prop :=
  (∀ i, Ev.addr .scalar i ∈ trace ∨ Ev.addr .scalar2 i ∈ trace → 0 ≤ i ∧ i < (nb : Int)) ∧
  (∀ i, Ev.addr .rnaf i ∈ trace ∨ Ev.addr .bnaf i ∈ trace → 0 ≤ i ∧ i < (len : Int)) ∧
  (∀ i, Ev.precomp i ∈ trace → 0 ≤ i ∧ i < 16) ∧
  (∀ r c, Ev.table r c ∈ trace → 0 ≤ r ∧ r < (rows : Int) ∧ 0 ≤ c ∧ c < 16)

theorem Ok.inside {lut : Nat → Nat → aff} {nb len rows : Nat} {p : Stmt prj aff leg} {s : State prj aff leg}
    (h : Ok lut (InBounds nb len rows) p s) : Inside nb len rows (run lut p s).2 :=
  ⟨fun _ hi => hi.elim (fun hi => h.all _ hi) (fun hi => h.all _ hi), fun _ hi => hi.elim (fun hi => h.all _ hi) (fun hi => h.all _ hi),
    fun _ hi => h.all _ hi, fun _ _ hi => h.all _ hi⟩

/-- **C91**: the multiplication of a point reads only bytes of the scalar, and uses its array of `n + 1` digits (52 in the files
with 256 bits, 103 in those with 512 bits) and its table of 16 points only inside, whatever the scalar, the point and the old
contents of the memory. -/
theorem C91_mul_inside (O : SmulCode prj aff leg) (hnb : 0 < O.nb) (s : State prj aff leg) :
    Inside O.nb (O.n + 1) O.rows (run O.lut_cmb (varSmulProg O) s).2 :=
  (ok_varSmul O O.rows hnb s).inside

/-- **C91**: the same for the multiplication of the base point and its table of `rows` rows. -/
theorem C91_mul_g_inside (O : SmulCode prj aff leg) (hnb : 0 < O.nb) (hrows : 0 < O.rows) (s : State prj aff leg) :
    Inside O.nb (O.n + 1) O.rows (run O.lut_cmb (fixedSmulProg O) s).2 :=
  (ok_fixedSmul O hnb hrows s).inside

/-- **C91**: the same for the simultaneous multiplication, whose arrays have `8 nb + 1` digits (257 or 513); here the indices of
the tables come from the digits. -/
theorem C91_two_inside (O : SmulCode prj aff leg) (hnb : 0 < O.nb) (hrows : 0 < O.rows) (a b : Bytes) (s : State prj aff leg)
    (ha : s.arr .scalar = bytesArr a) (hb : s.arr .scalar2 = bytesArr b) :
    Inside O.nb (8 * O.nb + 1) O.rows (run O.lut_cmb (twoProg O) s).2 :=
  (ok_two O hnb hrows a b s ha hb).inside

/-- **C91**: the result depends on the scalar and the point only: whatever the variables, the arrays and `precomp` held before. -/
theorem C91_mul_memory (O : SmulCode prj aff leg) (scalar : Bytes) (s : State prj aff leg) (hs : s.arr .scalar = bytesArr scalar) :
    O.toLeg ((run O.lut_cmb (varSmulProg O) s).1.pt .Q) = var_smul_rwnaf O scalar s.P := by
  rw [varSmul_result _ _ _ _ hs]; rfl

/-- **C91**: the result of the multiplication of the base point depends on the scalar only. -/
theorem C91_mul_g_memory (O : SmulCode prj aff leg) (scalar : Bytes) (s : State prj aff leg) (hs : s.arr .scalar = bytesArr scalar) :
    O.toLeg ((run O.lut_cmb (fixedSmulProg O) s).1.pt .Q) = fixed_smul_cmb O scalar := by
  rw [fixedSmul_result _ _ _ hs]; rfl

/-- **C91**: the result of the simultaneous multiplication depends on the scalars and the point only. -/
theorem C91_two_memory (O : SmulCode prj aff leg) (a b : Bytes) (s : State prj aff leg)
    (ha : s.arr .scalar = bytesArr a) (hb : s.arr .scalar2 = bytesArr b) :
    O.toLeg ((run O.lut_cmb (twoProg O) s).1.pt .Q) = var_smul_wnaf_two O a b s.P := by
  rw [two_result _ _ _ _ ha hb]; rfl

/-! ## A concrete case -/

/-- A memory full of other values. -/
def dirty (a b : Bytes) (P : Int) : State Int Int Int where
  vars := fun _ => 77
  arr := fun x i => if x = .scalar then bytesArr a i else if x = .scalar2 then bytesArr b i else 99
  pt := fun _ => 1234
  af := fun _ => 5678
  precomp := fun _ => 4321
  P := P

example : Inside 1 3 2 (run intCode.lut_cmb (varSmulProg intCode) (dirty [200] [] 6)).2 ∧
    Inside 1 3 2 (run intCode.lut_cmb (fixedSmulProg intCode) (dirty [200] [] 6)).2 ∧
    Inside 1 9 2 (run intCode.lut_cmb (twoProg intCode) (dirty [200] [255] 6)).2 :=
  ⟨C91_mul_inside intCode (by decide) _, C91_mul_g_inside intCode (by decide) (by decide) _,
    C91_two_inside intCode (by decide) (by decide) [200] [255] _ (by funext i; simp [dirty]) (by funext i; simp [dirty])⟩

/-- The accesses are really there: the last digit, the last entry of `precomp`, and an entry of the last row. -/
example : (Ev.addr .rnaf 2 ∈ (run intCode.lut_cmb (varSmulProg intCode) (dirty [200] [] 6)).2) ∧
    (Ev.precomp 15 ∈ (run intCode.lut_cmb (varSmulProg intCode) (dirty [200] [] 6)).2) ∧
    (Ev.table 1 15 ∈ (run intCode.lut_cmb (fixedSmulProg intCode) (dirty [200] [] 6)).2) := by decide +kernel

example : (run intCode.lut_cmb (varSmulProg intCode) (dirty [200] [] 6)).1.pt .Q = 1200 ∧
    (run intCode.lut_cmb (fixedSmulProg intCode) (dirty [200] [] 6)).1.pt .Q = 200 ∧
    (run intCode.lut_cmb (twoProg intCode) (dirty [200] [255] 6)).1.pt .Q = 1730 := by decide +kernel

end Gost.Ct
