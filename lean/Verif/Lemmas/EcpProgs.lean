import Verif.Model.EcpField
import Mathlib.Algebra.Field.Basic
import Mathlib.Tactic.Ring
import Mathlib.Tactic.LinearCombination

/-!
# What the field programs compute

Over a field the programs of `Verif/Model/EcpProgs.lean` evaluate to polynomials in the coordinates.
-/

namespace Gost

variable {F : Type} [Field F]

/-- Arithmetic of a field with the given constants. -/
def idealOps (ca cb cb3 cd cS cT : F) : FeOps F where
  mul x y := x * y
  sq x := x * x
  add x y := x + y
  sub x y := x - y
  opp x := -x
  inv x := x⁻¹
  zero := 0
  one := 1
  nonzero _ := true
  fromBytes _ := 0
  toBytes _ := []
  const_a := ca
  const_b := cb
  const_b3 := cb3
  const_d := cd
  const_S := cS
  const_T := cT

/-- `X` coordinate of a sum by the complete formulas for `y² z = x³ + a x z² + b z³`. -/
def rcbX (a b X1 Y1 Z1 X2 Y2 Z2 : F) : F :=
  (X1 * Y2 + X2 * Y1) * (Y1 * Y2 - a * (X1 * Z2 + X2 * Z1) - 3 * b * Z1 * Z2)
    - (Y1 * Z2 + Y2 * Z1) * (a * X1 * X2 + 3 * b * (X1 * Z2 + X2 * Z1) - a ^ 2 * Z1 * Z2)

/-- `Y` coordinate. -/
def rcbY (a b X1 Y1 Z1 X2 Y2 Z2 : F) : F :=
  (3 * X1 * X2 + a * Z1 * Z2) * (a * X1 * X2 + 3 * b * (X1 * Z2 + X2 * Z1) - a ^ 2 * Z1 * Z2)
    + (Y1 * Y2 + a * (X1 * Z2 + X2 * Z1) + 3 * b * Z1 * Z2) * (Y1 * Y2 - a * (X1 * Z2 + X2 * Z1) - 3 * b * Z1 * Z2)

/-- `Z` coordinate. -/
def rcbZ (a b X1 Y1 Z1 X2 Y2 Z2 : F) : F :=
  (Y1 * Z2 + Y2 * Z1) * (Y1 * Y2 + a * (X1 * Z2 + X2 * Z1) + 3 * b * Z1 * Z2) + (X1 * Y2 + X2 * Y1) * (3 * X1 * X2 + a * Z1 * Z2)

theorem am3_double_eval (a b b3 d S T X1 Y1 Z1 T1 X2 Y2 Z2 T2 : F) :
    let σ := runF (idealOps a b b3 d S T) locId am3_point_double (feInit (idealOps a b b3 d S T) X1 Y1 Z1 T1 X2 Y2 Z2 T2)
    σ .X3 = rcbX (-3) b X1 Y1 Z1 X1 Y1 Z1 ∧ σ .Y3 = rcbY (-3) b X1 Y1 Z1 X1 Y1 Z1 ∧ σ .Z3 = 8 * Y1 ^ 3 * Z1 := by
  simp only [am3_point_double, runF, FInstr.exec, locId, id, feInit, idealOps, reduceCtorEq, if_true, if_false, rcbX, rcbY, rcbZ]
  refine ⟨?_, ?_, ?_⟩ <;> ring

theorem am3_mixed_eval (a b b3 d S T X1 Y1 Z1 T1 X2 Y2 Z2 T2 : F) :
    let σ := runF (idealOps a b b3 d S T) locId am3_point_add_mixed (feInit (idealOps a b b3 d S T) X1 Y1 Z1 T1 X2 Y2 Z2 T2)
    σ .X3 = rcbX (-3) b X1 Y1 Z1 X2 Y2 1 ∧ σ .Y3 = rcbY (-3) b X1 Y1 Z1 X2 Y2 1 ∧ σ .Z3 = rcbZ (-3) b X1 Y1 Z1 X2 Y2 1 := by
  simp only [am3_point_add_mixed, runF, FInstr.exec, locId, id, feInit, idealOps, reduceCtorEq, if_true, if_false, rcbX, rcbY, rcbZ]
  refine ⟨?_, ?_, ?_⟩ <;> ring

theorem am3_proj_eval (a b b3 d S T X1 Y1 Z1 T1 X2 Y2 Z2 T2 : F) :
    let σ := runF (idealOps a b b3 d S T) locId am3_point_add_proj (feInit (idealOps a b b3 d S T) X1 Y1 Z1 T1 X2 Y2 Z2 T2)
    σ .X3 = rcbX (-3) b X1 Y1 Z1 X2 Y2 Z2 ∧ σ .Y3 = rcbY (-3) b X1 Y1 Z1 X2 Y2 Z2 ∧ σ .Z3 = rcbZ (-3) b X1 Y1 Z1 X2 Y2 Z2 := by
  simp only [am3_point_add_proj, runF, FInstr.exec, locId, id, feInit, idealOps, reduceCtorEq, if_true, if_false, rcbX, rcbY, rcbZ]
  refine ⟨?_, ?_, ?_⟩ <;> ring

theorem gen_double_eval (a b b' d S T X1 Y1 Z1 T1 X2 Y2 Z2 T2 : F) :
    let σ := runF (idealOps a b' (3 * b) d S T) locId gen_point_double (feInit (idealOps a b' (3 * b) d S T) X1 Y1 Z1 T1 X2 Y2 Z2 T2)
    σ .X3 = rcbX a b X1 Y1 Z1 X1 Y1 Z1 ∧ σ .Y3 = rcbY a b X1 Y1 Z1 X1 Y1 Z1 ∧ σ .Z3 = 8 * Y1 ^ 3 * Z1 := by
  simp only [gen_point_double, runF, FInstr.exec, locId, id, feInit, idealOps, reduceCtorEq, if_true, if_false, rcbX, rcbY, rcbZ]
  refine ⟨?_, ?_, ?_⟩ <;> ring

theorem gen_mixed_eval (a b b' d S T X1 Y1 Z1 T1 X2 Y2 Z2 T2 : F) :
    let σ := runF (idealOps a b' (3 * b) d S T) locId gen_point_add_mixed (feInit (idealOps a b' (3 * b) d S T) X1 Y1 Z1 T1 X2 Y2 Z2 T2)
    σ .X3 = rcbX a b X1 Y1 Z1 X2 Y2 1 ∧ σ .Y3 = rcbY a b X1 Y1 Z1 X2 Y2 1 ∧ σ .Z3 = rcbZ a b X1 Y1 Z1 X2 Y2 1 := by
  simp only [gen_point_add_mixed, runF, FInstr.exec, locId, id, feInit, idealOps, reduceCtorEq, if_true, if_false, rcbX, rcbY, rcbZ]
  refine ⟨?_, ?_, ?_⟩ <;> ring

theorem gen_proj_eval (a b b' d S T X1 Y1 Z1 T1 X2 Y2 Z2 T2 : F) :
    let σ := runF (idealOps a b' (3 * b) d S T) locId gen_point_add_proj (feInit (idealOps a b' (3 * b) d S T) X1 Y1 Z1 T1 X2 Y2 Z2 T2)
    σ .X3 = rcbX a b X1 Y1 Z1 X2 Y2 Z2 ∧ σ .Y3 = rcbY a b X1 Y1 Z1 X2 Y2 Z2 ∧ σ .Z3 = rcbZ a b X1 Y1 Z1 X2 Y2 Z2 := by
  simp only [gen_point_add_proj, runF, FInstr.exec, locId, id, feInit, idealOps, reduceCtorEq, if_true, if_false, rcbX, rcbY, rcbZ]
  refine ⟨?_, ?_, ?_⟩ <;> ring

/-! ## Edwards coordinates -/

theorem ed_double_eval (a b b3 d S T X1 Y1 Z1 T1 X2 Y2 Z2 T2 : F) :
    let σ := runF (idealOps a b b3 d S T) locId ed_point_double (feInit (idealOps a b b3 d S T) X1 Y1 Z1 T1 X2 Y2 Z2 T2)
    σ .X3 = 2 * X1 * Y1 * (X1 ^ 2 + Y1 ^ 2 - 2 * Z1 ^ 2) ∧ σ .Y3 = (X1 ^ 2 + Y1 ^ 2) * (X1 ^ 2 - Y1 ^ 2) ∧ σ .T3 = 2 * X1 * Y1 * (X1 ^ 2 - Y1 ^ 2) ∧ σ .Z3 = (X1 ^ 2 + Y1 ^ 2 - 2 * Z1 ^ 2) * (X1 ^ 2 + Y1 ^ 2) := by
  simp only [ed_point_double, runF, FInstr.exec, locId, id, feInit, idealOps, reduceCtorEq, if_true, if_false]
  refine ⟨?_, ?_, ?_, ?_⟩ <;> ring

theorem ed_mixed_eval (a b b3 d S T X1 Y1 Z1 T1 X2 Y2 Z2 T2 : F) :
    let σ := runF (idealOps a b b3 d S T) locId ed_point_add_mixed (feInit (idealOps a b b3 d S T) X1 Y1 Z1 T1 X2 Y2 Z2 T2)
    σ .X3 = (X1 * Y2 + Y1 * X2) * (Z1 - d * T1 * T2) ∧ σ .Y3 = (Z1 + d * T1 * T2) * (Y1 * Y2 - X1 * X2) ∧ σ .T3 = (X1 * Y2 + Y1 * X2) * (Y1 * Y2 - X1 * X2) ∧ σ .Z3 = (Z1 - d * T1 * T2) * (Z1 + d * T1 * T2) := by
  simp only [ed_point_add_mixed, runF, FInstr.exec, locId, id, feInit, idealOps, reduceCtorEq, if_true, if_false]
  refine ⟨?_, ?_, ?_, ?_⟩ <;> ring

theorem ed_proj_eval (a b b3 d S T X1 Y1 Z1 T1 X2 Y2 Z2 T2 : F) :
    let σ := runF (idealOps a b b3 d S T) locId ed_point_add_proj (feInit (idealOps a b b3 d S T) X1 Y1 Z1 T1 X2 Y2 Z2 T2)
    σ .X3 = (X1 * Y2 + Y1 * X2) * (Z1 * Z2 - d * T1 * T2) ∧ σ .Y3 = (Z1 * Z2 + d * T1 * T2) * (Y1 * Y2 - X1 * X2) ∧ σ .T3 = (X1 * Y2 + Y1 * X2) * (Y1 * Y2 - X1 * X2) ∧ σ .Z3 = (Z1 * Z2 - d * T1 * T2) * (Z1 * Z2 + d * T1 * T2) := by
  simp only [ed_point_add_proj, runF, FInstr.exec, locId, id, feInit, idealOps, reduceCtorEq, if_true, if_false]
  refine ⟨?_, ?_, ?_, ?_⟩ <;> ring

theorem ed_e2l_eval (a b b3 d S T X1 Y1 Z1 T1 X2 Y2 Z2 T2 : F) :
    let σ := runF (idealOps a b b3 d S T) locId ed_point_edwards2legacy (feInit (idealOps a b b3 d S T) X1 Y1 Z1 T1 X2 Y2 Z2 T2)
    σ .X3 = X1 * (S * (Z1 + Y1) + T * (Z1 - Y1)) ∧ σ .Y3 = Z1 * S * (Z1 + Y1) ∧ σ .Z3 = X1 * (Z1 - Y1) := by
  simp only [ed_point_edwards2legacy, runF, FInstr.exec, locId, id, feInit, idealOps, reduceCtorEq, if_true, if_false]
  refine ⟨?_, ?_, ?_⟩ <;> first | trivial | ring

theorem ed_l2e_eval (a b b3 d S T X1 Y1 Z1 T1 X2 Y2 Z2 T2 : F) :
    let σ := runF (idealOps a b b3 d S T) locId ed_point_legacy2edwards (feInit (idealOps a b b3 d S T) X1 Y1 Z1 T1 X2 Y2 Z2 T2)
    σ .X3 = (X1 - T) * (X1 - T + S) * (Y1 * (X1 - T + S)) ∧ σ .Y3 = Y1 * (X1 - T - S) * (Y1 * (X1 - T + S)) ∧ σ .T3 = (X1 - T) * (X1 - T + S) * (Y1 * (X1 - T - S)) ∧ σ .Z3 = (Y1 * (X1 - T + S)) ^ 2 := by
  simp only [ed_point_legacy2edwards, runF, FInstr.exec, locId, id, feInit, idealOps, reduceCtorEq, if_true, if_false]
  refine ⟨?_, ?_, ?_, ?_⟩ <;> first | trivial | ring

/-! ## Equal pointers

The calls with the result stored over the first operand compute the same as calls with different places, for any
implementation of the field. -/

theorem am3_point_double_alias {T : Type} (O : FeOps T) (σ : FReg → T) :
    runF O locSame am3_point_double σ (locSame .X3) = runF O locId am3_point_double σ .X3 ∧ runF O locSame am3_point_double σ (locSame .Y3) = runF O locId am3_point_double σ .Y3 ∧ runF O locSame am3_point_double σ (locSame .Z3) = runF O locId am3_point_double σ .Z3 := by
  simp only [am3_point_double, runF, FInstr.exec, locId, locSame, id, reduceCtorEq, if_true, if_false, and_self]

theorem am3_point_add_proj_alias {T : Type} (O : FeOps T) (σ : FReg → T) :
    runF O locSame am3_point_add_proj σ (locSame .X3) = runF O locId am3_point_add_proj σ .X3 ∧ runF O locSame am3_point_add_proj σ (locSame .Y3) = runF O locId am3_point_add_proj σ .Y3 ∧ runF O locSame am3_point_add_proj σ (locSame .Z3) = runF O locId am3_point_add_proj σ .Z3 := by
  simp only [am3_point_add_proj, runF, FInstr.exec, locId, locSame, id, reduceCtorEq, if_true, if_false, and_self]

theorem gen_point_double_alias {T : Type} (O : FeOps T) (σ : FReg → T) :
    runF O locSame gen_point_double σ (locSame .X3) = runF O locId gen_point_double σ .X3 ∧ runF O locSame gen_point_double σ (locSame .Y3) = runF O locId gen_point_double σ .Y3 ∧ runF O locSame gen_point_double σ (locSame .Z3) = runF O locId gen_point_double σ .Z3 := by
  simp only [gen_point_double, runF, FInstr.exec, locId, locSame, id, reduceCtorEq, if_true, if_false, and_self]

theorem gen_point_add_proj_alias {T : Type} (O : FeOps T) (σ : FReg → T) :
    runF O locSame gen_point_add_proj σ (locSame .X3) = runF O locId gen_point_add_proj σ .X3 ∧ runF O locSame gen_point_add_proj σ (locSame .Y3) = runF O locId gen_point_add_proj σ .Y3 ∧ runF O locSame gen_point_add_proj σ (locSame .Z3) = runF O locId gen_point_add_proj σ .Z3 := by
  simp only [gen_point_add_proj, runF, FInstr.exec, locId, locSame, id, reduceCtorEq, if_true, if_false, and_self]

theorem ed_point_double_alias {T : Type} (O : FeOps T) (σ : FReg → T) :
    runF O locSame ed_point_double σ (locSame .X3) = runF O locId ed_point_double σ .X3 ∧ runF O locSame ed_point_double σ (locSame .Y3) = runF O locId ed_point_double σ .Y3 ∧ runF O locSame ed_point_double σ (locSame .T3) = runF O locId ed_point_double σ .T3 ∧ runF O locSame ed_point_double σ (locSame .Z3) = runF O locId ed_point_double σ .Z3 := by
  simp only [ed_point_double, runF, FInstr.exec, locId, locSame, id, reduceCtorEq, if_true, if_false, and_self]

theorem ed_point_add_mixed_alias {T : Type} (O : FeOps T) (σ : FReg → T) :
    runF O locSame ed_point_add_mixed σ (locSame .X3) = runF O locId ed_point_add_mixed σ .X3 ∧ runF O locSame ed_point_add_mixed σ (locSame .Y3) = runF O locId ed_point_add_mixed σ .Y3 ∧ runF O locSame ed_point_add_mixed σ (locSame .T3) = runF O locId ed_point_add_mixed σ .T3 ∧ runF O locSame ed_point_add_mixed σ (locSame .Z3) = runF O locId ed_point_add_mixed σ .Z3 := by
  simp only [ed_point_add_mixed, runF, FInstr.exec, locId, locSame, id, reduceCtorEq, if_true, if_false, and_self]

theorem ed_point_add_proj_alias {T : Type} (O : FeOps T) (σ : FReg → T) :
    runF O locSame ed_point_add_proj σ (locSame .X3) = runF O locId ed_point_add_proj σ .X3 ∧ runF O locSame ed_point_add_proj σ (locSame .Y3) = runF O locId ed_point_add_proj σ .Y3 ∧ runF O locSame ed_point_add_proj σ (locSame .T3) = runF O locId ed_point_add_proj σ .T3 ∧ runF O locSame ed_point_add_proj σ (locSame .Z3) = runF O locId ed_point_add_proj σ .Z3 := by
  simp only [ed_point_add_proj, runF, FInstr.exec, locId, locSame, id, reduceCtorEq, if_true, if_false, and_self]

theorem ed_point_edwards2legacy_alias {T : Type} (O : FeOps T) (σ : FReg → T) :
    runF O locSame ed_point_edwards2legacy σ (locSame .X3) = runF O locId ed_point_edwards2legacy σ .X3 ∧ runF O locSame ed_point_edwards2legacy σ (locSame .Y3) = runF O locId ed_point_edwards2legacy σ .Y3 ∧ runF O locSame ed_point_edwards2legacy σ (locSame .Z3) = runF O locId ed_point_edwards2legacy σ .Z3 := by
  simp only [ed_point_edwards2legacy, runF, FInstr.exec, locId, locSame, id, reduceCtorEq, if_true, if_false, and_self]

end Gost
