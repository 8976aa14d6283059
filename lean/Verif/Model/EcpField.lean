import Verif.Model.EcpProgs
import Verif.Model.EcpSmul
import Verif.Spec.Gost28147
import Verif.Spec.Stream

/-!
# Point operations over a field implementation

The point operations of `/repo/ecp_*.c` run the field programs of `Verif/Model/EcpProgs.lean` over an implementation of the
field (`FeOps`); the result is the record of operations the scalar multiplications use (`SmulCode`).  The wrappers at the end
of each file convert scalars and coordinates from and to bytes and OpenSSL numbers.
-/

namespace Gost

/-- An implementation of the field: the functions `fiat_<curve>_*` of a file and its constants.  `fe_t` is the type `T`. -/
structure FeOps (T : Type) where
  mul : T → T → T
  sq : T → T
  add : T → T → T
  sub : T → T → T
  opp : T → T
  inv : T → T
  /-- `fe_set_zero` -/
  zero : T
  /-- `const_one` -/
  one : T
  /-- `fiat_*_nonzero(&nz, x)`: whether `nz` is not 0 -/
  nonzero : T → Bool
  /-- `from_bytes`, followed by `to_montgomery` in the files with Montgomery arithmetic -/
  fromBytes : Bytes → T
  /-- `to_bytes`, after `from_montgomery` in the files with Montgomery arithmetic -/
  toBytes : T → Bytes
  const_a : T
  const_b : T
  const_b3 : T
  const_d : T
  const_S : T
  const_T : T

variable {T : Type}

/-- One statement; `loc` says where a variable is stored: pointers of operands and result may be equal. -/
def FInstr.exec (O : FeOps T) (loc : FReg → FReg) (σ : FReg → T) : FInstr → FReg → T
  | .mul d a b => fun r => if r = loc d then O.mul (σ (loc a)) (σ (loc b)) else σ r
  | .sq d a => fun r => if r = loc d then O.sq (σ (loc a)) else σ r
  | .add d a b => fun r => if r = loc d then O.add (σ (loc a)) (σ (loc b)) else σ r
  | .sub d a b => fun r => if r = loc d then O.sub (σ (loc a)) (σ (loc b)) else σ r

/-- A sequence of statements. -/
def runF (O : FeOps T) (loc : FReg → FReg) : List FInstr → (FReg → T) → FReg → T
  | [], σ => σ
  | i :: p, σ => runF O loc p (i.exec O loc σ)

/-- Result and operands in different places. -/
def locId : FReg → FReg := id

/-- The result stored where the first operand is (`R` and `Q` the same pointer). -/
def locSame : FReg → FReg
  | .X3 => .X1
  | .Y3 => .Y1
  | .Z3 => .Z1
  | .T3 => .T1
  | r => r

/-- The variables at the start: coordinates of the operands `1` and `2`, the constants; anything else is not yet set. -/
def feInit (O : FeOps T) (x1 y1 z1 t1 x2 y2 z2 t2 : T) : FReg → T
  | .X1 => x1
  | .Y1 => y1
  | .Z1 => z1
  | .T1 => t1
  | .X2 => x2
  | .Y2 => y2
  | .Z2 => z2
  | .T2 => t2
  | .c_a => O.const_a
  | .c_b => O.const_b
  | .c_b3 => O.const_b3
  | .c_d => O.const_d
  | .c_S => O.const_S
  | .c_T => O.const_T
  | _ => O.zero

/-! ## Weierstrass coordinates -/

/-- `pt_prj_t`: projective coordinates (line 63 of `/repo/ecp_id_GostR3410_2001_CryptoPro_A_ParamSet.c`). -/
structure PtW (T : Type) where
  X : T
  Y : T
  Z : T

/-- `pt_aff_t`: affine coordinates. -/
structure AffW (T : Type) where
  X : T
  Y : T

/-- The programs of a file with Weierstrass coordinates. -/
structure WProgs where
  dbl : List FInstr
  mixed : List FInstr
  proj : List FInstr

/-- Files with `a = -3`. -/
def am3Progs : WProgs := ⟨am3_point_double, am3_point_add_mixed, am3_point_add_proj⟩

/-- The file with general `a`. -/
def genProgs : WProgs := ⟨gen_point_double, gen_point_add_mixed, gen_point_add_proj⟩

/-- `point_double(Q, P)`. -/
def wDouble (O : FeOps T) (W : WProgs) (loc : FReg → FReg) (P : PtW T) : PtW T :=
  let σ := runF O loc W.dbl (feInit O P.X P.Y P.Z O.zero O.zero O.zero O.zero O.zero)
  ⟨σ (loc .X3), σ (loc .Y3), σ (loc .Z3)⟩

/-- `point_add_mixed(R, Q, P)`: for `P` with a literally zero `Y` the result is `Q`. -/
def wAddMixed (O : FeOps T) (W : WProgs) (Q : PtW T) (P : AffW T) : PtW T :=
  let σ := runF O locId W.mixed (feInit O Q.X Q.Y Q.Z O.zero P.X P.Y O.zero O.zero)
  let nz := O.nonzero P.Y
  ⟨if nz then σ .X3 else Q.X, if nz then σ .Y3 else Q.Y, if nz then σ .Z3 else Q.Z⟩

/-- `point_add_proj(R, Q, P)`. -/
def wAddProj (O : FeOps T) (W : WProgs) (loc : FReg → FReg) (Q P : PtW T) : PtW T :=
  let σ := runF O loc W.proj (feInit O Q.X Q.Y Q.Z O.zero P.X P.Y P.Z O.zero)
  ⟨σ (loc .X3), σ (loc .Y3), σ (loc .Z3)⟩

/-- The operations of a file with Weierstrass coordinates.  Calls with equal pointers give the same results as calls with
different ones (`Verif/Props/EcpFormulas.lean`), so one function per operation suffices. -/
def wCode (O : FeOps T) (W : WProgs) (lut : Nat → Nat → AffW T) (nb n rows cols : Nat) : SmulCode (PtW T) (AffW T) (AffW T) where
  point_double := wDouble O W locId
  point_add_mixed := wAddMixed O W
  point_add_proj := wAddProj O W locId
  opp P := { P with Y := O.opp P.Y }
  oppAff P := { P with Y := O.opp P.Y }
  ofLeg P := ⟨P.X, P.Y, O.one⟩
  ofAff P := ⟨P.X, P.Y, O.one⟩
  inf := ⟨O.zero, O.one, O.zero⟩
  zeroPrj := ⟨O.zero, O.zero, O.zero⟩
  zeroAff := ⟨O.zero, O.zero⟩
  toLeg Q := let Z := O.inv Q.Z; ⟨O.mul Q.X Z, O.mul Q.Y Z⟩
  lut_cmb := lut
  nb := nb
  n := n
  rows := rows
  cols := cols
  finalDoubles := 0

/-! ## Edwards coordinates -/

/-- `pt_prj_t` in the files with Edwards coordinates: extended coordinates. -/
structure PtE (α : Type) where
  X : α
  Y : α
  T : α
  Z : α

/-- `pt_aff_t` in the files with Edwards coordinates, as used for table entries. -/
structure AffE (α : Type) where
  X : α
  Y : α
  T : α

/-- `point_double(Q, P)`, Edwards coordinates. -/
def eDouble (O : FeOps T) (loc : FReg → FReg) (P : PtE T) : PtE T :=
  let σ := runF O loc ed_point_double (feInit O P.X P.Y P.Z P.T O.zero O.zero O.zero O.zero)
  ⟨σ (loc .X3), σ (loc .Y3), σ (loc .T3), σ (loc .Z3)⟩

/-- `point_add_mixed(R, Q, P)`, Edwards coordinates. -/
def eAddMixed (O : FeOps T) (loc : FReg → FReg) (Q : PtE T) (P : AffE T) : PtE T :=
  let σ := runF O loc ed_point_add_mixed (feInit O Q.X Q.Y Q.Z Q.T P.X P.Y O.zero P.T)
  ⟨σ (loc .X3), σ (loc .Y3), σ (loc .T3), σ (loc .Z3)⟩

/-- `point_add_proj(R, Q, P)`, Edwards coordinates. -/
def eAddProj (O : FeOps T) (loc : FReg → FReg) (Q P : PtE T) : PtE T :=
  let σ := runF O loc ed_point_add_proj (feInit O Q.X Q.Y Q.Z Q.T P.X P.Y P.Z P.T)
  ⟨σ (loc .X3), σ (loc .Y3), σ (loc .T3), σ (loc .Z3)⟩

/-- `point_edwards2legacy(Q, P)`. -/
def edwards2legacy (O : FeOps T) (loc : FReg → FReg) (P : PtE T) : PtE T :=
  let σ := runF O loc ed_point_edwards2legacy (feInit O P.X P.Y P.Z P.T O.zero O.zero O.zero O.zero)
  ⟨σ (loc .X3), σ (loc .Y3), σ (loc .T3), σ (loc .Z3)⟩

/-- `point_legacy2edwards(Q, P)`. -/
def legacy2edwards (O : FeOps T) (P : AffW T) : PtE T :=
  let σ := runF O locId ed_point_legacy2edwards (feInit O P.X P.Y O.zero O.zero O.zero O.zero O.zero O.zero)
  ⟨σ .X3, σ .Y3, σ .T3, σ .Z3⟩

/-- The operations of a file with Edwards coordinates. -/
def eCode (O : FeOps T) (lut : Nat → Nat → AffE T) (nb n rows cols : Nat) : SmulCode (PtE T) (AffE T) (AffW T) where
  point_double := eDouble O locId
  point_add_mixed := eAddMixed O locId
  point_add_proj := eAddProj O locId
  opp P := { P with X := O.opp P.X, T := O.opp P.T }
  oppAff P := { P with X := O.opp P.X, T := O.opp P.T }
  ofLeg P := legacy2edwards O P
  ofAff P := ⟨P.X, P.Y, P.T, O.one⟩
  inf := ⟨O.zero, O.one, O.zero, O.one⟩
  zeroPrj := ⟨O.zero, O.zero, O.zero, O.zero⟩
  zeroAff := ⟨O.zero, O.zero, O.zero⟩
  toLeg Q :=
    let Q := edwards2legacy O locId Q
    let Z := O.inv Q.Z
    ⟨O.mul Q.X Z, O.mul Q.Y Z⟩
  lut_cmb := lut
  nb := nb
  n := n
  rows := rows
  cols := cols
  finalDoubles := 2

/-! ## Wrappers -/

section Wrappers
open Spec (leNat leBytes)
variable {prj aff : Type}

/-- `point_mul`, `/repo/ecp_id_GostR3410_2001_CryptoPro_A_ParamSet.c` lines 3608-3622: all byte strings little-endian. -/
def point_mul (O : FeOps T) (C : SmulCode prj aff (AffW T)) (scalar inx iny : Bytes) : Bytes × Bytes :=
  let P := var_smul_rwnaf C scalar ⟨O.fromBytes inx, O.fromBytes iny⟩
  (O.toBytes P.X, O.toBytes P.Y)

/-- `point_mul_g`, lines 3592-3600. -/
def point_mul_g (O : FeOps T) (C : SmulCode prj aff (AffW T)) (scalar : Bytes) : Bytes × Bytes :=
  let P := fixed_smul_cmb C scalar
  (O.toBytes P.X, O.toBytes P.Y)

/-- `point_mul_two`, lines 3572-3586. -/
def point_mul_two (O : FeOps T) (C : SmulCode prj aff (AffW T)) (a b inx iny : Bytes) : Bytes × Bytes :=
  let P := var_smul_wnaf_two C a b ⟨O.fromBytes inx, O.fromBytes iny⟩
  (O.toBytes P.X, O.toBytes P.Y)

/-- A point as OpenSSL delivers it: affine coordinates, or none at infinity. -/
abbrev EcPoint := Option (Nat × Nat)

/-- `BN_bn2lebinpad(n, buf, len) == len`. -/
def lebinpad (len n : Nat) : Option Bytes := if n < 256 ^ len then some (leBytes len n) else none

/-- The end of the wrappers, lines 3654-3666: both coordinates zero means infinity, other coordinates must be on the curve
(`setAffine` is the check in `EC_POINT_set_affine_coordinates`). -/
def ecpResult (setAffine : Nat → Nat → Bool) (nb : Nat) (r : Bytes × Bytes) : Option EcPoint :=
  if r.1 = zeros nb ∧ r.2 = zeros nb then some none
  else if setAffine (leNat r.1) (leNat r.2) then some (some (leNat r.1, leNat r.2)) else none

/-- `point_mul_two_<curve>(group, r, n, q, m, ctx)`, lines 3632-3671: the result, or `none` for a return value of 0. -/
def ecp_mul_two (O : FeOps T) (C : SmulCode prj aff (AffW T)) (setAffine : Nat → Nat → Bool) (n : Nat) (q : EcPoint) (m : Nat) : Option EcPoint := do
  let (x, y) ← q
  let b_x ← lebinpad C.nb x
  let b_y ← lebinpad C.nb y
  let b_n ← lebinpad C.nb n
  let b_m ← lebinpad C.nb m
  ecpResult setAffine C.nb (point_mul_two O C b_n b_m b_x b_y)

/-- `point_mul_<curve>(group, r, q, m, ctx)`, lines 3674-3712. -/
def ecp_mul (O : FeOps T) (C : SmulCode prj aff (AffW T)) (setAffine : Nat → Nat → Bool) (q : EcPoint) (m : Nat) : Option EcPoint := do
  let (x, y) ← q
  let b_x ← lebinpad C.nb x
  let b_y ← lebinpad C.nb y
  let b_m ← lebinpad C.nb m
  ecpResult setAffine C.nb (point_mul O C b_m b_x b_y)

/-- `point_mul_g_<curve>(group, r, n, ctx)`, lines 3717-3750. -/
def ecp_mul_g (O : FeOps T) (C : SmulCode prj aff (AffW T)) (setAffine : Nat → Nat → Bool) (n : Nat) : Option EcPoint := do
  let b_n ← lebinpad C.nb n
  ecpResult setAffine C.nb (point_mul_g O C b_n)

end Wrappers

end Gost
