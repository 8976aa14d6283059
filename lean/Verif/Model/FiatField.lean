import Verif.Model.Fiat
import Verif.Model.EcpField

/-!
# The field implementations of the curve files

The functions of a file put together to the record of operations the point operations use (`FeOps`).  Field elements are lists
of limbs.  The files `/repo/ecp_id_GostR3410_2001_CryptoPro_A_ParamSet.c` and those of the 256 bit curve A and the 512 bit
curves A and C have unsaturated limbs (`FiatSol`), the others Montgomery arithmetic with full words (`FiatMont`).  Line numbers
refer to `/repo/ecp_id_GostR3410_2001_CryptoPro_A_ParamSet.c` unless another file is named.
-/

namespace Gost

/-- Statements of `fiat_<curve>_inv`, lines 1125-1180; variables are numbered, 0 is the argument and the result (which are the
same variable in every call of the function). -/
inductive InvStep
  /-- `carry_mul(d, a, b)` (`mul` with Montgomery arithmetic) -/
  | mul (d a b : Nat)
  /-- `carry_square(d, a)`, `n` times (`n` is 1 or `d = a` and the statement is the body of a loop) -/
  | sq (d a n : Nat)
deriving DecidableEq, Repr

/-- `n` calls of a function. -/
def iterate {α : Type} (f : α → α) : Nat → α → α
  | 0, x => x
  | n + 1, x => iterate f n (f x)

/-- One statement of the inversion. -/
def InvStep.exec {T : Type} (mul : T → T → T) (sq : T → T) (dflt : T) (σ : List T) : InvStep → List T
  | .mul d a b => σ.set d (mul (σ.getD a dflt) (σ.getD b dflt))
  | .sq d a n => σ.set d (iterate sq n (σ.getD a dflt))

/-- `fiat_<curve>_inv`: 32 variables are enough for all files. -/
def invRun {T : Type} (mul : T → T → T) (sq : T → T) (dflt : T) (chain : List InvStep) (x : T) : T :=
  (chain.foldl (fun σ s => s.exec mul sq dflt σ) (x :: List.replicate 31 dflt)).getD 0 dflt

/-- `fiat_<curve>_nonzero` followed by `selectznz`, lines 3120-3131 and 3154-3158: the disjunction of the limbs is passed as
`uint1`, an `unsigned char`, so only its low byte counts. -/
def limbsNonzero (x : List Nat) : Bool := x.foldl (· ||| ·) 0 % 256 != 0

/-- Byte strings as arrays of numbers. -/
def byteNats (b : Bytes) : List Nat := b.map BitVec.toNat

/-- Arrays of numbers stored as bytes. -/
def natBytes (l : List Nat) : Bytes := l.map (BitVec.ofNat 8)

/-- The constants of a file; those it does not have are 0 and not used. -/
structure FiatConsts where
  one : List Nat
  a : List Nat
  b : List Nat
  b3 : List Nat
  d : List Nat
  S : List Nat
  T : List Nat

/-- A file with unsaturated limbs. -/
structure FiatSol where
  carry_mul : CProg
  carry_square : CProg
  carry : CProg
  add : CProg
  sub : CProg
  opp : CProg
  from_bytes : CProg
  to_bytes : CProg
  inv : List InvStep
  limbs : Nat
  consts : FiatConsts

/-- The operations of a file with unsaturated limbs; additions and subtractions are the macros `carry_add` and `carry_sub`,
lines 42-47. -/
def FiatSol.ops (C : FiatSol) : FeOps (List Nat) where
  mul x y := C.carry_mul.run x y
  sq x := C.carry_square.run x []
  add x y := C.carry.run (C.add.run x y) []
  sub x y := C.carry.run (C.sub.run x y) []
  opp x := C.opp.run x []
  inv x := invRun (fun x y => C.carry_mul.run x y) (fun x => C.carry_square.run x []) (List.replicate C.limbs 0) C.inv x
  zero := List.replicate C.limbs 0
  one := C.consts.one
  nonzero := limbsNonzero
  fromBytes b := C.from_bytes.run (byteNats b) []
  toBytes x := natBytes (C.to_bytes.run x [])
  const_a := C.consts.a
  const_b := C.consts.b
  const_b3 := C.consts.b3
  const_d := C.consts.d
  const_S := C.consts.S
  const_T := C.consts.T

/-- A file with Montgomery arithmetic. -/
structure FiatMont where
  mul : CProg
  square : CProg
  add : CProg
  sub : CProg
  opp : CProg
  from_montgomery : CProg
  to_montgomery : CProg
  from_bytes : CProg
  to_bytes : CProg
  inv : List InvStep
  limbs : Nat
  consts : FiatConsts

/-- The operations of a file with Montgomery arithmetic; the conversions as in `point_mul`,
`/repo/ecp_id_GostR3410_2001_CryptoPro_B_ParamSet.c` lines 4215-4276. -/
def FiatMont.ops (C : FiatMont) : FeOps (List Nat) where
  mul x y := C.mul.run x y
  sq x := C.square.run x []
  add x y := C.add.run x y
  sub x y := C.sub.run x y
  opp x := C.opp.run x []
  inv x := invRun (fun x y => C.mul.run x y) (fun x => C.square.run x []) (List.replicate C.limbs 0) C.inv x
  zero := List.replicate C.limbs 0
  one := C.consts.one
  nonzero := limbsNonzero
  fromBytes b := C.to_montgomery.run (C.from_bytes.run (byteNats b) []) []
  toBytes x := natBytes (C.to_bytes.run (C.from_montgomery.run x []) [])
  const_a := C.consts.a
  const_b := C.consts.b
  const_b3 := C.consts.b3
  const_d := C.consts.d
  const_S := C.consts.S
  const_T := C.consts.T

end Gost
