import Verif.Model.Basic

/-!
# The field arithmetic of the curve files: the C subset

The functions `fiat_<curve>_mul`, `_carry_mul`, `_square`, `_carry_square`, `_carry`, `_add`, `_sub`, `_opp`,
`_from_montgomery`, `_to_montgomery`, `_to_bytes`, `_from_bytes` of the eight files `/repo/ecp_*.c` are straight-line code: each
statement sets the next of the variables `x1`, `x2`, ... or the next two.  This file is the semantics of that subset of C; the
programs, translated statement by statement by `tools/mkfiat.py`, are in `Verif/Model/Ecp/`.

Line numbers refer to `/repo/ecp_id_GostR3410_2001_CryptoPro_A_ParamSet.c` (lines 136-263, 52 and 51 bit words) and
`/repo/ecp_id_GostR3410_2001_CryptoPro_B_ParamSet.c` (lines 132-228, 64 bit words); the functions have the same text in the
other files up to the word sizes.
-/

namespace Gost

/-- Expressions over unsigned integers.  `w` is the width in bits of the type in which C evaluates the operation (the usual
arithmetic conversions); 31 stands for `int`. -/
inductive CExp
  /-- `arg1[i]` -/
  | a (i : Nat)
  /-- `arg2[i]` -/
  | b (i : Nat)
  /-- `x<n>` -/
  | x (n : Nat)
  | c (v : Nat)
  | add (w : Nat) (e f : CExp)
  | sub (w : Nat) (e f : CExp)
  | mul (w : Nat) (e f : CExp)
  | shr (e : CExp) (k : Nat)
  | shl (w : Nat) (e : CExp) (k : Nat)
  | and (e f : CExp)
  /-- conversion to an unsigned type of `w` bits -/
  | cast (w : Nat) (e : CExp)
deriving DecidableEq, Repr

/-- Statements; the variables they set are the next ones. `h` is the width of the type the function computes in. -/
inductive CStmt
  /-- `x = e` -/
  | set (e : CExp)
  /-- `addcarryx_u<u>(&x, &y, c, e, f)` -/
  | adc (h u : Nat) (c e f : CExp)
  /-- `subborrowx_u<u>(&x, &y, c, e, f)` -/
  | sbb (h u : Nat) (c e f : CExp)
  /-- `mulx_u<u>(&x, &y, e, f)` -/
  | mulx (u : Nat) (e f : CExp)
  /-- `cmovznz_u<w>(&x, c, e, f)` -/
  | cmov (w : Nat) (c e f : CExp)
deriving DecidableEq, Repr

/-- The arguments and the variables set so far (`x1` first). -/
structure CEnv where
  a : List Nat
  b : List Nat
  x : List Nat
deriving DecidableEq, Repr

/-- The value of an expression. -/
def CExp.val (E : CEnv) : CExp → Nat
  | .a i => E.a.getD i 0
  | .b i => E.b.getD i 0
  | .x n => E.x.getD (n - 1) 0
  | .c v => v
  | .add w e f => (e.val E + f.val E) % 2 ^ w
  | .sub w e f => (e.val E + (2 ^ w - f.val E % 2 ^ w)) % 2 ^ w
  | .mul w e f => e.val E * f.val E % 2 ^ w
  | .shr e k => e.val E / 2 ^ k
  | .shl w e k => e.val E * 2 ^ k % 2 ^ w
  | .and e f => e.val E &&& f.val E
  | .cast w e => e.val E % 2 ^ w

/-- `addcarryx_u<u>`, lines 136-148 (132-146 in the other file): the sum is computed in `h` bits; the carry has type `uint1`,
which is `unsigned char`. -/
def addcarryx (h u c e f : Nat) : Nat × Nat :=
  let x1 := (c + e + f) % 2 ^ h
  (x1 &&& (2 ^ u - 1), x1 / 2 ^ u % 2 ^ 8)

/-- `subborrowx_u<u>`, lines 164-176 (161-175): the difference is computed in a signed type of `h` bits; `int1` is
`signed char`. -/
def subborrowx (h u c e f : Nat) : Nat × Nat :=
  let x1 : Int := ((e : Int) - c - f).bmod (2 ^ h)
  let x2 : Int := (x1 / 2 ^ u).bmod (2 ^ 8)
  ((x1 % 2 ^ u).toNat, ((0 - x2) % 2 ^ 8).toNat)

/-- `mulx_u<u>`, lines 189-200 of the other file: the product is computed in `2 u` bits. -/
def mulx (u e f : Nat) : Nat × Nat :=
  let x1 := e * f % 2 ^ (2 * u)
  (x1 &&& (2 ^ u - 1), x1 / 2 ^ u % 2 ^ u)

/-- `cmovznz_u<w>`, lines 246-263 (213-228); `value_barrier` returns its argument, `(int1)(0x0 - x1)` is 0
or -1 and is sign-extended to `w` bits. -/
def cmovznz (w c e f : Nat) : Nat :=
  let x1 := if c = 0 then 0 else 1
  let x2 := if x1 = 0 then 0 else 2 ^ w - 1
  (x2 &&& f) ||| ((2 ^ w - 1 - x2) &&& e)

/-- The values a statement adds to the variables. -/
def CStmt.vals (E : CEnv) : CStmt → List Nat
  | .set e => [e.val E]
  | .adc h u c e f => let r := addcarryx h u (c.val E) (e.val E) (f.val E); [r.1, r.2]
  | .sbb h u c e f => let r := subborrowx h u (c.val E) (e.val E) (f.val E); [r.1, r.2]
  | .mulx u e f => let r := Gost.mulx u (e.val E) (f.val E); [r.1, r.2]
  | .cmov w c e f => [cmovznz w (c.val E) (e.val E) (f.val E)]

/-- A statement. -/
def CStmt.step (E : CEnv) (s : CStmt) : CEnv := { E with x := E.x ++ s.vals E }

/-- A function: its statements and, for each element of `out1`, the number of the variable stored there. -/
structure CProg where
  code : List CStmt
  out : List Nat
deriving DecidableEq, Repr

/-- The variables at the end. -/
def CProg.env (P : CProg) (a b : List Nat) : CEnv := P.code.foldl CStmt.step ⟨a, b, []⟩

/-- A call; functions with one argument ignore `b`. -/
def CProg.run (P : CProg) (a b : List Nat) : List Nat := P.out.map fun n => (P.env a b).x.getD (n - 1) 0

end Gost
