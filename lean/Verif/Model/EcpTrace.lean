import Verif.Model.EcpSmul
import Mathlib.Logic.Function.Basic

/-!
# What an observer of the running time sees of the scalar multiplications

`Model/EcpSmul.lean` models what `precomp_wnaf`, `scalar_rwnaf`, `scalar_wnaf`, `var_smul_rwnaf`, `fixed_smul_cmb` and
`var_smul_wnaf_two` of the eight files `/repo/ecp_*.c` compute.  Here the same functions are written as programs of a small
language whose semantics also yields a trace: for every branch the direction taken, for every access to an array or a table the
index, for every call of a field or point routine its name, and every round of every loop.  This is the usual leakage model of
constant-time programming.  The routines of the field (`fiat_*`, of which `selectznz` is the conditional move) and the point formulas
are single steps: they are straight-line code without table accesses; their own instructions are not modelled.

Line numbers refer to `/repo/ecp_id_GostR3410_2001_CryptoPro_A_ParamSet.c`.
-/

namespace Gost.Ct

/-- The `int` and `int8_t` variables of the functions. -/
inductive Var
  | i | j | k | d | diff | isNeg | window | idx | widx | rshift | bit | byte | isInf | flipped
  deriving DecidableEq, Repr

/-- The arrays with integer elements: the scalars, and their digits. -/
inductive Arr
  | scalar | scalar2 | rnaf | bnaf
  deriving DecidableEq, Repr

/-- The variables of type `pt_prj_t`; `t1`, `t2`, `t3` are operands of a call. -/
inductive PReg
  | Q | lut | R | t1 | t2 | t3
  deriving DecidableEq, Repr

/-- The variables of type `pt_aff_t` holding entries of the table: `lut`, its negative (`out`), and an operand. -/
inductive AReg
  | lut | out | t
  deriving DecidableEq, Repr

/-- Expressions: variables combined by operators. -/
inductive Expr
  | lit (n : Int)
  | var (v : Var)
  | op1 (f : Int → Int) (a : Expr)
  | op2 (f : Int → Int → Int) (a b : Expr)

/-- What is observed of one step. -/
inductive Ev
  /-- a branch, with the direction taken -/
  | branch (taken : Bool)
  /-- a round of a loop -/
  | round
  /-- an access to an array of integers, with the index -/
  | addr (a : Arr) (index : Int)
  /-- an access to `precomp`, with the index -/
  | precomp (index : Int)
  /-- an access to `lut_cmb`, with the indices -/
  | table (row col : Int)
  /-- a call of a routine without branches and table accesses -/
  | call (name : String)
  deriving DecidableEq, Repr

/-- The memory of a run. -/
structure State (prj aff leg : Type) where
  vars : Var → Int
  arr : Arr → Int → Int
  pt : PReg → prj
  af : AReg → aff
  precomp : Int → prj
  /-- the point given to the function -/
  P : leg

/-- Statements. -/
inductive Stmt (prj aff leg : Type)
  | skip
  /-- `v = e` -/
  | set (v : Var) (e : Expr)
  /-- `v = a[e]` -/
  | load (v : Var) (a : Arr) (e : Expr)
  /-- `a[e] = e'` -/
  | store (a : Arr) (e e' : Expr)
  /-- a call of a routine writing a point -/
  | pcall (name : String) (r : PReg) (f : State prj aff leg → prj)
  /-- a call of a routine writing a point with affine coordinates -/
  | acall (name : String) (r : AReg) (f : State prj aff leg → aff)
  /-- `r = precomp[e]` -/
  | pload (r : PReg) (e : Expr)
  /-- `precomp[e] = r` -/
  | pstore (e : Expr) (r : PReg)
  /-- `r = lut_cmb[e][e']` -/
  | aload (r : AReg) (e e' : Expr)
  /-- `selectznz(r, e, a, b)` on every coordinate: `r = b` if `e` is not 0, otherwise `r = a`; both are read -/
  | psel (r : PReg) (e : Expr) (a b : PReg)
  | asel (r : AReg) (e : Expr) (a b : AReg)
  | seq (s t : Stmt prj aff leg)
  /-- `if (e) s else t` -/
  | ite (e : Expr) (s t : Stmt prj aff leg)
  /-- a loop in which `v` takes the given values -/
  | loop (v : Var) (vals : List Nat) (body : Stmt prj aff leg)

/-- A sequence of statements. -/
def Stmt.block {prj aff leg : Type} : List (Stmt prj aff leg) → Stmt prj aff leg
  | [] => .skip
  | s :: l => .seq s (Stmt.block l)

variable {prj aff leg : Type}

/-- The value of an expression. -/
def Expr.eval (vars : Var → Int) : Expr → Int
  | .lit n => n
  | .var v => vars v
  | .op1 f a => f (a.eval vars)
  | .op2 f a b => f (a.eval vars) (b.eval vars)

/-- The run of a statement: the memory afterwards and what was observed. -/
def run (lut_cmb : Nat → Nat → aff) : Stmt prj aff leg → State prj aff leg → State prj aff leg × List Ev
  | .skip, s => (s, [])
  | .set v e, s => ({ s with vars := Function.update s.vars v (e.eval s.vars) }, [])
  | .load v a e, s =>
    ({ s with vars := Function.update s.vars v (s.arr a (e.eval s.vars)) }, [.addr a (e.eval s.vars)])
  | .store a e e', s =>
    ({ s with arr := Function.update s.arr a (Function.update (s.arr a) (e.eval s.vars) (e'.eval s.vars)) },
      [.addr a (e.eval s.vars)])
  | .pcall name r f, s => ({ s with pt := Function.update s.pt r (f s) }, [.call name])
  | .acall name r f, s => ({ s with af := Function.update s.af r (f s) }, [.call name])
  | .pload r e, s => ({ s with pt := Function.update s.pt r (s.precomp (e.eval s.vars)) }, [.precomp (e.eval s.vars)])
  | .pstore e r, s =>
    ({ s with precomp := Function.update s.precomp (e.eval s.vars) (s.pt r) }, [.precomp (e.eval s.vars)])
  | .aload r e e', s =>
    ({ s with af := Function.update s.af r (lut_cmb (e.eval s.vars).toNat (e'.eval s.vars).toNat) },
      [.table (e.eval s.vars) (e'.eval s.vars)])
  | .psel r e a b, s =>
    ({ s with pt := Function.update s.pt r (if e.eval s.vars = 0 then s.pt a else s.pt b) }, [.call "selectznz"])
  | .asel r e a b, s =>
    ({ s with af := Function.update s.af r (if e.eval s.vars = 0 then s.af a else s.af b) }, [.call "selectznz"])
  | .seq p q, s => ((run lut_cmb q (run lut_cmb p s).1).1, (run lut_cmb p s).2 ++ (run lut_cmb q (run lut_cmb p s).1).2)
  | .ite e p q, s =>
    if e.eval s.vars ≠ 0 then ((run lut_cmb p s).1, Ev.branch true :: (run lut_cmb p s).2)
    else ((run lut_cmb q s).1, Ev.branch false :: (run lut_cmb q s).2)
  | .loop v vals body, s =>
    vals.foldl (fun (acc : State prj aff leg × List Ev) (x : Nat) =>
      let r := run lut_cmb body { acc.1 with vars := Function.update acc.1.vars v (x : Int) }
      (r.1, acc.2 ++ Ev.round :: r.2)) (s, [])

/-! ## The programs -/

/-- Truth values of C. -/
def cBool (b : Bool) : Int := if b then 1 else 0

/-- `scalar_get_bit(in, e)` with the result in `bit`, lines 3297-3307. -/
def getBit (nb : Nat) (inb : Arr) (e : Expr) : Stmt prj aff leg :=
  .block [
    .set .idx e,
    .set .widx (.op1 (· / 8) (.var .idx)),
    .set .rshift (.op1 (· % 8) (.var .idx)),
    .ite (.op1 (fun x => cBool (x < 0)) (.var .idx)) (.set .bit (.lit 0))
      (.ite (.op1 (fun x => cBool (x ≥ (nb : Int))) (.var .widx)) (.set .bit (.lit 0))
        (.block [
          .load .byte inb (.var .widx),
          .set .bit (.op2 (fun x r => (((x.toNat >>> r.toNat) % 2 : Nat) : Int)) (.var .byte) (.var .rshift))]))]

/-- `window += scalar_get_bit(in, (i + 1) * RADIX + b) << b`, lines 3326-3330. -/
def addBit (nb : Nat) (inb : Arr) (b : Nat) : Stmt prj aff leg :=
  .seq (getBit nb inb (.op1 (fun i => (i + 1) * 5 + b) (.var .i)))
    (.set .window (.op2 (fun w x => int8 (w + x * 2 ^ b)) (.var .window) (.var .bit)))

/-- The body of the loop of `scalar_rwnaf`, lines 3323-3330. -/
def rwnafBody (nb : Nat) : Stmt prj aff leg :=
  .block [
    .set .d (.op1 (fun w => int8 (w % 64 - 32)) (.var .window)),
    .store .rnaf (.var .i) (.var .d),
    .set .window (.op2 (fun w d => int8 ((w - d) / 32)) (.var .window) (.var .d)),
    addBit nb .scalar 1, addBit nb .scalar 2, addBit nb .scalar 3, addBit nb .scalar 4, addBit nb .scalar 5]

/-- `scalar_rwnaf`, lines 3316-3333. -/
def rwnafProg (nb n : Nat) : Stmt prj aff leg :=
  .block [
    .load .byte .scalar (.lit 0),
    .set .window (.op1 (fun x => int8 ((((x.toNat % 64) ||| 1 : Nat)) : Int)) (.var .byte)),
    .loop .i (List.range n) (rwnafBody nb),
    .store .rnaf (.lit n) (.var .window)]

/-- `precomp_wnaf`, lines 3284-3294. -/
def precompProg (O : SmulCode prj aff leg) : Stmt prj aff leg :=
  .block [
    .pcall "fe_copy" .t1 (fun s => O.ofLeg s.P),
    .pstore (.lit 0) .t1,
    .pload .t1 (.lit 0),
    .pcall "point_double" .t2 (fun s => O.point_double (s.pt .t1)),
    .pstore (.lit 15) .t2,
    .loop .i (List.range 15) (.block [
      .pload .t1 (.lit 15),
      .pload .t2 (.var .i),
      .pcall "point_add_proj" .t3 (fun s => O.point_add_proj (s.pt .t1) (s.pt .t2)),
      .pstore (.op1 (· + 1) (.var .i)) .t3])]

/-- `k` calls of `point_double(&Q, &Q)`. -/
def doublesProg (O : SmulCode prj aff leg) (k : Nat) : Stmt prj aff leg :=
  .loop .j (List.range k) (.pcall "point_double" .Q (fun s => O.point_double (s.pt .Q)))

/-- `diff = (1 - (-(d ^ j) >> (8 * sizeof(int) - 1))) & 1` for the loop variable `v`, line 3443. -/
def setDiff (v : Var) : Stmt prj aff leg :=
  .set .diff (.op2 (fun d j => (diffBit (BitVec.ofInt 32 d) (BitVec.ofInt 32 j)).toInt) (.var .d) (.var v))

/-- The loop moving entry `d` of `precomp` to a variable, lines 3442-3450 and 3460-3468. -/
def selectPrj (r : PReg) : Stmt prj aff leg :=
  .loop .j (List.range 16) (.block [
    setDiff .j,
    .pload .t1 (.var .j),
    .psel r (.var .diff) r .t1])

/-- `is_neg = (d >> (8 * sizeof(int) - 1)) & 1; d = (d ^ -is_neg) + is_neg; d = (d - 1) >> 1`, lines 3456-3459. -/
def splitDigit : Stmt prj aff leg :=
  .block [
    .set .isNeg (.op1 (fun d => (isNegBit (BitVec.ofInt 32 d)).toInt) (.var .d)),
    .set .d (.op1 (fun d => (digitIndex (BitVec.ofInt 32 d)).toInt) (.var .d))]

/-- The body of the loop of `var_smul_rwnaf`, lines 3453-3474. -/
def rwnafRound (O : SmulCode prj aff leg) : Stmt prj aff leg :=
  .block [
    doublesProg O 5,
    .load .d .rnaf (.var .i),
    splitDigit,
    selectPrj .lut,
    .pcall "opp" .t2 (fun s => O.opp (s.pt .lut)),
    .psel .lut (.var .isNeg) .lut .t2,
    .pcall "point_add_proj" .Q (fun s => O.point_add_proj (s.pt .Q) (s.pt .lut))]

/-- `var_smul_rwnaf(out, scalar, P)`, lines 3424-3496, up to the conversion to affine coordinates; the result is in `Q`. -/
def varSmulProg (O : SmulCode prj aff leg) : Stmt prj aff leg :=
  .block [
    precompProg O,
    rwnafProg O.nb O.n,
    .pcall "init" .Q (fun _ => O.zeroPrj),
    .pcall "init" .lut (fun _ => O.zeroPrj),
    .load .d .rnaf (.lit O.n),
    .set .d (.op1 (fun d => ((BitVec.ofInt 32 d - 1).sshiftRight 1).toInt) (.var .d)),
    selectPrj .Q,
    .loop .i (List.range O.n).reverse (rwnafRound O),
    .pload .t1 (.lit 0),
    .pcall "opp" .lut (fun s => O.opp (s.pt .t1)),
    .pcall "point_add_proj" .lut (fun s => O.point_add_proj (s.pt .lut) (s.pt .Q)),
    .load .byte .scalar (.lit 0),
    .psel .Q (.op1 (fun x => x % 2) (.var .byte)) .lut .Q,
    doublesProg O O.finalDoubles]

/-- The loop moving entry `d` of a row of `lut_cmb` to `lut`, lines 3527-3534. -/
def selectAff : Stmt prj aff leg :=
  .loop .k (List.range 16) (.block [
    setDiff .k,
    .aload .t (.var .j) (.var .k),
    .asel .lut (.var .diff) .lut .t])

/-- The body of the inner loop of `fixed_smul_cmb`, lines 3521-3540. -/
def cmbBody (O : SmulCode prj aff leg) : Stmt prj aff leg :=
  .ite (.op2 (fun j i => cBool (j * O.cols + i > O.n)) (.var .j) (.var .i)) .skip
    (.block [
      .load .d .rnaf (.op2 (fun j i => j * O.cols + i) (.var .j) (.var .i)),
      splitDigit,
      selectAff,
      .acall "opp" .out (fun s => O.oppAff (s.af .lut)),
      .asel .lut (.var .isNeg) .lut .out,
      .pcall "point_add_mixed" .Q (fun s => O.point_add_mixed (s.pt .Q) (s.af .lut))])

/-- `fixed_smul_cmb(out, scalar)`, lines 3501-3565, up to the conversion to affine coordinates; the result is in `Q`. -/
def fixedSmulProg (O : SmulCode prj aff leg) : Stmt prj aff leg :=
  .block [
    .acall "init" .lut (fun _ => O.zeroAff),
    rwnafProg O.nb O.n,
    .pcall "fe_set_zero, fe_copy" .Q (fun _ => O.inf),
    .loop .i (List.range O.cols).reverse (.block [
      .ite (.op1 (fun i => cBool (i ≠ (O.cols : Int) - 1)) (.var .i)) (doublesProg O 5) .skip,
      .loop .j (List.range O.rows) (cmbBody O)]),
    .aload .t (.lit 0) (.lit 0),
    .acall "opp" .lut (fun s => O.oppAff (s.af .t)),
    .pcall "point_add_mixed" .R (fun s => O.point_add_mixed (s.pt .Q) (s.af .lut)),
    .load .byte .scalar (.lit 0),
    .psel .Q (.op1 (fun x => x % 2) (.var .byte)) .R .Q]

/-- The body of the loop of `scalar_wnaf`, lines 3344-3349, with digits written to `out`. -/
def wnafBody (nb : Nat) (inb out : Arr) : Stmt prj aff leg :=
  .block [
    .set .d (.lit 0),
    .ite (.op1 (fun w => w % 2) (.var .window))
      (.seq (.set .d (.op1 (fun w => int8 (w % 64)) (.var .window)))
        (.ite (.op1 (fun d => d / 32 % 2) (.var .d)) (.set .d (.op1 (fun d => int8 (d - 64)) (.var .d))) .skip)) .skip,
    .store out (.var .i) (.var .d),
    .set .window (.op2 (fun w d => int8 ((w - d) / 2)) (.var .window) (.var .d)),
    getBit nb inb (.op1 (fun i => i + 1 + 5) (.var .i)),
    .set .window (.op2 (fun w x => int8 (w + x * 32)) (.var .window) (.var .bit))]

/-- `scalar_wnaf(out, in)`, lines 3338-3351. -/
def wnafProg (nb n : Nat) (inb out : Arr) : Stmt prj aff leg :=
  .block [
    .load .byte inb (.lit 0),
    .set .window (.op1 (fun x => int8 ((x.toNat % 64 : Nat) : Int)) (.var .byte)),
    .loop .i (List.range n) (wnafBody nb inb out)]

/-- The use of one digit in `var_smul_wnaf_two`, lines 3372-3386 and 3387-3402: `fetch` reads the table entry with index `d`;
`init` copies it to the accumulator, `add` adds it. -/
def twoDigitProg (O : SmulCode prj aff leg) (digits : Arr) (fetch init add : Stmt prj aff leg) : Stmt prj aff leg :=
  .seq (.load .d digits (.var .i)) (.ite (.var .d)
    (.block [
      .set .isNeg (.op1 (fun d => cBool (d < 0)) (.var .d)),
      .ite (.op2 (fun x y => cBool (x ≠ y)) (.var .isNeg) (.var .flipped))
        (.seq (.pcall "opp" .Q (fun s => O.opp (s.pt .Q))) (.set .flipped (.op1 (fun x => 1 - x) (.var .flipped)))) .skip,
      .ite (.var .isNeg) (.set .d (.op1 (fun d => (-d - 1) / 2) (.var .d))) (.set .d (.op1 (fun d => (d - 1) / 2) (.var .d))),
      fetch,
      .ite (.var .isInf) (.seq init (.set .isInf (.lit 0))) add])
    .skip)

/-- The body of the loop of `var_smul_wnaf_two`, lines 3370-3403. -/
def twoBody (O : SmulCode prj aff leg) : Stmt prj aff leg :=
  .block [
    .ite (.op1 (fun x => cBool (x = 0)) (.var .isInf)) (.pcall "point_double" .Q (fun s => O.point_double (s.pt .Q))) .skip,
    twoDigitProg O .bnaf (.pload .t1 (.var .d)) (.pcall "fe_copy" .Q (fun s => s.pt .t1))
      (.pcall "point_add_proj" .Q (fun s => O.point_add_proj (s.pt .Q) (s.pt .t1))),
    twoDigitProg O .rnaf (.aload .t (.lit 0) (.var .d)) (.pcall "fe_copy" .Q (fun s => O.ofAff (s.af .t)))
      (.pcall "point_add_mixed" .Q (fun s => O.point_add_mixed (s.pt .Q) (s.af .t)))]

/-- `var_smul_wnaf_two(out, a, b, P)`, lines 3357-3419, up to the conversion to affine coordinates; the result is in `Q`.
The digits of `a` are written to the array `rnaf`, those of `b` to `bnaf`. -/
def twoProg (O : SmulCode prj aff leg) : Stmt prj aff leg :=
  .block [
    precompProg O,
    wnafProg O.nb (8 * O.nb + 1) .scalar .rnaf,
    wnafProg O.nb (8 * O.nb + 1) .scalar2 .bnaf,
    .pcall "init" .Q (fun _ => O.zeroPrj),
    .set .isInf (.lit 1),
    .set .flipped (.lit 0),
    .loop .i (List.range (8 * O.nb + 1)).reverse (twoBody O),
    .ite (.var .isInf) (.pcall "fe_set_zero, fe_copy" .Q (fun _ => O.inf)) .skip,
    .ite (.var .flipped) (.pcall "opp" .Q (fun s => O.opp (s.pt .Q))) .skip]

/-- The scalar as an array of integers. -/
def bytesArr (b : Bytes) (i : Int) : Int := ((at_ b i.toNat).toNat : Int)

/-- The memory at a call with a scalar, for `var_smul_wnaf_two` a second scalar, and a point. -/
def start (O : SmulCode prj aff leg) (scalar : Bytes) (P : leg) (scalar2 : Bytes := []) : State prj aff leg where
  vars := fun _ => 0
  arr := fun a i => if a = .scalar then bytesArr scalar i else if a = .scalar2 then bytesArr scalar2 i else 0
  pt := fun _ => O.zeroPrj
  af := fun _ => O.zeroAff
  precomp := fun _ => O.zeroPrj
  P := P

end Gost.Ct
