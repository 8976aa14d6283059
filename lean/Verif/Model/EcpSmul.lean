import Verif.Model.EcpScalar
import Verif.Spec.Stream

/-!
# Scalar multiplication in the curve files

Model of `precomp_wnaf`, `var_smul_wnaf_two`, `var_smul_rwnaf`, `fixed_smul_cmb` and the wrappers `point_mul_two`,
`point_mul_g`, `point_mul` of the eight files `/repo/ecp_*.c`.  The text of these functions is the same in all files except
for the number of bytes of a scalar, the shape of the comb, the coordinates and, in the two files with Edwards coordinates,
two doublings at the end of `var_smul_rwnaf`; these differences are the parameters of `SmulCode`.  Line numbers refer to
`/repo/ecp_id_GostR3410_2001_CryptoPro_A_ParamSet.c`; for Edwards coordinates to
`/repo/ecp_id_tc26_gost_3410_2012_256_paramSetA.c`.

The point operations and the table `lut_cmb` are parameters of this file.
-/

namespace Gost

/-- What the scalar multiplications use: projective points `prj` (`pt_prj_t`), table entries `aff` (`pt_aff_t`), affine
points in the short Weierstrass form `leg`. -/
structure SmulCode (prj aff leg : Type) where
  /-- `point_double` -/
  point_double : prj → prj
  /-- `point_add_mixed(R, Q, P)` -/
  point_add_mixed : prj → aff → prj
  /-- `point_add_proj(R, Q, P)` -/
  point_add_proj : prj → prj → prj
  /-- `opp` of `Y`, in Edwards coordinates of `X` and `T` -/
  opp : prj → prj
  /-- the same for a table entry -/
  oppAff : aff → aff
  /-- `precomp[0]` from the point, lines 3287-3289 (Edwards: `point_legacy2edwards`, line 3452) -/
  ofLeg : leg → prj
  /-- a table entry with `Z` set to `const_one`, lines 3394-3396 -/
  ofAff : aff → prj
  /-- lines 3404-3407: the point at infinity -/
  inf : prj
  /-- `= {0}` -/
  zeroPrj : prj
  zeroAff : aff
  /-- the conversion to affine coordinates at the end, lines 3415-3418 (Edwards: after `point_edwards2legacy`) -/
  toLeg : prj → leg
  /-- the table of multiples of the base point -/
  lut_cmb : Nat → Nat → aff
  /-- bytes of a scalar (32 or 64) -/
  nb : Nat
  /-- bound of the loop of `scalar_rwnaf` (51 or 102) -/
  n : Nat
  /-- rows of `lut_cmb` used by `fixed_smul_cmb` -/
  rows : Nat
  /-- digits per row -/
  cols : Nat
  /-- doublings at the end of `var_smul_rwnaf`: 0; 2 with Edwards coordinates -/
  finalDoubles : Nat

variable {prj aff leg : Type}

/-- `precomp_wnaf`, lines 3284-3294: `precomp[i]` holds `(2 i + 1) P`; the last entry holds `2 P` until it is overwritten in
the last round.  Entries not yet written are never read. -/
def precomp_wnaf (O : SmulCode prj aff leg) (P : leg) : List prj :=
  let precomp := (List.replicate 16 O.zeroPrj).set 0 (O.ofLeg P)
  let precomp := precomp.set 15 (O.point_double (precomp.getD 0 O.zeroPrj))
  (List.range 15).foldl (fun pc i =>
    pc.set (i + 1) (O.point_add_proj (pc.getD 15 O.zeroPrj) (pc.getD i O.zeroPrj))) precomp

/-- `diff = (1 - (-(d ^ j) >> (8 * sizeof(int) - 1))) & 1`, line 3443. -/
def diffBit (d j : BitVec 32) : BitVec 32 := (1 - (-(d ^^^ j)).sshiftRight 31) &&& 1

/-- `is_neg = (d >> (8 * sizeof(int) - 1)) & 1`, line 3456. -/
def isNegBit (d : BitVec 32) : BitVec 32 := d.sshiftRight 31 &&& 1

/-- `d = (d ^ -is_neg) + is_neg; d = (d - 1) >> 1`, lines 3458-3459. -/
def digitIndex (d : BitVec 32) : BitVec 32 := (((d ^^^ -(isNegBit d)) + isNegBit d) - 1).sshiftRight 1

/-- The loop selecting entry `d` of a table of 16 points, lines 3442-3450 (`selectznz` copies its last argument when its
flag is not 0). -/
def selectLoop {α : Type} (d : BitVec 32) (tab : Nat → α) (init : α) : α :=
  (List.range 16).foldl (fun acc j => if diffBit d (BitVec.ofNat 32 j) = 0 then acc else tab j) init

/-- `k` calls of `point_double(&Q, &Q)`. -/
def doubles (O : SmulCode prj aff leg) : Nat → prj → prj
  | 0, Q => Q
  | k + 1, Q => doubles O k (O.point_double Q)

/-- The loop `for (i = 50; i >= 0; i--)` of `var_smul_rwnaf`, lines 3453-3474; the first argument is `i + 1`. -/
def rwnafRounds (O : SmulCode prj aff leg) (precomp : List prj) (rnaf : List Int) : Nat → prj → prj → prj × prj
  | 0, Q, lut => (Q, lut)
  | i + 1, Q, lut =>
    let Q := doubles O 5 Q
    let d := BitVec.ofInt 32 (rnaf.getD i 0)
    let is_neg := isNegBit d
    let lut := selectLoop (digitIndex d) (fun j => precomp.getD j O.zeroPrj) lut
    let lut := if is_neg = 0 then lut else O.opp lut
    rwnafRounds O precomp rnaf i (O.point_add_proj Q lut) lut

/-- `var_smul_rwnaf`, lines 3424-3496 (Edwards: lines 3600-3690), up to the conversion to affine coordinates. -/
def var_smul_rwnaf_prj (O : SmulCode prj aff leg) (scalar : Bytes) (P : leg) : prj :=
  let precomp := precomp_wnaf O P
  let rnaf := scalar_rwnaf O.nb O.n scalar
  let d := (BitVec.ofInt 32 (rnaf.getD O.n 0) - 1).sshiftRight 1
  let Q := selectLoop d (fun j => precomp.getD j O.zeroPrj) O.zeroPrj
  let Q := (rwnafRounds O precomp rnaf O.n Q O.zeroPrj).1
  let lut := O.opp (precomp.getD 0 O.zeroPrj)
  let lut := O.point_add_proj lut Q
  let Q := if at_ scalar 0 &&& 1 = 0 then lut else Q
  doubles O O.finalDoubles Q

/-- `var_smul_rwnaf`. -/
def var_smul_rwnaf (O : SmulCode prj aff leg) (scalar : Bytes) (P : leg) : leg := O.toLeg (var_smul_rwnaf_prj O scalar P)

/-- The body of the inner loop of `fixed_smul_cmb` for one row `j`, lines 3522-3541. -/
def cmbRow (O : SmulCode prj aff leg) (rnaf : List Int) (i j : Nat) (Q : prj) (lut : aff) : prj × aff :=
  if j * O.cols + i > O.n then (Q, lut)
  else
    let d := BitVec.ofInt 32 (rnaf.getD (j * O.cols + i) 0)
    let is_neg := isNegBit d
    let lut := selectLoop (digitIndex d) (fun k => O.lut_cmb j k) lut
    let lut := if is_neg = 0 then lut else O.oppAff lut
    (O.point_add_mixed Q lut, lut)

/-- The outer loop of `fixed_smul_cmb`, lines 3519-3543; the first argument is `i + 1`. -/
def cmbRounds (O : SmulCode prj aff leg) (rnaf : List Int) : Nat → prj → aff → prj × aff
  | 0, Q, lut => (Q, lut)
  | i + 1, Q, lut =>
    let Q := if i ≠ O.cols - 1 then doubles O 5 Q else Q
    let r := (List.range O.rows).foldl (fun (s : prj × aff) j => cmbRow O rnaf i j s.1 s.2) (Q, lut)
    cmbRounds O rnaf i r.1 r.2

/-- `fixed_smul_cmb`, lines 3501-3565, up to the conversion to affine coordinates. -/
def fixed_smul_cmb_prj (O : SmulCode prj aff leg) (scalar : Bytes) : prj :=
  let rnaf := scalar_rwnaf O.nb O.n scalar
  let Q := (cmbRounds O rnaf O.cols O.inf O.zeroAff).1
  let lut := O.oppAff (O.lut_cmb 0 0)
  let R := O.point_add_mixed Q lut
  if at_ scalar 0 &&& 1 = 0 then R else Q

/-- `fixed_smul_cmb`. -/
def fixed_smul_cmb (O : SmulCode prj aff leg) (scalar : Bytes) : leg := O.toLeg (fixed_smul_cmb_prj O scalar)

/-- The variables of `var_smul_wnaf_two` that change in its loop. -/
structure TwoState (prj : Type) where
  Q : prj
  is_inf : Bool
  flipped : Bool

/-- Lines 3372-3387 and 3388-3402: use of one digit; `init` is what the accumulator is initialised with, `add` the
addition used otherwise. -/
def twoDigit (O : SmulCode prj aff leg) (d : Int) (init : Nat → prj) (add : prj → Nat → prj) (s : TwoState prj) : TwoState prj :=
  if d ≠ 0 then
    let is_neg := decide (d < 0)
    let s := if is_neg ≠ s.flipped then { s with Q := O.opp s.Q, flipped := !s.flipped } else s
    let k := (if is_neg then (-d - 1) / 2 else (d - 1) / 2).toNat
    if s.is_inf then { s with Q := init k, is_inf := false }
    else { s with Q := add s.Q k }
  else s

/-- The loop of `var_smul_wnaf_two`, lines 3370-3403; the first argument is `i + 1`. -/
def twoRounds (O : SmulCode prj aff leg) (precomp : List prj) (anaf bnaf : List Int) : Nat → TwoState prj → TwoState prj
  | 0, s => s
  | i + 1, s =>
    let s := if s.is_inf then s else { s with Q := O.point_double s.Q }
    let s := twoDigit O (bnaf.getD i 0) (fun k => precomp.getD k O.zeroPrj)
      (fun Q k => O.point_add_proj Q (precomp.getD k O.zeroPrj)) s
    let s := twoDigit O (anaf.getD i 0) (fun k => O.ofAff (O.lut_cmb 0 k)) (fun Q k => O.point_add_mixed Q (O.lut_cmb 0 k)) s
    twoRounds O precomp anaf bnaf i s

/-- `var_smul_wnaf_two(out, a, b, P)`, lines 3357-3419, up to the conversion to affine coordinates. -/
def var_smul_wnaf_two_prj (O : SmulCode prj aff leg) (a b : Bytes) (P : leg) : prj :=
  let precomp := precomp_wnaf O P
  let anaf := scalar_wnaf O.nb (8 * O.nb + 1) a
  let bnaf := scalar_wnaf O.nb (8 * O.nb + 1) b
  let s := twoRounds O precomp anaf bnaf (8 * O.nb + 1) ⟨O.zeroPrj, true, false⟩
  let Q := if s.is_inf then O.inf else s.Q
  if s.flipped then O.opp Q else Q

/-- `var_smul_wnaf_two`. -/
def var_smul_wnaf_two (O : SmulCode prj aff leg) (a b : Bytes) (P : leg) : leg := O.toLeg (var_smul_wnaf_two_prj O a b P)

end Gost
