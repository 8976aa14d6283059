import Verif.Model.StreebogTablesBE
import Verif.Model.GF

/-!
# Big-endian hosts

What `/repo` compiles when `L_ENDIAN` is not defined (`/repo/CMakeLists.txt` lines 59-65): the memory accesses of
`uint64_t` are big-endian and the branches `#ifndef L_ENDIAN` / `#ifdef __GOST3411_BIG_ENDIAN__` are taken
(`/repo/gosthash2012.h` lines 34-36).  This file has the word accesses and the core of Streebog.
-/

namespace Gost

/-- Reading a `uint64_t` at a byte pointer on a big-endian platform. -/
def ldBE64 (b : Bytes) : W64 :=
  ((at_ b 0).setWidth 64 <<< 56) ||| ((at_ b 1).setWidth 64 <<< 48) ||| ((at_ b 2).setWidth 64 <<< 40) |||
  ((at_ b 3).setWidth 64 <<< 32) ||| ((at_ b 4).setWidth 64 <<< 24) ||| ((at_ b 5).setWidth 64 <<< 16) |||
  ((at_ b 6).setWidth 64 <<< 8) ||| (at_ b 7).setWidth 64

/-- Storing a `uint64_t` on a big-endian platform. -/
def stBE64 (w : W64) : Bytes := (List.range 8).map fun i => (w >>> (8 * (7 - i))).setWidth 8

/-- `u->QWORD[i]` (`/repo/gosthash2012.h` lines 57-60) on a big-endian platform. -/
def qwordBE (u : Bytes) (i : Nat) : W64 := ldBE64 ((u.drop (8 * i)).take 8)

/-- A `union uint512_u` with the given `QWORD`s on a big-endian platform. -/
def ofQwordsBE (q : List W64) : Bytes := q.flatMap stBE64

/-- `Ax[j][x]` (`/repo/gosthash2012_precalc.h` lines 711-1411). -/
def AxBE (j : Nat) (x : Byte) : W64 := BitVec.ofNat 64 (AxBE_rows j >>> (64 * x.toNat))

/-- `C[i]` (`/repo/gosthash2012_const.h`, the big-endian branch). -/
def streebogConstBE (i : Nat) : Bytes := ofQwordsBE (streebogCBE.getD i [])

/-- `buffer0`, `/repo/gosthash2012_const.h` lines 11-14. -/
def buffer0BE : Bytes := ofQwordsBE [0, 0, 0, 0, 0, 0, 0, 0]

/-- `buffer512`, `/repo/gosthash2012_const.h`, the big-endian branch. -/
def buffer512BE : Bytes := ofQwordsBE buffer512BEq

/-- The macro `X`, `/repo/gosthash2012_ref.h` lines 15-24. -/
def X512BE (x y : Bytes) : Bytes := ofQwordsBE ((List.range 8).map fun i => qwordBE x i ^^^ qwordBE y i)

/-- One value of `data->QWORD[_datai]` in `XLPS`, `/repo/gosthash2012_ref.h` lines 48-55: `r` are the registers. -/
def xlpsRowBE (r : List W64) : W64 :=
  (List.range 8).foldl (fun acc j => acc ^^^ AxBE j ((r.getD j 0 &&& 0xFF#64).setWidth 8)) 0

/-- One iteration of the loop of `XLPS`, lines 47-64: the row goes to `data->QWORD[7 - _i]` (`_datai`, line 30), then
`r >>= 8` in all registers.  The state is (`data->QWORD`, registers). -/
def xlpsIterBE (s : List W64 × List W64) (i : Nat) : List W64 × List W64 :=
  (s.1.set (7 - i) (xlpsRowBE s.2), s.2.map fun (w : W64) => w >>> (8 : Nat))

/-- The macro `XLPS`, `/repo/gosthash2012_ref.h` lines 33-65: the new value of `data` (all eight words are written). -/
def XLPSBE (x y : Bytes) : Bytes :=
  ofQwordsBE ((List.range 8).foldl xlpsIterBE
    (List.replicate 8 0, (List.range 8).map fun i => qwordBE x i ^^^ qwordBE y i)).1

/-- The macro `ROUND`, `/repo/gosthash2012_ref.h` lines 67-70; state `(Ki, data)`. -/
def streebogRoundBE (s : Bytes × Bytes) (i : Nat) : Bytes × Bytes :=
  let Ki := XLPSBE s.1 (streebogConstBE i)
  (Ki, XLPSBE Ki s.2)

/-- `g`, the portable branch, `/repo/gosthash2012.c` lines 142-161, on a big-endian platform: the new value of `h`. -/
def gRefBE (h N m : Bytes) : Bytes :=
  let data := XLPSBE h N
  let Ki := data
  let data := XLPSBE Ki m
  let s := (List.range 11).foldl streebogRoundBE (Ki, data)
  let Ki := XLPSBE s.1 (streebogConstBE 11)
  let data := X512BE Ki s.2
  let data := X512BE data h
  X512BE data m

end Gost
