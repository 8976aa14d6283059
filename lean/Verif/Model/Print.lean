import Verif.Model.Ameth

/-!
# Printing keys

`print_gost_priv`, `print_gost_ec_pub`, `print_gost_ec_param`, `print_gost_ec` and the three callbacks of
`/repo/gost_ameth.c` lines 725-838.  The state is the text written so far; the result is the text and the return value.
OpenSSL's `BIO_indent`, `BN_print` and `OBJ_nid2ln` are as documented; writing to the BIO does not fail.
-/

namespace Gost

/-- `BIO_indent(out, indent, 128)`: at least 0, at most 128 blanks. -/
def bioIndent (indent : Int) : List Char := List.replicate (min indent.toNat 128) ' '

/-- An upper case hexadecimal digit. -/
def hexUp (d : Nat) : Char :=
  if d < 10 then Char.ofNat (48 + d) else Char.ofNat (55 + d)

/-- The hexadecimal digits of `n`, most significant first, in front of `acc`; no digits for 0. -/
def hexDigits (n : Nat) (acc : List Char) : List Char :=
  if _h : n = 0 then acc else hexDigits (n / 16) (hexUp (n % 16) :: acc)
termination_by n
decreasing_by omega

/-- `BN_print` of a number that is not negative. -/
def bnPrint (n : Nat) : List Char := if n = 0 then ['0'] else hexDigits n []

/-- `gost_get0_priv_key`, `/repo/gost_ameth.c` lines 211-226 (all types of the engine are listed). -/
def gost_get0_priv_key (pk : EvpPkey) : Option Nat := pk.priv

/-- `print_gost_priv`, lines 725-740. -/
def print_gost_priv (out : List Char) (pk : EvpPkey) (indent : Int) : List Char × Int :=
  let out := out ++ bioIndent indent
  let out := out ++ "Private key: ".toList
  let out := match gost_get0_priv_key pk with
    | none => out ++ "<undefined>".toList
    | some key => out ++ bnPrint key
  (out ++ ['\n'], 1)

/-- `print_gost_ec_pub`, lines 742-788: nothing is written unless there are a public key, a group, and affine coordinates
(`EC_POINT_get_affine_coordinates` fails for the point at infinity). -/
def print_gost_ec_pub (out : List Char) (pk : EvpPkey) (indent : Int) : List Char × Int :=
  match pk.pub, pk.group with
  | some (some (X, Y)), some _ =>
    let out := out ++ bioIndent indent
    let out := out ++ "Public key:\n".toList
    let out := out ++ bioIndent (indent + 3)
    let out := out ++ "X:".toList
    let out := out ++ bnPrint X
    let out := out ++ ['\n']
    let out := out ++ bioIndent (indent + 3)
    let out := out ++ "Y:".toList
    let out := out ++ bnPrint Y
    let out := out ++ ['\n']
    (out, 1)
  | _, _ => (out, 0)

/-- `print_gost_ec_param`, lines 790-805; `ln` is `OBJ_nid2ln`. -/
def print_gost_ec_param (ln : CurveNid → List Char) (out : List Char) (pk : EvpPkey) (indent : Int) : List Char × Int :=
  match pk.group with
  | none => (out, 0)
  | some group =>
    let out := out ++ bioIndent indent
    (out ++ "Parameter set: ".toList ++ ln group.name ++ ['\n'], 1)

/-- `print_gost_ec`, lines 807-820. -/
def print_gost_ec (ln : CurveNid → List Char) (out : List Char) (pk : EvpPkey) (indent : Int) (type : Nat) : List Char × Int :=
  let a := if type = 2 then print_gost_priv out pk indent else (out, 1)
  if a.2 = 0 then (a.1, 0)
  else
    let b := if type ≥ 1 then print_gost_ec_pub a.1 pk indent else (a.1, 1)
    if b.2 = 0 then (b.1, 0)
    else print_gost_ec_param ln b.1 pk indent

/-- `param_print_gost_ec`, lines 822-826. -/
def param_print_gost_ec (ln : CurveNid → List Char) (out : List Char) (pk : EvpPkey) (indent : Int) : List Char × Int :=
  print_gost_ec ln out pk indent 0

/-- `pub_print_gost_ec`, lines 828-832. -/
def pub_print_gost_ec (ln : CurveNid → List Char) (out : List Char) (pk : EvpPkey) (indent : Int) : List Char × Int :=
  print_gost_ec ln out pk indent 1

/-- `priv_print_gost_ec`, lines 834-838. -/
def priv_print_gost_ec (ln : CurveNid → List Char) (out : List Char) (pk : EvpPkey) (indent : Int) : List Char × Int :=
  print_gost_ec ln out pk indent 2

end Gost
