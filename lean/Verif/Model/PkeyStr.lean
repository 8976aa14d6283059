import Verif.Model.KeyTransport

/-!
# String controls of the engine's keys

Models `pkey_gost_ec_ctrl_str_common`, `pkey_gost_ec_ctrl_str_256` and `pkey_gost_ec_ctrl_str_512` of `/repo/gost_pmeth.c`.

Not modelled: OpenSSL's `OPENSSL_hexstr2buf` and `OBJ_txt2nid`, which are arbitrary functions here.
-/

namespace Gost

/-- What the string controls take from OpenSSL: `OPENSSL_hexstr2buf` and `OBJ_txt2nid` (`none`: NULL, `NID_undef`). -/
structure TextFns where
  hexstr2buf : List Char → Option Bytes
  txt2nid : List Char → Option CurveNid

/-- `isspace` in the C locale. -/
def cIsSpace (c : Char) : Bool := c = ' ' || c = '\t' || c = '\n' || c = '\x0b' || c = '\x0c' || c = '\r'

/-- The digits read by `atoi`. -/
def atoiDigits : List Char → Nat → Nat
  | [], n => n
  | c :: cs, n => if c.isDigit then atoiDigits cs (10 * n + (c.toNat - 48)) else n

/-- The sign and digits read by `atoi`. -/
def atoiSigned : List Char → Int
  | '-' :: cs => -(atoiDigits cs 0 : Int)
  | '+' :: cs => atoiDigits cs 0
  | cs => atoiDigits cs 0

/-- `atoi` (for values that fit an `int`). -/
def cAtoi (s : List Char) : Int := atoiSigned (s.dropWhile cIsSpace)

/-- The outcome of a string control: NULL is used as a string, or the data and the value returned. -/
inductive StrRes where
  | crash
  | ret (d : PmethData) (code : Int)
  deriving DecidableEq

def StrRes.of (r : PmethData × Int) : StrRes := .ret r.1 r.2

/-- The digest selected by the control "vko": `none` for an error, `/repo/gost_pmeth.c` lines 222-232. -/
def vkoOfBits (bits : Int) : Option DgstNid :=
  if bits = 256 then some .r3411_2012_256
  else if bits = 512 then some .r3411_2012_512
  else if bits ≠ 0 then none
  else some .undef

/-- `pkey_gost_ec_ctrl_str_common`, `/repo/gost_pmeth.c` lines 202-236. -/
def pkey_gost_ec_ctrl_str_common (T : TextFns) (pkey : Option EvpPkey) (d : PmethData) (type : List Char) (value : Option (List Char)) : StrRes :=
  if type = "ukmhex".toList then
    match value with
    | none => .crash
    | some s =>
      match T.hexstr2buf s with
      | none => .ret d 0
      | some tmp =>
        if tmp.length > 32 then .ret d 0
        else .of (pkey_gost_ctrl pkey d (.setIv tmp.length (some tmp)))
  else if type = "vko".toList then
    match value with
    | none => .crash
    | some s =>
      match vkoOfBits (cAtoi s) with
      | none => .ret d 0
      | some n => .of (pkey_gost_ctrl pkey d (.setVko n))
  else .ret d (-2)

/-- A parameter set given as text that is not one of the short names: an identifier that must be in the table,
`/repo/gost_pmeth.c` lines 296-309 and 348-360. -/
def paramByText (T : TextFns) (table : List EcParams) (s : List Char) : Option CurveNid :=
  match T.txt2nid s with
  | none => none
  | some nid => if table.any (fun e => e.nid = nid) then some nid else none

/-- The parameter set meant by a text, `/repo/gost_pmeth.c` lines 243-310. -/
def paramset256 (T : TextFns) (s : List Char) : Option CurveNid :=
  match s with
  | [c] =>
    match c.toUpper with
    | 'A' => some .CryptoPro_A
    | 'B' => some .CryptoPro_B
    | 'C' => some .CryptoPro_C
    | '0' => some .Test
    | _ => none
  | [x, c] =>
    if x.toUpper = 'X' then
      match c.toUpper with
      | 'A' => some .CryptoPro_XchA
      | 'B' => some .CryptoPro_XchB
      | _ => none
    else paramByText T R3410_2001_paramset s
  | [t, x, c] =>
    if t.toUpper = 'T' ∧ x.toUpper = 'C' then
      match c.toUpper with
      | 'A' => some .tc26_256_paramSetA
      | 'B' => some .tc26_256_paramSetB
      | 'C' => some .tc26_256_paramSetC
      | 'D' => some .tc26_256_paramSetD
      | _ => none
    else paramByText T R3410_2001_paramset s
  | _ => paramByText T R3410_2001_paramset s

/-- The parameter set meant by a text, `/repo/gost_pmeth.c` lines 329-361. -/
def paramset512 (T : TextFns) (s : List Char) : Option CurveNid :=
  match s with
  | [c] =>
    match c.toUpper with
    | 'A' => some .tc26_512_paramSetA
    | 'B' => some .tc26_512_paramSetB
    | 'C' => some .tc26_512_paramSetC
    | _ => none
  | _ => paramByText T R3410_2012_512_paramset s

/-- `pkey_gost_ec_ctrl_str_256` (`big = false`) and `pkey_gost_ec_ctrl_str_512` (`big = true`), `/repo/gost_pmeth.c` lines 238-317 and
319-364. -/
def pkey_gost_ec_ctrl_str (big : Bool) (T : TextFns) (pkey : Option EvpPkey) (d : PmethData) (type : List Char) (value : Option (List Char)) :
    StrRes :=
  if type = "paramset".toList then
    match value with
    | none => .ret d 0
    | some s =>
      match (if big then paramset512 T s else paramset256 T s) with
      | none => .ret d 0
      | some nid => .of (pkey_gost_ctrl pkey d (.paramset (some nid)))
  else pkey_gost_ec_ctrl_str_common T pkey d type value

end Gost
