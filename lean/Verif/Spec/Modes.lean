import Verif.Spec.Stream
import Verif.Spec.Gost28147

/-!
# Specification of the block cipher modes

Textbook definitions, parameterised by the block cipher `E` (and its inverse `D`): functions
of a key and a block.  Nothing here refers to the model of the C code.
-/

namespace Gost.Spec

abbrev Blk := List (BitVec 8)

/-- Byte-wise XOR, truncated to the shorter operand. -/
def xor (a b : Blk) : Blk := List.zipWith (· ^^^ ·) a b

/-- Split into blocks of `bl` bytes (the last one may be shorter). -/
def blocks (bl : Nat) (data : Blk) : List Blk :=
  if _h : 0 < bl ∧ data ≠ [] then data.take bl :: blocks bl (data.drop bl) else []
termination_by data.length
decreasing_by
  have := List.length_pos_iff.mpr _h.2
  simp; omega

/-- ECB. -/
def ecb (bl : Nat) (E : Blk → Blk) (data : Blk) : Blk := ((blocks bl data).map E).flatten

/-- CBC encryption of a list of blocks: `C_i = E(P_i ⊕ C_{i-1})`, `C_0 = IV`. -/
def cbcEnc (E : Blk → Blk) (iv : Blk) : List Blk → List Blk
  | [] => []
  | p :: ps => let c := E (xor iv p); c :: cbcEnc E c ps

/-- CBC decryption: `P_i = D(C_i) ⊕ C_{i-1}`. -/
def cbcDec (D : Blk → Blk) (iv : Blk) : List Blk → List Blk
  | [] => []
  | c :: cs => xor iv (D c) :: cbcDec D c cs

/-- Counter block number `j`: the `n`-byte big-endian counter `iv` plus `j` modulo `256^n`. -/
def ctrBlock (n : Nat) (iv : Blk) (j : Nat) : Blk := beBytes n (beNat iv + j)

/-- Gamma of CTR mode. -/
def ctrGamma (n : Nat) (E : Blk → Blk) (iv : Blk) (j : Nat) : Blk := E (ctrBlock n iv j)

/-- Gamma of CTR-ACPKM: block `j` is made with the key obtained by `⌊j·bl/section⌋` ACPKM
transformations; `section = 0` means no rekeying.  (`section` a multiple of `bl`.) -/
def ctrAcpkmGamma (bl : Nat) (E : Blk → Blk → Blk) (acpkm : Blk → Blk) (sec : Nat) (key iv : Blk) (j : Nat) : Blk :=
  let k := if sec = 0 then key else iter acpkm (j * bl / sec) key
  E k (ctrBlock bl iv j)

/-- The CryptoPro meshing of key and register: `K' = mesh K`, `R' = E(K', R)`. -/
def meshed (E : Blk → Blk → Blk) (mesh : Blk → Blk) (k r : Blk) : Blk × Blk :=
  (mesh k, E (mesh k) r)

/-- GOST 28147-89 counter ("gamma") mode, RFC 5830 section 6 with RFC 4357 key meshing.
State before the increment for block `j`: current key and current counter value.
The counter starts at `E(K, IV)`; with meshing on, key and counter are meshed before
every block whose first byte has number `1024·k`, `k ≥ 1`. -/
def cntState (E : Blk → Blk → Blk) (mesh : Blk → Blk) (add : Blk → Blk) (on : Bool) (key iv : Blk) : Nat → Blk × Blk
  | 0 => (key, E key iv)
  | j + 1 =>
    let s := cntState E mesh add on key iv j
    let c := add s.2
    if on ∧ (8 * (j + 1)) % 1024 = 0 then meshed E mesh s.1 c else (s.1, c)

/-- Gamma block `j` of the GOST 28147-89 counter mode. -/
def cntGamma (E : Blk → Blk → Blk) (mesh : Blk → Blk) (add : Blk → Blk) (on : Bool) (key iv : Blk) (j : Nat) : Blk :=
  let s := cntState E mesh add on key iv j
  E s.1 (add s.2)

/-- The counter step of RFC 5830 section 6: the low 32-bit half gets `+ C2 mod 2^32`, the high
half `+ C1 mod (2^32 - 1)` in the representation where the sum of a carry is `2^32 - 1` itself
rather than 0; both halves are stored little-endian. -/
def cntIncr (b : Blk) : Blk :=
  let lo := leNat (b.take 4)
  let hi := leNat ((b.drop 4).take 4)
  let lo' := (lo + 0x01010101) % 2^32
  let s := hi + 0x01010104
  let hi' := if s < 2^32 then s else s - (2^32 - 1)
  leBytes 4 lo' ++ leBytes 4 hi'

/-- CFB with key meshing, on the blocks of the message (`j` is the number of the next block):
`C_i = P_i ⊕ E(K, C_{i-1})`; the key and the register are meshed before the blocks starting at byte
`1024·k`, `k ≥ 1`. -/
def cfbEnc (E : Blk → Blk → Blk) (mesh : Blk → Blk) (on : Bool) (k r : Blk) (j : Nat) : List Blk → List Blk
  | [] => []
  | p :: ps =>
    let kr := if on ∧ j ≠ 0 ∧ (8 * j) % 1024 = 0 then meshed E mesh k r else (k, r)
    let c := xor p (E kr.1 kr.2)
    c :: cfbEnc E mesh on kr.1 c (j + 1) ps

/-- CFB decryption with key meshing. -/
def cfbDec (E : Blk → Blk → Blk) (mesh : Blk → Blk) (on : Bool) (k r : Blk) (j : Nat) : List Blk → List Blk
  | [] => []
  | c :: cs =>
    let kr := if on ∧ j ≠ 0 ∧ (8 * j) % 1024 = 0 then meshed E mesh k r else (k, r)
    xor c (E kr.1 kr.2) :: cfbDec E mesh on kr.1 c (j + 1) cs

end Gost.Spec

namespace Gost.Spec

/-- The constant of the CryptoPro key meshing (RFC 4357, section 2.3.2). -/
def meshConst : Blk :=
  beBytes 32 0x6900722264C904238D3ADB9646E92AC418FEAC9400ED0712C086DCC2EF4CA92B

/-- The ACPKM constant `D` (R 1323565.1.017-2018): the bytes 80, 81, ..., 9F. -/
def acpkmConst : Blk := (List.range 32).map fun i => BitVec.ofNat 8 (0x80 + i)

/-- CryptoPro key meshing: `K' = D_K(C)` in ECB. -/
def cryptoProMesh (D : Blk → Blk → Blk) (k : Blk) : Blk := ecb 8 (D k) meshConst

/-- ACPKM: `K' = E_K(D_1) || ... ` in ECB. -/
def acpkm (bl : Nat) (E : Blk → Blk → Blk) (k : Blk) : Blk := ecb bl (E k) acpkmConst

end Gost.Spec

namespace Gost.Spec

/-- Gamma of OFB with a register of one block: block `j` is `E` applied `j+1` times to the IV. -/
def ofbGamma (E : Blk → Blk) (iv : Blk) (j : Nat) : Blk := iter E (j + 1) iv

/-- Plain CFB encryption of a list of blocks (the last one may be short): `C_i = P_i ⊕ E(C_{i-1})`. -/
def cfbPlainEnc (E : Blk → Blk) (r : Blk) : List Blk → List Blk
  | [] => []
  | p :: ps => let c := xor p (E r); c :: cfbPlainEnc E c ps

/-- Plain CFB decryption. -/
def cfbPlainDec (E : Blk → Blk) (r : Blk) : List Blk → List Blk
  | [] => []
  | c :: cs => xor c (E r) :: cfbPlainDec E c cs

end Gost.Spec
