import Verif.Model.Ameth

/-!
# Private key octets in memory

`unmask_priv_key` and `priv_decode_gost` of `/repo/gost_ameth.c` once more, now with the memory the octets are in: what is read, and what
the number is when more is read than there is.  `junk` is the memory behind a string; nothing is assumed of it.
-/

namespace Gost

open Spec (leNat)

/-- The memory that holds `s`, from its first byte on. -/
def memOf (s : Bytes) (junk : Nat → Byte) (i : Nat) : Byte := if i < s.length then s.getD i 0 else junk i

/-- `BN_lebin2bn(buf + off, len, …)`: the number, and the offsets read. -/
def lebin2bn (rd : Nat → Byte) (off len : Nat) : Nat × List Nat :=
  (leNat ((List.range len).map fun i => rd (off + i)), (List.range len).map (off + ·))

/-- The loop over the masks of `unmask_priv_key`, `/repo/gost_ameth.c` lines 572-580: `k` masks are left, `p = buf + k * len`. -/
def unmaskLoop (q : Nat) (rd : Nat → Byte) (len : Nat) : Nat → Nat → Nat × List Nat
  | 0, pknum => (pknum, [])
  | k + 1, pknum =>
    let (mask, r) := lebin2bn rd ((k + 1) * len) len
    let (v, r') := unmaskLoop q rd len k (pknum * mask % q)
    (v, r ++ r')

/-- `unmask_priv_key`, `/repo/gost_ameth.c` lines 547-586: the number and the offsets read from `buf`. -/
def unmaskMem (q : Nat) (rd : Nat → Byte) (len : Nat) (num_masks : Int) : Nat × List Nat :=
  let (pknum, r) := lebin2bn rd 0 len
  if num_masks > 0 then
    let (v, r') := unmaskLoop q rd len num_masks.toNat pknum
    (v, r ++ r')
  else (pknum, r)

/-- `priv_decode_gost`, `/repo/gost_ameth.c` lines 600-657: the number, the offsets read from the octets (OpenSSL's decoders read the
`priv_len` octets), and, for the SEQUENCE format, the string in it with the offsets read from that string. -/
def privDecodeMem (D : DerIn) (q : Nat) (nid : PkeyNid) (octets : Bytes) (junk : Nat → Byte) : Option Nat × List Nat × Option (Bytes × List Nat) :=
  let n := nid.keyLen
  if octets.length % n = 0 then
    let (v, r) := unmaskMem q (memOf octets junk) n ((octets.length : Int) / n - 1)
    (some v, r, none)
  else
    let whole := List.range octets.length
    let tag := memOf octets junk 0
    if tag = 0x04 then
      match D.d2i_octet octets with
      | none => (none, 0 :: whole, none)
      | some s => (if s.length ≠ 32 ∧ s.length ≠ 64 then none else some (leNat s), 0 :: whole, none)
    else if tag = 0x02 then (D.d2i_integer octets, 0 :: whole, none)
    else if tag = 0x30 then
      match D.d2i_masked octets with
      | none => (none, 0 :: whole, none)
      | some m =>
        if m.length % n ≠ 0 then (none, 0 :: whole, none)
        else
          let (v, r) := unmaskMem q (memOf m junk) n ((m.length : Int) / n - 1)
          (some v, 0 :: whole, some (m, r))
    else (none, [0], none)

end Gost
