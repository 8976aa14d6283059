import Verif.Model.Basic

/-!
# Loop combinators

The C code of every streaming mode consists of the same kinds of loops.  The combinators
below express the loops; what a loop does is in the body passed to it.
-/

namespace Gost

/-- `for (; remaining >= bl; in += bl, out += bl) body`: process whole blocks of the input.
Returns the new state, the output written, and the unprocessed input (shorter than `bl`).
Also models `blocks = lasted / bl; for (i = 0; i < blocks; i++) body`. -/
def whileBlocks {S : Type} (bl : Nat) (body : S → Bytes → S × Bytes) (s : S) (inp : Bytes) :
    S × Bytes × Bytes :=
  if _h : 0 < bl ∧ bl ≤ inp.length then
    let r := body s (inp.take bl)
    let t := whileBlocks bl body r.1 (inp.drop bl)
    (t.1, r.2 ++ t.2.1, t.2.2)
  else (s, [], inp)
termination_by inp.length
decreasing_by simp; omega

/-- `for (j = num, i = 0; j < bl && i < inl; j++, i++, in++, out++) *out = buf[j] ^ *in`:
use up the rest of a keystream block.  Returns the final `j`, the output and the
unprocessed input. -/
def xorPart (bl : Nat) (buf : Bytes) : Nat → Bytes → Nat × Bytes × Bytes
  | j, [] => (j, [], [])
  | j, x :: xs =>
    if j < bl then
      let t := xorPart bl buf (j + 1) xs
      (t.1, (at_ buf j ^^^ x) :: t.2.1, t.2.2)
    else (j, [], x :: xs)

/-- `inc_counter`, `/repo/gost_grasshopper_cipher.c` lines 581-594, with `n = counter_bytes`:
increments the last byte and stops at the first byte that does not become zero.
(With `counter_bytes = 0` the C loop would run out of bounds; it is only called with 8 and 16,
and with half of the block size in `gost_gost2015.c`.) -/
def inc_counter (ctr : Bytes) : Nat → Bytes
  | 0 => ctr
  | n + 1 =>
    let c := at_ ctr n + 1
    let ctr := ctr.set n c
    if c ≠ 0 then ctr else inc_counter ctr n

end Gost
