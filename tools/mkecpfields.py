"""Generates lean/Verif/Props/EcpFields.lean."""
import os
from mkfiat import *
o = ['\n'.join(f'import Verif.Lemmas.Ecp.{c}{s}' for c in FILES for s in ('', '_32')), '''
/-!
# C56: the field arithmetic of the curve files

Generated by `tools/mkecpfields.py`.  For each of the eight files, in both word sizes: the straight-line code generated by
fiat-crypto, run on words of 8, 32, 64 (and, with `__SIZEOF_INT128__`, 128) bits that wrap around, computes modulo the prime of
the curve for all field elements (`FeOps.Sound`, `Verif/Lemmas/EcpW.lean`).  A field element is a list of limbs `x` standing for
`dot W x`, the sum of the `W[i] * x[i]`, with `x[i] ≤ B[i]` (unsaturated limbs), or for that sum divided by `R`, the sum being less
than `p` (Montgomery form).
-/

namespace Gost

open Fiat
open Spec (leBytes)

section
variable {T : Type} {O : FeOps T} {p nb : Nat} [Fact p.Prime] {ok : T → Prop} {val : T → ZMod p}

/-- **C56** in terms of bytes, for every implementation with sound operations: numbers below `p` are read, combined and written;
the result is that of the arithmetic modulo `p`.  (The code of the files always multiplies before it writes a number.) -/
theorem C56_numbers (h : O.Sound p nb ok val) (m n : Nat) (hm : m < p) (hn : n < p) :
    let x := O.fromBytes (leBytes nb m)
    let y := O.fromBytes (leBytes nb n)
    O.toBytes (O.mul x y) = leBytes nb (m * n % p) ∧
    O.toBytes (O.mul (O.add x y) O.one) = leBytes nb ((m + n) % p) ∧
    O.toBytes (O.mul (O.sub x y) O.one) = leBytes nb ((m + (p - n)) % p) ∧
    O.toBytes (O.mul (O.opp x) O.one) = leBytes nb ((p - m) % p) ∧
    O.toBytes (O.mul (O.sq x) O.one) = leBytes nb (m ^ 2 % p) ∧
    (0 < m → ∃ k, k * m % p = 1 ∧ O.toBytes (O.mul (O.inv x) O.one) = leBytes nb (k % p)) := by
  intro x y
  obtain ⟨hx, ex⟩ := h.fromBytes m hm
  obtain ⟨hy, ey⟩ := h.fromBytes n hn
  obtain ⟨h1, e1⟩ := h.one
  have key : ∀ (z : T) (k : Nat), ok z → val z = (k : ZMod p) → O.toBytes (O.mul z O.one) = leBytes nb (k % p) := by
    intro z k hz ez
    rw [h.toBytes z O.one hz h1, e1, ez, mul_one, ZMod.val_natCast]
  have hp : ((p : Nat) : ZMod p) = 0 := ZMod.natCast_self p
  refine ⟨?_, ?_, ?_, ?_, ?_, ?_⟩
  · rw [h.toBytes x y hx hy, ex, ey, ← Nat.cast_mul, ZMod.val_natCast]
  · obtain ⟨k1, k2⟩ := h.add x y hx hy
    exact key _ _ k1 (by rw [k2, ex, ey, Nat.cast_add])
  · obtain ⟨k1, k2⟩ := h.sub x y hx hy
    exact key _ _ k1 (by rw [k2, ex, ey, Nat.cast_add, Nat.cast_sub hn.le, hp]; ring)
  · obtain ⟨k1, k2⟩ := h.opp x hx
    exact key _ _ k1 (by rw [k2, ex, Nat.cast_sub hm.le, hp, zero_sub])
  · obtain ⟨k1, k2⟩ := h.sq x hx
    exact key _ _ k1 (by rw [k2, ex, Nat.cast_pow]; ring)
  · intro h0
    obtain ⟨k1, k2⟩ := h.inv x hx
    have hm0 : (m : ZMod p) ≠ 0 := by
      intro hc
      exact absurd (Nat.le_of_dvd h0 ((ZMod.natCast_eq_zero_iff _ _).1 hc)) (by omega)
    refine ⟨(m : ZMod p)⁻¹.val, ?_, key _ _ k1 (by rw [k2, ex, ZMod.natCast_zmod_val])⟩
    have : (((m : ZMod p)⁻¹.val * m : Nat) : ZMod p) = (1 : Nat) := by
      rw [Nat.cast_mul, ZMod.natCast_zmod_val, inv_mul_cancel₀ hm0, Nat.cast_one]
    have h2 := (ZMod.natCast_eq_natCast_iff' _ _ _).1 this
    rwa [Nat.mod_eq_of_lt (Fact.out : p.Prime).one_lt] at h2

end
''']
for c in FILES:
    for half in (64, 32):
        K = Curve(c, half); ec = f'ec_{c}'
        if K.mont:
            ok = f'(montOk {ec}.p {nums(K.W)} (List.replicate {K.L} {num(2**half - 1)}))'
            val = f'(montVal {ec}.p {num(2**(half * K.L))} {nums(K.W)})'
        else:
            ok = f'(fun x => Bounded x {nums(K.bal)})'
            val = f'(fun x => ((dot {nums(K.W)} x : Nat) : ZMod {ec}.p))'
        o.append(f'''/-- **C56**, `/repo/{FILES[c][0]}`, {half} bit version. -/
theorem C56_{c}_{half} [Fact {ec}.p.Prime] : {K.name}.file.ops.Sound {ec}.p {K.nb}
    {ok}
    {val} := {K.name}.field_sound
''')
o.append('-- non-vacuity: the sum of two numbers of the field of the curve CryptoPro-A')
o.append('''example (hp : Fact ec_CryptoPro_A.p.Prime) : Ecp_CryptoPro_A.file.ops.toBytes (Ecp_CryptoPro_A.file.ops.mul
    (Ecp_CryptoPro_A.file.ops.add (Ecp_CryptoPro_A.file.ops.fromBytes (leBytes 32 (ec_CryptoPro_A.p - 1)))
      (Ecp_CryptoPro_A.file.ops.fromBytes (leBytes 32 5))) Ecp_CryptoPro_A.file.ops.one) = leBytes 32 4 :=
  (C56_numbers C56_CryptoPro_A_64 (ec_CryptoPro_A.p - 1) 5 (by decide +kernel) (by decide +kernel)).2.1''')
o.append('\nend Gost')
open(ROOT + '/Props/EcpFields.lean', 'w').write('\n'.join(o) + '\n')
