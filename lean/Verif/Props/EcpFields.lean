import Verif.Lemmas.Ecp.CryptoPro_A
import Verif.Lemmas.Ecp.CryptoPro_A_32
import Verif.Lemmas.Ecp.CryptoPro_B
import Verif.Lemmas.Ecp.CryptoPro_B_32
import Verif.Lemmas.Ecp.CryptoPro_C
import Verif.Lemmas.Ecp.CryptoPro_C_32
import Verif.Lemmas.Ecp.Test
import Verif.Lemmas.Ecp.Test_32
import Verif.Lemmas.Ecp.tc26_256_paramSetA
import Verif.Lemmas.Ecp.tc26_256_paramSetA_32
import Verif.Lemmas.Ecp.tc26_512_paramSetA
import Verif.Lemmas.Ecp.tc26_512_paramSetA_32
import Verif.Lemmas.Ecp.tc26_512_paramSetB
import Verif.Lemmas.Ecp.tc26_512_paramSetB_32
import Verif.Lemmas.Ecp.tc26_512_paramSetC
import Verif.Lemmas.Ecp.tc26_512_paramSetC_32

/-!
# C56: the field arithmetic of the curve files

Generated by `tools/mkecpfields.py`.  For each of the eight files, in both word sizes: the straight-line code generated by
fiat-crypto, run on words of 8, 32, 64 (and, with `__SIZEOF_INT128__`, 128) bits that wrap around, computes modulo the prime of
the curve for all field elements (`FeOps.Sound`, `Verif/Lemmas/EcpW.lean`).  A field element is a list of limbs `x` standing for
`dot W x`, the sum of the `W[i] * x[i]`, with `x[i] ≤ B[i]` (unsaturated limbs), or for that sum divided by `R`, the sum being less
than `p` (Montgomery form).
-/

namespace Gost

open Fiat
open Spec (leBytes)

section
variable {T : Type} {O : FeOps T} {p nb : Nat} [Fact p.Prime] {ok : T → Prop} {val : T → ZMod p}

/-- **C56** in terms of bytes, for every implementation with sound operations: numbers below `p` are read, combined and written;
the result is that of the arithmetic modulo `p`.  (The code of the files always multiplies before it writes a number.) -/
theorem C56_numbers (h : O.Sound p nb ok val) (m n : Nat) (hm : m < p) (hn : n < p) :
    let x := O.fromBytes (leBytes nb m)
    let y := O.fromBytes (leBytes nb n)
    O.toBytes (O.mul x y) = leBytes nb (m * n % p) ∧
    O.toBytes (O.mul (O.add x y) O.one) = leBytes nb ((m + n) % p) ∧
    O.toBytes (O.mul (O.sub x y) O.one) = leBytes nb ((m + (p - n)) % p) ∧
    O.toBytes (O.mul (O.opp x) O.one) = leBytes nb ((p - m) % p) ∧
    O.toBytes (O.mul (O.sq x) O.one) = leBytes nb (m ^ 2 % p) ∧
    (0 < m → ∃ k, k * m % p = 1 ∧ O.toBytes (O.mul (O.inv x) O.one) = leBytes nb (k % p)) := by
  intro x y
  obtain ⟨hx, ex⟩ := h.fromBytes m hm
  obtain ⟨hy, ey⟩ := h.fromBytes n hn
  obtain ⟨h1, e1⟩ := h.one
  have key : ∀ (z : T) (k : Nat), ok z → val z = (k : ZMod p) → O.toBytes (O.mul z O.one) = leBytes nb (k % p) := by
    intro z k hz ez
    rw [h.toBytes z O.one hz h1, e1, ez, mul_one, ZMod.val_natCast]
  have hp : ((p : Nat) : ZMod p) = 0 := ZMod.natCast_self p
  refine ⟨?_, ?_, ?_, ?_, ?_, ?_⟩
  · rw [h.toBytes x y hx hy, ex, ey, ← Nat.cast_mul, ZMod.val_natCast]
  · obtain ⟨k1, k2⟩ := h.add x y hx hy
    exact key _ _ k1 (by rw [k2, ex, ey, Nat.cast_add])
  · obtain ⟨k1, k2⟩ := h.sub x y hx hy
    exact key _ _ k1 (by rw [k2, ex, ey, Nat.cast_add, Nat.cast_sub hn.le, hp]; ring)
  · obtain ⟨k1, k2⟩ := h.opp x hx
    exact key _ _ k1 (by rw [k2, ex, Nat.cast_sub hm.le, hp, zero_sub])
  · obtain ⟨k1, k2⟩ := h.sq x hx
    exact key _ _ k1 (by rw [k2, ex, Nat.cast_pow]; ring)
  · intro h0
    obtain ⟨k1, k2⟩ := h.inv x hx
    have hm0 : (m : ZMod p) ≠ 0 := by
      intro hc
      exact absurd (Nat.le_of_dvd h0 ((ZMod.natCast_eq_zero_iff _ _).1 hc)) (by omega)
    refine ⟨(m : ZMod p)⁻¹.val, ?_, key _ _ k1 (by rw [k2, ex, ZMod.natCast_zmod_val])⟩
    have : (((m : ZMod p)⁻¹.val * m : Nat) : ZMod p) = (1 : Nat) := by
      rw [Nat.cast_mul, ZMod.natCast_zmod_val, inv_mul_cancel₀ hm0, Nat.cast_one]
    have h2 := (ZMod.natCast_eq_natCast_iff' _ _ _).1 this
    rwa [Nat.mod_eq_of_lt (Fact.out : p.Prime).one_lt] at h2

end

/-- **C56**, `/repo/ecp_id_GostR3410_2001_CryptoPro_A_ParamSet.c`, 64 bit version. -/
theorem C56_CryptoPro_A_64 [Fact ec_CryptoPro_A.p.Prime] : Ecp_CryptoPro_A.file.ops.Sound ec_CryptoPro_A.p 32
    (fun x => Bounded x [0x1ffffffffffb2e, 0xffffffffffffe, 0xffffffffffffe, 0xffffffffffffe, 0xffffffffffffe])
    (fun x => ((dot [1, 0x10000000000000, 0x80000000000000000000000000, 0x400000000000000000000000000000000000000, 0x2000000000000000000000000000000000000000000000000000] x : Nat) : ZMod ec_CryptoPro_A.p)) := Ecp_CryptoPro_A.field_sound

/-- **C56**, `/repo/ecp_id_GostR3410_2001_CryptoPro_A_ParamSet.c`, 32 bit version. -/
theorem C56_CryptoPro_A_32 [Fact ec_CryptoPro_A.p.Prime] : Ecp_CryptoPro_A_32.file.ops.Sound ec_CryptoPro_A.p 32
    (fun x => Bounded x [0x1fffb2e, 0xfffffe, 0xfffffe, 0x1fffffe, 0xfffffe, 0xfffffe, 0xfffffe, 0x1fffffe, 0xfffffe, 0xfffffe, 0xfffffe])
    (fun x => ((dot [1, 0x1000000, 0x800000000000, 0x400000000000000000, 0x400000000000000000000000, 0x200000000000000000000000000000, 0x100000000000000000000000000000000000, 0x80000000000000000000000000000000000000000, 0x80000000000000000000000000000000000000000000000, 0x40000000000000000000000000000000000000000000000000000, 0x20000000000000000000000000000000000000000000000000000000000] x : Nat) : ZMod ec_CryptoPro_A.p)) := Ecp_CryptoPro_A_32.field_sound

/-- **C56**, `/repo/ecp_id_GostR3410_2001_CryptoPro_B_ParamSet.c`, 64 bit version. -/
theorem C56_CryptoPro_B_64 [Fact ec_CryptoPro_B.p.Prime] : Ecp_CryptoPro_B.file.ops.Sound ec_CryptoPro_B.p 32
    (montOk ec_CryptoPro_B.p [1, 0x10000000000000000, 0x100000000000000000000000000000000, 0x1000000000000000000000000000000000000000000000000] (List.replicate 4 0xffffffffffffffff))
    (montVal ec_CryptoPro_B.p 0x10000000000000000000000000000000000000000000000000000000000000000 [1, 0x10000000000000000, 0x100000000000000000000000000000000, 0x1000000000000000000000000000000000000000000000000]) := Ecp_CryptoPro_B.field_sound

/-- **C56**, `/repo/ecp_id_GostR3410_2001_CryptoPro_B_ParamSet.c`, 32 bit version. -/
theorem C56_CryptoPro_B_32 [Fact ec_CryptoPro_B.p.Prime] : Ecp_CryptoPro_B_32.file.ops.Sound ec_CryptoPro_B.p 32
    (montOk ec_CryptoPro_B.p [1, 0x100000000, 0x10000000000000000, 0x1000000000000000000000000, 0x100000000000000000000000000000000, 0x10000000000000000000000000000000000000000, 0x1000000000000000000000000000000000000000000000000, 0x100000000000000000000000000000000000000000000000000000000] (List.replicate 8 0xffffffff))
    (montVal ec_CryptoPro_B.p 0x10000000000000000000000000000000000000000000000000000000000000000 [1, 0x100000000, 0x10000000000000000, 0x1000000000000000000000000, 0x100000000000000000000000000000000, 0x10000000000000000000000000000000000000000, 0x1000000000000000000000000000000000000000000000000, 0x100000000000000000000000000000000000000000000000000000000]) := Ecp_CryptoPro_B_32.field_sound

/-- **C56**, `/repo/ecp_id_GostR3410_2001_CryptoPro_C_ParamSet.c`, 64 bit version. -/
theorem C56_CryptoPro_C_64 [Fact ec_CryptoPro_C.p.Prime] : Ecp_CryptoPro_C.file.ops.Sound ec_CryptoPro_C.p 32
    (montOk ec_CryptoPro_C.p [1, 0x10000000000000000, 0x100000000000000000000000000000000, 0x1000000000000000000000000000000000000000000000000] (List.replicate 4 0xffffffffffffffff))
    (montVal ec_CryptoPro_C.p 0x10000000000000000000000000000000000000000000000000000000000000000 [1, 0x10000000000000000, 0x100000000000000000000000000000000, 0x1000000000000000000000000000000000000000000000000]) := Ecp_CryptoPro_C.field_sound

/-- **C56**, `/repo/ecp_id_GostR3410_2001_CryptoPro_C_ParamSet.c`, 32 bit version. -/
theorem C56_CryptoPro_C_32 [Fact ec_CryptoPro_C.p.Prime] : Ecp_CryptoPro_C_32.file.ops.Sound ec_CryptoPro_C.p 32
    (montOk ec_CryptoPro_C.p [1, 0x100000000, 0x10000000000000000, 0x1000000000000000000000000, 0x100000000000000000000000000000000, 0x10000000000000000000000000000000000000000, 0x1000000000000000000000000000000000000000000000000, 0x100000000000000000000000000000000000000000000000000000000] (List.replicate 8 0xffffffff))
    (montVal ec_CryptoPro_C.p 0x10000000000000000000000000000000000000000000000000000000000000000 [1, 0x100000000, 0x10000000000000000, 0x1000000000000000000000000, 0x100000000000000000000000000000000, 0x10000000000000000000000000000000000000000, 0x1000000000000000000000000000000000000000000000000, 0x100000000000000000000000000000000000000000000000000000000]) := Ecp_CryptoPro_C_32.field_sound

/-- **C56**, `/repo/ecp_id_GostR3410_2001_TestParamSet.c`, 64 bit version. -/
theorem C56_Test_64 [Fact ec_Test.p.Prime] : Ecp_Test.file.ops.Sound ec_Test.p 32
    (montOk ec_Test.p [1, 0x10000000000000000, 0x100000000000000000000000000000000, 0x1000000000000000000000000000000000000000000000000] (List.replicate 4 0xffffffffffffffff))
    (montVal ec_Test.p 0x10000000000000000000000000000000000000000000000000000000000000000 [1, 0x10000000000000000, 0x100000000000000000000000000000000, 0x1000000000000000000000000000000000000000000000000]) := Ecp_Test.field_sound

/-- **C56**, `/repo/ecp_id_GostR3410_2001_TestParamSet.c`, 32 bit version. -/
theorem C56_Test_32 [Fact ec_Test.p.Prime] : Ecp_Test_32.file.ops.Sound ec_Test.p 32
    (montOk ec_Test.p [1, 0x100000000, 0x10000000000000000, 0x1000000000000000000000000, 0x100000000000000000000000000000000, 0x10000000000000000000000000000000000000000, 0x1000000000000000000000000000000000000000000000000, 0x100000000000000000000000000000000000000000000000000000000] (List.replicate 8 0xffffffff))
    (montVal ec_Test.p 0x10000000000000000000000000000000000000000000000000000000000000000 [1, 0x100000000, 0x10000000000000000, 0x1000000000000000000000000, 0x100000000000000000000000000000000, 0x10000000000000000000000000000000000000000, 0x1000000000000000000000000000000000000000000000000, 0x100000000000000000000000000000000000000000000000000000000]) := Ecp_Test_32.field_sound

/-- **C56**, `/repo/ecp_id_tc26_gost_3410_2012_256_paramSetA.c`, 64 bit version. -/
theorem C56_tc26_256_paramSetA_64 [Fact ec_tc26_256_paramSetA.p.Prime] : Ecp_tc26_256_paramSetA.file.ops.Sound ec_tc26_256_paramSetA.p 32
    (fun x => Bounded x [0x1ffffffffffb2e, 0xffffffffffffe, 0xffffffffffffe, 0xffffffffffffe, 0xffffffffffffe])
    (fun x => ((dot [1, 0x10000000000000, 0x80000000000000000000000000, 0x400000000000000000000000000000000000000, 0x2000000000000000000000000000000000000000000000000000] x : Nat) : ZMod ec_tc26_256_paramSetA.p)) := Ecp_tc26_256_paramSetA.field_sound

/-- **C56**, `/repo/ecp_id_tc26_gost_3410_2012_256_paramSetA.c`, 32 bit version. -/
theorem C56_tc26_256_paramSetA_32 [Fact ec_tc26_256_paramSetA.p.Prime] : Ecp_tc26_256_paramSetA_32.file.ops.Sound ec_tc26_256_paramSetA.p 32
    (fun x => Bounded x [0x1fffb2e, 0xfffffe, 0xfffffe, 0x1fffffe, 0xfffffe, 0xfffffe, 0xfffffe, 0x1fffffe, 0xfffffe, 0xfffffe, 0xfffffe])
    (fun x => ((dot [1, 0x1000000, 0x800000000000, 0x400000000000000000, 0x400000000000000000000000, 0x200000000000000000000000000000, 0x100000000000000000000000000000000000, 0x80000000000000000000000000000000000000000, 0x80000000000000000000000000000000000000000000000, 0x40000000000000000000000000000000000000000000000000000, 0x20000000000000000000000000000000000000000000000000000000000] x : Nat) : ZMod ec_tc26_256_paramSetA.p)) := Ecp_tc26_256_paramSetA_32.field_sound

/-- **C56**, `/repo/ecp_id_tc26_gost_3410_2012_512_paramSetA.c`, 64 bit version. -/
theorem C56_tc26_512_paramSetA_64 [Fact ec_tc26_512_paramSetA.p.Prime] : Ecp_tc26_512_paramSetA.file.ops.Sound ec_tc26_512_paramSetA.p 64
    (fun x => Bounded x [0x1ffffffffffb8e, 0xffffffffffffe, 0xffffffffffffe, 0xffffffffffffe, 0xffffffffffffe, 0x1ffffffffffffe, 0xffffffffffffe, 0xffffffffffffe, 0xffffffffffffe, 0xffffffffffffe])
    (fun x => ((dot [1, 0x10000000000000, 0x80000000000000000000000000, 0x400000000000000000000000000000000000000, 0x2000000000000000000000000000000000000000000000000000, 0x10000000000000000000000000000000000000000000000000000000000000000, 0x100000000000000000000000000000000000000000000000000000000000000000000000000000, 0x800000000000000000000000000000000000000000000000000000000000000000000000000000000000000000, 0x4000000000000000000000000000000000000000000000000000000000000000000000000000000000000000000000000000000, 0x20000000000000000000000000000000000000000000000000000000000000000000000000000000000000000000000000000000000000000000] x : Nat) : ZMod ec_tc26_512_paramSetA.p)) := Ecp_tc26_512_paramSetA.field_sound

/-- **C56**, `/repo/ecp_id_tc26_gost_3410_2012_512_paramSetA.c`, 32 bit version. -/
theorem C56_tc26_512_paramSetA_32 [Fact ec_tc26_512_paramSetA.p.Prime] : Ecp_tc26_512_paramSetA_32.file.ops.Sound ec_tc26_512_paramSetA.p 64
    (fun x => Bounded x [0xfffb8e, 0x7ffffe, 0x7ffffe, 0xfffffe, 0x7ffffe, 0x7ffffe, 0x7ffffe, 0xfffffe, 0x7ffffe, 0x7ffffe, 0x7ffffe, 0xfffffe, 0x7ffffe, 0x7ffffe, 0x7ffffe, 0xfffffe, 0x7ffffe, 0x7ffffe, 0x7ffffe, 0xfffffe, 0x7ffffe, 0x7ffffe, 0x7ffffe])
    (fun x => ((dot [1, 0x800000, 0x200000000000, 0x80000000000000000, 0x40000000000000000000000, 0x10000000000000000000000000000, 0x4000000000000000000000000000000000, 0x1000000000000000000000000000000000000000, 0x800000000000000000000000000000000000000000000, 0x200000000000000000000000000000000000000000000000000, 0x80000000000000000000000000000000000000000000000000000000, 0x20000000000000000000000000000000000000000000000000000000000000, 0x10000000000000000000000000000000000000000000000000000000000000000000, 0x4000000000000000000000000000000000000000000000000000000000000000000000000, 0x1000000000000000000000000000000000000000000000000000000000000000000000000000000, 0x400000000000000000000000000000000000000000000000000000000000000000000000000000000000, 0x200000000000000000000000000000000000000000000000000000000000000000000000000000000000000000, 0x80000000000000000000000000000000000000000000000000000000000000000000000000000000000000000000000, 0x20000000000000000000000000000000000000000000000000000000000000000000000000000000000000000000000000000, 0x8000000000000000000000000000000000000000000000000000000000000000000000000000000000000000000000000000000000, 0x4000000000000000000000000000000000000000000000000000000000000000000000000000000000000000000000000000000000000000, 0x1000000000000000000000000000000000000000000000000000000000000000000000000000000000000000000000000000000000000000000000, 0x400000000000000000000000000000000000000000000000000000000000000000000000000000000000000000000000000000000000000000000000000] x : Nat) : ZMod ec_tc26_512_paramSetA.p)) := Ecp_tc26_512_paramSetA_32.field_sound

/-- **C56**, `/repo/ecp_id_tc26_gost_3410_2012_512_paramSetB.c`, 64 bit version. -/
theorem C56_tc26_512_paramSetB_64 [Fact ec_tc26_512_paramSetB.p.Prime] : Ecp_tc26_512_paramSetB.file.ops.Sound ec_tc26_512_paramSetB.p 64
    (montOk ec_tc26_512_paramSetB.p [1, 0x10000000000000000, 0x100000000000000000000000000000000, 0x1000000000000000000000000000000000000000000000000, 0x10000000000000000000000000000000000000000000000000000000000000000, 0x100000000000000000000000000000000000000000000000000000000000000000000000000000000, 0x1000000000000000000000000000000000000000000000000000000000000000000000000000000000000000000000000, 0x10000000000000000000000000000000000000000000000000000000000000000000000000000000000000000000000000000000000000000] (List.replicate 8 0xffffffffffffffff))
    (montVal ec_tc26_512_paramSetB.p 0x100000000000000000000000000000000000000000000000000000000000000000000000000000000000000000000000000000000000000000000000000000000 [1, 0x10000000000000000, 0x100000000000000000000000000000000, 0x1000000000000000000000000000000000000000000000000, 0x10000000000000000000000000000000000000000000000000000000000000000, 0x100000000000000000000000000000000000000000000000000000000000000000000000000000000, 0x1000000000000000000000000000000000000000000000000000000000000000000000000000000000000000000000000, 0x10000000000000000000000000000000000000000000000000000000000000000000000000000000000000000000000000000000000000000]) := Ecp_tc26_512_paramSetB.field_sound

/-- **C56**, `/repo/ecp_id_tc26_gost_3410_2012_512_paramSetB.c`, 32 bit version. -/
theorem C56_tc26_512_paramSetB_32 [Fact ec_tc26_512_paramSetB.p.Prime] : Ecp_tc26_512_paramSetB_32.file.ops.Sound ec_tc26_512_paramSetB.p 64
    (montOk ec_tc26_512_paramSetB.p [1, 0x100000000, 0x10000000000000000, 0x1000000000000000000000000, 0x100000000000000000000000000000000, 0x10000000000000000000000000000000000000000, 0x1000000000000000000000000000000000000000000000000, 0x100000000000000000000000000000000000000000000000000000000, 0x10000000000000000000000000000000000000000000000000000000000000000, 0x1000000000000000000000000000000000000000000000000000000000000000000000000, 0x100000000000000000000000000000000000000000000000000000000000000000000000000000000, 0x10000000000000000000000000000000000000000000000000000000000000000000000000000000000000000, 0x1000000000000000000000000000000000000000000000000000000000000000000000000000000000000000000000000, 0x100000000000000000000000000000000000000000000000000000000000000000000000000000000000000000000000000000000, 0x10000000000000000000000000000000000000000000000000000000000000000000000000000000000000000000000000000000000000000, 0x1000000000000000000000000000000000000000000000000000000000000000000000000000000000000000000000000000000000000000000000000] (List.replicate 16 0xffffffff))
    (montVal ec_tc26_512_paramSetB.p 0x100000000000000000000000000000000000000000000000000000000000000000000000000000000000000000000000000000000000000000000000000000000 [1, 0x100000000, 0x10000000000000000, 0x1000000000000000000000000, 0x100000000000000000000000000000000, 0x10000000000000000000000000000000000000000, 0x1000000000000000000000000000000000000000000000000, 0x100000000000000000000000000000000000000000000000000000000, 0x10000000000000000000000000000000000000000000000000000000000000000, 0x1000000000000000000000000000000000000000000000000000000000000000000000000, 0x100000000000000000000000000000000000000000000000000000000000000000000000000000000, 0x10000000000000000000000000000000000000000000000000000000000000000000000000000000000000000, 0x1000000000000000000000000000000000000000000000000000000000000000000000000000000000000000000000000, 0x100000000000000000000000000000000000000000000000000000000000000000000000000000000000000000000000000000000, 0x10000000000000000000000000000000000000000000000000000000000000000000000000000000000000000000000000000000000000000, 0x1000000000000000000000000000000000000000000000000000000000000000000000000000000000000000000000000000000000000000000000000]) := Ecp_tc26_512_paramSetB_32.field_sound

/-- **C56**, `/repo/ecp_id_tc26_gost_3410_2012_512_paramSetC.c`, 64 bit version. -/
theorem C56_tc26_512_paramSetC_64 [Fact ec_tc26_512_paramSetC.p.Prime] : Ecp_tc26_512_paramSetC.file.ops.Sound ec_tc26_512_paramSetC.p 64
    (fun x => Bounded x [0x1ffffffffffb8e, 0xffffffffffffe, 0xffffffffffffe, 0xffffffffffffe, 0xffffffffffffe, 0x1ffffffffffffe, 0xffffffffffffe, 0xffffffffffffe, 0xffffffffffffe, 0xffffffffffffe])
    (fun x => ((dot [1, 0x10000000000000, 0x80000000000000000000000000, 0x400000000000000000000000000000000000000, 0x2000000000000000000000000000000000000000000000000000, 0x10000000000000000000000000000000000000000000000000000000000000000, 0x100000000000000000000000000000000000000000000000000000000000000000000000000000, 0x800000000000000000000000000000000000000000000000000000000000000000000000000000000000000000, 0x4000000000000000000000000000000000000000000000000000000000000000000000000000000000000000000000000000000, 0x20000000000000000000000000000000000000000000000000000000000000000000000000000000000000000000000000000000000000000000] x : Nat) : ZMod ec_tc26_512_paramSetC.p)) := Ecp_tc26_512_paramSetC.field_sound

/-- **C56**, `/repo/ecp_id_tc26_gost_3410_2012_512_paramSetC.c`, 32 bit version. -/
theorem C56_tc26_512_paramSetC_32 [Fact ec_tc26_512_paramSetC.p.Prime] : Ecp_tc26_512_paramSetC_32.file.ops.Sound ec_tc26_512_paramSetC.p 64
    (fun x => Bounded x [0xfffb8e, 0x7ffffe, 0x7ffffe, 0xfffffe, 0x7ffffe, 0x7ffffe, 0x7ffffe, 0xfffffe, 0x7ffffe, 0x7ffffe, 0x7ffffe, 0xfffffe, 0x7ffffe, 0x7ffffe, 0x7ffffe, 0xfffffe, 0x7ffffe, 0x7ffffe, 0x7ffffe, 0xfffffe, 0x7ffffe, 0x7ffffe, 0x7ffffe])
    (fun x => ((dot [1, 0x800000, 0x200000000000, 0x80000000000000000, 0x40000000000000000000000, 0x10000000000000000000000000000, 0x4000000000000000000000000000000000, 0x1000000000000000000000000000000000000000, 0x800000000000000000000000000000000000000000000, 0x200000000000000000000000000000000000000000000000000, 0x80000000000000000000000000000000000000000000000000000000, 0x20000000000000000000000000000000000000000000000000000000000000, 0x10000000000000000000000000000000000000000000000000000000000000000000, 0x4000000000000000000000000000000000000000000000000000000000000000000000000, 0x1000000000000000000000000000000000000000000000000000000000000000000000000000000, 0x400000000000000000000000000000000000000000000000000000000000000000000000000000000000, 0x200000000000000000000000000000000000000000000000000000000000000000000000000000000000000000, 0x80000000000000000000000000000000000000000000000000000000000000000000000000000000000000000000000, 0x20000000000000000000000000000000000000000000000000000000000000000000000000000000000000000000000000000, 0x8000000000000000000000000000000000000000000000000000000000000000000000000000000000000000000000000000000000, 0x4000000000000000000000000000000000000000000000000000000000000000000000000000000000000000000000000000000000000000, 0x1000000000000000000000000000000000000000000000000000000000000000000000000000000000000000000000000000000000000000000000, 0x400000000000000000000000000000000000000000000000000000000000000000000000000000000000000000000000000000000000000000000000000] x : Nat) : ZMod ec_tc26_512_paramSetC.p)) := Ecp_tc26_512_paramSetC_32.field_sound

-- non-vacuity: the sum of two numbers of the field of the curve CryptoPro-A
example (hp : Fact ec_CryptoPro_A.p.Prime) : Ecp_CryptoPro_A.file.ops.toBytes (Ecp_CryptoPro_A.file.ops.mul
    (Ecp_CryptoPro_A.file.ops.add (Ecp_CryptoPro_A.file.ops.fromBytes (leBytes 32 (ec_CryptoPro_A.p - 1)))
      (Ecp_CryptoPro_A.file.ops.fromBytes (leBytes 32 5))) Ecp_CryptoPro_A.file.ops.one) = leBytes 32 4 :=
  (C56_numbers C56_CryptoPro_A_64 (ec_CryptoPro_A.p - 1) 5 (by decide +kernel) (by decide +kernel)).2.1

end Gost
