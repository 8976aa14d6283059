import Verif.Model.Ecp.tc26_256_paramSetA
import Verif.Lemmas.FiatField
import Verif.Model.EcParams

/-!
# The field arithmetic of `/repo/ecp_id_tc26_gost_3410_2012_256_paramSetA.c`, 64 bit version

Certificates, generated by `tools/mkfiat.py`.
-/

namespace Gost.Ecp_tc26_256_paramSetA

open Fiat

set_option maxRecDepth 1000000

local notation "p" => ec_tc26_256_paramSetA.p

/-- The weights of the limbs. -/
def W : List Nat := [1, 0x10000000000000, 0x80000000000000000000000000, 0x400000000000000000000000000000000000000, 0x2000000000000000000000000000000000000000000000000000]
/-- Bounds of the limbs of field elements. -/
def bal : List Nat := [0x1ffffffffffb2e, 0xffffffffffffe, 0xffffffffffffe, 0xffffffffffffe, 0xffffffffffffe]
/-- Bounds of the limbs of products, sums and differences. -/
def tight : List Nat := [0x10000000000000, 0x8000000000000, 0x8000000000000, 0x8000000000000, 0x8000000000000]
/-- Bounds before the carries of sums and differences. -/
def wide : List Nat := [0x3ffffffffff65c, 0x1ffffffffffffc, 0x1ffffffffffffc, 0x1ffffffffffffc, 0x1ffffffffffffc]
def sb : List Nat := [0xfffffffffffff, 0x7ffffffffffff, 0x7ffffffffffff, 0x7ffffffffffff, 0x7ffffffffffff]

def k1 : List Nat :=
  [0x4000000000000000000000000000000000000000000000000, 0x800000000000000000000000000000000001, 0x100000000000000000000002, 0x10000000003,
  0x800000000000000000000000000000000004, 0x100000000000000000000005, 0x10000000006, 0x100000000000000000000007, 0x10000000008,
  0x10000000009, 0x2000000000000000000000000000000000000000000000000000000000000a,
  0x2000000000000000000000000000000000000000000000000000000000000b, 0x400000000000000000000000000000000000000000000000c,
  0x2000000000000000000000000000000000000000000000000000000000000d, 0x400000000000000000000000000000000000000000000000e,
  0x80000000000000000000000000000000000f, 0x20000000000000000000000000000000000000000000000000000000000010,
  0x4000000000000000000000000000000000000000000000011, 0x800000000000000000000000000000000012, 0x100000000000000000000013,
  0x20000000000000000000000000000000000000000000000000000000000014, 0x4000000000000000000000000000000000000000000000015,
  0x800000000000000000000000000000000016, 0x100000000000000000000017, 0x10000000018, 0x10000000019, 0x10000000000000000000001a,
  0x1000000001b, 0x2000000000000000000000000000000000000000000000000000000000001c, 0x400000000000000000000000000000000000000000000001d,
  0x80000000000000000000000000000000001e, 0x10000000000000000000001f, 0x100000000000000000000020, 0x800000000000000000000000000000000021,
  0x100000000000000000000022, 0x800000000000000000000000000000000023, 0x4000000000000000000000000000000000000000000000024,
  0x800000000000000000000000000000000025, 0x4000000000000000000000000000000000000000000000026,
  0x20000000000000000000000000000000000000000000000000000000000027, 0x4000000000000000000000000000000000000000000000028,
  0x20000000000000000000000000000000000000000000000000000000000029, 0x269000000002a,
  0x2000000000000000000000000000000000000000000000000000000000002b, 0x1000000002c, 0x1000000002d, 0x10000000000000000000002e, 0x1000000002f,
  0x100000000000000000000030, 0x800000000000000000000000000000000031, 0x100000000000000000000032, 0x800000000000000000000000000000000033]

theorem c1 : check [] carry_mul bal bal k1 (lin false 1 W (vars carry_mul.out) ++ prodForm true W (argsA bal.length) (argsB bal.length)) p carry_mul.out tight = true := by decide +kernel

def k2 : List Nat :=
  [0x1000000000000000000000000000000d00000, 0x200000000000000000900000, 0x40000500000, 0x4000000000000000000000000000000000000000001100000,
  0x800000000000000000000000000000d00001, 0x100000000000000000900001, 0x20000500001,
  0x20000000000000000000000000000000000000000000000000000000100002, 0x40000900003, 0x100000000000000000d00003, 0x20000900004,
  0x40000000000000000000000000000000000000000000000000000000500005, 0x4000000000000000000000000000000000000000000100005,
  0x8000000000000000000000000000000000000000000500006, 0x800000000000000000000000000000100006, 0x100000000000000000100007,
  0x4000000000000000000000000000000000000000000000008, 0x800000000000000000000000000000000009, 0x10000000000000000000000a,
  0x10000000000000000000000b, 0x1000000000c, 0x2000000000000000000000000000000000000000000000000000000000000d, 0x1000000000e,
  0x2000000000000000000000000000000000000000000000000000000000000f, 0x4000000000000000000000000000000000000000000000010,
  0x800000000000000000000000000000000011, 0x20000000000000000000000000000000000000000000000000000000000012,
  0x4000000000000000000000000000000000000000000000013, 0x800000000000000000000000000000000014, 0x100000000000000000000015, 0x10000000016,
  0x10000000017, 0x100000000000000000000018, 0x10000000019, 0x2000000000000000000000000000000000000000000000000000000000001a,
  0x400000000000000000000000000000000000000000000001b, 0x80000000000000000000000000000000001c, 0x10000000000000000000001d,
  0x10000000000000000000001e, 0x80000000000000000000000000000000001f, 0x100000000000000000000020, 0x800000000000000000000000000000000021,
  0x4000000000000000000000000000000000000000000000022, 0x800000000000000000000000000000000023,
  0x4000000000000000000000000000000000000000000000024, 0x20000000000000000000000000000000000000000000000000000000000025,
  0x4000000000000000000000000000000000000000000000026, 0x20000000000000000000000000000000000000000000000000000000000027, 0x2690000000028,
  0x20000000000000000000000000000000000000000000000000000000000029, 0x1000000002a, 0x1000000002b, 0x10000000000000000000002c, 0x1000000002d,
  0x10000000000000000000002e, 0x80000000000000000000000000000000002f, 0x100000000000000000000030, 0x800000000000000000000000000000000031]

theorem c2 : check [] carry_square bal [] k2 (lin false 1 W (vars carry_square.out) ++ prodForm true W (argsA bal.length) (argsA bal.length)) p carry_square.out tight = true := by decide +kernel

def k3 : List Nat :=
  [0x10000000000, 0x100000000000000000000001, 0x800000000000000000000000000000000002, 0x4000000000000000000000000000000000000000000000003,
  0x20000000000000000000000000000000000000000000000000000000000004, 0x10000000005, 0x100000000000000000000006, 0x10000000007,
  0x100000000000000000000008, 0x800000000000000000000000000000000009, 0x400000000000000000000000000000000000000000000000a,
  0x2000000000000000000000000000000000000000000000000000000000000b]

theorem c3 : check [] carry wide [] k3 (lin false 1 W (vars carry.out) ++ lin true 1 W (argsA wide.length)) p carry.out tight = true := by decide +kernel

def k4 : List Nat :=
  [0x10000000000, 0x100000000000000000000001, 0x800000000000000000000000000000000002, 0x4000000000000000000000000000000000000000000000003,
  0x20000000000000000000000000000000000000000000000000000000000004]

theorem c4 : check [] add bal bal k4 (lin false 1 W (vars add.out) ++ (lin true 1 W (argsA bal.length) ++ lin true 1 W (argsB bal.length))) p add.out wide = true := by decide +kernel

def k5 : List Nat :=
  [0x10000000000, 0x100000000000000000000001, 0x800000000000000000000000000000000002, 0x4000000000000000000000000000000000000000000000003,
  0x20000000000000000000000000000000000000000000000000000000000004]

theorem c5 : check [] sub bal bal k5 (lin false 1 W (vars sub.out) ++ (lin true 1 W (argsA bal.length) ++ lin false 1 W (argsB bal.length))) p sub.out wide = true := by decide +kernel

def k6 : List Nat :=
  [0x10000000000, 0x100000000000000000000001, 0x800000000000000000000000000000000002, 0x4000000000000000000000000000000000000000000000003,
  0x20000000000000000000000000000000000000000000000000000000000004]

theorem c6 : check [] opp bal [] k6 (lin false 1 W (vars opp.out) ++ lin false 1 W (argsA bal.length)) p opp.out bal = true := by decide +kernel

def k7 : List Nat :=
  [0x20000000000000000000000000000000000000000000000000000000000000, 0x20000000000000000000000000000000000000000000000000000000000001,
  0x20000000000000000000000000000000000000000000000000000000000002, 0x20000000000000000000000000000000000000000000000000000000000003,
  0x20000000000000000000000000000000000000000000000000000000000004, 0x20000000000000000000000000000000000000000000000000000000000005,
  0x4000000000000000000000000000000000000000000000006, 0x4000000000000000000000000000000000000000000000007,
  0x4000000000000000000000000000000000000000000000008, 0x4000000000000000000000000000000000000000000000009,
  0x400000000000000000000000000000000000000000000000a, 0x400000000000000000000000000000000000000000000000b,
  0x80000000000000000000000000000000000c, 0x80000000000000000000000000000000000d, 0x80000000000000000000000000000000000e,
  0x80000000000000000000000000000000000f, 0x800000000000000000000000000000000010, 0x800000000000000000000000000000000011,
  0x800000000000000000000000000000000012, 0x100000000000000000000013, 0x100000000000000000000014, 0x100000000000000000000015,
  0x100000000000000000000016, 0x100000000000000000000017, 0x100000000000000000000018, 0x10000000019, 0x1000000001a, 0x1000000001b,
  0x1000000001c, 0x1000000001d, 0x1000000001e, 0x1000000001f, 0x10000000020, 0x10000000021, 0x10000000022, 0x10000000023, 0x10000000024,
  0x10000000025, 0x10000000026, 0x100000000000000000000027, 0x100000000000000000000028, 0x100000000000000000000029,
  0x10000000000000000000002a, 0x10000000000000000000002b, 0x10000000000000000000002c, 0x10000000000000000000002d, 0x10000000000000000000002e,
  0x80000000000000000000000000000000002f, 0x800000000000000000000000000000000030, 0x800000000000000000000000000000000031,
  0x800000000000000000000000000000000032, 0x800000000000000000000000000000000033, 0x800000000000000000000000000000000034,
  0x800000000000000000000000000000000035, 0x800000000000000000000000000000000036, 0x800000000000000000000000000000000037,
  0x4000000000000000000000000000000000000000000000038, 0x4000000000000000000000000000000000000000000000039,
  0x400000000000000000000000000000000000000000000003a, 0x400000000000000000000000000000000000000000000003b,
  0x400000000000000000000000000000000000000000000003c, 0x400000000000000000000000000000000000000000000003d,
  0x400000000000000000000000000000000000000000000003e, 0x400000000000000000000000000000000000000000000003f,
  0x20000000000000000000000000000000000000000000000000000000000040, 0x20000000000000000000000000000000000000000000000000000000000041,
  0x20000000000000000000000000000000000000000000000000000000000042, 0x20000000000000000000000000000000000000000000000000000000000043,
  0x20000000000000000000000000000000000000000000000000000000000044, 0x20000000000000000000000000000000000000000000000000000000000045,
  0x20000000000000000000000000000000000000000000000000000000000046]

theorem c7 : check [] from_bytes (List.replicate 32 255) [] k7 (lin false 1 W (vars from_bytes.out) ++ lin true 1 (byteW 32) (argsA (List.replicate 32 255).length)) 0 from_bytes.out tight = true := by decide +kernel

def kb : CondCert where
  ts := argsA 5
  ss := [1, 3, 5, 7, 9]
  bf := 10
  chain := [0x10000000000, 0x100000000000000000000001, 0x800000000000000000000000000000000002, 0x4000000000000000000000000000000000000000000000003,
  0x20000000000000000000000000000000000000000000000000000000000004]
  c0 := [0x10000000000, 0x100000000000000000000001, 0x800000000000000000000000000000000002, 0x4000000000000000000000000000000000000000000000003,
  0x20000000000000000000000000000000000000000000000000000000000004, 0x10000000006, 0x100000000000000000000007,
  0x800000000000000000000000000000000008, 0x4000000000000000000000000000000000000000000000009,
  0x2000000000000000000000000000000000000000000000000000000000000a, 0x100000000000000000000000000000000000000000000000000000000000b,
  0x100000000000000000000000000000000000000000000000c, 0x1000000000000000000000000000000000d, 0x1000000000000000000000e, 0x1000000000f,
  0x1000000000010, 0x1000000000011, 0x100000000000012, 0x100000000000013, 0x10000000000000014, 0x10000000000000015, 0x1000000000000000016,
  0x1000000000000000017, 0x100000000000000000018, 0x100000000000000000019, 0x1000000000000000000001a, 0x1000000000000000000001b,
  0x1000000000000000000001c, 0x100000000000000000000001d, 0x100000000000000000000001e, 0x10000000000000000000000001f,
  0x100000000000000000000000020, 0x10000000000000000000000000021, 0x10000000000000000000000000022, 0x1000000000000000000000000000023,
  0x1000000000000000000000000000024, 0x100000000000000000000000000000025, 0x100000000000000000000000000000026,
  0x10000000000000000000000000000000027, 0x10000000000000000000000000000000028, 0x10000000000000000000000000000000029,
  0x100000000000000000000000000000000002a, 0x100000000000000000000000000000000002b, 0x10000000000000000000000000000000000002c,
  0x10000000000000000000000000000000000002d, 0x1000000000000000000000000000000000000002e, 0x1000000000000000000000000000000000000002f,
  0x1000000000000000000000000000000000000000030, 0x1000000000000000000000000000000000000000031,
  0x100000000000000000000000000000000000000000032, 0x100000000000000000000000000000000000000000033,
  0x10000000000000000000000000000000000000000000034, 0x10000000000000000000000000000000000000000000035,
  0x1000000000000000000000000000000000000000000000036, 0x1000000000000000000000000000000000000000000000037,
  0x1000000000000000000000000000000000000000000000038, 0x100000000000000000000000000000000000000000000000039,
  0x10000000000000000000000000000000000000000000000003a, 0x1000000000000000000000000000000000000000000000000003b,
  0x1000000000000000000000000000000000000000000000000003c, 0x100000000000000000000000000000000000000000000000000003d,
  0x100000000000000000000000000000000000000000000000000003e, 0x10000000000000000000000000000000000000000000000000000003f,
  0x100000000000000000000000000000000000000000000000000000040, 0x10000000000000000000000000000000000000000000000000000000041,
  0x10000000000000000000000000000000000000000000000000000000042, 0x1000000000000000000000000000000000000000000000000000000000043,
  0x1000000000000000000000000000000000000000000000000000000000044, 0x1000000000000000000000000000000000000000000000000000000000045,
  0x100000000000000000000000000000000000000000000000000000000000046, 0x100000000000000000000000000000000000000000000000000000000000047,
  0x10000000000000000000000000000000000000000000000000000000000000048, 0x10000000000000000000000000000000000000000000000000000000000000049,
  0x100000000000000000000000000000000000000000000000000000000000000004a,
  0x100000000000000000000000000000000000000000000000000000000000000004b,
  0x10000000000000000000000000000000000000000000000000000000000000000004c,
  0x10000000000000000000000000000000000000000000000000000000000000000004d,
  0x1000000000000000000000000000000000000000000000000000000000000000000004e,
  0x1000000000000000000000000000000000000000000000000000000000000000000004f,
  0x1000000000000000000000000000000000000000000000000000000000000000000000050]
  c1 := [0x10000000000, 0x100000000000000000000001, 0x800000000000000000000000000000000002, 0x4000000000000000000000000000000000000000000000003,
  0x20000000000000000000000000000000000000000000000000000000000004, 0x10000000006, 0x100000000000000000000007,
  0x800000000000000000000000000000000008, 0x4000000000000000000000000000000000000000000000009,
  0x2000000000000000000000000000000000000000000000000000000000000a, 0x100000000000000000000000000000000000000000000000000000000000b,
  0x100000000000000000000000000000000000000000000000c, 0x1000000000000000000000000000000000d, 0x1000000000000000000000e, 0x1000000000f,
  0x1000000000010, 0x1000000000011, 0x100000000000012, 0x100000000000013, 0x10000000000000014, 0x10000000000000015, 0x1000000000000000016,
  0x1000000000000000017, 0x100000000000000000018, 0x100000000000000000019, 0x1000000000000000000001a, 0x1000000000000000000001b,
  0x1000000000000000000001c, 0x100000000000000000000001d, 0x100000000000000000000001e, 0x10000000000000000000000001f,
  0x100000000000000000000000020, 0x10000000000000000000000000021, 0x10000000000000000000000000022, 0x1000000000000000000000000000023,
  0x1000000000000000000000000000024, 0x100000000000000000000000000000025, 0x100000000000000000000000000000026,
  0x10000000000000000000000000000000027, 0x10000000000000000000000000000000028, 0x10000000000000000000000000000000029,
  0x100000000000000000000000000000000002a, 0x100000000000000000000000000000000002b, 0x10000000000000000000000000000000000002c,
  0x10000000000000000000000000000000000002d, 0x1000000000000000000000000000000000000002e, 0x1000000000000000000000000000000000000002f,
  0x1000000000000000000000000000000000000000030, 0x1000000000000000000000000000000000000000031,
  0x100000000000000000000000000000000000000000032, 0x100000000000000000000000000000000000000000033,
  0x10000000000000000000000000000000000000000000034, 0x10000000000000000000000000000000000000000000035,
  0x1000000000000000000000000000000000000000000000036, 0x1000000000000000000000000000000000000000000000037,
  0x1000000000000000000000000000000000000000000000038, 0x100000000000000000000000000000000000000000000000039,
  0x10000000000000000000000000000000000000000000000003a, 0x1000000000000000000000000000000000000000000000000003b,
  0x1000000000000000000000000000000000000000000000000003c, 0x100000000000000000000000000000000000000000000000000003d,
  0x100000000000000000000000000000000000000000000000000003e, 0x10000000000000000000000000000000000000000000000000000003f,
  0x100000000000000000000000000000000000000000000000000000040, 0x10000000000000000000000000000000000000000000000000000000041,
  0x10000000000000000000000000000000000000000000000000000000042, 0x1000000000000000000000000000000000000000000000000000000000043,
  0x1000000000000000000000000000000000000000000000000000000000044, 0x1000000000000000000000000000000000000000000000000000000000045,
  0x100000000000000000000000000000000000000000000000000000000000046, 0x100000000000000000000000000000000000000000000000000000000000047,
  0x10000000000000000000000000000000000000000000000000000000000000048, 0x10000000000000000000000000000000000000000000000000000000000000049,
  0x100000000000000000000000000000000000000000000000000000000000000004a,
  0x100000000000000000000000000000000000000000000000000000000000000004b,
  0x10000000000000000000000000000000000000000000000000000000000000000004c,
  0x10000000000000000000000000000000000000000000000000000000000000000004d,
  0x1000000000000000000000000000000000000000000000000000000000000000000004e,
  0x1000000000000000000000000000000000000000000000000000000000000000000004f,
  0x1000000000000000000000000000000000000000000000000000000000000000000000050]

theorem c8 : condChecks [] to_bytes tight [] kb W sb (byteW 32) (List.replicate 32 255) p (256 ^ 32) (256 ^ 32) = true := by decide +kernel

theorem facts : SolFacts file p 32 W bal tight :=
  SolFacts.of_checks (wide := wide) (sb := sb) (K := kb) c1 c2 c3 c4 c5 c6 c7 c8 rfl rfl (by decide +kernel) (by decide +kernel) (by decide +kernel)
    (by decide +kernel) (by decide +kernel) (by decide +kernel) (by decide +kernel) (by decide +kernel) (by decide +kernel)

/-- The field operations of the file, on limbs within `bal`, are those modulo `p`. -/
theorem field_sound [Fact (Nat.Prime p)] : file.ops.Sound p 32 (fun x => Bounded x bal) (solVal p W) :=
  facts.sound (by decide +kernel) (by decide +kernel)

end Gost.Ecp_tc26_256_paramSetA
