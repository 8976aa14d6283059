import Verif.Model.Ecp.CryptoPro_C
import Verif.Lemmas.FiatField
import Verif.Model.EcParams

/-!
# The field arithmetic of `/repo/ecp_id_GostR3410_2001_CryptoPro_C_ParamSet.c`, 64 bit version

Certificates, generated by `tools/mkfiat.py`.
-/

namespace Gost.Ecp_CryptoPro_C

open Fiat

set_option maxRecDepth 1000000

local notation "p" => ec_CryptoPro_C.p

/-- The weights of the limbs. -/
def W : List Nat := [1, 0x10000000000000000, 0x100000000000000000000000000000000, 0x1000000000000000000000000000000000000000000000000]
def W1 : List Nat := [1, 0x10000000000000000, 0x100000000000000000000000000000000, 0x1000000000000000000000000000000000000000000000000, 0x10000000000000000000000000000000000000000000000000000000000000000]
def full : List Nat := [0xffffffffffffffff, 0xffffffffffffffff, 0xffffffffffffffff, 0xffffffffffffffff]
def full1 : List Nat := [0xffffffffffffffff, 0xffffffffffffffff, 0xffffffffffffffff, 0xffffffffffffffff, 0xffffffffffffffff]
def R : Nat := 115792089237316195423570985008687907853269984665640564039457584007913129639936
def R2 : Nat := 58111995486361888969563637736527747996397695884594178354442859647121651924202

def k1 : RedCert where
  zs := [37, 89, 0x8e, 0xc3]
  zc := [[0x7998f7b9022d759b000000000c, 0x10000000010, 0x10000000015],
    [0x7998f7b9022d759b0000000027, 0x1000000002b, 0x10000000030],
    [0x7998f7b9022d759b0000000043, 0x10000000047, 0x1000000004c],
    [0x7998f7b9022d759b000000005f, 0x10000000063, 0x10000000068]]
  qs := [20, 72, 0x7d, 0xb2]
  main := [0x100000000000000000000000000000000000000000000000000000000000000000000e00000, 0x10000000000000000000000000000000000000000000000000000a00000,
  0x1000000000000000000000000000000000000600000, 0x100000000000000000000200000,
  0x1000000000000000000000000000000000000000000000000000000000000000000000000000000000000e00001,
  0x100000000000000000000000000000000000000000000000000000000000000000000a00001,
  0x10000000000000000000000000000000000000000000000000000600001, 0x1000000000000000000000000000000000000200001,
  0x10000000000000000000000000000000000000000000000000000000000000000000000000000000000000000000000000000e00002,
  0x1000000000000000000000000000000000000000000000000000000000000000000000000000000000000a00002,
  0x100000000000000000000000000000000000000000000000000000000000000000000600002,
  0x10000000000000000000000000000000000000000000000000000200002, 0x10000000000000000000000000000000000000000000000000000e00003,
  0x1000000000000000000000000000000000000a00003, 0x100000000000000000000600003, 0x10000200003,
  0x10000000000000000000000000000000000000000000000000000000004, 0x1000000000000000000000000000000000000000005,
  0x100000000000000000000000006, 0x10000000007, 0x100000000000000000000000008, 0x1000000000000000000000000000000000000000009,
  0x1000000000000000000000000000000000000000000000000000000000a,
  0x10000000000000000000000000000000000000000000000000000000000000000000000000b,
  0x1000000000000000000000000000000000000000000000000000000000d, 0x100000000000000000000000000000000000000000e,
  0x10000000000000000000000000f, 0x10000000010, 0x100000000000000000000000011, 0x1000000000000000000000000000000000000000012,
  0x10000000000000000000000000000000000000000000000000000000013,
  0x100000000000000000000000000000000000000000000000000000000000000000000000014, 0x10000050015, 0x10000000015, 0x100000000000000000000000016,
  0x1000000000000000000000000000000000000000017, 0x10000000000000000000000000000000000000000000000000000000018,
  0x100000000000000000000000000000000000000000000000000000000000000000000000019,
  0x10000000000000000000000000000000000000000000000000000000000000000000000001a,
  0x1000000000000000000000000000000000000000000000000000000001b, 0x100000000000000000000000000000000000000001c,
  0x10000000000000000000000001d, 0x100000000000000000000000000000000000000001e,
  0x1000000000000000000000000000000000000000000000000000000001f,
  0x100000000000000000000000000000000000000000000000000000000000000000000000020,
  0x1000000000000000000000000000000000000000000000000000000000000000000000000000000000000000021, 0x100000000000000000000000022,
  0x1000000000000000000000000000000000000000023, 0x10000000000000000000000000000000000000000000000000000000024,
  0x100000000000000000000000000000000000000000000000000000000000000000000000025,
  0x1000000000000000000000000000000000000000000000000000000000000000000000000000000000000000026,
  0x100000000000000000000000000000000000000000000000000000000000000000000000028,
  0x10000000000000000000000000000000000000000000000000000000029, 0x100000000000000000000000000000000000000002a,
  0x10000000000000000000000002b, 0x100000000000000000000000000000000000000002c,
  0x1000000000000000000000000000000000000000000000000000000002d,
  0x10000000000000000000000000000000000000000000000000000000000000000000000002e,
  0x100000000000000000000000000000000000000000000000000000000000000000000000000000000000000002f, 0x100000000000000000000050030,
  0x100000000000000000000000030, 0x1000000000000000000000000000000000000000031,
  0x10000000000000000000000000000000000000000000000000000000032,
  0x100000000000000000000000000000000000000000000000000000000000000000000000033,
  0x1000000000000000000000000000000000000000000000000000000000000000000000000000000000000000034,
  0x10000000000000000000000000000000000000000000000000000000000000000000000000000000000000000000000000000000035,
  0x1000000000000000000000000000000000000000000000000000000000000000000000000000000000000000036,
  0x100000000000000000000000000000000000000000000000000000000000000000000000037,
  0x10000000000000000000000000000000000000000000000000000000038, 0x1000000000000000000000000000000000000000039,
  0x1000000000000000000000000000000000000000000000000000000003a,
  0x10000000000000000000000000000000000000000000000000000000000000000000000003b,
  0x100000000000000000000000000000000000000000000000000000000000000000000000000000000000000003c,
  0x1000000000000000000000000000000000000000000000000000000000000000000000000000000000000000000000000000000003d,
  0x100000000000000000000000000000000000000003e, 0x1000000000000000000000000000000000000000000000000000000003f,
  0x100000000000000000000000000000000000000000000000000000000000000000000000040,
  0x1000000000000000000000000000000000000000000000000000000000000000000000000000000000000000041,
  0x10000000000000000000000000000000000000000000000000000000000000000000000000000000000000000000000000000000042,
  0x1000000000000000000000000000000000000000000000000000000000000000000000000000000000000000044,
  0x100000000000000000000000000000000000000000000000000000000000000000000000045,
  0x10000000000000000000000000000000000000000000000000000000046, 0x1000000000000000000000000000000000000000047,
  0x10000000000000000000000000000000000000000000000000000000048,
  0x100000000000000000000000000000000000000000000000000000000000000000000000049,
  0x100000000000000000000000000000000000000000000000000000000000000000000000000000000000000004a,
  0x1000000000000000000000000000000000000000000000000000000000000000000000000000000000000000000000000000000004b,
  0x100000000000000000000000000000000000005004c, 0x100000000000000000000000000000000000000004c,
  0x1000000000000000000000000000000000000000000000000000000004d,
  0x10000000000000000000000000000000000000000000000000000000000000000000000004e,
  0x100000000000000000000000000000000000000000000000000000000000000000000000000000000000000004f,
  0x10000000000000000000000000000000000000000000000000000000000000000000000000000000000000000000000000000000050,
  0x100000000000000000000000000000000000000000000000000000000000000000000000000000000000000000000000000000000000000000000000051,
  0x10000000000000000000000000000000000000000000000000000000000000000000000000000000000000000000000000000000052,
  0x1000000000000000000000000000000000000000000000000000000000000000000000000000000000000000053,
  0x100000000000000000000000000000000000000000000000000000000000000000000000054,
  0x10000000000000000000000000000000000000000000000000000000055,
  0x100000000000000000000000000000000000000000000000000000000000000000000000056,
  0x1000000000000000000000000000000000000000000000000000000000000000000000000000000000000000057,
  0x10000000000000000000000000000000000000000000000000000000000000000000000000000000000000000000000000000000058,
  0x100000000000000000000000000000000000000000000000000000000000000000000000000000000000000000000000000000000000000000000000059,
  0x1000000000000000000000000000000000000000000000000000000005a,
  0x10000000000000000000000000000000000000000000000000000000000000000000000005b,
  0x100000000000000000000000000000000000000000000000000000000000000000000000000000000000000005c,
  0x1000000000000000000000000000000000000000000000000000000000000000000000000000000000000000000000000000000005d,
  0x10000000000000000000000000000000000000000000000000000000000000000000000000000000000000000000000000000000000000000000000005e,
  0x10000000000000000000000000000000000000000000000000000000000000000000000000000000000000000000000000000000060,
  0x1000000000000000000000000000000000000000000000000000000000000000000000000000000000000000061,
  0x100000000000000000000000000000000000000000000000000000000000000000000000062,
  0x10000000000000000000000000000000000000000000000000000000063,
  0x100000000000000000000000000000000000000000000000000000000000000000000000064,
  0x1000000000000000000000000000000000000000000000000000000000000000000000000000000000000000065,
  0x10000000000000000000000000000000000000000000000000000000000000000000000000000000000000000000000000000000066,
  0x100000000000000000000000000000000000000000000000000000000000000000000000000000000000000000000000000000000000000000000000067,
  0x10000000000000000000000000000000000000000000000000000050068, 0x10000000000000000000000000000000000000000000000000000000068,
  0x100000000000000000000000000000000000000000000000000000000000000000000000069,
  0x100000000000000000000000000000000000000000000000000000000000000000000000000000000000000006a,
  0x1000000000000000000000000000000000000000000000000000000000000000000000000000000000000000000000000000000006b,
  0x10000000000000000000000000000000000000000000000000000000000000000000000000000000000000000000000000000000000000000000000006c,
  0x100000000000000000000000000000000000000000000000000000000000000000000000000000000000000000000000000000000000000000000000000000000000000006d]
  cond := ⟨[.x 197, .x 199, .x 201, .x 203, .x 205], [0xce, 0xd0, 0xd2, 0xd4, 0xd6], 215,
    [0x1000000006e, 0x10000000000000000000000006f, 0x1000000000000000000000000000000000000000070,
  0x10000000000000000000000000000000000000000000000000000000071,
  0x100000000000000000000000000000000000000000000000000000000000000000000000072],
    [0x1000000006e, 0x10000000000000000000000006f, 0x1000000000000000000000000000000000000000070,
  0x10000000000000000000000000000000000000000000000000000000071, 0x10000000073, 0x100000000000000000000000074,
  0x1000000000000000000000000000000000000000075, 0x10000000000000000000000000000000000000000000000000000000076],
    [0x10000000073, 0x100000000000000000000000074, 0x1000000000000000000000000000000000000000075,
  0x10000000000000000000000000000000000000000000000000000000076]⟩

theorem c1 : redChecks mul full full k1 (prodForm true W (argsA full.length) (argsB full.length)) R 18446744073709551616 R p W W1 full full1 = true := by decide +kernel

def k2 : RedCert where
  zs := [37, 89, 0x8e, 0xc3]
  zc := [[0x7998f7b9022d759b000000000c, 0x10000000010, 0x10000000015],
    [0x7998f7b9022d759b0000000027, 0x1000000002b, 0x10000000030],
    [0x7998f7b9022d759b0000000043, 0x10000000047, 0x1000000004c],
    [0x7998f7b9022d759b000000005f, 0x10000000063, 0x10000000068]]
  qs := [20, 72, 0x7d, 0xb2]
  main := [0x100000000000000000000000000000000000000000000000000000000000000000000d00000, 0x10000000000000000000000000000000000000000000000000000900000,
  0x1000000000000000000000000000000000000500000, 0x100000000000000000000100000,
  0x1000000000000000000000000000000000000000000000000000000000000000000000000000000000000d00001,
  0x100000000000000000000000000000000000000000000000000000000000000000000900001,
  0x10000000000000000000000000000000000000000000000000000500001, 0x1000000000000000000000000000000000000100001,
  0x10000000000000000000000000000000000000000000000000000000000000000000000000000000000000000000000000000d00002,
  0x1000000000000000000000000000000000000000000000000000000000000000000000000000000000000900002,
  0x100000000000000000000000000000000000000000000000000000000000000000000500002,
  0x10000000000000000000000000000000000000000000000000000100002, 0x10000000000000000000000000000000000000000000000000000d00003,
  0x1000000000000000000000000000000000000900003, 0x100000000000000000000500003, 0x10000100003,
  0x10000000000000000000000000000000000000000000000000000000004, 0x1000000000000000000000000000000000000000005,
  0x100000000000000000000000006, 0x10000000007, 0x100000000000000000000000008, 0x1000000000000000000000000000000000000000009,
  0x1000000000000000000000000000000000000000000000000000000000a,
  0x10000000000000000000000000000000000000000000000000000000000000000000000000b,
  0x1000000000000000000000000000000000000000000000000000000000d, 0x100000000000000000000000000000000000000000e,
  0x10000000000000000000000000f, 0x10000000010, 0x100000000000000000000000011, 0x1000000000000000000000000000000000000000012,
  0x10000000000000000000000000000000000000000000000000000000013,
  0x100000000000000000000000000000000000000000000000000000000000000000000000014, 0x10000050015, 0x10000000015, 0x100000000000000000000000016,
  0x1000000000000000000000000000000000000000017, 0x10000000000000000000000000000000000000000000000000000000018,
  0x100000000000000000000000000000000000000000000000000000000000000000000000019,
  0x10000000000000000000000000000000000000000000000000000000000000000000000001a,
  0x1000000000000000000000000000000000000000000000000000000001b, 0x100000000000000000000000000000000000000001c,
  0x10000000000000000000000001d, 0x100000000000000000000000000000000000000001e,
  0x1000000000000000000000000000000000000000000000000000000001f,
  0x100000000000000000000000000000000000000000000000000000000000000000000000020,
  0x1000000000000000000000000000000000000000000000000000000000000000000000000000000000000000021, 0x100000000000000000000000022,
  0x1000000000000000000000000000000000000000023, 0x10000000000000000000000000000000000000000000000000000000024,
  0x100000000000000000000000000000000000000000000000000000000000000000000000025,
  0x1000000000000000000000000000000000000000000000000000000000000000000000000000000000000000026,
  0x100000000000000000000000000000000000000000000000000000000000000000000000028,
  0x10000000000000000000000000000000000000000000000000000000029, 0x100000000000000000000000000000000000000002a,
  0x10000000000000000000000002b, 0x100000000000000000000000000000000000000002c,
  0x1000000000000000000000000000000000000000000000000000000002d,
  0x10000000000000000000000000000000000000000000000000000000000000000000000002e,
  0x100000000000000000000000000000000000000000000000000000000000000000000000000000000000000002f, 0x100000000000000000000050030,
  0x100000000000000000000000030, 0x1000000000000000000000000000000000000000031,
  0x10000000000000000000000000000000000000000000000000000000032,
  0x100000000000000000000000000000000000000000000000000000000000000000000000033,
  0x1000000000000000000000000000000000000000000000000000000000000000000000000000000000000000034,
  0x10000000000000000000000000000000000000000000000000000000000000000000000000000000000000000000000000000000035,
  0x1000000000000000000000000000000000000000000000000000000000000000000000000000000000000000036,
  0x100000000000000000000000000000000000000000000000000000000000000000000000037,
  0x10000000000000000000000000000000000000000000000000000000038, 0x1000000000000000000000000000000000000000039,
  0x1000000000000000000000000000000000000000000000000000000003a,
  0x10000000000000000000000000000000000000000000000000000000000000000000000003b,
  0x100000000000000000000000000000000000000000000000000000000000000000000000000000000000000003c,
  0x1000000000000000000000000000000000000000000000000000000000000000000000000000000000000000000000000000000003d,
  0x100000000000000000000000000000000000000003e, 0x1000000000000000000000000000000000000000000000000000000003f,
  0x100000000000000000000000000000000000000000000000000000000000000000000000040,
  0x1000000000000000000000000000000000000000000000000000000000000000000000000000000000000000041,
  0x10000000000000000000000000000000000000000000000000000000000000000000000000000000000000000000000000000000042,
  0x1000000000000000000000000000000000000000000000000000000000000000000000000000000000000000044,
  0x100000000000000000000000000000000000000000000000000000000000000000000000045,
  0x10000000000000000000000000000000000000000000000000000000046, 0x1000000000000000000000000000000000000000047,
  0x10000000000000000000000000000000000000000000000000000000048,
  0x100000000000000000000000000000000000000000000000000000000000000000000000049,
  0x100000000000000000000000000000000000000000000000000000000000000000000000000000000000000004a,
  0x1000000000000000000000000000000000000000000000000000000000000000000000000000000000000000000000000000000004b,
  0x100000000000000000000000000000000000005004c, 0x100000000000000000000000000000000000000004c,
  0x1000000000000000000000000000000000000000000000000000000004d,
  0x10000000000000000000000000000000000000000000000000000000000000000000000004e,
  0x100000000000000000000000000000000000000000000000000000000000000000000000000000000000000004f,
  0x10000000000000000000000000000000000000000000000000000000000000000000000000000000000000000000000000000000050,
  0x100000000000000000000000000000000000000000000000000000000000000000000000000000000000000000000000000000000000000000000000051,
  0x10000000000000000000000000000000000000000000000000000000000000000000000000000000000000000000000000000000052,
  0x1000000000000000000000000000000000000000000000000000000000000000000000000000000000000000053,
  0x100000000000000000000000000000000000000000000000000000000000000000000000054,
  0x10000000000000000000000000000000000000000000000000000000055,
  0x100000000000000000000000000000000000000000000000000000000000000000000000056,
  0x1000000000000000000000000000000000000000000000000000000000000000000000000000000000000000057,
  0x10000000000000000000000000000000000000000000000000000000000000000000000000000000000000000000000000000000058,
  0x100000000000000000000000000000000000000000000000000000000000000000000000000000000000000000000000000000000000000000000000059,
  0x1000000000000000000000000000000000000000000000000000000005a,
  0x10000000000000000000000000000000000000000000000000000000000000000000000005b,
  0x100000000000000000000000000000000000000000000000000000000000000000000000000000000000000005c,
  0x1000000000000000000000000000000000000000000000000000000000000000000000000000000000000000000000000000000005d,
  0x10000000000000000000000000000000000000000000000000000000000000000000000000000000000000000000000000000000000000000000000005e,
  0x10000000000000000000000000000000000000000000000000000000000000000000000000000000000000000000000000000000060,
  0x1000000000000000000000000000000000000000000000000000000000000000000000000000000000000000061,
  0x100000000000000000000000000000000000000000000000000000000000000000000000062,
  0x10000000000000000000000000000000000000000000000000000000063,
  0x100000000000000000000000000000000000000000000000000000000000000000000000064,
  0x1000000000000000000000000000000000000000000000000000000000000000000000000000000000000000065,
  0x10000000000000000000000000000000000000000000000000000000000000000000000000000000000000000000000000000000066,
  0x100000000000000000000000000000000000000000000000000000000000000000000000000000000000000000000000000000000000000000000000067,
  0x10000000000000000000000000000000000000000000000000000050068, 0x10000000000000000000000000000000000000000000000000000000068,
  0x100000000000000000000000000000000000000000000000000000000000000000000000069,
  0x100000000000000000000000000000000000000000000000000000000000000000000000000000000000000006a,
  0x1000000000000000000000000000000000000000000000000000000000000000000000000000000000000000000000000000000006b,
  0x10000000000000000000000000000000000000000000000000000000000000000000000000000000000000000000000000000000000000000000000006c,
  0x100000000000000000000000000000000000000000000000000000000000000000000000000000000000000000000000000000000000000000000000000000000000000006d]
  cond := ⟨[.x 197, .x 199, .x 201, .x 203, .x 205], [0xce, 0xd0, 0xd2, 0xd4, 0xd6], 215,
    [0x1000000006e, 0x10000000000000000000000006f, 0x1000000000000000000000000000000000000000070,
  0x10000000000000000000000000000000000000000000000000000000071,
  0x100000000000000000000000000000000000000000000000000000000000000000000000072],
    [0x1000000006e, 0x10000000000000000000000006f, 0x1000000000000000000000000000000000000000070,
  0x10000000000000000000000000000000000000000000000000000000071, 0x10000000073, 0x100000000000000000000000074,
  0x1000000000000000000000000000000000000000075, 0x10000000000000000000000000000000000000000000000000000000076],
    [0x10000000073, 0x100000000000000000000000074, 0x1000000000000000000000000000000000000000075,
  0x10000000000000000000000000000000000000000000000000000000076]⟩

theorem c2 : redChecks square full [] k2 (prodForm true W (argsA full.length) (argsA full.length)) R 18446744073709551616 R p W W1 full full1 = true := by decide +kernel

def k3 : RedCert where
  zs := []
  zc := []
  qs := []
  main := [0x10000000000, 0x100000000000000000000000001, 0x1000000000000000000000000000000000000000002,
  0x10000000000000000000000000000000000000000000000000000000003]
  cond := ⟨[.x 1, .x 3, .x 5, .x 7, .x 8], [9, 11, 13, 15, 17], 18,
    [0x10000000004, 0x100000000000000000000000005, 0x1000000000000000000000000000000000000000006,
  0x10000000000000000000000000000000000000000000000000000000007,
  0x100000000000000000000000000000000000000000000000000000000000000000000000008],
    [0x10000000004, 0x100000000000000000000000005, 0x1000000000000000000000000000000000000000006,
  0x10000000000000000000000000000000000000000000000000000000007, 0x10000000009, 0x10000000000000000000000000a,
  0x100000000000000000000000000000000000000000b, 0x1000000000000000000000000000000000000000000000000000000000c],
    [0x10000000009, 0x10000000000000000000000000a, 0x100000000000000000000000000000000000000000b,
  0x1000000000000000000000000000000000000000000000000000000000c]⟩

theorem c3 : redChecks add full full k3 (lin true 1 W (argsA full.length) ++ lin true 1 W (argsB full.length)) 1 18446744073709551616 R p W W1 full full1 = true := by decide +kernel

def k4 : RedCert where
  zs := [18, 48, 78, 0x6c]
  zc := [[0x7998f7b9022d759b0000000001, 0x10000000005, 0x10000000009],
    [0x7998f7b9022d759b0000000010, 0x10000000014, 0x10000000018],
    [0x7998f7b9022d759b000000001f, 0x10000000023, 0x10000000027],
    [0x7998f7b9022d759b000000002e, 0x10000000032, 0x10000000036]]
  qs := [2, 32, 62, 92]
  main := [0x10000000000, 0x10000000000000000000000000000000000000000000000000000000002, 0x1000000000000000000000000000000000000000003,
  0x100000000000000000000000004, 0x10000000005, 0x100000000000000000000000006, 0x1000000000000000000000000000000000000000007,
  0x10000000000000000000000000000000000000000000000000000000008, 0x10000050009, 0x10000000009, 0x10000000000000000000000000a,
  0x100000000000000000000000000000000000000000b, 0x1000000000000000000000000000000000000000000000000000000000c,
  0x10000000000000000000000000d, 0x100000000000000000000000000000000000000000e,
  0x1000000000000000000000000000000000000000000000000000000000f,
  0x100000000000000000000000000000000000000000000000000000000000000000000000011,
  0x10000000000000000000000000000000000000000000000000000000012, 0x1000000000000000000000000000000000000000013,
  0x100000000000000000000000014, 0x1000000000000000000000000000000000000000015,
  0x10000000000000000000000000000000000000000000000000000000016,
  0x100000000000000000000000000000000000000000000000000000000000000000000000017, 0x100000000000000000000050018,
  0x100000000000000000000000018, 0x1000000000000000000000000000000000000000019,
  0x1000000000000000000000000000000000000000000000000000000001a,
  0x10000000000000000000000000000000000000000000000000000000000000000000000001b, 0x100000000000000000000000000000000000000001c,
  0x1000000000000000000000000000000000000000000000000000000001d,
  0x10000000000000000000000000000000000000000000000000000000000000000000000001e,
  0x1000000000000000000000000000000000000000000000000000000000000000000000000000000000000000020,
  0x100000000000000000000000000000000000000000000000000000000000000000000000021,
  0x10000000000000000000000000000000000000000000000000000000022, 0x1000000000000000000000000000000000000000023,
  0x10000000000000000000000000000000000000000000000000000000024,
  0x100000000000000000000000000000000000000000000000000000000000000000000000025,
  0x1000000000000000000000000000000000000000000000000000000000000000000000000000000000000000026,
  0x1000000000000000000000000000000000000050027, 0x1000000000000000000000000000000000000000027,
  0x10000000000000000000000000000000000000000000000000000000028,
  0x100000000000000000000000000000000000000000000000000000000000000000000000029,
  0x100000000000000000000000000000000000000000000000000000000000000000000000000000000000000002a,
  0x1000000000000000000000000000000000000000000000000000000002b,
  0x10000000000000000000000000000000000000000000000000000000000000000000000002c,
  0x100000000000000000000000000000000000000000000000000000000000000000000000000000000000000002d,
  0x1000000000000000000000000000000000000000000000000000000000000000000000000000000000000000000000000000000002f,
  0x1000000000000000000000000000000000000000000000000000000000000000000000000000000000000000030,
  0x100000000000000000000000000000000000000000000000000000000000000000000000031,
  0x10000000000000000000000000000000000000000000000000000000032,
  0x100000000000000000000000000000000000000000000000000000000000000000000000033,
  0x1000000000000000000000000000000000000000000000000000000000000000000000000000000000000000034,
  0x10000000000000000000000000000000000000000000000000000000000000000000000000000000000000000000000000000000035,
  0x10000000000000000000000000000000000000000000000000000050036, 0x10000000000000000000000000000000000000000000000000000000036,
  0x100000000000000000000000000000000000000000000000000000000000000000000000037,
  0x1000000000000000000000000000000000000000000000000000000000000000000000000000000000000000038,
  0x10000000000000000000000000000000000000000000000000000000000000000000000000000000000000000000000000000000039,
  0x10000000000000000000000000000000000000000000000000000000000000000000000000000000000000000000000000000000000000000000000003a]
  cond := ⟨[.x 110, .x 112, .x 114, .x 116, .c 0], [0x75, 0x77, 0x79, 0x7b, 0x7d], 126,
    [0x1000000003b, 0x10000000000000000000000003c, 0x100000000000000000000000000000000000000003d,
  0x1000000000000000000000000000000000000000000000000000000003e,
  0x10000000000000000000000000000000000000000000000000000000000000000000000003f],
    [0x1000000003b, 0x10000000000000000000000003c, 0x100000000000000000000000000000000000000003d,
  0x1000000000000000000000000000000000000000000000000000000003e, 0x10000000040, 0x100000000000000000000000041,
  0x1000000000000000000000000000000000000000042, 0x10000000000000000000000000000000000000000000000000000000043],
    [0x10000000040, 0x100000000000000000000000041, 0x1000000000000000000000000000000000000000042,
  0x10000000000000000000000000000000000000000000000000000000043]⟩

theorem c4 : redChecks from_montgomery full [] k4 (lin true 1 W (argsA full.length)) R 18446744073709551616 R p W W1 full full1 = true := by decide +kernel

def k5 : RedCert where
  zs := [35, 83, 0x83, 0xb3]
  zc := [[0x7998f7b9022d759b000000000b, 0x1000000000f, 0x10000000013],
    [0x7998f7b9022d759b0000000023, 0x10000000027, 0x1000000002b],
    [0x7998f7b9022d759b000000003b, 0x1000000003f, 0x10000000043],
    [0x7998f7b9022d759b0000000053, 0x10000000057, 0x1000000005b]]
  qs := [19, 67, 0x73, 0xa3]
  main := [0x807a394ede097652186304212849c07b1017bb39c2d346c5409973b4c427fcea00000000000000000000000000,
  0x807a394ede097652186304212849c07b1017bb39c2d346c5409973b4c427fcea000000000000000000000000000000000000000001,
  0x807a394ede097652186304212849c07b1017bb39c2d346c5409973b4c427fcea0000000000000000000000000000000000000000000000000000000002,
  0x807a394ede097652186304212849c07b1017bb39c2d346c5409973b4c427fcea0000000003,
  0x10000000000000000000000000000000000000000000000000000000004, 0x1000000000000000000000000000000000000000005,
  0x100000000000000000000000006, 0x10000000007, 0x100000000000000000000000008, 0x1000000000000000000000000000000000000000009,
  0x1000000000000000000000000000000000000000000000000000000000a, 0x1000000000000000000000000000000000000000000000000000000000c,
  0x100000000000000000000000000000000000000000d, 0x10000000000000000000000000e, 0x1000000000f, 0x100000000000000000000000010,
  0x1000000000000000000000000000000000000000011, 0x10000000000000000000000000000000000000000000000000000000012, 0x10000050013, 0x10000000013,
  0x100000000000000000000000014, 0x1000000000000000000000000000000000000000015,
  0x10000000000000000000000000000000000000000000000000000000016,
  0x100000000000000000000000000000000000000000000000000000000000000000000000017,
  0x100000000000000000000000000000000000000000000000000000000000000000000000018,
  0x10000000000000000000000000000000000000000000000000000000019, 0x100000000000000000000000000000000000000001a,
  0x10000000000000000000000001b, 0x100000000000000000000000000000000000000001c,
  0x1000000000000000000000000000000000000000000000000000000001d,
  0x10000000000000000000000000000000000000000000000000000000000000000000000001e, 0x10000000000000000000000001f,
  0x1000000000000000000000000000000000000000020, 0x10000000000000000000000000000000000000000000000000000000021,
  0x100000000000000000000000000000000000000000000000000000000000000000000000022,
  0x100000000000000000000000000000000000000000000000000000000000000000000000024,
  0x10000000000000000000000000000000000000000000000000000000025, 0x1000000000000000000000000000000000000000026,
  0x100000000000000000000000027, 0x1000000000000000000000000000000000000000028,
  0x10000000000000000000000000000000000000000000000000000000029,
  0x10000000000000000000000000000000000000000000000000000000000000000000000002a, 0x10000000000000000000005002b,
  0x10000000000000000000000002b, 0x100000000000000000000000000000000000000002c,
  0x1000000000000000000000000000000000000000000000000000000002d,
  0x10000000000000000000000000000000000000000000000000000000000000000000000002e,
  0x100000000000000000000000000000000000000000000000000000000000000000000000000000000000000002f,
  0x1000000000000000000000000000000000000000000000000000000000000000000000000000000000000000030,
  0x100000000000000000000000000000000000000000000000000000000000000000000000031,
  0x10000000000000000000000000000000000000000000000000000000032, 0x1000000000000000000000000000000000000000033,
  0x10000000000000000000000000000000000000000000000000000000034,
  0x100000000000000000000000000000000000000000000000000000000000000000000000035,
  0x1000000000000000000000000000000000000000000000000000000000000000000000000000000000000000036,
  0x1000000000000000000000000000000000000000037, 0x10000000000000000000000000000000000000000000000000000000038,
  0x100000000000000000000000000000000000000000000000000000000000000000000000039,
  0x100000000000000000000000000000000000000000000000000000000000000000000000000000000000000003a,
  0x100000000000000000000000000000000000000000000000000000000000000000000000000000000000000003c,
  0x10000000000000000000000000000000000000000000000000000000000000000000000003d,
  0x1000000000000000000000000000000000000000000000000000000003e, 0x100000000000000000000000000000000000000003f,
  0x10000000000000000000000000000000000000000000000000000000040,
  0x100000000000000000000000000000000000000000000000000000000000000000000000041,
  0x1000000000000000000000000000000000000000000000000000000000000000000000000000000000000000042,
  0x1000000000000000000000000000000000000050043, 0x1000000000000000000000000000000000000000043,
  0x10000000000000000000000000000000000000000000000000000000044,
  0x100000000000000000000000000000000000000000000000000000000000000000000000045,
  0x1000000000000000000000000000000000000000000000000000000000000000000000000000000000000000046,
  0x10000000000000000000000000000000000000000000000000000000000000000000000000000000000000000000000000000000047,
  0x10000000000000000000000000000000000000000000000000000000000000000000000000000000000000000000000000000000048,
  0x1000000000000000000000000000000000000000000000000000000000000000000000000000000000000000049,
  0x10000000000000000000000000000000000000000000000000000000000000000000000004a,
  0x1000000000000000000000000000000000000000000000000000000004b,
  0x10000000000000000000000000000000000000000000000000000000000000000000000004c,
  0x100000000000000000000000000000000000000000000000000000000000000000000000000000000000000004d,
  0x1000000000000000000000000000000000000000000000000000000000000000000000000000000000000000000000000000000004e,
  0x1000000000000000000000000000000000000000000000000000000004f,
  0x100000000000000000000000000000000000000000000000000000000000000000000000050,
  0x1000000000000000000000000000000000000000000000000000000000000000000000000000000000000000051,
  0x10000000000000000000000000000000000000000000000000000000000000000000000000000000000000000000000000000000052,
  0x10000000000000000000000000000000000000000000000000000000000000000000000000000000000000000000000000000000054,
  0x1000000000000000000000000000000000000000000000000000000000000000000000000000000000000000055,
  0x100000000000000000000000000000000000000000000000000000000000000000000000056,
  0x10000000000000000000000000000000000000000000000000000000057,
  0x100000000000000000000000000000000000000000000000000000000000000000000000058,
  0x1000000000000000000000000000000000000000000000000000000000000000000000000000000000000000059,
  0x1000000000000000000000000000000000000000000000000000000000000000000000000000000000000000000000000000000005a,
  0x1000000000000000000000000000000000000000000000000000005005b, 0x1000000000000000000000000000000000000000000000000000000005b,
  0x10000000000000000000000000000000000000000000000000000000000000000000000005c,
  0x100000000000000000000000000000000000000000000000000000000000000000000000000000000000000005d,
  0x1000000000000000000000000000000000000000000000000000000000000000000000000000000000000000000000000000000005e,
  0x10000000000000000000000000000000000000000000000000000000000000000000000000000000000000000000000000000000000000000000000005f]
  cond := ⟨[.x 181, .x 183, .x 185, .x 187, .x 188], [0xbd, 0xbf, 0xc1, 0xc3, 0xc5], 198,
    [0x10000000060, 0x100000000000000000000000061, 0x1000000000000000000000000000000000000000062,
  0x10000000000000000000000000000000000000000000000000000000063,
  0x100000000000000000000000000000000000000000000000000000000000000000000000064],
    [0x10000000060, 0x100000000000000000000000061, 0x1000000000000000000000000000000000000000062,
  0x10000000000000000000000000000000000000000000000000000000063, 0x10000000065, 0x100000000000000000000000066,
  0x1000000000000000000000000000000000000000067, 0x10000000000000000000000000000000000000000000000000000000068],
    [0x10000000065, 0x100000000000000000000000066, 0x1000000000000000000000000000000000000000067,
  0x10000000000000000000000000000000000000000000000000000000068]⟩

theorem c5 : redChecks to_montgomery full [] k5 (lin true R2 W (argsA full.length)) R 18446744073709551616 R p W W1 full full1 = true := by decide +kernel

def k6 : SubCert where
  ss := [1, 3, 5, 7]
  bf := 8
  chain := [0x10000000000, 0x100000000000000000000000001, 0x1000000000000000000000000000000000000000002,
  0x10000000000000000000000000000000000000000000000000000000003]
  c0 := [0x10000000000, 0x100000000000000000000000001, 0x1000000000000000000000000000000000000000002,
  0x10000000000000000000000000000000000000000000000000000000003, 0x10000000005, 0x100000000000000000000000006,
  0x1000000000000000000000000000000000000000007, 0x10000000000000000000000000000000000000000000000000000000008]
  c1 := [0x10000000000, 0x100000000000000000000000001, 0x1000000000000000000000000000000000000000002,
  0x10000000000000000000000000000000000000000000000000000000003, 0x10000000005, 0x100000000000000000000000006,
  0x1000000000000000000000000000000000000000007, 0x10000000000000000000000000000000000000000000000000000000008]

theorem c6 : subChecks sub full full k6 (lin true 1 W (argsA full.length) ++ lin false 1 W (argsB full.length)) R p W full = true := by decide +kernel

def k7 : SubCert where
  ss := [1, 3, 5, 7]
  bf := 8
  chain := [0x10000000000, 0x100000000000000000000000001, 0x1000000000000000000000000000000000000000002,
  0x10000000000000000000000000000000000000000000000000000000003]
  c0 := [0x10000000000, 0x100000000000000000000000001, 0x1000000000000000000000000000000000000000002,
  0x10000000000000000000000000000000000000000000000000000000003, 0x10000000005, 0x100000000000000000000000006,
  0x1000000000000000000000000000000000000000007, 0x10000000000000000000000000000000000000000000000000000000008]
  c1 := [0x10000000000, 0x100000000000000000000000001, 0x1000000000000000000000000000000000000000002,
  0x10000000000000000000000000000000000000000000000000000000003, 0x10000000005, 0x100000000000000000000000006,
  0x1000000000000000000000000000000000000000007, 0x10000000000000000000000000000000000000000000000000000000008]

theorem c7 : subChecks opp full [] k7 (lin false 1 W (argsA full.length)) R p W full = true := by decide +kernel

def k8 : List Nat :=
  [0x10000000000000000000000000000000000000000000000000000000000, 0x10000000000000000000000000000000000000000000000000000000001,
  0x10000000000000000000000000000000000000000000000000000000002, 0x10000000000000000000000000000000000000000000000000000000003,
  0x10000000000000000000000000000000000000000000000000000000004, 0x10000000000000000000000000000000000000000000000000000000005,
  0x10000000000000000000000000000000000000000000000000000000006, 0x10000000000000000000000000000000000000000000000000000000007,
  0x1000000000000000000000000000000000000000008, 0x1000000000000000000000000000000000000000009,
  0x100000000000000000000000000000000000000000a, 0x100000000000000000000000000000000000000000b,
  0x100000000000000000000000000000000000000000c, 0x100000000000000000000000000000000000000000d,
  0x100000000000000000000000000000000000000000e, 0x100000000000000000000000000000000000000000f, 0x100000000000000000000000010,
  0x100000000000000000000000011, 0x100000000000000000000000012, 0x100000000000000000000000013, 0x100000000000000000000000014,
  0x100000000000000000000000015, 0x100000000000000000000000016, 0x100000000000000000000000017, 0x10000000018, 0x10000000019, 0x1000000001a,
  0x1000000001b, 0x1000000001c, 0x1000000001d, 0x1000000001e, 0x1000000001f, 0x10000000020, 0x10000000021, 0x10000000022, 0x10000000023,
  0x10000000024, 0x10000000025, 0x10000000026, 0x100000000000000000000000027, 0x100000000000000000000000028, 0x100000000000000000000000029,
  0x10000000000000000000000002a, 0x10000000000000000000000002b, 0x10000000000000000000000002c, 0x10000000000000000000000002d,
  0x100000000000000000000000000000000000000002e, 0x100000000000000000000000000000000000000002f,
  0x1000000000000000000000000000000000000000030, 0x1000000000000000000000000000000000000000031,
  0x1000000000000000000000000000000000000000032, 0x1000000000000000000000000000000000000000033,
  0x1000000000000000000000000000000000000000034, 0x10000000000000000000000000000000000000000000000000000000035,
  0x10000000000000000000000000000000000000000000000000000000036, 0x10000000000000000000000000000000000000000000000000000000037,
  0x10000000000000000000000000000000000000000000000000000000038, 0x10000000000000000000000000000000000000000000000000000000039,
  0x1000000000000000000000000000000000000000000000000000000003a, 0x1000000000000000000000000000000000000000000000000000000003b]

theorem c8 : check [] from_bytes (List.replicate 32 255) [] k8 (lin false 1 W (vars from_bytes.out) ++ lin true 1 (byteW 32) (argsA (List.replicate 32 255).length)) 0 from_bytes.out full = true := by decide +kernel

def k9 : List Nat :=
  [0x10000000000000000000000000000000000000000000000000000000000, 0x1000000000000000000000000000000000000000001, 0x100000000000000000000000002,
  0x10000000003, 0x10000000004, 0x1000000000005, 0x1000000000006, 0x100000000000007, 0x100000000000008, 0x10000000000000009,
  0x1000000000000000a, 0x100000000000000000b, 0x100000000000000000c, 0x10000000000000000000d, 0x10000000000000000000e,
  0x1000000000000000000000f, 0x10000000000000000000010, 0x1000000000000000000000011, 0x100000000000000000000000012,
  0x10000000000000000000000000013, 0x10000000000000000000000000014, 0x1000000000000000000000000000015, 0x1000000000000000000000000000016,
  0x100000000000000000000000000000017, 0x100000000000000000000000000000018, 0x10000000000000000000000000000000019,
  0x1000000000000000000000000000000001a, 0x100000000000000000000000000000000001b, 0x100000000000000000000000000000000001c,
  0x10000000000000000000000000000000000001d, 0x10000000000000000000000000000000000001e, 0x1000000000000000000000000000000000000001f,
  0x1000000000000000000000000000000000000000020, 0x100000000000000000000000000000000000000000021,
  0x100000000000000000000000000000000000000000022, 0x10000000000000000000000000000000000000000000023,
  0x10000000000000000000000000000000000000000000024, 0x1000000000000000000000000000000000000000000000025,
  0x1000000000000000000000000000000000000000000000026, 0x100000000000000000000000000000000000000000000000027,
  0x100000000000000000000000000000000000000000000000028, 0x10000000000000000000000000000000000000000000000000029,
  0x1000000000000000000000000000000000000000000000000002a, 0x100000000000000000000000000000000000000000000000000002b,
  0x100000000000000000000000000000000000000000000000000002c, 0x10000000000000000000000000000000000000000000000000000002d,
  0x1000000000000000000000000000000000000000000000000000000002e, 0x100000000000000000000000000000000000000000000000000000000002f,
  0x1000000000000000000000000000000000000000000000000000000000030, 0x100000000000000000000000000000000000000000000000000000000000031,
  0x100000000000000000000000000000000000000000000000000000000000032, 0x10000000000000000000000000000000000000000000000000000000000000033,
  0x10000000000000000000000000000000000000000000000000000000000000034, 0x1000000000000000000000000000000000000000000000000000000000000000035,
  0x1000000000000000000000000000000000000000000000000000000000000000036,
  0x100000000000000000000000000000000000000000000000000000000000000000037,
  0x100000000000000000000000000000000000000000000000000000000000000000038,
  0x10000000000000000000000000000000000000000000000000000000000000000000039,
  0x1000000000000000000000000000000000000000000000000000000000000000000003a,
  0x100000000000000000000000000000000000000000000000000000000000000000000003b]

theorem c9 : check [] to_bytes full [] k9 (lin false 1 (byteW 32) (vars to_bytes.out) ++ lin true 1 W (argsA full.length)) 0 to_bytes.out (List.replicate 32 255) = true := by decide +kernel

/-- The field operations of the file, on words standing for numbers less than `p` in Montgomery form, are those modulo `p`. -/
theorem field_sound [Fact (Nat.Prime p)] : file.ops.Sound p 32 (montOk p W full) (montVal p R W) :=
  FiatMont.sound_of_checks (w := 18446744073709551616) (R2 := R2) (W1 := W1) (full1 := full1) (K1 := k1) (K2 := k2) (K3 := k3) (K4 := k4) (K5 := k5) (J1 := k6) (J2 := k7)
    c1 c2 c3 c4 c5 c6 c7 c8 c9 (by decide +kernel) (by decide +kernel) (by decide +kernel) (by decide +kernel) (by decide +kernel) (by decide +kernel) (by decide +kernel) (by decide +kernel) (by decide +kernel) ⟨rfl, rfl, rfl, rfl, rfl, rfl, rfl⟩
    ⟨(by decide +kernel), (by decide +kernel), rfl, (by decide +kernel), (by decide +kernel)⟩ (by decide +kernel) (by decide +kernel) (by decide +kernel) (by decide +kernel)

end Gost.Ecp_CryptoPro_C
