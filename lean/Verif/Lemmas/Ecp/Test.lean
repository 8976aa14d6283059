import Verif.Model.Ecp.Test
import Verif.Lemmas.FiatField
import Verif.Model.EcParams

/-!
# The field arithmetic of `/repo/ecp_id_GostR3410_2001_TestParamSet.c`, 64 bit version

Certificates, generated by `tools/mkfiat.py`.
-/

namespace Gost.Ecp_Test

open Fiat

set_option maxRecDepth 1000000

local notation "p" => ec_Test.p

/-- The weights of the limbs. -/
def W : List Nat := [1, 0x10000000000000000, 0x100000000000000000000000000000000, 0x1000000000000000000000000000000000000000000000000]
def W1 : List Nat := [1, 0x10000000000000000, 0x100000000000000000000000000000000, 0x1000000000000000000000000000000000000000000000000, 0x10000000000000000000000000000000000000000000000000000000000000000]
def full : List Nat := [0xffffffffffffffff, 0xffffffffffffffff, 0xffffffffffffffff, 0xffffffffffffffff]
def full1 : List Nat := [0xffffffffffffffff, 0xffffffffffffffff, 0xffffffffffffffff, 0xffffffffffffffff, 0xffffffffffffffff]
def R : Nat := 115792089237316195423570985008687907853269984665640564039457584007913129639936
def R2 : Nat := 4605316

def k1 : RedCert where
  zs := [26, 67, 0x6d, 0x97]
  zc := [[0x431000000000c, 0x1000000000e, 0x1000000000f],
    [0x4310000000021, 0x10000000023, 0x10000000024],
    [0x4310000000037, 0x10000000039, 0x1000000003a],
    [0x431000000004d, 0x1000000004f, 0x10000000050]]
  qs := [20, 61, 0x67, 0x91]
  main := [0x100000000000000000000000000000000000000000000000000000000000000000000e00000, 0x10000000000000000000000000000000000000000000000000000a00000,
  0x1000000000000000000000000000000000000600000, 0x100000000000000000000200000,
  0x1000000000000000000000000000000000000000000000000000000000000000000000000000000000000e00001,
  0x100000000000000000000000000000000000000000000000000000000000000000000a00001,
  0x10000000000000000000000000000000000000000000000000000600001, 0x1000000000000000000000000000000000000200001,
  0x10000000000000000000000000000000000000000000000000000000000000000000000000000000000000000000000000000e00002,
  0x1000000000000000000000000000000000000000000000000000000000000000000000000000000000000a00002,
  0x100000000000000000000000000000000000000000000000000000000000000000000600002,
  0x10000000000000000000000000000000000000000000000000000200002, 0x10000000000000000000000000000000000000000000000000000e00003,
  0x1000000000000000000000000000000000000a00003, 0x100000000000000000000600003, 0x10000200003,
  0x10000000000000000000000000000000000000000000000000000000004, 0x1000000000000000000000000000000000000000005,
  0x100000000000000000000000006, 0x10000000007, 0x100000000000000000000000008, 0x1000000000000000000000000000000000000000009,
  0x1000000000000000000000000000000000000000000000000000000000a,
  0x10000000000000000000000000000000000000000000000000000000000000000000000000b,
  0x1000000000000000000000000000000000000000000000000000000000d, 0x1000000000e, 0x1000005000f, 0x1000000000f, 0x100000000000000000000000010,
  0x1000000000000000000000000000000000000000011, 0x10000000000000000000000000000000000000000000000000000000012,
  0x100000000000000000000000000000000000000000000000000000000000000000000000013,
  0x100000000000000000000000000000000000000000000000000000000000000000000000014,
  0x10000000000000000000000000000000000000000000000000000000015, 0x1000000000000000000000000000000000000000016,
  0x100000000000000000000000017, 0x1000000000000000000000000000000000000000018,
  0x10000000000000000000000000000000000000000000000000000000019,
  0x10000000000000000000000000000000000000000000000000000000000000000000000001a,
  0x100000000000000000000000000000000000000000000000000000000000000000000000000000000000000001b, 0x10000000000000000000000001c,
  0x100000000000000000000000000000000000000001d, 0x1000000000000000000000000000000000000000000000000000000001e,
  0x10000000000000000000000000000000000000000000000000000000000000000000000001f,
  0x1000000000000000000000000000000000000000000000000000000000000000000000000000000000000000020,
  0x100000000000000000000000000000000000000000000000000000000000000000000000022, 0x100000000000000000000000023,
  0x100000000000000000000050024, 0x100000000000000000000000024, 0x1000000000000000000000000000000000000000025,
  0x10000000000000000000000000000000000000000000000000000000026,
  0x100000000000000000000000000000000000000000000000000000000000000000000000027,
  0x1000000000000000000000000000000000000000000000000000000000000000000000000000000000000000028,
  0x10000000000000000000000000000000000000000000000000000000000000000000000000000000000000000000000000000000029,
  0x100000000000000000000000000000000000000000000000000000000000000000000000000000000000000002a,
  0x10000000000000000000000000000000000000000000000000000000000000000000000002b,
  0x1000000000000000000000000000000000000000000000000000000002c, 0x100000000000000000000000000000000000000002d,
  0x1000000000000000000000000000000000000000000000000000000002e,
  0x10000000000000000000000000000000000000000000000000000000000000000000000002f,
  0x1000000000000000000000000000000000000000000000000000000000000000000000000000000000000000030,
  0x10000000000000000000000000000000000000000000000000000000000000000000000000000000000000000000000000000000031,
  0x1000000000000000000000000000000000000000032, 0x10000000000000000000000000000000000000000000000000000000033,
  0x100000000000000000000000000000000000000000000000000000000000000000000000034,
  0x1000000000000000000000000000000000000000000000000000000000000000000000000000000000000000035,
  0x10000000000000000000000000000000000000000000000000000000000000000000000000000000000000000000000000000000036,
  0x1000000000000000000000000000000000000000000000000000000000000000000000000000000000000000038,
  0x1000000000000000000000000000000000000000039, 0x100000000000000000000000000000000000005003a,
  0x100000000000000000000000000000000000000003a, 0x1000000000000000000000000000000000000000000000000000000003b,
  0x10000000000000000000000000000000000000000000000000000000000000000000000003c,
  0x100000000000000000000000000000000000000000000000000000000000000000000000000000000000000003d,
  0x1000000000000000000000000000000000000000000000000000000000000000000000000000000000000000000000000000000003e,
  0x10000000000000000000000000000000000000000000000000000000000000000000000000000000000000000000000000000000000000000000000003f,
  0x10000000000000000000000000000000000000000000000000000000000000000000000000000000000000000000000000000000040,
  0x1000000000000000000000000000000000000000000000000000000000000000000000000000000000000000041,
  0x100000000000000000000000000000000000000000000000000000000000000000000000042,
  0x10000000000000000000000000000000000000000000000000000000043,
  0x100000000000000000000000000000000000000000000000000000000000000000000000044,
  0x1000000000000000000000000000000000000000000000000000000000000000000000000000000000000000045,
  0x10000000000000000000000000000000000000000000000000000000000000000000000000000000000000000000000000000000046,
  0x100000000000000000000000000000000000000000000000000000000000000000000000000000000000000000000000000000000000000000000000047,
  0x10000000000000000000000000000000000000000000000000000000048,
  0x100000000000000000000000000000000000000000000000000000000000000000000000049,
  0x100000000000000000000000000000000000000000000000000000000000000000000000000000000000000004a,
  0x1000000000000000000000000000000000000000000000000000000000000000000000000000000000000000000000000000000004b,
  0x10000000000000000000000000000000000000000000000000000000000000000000000000000000000000000000000000000000000000000000000004c,
  0x1000000000000000000000000000000000000000000000000000000000000000000000000000000000000000000000000000000004e,
  0x1000000000000000000000000000000000000000000000000000000004f, 0x10000000000000000000000000000000000000000000000000000050050,
  0x10000000000000000000000000000000000000000000000000000000050,
  0x100000000000000000000000000000000000000000000000000000000000000000000000051,
  0x1000000000000000000000000000000000000000000000000000000000000000000000000000000000000000052,
  0x10000000000000000000000000000000000000000000000000000000000000000000000000000000000000000000000000000000053,
  0x100000000000000000000000000000000000000000000000000000000000000000000000000000000000000000000000000000000000000000000000054,
  0x1000000000000000000000000000000000000000000000000000000000000000000000000000000000000000000000000000000000000000000000000000000000000000055]
  cond := ⟨[.x 153, .x 155, .x 157, .x 159, .x 161], [0xa2, 0xa4, 0xa6, 0xa8, 0xaa], 171,
    [0x10000000056, 0x100000000000000000000000057, 0x1000000000000000000000000000000000000000058,
  0x10000000000000000000000000000000000000000000000000000000059,
  0x10000000000000000000000000000000000000000000000000000000000000000000000005a],
    [0x10000000056, 0x100000000000000000000000057, 0x1000000000000000000000000000000000000000058,
  0x10000000000000000000000000000000000000000000000000000000059, 0x1000000005b, 0x10000000000000000000000005c,
  0x100000000000000000000000000000000000000005d, 0x1000000000000000000000000000000000000000000000000000000005e],
    [0x1000000005b, 0x10000000000000000000000005c, 0x100000000000000000000000000000000000000005d,
  0x1000000000000000000000000000000000000000000000000000000005e]⟩

theorem c1 : redChecks mul full full k1 (prodForm true W (argsA full.length) (argsB full.length)) R 18446744073709551616 R p W W1 full full1 = true := by decide +kernel

def k2 : RedCert where
  zs := [26, 67, 0x6d, 0x97]
  zc := [[0x431000000000c, 0x1000000000e, 0x1000000000f],
    [0x4310000000021, 0x10000000023, 0x10000000024],
    [0x4310000000037, 0x10000000039, 0x1000000003a],
    [0x431000000004d, 0x1000000004f, 0x10000000050]]
  qs := [20, 61, 0x67, 0x91]
  main := [0x100000000000000000000000000000000000000000000000000000000000000000000d00000, 0x10000000000000000000000000000000000000000000000000000900000,
  0x1000000000000000000000000000000000000500000, 0x100000000000000000000100000,
  0x1000000000000000000000000000000000000000000000000000000000000000000000000000000000000d00001,
  0x100000000000000000000000000000000000000000000000000000000000000000000900001,
  0x10000000000000000000000000000000000000000000000000000500001, 0x1000000000000000000000000000000000000100001,
  0x10000000000000000000000000000000000000000000000000000000000000000000000000000000000000000000000000000d00002,
  0x1000000000000000000000000000000000000000000000000000000000000000000000000000000000000900002,
  0x100000000000000000000000000000000000000000000000000000000000000000000500002,
  0x10000000000000000000000000000000000000000000000000000100002, 0x10000000000000000000000000000000000000000000000000000d00003,
  0x1000000000000000000000000000000000000900003, 0x100000000000000000000500003, 0x10000100003,
  0x10000000000000000000000000000000000000000000000000000000004, 0x1000000000000000000000000000000000000000005,
  0x100000000000000000000000006, 0x10000000007, 0x100000000000000000000000008, 0x1000000000000000000000000000000000000000009,
  0x1000000000000000000000000000000000000000000000000000000000a,
  0x10000000000000000000000000000000000000000000000000000000000000000000000000b,
  0x1000000000000000000000000000000000000000000000000000000000d, 0x1000000000e, 0x1000005000f, 0x1000000000f, 0x100000000000000000000000010,
  0x1000000000000000000000000000000000000000011, 0x10000000000000000000000000000000000000000000000000000000012,
  0x100000000000000000000000000000000000000000000000000000000000000000000000013,
  0x100000000000000000000000000000000000000000000000000000000000000000000000014,
  0x10000000000000000000000000000000000000000000000000000000015, 0x1000000000000000000000000000000000000000016,
  0x100000000000000000000000017, 0x1000000000000000000000000000000000000000018,
  0x10000000000000000000000000000000000000000000000000000000019,
  0x10000000000000000000000000000000000000000000000000000000000000000000000001a,
  0x100000000000000000000000000000000000000000000000000000000000000000000000000000000000000001b, 0x10000000000000000000000001c,
  0x100000000000000000000000000000000000000001d, 0x1000000000000000000000000000000000000000000000000000000001e,
  0x10000000000000000000000000000000000000000000000000000000000000000000000001f,
  0x1000000000000000000000000000000000000000000000000000000000000000000000000000000000000000020,
  0x100000000000000000000000000000000000000000000000000000000000000000000000022, 0x100000000000000000000000023,
  0x100000000000000000000050024, 0x100000000000000000000000024, 0x1000000000000000000000000000000000000000025,
  0x10000000000000000000000000000000000000000000000000000000026,
  0x100000000000000000000000000000000000000000000000000000000000000000000000027,
  0x1000000000000000000000000000000000000000000000000000000000000000000000000000000000000000028,
  0x10000000000000000000000000000000000000000000000000000000000000000000000000000000000000000000000000000000029,
  0x100000000000000000000000000000000000000000000000000000000000000000000000000000000000000002a,
  0x10000000000000000000000000000000000000000000000000000000000000000000000002b,
  0x1000000000000000000000000000000000000000000000000000000002c, 0x100000000000000000000000000000000000000002d,
  0x1000000000000000000000000000000000000000000000000000000002e,
  0x10000000000000000000000000000000000000000000000000000000000000000000000002f,
  0x1000000000000000000000000000000000000000000000000000000000000000000000000000000000000000030,
  0x10000000000000000000000000000000000000000000000000000000000000000000000000000000000000000000000000000000031,
  0x1000000000000000000000000000000000000000032, 0x10000000000000000000000000000000000000000000000000000000033,
  0x100000000000000000000000000000000000000000000000000000000000000000000000034,
  0x1000000000000000000000000000000000000000000000000000000000000000000000000000000000000000035,
  0x10000000000000000000000000000000000000000000000000000000000000000000000000000000000000000000000000000000036,
  0x1000000000000000000000000000000000000000000000000000000000000000000000000000000000000000038,
  0x1000000000000000000000000000000000000000039, 0x100000000000000000000000000000000000005003a,
  0x100000000000000000000000000000000000000003a, 0x1000000000000000000000000000000000000000000000000000000003b,
  0x10000000000000000000000000000000000000000000000000000000000000000000000003c,
  0x100000000000000000000000000000000000000000000000000000000000000000000000000000000000000003d,
  0x1000000000000000000000000000000000000000000000000000000000000000000000000000000000000000000000000000000003e,
  0x10000000000000000000000000000000000000000000000000000000000000000000000000000000000000000000000000000000000000000000000003f,
  0x10000000000000000000000000000000000000000000000000000000000000000000000000000000000000000000000000000000040,
  0x1000000000000000000000000000000000000000000000000000000000000000000000000000000000000000041,
  0x100000000000000000000000000000000000000000000000000000000000000000000000042,
  0x10000000000000000000000000000000000000000000000000000000043,
  0x100000000000000000000000000000000000000000000000000000000000000000000000044,
  0x1000000000000000000000000000000000000000000000000000000000000000000000000000000000000000045,
  0x10000000000000000000000000000000000000000000000000000000000000000000000000000000000000000000000000000000046,
  0x100000000000000000000000000000000000000000000000000000000000000000000000000000000000000000000000000000000000000000000000047,
  0x10000000000000000000000000000000000000000000000000000000048,
  0x100000000000000000000000000000000000000000000000000000000000000000000000049,
  0x100000000000000000000000000000000000000000000000000000000000000000000000000000000000000004a,
  0x1000000000000000000000000000000000000000000000000000000000000000000000000000000000000000000000000000000004b,
  0x10000000000000000000000000000000000000000000000000000000000000000000000000000000000000000000000000000000000000000000000004c,
  0x1000000000000000000000000000000000000000000000000000000000000000000000000000000000000000000000000000000004e,
  0x1000000000000000000000000000000000000000000000000000000004f, 0x10000000000000000000000000000000000000000000000000000050050,
  0x10000000000000000000000000000000000000000000000000000000050,
  0x100000000000000000000000000000000000000000000000000000000000000000000000051,
  0x1000000000000000000000000000000000000000000000000000000000000000000000000000000000000000052,
  0x10000000000000000000000000000000000000000000000000000000000000000000000000000000000000000000000000000000053,
  0x100000000000000000000000000000000000000000000000000000000000000000000000000000000000000000000000000000000000000000000000054,
  0x1000000000000000000000000000000000000000000000000000000000000000000000000000000000000000000000000000000000000000000000000000000000000000055]
  cond := ⟨[.x 153, .x 155, .x 157, .x 159, .x 161], [0xa2, 0xa4, 0xa6, 0xa8, 0xaa], 171,
    [0x10000000056, 0x100000000000000000000000057, 0x1000000000000000000000000000000000000000058,
  0x10000000000000000000000000000000000000000000000000000000059,
  0x10000000000000000000000000000000000000000000000000000000000000000000000005a],
    [0x10000000056, 0x100000000000000000000000057, 0x1000000000000000000000000000000000000000058,
  0x10000000000000000000000000000000000000000000000000000000059, 0x1000000005b, 0x10000000000000000000000005c,
  0x100000000000000000000000000000000000000005d, 0x1000000000000000000000000000000000000000000000000000000005e],
    [0x1000000005b, 0x10000000000000000000000005c, 0x100000000000000000000000000000000000000005d,
  0x1000000000000000000000000000000000000000000000000000000005e]⟩

theorem c2 : redChecks square full [] k2 (prodForm true W (argsA full.length) (argsA full.length)) R 18446744073709551616 R p W W1 full full1 = true := by decide +kernel

def k3 : RedCert where
  zs := []
  zc := []
  qs := []
  main := [0x10000000000, 0x100000000000000000000000001, 0x1000000000000000000000000000000000000000002,
  0x10000000000000000000000000000000000000000000000000000000003]
  cond := ⟨[.x 1, .x 3, .x 5, .x 7, .x 8], [9, 11, 13, 15, 17], 18,
    [0x10000000004, 0x100000000000000000000000005, 0x1000000000000000000000000000000000000000006,
  0x10000000000000000000000000000000000000000000000000000000007,
  0x100000000000000000000000000000000000000000000000000000000000000000000000008],
    [0x10000000004, 0x100000000000000000000000005, 0x1000000000000000000000000000000000000000006,
  0x10000000000000000000000000000000000000000000000000000000007, 0x10000000009, 0x10000000000000000000000000a,
  0x100000000000000000000000000000000000000000b, 0x1000000000000000000000000000000000000000000000000000000000c],
    [0x10000000009, 0x10000000000000000000000000a, 0x100000000000000000000000000000000000000000b,
  0x1000000000000000000000000000000000000000000000000000000000c]⟩

theorem c3 : redChecks add full full k3 (lin true 1 W (argsA full.length) ++ lin true 1 W (argsB full.length)) 1 18446744073709551616 R p W W1 full full1 = true := by decide +kernel

def k4 : RedCert where
  zs := [8, 20, 34, 54]
  zc := [[0x4310000000001, 0x10000000003, 0x10000000004],
    [0x4310000000006, 0x10000000008, 0x1000000000a],
    [0x431000000000e, 0x10000000010, 0x10000000011],
    [0x4310000000018, 0x1000000001a, 0x1000000001b]]
  qs := [2, 12, 28, 48]
  main := [0x10000000000, 0x10000000000000000000000000000000000000000000000000000000002, 0x10000000003, 0x10000050004, 0x10000000004,
  0x100000000000000000000000005, 0x100000000000000000000000000000000000000000000000000000000000000000000000007,
  0x100000000000000000000000008, 0x100000000000000000000000000000000000000000000000000000000000000000000000009,
  0x10000000000000000000005000a, 0x10000000000000000000000000a, 0x100000000000000000000000000000000000000000b,
  0x1000000000000000000000000000000000000000000000000000000000c,
  0x10000000000000000000000000000000000000000000000000000000000000000000000000d,
  0x100000000000000000000000000000000000000000000000000000000000000000000000000000000000000000f,
  0x1000000000000000000000000000000000000000010, 0x1000000000000000000000000000000000000050011,
  0x1000000000000000000000000000000000000000011, 0x10000000000000000000000000000000000000000000000000000000012,
  0x100000000000000000000000000000000000000000000000000000000000000000000000013,
  0x1000000000000000000000000000000000000000000000000000000000000000000000000000000000000000014,
  0x10000000000000000000000000000000000000000000000000000000015,
  0x100000000000000000000000000000000000000000000000000000000000000000000000016,
  0x1000000000000000000000000000000000000000000000000000000000000000000000000000000000000000017,
  0x10000000000000000000000000000000000000000000000000000000000000000000000000000000000000000000000000000000019,
  0x1000000000000000000000000000000000000000000000000000000001a, 0x1000000000000000000000000000000000000000000000000000005001b,
  0x1000000000000000000000000000000000000000000000000000000001b,
  0x10000000000000000000000000000000000000000000000000000000000000000000000001c,
  0x100000000000000000000000000000000000000000000000000000000000000000000000000000000000000001d,
  0x1000000000000000000000000000000000000000000000000000000000000000000000000000000000000000000000000000000001e,
  0x10000000000000000000000000000000000000000000000000000000000000000000000000000000000000000000000000000000000000000000000001f]
  cond := ⟨[.x 56, .x 58, .x 60, .x 62, .c 0], [63, 65, 67, 69, 71], 72,
    [0x10000000020, 0x100000000000000000000000021, 0x1000000000000000000000000000000000000000022,
  0x10000000000000000000000000000000000000000000000000000000023,
  0x100000000000000000000000000000000000000000000000000000000000000000000000024],
    [0x10000000020, 0x100000000000000000000000021, 0x1000000000000000000000000000000000000000022,
  0x10000000000000000000000000000000000000000000000000000000023, 0x10000000025, 0x100000000000000000000000026,
  0x1000000000000000000000000000000000000000027, 0x10000000000000000000000000000000000000000000000000000000028],
    [0x10000000025, 0x100000000000000000000000026, 0x1000000000000000000000000000000000000000027,
  0x10000000000000000000000000000000000000000000000000000000028]⟩

theorem c4 : redChecks from_montgomery full [] k4 (lin true 1 W (argsA full.length)) R 18446744073709551616 R p W W1 full full1 = true := by decide +kernel

def k5 : RedCert where
  zs := [11, 25, 39, 61]
  zc := [[0x4310000000001, 0x10000000003, 0x10000000005],
    [0x4310000000007, 0x10000000009, 0x1000000000c],
    [0x4310000000010, 0x10000000012, 0x10000000013],
    [0x431000000001b, 0x1000000001d, 0x1000000001e]]
  qs := [3, 15, 33, 55]
  main := [0x10000000000, 0x10000000000000000000000000000000000000000000000000000000002, 0x10000000003, 0x100000000000000000000000004, 0x10000050005,
  0x10000000005, 0x100000000000000000000000006, 0x100000000000000000000000000000000000000000000000000000000000000000000000008,
  0x100000000000000000000000009, 0x10000000000000000000000000000000000000000000000000000000000000000000000000a,
  0x100000000000000000000000000000000000000000b, 0x10000000000000000000005000c, 0x10000000000000000000000000c,
  0x100000000000000000000000000000000000000000d, 0x1000000000000000000000000000000000000000000000000000000000e,
  0x10000000000000000000000000000000000000000000000000000000000000000000000000f,
  0x1000000000000000000000000000000000000000000000000000000000000000000000000000000000000000011,
  0x1000000000000000000000000000000000000000012, 0x1000000000000000000000000000000000000050013,
  0x1000000000000000000000000000000000000000013, 0x10000000000000000000000000000000000000000000000000000000014,
  0x100000000000000000000000000000000000000000000000000000000000000000000000015,
  0x1000000000000000000000000000000000000000000000000000000000000000000000000000000000000000016,
  0x10000000000000000000000000000000000000000000000000000000017, 0x10000000000000000000000000000000000000000000000000000000018,
  0x100000000000000000000000000000000000000000000000000000000000000000000000019,
  0x100000000000000000000000000000000000000000000000000000000000000000000000000000000000000001a,
  0x1000000000000000000000000000000000000000000000000000000000000000000000000000000000000000000000000000000001c,
  0x1000000000000000000000000000000000000000000000000000000001d, 0x1000000000000000000000000000000000000000000000000000005001e,
  0x1000000000000000000000000000000000000000000000000000000001e,
  0x10000000000000000000000000000000000000000000000000000000000000000000000001f,
  0x1000000000000000000000000000000000000000000000000000000000000000000000000000000000000000020,
  0x10000000000000000000000000000000000000000000000000000000000000000000000000000000000000000000000000000000021,
  0x100000000000000000000000000000000000000000000000000000000000000000000000000000000000000000000000000000000000000000000000022]
  cond := ⟨[.x 63, .x 65, .x 67, .x 69, .c 0], [70, 72, 74, 76, 78], 79,
    [0x10000000023, 0x100000000000000000000000024, 0x1000000000000000000000000000000000000000025,
  0x10000000000000000000000000000000000000000000000000000000026,
  0x100000000000000000000000000000000000000000000000000000000000000000000000027],
    [0x10000000023, 0x100000000000000000000000024, 0x1000000000000000000000000000000000000000025,
  0x10000000000000000000000000000000000000000000000000000000026, 0x10000000028, 0x100000000000000000000000029,
  0x100000000000000000000000000000000000000002a, 0x1000000000000000000000000000000000000000000000000000000002b],
    [0x10000000028, 0x100000000000000000000000029, 0x100000000000000000000000000000000000000002a,
  0x1000000000000000000000000000000000000000000000000000000002b]⟩

theorem c5 : redChecks to_montgomery full [] k5 (lin true R2 W (argsA full.length)) R 18446744073709551616 R p W W1 full full1 = true := by decide +kernel

def k6 : SubCert where
  ss := [1, 3, 5, 7]
  bf := 8
  chain := [0x10000000000, 0x100000000000000000000000001, 0x1000000000000000000000000000000000000000002,
  0x10000000000000000000000000000000000000000000000000000000003]
  c0 := [0x10000000000, 0x100000000000000000000000001, 0x1000000000000000000000000000000000000000002,
  0x10000000000000000000000000000000000000000000000000000000003, 0x10000000005, 0x100000000000000000000000006,
  0x1000000000000000000000000000000000000000007, 0x10000000000000000000000000000000000000000000000000000000008]
  c1 := [0x10000000000, 0x100000000000000000000000001, 0x1000000000000000000000000000000000000000002,
  0x10000000000000000000000000000000000000000000000000000000003, 0x10000000005, 0x100000000000000000000000006,
  0x1000000000000000000000000000000000000000007, 0x10000000000000000000000000000000000000000000000000000000008]

theorem c6 : subChecks sub full full k6 (lin true 1 W (argsA full.length) ++ lin false 1 W (argsB full.length)) R p W full = true := by decide +kernel

def k7 : SubCert where
  ss := [1, 3, 5, 7]
  bf := 8
  chain := [0x10000000000, 0x100000000000000000000000001, 0x1000000000000000000000000000000000000000002,
  0x10000000000000000000000000000000000000000000000000000000003]
  c0 := [0x10000000000, 0x100000000000000000000000001, 0x1000000000000000000000000000000000000000002,
  0x10000000000000000000000000000000000000000000000000000000003, 0x10000000005, 0x100000000000000000000000006,
  0x1000000000000000000000000000000000000000007, 0x10000000000000000000000000000000000000000000000000000000008]
  c1 := [0x10000000000, 0x100000000000000000000000001, 0x1000000000000000000000000000000000000000002,
  0x10000000000000000000000000000000000000000000000000000000003, 0x10000000005, 0x100000000000000000000000006,
  0x1000000000000000000000000000000000000000007, 0x10000000000000000000000000000000000000000000000000000000008]

theorem c7 : subChecks opp full [] k7 (lin false 1 W (argsA full.length)) R p W full = true := by decide +kernel

def k8 : List Nat :=
  [0x10000000000000000000000000000000000000000000000000000000000, 0x10000000000000000000000000000000000000000000000000000000001,
  0x10000000000000000000000000000000000000000000000000000000002, 0x10000000000000000000000000000000000000000000000000000000003,
  0x10000000000000000000000000000000000000000000000000000000004, 0x10000000000000000000000000000000000000000000000000000000005,
  0x10000000000000000000000000000000000000000000000000000000006, 0x10000000000000000000000000000000000000000000000000000000007,
  0x1000000000000000000000000000000000000000008, 0x1000000000000000000000000000000000000000009,
  0x100000000000000000000000000000000000000000a, 0x100000000000000000000000000000000000000000b,
  0x100000000000000000000000000000000000000000c, 0x100000000000000000000000000000000000000000d,
  0x100000000000000000000000000000000000000000e, 0x100000000000000000000000000000000000000000f, 0x100000000000000000000000010,
  0x100000000000000000000000011, 0x100000000000000000000000012, 0x100000000000000000000000013, 0x100000000000000000000000014,
  0x100000000000000000000000015, 0x100000000000000000000000016, 0x100000000000000000000000017, 0x10000000018, 0x10000000019, 0x1000000001a,
  0x1000000001b, 0x1000000001c, 0x1000000001d, 0x1000000001e, 0x1000000001f, 0x10000000020, 0x10000000021, 0x10000000022, 0x10000000023,
  0x10000000024, 0x10000000025, 0x10000000026, 0x100000000000000000000000027, 0x100000000000000000000000028, 0x100000000000000000000000029,
  0x10000000000000000000000002a, 0x10000000000000000000000002b, 0x10000000000000000000000002c, 0x10000000000000000000000002d,
  0x100000000000000000000000000000000000000002e, 0x100000000000000000000000000000000000000002f,
  0x1000000000000000000000000000000000000000030, 0x1000000000000000000000000000000000000000031,
  0x1000000000000000000000000000000000000000032, 0x1000000000000000000000000000000000000000033,
  0x1000000000000000000000000000000000000000034, 0x10000000000000000000000000000000000000000000000000000000035,
  0x10000000000000000000000000000000000000000000000000000000036, 0x10000000000000000000000000000000000000000000000000000000037,
  0x10000000000000000000000000000000000000000000000000000000038, 0x10000000000000000000000000000000000000000000000000000000039,
  0x1000000000000000000000000000000000000000000000000000000003a, 0x1000000000000000000000000000000000000000000000000000000003b]

theorem c8 : check [] from_bytes (List.replicate 32 255) [] k8 (lin false 1 W (vars from_bytes.out) ++ lin true 1 (byteW 32) (argsA (List.replicate 32 255).length)) 0 from_bytes.out full = true := by decide +kernel

def k9 : List Nat :=
  [0x10000000000000000000000000000000000000000000000000000000000, 0x1000000000000000000000000000000000000000001, 0x100000000000000000000000002,
  0x10000000003, 0x10000000004, 0x1000000000005, 0x1000000000006, 0x100000000000007, 0x100000000000008, 0x10000000000000009,
  0x1000000000000000a, 0x100000000000000000b, 0x100000000000000000c, 0x10000000000000000000d, 0x10000000000000000000e,
  0x1000000000000000000000f, 0x10000000000000000000010, 0x1000000000000000000000011, 0x100000000000000000000000012,
  0x10000000000000000000000000013, 0x10000000000000000000000000014, 0x1000000000000000000000000000015, 0x1000000000000000000000000000016,
  0x100000000000000000000000000000017, 0x100000000000000000000000000000018, 0x10000000000000000000000000000000019,
  0x1000000000000000000000000000000001a, 0x100000000000000000000000000000000001b, 0x100000000000000000000000000000000001c,
  0x10000000000000000000000000000000000001d, 0x10000000000000000000000000000000000001e, 0x1000000000000000000000000000000000000001f,
  0x1000000000000000000000000000000000000000020, 0x100000000000000000000000000000000000000000021,
  0x100000000000000000000000000000000000000000022, 0x10000000000000000000000000000000000000000000023,
  0x10000000000000000000000000000000000000000000024, 0x1000000000000000000000000000000000000000000000025,
  0x1000000000000000000000000000000000000000000000026, 0x100000000000000000000000000000000000000000000000027,
  0x100000000000000000000000000000000000000000000000028, 0x10000000000000000000000000000000000000000000000000029,
  0x1000000000000000000000000000000000000000000000000002a, 0x100000000000000000000000000000000000000000000000000002b,
  0x100000000000000000000000000000000000000000000000000002c, 0x10000000000000000000000000000000000000000000000000000002d,
  0x1000000000000000000000000000000000000000000000000000000002e, 0x100000000000000000000000000000000000000000000000000000000002f,
  0x1000000000000000000000000000000000000000000000000000000000030, 0x100000000000000000000000000000000000000000000000000000000000031,
  0x100000000000000000000000000000000000000000000000000000000000032, 0x10000000000000000000000000000000000000000000000000000000000000033,
  0x10000000000000000000000000000000000000000000000000000000000000034, 0x1000000000000000000000000000000000000000000000000000000000000000035,
  0x1000000000000000000000000000000000000000000000000000000000000000036,
  0x100000000000000000000000000000000000000000000000000000000000000000037,
  0x100000000000000000000000000000000000000000000000000000000000000000038,
  0x10000000000000000000000000000000000000000000000000000000000000000000039,
  0x1000000000000000000000000000000000000000000000000000000000000000000003a,
  0x100000000000000000000000000000000000000000000000000000000000000000000003b]

theorem c9 : check [] to_bytes full [] k9 (lin false 1 (byteW 32) (vars to_bytes.out) ++ lin true 1 W (argsA full.length)) 0 to_bytes.out (List.replicate 32 255) = true := by decide +kernel

/-- The field operations of the file, on words standing for numbers less than `p` in Montgomery form, are those modulo `p`. -/
theorem field_sound [Fact (Nat.Prime p)] : file.ops.Sound p 32 (montOk p W full) (montVal p R W) :=
  FiatMont.sound_of_checks (w := 18446744073709551616) (R2 := R2) (W1 := W1) (full1 := full1) (K1 := k1) (K2 := k2) (K3 := k3) (K4 := k4) (K5 := k5) (J1 := k6) (J2 := k7)
    c1 c2 c3 c4 c5 c6 c7 c8 c9 (by decide +kernel) (by decide +kernel) (by decide +kernel) (by decide +kernel) (by decide +kernel) (by decide +kernel) (by decide +kernel) (by decide +kernel) (by decide +kernel) ⟨rfl, rfl, rfl, rfl, rfl, rfl, rfl⟩
    ⟨(by decide +kernel), (by decide +kernel), rfl, (by decide +kernel), (by decide +kernel)⟩ (by decide +kernel) (by decide +kernel) (by decide +kernel) (by decide +kernel)

end Gost.Ecp_Test
