import Verif.Model.Ecp.tc26_512_paramSetC
import Verif.Lemmas.FiatField
import Verif.Model.EcParams

/-!
# The field arithmetic of `/repo/ecp_id_tc26_gost_3410_2012_512_paramSetC.c`, 64 bit version

Certificates, generated by `tools/mkfiat.py`.
-/

namespace Gost.Ecp_tc26_512_paramSetC

open Fiat

set_option maxRecDepth 1000000

local notation "p" => ec_tc26_512_paramSetC.p

/-- The weights of the limbs. -/
def W : List Nat := [1, 0x10000000000000, 0x80000000000000000000000000, 0x400000000000000000000000000000000000000, 0x2000000000000000000000000000000000000000000000000000, 0x10000000000000000000000000000000000000000000000000000000000000000, 0x100000000000000000000000000000000000000000000000000000000000000000000000000000, 0x800000000000000000000000000000000000000000000000000000000000000000000000000000000000000000, 0x4000000000000000000000000000000000000000000000000000000000000000000000000000000000000000000000000000000, 0x20000000000000000000000000000000000000000000000000000000000000000000000000000000000000000000000000000000000000000000]
/-- Bounds of the limbs of field elements. -/
def bal : List Nat := [0x1ffffffffffb8e, 0xffffffffffffe, 0xffffffffffffe, 0xffffffffffffe, 0xffffffffffffe, 0x1ffffffffffffe, 0xffffffffffffe, 0xffffffffffffe, 0xffffffffffffe, 0xffffffffffffe]
/-- Bounds of the limbs of products, sums and differences. -/
def tight : List Nat := [0x10000000000000, 0x8000000000000, 0x8000000000000, 0x8000000000000, 0x8000000000000, 0x10000000000000, 0x8000000000000, 0x8000000000000, 0x8000000000000, 0x8000000000000]
/-- Bounds before the carries of sums and differences. -/
def wide : List Nat := [0x3ffffffffff71c, 0x1ffffffffffffc, 0x1ffffffffffffc, 0x1ffffffffffffc, 0x1ffffffffffffc, 0x3ffffffffffffc, 0x1ffffffffffffc, 0x1ffffffffffffc, 0x1ffffffffffffc, 0x1ffffffffffffc]
def sb : List Nat := [0xfffffffffffff, 0x7ffffffffffff, 0x7ffffffffffff, 0x7ffffffffffff, 0x7ffffffffffff, 0xfffffffffffff, 0x7ffffffffffff, 0x7ffffffffffff, 0x7ffffffffffff, 0x7ffffffffffff]

def k1 : List Nat :=
  [0x40000000000000000000000000000000000000000000000000000000000000000000000000000000000000000000000000000000000000000,
  0x8000000000000000000000000000000000000000000000000000000000000000000000000000000000000000000000000001,
  0x1000000000000000000000000000000000000000000000000000000000000000000000000000000000000002,
  0x100000000000000000000000000000000000000000000000000000000000000000000000003,
  0x20000000000000000000000000000000000000000000000000000000000004, 0x4000000000000000000000000000000000000000000000005,
  0x800000000000000000000000000000000006, 0x100000000000000000000007, 0x10000000008,
  0x8000000000000000000000000000000000000000000000000000000000000000000000000000000000000000000000000009,
  0x100000000000000000000000000000000000000000000000000000000000000000000000000000000000000a,
  0x10000000000000000000000000000000000000000000000000000000000000000000000000b,
  0x2000000000000000000000000000000000000000000000000000000000000c, 0x400000000000000000000000000000000000000000000000d,
  0x80000000000000000000000000000000000e, 0x10000000000000000000000f, 0x10000000010,
  0x1000000000000000000000000000000000000000000000000000000000000000000000000000000000000011,
  0x100000000000000000000000000000000000000000000000000000000000000000000000012,
  0x20000000000000000000000000000000000000000000000000000000000013, 0x4000000000000000000000000000000000000000000000014,
  0x800000000000000000000000000000000015, 0x100000000000000000000016, 0x10000000017,
  0x100000000000000000000000000000000000000000000000000000000000000000000000018,
  0x20000000000000000000000000000000000000000000000000000000000019, 0x400000000000000000000000000000000000000000000001a,
  0x80000000000000000000000000000000001b, 0x10000000000000000000001c, 0x1000000001d,
  0x2000000000000000000000000000000000000000000000000000000000001e, 0x400000000000000000000000000000000000000000000001f,
  0x800000000000000000000000000000000020, 0x100000000000000000000021, 0x10000000022, 0x4000000000000000000000000000000000000000000000023,
  0x800000000000000000000000000000000024, 0x100000000000000000000025, 0x10000000026, 0x800000000000000000000000000000000027,
  0x100000000000000000000028, 0x10000000029, 0x10000000000000000000002a, 0x1000000002b, 0x1000000002c,
  0x20000000000000000000000000000000000000000000000000000000000000000000000000000000000000000000000000000000000000000000000000002d,
  0x20000000000000000000000000000000000000000000000000000000000000000000000000000000000000000000000000000000000000000000000000002e,
  0x4000000000000000000000000000000000000000000000000000000000000000000000000000000000000000000000000000000000000002f,
  0x200000000000000000000000000000000000000000000000000000000000000000000000000000000000000000000000000000000000000000000000000030,
  0x40000000000000000000000000000000000000000000000000000000000000000000000000000000000000000000000000000000000000031,
  0x8000000000000000000000000000000000000000000000000000000000000000000000000000000000000000000000000032,
  0x200000000000000000000000000000000000000000000000000000000000000000000000000000000000000000000000000000000000000000000000000033,
  0x40000000000000000000000000000000000000000000000000000000000000000000000000000000000000000000000000000000000000034,
  0x8000000000000000000000000000000000000000000000000000000000000000000000000000000000000000000000000035,
  0x1000000000000000000000000000000000000000000000000000000000000000000000000000000000000036,
  0x200000000000000000000000000000000000000000000000000000000000000000000000000000000000000000000000000000000000000000000000000037,
  0x40000000000000000000000000000000000000000000000000000000000000000000000000000000000000000000000000000000000000038,
  0x8000000000000000000000000000000000000000000000000000000000000000000000000000000000000000000000000039,
  0x100000000000000000000000000000000000000000000000000000000000000000000000000000000000003a,
  0x10000000000000000000000000000000000000000000000000000000000000000000000003b,
  0x20000000000000000000000000000000000000000000000000000000000000000000000000000000000000000000000000000000000000000000000000003c,
  0x4000000000000000000000000000000000000000000000000000000000000000000000000000000000000000000000000000000000000003d,
  0x800000000000000000000000000000000000000000000000000000000000000000000000000000000000000000000000003e,
  0x100000000000000000000000000000000000000000000000000000000000000000000000000000000000003f,
  0x100000000000000000000000000000000000000000000000000000000000000000000000040,
  0x20000000000000000000000000000000000000000000000000000000000041,
  0x200000000000000000000000000000000000000000000000000000000000000000000000000000000000000000000000000000000000000000000000000042,
  0x40000000000000000000000000000000000000000000000000000000000000000000000000000000000000000000000000000000000000043,
  0x8000000000000000000000000000000000000000000000000000000000000000000000000000000000000000000000000044,
  0x1000000000000000000000000000000000000000000000000000000000000000000000000000000000000045,
  0x100000000000000000000000000000000000000000000000000000000000000000000000046,
  0x20000000000000000000000000000000000000000000000000000000000047, 0x4000000000000000000000000000000000000000000000048,
  0x200000000000000000000000000000000000000000000000000000000000000000000000000000000000000000000000000000000000000000000000000049,
  0x4000000000000000000000000000000000000000000000000000000000000000000000000000000000000000000000000000000000000004a,
  0x800000000000000000000000000000000000000000000000000000000000000000000000000000000000000000000000004b,
  0x100000000000000000000000000000000000000000000000000000000000000000000000000000000000004c,
  0x10000000000000000000000000000000000000000000000000000000000000000000000004d,
  0x2000000000000000000000000000000000000000000000000000000000004e, 0x400000000000000000000000000000000000000000000004f,
  0x800000000000000000000000000000000050,
  0x200000000000000000000000000000000000000000000000000000000000000000000000000000000000000000000000000000000000000000000000000051,
  0x40000000000000000000000000000000000000000000000000000000000000000000000000000000000000000000000000000000000000052,
  0x8000000000000000000000000000000000000000000000000000000000000000000000000000000000000000000000000053,
  0x1000000000000000000000000000000000000000000000000000000000000000000000000000000000000054,
  0x100000000000000000000000000000000000000000000000000000000000000000000000055,
  0x20000000000000000000000000000000000000000000000000000000000056, 0x4000000000000000000000000000000000000000000000057,
  0x800000000000000000000000000000000058, 0x100000000000000000000059,
  0x20000000000000000000000000000000000000000000000000000000000000000000000000000000000000000000000000000000000000000000000000005a,
  0x4000000000000000000000000000000000000000000000000000000000000000000000000000000000000000000000000000000000000005b,
  0x800000000000000000000000000000000000000000000000000000000000000000000000000000000000000000000000005c,
  0x100000000000000000000000000000000000000000000000000000000000000000000000000000000000005d,
  0x10000000000000000000000000000000000000000000000000000000000000000000000005e,
  0x2000000000000000000000000000000000000000000000000000000000005f, 0x4000000000000000000000000000000000000000000000060,
  0x800000000000000000000000000000000061, 0x100000000000000000000062, 0x10000000063, 0x10000000064, 0x100000000000000000000065,
  0x10000000066,
  0x200000000000000000000000000000000000000000000000000000000000000000000000000000000000000000000000000000000000000000000000000067,
  0x40000000000000000000000000000000000000000000000000000000000000000000000000000000000000000000000000000000000000068,
  0x8000000000000000000000000000000000000000000000000000000000000000000000000000000000000000000000000069,
  0x100000000000000000000000000000000000000000000000000000000000000000000000000000000000006a,
  0x10000000000000000000000000000000000000000000000000000000000000000000000006b,
  0x2000000000000000000000000000000000000000000000000000000000006c, 0x400000000000000000000000000000000000000000000006d,
  0x80000000000000000000000000000000006e, 0x10000000000000000000006f, 0x100000000000000000000070, 0x800000000000000000000000000000000071,
  0x100000000000000000000072, 0x800000000000000000000000000000000073, 0x4000000000000000000000000000000000000000000000074,
  0x800000000000000000000000000000000075, 0x4000000000000000000000000000000000000000000000076,
  0x20000000000000000000000000000000000000000000000000000000000077, 0x4000000000000000000000000000000000000000000000078,
  0x20000000000000000000000000000000000000000000000000000000000079,
  0x10000000000000000000000000000000000000000000000000000000000000000000000007a,
  0x2000000000000000000000000000000000000000000000000000000000007b,
  0x10000000000000000000000000000000000000000000000000000000000000000000000007c,
  0x100000000000000000000000000000000000000000000000000000000000000000000000000000000000007d,
  0x10000000000000000000000000000000000000000000000000000000000000000000000007e,
  0x100000000000000000000000000000000000000000000000000000000000000000000000000000000000007f,
  0x8000000000000000000000000000000000000000000000000000000000000000000000000000000000000000000000000080,
  0x1000000000000000000000000000000000000000000000000000000000000000000000000000000000000081,
  0x8000000000000000000000000000000000000000000000000000000000000000000000000000000000000000000000000082,
  0x40000000000000000000000000000000000000000000000000000000000000000000000000000000000000000000000000000000000000083,
  0x8000000000000000000000000000000000000000000000000000000000000000000000000000000000000000000000000084,
  0x40000000000000000000000000000000000000000000000000000000000000000000000000000000000000000000000000000000000000085,
  0x200000000000000000000000000000000000000000000000000000000000000000000000000000000000000000000000000000000000000000000000000086,
  0x40000000000000000000000000000000000000000000000000000000000000000000000000000000000000000000000000000000000000087,
  0x200000000000000000000000000000000000000000000000000000000000000000000000000000000000000000000000000000000000000000000000000088,
  0x2390000000089,
  0x20000000000000000000000000000000000000000000000000000000000000000000000000000000000000000000000000000000000000000000000000008a,
  0x1000000008b, 0x1000000008c, 0x10000000000000000000008d, 0x1000000008e, 0x10000000000000000000008f,
  0x800000000000000000000000000000000090, 0x100000000000000000000091, 0x800000000000000000000000000000000092]

theorem c1 : check [] carry_mul bal bal k1 (lin false 1 W (vars carry_mul.out) ++ prodForm true W (argsA bal.length) (argsB bal.length)) p carry_mul.out tight = true := by decide +kernel

def k2 : List Nat :=
  [0x10000000000000000000000000000000000000000000000000000000000000000000000000000000000000000000002100000,
  0x2000000000000000000000000000000000000000000000000000000000000000000000000000000001d00000,
  0x400000000000000000000000000000000000000000000000000000000000000000001900000,
  0x40000000000000000000000000000000000000000000000000000001500000, 0x8000000000000000000000000000000000000000001100000,
  0x1000000000000000000000000000000d00000, 0x200000000000000000900000, 0x40000500000,
  0x40000000000000000000000000000000000000000000000000000000000000000000000000000000000000000000000000000000002500000,
  0x8000000000000000000000000000000000000000000000000000000000000000000000000000000000000000000002100001,
  0x1000000000000000000000000000000000000000000000000000000000000000000000000000000001d00001,
  0x200000000000000000000000000000000000000000000000000000000000000000001900001,
  0x20000000000000000000000000000000000000000000000000000001500001, 0x4000000000000000000000000000000000000000001100001,
  0x800000000000000000000000000000d00001, 0x100000000000000000900001, 0x20000500001,
  0x200000000000000000000000000000000000000000000000000000000000000000000000000000000000000000000000000000000000000000000000100002,
  0x400000000000000000000000000000000000000000000000000000000000000000001d00003,
  0x80000000000000000000000000000000000000000000000000000001900003, 0x8000000000000000000000000000000000000000001500003,
  0x1000000000000000000000000000001100003, 0x200000000000000000d00003, 0x40000900003,
  0x1000000000000000000000000000000000000000000000000000000000000000000000000000000002100003,
  0x200000000000000000000000000000000000000000000000000000000000000000001d00004,
  0x40000000000000000000000000000000000000000000000000000001900004, 0x4000000000000000000000000000000000000000001500004,
  0x800000000000000000000000000001100004, 0x100000000000000000d00004, 0x20000900004,
  0x400000000000000000000000000000000000000000000000000000000000000000000000000000000000000000000000000000000000000000000000500005,
  0x40000000000000000000000000000000000000000000000000000000000000000000000000000000000000000000000000000000000100005,
  0x10000000000000000000000000000000000000000001900006, 0x1000000000000000000000000000001500006, 0x200000000000000001100006, 0x40000d00006,
  0x40000000000000000000000000000000000000000000000000000001d00006, 0x8000000000000000000000000000000000000000001900007,
  0x800000000000000000000000000001500007, 0x100000000000000001100007, 0x20000d00007,
  0x400000000000000000000000000000000000000000000000000000000000000000000000000000000000000000000000000000000000000000000000900008,
  0x80000000000000000000000000000000000000000000000000000000000000000000000000000000000000000000000000000000000500008,
  0x8000000000000000000000000000000000000000000000000000000000000000000000000000000000000000000000100008, 0x200000000000000001500009,
  0x40001100009, 0x1000000000000000000000000000001900009, 0x10000000000000000150000a, 0x2000110000a,
  0x400000000000000000000000000000000000000000000000000000000000000000000000000000000000000000000000000000000000000000000000d0000b,
  0x8000000000000000000000000000000000000000000000000000000000000000000000000000000000000000000000000000000000090000b,
  0x1000000000000000000000000000000000000000000000000000000000000000000000000000000000000000000000050000b,
  0x100000000000000000000000000000000000000000000000000000000000000000000000000000000010000b, 0x1000150000c,
  0x20000000000000000000000000000000000000000000000000000000000000000000000000000000000000000000000000000000000000000000000110000d,
  0x40000000000000000000000000000000000000000000000000000000000000000000000000000000000000000000000000000000000d0000d,
  0x800000000000000000000000000000000000000000000000000000000000000000000000000000000000000000000090000d,
  0x100000000000000000000000000000000000000000000000000000000000000000000000000000000050000d,
  0x10000000000000000000000000000000000000000000000000000000000000000000010000d,
  0x8000000000000000000000000000000000000000000000000000000000000000000000000000000000000000000000d0000e,
  0x100000000000000000000000000000000000000000000000000000000000000000000000000000000090000e,
  0x20000000000000000000000000000000000000000000000000000000000000000000050000e,
  0x2000000000000000000000000000000000000000000000000000000010000e,
  0x20000000000000000000000000000000000000000000000000000000000000000000090000f,
  0x4000000000000000000000000000000000000000000000000000000050000f, 0x400000000000000000000000000000000000000000010000f,
  0x8000000000000000000000000000000000000000000500010, 0x800000000000000000000000000000100010, 0x100000000000000000100011,
  0x40000000000000000000000000000000000000000000000000000000000000000000000000000000000000000000000000000000000000012,
  0x8000000000000000000000000000000000000000000000000000000000000000000000000000000000000000000000000013,
  0x1000000000000000000000000000000000000000000000000000000000000000000000000000000000000014,
  0x1000000000000000000000000000000000000000000000000000000000000000000000000000000000000015,
  0x100000000000000000000000000000000000000000000000000000000000000000000000016,
  0x20000000000000000000000000000000000000000000000000000000000017,
  0x100000000000000000000000000000000000000000000000000000000000000000000000018,
  0x20000000000000000000000000000000000000000000000000000000000019, 0x400000000000000000000000000000000000000000000001a,
  0x80000000000000000000000000000000001b, 0x2000000000000000000000000000000000000000000000000000000000001c,
  0x400000000000000000000000000000000000000000000001d, 0x80000000000000000000000000000000001e, 0x10000000000000000000001f, 0x10000000020,
  0x4000000000000000000000000000000000000000000000021, 0x800000000000000000000000000000000022, 0x100000000000000000000023, 0x10000000024,
  0x200000000000000000000000000000000000000000000000000000000000000000000000000000000000000000000000000000000000000000000000000025,
  0x40000000000000000000000000000000000000000000000000000000000000000000000000000000000000000000000000000000000000026,
  0x800000000000000000000000000000000027, 0x100000000000000000000028, 0x10000000029,
  0x20000000000000000000000000000000000000000000000000000000000000000000000000000000000000000000000000000000000000000000000000002a,
  0x4000000000000000000000000000000000000000000000000000000000000000000000000000000000000000000000000000000000000002b,
  0x800000000000000000000000000000000000000000000000000000000000000000000000000000000000000000000000002c,
  0x100000000000000000000000000000000000000000000000000000000000000000000000000000000000002d, 0x10000000000000000000002e, 0x1000000002f,
  0x200000000000000000000000000000000000000000000000000000000000000000000000000000000000000000000000000000000000000000000000000030,
  0x40000000000000000000000000000000000000000000000000000000000000000000000000000000000000000000000000000000000000031,
  0x8000000000000000000000000000000000000000000000000000000000000000000000000000000000000000000000000032,
  0x1000000000000000000000000000000000000000000000000000000000000000000000000000000000000033,
  0x100000000000000000000000000000000000000000000000000000000000000000000000034,
  0x20000000000000000000000000000000000000000000000000000000000035, 0x10000000036,
  0x200000000000000000000000000000000000000000000000000000000000000000000000000000000000000000000000000000000000000000000000000037,
  0x40000000000000000000000000000000000000000000000000000000000000000000000000000000000000000000000000000000000000038,
  0x8000000000000000000000000000000000000000000000000000000000000000000000000000000000000000000000000039,
  0x100000000000000000000000000000000000000000000000000000000000000000000000000000000000003a,
  0x10000000000000000000000000000000000000000000000000000000000000000000000003b,
  0x2000000000000000000000000000000000000000000000000000000000003c, 0x400000000000000000000000000000000000000000000003d,
  0x80000000000000000000000000000000003e,
  0x20000000000000000000000000000000000000000000000000000000000000000000000000000000000000000000000000000000000000000000000000003f,
  0x40000000000000000000000000000000000000000000000000000000000000000000000000000000000000000000000000000000000000040,
  0x8000000000000000000000000000000000000000000000000000000000000000000000000000000000000000000000000041,
  0x1000000000000000000000000000000000000000000000000000000000000000000000000000000000000042,
  0x100000000000000000000000000000000000000000000000000000000000000000000000043,
  0x20000000000000000000000000000000000000000000000000000000000044, 0x4000000000000000000000000000000000000000000000045,
  0x800000000000000000000000000000000046, 0x100000000000000000000047, 0x10000000048, 0x10000000049, 0x10000000000000000000004a,
  0x1000000004b,
  0x20000000000000000000000000000000000000000000000000000000000000000000000000000000000000000000000000000000000000000000000000004c,
  0x4000000000000000000000000000000000000000000000000000000000000000000000000000000000000000000000000000000000000004d,
  0x800000000000000000000000000000000000000000000000000000000000000000000000000000000000000000000000004e,
  0x100000000000000000000000000000000000000000000000000000000000000000000000000000000000004f,
  0x100000000000000000000000000000000000000000000000000000000000000000000000050,
  0x20000000000000000000000000000000000000000000000000000000000051, 0x4000000000000000000000000000000000000000000000052,
  0x800000000000000000000000000000000053, 0x100000000000000000000054, 0x100000000000000000000055, 0x800000000000000000000000000000000056,
  0x100000000000000000000057, 0x800000000000000000000000000000000058, 0x4000000000000000000000000000000000000000000000059,
  0x80000000000000000000000000000000005a, 0x400000000000000000000000000000000000000000000005b,
  0x2000000000000000000000000000000000000000000000000000000000005c, 0x400000000000000000000000000000000000000000000005d,
  0x2000000000000000000000000000000000000000000000000000000000005e,
  0x10000000000000000000000000000000000000000000000000000000000000000000000005f,
  0x20000000000000000000000000000000000000000000000000000000000060,
  0x100000000000000000000000000000000000000000000000000000000000000000000000061,
  0x1000000000000000000000000000000000000000000000000000000000000000000000000000000000000062,
  0x100000000000000000000000000000000000000000000000000000000000000000000000063,
  0x1000000000000000000000000000000000000000000000000000000000000000000000000000000000000064,
  0x8000000000000000000000000000000000000000000000000000000000000000000000000000000000000000000000000065,
  0x1000000000000000000000000000000000000000000000000000000000000000000000000000000000000066,
  0x8000000000000000000000000000000000000000000000000000000000000000000000000000000000000000000000000067,
  0x40000000000000000000000000000000000000000000000000000000000000000000000000000000000000000000000000000000000000068,
  0x8000000000000000000000000000000000000000000000000000000000000000000000000000000000000000000000000069,
  0x4000000000000000000000000000000000000000000000000000000000000000000000000000000000000000000000000000000000000006a,
  0x20000000000000000000000000000000000000000000000000000000000000000000000000000000000000000000000000000000000000000000000000006b,
  0x4000000000000000000000000000000000000000000000000000000000000000000000000000000000000000000000000000000000000006c,
  0x20000000000000000000000000000000000000000000000000000000000000000000000000000000000000000000000000000000000000000000000000006d,
  0x239000000006e,
  0x20000000000000000000000000000000000000000000000000000000000000000000000000000000000000000000000000000000000000000000000000006f,
  0x10000000070, 0x10000000071, 0x100000000000000000000072, 0x10000000073, 0x100000000000000000000074,
  0x800000000000000000000000000000000075, 0x100000000000000000000076, 0x800000000000000000000000000000000077]

theorem c2 : check [] carry_square bal [] k2 (lin false 1 W (vars carry_square.out) ++ prodForm true W (argsA bal.length) (argsA bal.length)) p carry_square.out tight = true := by decide +kernel

def k3 : List Nat :=
  [0x10000000000, 0x100000000000000000000001, 0x800000000000000000000000000000000002, 0x4000000000000000000000000000000000000000000000003,
  0x20000000000000000000000000000000000000000000000000000000000004,
  0x100000000000000000000000000000000000000000000000000000000000000000000000005,
  0x1000000000000000000000000000000000000000000000000000000000000000000000000000000000000006,
  0x8000000000000000000000000000000000000000000000000000000000000000000000000000000000000000000000000007,
  0x40000000000000000000000000000000000000000000000000000000000000000000000000000000000000000000000000000000000000008,
  0x200000000000000000000000000000000000000000000000000000000000000000000000000000000000000000000000000000000000000000000000000009,
  0x1000000000a, 0x10000000000000000000000b, 0x1000000000c, 0x10000000000000000000000d, 0x80000000000000000000000000000000000e,
  0x400000000000000000000000000000000000000000000000f, 0x20000000000000000000000000000000000000000000000000000000000010,
  0x100000000000000000000000000000000000000000000000000000000000000000000000011,
  0x1000000000000000000000000000000000000000000000000000000000000000000000000000000000000012,
  0x8000000000000000000000000000000000000000000000000000000000000000000000000000000000000000000000000013,
  0x40000000000000000000000000000000000000000000000000000000000000000000000000000000000000000000000000000000000000014,
  0x200000000000000000000000000000000000000000000000000000000000000000000000000000000000000000000000000000000000000000000000000015]

theorem c3 : check [] carry wide [] k3 (lin false 1 W (vars carry.out) ++ lin true 1 W (argsA wide.length)) p carry.out tight = true := by decide +kernel

def k4 : List Nat :=
  [0x10000000000, 0x100000000000000000000001, 0x800000000000000000000000000000000002, 0x4000000000000000000000000000000000000000000000003,
  0x20000000000000000000000000000000000000000000000000000000000004,
  0x100000000000000000000000000000000000000000000000000000000000000000000000005,
  0x1000000000000000000000000000000000000000000000000000000000000000000000000000000000000006,
  0x8000000000000000000000000000000000000000000000000000000000000000000000000000000000000000000000000007,
  0x40000000000000000000000000000000000000000000000000000000000000000000000000000000000000000000000000000000000000008,
  0x200000000000000000000000000000000000000000000000000000000000000000000000000000000000000000000000000000000000000000000000000009]

theorem c4 : check [] add bal bal k4 (lin false 1 W (vars add.out) ++ (lin true 1 W (argsA bal.length) ++ lin true 1 W (argsB bal.length))) p add.out wide = true := by decide +kernel

def k5 : List Nat :=
  [0x10000000000, 0x100000000000000000000001, 0x800000000000000000000000000000000002, 0x4000000000000000000000000000000000000000000000003,
  0x20000000000000000000000000000000000000000000000000000000000004,
  0x100000000000000000000000000000000000000000000000000000000000000000000000005,
  0x1000000000000000000000000000000000000000000000000000000000000000000000000000000000000006,
  0x8000000000000000000000000000000000000000000000000000000000000000000000000000000000000000000000000007,
  0x40000000000000000000000000000000000000000000000000000000000000000000000000000000000000000000000000000000000000008,
  0x200000000000000000000000000000000000000000000000000000000000000000000000000000000000000000000000000000000000000000000000000009]

theorem c5 : check [] sub bal bal k5 (lin false 1 W (vars sub.out) ++ (lin true 1 W (argsA bal.length) ++ lin false 1 W (argsB bal.length))) p sub.out wide = true := by decide +kernel

def k6 : List Nat :=
  [0x10000000000, 0x100000000000000000000001, 0x800000000000000000000000000000000002, 0x4000000000000000000000000000000000000000000000003,
  0x20000000000000000000000000000000000000000000000000000000000004,
  0x100000000000000000000000000000000000000000000000000000000000000000000000005,
  0x1000000000000000000000000000000000000000000000000000000000000000000000000000000000000006,
  0x8000000000000000000000000000000000000000000000000000000000000000000000000000000000000000000000000007,
  0x40000000000000000000000000000000000000000000000000000000000000000000000000000000000000000000000000000000000000008,
  0x200000000000000000000000000000000000000000000000000000000000000000000000000000000000000000000000000000000000000000000000000009]

theorem c6 : check [] opp bal [] k6 (lin false 1 W (vars opp.out) ++ lin false 1 W (argsA bal.length)) p opp.out bal = true := by decide +kernel

def k7 : List Nat :=
  [0x200000000000000000000000000000000000000000000000000000000000000000000000000000000000000000000000000000000000000000000000000000,
  0x200000000000000000000000000000000000000000000000000000000000000000000000000000000000000000000000000000000000000000000000000001,
  0x200000000000000000000000000000000000000000000000000000000000000000000000000000000000000000000000000000000000000000000000000002,
  0x200000000000000000000000000000000000000000000000000000000000000000000000000000000000000000000000000000000000000000000000000003,
  0x200000000000000000000000000000000000000000000000000000000000000000000000000000000000000000000000000000000000000000000000000004,
  0x200000000000000000000000000000000000000000000000000000000000000000000000000000000000000000000000000000000000000000000000000005,
  0x40000000000000000000000000000000000000000000000000000000000000000000000000000000000000000000000000000000000000006,
  0x40000000000000000000000000000000000000000000000000000000000000000000000000000000000000000000000000000000000000007,
  0x40000000000000000000000000000000000000000000000000000000000000000000000000000000000000000000000000000000000000008,
  0x40000000000000000000000000000000000000000000000000000000000000000000000000000000000000000000000000000000000000009,
  0x4000000000000000000000000000000000000000000000000000000000000000000000000000000000000000000000000000000000000000a,
  0x4000000000000000000000000000000000000000000000000000000000000000000000000000000000000000000000000000000000000000b,
  0x800000000000000000000000000000000000000000000000000000000000000000000000000000000000000000000000000c,
  0x800000000000000000000000000000000000000000000000000000000000000000000000000000000000000000000000000d,
  0x800000000000000000000000000000000000000000000000000000000000000000000000000000000000000000000000000e,
  0x800000000000000000000000000000000000000000000000000000000000000000000000000000000000000000000000000f,
  0x8000000000000000000000000000000000000000000000000000000000000000000000000000000000000000000000000010,
  0x8000000000000000000000000000000000000000000000000000000000000000000000000000000000000000000000000011,
  0x8000000000000000000000000000000000000000000000000000000000000000000000000000000000000000000000000012,
  0x1000000000000000000000000000000000000000000000000000000000000000000000000000000000000013,
  0x1000000000000000000000000000000000000000000000000000000000000000000000000000000000000014,
  0x1000000000000000000000000000000000000000000000000000000000000000000000000000000000000015,
  0x1000000000000000000000000000000000000000000000000000000000000000000000000000000000000016,
  0x1000000000000000000000000000000000000000000000000000000000000000000000000000000000000017,
  0x1000000000000000000000000000000000000000000000000000000000000000000000000000000000000018,
  0x100000000000000000000000000000000000000000000000000000000000000000000000019,
  0x10000000000000000000000000000000000000000000000000000000000000000000000001a,
  0x10000000000000000000000000000000000000000000000000000000000000000000000001b,
  0x10000000000000000000000000000000000000000000000000000000000000000000000001c,
  0x10000000000000000000000000000000000000000000000000000000000000000000000001d,
  0x10000000000000000000000000000000000000000000000000000000000000000000000001e,
  0x10000000000000000000000000000000000000000000000000000000000000000000000001f,
  0x20000000000000000000000000000000000000000000000000000000000020, 0x20000000000000000000000000000000000000000000000000000000000021,
  0x20000000000000000000000000000000000000000000000000000000000022, 0x20000000000000000000000000000000000000000000000000000000000023,
  0x20000000000000000000000000000000000000000000000000000000000024, 0x20000000000000000000000000000000000000000000000000000000000025,
  0x4000000000000000000000000000000000000000000000026, 0x4000000000000000000000000000000000000000000000027,
  0x4000000000000000000000000000000000000000000000028, 0x4000000000000000000000000000000000000000000000029,
  0x400000000000000000000000000000000000000000000002a, 0x400000000000000000000000000000000000000000000002b,
  0x80000000000000000000000000000000002c, 0x80000000000000000000000000000000002d, 0x80000000000000000000000000000000002e,
  0x80000000000000000000000000000000002f, 0x800000000000000000000000000000000030, 0x800000000000000000000000000000000031,
  0x800000000000000000000000000000000032, 0x100000000000000000000033, 0x100000000000000000000034, 0x100000000000000000000035,
  0x100000000000000000000036, 0x100000000000000000000037, 0x100000000000000000000038, 0x10000000039, 0x1000000003a, 0x1000000003b,
  0x1000000003c, 0x1000000003d, 0x1000000003e, 0x1000000003f, 0x10000000040, 0x10000000041, 0x10000000042, 0x10000000043, 0x10000000044,
  0x10000000045, 0x10000000046, 0x100000000000000000000047, 0x100000000000000000000048, 0x100000000000000000000049,
  0x10000000000000000000004a, 0x10000000000000000000004b, 0x10000000000000000000004c, 0x10000000000000000000004d, 0x10000000000000000000004e,
  0x80000000000000000000000000000000004f, 0x800000000000000000000000000000000050, 0x800000000000000000000000000000000051,
  0x800000000000000000000000000000000052, 0x800000000000000000000000000000000053, 0x800000000000000000000000000000000054,
  0x800000000000000000000000000000000055, 0x800000000000000000000000000000000056, 0x800000000000000000000000000000000057,
  0x4000000000000000000000000000000000000000000000058, 0x4000000000000000000000000000000000000000000000059,
  0x400000000000000000000000000000000000000000000005a, 0x400000000000000000000000000000000000000000000005b,
  0x400000000000000000000000000000000000000000000005c, 0x400000000000000000000000000000000000000000000005d,
  0x400000000000000000000000000000000000000000000005e, 0x400000000000000000000000000000000000000000000005f,
  0x20000000000000000000000000000000000000000000000000000000000060, 0x20000000000000000000000000000000000000000000000000000000000061,
  0x20000000000000000000000000000000000000000000000000000000000062, 0x20000000000000000000000000000000000000000000000000000000000063,
  0x20000000000000000000000000000000000000000000000000000000000064, 0x20000000000000000000000000000000000000000000000000000000000065,
  0x20000000000000000000000000000000000000000000000000000000000066,
  0x100000000000000000000000000000000000000000000000000000000000000000000000067,
  0x100000000000000000000000000000000000000000000000000000000000000000000000068,
  0x100000000000000000000000000000000000000000000000000000000000000000000000069,
  0x10000000000000000000000000000000000000000000000000000000000000000000000006a,
  0x10000000000000000000000000000000000000000000000000000000000000000000000006b,
  0x10000000000000000000000000000000000000000000000000000000000000000000000006c,
  0x10000000000000000000000000000000000000000000000000000000000000000000000006d,
  0x100000000000000000000000000000000000000000000000000000000000000000000000000000000000006e,
  0x100000000000000000000000000000000000000000000000000000000000000000000000000000000000006f,
  0x1000000000000000000000000000000000000000000000000000000000000000000000000000000000000070,
  0x1000000000000000000000000000000000000000000000000000000000000000000000000000000000000071,
  0x1000000000000000000000000000000000000000000000000000000000000000000000000000000000000072,
  0x1000000000000000000000000000000000000000000000000000000000000000000000000000000000000073,
  0x1000000000000000000000000000000000000000000000000000000000000000000000000000000000000074,
  0x1000000000000000000000000000000000000000000000000000000000000000000000000000000000000075,
  0x8000000000000000000000000000000000000000000000000000000000000000000000000000000000000000000000000076,
  0x8000000000000000000000000000000000000000000000000000000000000000000000000000000000000000000000000077,
  0x8000000000000000000000000000000000000000000000000000000000000000000000000000000000000000000000000078,
  0x8000000000000000000000000000000000000000000000000000000000000000000000000000000000000000000000000079,
  0x800000000000000000000000000000000000000000000000000000000000000000000000000000000000000000000000007a,
  0x800000000000000000000000000000000000000000000000000000000000000000000000000000000000000000000000007b,
  0x800000000000000000000000000000000000000000000000000000000000000000000000000000000000000000000000007c,
  0x800000000000000000000000000000000000000000000000000000000000000000000000000000000000000000000000007d,
  0x800000000000000000000000000000000000000000000000000000000000000000000000000000000000000000000000007e,
  0x4000000000000000000000000000000000000000000000000000000000000000000000000000000000000000000000000000000000000007f,
  0x40000000000000000000000000000000000000000000000000000000000000000000000000000000000000000000000000000000000000080,
  0x40000000000000000000000000000000000000000000000000000000000000000000000000000000000000000000000000000000000000081,
  0x40000000000000000000000000000000000000000000000000000000000000000000000000000000000000000000000000000000000000082,
  0x40000000000000000000000000000000000000000000000000000000000000000000000000000000000000000000000000000000000000083,
  0x40000000000000000000000000000000000000000000000000000000000000000000000000000000000000000000000000000000000000084,
  0x40000000000000000000000000000000000000000000000000000000000000000000000000000000000000000000000000000000000000085,
  0x40000000000000000000000000000000000000000000000000000000000000000000000000000000000000000000000000000000000000086,
  0x200000000000000000000000000000000000000000000000000000000000000000000000000000000000000000000000000000000000000000000000000087,
  0x200000000000000000000000000000000000000000000000000000000000000000000000000000000000000000000000000000000000000000000000000088,
  0x200000000000000000000000000000000000000000000000000000000000000000000000000000000000000000000000000000000000000000000000000089,
  0x20000000000000000000000000000000000000000000000000000000000000000000000000000000000000000000000000000000000000000000000000008a,
  0x20000000000000000000000000000000000000000000000000000000000000000000000000000000000000000000000000000000000000000000000000008b,
  0x20000000000000000000000000000000000000000000000000000000000000000000000000000000000000000000000000000000000000000000000000008c,
  0x20000000000000000000000000000000000000000000000000000000000000000000000000000000000000000000000000000000000000000000000000008d]

theorem c7 : check [] from_bytes (List.replicate 64 255) [] k7 (lin false 1 W (vars from_bytes.out) ++ lin true 1 (byteW 64) (argsA (List.replicate 64 255).length)) 0 from_bytes.out tight = true := by decide +kernel

def kb : CondCert where
  ts := argsA 10
  ss := [1, 3, 5, 7, 9, 11, 13, 15, 17, 19]
  bf := 20
  chain := [0x10000000000, 0x100000000000000000000001, 0x800000000000000000000000000000000002, 0x4000000000000000000000000000000000000000000000003,
  0x20000000000000000000000000000000000000000000000000000000000004,
  0x100000000000000000000000000000000000000000000000000000000000000000000000005,
  0x1000000000000000000000000000000000000000000000000000000000000000000000000000000000000006,
  0x8000000000000000000000000000000000000000000000000000000000000000000000000000000000000000000000000007,
  0x40000000000000000000000000000000000000000000000000000000000000000000000000000000000000000000000000000000000000008,
  0x200000000000000000000000000000000000000000000000000000000000000000000000000000000000000000000000000000000000000000000000000009]
  c0 := [0x10000000000, 0x100000000000000000000001, 0x800000000000000000000000000000000002, 0x4000000000000000000000000000000000000000000000003,
  0x20000000000000000000000000000000000000000000000000000000000004,
  0x100000000000000000000000000000000000000000000000000000000000000000000000005,
  0x1000000000000000000000000000000000000000000000000000000000000000000000000000000000000006,
  0x8000000000000000000000000000000000000000000000000000000000000000000000000000000000000000000000000007,
  0x40000000000000000000000000000000000000000000000000000000000000000000000000000000000000000000000000000000000000008,
  0x200000000000000000000000000000000000000000000000000000000000000000000000000000000000000000000000000000000000000000000000000009,
  0x1000000000b, 0x10000000000000000000000c, 0x80000000000000000000000000000000000d, 0x400000000000000000000000000000000000000000000000e,
  0x2000000000000000000000000000000000000000000000000000000000000f,
  0x100000000000000000000000000000000000000000000000000000000000000000000000010,
  0x1000000000000000000000000000000000000000000000000000000000000000000000000000000000000011,
  0x8000000000000000000000000000000000000000000000000000000000000000000000000000000000000000000000000012,
  0x40000000000000000000000000000000000000000000000000000000000000000000000000000000000000000000000000000000000000013,
  0x200000000000000000000000000000000000000000000000000000000000000000000000000000000000000000000000000000000000000000000000000014,
  0x10000000000000000000000000000000000000000000000000000000000000000000000000000000000000000000000000000000000000000000000000015,
  0x10000000000000000000000000000000000000000000000000000000000000000000000000000000000000000000000000000000000000016,
  0x100000000000000000000000000000000000000000000000000000000000000000000000000000000000000000000000017,
  0x100000000000000000000000000000000000000000000000000000000000000000000000000000000000018,
  0x1000000000000000000000000000000000000000000000000000000000019, 0x100000000000000000000000000000000000000000000001a,
  0x1000000000000000000000000000000001b, 0x1000000000000000000001c, 0x1000000001d, 0x100000000001e, 0x100000000001f, 0x100000000000020,
  0x100000000000021, 0x10000000000000022, 0x10000000000000023, 0x1000000000000000024, 0x1000000000000000025, 0x100000000000000000026,
  0x100000000000000000027, 0x10000000000000000000028, 0x10000000000000000000029, 0x1000000000000000000002a, 0x100000000000000000000002b,
  0x100000000000000000000002c, 0x10000000000000000000000002d, 0x10000000000000000000000002e, 0x1000000000000000000000000002f,
  0x10000000000000000000000000030, 0x1000000000000000000000000000031, 0x1000000000000000000000000000032, 0x100000000000000000000000000000033,
  0x100000000000000000000000000000034, 0x10000000000000000000000000000000035, 0x10000000000000000000000000000000036,
  0x10000000000000000000000000000000037, 0x1000000000000000000000000000000000038, 0x1000000000000000000000000000000000039,
  0x10000000000000000000000000000000000003a, 0x10000000000000000000000000000000000003b, 0x1000000000000000000000000000000000000003c,
  0x1000000000000000000000000000000000000003d, 0x100000000000000000000000000000000000000003e, 0x100000000000000000000000000000000000000003f,
  0x100000000000000000000000000000000000000000040, 0x100000000000000000000000000000000000000000041,
  0x10000000000000000000000000000000000000000000042, 0x10000000000000000000000000000000000000000000043,
  0x1000000000000000000000000000000000000000000000044, 0x1000000000000000000000000000000000000000000000045,
  0x1000000000000000000000000000000000000000000000046, 0x100000000000000000000000000000000000000000000000047,
  0x100000000000000000000000000000000000000000000000048, 0x10000000000000000000000000000000000000000000000000049,
  0x1000000000000000000000000000000000000000000000000004a, 0x100000000000000000000000000000000000000000000000000004b,
  0x100000000000000000000000000000000000000000000000000004c, 0x10000000000000000000000000000000000000000000000000000004d,
  0x10000000000000000000000000000000000000000000000000000004e, 0x1000000000000000000000000000000000000000000000000000000004f,
  0x10000000000000000000000000000000000000000000000000000000050, 0x1000000000000000000000000000000000000000000000000000000000051,
  0x1000000000000000000000000000000000000000000000000000000000052, 0x1000000000000000000000000000000000000000000000000000000000053,
  0x100000000000000000000000000000000000000000000000000000000000054, 0x100000000000000000000000000000000000000000000000000000000000055,
  0x10000000000000000000000000000000000000000000000000000000000000056, 0x10000000000000000000000000000000000000000000000000000000000000057,
  0x1000000000000000000000000000000000000000000000000000000000000000058,
  0x1000000000000000000000000000000000000000000000000000000000000000059,
  0x10000000000000000000000000000000000000000000000000000000000000000005a,
  0x10000000000000000000000000000000000000000000000000000000000000000005b,
  0x1000000000000000000000000000000000000000000000000000000000000000000005c,
  0x1000000000000000000000000000000000000000000000000000000000000000000005d,
  0x100000000000000000000000000000000000000000000000000000000000000000000005e,
  0x10000000000000000000000000000000000000000000000000000000000000000000000005f,
  0x10000000000000000000000000000000000000000000000000000000000000000000000000060,
  0x10000000000000000000000000000000000000000000000000000000000000000000000000061,
  0x1000000000000000000000000000000000000000000000000000000000000000000000000000062,
  0x1000000000000000000000000000000000000000000000000000000000000000000000000000063,
  0x100000000000000000000000000000000000000000000000000000000000000000000000000000064,
  0x100000000000000000000000000000000000000000000000000000000000000000000000000000065,
  0x10000000000000000000000000000000000000000000000000000000000000000000000000000000066,
  0x10000000000000000000000000000000000000000000000000000000000000000000000000000000067,
  0x1000000000000000000000000000000000000000000000000000000000000000000000000000000000068,
  0x1000000000000000000000000000000000000000000000000000000000000000000000000000000000069,
  0x10000000000000000000000000000000000000000000000000000000000000000000000000000000000006a,
  0x10000000000000000000000000000000000000000000000000000000000000000000000000000000000006b,
  0x10000000000000000000000000000000000000000000000000000000000000000000000000000000000006c,
  0x1000000000000000000000000000000000000000000000000000000000000000000000000000000000000006d,
  0x1000000000000000000000000000000000000000000000000000000000000000000000000000000000000006e,
  0x100000000000000000000000000000000000000000000000000000000000000000000000000000000000000006f,
  0x1000000000000000000000000000000000000000000000000000000000000000000000000000000000000000070,
  0x100000000000000000000000000000000000000000000000000000000000000000000000000000000000000000071,
  0x100000000000000000000000000000000000000000000000000000000000000000000000000000000000000000072,
  0x10000000000000000000000000000000000000000000000000000000000000000000000000000000000000000000073,
  0x10000000000000000000000000000000000000000000000000000000000000000000000000000000000000000000074,
  0x1000000000000000000000000000000000000000000000000000000000000000000000000000000000000000000000075,
  0x1000000000000000000000000000000000000000000000000000000000000000000000000000000000000000000000076,
  0x100000000000000000000000000000000000000000000000000000000000000000000000000000000000000000000000077,
  0x100000000000000000000000000000000000000000000000000000000000000000000000000000000000000000000000078,
  0x100000000000000000000000000000000000000000000000000000000000000000000000000000000000000000000000079,
  0x1000000000000000000000000000000000000000000000000000000000000000000000000000000000000000000000000007a,
  0x1000000000000000000000000000000000000000000000000000000000000000000000000000000000000000000000000007b,
  0x100000000000000000000000000000000000000000000000000000000000000000000000000000000000000000000000000007c,
  0x100000000000000000000000000000000000000000000000000000000000000000000000000000000000000000000000000007d,
  0x10000000000000000000000000000000000000000000000000000000000000000000000000000000000000000000000000000007e,
  0x10000000000000000000000000000000000000000000000000000000000000000000000000000000000000000000000000000007f,
  0x10000000000000000000000000000000000000000000000000000000000000000000000000000000000000000000000000000000080,
  0x10000000000000000000000000000000000000000000000000000000000000000000000000000000000000000000000000000000081,
  0x1000000000000000000000000000000000000000000000000000000000000000000000000000000000000000000000000000000000082,
  0x1000000000000000000000000000000000000000000000000000000000000000000000000000000000000000000000000000000000083,
  0x100000000000000000000000000000000000000000000000000000000000000000000000000000000000000000000000000000000000084,
  0x100000000000000000000000000000000000000000000000000000000000000000000000000000000000000000000000000000000000085,
  0x10000000000000000000000000000000000000000000000000000000000000000000000000000000000000000000000000000000000000086,
  0x10000000000000000000000000000000000000000000000000000000000000000000000000000000000000000000000000000000000000087,
  0x10000000000000000000000000000000000000000000000000000000000000000000000000000000000000000000000000000000000000088,
  0x1000000000000000000000000000000000000000000000000000000000000000000000000000000000000000000000000000000000000000089,
  0x100000000000000000000000000000000000000000000000000000000000000000000000000000000000000000000000000000000000000008a,
  0x10000000000000000000000000000000000000000000000000000000000000000000000000000000000000000000000000000000000000000008b,
  0x10000000000000000000000000000000000000000000000000000000000000000000000000000000000000000000000000000000000000000008c,
  0x1000000000000000000000000000000000000000000000000000000000000000000000000000000000000000000000000000000000000000000008d,
  0x1000000000000000000000000000000000000000000000000000000000000000000000000000000000000000000000000000000000000000000008e,
  0x100000000000000000000000000000000000000000000000000000000000000000000000000000000000000000000000000000000000000000000008f,
  0x1000000000000000000000000000000000000000000000000000000000000000000000000000000000000000000000000000000000000000000000090,
  0x100000000000000000000000000000000000000000000000000000000000000000000000000000000000000000000000000000000000000000000000091,
  0x100000000000000000000000000000000000000000000000000000000000000000000000000000000000000000000000000000000000000000000000092,
  0x10000000000000000000000000000000000000000000000000000000000000000000000000000000000000000000000000000000000000000000000000093,
  0x10000000000000000000000000000000000000000000000000000000000000000000000000000000000000000000000000000000000000000000000000094,
  0x10000000000000000000000000000000000000000000000000000000000000000000000000000000000000000000000000000000000000000000000000095,
  0x1000000000000000000000000000000000000000000000000000000000000000000000000000000000000000000000000000000000000000000000000000096,
  0x1000000000000000000000000000000000000000000000000000000000000000000000000000000000000000000000000000000000000000000000000000097,
  0x100000000000000000000000000000000000000000000000000000000000000000000000000000000000000000000000000000000000000000000000000000098,
  0x100000000000000000000000000000000000000000000000000000000000000000000000000000000000000000000000000000000000000000000000000000099,
  0x1000000000000000000000000000000000000000000000000000000000000000000000000000000000000000000000000000000000000000000000000000000009a,
  0x1000000000000000000000000000000000000000000000000000000000000000000000000000000000000000000000000000000000000000000000000000000009b,
  0x100000000000000000000000000000000000000000000000000000000000000000000000000000000000000000000000000000000000000000000000000000000009c,
  0x100000000000000000000000000000000000000000000000000000000000000000000000000000000000000000000000000000000000000000000000000000000009d,
  0x10000000000000000000000000000000000000000000000000000000000000000000000000000000000000000000000000000000000000000000000000000000000009e,
  0x10000000000000000000000000000000000000000000000000000000000000000000000000000000000000000000000000000000000000000000000000000000000009f,
  0x100000000000000000000000000000000000000000000000000000000000000000000000000000000000000000000000000000000000000000000000000000000000000a0]
  c1 := [0x10000000000, 0x100000000000000000000001, 0x800000000000000000000000000000000002, 0x4000000000000000000000000000000000000000000000003,
  0x20000000000000000000000000000000000000000000000000000000000004,
  0x100000000000000000000000000000000000000000000000000000000000000000000000005,
  0x1000000000000000000000000000000000000000000000000000000000000000000000000000000000000006,
  0x8000000000000000000000000000000000000000000000000000000000000000000000000000000000000000000000000007,
  0x40000000000000000000000000000000000000000000000000000000000000000000000000000000000000000000000000000000000000008,
  0x200000000000000000000000000000000000000000000000000000000000000000000000000000000000000000000000000000000000000000000000000009,
  0x1000000000b, 0x10000000000000000000000c, 0x80000000000000000000000000000000000d, 0x400000000000000000000000000000000000000000000000e,
  0x2000000000000000000000000000000000000000000000000000000000000f,
  0x100000000000000000000000000000000000000000000000000000000000000000000000010,
  0x1000000000000000000000000000000000000000000000000000000000000000000000000000000000000011,
  0x8000000000000000000000000000000000000000000000000000000000000000000000000000000000000000000000000012,
  0x40000000000000000000000000000000000000000000000000000000000000000000000000000000000000000000000000000000000000013,
  0x200000000000000000000000000000000000000000000000000000000000000000000000000000000000000000000000000000000000000000000000000014,
  0x10000000000000000000000000000000000000000000000000000000000000000000000000000000000000000000000000000000000000000000000000015,
  0x10000000000000000000000000000000000000000000000000000000000000000000000000000000000000000000000000000000000000016,
  0x100000000000000000000000000000000000000000000000000000000000000000000000000000000000000000000000017,
  0x100000000000000000000000000000000000000000000000000000000000000000000000000000000000018,
  0x1000000000000000000000000000000000000000000000000000000000019, 0x100000000000000000000000000000000000000000000001a,
  0x1000000000000000000000000000000001b, 0x1000000000000000000001c, 0x1000000001d, 0x100000000001e, 0x100000000001f, 0x100000000000020,
  0x100000000000021, 0x10000000000000022, 0x10000000000000023, 0x1000000000000000024, 0x1000000000000000025, 0x100000000000000000026,
  0x100000000000000000027, 0x10000000000000000000028, 0x10000000000000000000029, 0x1000000000000000000002a, 0x100000000000000000000002b,
  0x100000000000000000000002c, 0x10000000000000000000000002d, 0x10000000000000000000000002e, 0x1000000000000000000000000002f,
  0x10000000000000000000000000030, 0x1000000000000000000000000000031, 0x1000000000000000000000000000032, 0x100000000000000000000000000000033,
  0x100000000000000000000000000000034, 0x10000000000000000000000000000000035, 0x10000000000000000000000000000000036,
  0x10000000000000000000000000000000037, 0x1000000000000000000000000000000000038, 0x1000000000000000000000000000000000039,
  0x10000000000000000000000000000000000003a, 0x10000000000000000000000000000000000003b, 0x1000000000000000000000000000000000000003c,
  0x1000000000000000000000000000000000000003d, 0x100000000000000000000000000000000000000003e, 0x100000000000000000000000000000000000000003f,
  0x100000000000000000000000000000000000000000040, 0x100000000000000000000000000000000000000000041,
  0x10000000000000000000000000000000000000000000042, 0x10000000000000000000000000000000000000000000043,
  0x1000000000000000000000000000000000000000000000044, 0x1000000000000000000000000000000000000000000000045,
  0x1000000000000000000000000000000000000000000000046, 0x100000000000000000000000000000000000000000000000047,
  0x100000000000000000000000000000000000000000000000048, 0x10000000000000000000000000000000000000000000000000049,
  0x1000000000000000000000000000000000000000000000000004a, 0x100000000000000000000000000000000000000000000000000004b,
  0x100000000000000000000000000000000000000000000000000004c, 0x10000000000000000000000000000000000000000000000000000004d,
  0x10000000000000000000000000000000000000000000000000000004e, 0x1000000000000000000000000000000000000000000000000000000004f,
  0x10000000000000000000000000000000000000000000000000000000050, 0x1000000000000000000000000000000000000000000000000000000000051,
  0x1000000000000000000000000000000000000000000000000000000000052, 0x1000000000000000000000000000000000000000000000000000000000053,
  0x100000000000000000000000000000000000000000000000000000000000054, 0x100000000000000000000000000000000000000000000000000000000000055,
  0x10000000000000000000000000000000000000000000000000000000000000056, 0x10000000000000000000000000000000000000000000000000000000000000057,
  0x1000000000000000000000000000000000000000000000000000000000000000058,
  0x1000000000000000000000000000000000000000000000000000000000000000059,
  0x10000000000000000000000000000000000000000000000000000000000000000005a,
  0x10000000000000000000000000000000000000000000000000000000000000000005b,
  0x1000000000000000000000000000000000000000000000000000000000000000000005c,
  0x1000000000000000000000000000000000000000000000000000000000000000000005d,
  0x100000000000000000000000000000000000000000000000000000000000000000000005e,
  0x10000000000000000000000000000000000000000000000000000000000000000000000005f,
  0x10000000000000000000000000000000000000000000000000000000000000000000000000060,
  0x10000000000000000000000000000000000000000000000000000000000000000000000000061,
  0x1000000000000000000000000000000000000000000000000000000000000000000000000000062,
  0x1000000000000000000000000000000000000000000000000000000000000000000000000000063,
  0x100000000000000000000000000000000000000000000000000000000000000000000000000000064,
  0x100000000000000000000000000000000000000000000000000000000000000000000000000000065,
  0x10000000000000000000000000000000000000000000000000000000000000000000000000000000066,
  0x10000000000000000000000000000000000000000000000000000000000000000000000000000000067,
  0x1000000000000000000000000000000000000000000000000000000000000000000000000000000000068,
  0x1000000000000000000000000000000000000000000000000000000000000000000000000000000000069,
  0x10000000000000000000000000000000000000000000000000000000000000000000000000000000000006a,
  0x10000000000000000000000000000000000000000000000000000000000000000000000000000000000006b,
  0x10000000000000000000000000000000000000000000000000000000000000000000000000000000000006c,
  0x1000000000000000000000000000000000000000000000000000000000000000000000000000000000000006d,
  0x1000000000000000000000000000000000000000000000000000000000000000000000000000000000000006e,
  0x100000000000000000000000000000000000000000000000000000000000000000000000000000000000000006f,
  0x1000000000000000000000000000000000000000000000000000000000000000000000000000000000000000070,
  0x100000000000000000000000000000000000000000000000000000000000000000000000000000000000000000071,
  0x100000000000000000000000000000000000000000000000000000000000000000000000000000000000000000072,
  0x10000000000000000000000000000000000000000000000000000000000000000000000000000000000000000000073,
  0x10000000000000000000000000000000000000000000000000000000000000000000000000000000000000000000074,
  0x1000000000000000000000000000000000000000000000000000000000000000000000000000000000000000000000075,
  0x1000000000000000000000000000000000000000000000000000000000000000000000000000000000000000000000076,
  0x100000000000000000000000000000000000000000000000000000000000000000000000000000000000000000000000077,
  0x100000000000000000000000000000000000000000000000000000000000000000000000000000000000000000000000078,
  0x100000000000000000000000000000000000000000000000000000000000000000000000000000000000000000000000079,
  0x1000000000000000000000000000000000000000000000000000000000000000000000000000000000000000000000000007a,
  0x1000000000000000000000000000000000000000000000000000000000000000000000000000000000000000000000000007b,
  0x100000000000000000000000000000000000000000000000000000000000000000000000000000000000000000000000000007c,
  0x100000000000000000000000000000000000000000000000000000000000000000000000000000000000000000000000000007d,
  0x10000000000000000000000000000000000000000000000000000000000000000000000000000000000000000000000000000007e,
  0x10000000000000000000000000000000000000000000000000000000000000000000000000000000000000000000000000000007f,
  0x10000000000000000000000000000000000000000000000000000000000000000000000000000000000000000000000000000000080,
  0x10000000000000000000000000000000000000000000000000000000000000000000000000000000000000000000000000000000081,
  0x1000000000000000000000000000000000000000000000000000000000000000000000000000000000000000000000000000000000082,
  0x1000000000000000000000000000000000000000000000000000000000000000000000000000000000000000000000000000000000083,
  0x100000000000000000000000000000000000000000000000000000000000000000000000000000000000000000000000000000000000084,
  0x100000000000000000000000000000000000000000000000000000000000000000000000000000000000000000000000000000000000085,
  0x10000000000000000000000000000000000000000000000000000000000000000000000000000000000000000000000000000000000000086,
  0x10000000000000000000000000000000000000000000000000000000000000000000000000000000000000000000000000000000000000087,
  0x10000000000000000000000000000000000000000000000000000000000000000000000000000000000000000000000000000000000000088,
  0x1000000000000000000000000000000000000000000000000000000000000000000000000000000000000000000000000000000000000000089,
  0x100000000000000000000000000000000000000000000000000000000000000000000000000000000000000000000000000000000000000008a,
  0x10000000000000000000000000000000000000000000000000000000000000000000000000000000000000000000000000000000000000000008b,
  0x10000000000000000000000000000000000000000000000000000000000000000000000000000000000000000000000000000000000000000008c,
  0x1000000000000000000000000000000000000000000000000000000000000000000000000000000000000000000000000000000000000000000008d,
  0x1000000000000000000000000000000000000000000000000000000000000000000000000000000000000000000000000000000000000000000008e,
  0x100000000000000000000000000000000000000000000000000000000000000000000000000000000000000000000000000000000000000000000008f,
  0x1000000000000000000000000000000000000000000000000000000000000000000000000000000000000000000000000000000000000000000000090,
  0x100000000000000000000000000000000000000000000000000000000000000000000000000000000000000000000000000000000000000000000000091,
  0x100000000000000000000000000000000000000000000000000000000000000000000000000000000000000000000000000000000000000000000000092,
  0x10000000000000000000000000000000000000000000000000000000000000000000000000000000000000000000000000000000000000000000000000093,
  0x10000000000000000000000000000000000000000000000000000000000000000000000000000000000000000000000000000000000000000000000000094,
  0x10000000000000000000000000000000000000000000000000000000000000000000000000000000000000000000000000000000000000000000000000095,
  0x1000000000000000000000000000000000000000000000000000000000000000000000000000000000000000000000000000000000000000000000000000096,
  0x1000000000000000000000000000000000000000000000000000000000000000000000000000000000000000000000000000000000000000000000000000097,
  0x100000000000000000000000000000000000000000000000000000000000000000000000000000000000000000000000000000000000000000000000000000098,
  0x100000000000000000000000000000000000000000000000000000000000000000000000000000000000000000000000000000000000000000000000000000099,
  0x1000000000000000000000000000000000000000000000000000000000000000000000000000000000000000000000000000000000000000000000000000000009a,
  0x1000000000000000000000000000000000000000000000000000000000000000000000000000000000000000000000000000000000000000000000000000000009b,
  0x100000000000000000000000000000000000000000000000000000000000000000000000000000000000000000000000000000000000000000000000000000000009c,
  0x100000000000000000000000000000000000000000000000000000000000000000000000000000000000000000000000000000000000000000000000000000000009d,
  0x10000000000000000000000000000000000000000000000000000000000000000000000000000000000000000000000000000000000000000000000000000000000009e,
  0x10000000000000000000000000000000000000000000000000000000000000000000000000000000000000000000000000000000000000000000000000000000000009f,
  0x100000000000000000000000000000000000000000000000000000000000000000000000000000000000000000000000000000000000000000000000000000000000000a0]

theorem c8 : condChecks [] to_bytes tight [] kb W sb (byteW 64) (List.replicate 64 255) p (256 ^ 64) (256 ^ 64) = true := by decide +kernel

theorem facts : SolFacts file p 64 W bal tight :=
  SolFacts.of_checks (wide := wide) (sb := sb) (K := kb) c1 c2 c3 c4 c5 c6 c7 c8 rfl rfl (by decide +kernel) (by decide +kernel) (by decide +kernel)
    (by decide +kernel) (by decide +kernel) (by decide +kernel) (by decide +kernel) (by decide +kernel) (by decide +kernel)

/-- The field operations of the file, on limbs within `bal`, are those modulo `p`. -/
theorem field_sound [Fact (Nat.Prime p)] : file.ops.Sound p 64 (fun x => Bounded x bal) (solVal p W) :=
  facts.sound (by decide +kernel) (by decide +kernel)

end Gost.Ecp_tc26_512_paramSetC
