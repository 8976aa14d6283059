import Verif.Model.Ecp.CryptoPro_A_32
import Verif.Lemmas.FiatField
import Verif.Model.EcParams

/-!
# The field arithmetic of `/repo/ecp_id_GostR3410_2001_CryptoPro_A_ParamSet.c`, 32 bit version

Certificates, generated by `tools/mkfiat.py`.
-/

namespace Gost.Ecp_CryptoPro_A_32

open Fiat

set_option maxRecDepth 1000000

local notation "p" => ec_CryptoPro_A.p

/-- The weights of the limbs. -/
def W : List Nat := [1, 0x1000000, 0x800000000000, 0x400000000000000000, 0x400000000000000000000000, 0x200000000000000000000000000000, 0x100000000000000000000000000000000000, 0x80000000000000000000000000000000000000000, 0x80000000000000000000000000000000000000000000000, 0x40000000000000000000000000000000000000000000000000000, 0x20000000000000000000000000000000000000000000000000000000000]
/-- Bounds of the limbs of field elements. -/
def bal : List Nat := [0x1fffb2e, 0xfffffe, 0xfffffe, 0x1fffffe, 0xfffffe, 0xfffffe, 0xfffffe, 0x1fffffe, 0xfffffe, 0xfffffe, 0xfffffe]
/-- Bounds of the limbs of products, sums and differences. -/
def tight : List Nat := [0x1000000, 0x800000, 0x800000, 0x1000000, 0x800000, 0x800000, 0x800000, 0x1000000, 0x800000, 0x800000, 0x800000]
/-- Bounds before the carries of sums and differences. -/
def wide : List Nat := [0x3fff65c, 0x1fffffc, 0x1fffffc, 0x3fffffc, 0x1fffffc, 0x1fffffc, 0x1fffffc, 0x3fffffc, 0x1fffffc, 0x1fffffc, 0x1fffffc]
def sb : List Nat := [0xffffff, 0x7fffff, 0x7fffff, 0xffffff, 0x7fffff, 0x7fffff, 0x7fffff, 0xffffff, 0x7fffff, 0x7fffff, 0x7fffff]

def k1 : List Nat :=
  [0x400000000000000000000000000000000000000000000000000000000000000, 0x800000000000000000000000000000000000000000000000000000001,
  0x800000000000000000000000000000000000000000000000002, 0x1000000000000000000000000000000000000000000003,
  0x2000000000000000000000000000000000000004, 0x4000000000000000000000000000000005, 0x4000000000000000000000000006, 0x8000000000000000000007,
  0x10000000000000008, 0x10000000009, 0x80000000000000000000000000000000000000000000000000000000a,
  0x80000000000000000000000000000000000000000000000000b, 0x100000000000000000000000000000000000000000000c,
  0x200000000000000000000000000000000000000d, 0x400000000000000000000000000000000e, 0x400000000000000000000000000f, 0x8000000000000000000010,
  0x10000000000000011, 0x10000000012, 0x800000000000000000000000000000000000000000000000013,
  0x1000000000000000000000000000000000000000000014, 0x2000000000000000000000000000000000000015, 0x4000000000000000000000000000000016,
  0x4000000000000000000000000017, 0x8000000000000000000018, 0x10000000000000019, 0x1000000001a,
  0x100000000000000000000000000000000000000000001b, 0x200000000000000000000000000000000000001c, 0x400000000000000000000000000000001d,
  0x400000000000000000000000001e, 0x800000000000000000001f, 0x10000000000000020, 0x10000000021, 0x2000000000000000000000000000000000000022,
  0x4000000000000000000000000000000023, 0x4000000000000000000000000024, 0x8000000000000000000025, 0x10000000000000026, 0x10000000027,
  0x4000000000000000000000000000000028, 0x4000000000000000000000000029, 0x800000000000000000002a, 0x1000000000000002b, 0x1000000002c,
  0x400000000000000000000000002d, 0x800000000000000000002e, 0x1000000000000002f, 0x10000000030, 0x8000000000000000000031,
  0x10000000000000032, 0x10000000033, 0x10000000000000034, 0x10000000035, 0x10000000036,
  0x200000000000000000000000000000000000000000000000000000000000000000037,
  0x200000000000000000000000000000000000000000000000000000000000000000038, 0x400000000000000000000000000000000000000000000000000000000000039,
  0x20000000000000000000000000000000000000000000000000000000000000000003a, 0x40000000000000000000000000000000000000000000000000000000000003b,
  0x80000000000000000000000000000000000000000000000000000003c, 0x20000000000000000000000000000000000000000000000000000000000000000003d,
  0x40000000000000000000000000000000000000000000000000000000000003e, 0x80000000000000000000000000000000000000000000000000000003f,
  0x800000000000000000000000000000000000000000000000040, 0x200000000000000000000000000000000000000000000000000000000000000000041,
  0x400000000000000000000000000000000000000000000000000000000000042, 0x800000000000000000000000000000000000000000000000000000043,
  0x800000000000000000000000000000000000000000000000044, 0x1000000000000000000000000000000000000000000045,
  0x200000000000000000000000000000000000000000000000000000000000000000046, 0x400000000000000000000000000000000000000000000000000000000000047,
  0x800000000000000000000000000000000000000000000000000000048, 0x800000000000000000000000000000000000000000000000049,
  0x100000000000000000000000000000000000000000004a, 0x200000000000000000000000000000000000004b,
  0x20000000000000000000000000000000000000000000000000000000000000000004c, 0x40000000000000000000000000000000000000000000000000000000000004d,
  0x80000000000000000000000000000000000000000000000000000004e, 0x80000000000000000000000000000000000000000000000004f,
  0x1000000000000000000000000000000000000000000050, 0x2000000000000000000000000000000000000051, 0x4000000000000000000000000000000052,
  0x200000000000000000000000000000000000000000000000000000000000000000053, 0x400000000000000000000000000000000000000000000000000000000000054,
  0x800000000000000000000000000000000000000000000000000000055, 0x800000000000000000000000000000000000000000000000056,
  0x1000000000000000000000000000000000000000000057, 0x2000000000000000000000000000000000000058, 0x4000000000000000000000000000000059,
  0x400000000000000000000000005a, 0x20000000000000000000000000000000000000000000000000000000000000000005b,
  0x40000000000000000000000000000000000000000000000000000000000005c, 0x80000000000000000000000000000000000000000000000000000005d,
  0x80000000000000000000000000000000000000000000000005e, 0x100000000000000000000000000000000000000000005f,
  0x2000000000000000000000000000000000000060, 0x4000000000000000000000000000000061, 0x4000000000000000000000000062, 0x8000000000000000000063,
  0x200000000000000000000000000000000000000000000000000000000000000000064, 0x400000000000000000000000000000000000000000000000000000000000065,
  0x800000000000000000000000000000000000000000000000000000066, 0x800000000000000000000000000000000000000000000000067,
  0x1000000000000000000000000000000000000000000068, 0x2000000000000000000000000000000000000069, 0x400000000000000000000000000000006a,
  0x400000000000000000000000006b, 0x800000000000000000006c, 0x1000000000000006d,
  0x20000000000000000000000000000000000000000000000000000000000000000006e, 0x40000000000000000000000000000000000000000000000000000000000006f,
  0x800000000000000000000000000000000000000000000000000000070, 0x800000000000000000000000000000000000000000000000071,
  0x1000000000000000000000000000000000000000000072, 0x2000000000000000000000000000000000000073, 0x4000000000000000000000000000000074,
  0x4000000000000000000000000075, 0x8000000000000000000076, 0x10000000000000077, 0x10000000078, 0x10000000079, 0x1000000000000007a,
  0x1000000007b, 0x20000000000000000000000000000000000000000000000000000000000000000007c,
  0x40000000000000000000000000000000000000000000000000000000000007d, 0x80000000000000000000000000000000000000000000000000000007e,
  0x80000000000000000000000000000000000000000000000007f, 0x1000000000000000000000000000000000000000000080,
  0x2000000000000000000000000000000000000081, 0x4000000000000000000000000000000082, 0x4000000000000000000000000083, 0x8000000000000000000084,
  0x10000000000000085, 0x10000000000000086, 0x8000000000000000000087, 0x10000000000000088, 0x8000000000000000000089,
  0x400000000000000000000000008a, 0x800000000000000000008b, 0x400000000000000000000000008c, 0x400000000000000000000000000000008d,
  0x400000000000000000000000008e, 0x400000000000000000000000000000008f, 0x2000000000000000000000000000000000000090,
  0x4000000000000000000000000000000091, 0x2000000000000000000000000000000000000092, 0x1000000000000000000000000000000000000000000093,
  0x2000000000000000000000000000000000000094, 0x1000000000000000000000000000000000000000000095,
  0x800000000000000000000000000000000000000000000000096, 0x1000000000000000000000000000000000000000000097,
  0x800000000000000000000000000000000000000000000000098, 0x800000000000000000000000000000000000000000000000000000099,
  0x80000000000000000000000000000000000000000000000009a, 0x80000000000000000000000000000000000000000000000000000009b,
  0x40000000000000000000000000000000000000000000000000000000000009c, 0x80000000000000000000000000000000000000000000000000000009d,
  0x40000000000000000000000000000000000000000000000000000000000009e, 0x20000000000000000000000000000000000000000000000000000000000000000009f,
  0x4000000000000000000000000000000000000000000000000000000000000a0, 0x2000000000000000000000000000000000000000000000000000000000000000000a1,
  0x26900000000a2, 0x2000000000000000000000000000000000000000000000000000000000000000000a3, 0x100000000a4, 0x100000000a5,
  0x100000000000000a6, 0x100000000a7, 0x100000000000000a8, 0x80000000000000000000a9, 0x100000000000000aa, 0x80000000000000000000ab]

theorem c1 : check [] carry_mul bal bal k1 (lin false 1 W (vars carry_mul.out) ++ prodForm true W (argsA bal.length) (argsB bal.length)) p carry_mul.out tight = true := by decide +kernel

def k2 : List Nat :=
  [0x1000000000000000000000000000000000000000000000000002500000, 0x2000000000000000000000000000000000000000000002100000,
  0x2000000000000000000000000000000000000001d00000, 0x4000000000000000000000000000000001900000, 0x8000000000000000000000000001500000,
  0x10000000000000000000001100000, 0x10000000000000000d00000, 0x20000000000900000, 0x40000500000,
  0x400000000000000000000000000000000000000000000000000000002900000, 0x800000000000000000000000000000000000000000000000002500001,
  0x1000000000000000000000000000000000000000000002100001, 0x1000000000000000000000000000000000000001d00001,
  0x2000000000000000000000000000000001900001, 0x4000000000000000000000000001500001, 0x8000000000000000000001100001, 0x8000000000000000d00001,
  0x10000000000900001, 0x20000500001, 0x200000000000000000000000000000000000000000000000000000000000000100002,
  0x4000000000000000000000000000000000000002100003, 0x4000000000000000000000000000000001d00003, 0x8000000000000000000000000001900003,
  0x10000000000000000000001500003, 0x20000000000000001100003, 0x20000000000d00003, 0x40000900003,
  0x1000000000000000000000000000000000000000000002500003, 0x2000000000000000000000000000000000000002100004,
  0x2000000000000000000000000000000001d00004, 0x4000000000000000000000000001900004, 0x8000000000000000000001500004,
  0x10000000000000001100004, 0x10000000000d00004, 0x20000900004, 0x400000000000000000000000000000000000000000000000000000000000000500005,
  0x400000000000000000000000000000000000000000000000000000000100005, 0x8000000000000000000000000001d00006, 0x10000000000000000000001900006,
  0x20000000000000001500006, 0x40000000001100006, 0x40000d00006, 0x4000000000000000000000000000000002100006,
  0x4000000000000000000000000001d00007, 0x8000000000000000000001900007, 0x10000000000000001500007, 0x20000000001100007, 0x20000d00007,
  0x400000000000000000000000000000000000000000000000000000000000000900008, 0x800000000000000000000000000000000000000000000000000000000500008,
  0x800000000000000000000000000000000000000000000000000100008, 0x10000000000000001900009, 0x20000000001500009, 0x40001100009,
  0x4000000000000000000001d00009, 0x800000000000000190000a, 0x1000000000150000a, 0x2000110000a,
  0x200000000000000000000000000000000000000000000000000000000000000d0000b, 0x40000000000000000000000000000000000000000000000000000000090000b,
  0x80000000000000000000000000000000000000000000000000050000b, 0x80000000000000000000000000000000000000000000010000b, 0x4000150000c,
  0x1000000000190000c, 0x2000150000d, 0x40000000000000000000000000000000000000000000000000000000000000110000e,
  0x400000000000000000000000000000000000000000000000000000000d0000e, 0x80000000000000000000000000000000000000000000000000090000e,
  0x100000000000000000000000000000000000000000000050000e, 0x100000000000000000000000000000000000000010000e,
  0x80000000000000000000000000000000000000000000000000000000110000f, 0x800000000000000000000000000000000000000000000000000d0000f,
  0x100000000000000000000000000000000000000000000090000f, 0x200000000000000000000000000000000000000050000f,
  0x200000000000000000000000000000000010000f, 0x1000000000000000000000000000000000000000000000d00010,
  0x2000000000000000000000000000000000000000900010, 0x4000000000000000000000000000000000500010, 0x4000000000000000000000000000100010,
  0x2000000000000000000000000000000000900011, 0x4000000000000000000000000000500011, 0x4000000000000000000000100011,
  0x8000000000000000000000500012, 0x8000000000000000100012, 0x10000000000100013,
  0x400000000000000000000000000000000000000000000000000000000000014, 0x800000000000000000000000000000000000000000000000000000015,
  0x800000000000000000000000000000000000000000000000016, 0x800000000000000000000000000000000000000000000000017,
  0x1000000000000000000000000000000000000000000018, 0x2000000000000000000000000000000000000019,
  0x100000000000000000000000000000000000000000001a, 0x200000000000000000000000000000000000001b, 0x400000000000000000000000000000001c,
  0x400000000000000000000000001d, 0x200000000000000000000000000000000000001e, 0x400000000000000000000000000000001f,
  0x4000000000000000000000000020, 0x8000000000000000000021, 0x10000000000000022, 0x4000000000000000000000000000000023,
  0x4000000000000000000000000024, 0x8000000000000000000025, 0x10000000000000026, 0x10000000027,
  0x200000000000000000000000000000000000000000000000000000000000000000028, 0x4000000000000000000000000029, 0x800000000000000000002a,
  0x1000000000000002b, 0x1000000002c, 0x20000000000000000000000000000000000000000000000000000000000000000002d,
  0x40000000000000000000000000000000000000000000000000000000000002e, 0x80000000000000000000000000000000000000000000000000000002f,
  0x8000000000000000000030, 0x10000000000000031, 0x10000000032, 0x200000000000000000000000000000000000000000000000000000000000000000033,
  0x400000000000000000000000000000000000000000000000000000000000034, 0x800000000000000000000000000000000000000000000000000000035,
  0x800000000000000000000000000000000000000000000000036, 0x1000000000000000000000000000000000000000000037, 0x10000000000000038,
  0x10000000039, 0x20000000000000000000000000000000000000000000000000000000000000000003a,
  0x40000000000000000000000000000000000000000000000000000000000003b, 0x80000000000000000000000000000000000000000000000000000003c,
  0x80000000000000000000000000000000000000000000000003d, 0x100000000000000000000000000000000000000000003e,
  0x200000000000000000000000000000000000003f, 0x4000000000000000000000000000000040, 0x10000000041,
  0x200000000000000000000000000000000000000000000000000000000000000000042, 0x400000000000000000000000000000000000000000000000000000000000043,
  0x800000000000000000000000000000000000000000000000000000044, 0x800000000000000000000000000000000000000000000000045,
  0x1000000000000000000000000000000000000000000046, 0x2000000000000000000000000000000000000047, 0x4000000000000000000000000000000048,
  0x4000000000000000000000000049, 0x800000000000000000004a, 0x20000000000000000000000000000000000000000000000000000000000000000004b,
  0x40000000000000000000000000000000000000000000000000000000000004c, 0x80000000000000000000000000000000000000000000000000000004d,
  0x80000000000000000000000000000000000000000000000004e, 0x100000000000000000000000000000000000000000004f,
  0x2000000000000000000000000000000000000050, 0x4000000000000000000000000000000051, 0x4000000000000000000000000052, 0x8000000000000000000053,
  0x10000000000000054, 0x10000000055, 0x10000000056, 0x10000000000000057, 0x10000000058,
  0x200000000000000000000000000000000000000000000000000000000000000000059, 0x40000000000000000000000000000000000000000000000000000000000005a,
  0x80000000000000000000000000000000000000000000000000000005b, 0x80000000000000000000000000000000000000000000000005c,
  0x100000000000000000000000000000000000000000005d, 0x200000000000000000000000000000000000005e, 0x400000000000000000000000000000005f,
  0x4000000000000000000000000060, 0x8000000000000000000061, 0x10000000000000062, 0x10000000000000063, 0x8000000000000000000064,
  0x10000000000000065, 0x8000000000000000000066, 0x4000000000000000000000000067, 0x8000000000000000000068, 0x4000000000000000000000000069,
  0x400000000000000000000000000000006a, 0x400000000000000000000000006b, 0x400000000000000000000000000000006c,
  0x200000000000000000000000000000000000006d, 0x400000000000000000000000000000006e, 0x200000000000000000000000000000000000006f,
  0x1000000000000000000000000000000000000000000070, 0x2000000000000000000000000000000000000071,
  0x1000000000000000000000000000000000000000000072, 0x800000000000000000000000000000000000000000000000073,
  0x1000000000000000000000000000000000000000000074, 0x800000000000000000000000000000000000000000000000075,
  0x800000000000000000000000000000000000000000000000000000076, 0x800000000000000000000000000000000000000000000000077,
  0x800000000000000000000000000000000000000000000000000000078, 0x400000000000000000000000000000000000000000000000000000000000079,
  0x80000000000000000000000000000000000000000000000000000007a, 0x40000000000000000000000000000000000000000000000000000000000007b,
  0x20000000000000000000000000000000000000000000000000000000000000000007c, 0x40000000000000000000000000000000000000000000000000000000000007d,
  0x20000000000000000000000000000000000000000000000000000000000000000007e, 0x269000000007f,
  0x200000000000000000000000000000000000000000000000000000000000000000080, 0x10000000081, 0x10000000082, 0x10000000000000083, 0x10000000084,
  0x10000000000000085, 0x8000000000000000000086, 0x10000000000000087, 0x8000000000000000000088]

theorem c2 : check [] carry_square bal [] k2 (lin false 1 W (vars carry_square.out) ++ prodForm true W (argsA bal.length) (argsA bal.length)) p carry_square.out tight = true := by decide +kernel

def k3 : List Nat :=
  [0x10000000000, 0x10000000000000001, 0x8000000000000000000002, 0x4000000000000000000000000003, 0x4000000000000000000000000000000004,
  0x2000000000000000000000000000000000000005, 0x1000000000000000000000000000000000000000000006,
  0x800000000000000000000000000000000000000000000000007, 0x800000000000000000000000000000000000000000000000000000008,
  0x400000000000000000000000000000000000000000000000000000000000009, 0x20000000000000000000000000000000000000000000000000000000000000000000a,
  0x1000000000b, 0x1000000000000000c, 0x1000000000d, 0x1000000000000000e, 0x800000000000000000000f, 0x4000000000000000000000000010,
  0x4000000000000000000000000000000011, 0x2000000000000000000000000000000000000012, 0x1000000000000000000000000000000000000000000013,
  0x800000000000000000000000000000000000000000000000014, 0x800000000000000000000000000000000000000000000000000000015,
  0x400000000000000000000000000000000000000000000000000000000000016, 0x200000000000000000000000000000000000000000000000000000000000000000017]

theorem c3 : check [] carry wide [] k3 (lin false 1 W (vars carry.out) ++ lin true 1 W (argsA wide.length)) p carry.out tight = true := by decide +kernel

def k4 : List Nat :=
  [0x10000000000, 0x10000000000000001, 0x8000000000000000000002, 0x4000000000000000000000000003, 0x4000000000000000000000000000000004,
  0x2000000000000000000000000000000000000005, 0x1000000000000000000000000000000000000000000006,
  0x800000000000000000000000000000000000000000000000007, 0x800000000000000000000000000000000000000000000000000000008,
  0x400000000000000000000000000000000000000000000000000000000000009, 0x20000000000000000000000000000000000000000000000000000000000000000000a]

theorem c4 : check [] add bal bal k4 (lin false 1 W (vars add.out) ++ (lin true 1 W (argsA bal.length) ++ lin true 1 W (argsB bal.length))) p add.out wide = true := by decide +kernel

def k5 : List Nat :=
  [0x10000000000, 0x10000000000000001, 0x8000000000000000000002, 0x4000000000000000000000000003, 0x4000000000000000000000000000000004,
  0x2000000000000000000000000000000000000005, 0x1000000000000000000000000000000000000000000006,
  0x800000000000000000000000000000000000000000000000007, 0x800000000000000000000000000000000000000000000000000000008,
  0x400000000000000000000000000000000000000000000000000000000000009, 0x20000000000000000000000000000000000000000000000000000000000000000000a]

theorem c5 : check [] sub bal bal k5 (lin false 1 W (vars sub.out) ++ (lin true 1 W (argsA bal.length) ++ lin false 1 W (argsB bal.length))) p sub.out wide = true := by decide +kernel

def k6 : List Nat :=
  [0x10000000000, 0x10000000000000001, 0x8000000000000000000002, 0x4000000000000000000000000003, 0x4000000000000000000000000000000004,
  0x2000000000000000000000000000000000000005, 0x1000000000000000000000000000000000000000000006,
  0x800000000000000000000000000000000000000000000000007, 0x800000000000000000000000000000000000000000000000000000008,
  0x400000000000000000000000000000000000000000000000000000000000009, 0x20000000000000000000000000000000000000000000000000000000000000000000a]

theorem c6 : check [] opp bal [] k6 (lin false 1 W (vars opp.out) ++ lin false 1 W (argsA bal.length)) p opp.out bal = true := by decide +kernel

def k7 : List Nat :=
  [0x200000000000000000000000000000000000000000000000000000000000000000000,
  0x200000000000000000000000000000000000000000000000000000000000000000001, 0x400000000000000000000000000000000000000000000000000000000000002,
  0x400000000000000000000000000000000000000000000000000000000000003, 0x400000000000000000000000000000000000000000000000000000000000004,
  0x800000000000000000000000000000000000000000000000000000005, 0x800000000000000000000000000000000000000000000000000000006,
  0x800000000000000000000000000000000000000000000000000000007, 0x800000000000000000000000000000000000000000000000008,
  0x800000000000000000000000000000000000000000000000009, 0x80000000000000000000000000000000000000000000000000a,
  0x100000000000000000000000000000000000000000000b, 0x100000000000000000000000000000000000000000000c,
  0x100000000000000000000000000000000000000000000d, 0x200000000000000000000000000000000000000e, 0x200000000000000000000000000000000000000f,
  0x2000000000000000000000000000000000000010, 0x4000000000000000000000000000000011, 0x4000000000000000000000000000000012,
  0x4000000000000000000000000000000013, 0x4000000000000000000000000014, 0x4000000000000000000000000015, 0x4000000000000000000000000016,
  0x8000000000000000000017, 0x8000000000000000000018, 0x8000000000000000000019, 0x1000000000000001a, 0x1000000000000001b,
  0x1000000000000001c, 0x1000000001d, 0x1000000001e, 0x1000000001f, 0x10000000020, 0x10000000021, 0x10000000000000022, 0x10000000000000023,
  0x10000000000000024, 0x8000000000000000000025, 0x8000000000000000000026, 0x8000000000000000000027, 0x8000000000000000000028,
  0x8000000000000000000029, 0x400000000000000000000000002a, 0x400000000000000000000000002b, 0x400000000000000000000000002c,
  0x400000000000000000000000002d, 0x400000000000000000000000002e, 0x400000000000000000000000000000002f, 0x4000000000000000000000000000000030,
  0x4000000000000000000000000000000031, 0x4000000000000000000000000000000032, 0x4000000000000000000000000000000033,
  0x2000000000000000000000000000000000000034, 0x2000000000000000000000000000000000000035, 0x2000000000000000000000000000000000000036,
  0x2000000000000000000000000000000000000037, 0x2000000000000000000000000000000000000038, 0x1000000000000000000000000000000000000000000039,
  0x100000000000000000000000000000000000000000003a, 0x100000000000000000000000000000000000000000003b,
  0x100000000000000000000000000000000000000000003c, 0x100000000000000000000000000000000000000000003d,
  0x80000000000000000000000000000000000000000000000003e, 0x80000000000000000000000000000000000000000000000003f,
  0x800000000000000000000000000000000000000000000000040, 0x800000000000000000000000000000000000000000000000041,
  0x800000000000000000000000000000000000000000000000042, 0x800000000000000000000000000000000000000000000000000000043,
  0x800000000000000000000000000000000000000000000000000000044, 0x800000000000000000000000000000000000000000000000000000045,
  0x800000000000000000000000000000000000000000000000000000046, 0x800000000000000000000000000000000000000000000000000000047,
  0x400000000000000000000000000000000000000000000000000000000000048, 0x400000000000000000000000000000000000000000000000000000000000049,
  0x40000000000000000000000000000000000000000000000000000000000004a, 0x40000000000000000000000000000000000000000000000000000000000004b,
  0x40000000000000000000000000000000000000000000000000000000000004c, 0x20000000000000000000000000000000000000000000000000000000000000000004d,
  0x20000000000000000000000000000000000000000000000000000000000000000004e,
  0x20000000000000000000000000000000000000000000000000000000000000000004f]

theorem c7 : check [] from_bytes (List.replicate 32 255) [] k7 (lin false 1 W (vars from_bytes.out) ++ lin true 1 (byteW 32) (argsA (List.replicate 32 255).length)) 0 from_bytes.out tight = true := by decide +kernel

def kb : CondCert where
  ts := argsA 11
  ss := [1, 3, 5, 7, 9, 11, 13, 15, 17, 19, 21]
  bf := 22
  chain := [0x10000000000, 0x10000000000000001, 0x8000000000000000000002, 0x4000000000000000000000000003, 0x4000000000000000000000000000000004,
  0x2000000000000000000000000000000000000005, 0x1000000000000000000000000000000000000000000006,
  0x800000000000000000000000000000000000000000000000007, 0x800000000000000000000000000000000000000000000000000000008,
  0x400000000000000000000000000000000000000000000000000000000000009, 0x20000000000000000000000000000000000000000000000000000000000000000000a]
  c0 := [0x10000000000, 0x10000000000000001, 0x8000000000000000000002, 0x4000000000000000000000000003, 0x4000000000000000000000000000000004,
  0x2000000000000000000000000000000000000005, 0x1000000000000000000000000000000000000000000006,
  0x800000000000000000000000000000000000000000000000007, 0x800000000000000000000000000000000000000000000000000000008,
  0x400000000000000000000000000000000000000000000000000000000000009, 0x20000000000000000000000000000000000000000000000000000000000000000000a,
  0x1000000000c, 0x1000000000000000d, 0x800000000000000000000e, 0x400000000000000000000000000f, 0x4000000000000000000000000000000010,
  0x2000000000000000000000000000000000000011, 0x1000000000000000000000000000000000000000000012,
  0x800000000000000000000000000000000000000000000000013, 0x800000000000000000000000000000000000000000000000000000014,
  0x400000000000000000000000000000000000000000000000000000000000015, 0x200000000000000000000000000000000000000000000000000000000000000000016,
  0x100000000000000000000000000000000000000000000000000000000000000000017, 0x100000000000000000000000000000000000000000000000000000000000018,
  0x100000000000000000000000000000000000000000000000000000019, 0x10000000000000000000000000000000000000000000000001a,
  0x10000000000000000000000000000000000000000001b, 0x10000000000000000000000000000000000001c, 0x10000000000000000000000000000001d,
  0x10000000000000000000000001e, 0x10000000000000000001f, 0x10000000020, 0x1000000000021, 0x1000000000022, 0x100000000000023,
  0x10000000000000024, 0x1000000000000000025, 0x1000000000000000026, 0x100000000000000000027, 0x100000000000000000028,
  0x100000000000000000029, 0x1000000000000000000002a, 0x1000000000000000000002b, 0x100000000000000000000002c, 0x100000000000000000000002d,
  0x10000000000000000000000002e, 0x10000000000000000000000002f, 0x100000000000000000000000030, 0x10000000000000000000000000031,
  0x10000000000000000000000000032, 0x1000000000000000000000000000033, 0x1000000000000000000000000000034, 0x100000000000000000000000000000035,
  0x100000000000000000000000000000036, 0x100000000000000000000000000000037, 0x10000000000000000000000000000000038,
  0x10000000000000000000000000000000039, 0x100000000000000000000000000000000003a, 0x100000000000000000000000000000000003b,
  0x10000000000000000000000000000000000003c, 0x10000000000000000000000000000000000003d, 0x10000000000000000000000000000000000003e,
  0x1000000000000000000000000000000000000003f, 0x10000000000000000000000000000000000000040, 0x1000000000000000000000000000000000000000041,
  0x1000000000000000000000000000000000000000042, 0x100000000000000000000000000000000000000000043,
  0x100000000000000000000000000000000000000000044, 0x100000000000000000000000000000000000000000045,
  0x10000000000000000000000000000000000000000000046, 0x10000000000000000000000000000000000000000000047,
  0x1000000000000000000000000000000000000000000000048, 0x1000000000000000000000000000000000000000000000049,
  0x10000000000000000000000000000000000000000000000004a, 0x10000000000000000000000000000000000000000000000004b,
  0x10000000000000000000000000000000000000000000000004c, 0x1000000000000000000000000000000000000000000000000004d,
  0x1000000000000000000000000000000000000000000000000004e, 0x100000000000000000000000000000000000000000000000000004f,
  0x1000000000000000000000000000000000000000000000000000050, 0x100000000000000000000000000000000000000000000000000000051,
  0x100000000000000000000000000000000000000000000000000000052, 0x100000000000000000000000000000000000000000000000000000053,
  0x10000000000000000000000000000000000000000000000000000000054, 0x10000000000000000000000000000000000000000000000000000000055,
  0x1000000000000000000000000000000000000000000000000000000000056, 0x1000000000000000000000000000000000000000000000000000000000057,
  0x100000000000000000000000000000000000000000000000000000000000058, 0x100000000000000000000000000000000000000000000000000000000000059,
  0x10000000000000000000000000000000000000000000000000000000000005a, 0x1000000000000000000000000000000000000000000000000000000000000005b,
  0x1000000000000000000000000000000000000000000000000000000000000005c, 0x100000000000000000000000000000000000000000000000000000000000000005d,
  0x100000000000000000000000000000000000000000000000000000000000000005e,
  0x10000000000000000000000000000000000000000000000000000000000000000005f,
  0x100000000000000000000000000000000000000000000000000000000000000000060,
  0x100000000000000000000000000000000000000000000000000000000000000000061,
  0x10000000000000000000000000000000000000000000000000000000000000000000062,
  0x10000000000000000000000000000000000000000000000000000000000000000000063,
  0x1000000000000000000000000000000000000000000000000000000000000000000000064]
  c1 := [0x10000000000, 0x10000000000000001, 0x8000000000000000000002, 0x4000000000000000000000000003, 0x4000000000000000000000000000000004,
  0x2000000000000000000000000000000000000005, 0x1000000000000000000000000000000000000000000006,
  0x800000000000000000000000000000000000000000000000007, 0x800000000000000000000000000000000000000000000000000000008,
  0x400000000000000000000000000000000000000000000000000000000000009, 0x20000000000000000000000000000000000000000000000000000000000000000000a,
  0x1000000000c, 0x1000000000000000d, 0x800000000000000000000e, 0x400000000000000000000000000f, 0x4000000000000000000000000000000010,
  0x2000000000000000000000000000000000000011, 0x1000000000000000000000000000000000000000000012,
  0x800000000000000000000000000000000000000000000000013, 0x800000000000000000000000000000000000000000000000000000014,
  0x400000000000000000000000000000000000000000000000000000000000015, 0x200000000000000000000000000000000000000000000000000000000000000000016,
  0x100000000000000000000000000000000000000000000000000000000000000000017, 0x100000000000000000000000000000000000000000000000000000000000018,
  0x100000000000000000000000000000000000000000000000000000019, 0x10000000000000000000000000000000000000000000000001a,
  0x10000000000000000000000000000000000000000001b, 0x10000000000000000000000000000000000001c, 0x10000000000000000000000000000001d,
  0x10000000000000000000000001e, 0x10000000000000000001f, 0x10000000020, 0x1000000000021, 0x1000000000022, 0x100000000000023,
  0x10000000000000024, 0x1000000000000000025, 0x1000000000000000026, 0x100000000000000000027, 0x100000000000000000028,
  0x100000000000000000029, 0x1000000000000000000002a, 0x1000000000000000000002b, 0x100000000000000000000002c, 0x100000000000000000000002d,
  0x10000000000000000000000002e, 0x10000000000000000000000002f, 0x100000000000000000000000030, 0x10000000000000000000000000031,
  0x10000000000000000000000000032, 0x1000000000000000000000000000033, 0x1000000000000000000000000000034, 0x100000000000000000000000000000035,
  0x100000000000000000000000000000036, 0x100000000000000000000000000000037, 0x10000000000000000000000000000000038,
  0x10000000000000000000000000000000039, 0x100000000000000000000000000000000003a, 0x100000000000000000000000000000000003b,
  0x10000000000000000000000000000000000003c, 0x10000000000000000000000000000000000003d, 0x10000000000000000000000000000000000003e,
  0x1000000000000000000000000000000000000003f, 0x10000000000000000000000000000000000000040, 0x1000000000000000000000000000000000000000041,
  0x1000000000000000000000000000000000000000042, 0x100000000000000000000000000000000000000000043,
  0x100000000000000000000000000000000000000000044, 0x100000000000000000000000000000000000000000045,
  0x10000000000000000000000000000000000000000000046, 0x10000000000000000000000000000000000000000000047,
  0x1000000000000000000000000000000000000000000000048, 0x1000000000000000000000000000000000000000000000049,
  0x10000000000000000000000000000000000000000000000004a, 0x10000000000000000000000000000000000000000000000004b,
  0x10000000000000000000000000000000000000000000000004c, 0x1000000000000000000000000000000000000000000000000004d,
  0x1000000000000000000000000000000000000000000000000004e, 0x100000000000000000000000000000000000000000000000000004f,
  0x1000000000000000000000000000000000000000000000000000050, 0x100000000000000000000000000000000000000000000000000000051,
  0x100000000000000000000000000000000000000000000000000000052, 0x100000000000000000000000000000000000000000000000000000053,
  0x10000000000000000000000000000000000000000000000000000000054, 0x10000000000000000000000000000000000000000000000000000000055,
  0x1000000000000000000000000000000000000000000000000000000000056, 0x1000000000000000000000000000000000000000000000000000000000057,
  0x100000000000000000000000000000000000000000000000000000000000058, 0x100000000000000000000000000000000000000000000000000000000000059,
  0x10000000000000000000000000000000000000000000000000000000000005a, 0x1000000000000000000000000000000000000000000000000000000000000005b,
  0x1000000000000000000000000000000000000000000000000000000000000005c, 0x100000000000000000000000000000000000000000000000000000000000000005d,
  0x100000000000000000000000000000000000000000000000000000000000000005e,
  0x10000000000000000000000000000000000000000000000000000000000000000005f,
  0x100000000000000000000000000000000000000000000000000000000000000000060,
  0x100000000000000000000000000000000000000000000000000000000000000000061,
  0x10000000000000000000000000000000000000000000000000000000000000000000062,
  0x10000000000000000000000000000000000000000000000000000000000000000000063,
  0x1000000000000000000000000000000000000000000000000000000000000000000000064]

theorem c8 : condChecks [] to_bytes tight [] kb W sb (byteW 32) (List.replicate 32 255) p (256 ^ 32) (256 ^ 32) = true := by decide +kernel

theorem facts : SolFacts file p 32 W bal tight :=
  SolFacts.of_checks (wide := wide) (sb := sb) (K := kb) c1 c2 c3 c4 c5 c6 c7 c8 rfl rfl (by decide +kernel) (by decide +kernel) (by decide +kernel)
    (by decide +kernel) (by decide +kernel) (by decide +kernel) (by decide +kernel) (by decide +kernel) (by decide +kernel)

/-- The field operations of the file, on limbs within `bal`, are those modulo `p`. -/
theorem field_sound [Fact (Nat.Prime p)] : file.ops.Sound p 32 (fun x => Bounded x bal) (solVal p W) :=
  facts.sound (by decide +kernel) (by decide +kernel)

end Gost.Ecp_CryptoPro_A_32
