import Verif.Model.Ecp.Test_32
import Verif.Lemmas.FiatField
import Verif.Model.EcParams

/-!
# The field arithmetic of `/repo/ecp_id_GostR3410_2001_TestParamSet.c`, 32 bit version

Certificates, generated by `tools/mkfiat.py`.
-/

namespace Gost.Ecp_Test_32

open Fiat

set_option maxRecDepth 1000000

local notation "p" => ec_Test.p

/-- The weights of the limbs. -/
def W : List Nat := [1, 0x100000000, 0x10000000000000000, 0x1000000000000000000000000, 0x100000000000000000000000000000000, 0x10000000000000000000000000000000000000000, 0x1000000000000000000000000000000000000000000000000, 0x100000000000000000000000000000000000000000000000000000000]
def W1 : List Nat := [1, 0x100000000, 0x10000000000000000, 0x1000000000000000000000000, 0x100000000000000000000000000000000, 0x10000000000000000000000000000000000000000, 0x1000000000000000000000000000000000000000000000000, 0x100000000000000000000000000000000000000000000000000000000, 0x10000000000000000000000000000000000000000000000000000000000000000]
def full : List Nat := [0xffffffff, 0xffffffff, 0xffffffff, 0xffffffff, 0xffffffff, 0xffffffff, 0xffffffff, 0xffffffff]
def full1 : List Nat := [0xffffffff, 0xffffffff, 0xffffffff, 0xffffffff, 0xffffffff, 0xffffffff, 0xffffffff, 0xffffffff, 0xffffffff]
def R : Nat := 115792089237316195423570985008687907853269984665640564039457584007913129639936
def R2 : Nat := 4605316

def k1 : RedCert where
  zs := [46, 0x77, 0xc1, 0x10b, 0x155, 0x19f, 0x1e9, 0x233]
  zc := [[0x4310000000018, 0x1000000001a, 0x1000000001b],
    [0x431000000003d, 0x1000000003f, 0x10000000040],
    [0x4310000000063, 0x10000000065, 0x10000000066],
    [0x4310000000089, 0x1000000008b, 0x1000000008c],
    [0x43100000000af, 0x100000000b1, 0x100000000b2],
    [0x43100000000d5, 0x100000000d7, 0x100000000d8],
    [0x43100000000fb, 0x100000000fd, 0x100000000fe],
    [0x4310000000121, 0x10000000123, 0x10000000124]]
  qs := [40, 0x71, 0xbb, 0x105, 0x14f, 0x199, 0x1e3, 0x22d]
  main := [0x100000000000000000000000000000000000000000000000000000000000000000001e00000,
  0x1000000000000000000000000000000000000000000000000000000000001a00000, 0x10000000000000000000000000000000000000000000000000001600000,
  0x100000000000000000000000000000000000000000001200000, 0x1000000000000000000000000000000000000e00000,
  0x10000000000000000000000000000a00000, 0x100000000000000000000600000, 0x1000000000000200000,
  0x10000000000000000000000000000000000000000000000000000000000000000000000000001e00001,
  0x100000000000000000000000000000000000000000000000000000000000000000001a00001,
  0x1000000000000000000000000000000000000000000000000000000000001600001, 0x10000000000000000000000000000000000000000000000000001200001,
  0x100000000000000000000000000000000000000000000e00001, 0x1000000000000000000000000000000000000a00001,
  0x10000000000000000000000000000600001, 0x100000000000000000000200001,
  0x1000000000000000000000000000000000000000000000000000000000000000000000000000000000001e00002,
  0x10000000000000000000000000000000000000000000000000000000000000000000000000001a00002,
  0x100000000000000000000000000000000000000000000000000000000000000000001600002,
  0x1000000000000000000000000000000000000000000000000000000000001200002, 0x10000000000000000000000000000000000000000000000000000e00002,
  0x100000000000000000000000000000000000000000000a00002, 0x1000000000000000000000000000000000000600002,
  0x10000000000000000000000000000200002,
  0x100000000000000000000000000000000000000000000000000000000000000000000000000000000000000000001e00003,
  0x1000000000000000000000000000000000000000000000000000000000000000000000000000000000001a00003,
  0x10000000000000000000000000000000000000000000000000000000000000000000000000001600003,
  0x100000000000000000000000000000000000000000000000000000000000000000001200003,
  0x1000000000000000000000000000000000000000000000000000000000000e00003, 0x10000000000000000000000000000000000000000000000000000a00003,
  0x100000000000000000000000000000000000000000000600003, 0x1000000000000000000000000000000000000200003,
  0x10000000000000000000000000000000000000000000000000000000000000000000000000000000000000000000000000001e00004,
  0x100000000000000000000000000000000000000000000000000000000000000000000000000000000000000000001a00004,
  0x1000000000000000000000000000000000000000000000000000000000000000000000000000000000001600004,
  0x10000000000000000000000000000000000000000000000000000000000000000000000000001200004,
  0x100000000000000000000000000000000000000000000000000000000000000000000e00004,
  0x1000000000000000000000000000000000000000000000000000000000000a00004, 0x10000000000000000000000000000000000000000000000000000600004,
  0x100000000000000000000000000000000000000000000200004,
  0x1000000000000000000000000000000000000000000000000000000000000000000000000000000000000000000000000000000000001e00005,
  0x10000000000000000000000000000000000000000000000000000000000000000000000000000000000000000000000000001a00005,
  0x100000000000000000000000000000000000000000000000000000000000000000000000000000000000000000001600005,
  0x1000000000000000000000000000000000000000000000000000000000000000000000000000000000001200005,
  0x10000000000000000000000000000000000000000000000000000000000000000000000000000e00005,
  0x100000000000000000000000000000000000000000000000000000000000000000000a00005,
  0x1000000000000000000000000000000000000000000000000000000000000600005, 0x10000000000000000000000000000000000000000000000000000200005,
  0x100000000000000000000000000000000000000000000000000000000000000000000000000000000000000000000000000000000000000000001e00006,
  0x1000000000000000000000000000000000000000000000000000000000000000000000000000000000000000000000000000000000001a00006,
  0x10000000000000000000000000000000000000000000000000000000000000000000000000000000000000000000000000001600006,
  0x100000000000000000000000000000000000000000000000000000000000000000000000000000000000000000001200006,
  0x1000000000000000000000000000000000000000000000000000000000000000000000000000000000000e00006,
  0x10000000000000000000000000000000000000000000000000000000000000000000000000000a00006,
  0x100000000000000000000000000000000000000000000000000000000000000000000600006,
  0x1000000000000000000000000000000000000000000000000000000000000200006,
  0x1000000000000000000000000000000000000000000000000000000000001e00007, 0x10000000000000000000000000000000000000000000000000001a00007,
  0x100000000000000000000000000000000000000000001600007, 0x1000000000000000000000000000000000001200007,
  0x10000000000000000000000000000e00007, 0x100000000000000000000a00007, 0x1000000000000600007, 0x10000200007,
  0x1000000000000000000000000000000000000000000000000000000000000000008, 0x10000000000000000000000000000000000000000000000000000000009,
  0x10000000000000000000000000000000000000000000000000a, 0x100000000000000000000000000000000000000000b,
  0x1000000000000000000000000000000000c, 0x10000000000000000000000000d, 0x100000000000000000e, 0x1000000000f, 0x1000000000000000010,
  0x100000000000000000000000011, 0x10000000000000000000000000000000012, 0x1000000000000000000000000000000000000000013,
  0x100000000000000000000000000000000000000000000000014, 0x10000000000000000000000000000000000000000000000000000000015,
  0x1000000000000000000000000000000000000000000000000000000000000000016,
  0x100000000000000000000000000000000000000000000000000000000000000000000000017,
  0x1000000000000000000000000000000000000000000000000000000000000000019, 0x1000000001a, 0x1000005001b, 0x1000000001b, 0x100000000000000001c,
  0x10000000000000000000000001d, 0x1000000000000000000000000000000001e, 0x100000000000000000000000000000000000000001f,
  0x100000000000000000000000000000000000000000000000020, 0x10000000000000000000000000000000000000000000000000000000021,
  0x1000000000000000000000000000000000000000000000000000000000000000022,
  0x100000000000000000000000000000000000000000000000000000000000000000000000023,
  0x100000000000000000000000000000000000000000000000000000000000000000000000024,
  0x1000000000000000000000000000000000000000000000000000000000000000025, 0x10000000000000000000000000000000000000000000000000000000026,
  0x100000000000000000000000000000000000000000000000027, 0x1000000000000000000000000000000000000000028,
  0x10000000000000000000000000000000029, 0x10000000000000000000000002a, 0x100000000000000002b, 0x10000000000000000000000002c,
  0x1000000000000000000000000000000002d, 0x100000000000000000000000000000000000000002e,
  0x10000000000000000000000000000000000000000000000002f, 0x10000000000000000000000000000000000000000000000000000000030,
  0x1000000000000000000000000000000000000000000000000000000000000000031,
  0x100000000000000000000000000000000000000000000000000000000000000000000000032,
  0x10000000000000000000000000000000000000000000000000000000000000000000000000000000033, 0x1000000000000000034,
  0x100000000000000000000000035, 0x10000000000000000000000000000000036, 0x1000000000000000000000000000000000000000037,
  0x100000000000000000000000000000000000000000000000038, 0x10000000000000000000000000000000000000000000000000000000039,
  0x100000000000000000000000000000000000000000000000000000000000000003a,
  0x10000000000000000000000000000000000000000000000000000000000000000000000003b,
  0x1000000000000000000000000000000000000000000000000000000000000000000000000000000003c,
  0x10000000000000000000000000000000000000000000000000000000000000000000000003e, 0x100000000000000003f, 0x1000000000000050040,
  0x1000000000000000040, 0x100000000000000000000000041, 0x10000000000000000000000000000000042, 0x1000000000000000000000000000000000000000043,
  0x100000000000000000000000000000000000000000000000044, 0x10000000000000000000000000000000000000000000000000000000045,
  0x1000000000000000000000000000000000000000000000000000000000000000046,
  0x100000000000000000000000000000000000000000000000000000000000000000000000047,
  0x10000000000000000000000000000000000000000000000000000000000000000000000000000000048,
  0x1000000000000000000000000000000000000000000000000000000000000000000000000000000000000000049,
  0x1000000000000000000000000000000000000000000000000000000000000000000000000000000004a,
  0x10000000000000000000000000000000000000000000000000000000000000000000000004b,
  0x100000000000000000000000000000000000000000000000000000000000000004c, 0x1000000000000000000000000000000000000000000000000000000004d,
  0x10000000000000000000000000000000000000000000000004e, 0x100000000000000000000000000000000000000004f,
  0x10000000000000000000000000000000050, 0x100000000000000000000000051, 0x10000000000000000000000000000000052,
  0x1000000000000000000000000000000000000000053, 0x100000000000000000000000000000000000000000000000054,
  0x10000000000000000000000000000000000000000000000000000000055, 0x1000000000000000000000000000000000000000000000000000000000000000056,
  0x100000000000000000000000000000000000000000000000000000000000000000000000057,
  0x10000000000000000000000000000000000000000000000000000000000000000000000000000000058,
  0x1000000000000000000000000000000000000000000000000000000000000000000000000000000000000000059, 0x10000000000000000000000005a,
  0x1000000000000000000000000000000005b, 0x100000000000000000000000000000000000000005c,
  0x10000000000000000000000000000000000000000000000005d, 0x1000000000000000000000000000000000000000000000000000000005e,
  0x100000000000000000000000000000000000000000000000000000000000000005f,
  0x100000000000000000000000000000000000000000000000000000000000000000000000060,
  0x10000000000000000000000000000000000000000000000000000000000000000000000000000000061,
  0x1000000000000000000000000000000000000000000000000000000000000000000000000000000000000000062,
  0x10000000000000000000000000000000000000000000000000000000000000000000000000000000064, 0x100000000000000000000000065,
  0x100000000000000000000050066, 0x100000000000000000000000066, 0x10000000000000000000000000000000067,
  0x1000000000000000000000000000000000000000068, 0x100000000000000000000000000000000000000000000000069,
  0x1000000000000000000000000000000000000000000000000000000006a, 0x100000000000000000000000000000000000000000000000000000000000000006b,
  0x10000000000000000000000000000000000000000000000000000000000000000000000006c,
  0x1000000000000000000000000000000000000000000000000000000000000000000000000000000006d,
  0x100000000000000000000000000000000000000000000000000000000000000000000000000000000000000006e,
  0x10000000000000000000000000000000000000000000000000000000000000000000000000000000000000000000000006f,
  0x1000000000000000000000000000000000000000000000000000000000000000000000000000000000000000070,
  0x10000000000000000000000000000000000000000000000000000000000000000000000000000000071,
  0x100000000000000000000000000000000000000000000000000000000000000000000000072,
  0x1000000000000000000000000000000000000000000000000000000000000000073, 0x10000000000000000000000000000000000000000000000000000000074,
  0x100000000000000000000000000000000000000000000000075, 0x1000000000000000000000000000000000000000076,
  0x10000000000000000000000000000000077, 0x1000000000000000000000000000000000000000078,
  0x100000000000000000000000000000000000000000000000079, 0x1000000000000000000000000000000000000000000000000000000007a,
  0x100000000000000000000000000000000000000000000000000000000000000007b,
  0x10000000000000000000000000000000000000000000000000000000000000000000000007c,
  0x1000000000000000000000000000000000000000000000000000000000000000000000000000000007d,
  0x100000000000000000000000000000000000000000000000000000000000000000000000000000000000000007e,
  0x10000000000000000000000000000000000000000000000000000000000000000000000000000000000000000000000007f,
  0x10000000000000000000000000000000080, 0x1000000000000000000000000000000000000000081,
  0x100000000000000000000000000000000000000000000000082, 0x10000000000000000000000000000000000000000000000000000000083,
  0x1000000000000000000000000000000000000000000000000000000000000000084,
  0x100000000000000000000000000000000000000000000000000000000000000000000000085,
  0x10000000000000000000000000000000000000000000000000000000000000000000000000000000086,
  0x1000000000000000000000000000000000000000000000000000000000000000000000000000000000000000087,
  0x100000000000000000000000000000000000000000000000000000000000000000000000000000000000000000000000088,
  0x100000000000000000000000000000000000000000000000000000000000000000000000000000000000000008a, 0x1000000000000000000000000000000008b,
  0x1000000000000000000000000000005008c, 0x1000000000000000000000000000000008c, 0x100000000000000000000000000000000000000008d,
  0x10000000000000000000000000000000000000000000000008e, 0x1000000000000000000000000000000000000000000000000000000008f,
  0x1000000000000000000000000000000000000000000000000000000000000000090,
  0x100000000000000000000000000000000000000000000000000000000000000000000000091,
  0x10000000000000000000000000000000000000000000000000000000000000000000000000000000092,
  0x1000000000000000000000000000000000000000000000000000000000000000000000000000000000000000093,
  0x100000000000000000000000000000000000000000000000000000000000000000000000000000000000000000000000094,
  0x10000000000000000000000000000000000000000000000000000000000000000000000000000000000000000000000000000000095,
  0x100000000000000000000000000000000000000000000000000000000000000000000000000000000000000000000000096,
  0x1000000000000000000000000000000000000000000000000000000000000000000000000000000000000000097,
  0x10000000000000000000000000000000000000000000000000000000000000000000000000000000098,
  0x100000000000000000000000000000000000000000000000000000000000000000000000099,
  0x100000000000000000000000000000000000000000000000000000000000000009a, 0x1000000000000000000000000000000000000000000000000000000009b,
  0x10000000000000000000000000000000000000000000000009c, 0x100000000000000000000000000000000000000009d,
  0x10000000000000000000000000000000000000000000000009e, 0x1000000000000000000000000000000000000000000000000000000009f,
  0x10000000000000000000000000000000000000000000000000000000000000000a0,
  0x1000000000000000000000000000000000000000000000000000000000000000000000000a1,
  0x100000000000000000000000000000000000000000000000000000000000000000000000000000000a2,
  0x10000000000000000000000000000000000000000000000000000000000000000000000000000000000000000a3,
  0x1000000000000000000000000000000000000000000000000000000000000000000000000000000000000000000000000a4,
  0x100000000000000000000000000000000000000000000000000000000000000000000000000000000000000000000000000000000a5,
  0x10000000000000000000000000000000000000000a6, 0x1000000000000000000000000000000000000000000000000a7,
  0x100000000000000000000000000000000000000000000000000000000a8, 0x10000000000000000000000000000000000000000000000000000000000000000a9,
  0x1000000000000000000000000000000000000000000000000000000000000000000000000aa,
  0x100000000000000000000000000000000000000000000000000000000000000000000000000000000ab,
  0x10000000000000000000000000000000000000000000000000000000000000000000000000000000000000000ac,
  0x1000000000000000000000000000000000000000000000000000000000000000000000000000000000000000000000000ad,
  0x100000000000000000000000000000000000000000000000000000000000000000000000000000000000000000000000000000000ae,
  0x1000000000000000000000000000000000000000000000000000000000000000000000000000000000000000000000000b0,
  0x10000000000000000000000000000000000000000b1, 0x10000000000000000000000000000000000000500b2,
  0x10000000000000000000000000000000000000000b2, 0x1000000000000000000000000000000000000000000000000b3,
  0x100000000000000000000000000000000000000000000000000000000b4, 0x10000000000000000000000000000000000000000000000000000000000000000b5,
  0x1000000000000000000000000000000000000000000000000000000000000000000000000b6,
  0x100000000000000000000000000000000000000000000000000000000000000000000000000000000b7,
  0x10000000000000000000000000000000000000000000000000000000000000000000000000000000000000000b8,
  0x1000000000000000000000000000000000000000000000000000000000000000000000000000000000000000000000000b9,
  0x100000000000000000000000000000000000000000000000000000000000000000000000000000000000000000000000000000000ba,
  0x10000000000000000000000000000000000000000000000000000000000000000000000000000000000000000000000000000000000000000bb,
  0x100000000000000000000000000000000000000000000000000000000000000000000000000000000000000000000000000000000bc,
  0x1000000000000000000000000000000000000000000000000000000000000000000000000000000000000000000000000bd,
  0x10000000000000000000000000000000000000000000000000000000000000000000000000000000000000000be,
  0x100000000000000000000000000000000000000000000000000000000000000000000000000000000bf,
  0x1000000000000000000000000000000000000000000000000000000000000000000000000c0,
  0x10000000000000000000000000000000000000000000000000000000000000000c1, 0x100000000000000000000000000000000000000000000000000000000c2,
  0x1000000000000000000000000000000000000000000000000c3, 0x100000000000000000000000000000000000000000000000000000000c4,
  0x10000000000000000000000000000000000000000000000000000000000000000c5,
  0x1000000000000000000000000000000000000000000000000000000000000000000000000c6,
  0x100000000000000000000000000000000000000000000000000000000000000000000000000000000c7,
  0x10000000000000000000000000000000000000000000000000000000000000000000000000000000000000000c8,
  0x1000000000000000000000000000000000000000000000000000000000000000000000000000000000000000000000000c9,
  0x100000000000000000000000000000000000000000000000000000000000000000000000000000000000000000000000000000000ca,
  0x10000000000000000000000000000000000000000000000000000000000000000000000000000000000000000000000000000000000000000cb,
  0x1000000000000000000000000000000000000000000000000cc, 0x100000000000000000000000000000000000000000000000000000000cd,
  0x10000000000000000000000000000000000000000000000000000000000000000ce,
  0x1000000000000000000000000000000000000000000000000000000000000000000000000cf,
  0x100000000000000000000000000000000000000000000000000000000000000000000000000000000d0,
  0x10000000000000000000000000000000000000000000000000000000000000000000000000000000000000000d1,
  0x1000000000000000000000000000000000000000000000000000000000000000000000000000000000000000000000000d2,
  0x100000000000000000000000000000000000000000000000000000000000000000000000000000000000000000000000000000000d3,
  0x10000000000000000000000000000000000000000000000000000000000000000000000000000000000000000000000000000000000000000d4,
  0x100000000000000000000000000000000000000000000000000000000000000000000000000000000000000000000000000000000d6,
  0x1000000000000000000000000000000000000000000000000d7, 0x1000000000000000000000000000000000000000000000500d8,
  0x1000000000000000000000000000000000000000000000000d8, 0x100000000000000000000000000000000000000000000000000000000d9,
  0x10000000000000000000000000000000000000000000000000000000000000000da,
  0x1000000000000000000000000000000000000000000000000000000000000000000000000db,
  0x100000000000000000000000000000000000000000000000000000000000000000000000000000000dc,
  0x10000000000000000000000000000000000000000000000000000000000000000000000000000000000000000dd,
  0x1000000000000000000000000000000000000000000000000000000000000000000000000000000000000000000000000de,
  0x100000000000000000000000000000000000000000000000000000000000000000000000000000000000000000000000000000000df,
  0x10000000000000000000000000000000000000000000000000000000000000000000000000000000000000000000000000000000000000000e0,
  0x1000000000000000000000000000000000000000000000000000000000000000000000000000000000000000000000000000000000000000000000000e1,
  0x10000000000000000000000000000000000000000000000000000000000000000000000000000000000000000000000000000000000000000e2,
  0x100000000000000000000000000000000000000000000000000000000000000000000000000000000000000000000000000000000e3,
  0x1000000000000000000000000000000000000000000000000000000000000000000000000000000000000000000000000e4,
  0x10000000000000000000000000000000000000000000000000000000000000000000000000000000000000000e5,
  0x100000000000000000000000000000000000000000000000000000000000000000000000000000000e6,
  0x1000000000000000000000000000000000000000000000000000000000000000000000000e7,
  0x10000000000000000000000000000000000000000000000000000000000000000e8, 0x100000000000000000000000000000000000000000000000000000000e9,
  0x10000000000000000000000000000000000000000000000000000000000000000ea,
  0x1000000000000000000000000000000000000000000000000000000000000000000000000eb,
  0x100000000000000000000000000000000000000000000000000000000000000000000000000000000ec,
  0x10000000000000000000000000000000000000000000000000000000000000000000000000000000000000000ed,
  0x1000000000000000000000000000000000000000000000000000000000000000000000000000000000000000000000000ee,
  0x100000000000000000000000000000000000000000000000000000000000000000000000000000000000000000000000000000000ef,
  0x10000000000000000000000000000000000000000000000000000000000000000000000000000000000000000000000000000000000000000f0,
  0x1000000000000000000000000000000000000000000000000000000000000000000000000000000000000000000000000000000000000000000000000f1,
  0x100000000000000000000000000000000000000000000000000000000f2, 0x10000000000000000000000000000000000000000000000000000000000000000f3,
  0x1000000000000000000000000000000000000000000000000000000000000000000000000f4,
  0x100000000000000000000000000000000000000000000000000000000000000000000000000000000f5,
  0x10000000000000000000000000000000000000000000000000000000000000000000000000000000000000000f6,
  0x1000000000000000000000000000000000000000000000000000000000000000000000000000000000000000000000000f7,
  0x100000000000000000000000000000000000000000000000000000000000000000000000000000000000000000000000000000000f8,
  0x10000000000000000000000000000000000000000000000000000000000000000000000000000000000000000000000000000000000000000f9,
  0x1000000000000000000000000000000000000000000000000000000000000000000000000000000000000000000000000000000000000000000000000fa,
  0x10000000000000000000000000000000000000000000000000000000000000000000000000000000000000000000000000000000000000000fc,
  0x100000000000000000000000000000000000000000000000000000000fd, 0x100000000000000000000000000000000000000000000000000000500fe,
  0x100000000000000000000000000000000000000000000000000000000fe, 0x10000000000000000000000000000000000000000000000000000000000000000ff,
  0x100000000000000000000000000000000000000000000000000000000000000000000000100,
  0x10000000000000000000000000000000000000000000000000000000000000000000000000000000101,
  0x1000000000000000000000000000000000000000000000000000000000000000000000000000000000000000102,
  0x100000000000000000000000000000000000000000000000000000000000000000000000000000000000000000000000103,
  0x10000000000000000000000000000000000000000000000000000000000000000000000000000000000000000000000000000000104,
  0x1000000000000000000000000000000000000000000000000000000000000000000000000000000000000000000000000000000000000000105,
  0x100000000000000000000000000000000000000000000000000000000000000000000000000000000000000000000000000000000000000000000000106,
  0x10000000000000000000000000000000000000000000000000000000000000000000000000000000000000000000000000000000000000000000000000000000107,
  0x100000000000000000000000000000000000000000000000000000000000000000000000000000000000000000000000000000000000000000000000108,
  0x1000000000000000000000000000000000000000000000000000000000000000000000000000000000000000000000000000000000000000109,
  0x1000000000000000000000000000000000000000000000000000000000000000000000000000000000000000000000000000000010a,
  0x10000000000000000000000000000000000000000000000000000000000000000000000000000000000000000000000010b,
  0x100000000000000000000000000000000000000000000000000000000000000000000000000000000000000010c,
  0x1000000000000000000000000000000000000000000000000000000000000000000000000000000010d,
  0x10000000000000000000000000000000000000000000000000000000000000000000000010e,
  0x100000000000000000000000000000000000000000000000000000000000000010f,
  0x100000000000000000000000000000000000000000000000000000000000000000000000110,
  0x10000000000000000000000000000000000000000000000000000000000000000000000000000000111,
  0x1000000000000000000000000000000000000000000000000000000000000000000000000000000000000000112,
  0x100000000000000000000000000000000000000000000000000000000000000000000000000000000000000000000000113,
  0x10000000000000000000000000000000000000000000000000000000000000000000000000000000000000000000000000000000114,
  0x1000000000000000000000000000000000000000000000000000000000000000000000000000000000000000000000000000000000000000115,
  0x100000000000000000000000000000000000000000000000000000000000000000000000000000000000000000000000000000000000000000000000116,
  0x10000000000000000000000000000000000000000000000000000000000000000000000000000000000000000000000000000000000000000000000000000000117,
  0x1000000000000000000000000000000000000000000000000000000000000000118,
  0x100000000000000000000000000000000000000000000000000000000000000000000000119,
  0x1000000000000000000000000000000000000000000000000000000000000000000000000000000011a,
  0x100000000000000000000000000000000000000000000000000000000000000000000000000000000000000011b,
  0x10000000000000000000000000000000000000000000000000000000000000000000000000000000000000000000000011c,
  0x1000000000000000000000000000000000000000000000000000000000000000000000000000000000000000000000000000000011d,
  0x100000000000000000000000000000000000000000000000000000000000000000000000000000000000000000000000000000000000000011e,
  0x10000000000000000000000000000000000000000000000000000000000000000000000000000000000000000000000000000000000000000000000011f,
  0x10000000000000000000000000000000000000000000000000000000000000000000000000000000000000000000000000000000000000000000000000000000120,
  0x100000000000000000000000000000000000000000000000000000000000000000000000000000000000000000000000000000000000000000000000122,
  0x1000000000000000000000000000000000000000000000000000000000000000123,
  0x1000000000000000000000000000000000000000000000000000000000000050124,
  0x1000000000000000000000000000000000000000000000000000000000000000124,
  0x100000000000000000000000000000000000000000000000000000000000000000000000125,
  0x10000000000000000000000000000000000000000000000000000000000000000000000000000000126,
  0x1000000000000000000000000000000000000000000000000000000000000000000000000000000000000000127,
  0x100000000000000000000000000000000000000000000000000000000000000000000000000000000000000000000000128,
  0x10000000000000000000000000000000000000000000000000000000000000000000000000000000000000000000000000000000129,
  0x100000000000000000000000000000000000000000000000000000000000000000000000000000000000000000000000000000000000000012a,
  0x10000000000000000000000000000000000000000000000000000000000000000000000000000000000000000000000000000000000000000000000012b,
  0x1000000000000000000000000000000000000000000000000000000000000000000000000000000000000000000000000000000000000000000000000000000012c,
  0x100000000000000000000000000000000000000000000000000000000000000000000000000000000000000000000000000000000000000000000000000000000000000012d]
  cond := ⟨[.x 565, .x 567, .x 569, .x 571, .x 573, .x 575, .x 577, .x 579, .x 581], [0x246, 0x248, 0x24a, 0x24c, 0x24e, 0x250, 0x252, 0x254, 0x256], 599,
    [0x1000000012e, 0x100000000000000012f, 0x100000000000000000000000130, 0x10000000000000000000000000000000131,
  0x1000000000000000000000000000000000000000132, 0x100000000000000000000000000000000000000000000000133,
  0x10000000000000000000000000000000000000000000000000000000134, 0x1000000000000000000000000000000000000000000000000000000000000000135,
  0x100000000000000000000000000000000000000000000000000000000000000000000000136],
    [0x1000000012e, 0x100000000000000012f, 0x100000000000000000000000130, 0x10000000000000000000000000000000131,
  0x1000000000000000000000000000000000000000132, 0x100000000000000000000000000000000000000000000000133,
  0x10000000000000000000000000000000000000000000000000000000134, 0x1000000000000000000000000000000000000000000000000000000000000000135,
  0x10000000137, 0x1000000000000000138, 0x100000000000000000000000139, 0x1000000000000000000000000000000013a,
  0x100000000000000000000000000000000000000013b, 0x10000000000000000000000000000000000000000000000013c,
  0x1000000000000000000000000000000000000000000000000000000013d, 0x100000000000000000000000000000000000000000000000000000000000000013e],
    [0x10000000137, 0x1000000000000000138, 0x100000000000000000000000139, 0x1000000000000000000000000000000013a,
  0x100000000000000000000000000000000000000013b, 0x10000000000000000000000000000000000000000000000013c,
  0x1000000000000000000000000000000000000000000000000000000013d, 0x100000000000000000000000000000000000000000000000000000000000000013e]⟩

theorem c1 : redChecks mul full full k1 (prodForm true W (argsA full.length) (argsB full.length)) R 4294967296 R p W W1 full full1 = true := by decide +kernel

def k2 : RedCert where
  zs := [46, 0x77, 0xc1, 0x10b, 0x155, 0x19f, 0x1e9, 0x233]
  zc := [[0x4310000000018, 0x1000000001a, 0x1000000001b],
    [0x431000000003d, 0x1000000003f, 0x10000000040],
    [0x4310000000063, 0x10000000065, 0x10000000066],
    [0x4310000000089, 0x1000000008b, 0x1000000008c],
    [0x43100000000af, 0x100000000b1, 0x100000000b2],
    [0x43100000000d5, 0x100000000d7, 0x100000000d8],
    [0x43100000000fb, 0x100000000fd, 0x100000000fe],
    [0x4310000000121, 0x10000000123, 0x10000000124]]
  qs := [40, 0x71, 0xbb, 0x105, 0x14f, 0x199, 0x1e3, 0x22d]
  main := [0x100000000000000000000000000000000000000000000000000000000000000000001d00000,
  0x1000000000000000000000000000000000000000000000000000000000001900000, 0x10000000000000000000000000000000000000000000000000001500000,
  0x100000000000000000000000000000000000000000001100000, 0x1000000000000000000000000000000000000d00000,
  0x10000000000000000000000000000900000, 0x100000000000000000000500000, 0x1000000000000100000,
  0x10000000000000000000000000000000000000000000000000000000000000000000000000001d00001,
  0x100000000000000000000000000000000000000000000000000000000000000000001900001,
  0x1000000000000000000000000000000000000000000000000000000000001500001, 0x10000000000000000000000000000000000000000000000000001100001,
  0x100000000000000000000000000000000000000000000d00001, 0x1000000000000000000000000000000000000900001,
  0x10000000000000000000000000000500001, 0x100000000000000000000100001,
  0x1000000000000000000000000000000000000000000000000000000000000000000000000000000000001d00002,
  0x10000000000000000000000000000000000000000000000000000000000000000000000000001900002,
  0x100000000000000000000000000000000000000000000000000000000000000000001500002,
  0x1000000000000000000000000000000000000000000000000000000000001100002, 0x10000000000000000000000000000000000000000000000000000d00002,
  0x100000000000000000000000000000000000000000000900002, 0x1000000000000000000000000000000000000500002,
  0x10000000000000000000000000000100002,
  0x100000000000000000000000000000000000000000000000000000000000000000000000000000000000000000001d00003,
  0x1000000000000000000000000000000000000000000000000000000000000000000000000000000000001900003,
  0x10000000000000000000000000000000000000000000000000000000000000000000000000001500003,
  0x100000000000000000000000000000000000000000000000000000000000000000001100003,
  0x1000000000000000000000000000000000000000000000000000000000000d00003, 0x10000000000000000000000000000000000000000000000000000900003,
  0x100000000000000000000000000000000000000000000500003, 0x1000000000000000000000000000000000000100003,
  0x10000000000000000000000000000000000000000000000000000000000000000000000000000000000000000000000000001d00004,
  0x100000000000000000000000000000000000000000000000000000000000000000000000000000000000000000001900004,
  0x1000000000000000000000000000000000000000000000000000000000000000000000000000000000001500004,
  0x10000000000000000000000000000000000000000000000000000000000000000000000000001100004,
  0x100000000000000000000000000000000000000000000000000000000000000000000d00004,
  0x1000000000000000000000000000000000000000000000000000000000000900004, 0x10000000000000000000000000000000000000000000000000000500004,
  0x100000000000000000000000000000000000000000000100004,
  0x1000000000000000000000000000000000000000000000000000000000000000000000000000000000000000000000000000000000001d00005,
  0x10000000000000000000000000000000000000000000000000000000000000000000000000000000000000000000000000001900005,
  0x100000000000000000000000000000000000000000000000000000000000000000000000000000000000000000001500005,
  0x1000000000000000000000000000000000000000000000000000000000000000000000000000000000001100005,
  0x10000000000000000000000000000000000000000000000000000000000000000000000000000d00005,
  0x100000000000000000000000000000000000000000000000000000000000000000000900005,
  0x1000000000000000000000000000000000000000000000000000000000000500005, 0x10000000000000000000000000000000000000000000000000000100005,
  0x100000000000000000000000000000000000000000000000000000000000000000000000000000000000000000000000000000000000000000001d00006,
  0x1000000000000000000000000000000000000000000000000000000000000000000000000000000000000000000000000000000000001900006,
  0x10000000000000000000000000000000000000000000000000000000000000000000000000000000000000000000000000001500006,
  0x100000000000000000000000000000000000000000000000000000000000000000000000000000000000000000001100006,
  0x1000000000000000000000000000000000000000000000000000000000000000000000000000000000000d00006,
  0x10000000000000000000000000000000000000000000000000000000000000000000000000000900006,
  0x100000000000000000000000000000000000000000000000000000000000000000000500006,
  0x1000000000000000000000000000000000000000000000000000000000000100006,
  0x1000000000000000000000000000000000000000000000000000000000001d00007, 0x10000000000000000000000000000000000000000000000000001900007,
  0x100000000000000000000000000000000000000000001500007, 0x1000000000000000000000000000000000001100007,
  0x10000000000000000000000000000d00007, 0x100000000000000000000900007, 0x1000000000000500007, 0x10000100007,
  0x1000000000000000000000000000000000000000000000000000000000000000008, 0x10000000000000000000000000000000000000000000000000000000009,
  0x10000000000000000000000000000000000000000000000000a, 0x100000000000000000000000000000000000000000b,
  0x1000000000000000000000000000000000c, 0x10000000000000000000000000d, 0x100000000000000000e, 0x1000000000f, 0x1000000000000000010,
  0x100000000000000000000000011, 0x10000000000000000000000000000000012, 0x1000000000000000000000000000000000000000013,
  0x100000000000000000000000000000000000000000000000014, 0x10000000000000000000000000000000000000000000000000000000015,
  0x1000000000000000000000000000000000000000000000000000000000000000016,
  0x100000000000000000000000000000000000000000000000000000000000000000000000017,
  0x1000000000000000000000000000000000000000000000000000000000000000019, 0x1000000001a, 0x1000005001b, 0x1000000001b, 0x100000000000000001c,
  0x10000000000000000000000001d, 0x1000000000000000000000000000000001e, 0x100000000000000000000000000000000000000001f,
  0x100000000000000000000000000000000000000000000000020, 0x10000000000000000000000000000000000000000000000000000000021,
  0x1000000000000000000000000000000000000000000000000000000000000000022,
  0x100000000000000000000000000000000000000000000000000000000000000000000000023,
  0x100000000000000000000000000000000000000000000000000000000000000000000000024,
  0x1000000000000000000000000000000000000000000000000000000000000000025, 0x10000000000000000000000000000000000000000000000000000000026,
  0x100000000000000000000000000000000000000000000000027, 0x1000000000000000000000000000000000000000028,
  0x10000000000000000000000000000000029, 0x10000000000000000000000002a, 0x100000000000000002b, 0x10000000000000000000000002c,
  0x1000000000000000000000000000000002d, 0x100000000000000000000000000000000000000002e,
  0x10000000000000000000000000000000000000000000000002f, 0x10000000000000000000000000000000000000000000000000000000030,
  0x1000000000000000000000000000000000000000000000000000000000000000031,
  0x100000000000000000000000000000000000000000000000000000000000000000000000032,
  0x10000000000000000000000000000000000000000000000000000000000000000000000000000000033, 0x1000000000000000034,
  0x100000000000000000000000035, 0x10000000000000000000000000000000036, 0x1000000000000000000000000000000000000000037,
  0x100000000000000000000000000000000000000000000000038, 0x10000000000000000000000000000000000000000000000000000000039,
  0x100000000000000000000000000000000000000000000000000000000000000003a,
  0x10000000000000000000000000000000000000000000000000000000000000000000000003b,
  0x1000000000000000000000000000000000000000000000000000000000000000000000000000000003c,
  0x10000000000000000000000000000000000000000000000000000000000000000000000003e, 0x100000000000000003f, 0x1000000000000050040,
  0x1000000000000000040, 0x100000000000000000000000041, 0x10000000000000000000000000000000042, 0x1000000000000000000000000000000000000000043,
  0x100000000000000000000000000000000000000000000000044, 0x10000000000000000000000000000000000000000000000000000000045,
  0x1000000000000000000000000000000000000000000000000000000000000000046,
  0x100000000000000000000000000000000000000000000000000000000000000000000000047,
  0x10000000000000000000000000000000000000000000000000000000000000000000000000000000048,
  0x1000000000000000000000000000000000000000000000000000000000000000000000000000000000000000049,
  0x1000000000000000000000000000000000000000000000000000000000000000000000000000000004a,
  0x10000000000000000000000000000000000000000000000000000000000000000000000004b,
  0x100000000000000000000000000000000000000000000000000000000000000004c, 0x1000000000000000000000000000000000000000000000000000000004d,
  0x10000000000000000000000000000000000000000000000004e, 0x100000000000000000000000000000000000000004f,
  0x10000000000000000000000000000000050, 0x100000000000000000000000051, 0x10000000000000000000000000000000052,
  0x1000000000000000000000000000000000000000053, 0x100000000000000000000000000000000000000000000000054,
  0x10000000000000000000000000000000000000000000000000000000055, 0x1000000000000000000000000000000000000000000000000000000000000000056,
  0x100000000000000000000000000000000000000000000000000000000000000000000000057,
  0x10000000000000000000000000000000000000000000000000000000000000000000000000000000058,
  0x1000000000000000000000000000000000000000000000000000000000000000000000000000000000000000059, 0x10000000000000000000000005a,
  0x1000000000000000000000000000000005b, 0x100000000000000000000000000000000000000005c,
  0x10000000000000000000000000000000000000000000000005d, 0x1000000000000000000000000000000000000000000000000000000005e,
  0x100000000000000000000000000000000000000000000000000000000000000005f,
  0x100000000000000000000000000000000000000000000000000000000000000000000000060,
  0x10000000000000000000000000000000000000000000000000000000000000000000000000000000061,
  0x1000000000000000000000000000000000000000000000000000000000000000000000000000000000000000062,
  0x10000000000000000000000000000000000000000000000000000000000000000000000000000000064, 0x100000000000000000000000065,
  0x100000000000000000000050066, 0x100000000000000000000000066, 0x10000000000000000000000000000000067,
  0x1000000000000000000000000000000000000000068, 0x100000000000000000000000000000000000000000000000069,
  0x1000000000000000000000000000000000000000000000000000000006a, 0x100000000000000000000000000000000000000000000000000000000000000006b,
  0x10000000000000000000000000000000000000000000000000000000000000000000000006c,
  0x1000000000000000000000000000000000000000000000000000000000000000000000000000000006d,
  0x100000000000000000000000000000000000000000000000000000000000000000000000000000000000000006e,
  0x10000000000000000000000000000000000000000000000000000000000000000000000000000000000000000000000006f,
  0x1000000000000000000000000000000000000000000000000000000000000000000000000000000000000000070,
  0x10000000000000000000000000000000000000000000000000000000000000000000000000000000071,
  0x100000000000000000000000000000000000000000000000000000000000000000000000072,
  0x1000000000000000000000000000000000000000000000000000000000000000073, 0x10000000000000000000000000000000000000000000000000000000074,
  0x100000000000000000000000000000000000000000000000075, 0x1000000000000000000000000000000000000000076,
  0x10000000000000000000000000000000077, 0x1000000000000000000000000000000000000000078,
  0x100000000000000000000000000000000000000000000000079, 0x1000000000000000000000000000000000000000000000000000000007a,
  0x100000000000000000000000000000000000000000000000000000000000000007b,
  0x10000000000000000000000000000000000000000000000000000000000000000000000007c,
  0x1000000000000000000000000000000000000000000000000000000000000000000000000000000007d,
  0x100000000000000000000000000000000000000000000000000000000000000000000000000000000000000007e,
  0x10000000000000000000000000000000000000000000000000000000000000000000000000000000000000000000000007f,
  0x10000000000000000000000000000000080, 0x1000000000000000000000000000000000000000081,
  0x100000000000000000000000000000000000000000000000082, 0x10000000000000000000000000000000000000000000000000000000083,
  0x1000000000000000000000000000000000000000000000000000000000000000084,
  0x100000000000000000000000000000000000000000000000000000000000000000000000085,
  0x10000000000000000000000000000000000000000000000000000000000000000000000000000000086,
  0x1000000000000000000000000000000000000000000000000000000000000000000000000000000000000000087,
  0x100000000000000000000000000000000000000000000000000000000000000000000000000000000000000000000000088,
  0x100000000000000000000000000000000000000000000000000000000000000000000000000000000000000008a, 0x1000000000000000000000000000000008b,
  0x1000000000000000000000000000005008c, 0x1000000000000000000000000000000008c, 0x100000000000000000000000000000000000000008d,
  0x10000000000000000000000000000000000000000000000008e, 0x1000000000000000000000000000000000000000000000000000000008f,
  0x1000000000000000000000000000000000000000000000000000000000000000090,
  0x100000000000000000000000000000000000000000000000000000000000000000000000091,
  0x10000000000000000000000000000000000000000000000000000000000000000000000000000000092,
  0x1000000000000000000000000000000000000000000000000000000000000000000000000000000000000000093,
  0x100000000000000000000000000000000000000000000000000000000000000000000000000000000000000000000000094,
  0x10000000000000000000000000000000000000000000000000000000000000000000000000000000000000000000000000000000095,
  0x100000000000000000000000000000000000000000000000000000000000000000000000000000000000000000000000096,
  0x1000000000000000000000000000000000000000000000000000000000000000000000000000000000000000097,
  0x10000000000000000000000000000000000000000000000000000000000000000000000000000000098,
  0x100000000000000000000000000000000000000000000000000000000000000000000000099,
  0x100000000000000000000000000000000000000000000000000000000000000009a, 0x1000000000000000000000000000000000000000000000000000000009b,
  0x10000000000000000000000000000000000000000000000009c, 0x100000000000000000000000000000000000000009d,
  0x10000000000000000000000000000000000000000000000009e, 0x1000000000000000000000000000000000000000000000000000000009f,
  0x10000000000000000000000000000000000000000000000000000000000000000a0,
  0x1000000000000000000000000000000000000000000000000000000000000000000000000a1,
  0x100000000000000000000000000000000000000000000000000000000000000000000000000000000a2,
  0x10000000000000000000000000000000000000000000000000000000000000000000000000000000000000000a3,
  0x1000000000000000000000000000000000000000000000000000000000000000000000000000000000000000000000000a4,
  0x100000000000000000000000000000000000000000000000000000000000000000000000000000000000000000000000000000000a5,
  0x10000000000000000000000000000000000000000a6, 0x1000000000000000000000000000000000000000000000000a7,
  0x100000000000000000000000000000000000000000000000000000000a8, 0x10000000000000000000000000000000000000000000000000000000000000000a9,
  0x1000000000000000000000000000000000000000000000000000000000000000000000000aa,
  0x100000000000000000000000000000000000000000000000000000000000000000000000000000000ab,
  0x10000000000000000000000000000000000000000000000000000000000000000000000000000000000000000ac,
  0x1000000000000000000000000000000000000000000000000000000000000000000000000000000000000000000000000ad,
  0x100000000000000000000000000000000000000000000000000000000000000000000000000000000000000000000000000000000ae,
  0x1000000000000000000000000000000000000000000000000000000000000000000000000000000000000000000000000b0,
  0x10000000000000000000000000000000000000000b1, 0x10000000000000000000000000000000000000500b2,
  0x10000000000000000000000000000000000000000b2, 0x1000000000000000000000000000000000000000000000000b3,
  0x100000000000000000000000000000000000000000000000000000000b4, 0x10000000000000000000000000000000000000000000000000000000000000000b5,
  0x1000000000000000000000000000000000000000000000000000000000000000000000000b6,
  0x100000000000000000000000000000000000000000000000000000000000000000000000000000000b7,
  0x10000000000000000000000000000000000000000000000000000000000000000000000000000000000000000b8,
  0x1000000000000000000000000000000000000000000000000000000000000000000000000000000000000000000000000b9,
  0x100000000000000000000000000000000000000000000000000000000000000000000000000000000000000000000000000000000ba,
  0x10000000000000000000000000000000000000000000000000000000000000000000000000000000000000000000000000000000000000000bb,
  0x100000000000000000000000000000000000000000000000000000000000000000000000000000000000000000000000000000000bc,
  0x1000000000000000000000000000000000000000000000000000000000000000000000000000000000000000000000000bd,
  0x10000000000000000000000000000000000000000000000000000000000000000000000000000000000000000be,
  0x100000000000000000000000000000000000000000000000000000000000000000000000000000000bf,
  0x1000000000000000000000000000000000000000000000000000000000000000000000000c0,
  0x10000000000000000000000000000000000000000000000000000000000000000c1, 0x100000000000000000000000000000000000000000000000000000000c2,
  0x1000000000000000000000000000000000000000000000000c3, 0x100000000000000000000000000000000000000000000000000000000c4,
  0x10000000000000000000000000000000000000000000000000000000000000000c5,
  0x1000000000000000000000000000000000000000000000000000000000000000000000000c6,
  0x100000000000000000000000000000000000000000000000000000000000000000000000000000000c7,
  0x10000000000000000000000000000000000000000000000000000000000000000000000000000000000000000c8,
  0x1000000000000000000000000000000000000000000000000000000000000000000000000000000000000000000000000c9,
  0x100000000000000000000000000000000000000000000000000000000000000000000000000000000000000000000000000000000ca,
  0x10000000000000000000000000000000000000000000000000000000000000000000000000000000000000000000000000000000000000000cb,
  0x1000000000000000000000000000000000000000000000000cc, 0x100000000000000000000000000000000000000000000000000000000cd,
  0x10000000000000000000000000000000000000000000000000000000000000000ce,
  0x1000000000000000000000000000000000000000000000000000000000000000000000000cf,
  0x100000000000000000000000000000000000000000000000000000000000000000000000000000000d0,
  0x10000000000000000000000000000000000000000000000000000000000000000000000000000000000000000d1,
  0x1000000000000000000000000000000000000000000000000000000000000000000000000000000000000000000000000d2,
  0x100000000000000000000000000000000000000000000000000000000000000000000000000000000000000000000000000000000d3,
  0x10000000000000000000000000000000000000000000000000000000000000000000000000000000000000000000000000000000000000000d4,
  0x100000000000000000000000000000000000000000000000000000000000000000000000000000000000000000000000000000000d6,
  0x1000000000000000000000000000000000000000000000000d7, 0x1000000000000000000000000000000000000000000000500d8,
  0x1000000000000000000000000000000000000000000000000d8, 0x100000000000000000000000000000000000000000000000000000000d9,
  0x10000000000000000000000000000000000000000000000000000000000000000da,
  0x1000000000000000000000000000000000000000000000000000000000000000000000000db,
  0x100000000000000000000000000000000000000000000000000000000000000000000000000000000dc,
  0x10000000000000000000000000000000000000000000000000000000000000000000000000000000000000000dd,
  0x1000000000000000000000000000000000000000000000000000000000000000000000000000000000000000000000000de,
  0x100000000000000000000000000000000000000000000000000000000000000000000000000000000000000000000000000000000df,
  0x10000000000000000000000000000000000000000000000000000000000000000000000000000000000000000000000000000000000000000e0,
  0x1000000000000000000000000000000000000000000000000000000000000000000000000000000000000000000000000000000000000000000000000e1,
  0x10000000000000000000000000000000000000000000000000000000000000000000000000000000000000000000000000000000000000000e2,
  0x100000000000000000000000000000000000000000000000000000000000000000000000000000000000000000000000000000000e3,
  0x1000000000000000000000000000000000000000000000000000000000000000000000000000000000000000000000000e4,
  0x10000000000000000000000000000000000000000000000000000000000000000000000000000000000000000e5,
  0x100000000000000000000000000000000000000000000000000000000000000000000000000000000e6,
  0x1000000000000000000000000000000000000000000000000000000000000000000000000e7,
  0x10000000000000000000000000000000000000000000000000000000000000000e8, 0x100000000000000000000000000000000000000000000000000000000e9,
  0x10000000000000000000000000000000000000000000000000000000000000000ea,
  0x1000000000000000000000000000000000000000000000000000000000000000000000000eb,
  0x100000000000000000000000000000000000000000000000000000000000000000000000000000000ec,
  0x10000000000000000000000000000000000000000000000000000000000000000000000000000000000000000ed,
  0x1000000000000000000000000000000000000000000000000000000000000000000000000000000000000000000000000ee,
  0x100000000000000000000000000000000000000000000000000000000000000000000000000000000000000000000000000000000ef,
  0x10000000000000000000000000000000000000000000000000000000000000000000000000000000000000000000000000000000000000000f0,
  0x1000000000000000000000000000000000000000000000000000000000000000000000000000000000000000000000000000000000000000000000000f1,
  0x100000000000000000000000000000000000000000000000000000000f2, 0x10000000000000000000000000000000000000000000000000000000000000000f3,
  0x1000000000000000000000000000000000000000000000000000000000000000000000000f4,
  0x100000000000000000000000000000000000000000000000000000000000000000000000000000000f5,
  0x10000000000000000000000000000000000000000000000000000000000000000000000000000000000000000f6,
  0x1000000000000000000000000000000000000000000000000000000000000000000000000000000000000000000000000f7,
  0x100000000000000000000000000000000000000000000000000000000000000000000000000000000000000000000000000000000f8,
  0x10000000000000000000000000000000000000000000000000000000000000000000000000000000000000000000000000000000000000000f9,
  0x1000000000000000000000000000000000000000000000000000000000000000000000000000000000000000000000000000000000000000000000000fa,
  0x10000000000000000000000000000000000000000000000000000000000000000000000000000000000000000000000000000000000000000fc,
  0x100000000000000000000000000000000000000000000000000000000fd, 0x100000000000000000000000000000000000000000000000000000500fe,
  0x100000000000000000000000000000000000000000000000000000000fe, 0x10000000000000000000000000000000000000000000000000000000000000000ff,
  0x100000000000000000000000000000000000000000000000000000000000000000000000100,
  0x10000000000000000000000000000000000000000000000000000000000000000000000000000000101,
  0x1000000000000000000000000000000000000000000000000000000000000000000000000000000000000000102,
  0x100000000000000000000000000000000000000000000000000000000000000000000000000000000000000000000000103,
  0x10000000000000000000000000000000000000000000000000000000000000000000000000000000000000000000000000000000104,
  0x1000000000000000000000000000000000000000000000000000000000000000000000000000000000000000000000000000000000000000105,
  0x100000000000000000000000000000000000000000000000000000000000000000000000000000000000000000000000000000000000000000000000106,
  0x10000000000000000000000000000000000000000000000000000000000000000000000000000000000000000000000000000000000000000000000000000000107,
  0x100000000000000000000000000000000000000000000000000000000000000000000000000000000000000000000000000000000000000000000000108,
  0x1000000000000000000000000000000000000000000000000000000000000000000000000000000000000000000000000000000000000000109,
  0x1000000000000000000000000000000000000000000000000000000000000000000000000000000000000000000000000000000010a,
  0x10000000000000000000000000000000000000000000000000000000000000000000000000000000000000000000000010b,
  0x100000000000000000000000000000000000000000000000000000000000000000000000000000000000000010c,
  0x1000000000000000000000000000000000000000000000000000000000000000000000000000000010d,
  0x10000000000000000000000000000000000000000000000000000000000000000000000010e,
  0x100000000000000000000000000000000000000000000000000000000000000010f,
  0x100000000000000000000000000000000000000000000000000000000000000000000000110,
  0x10000000000000000000000000000000000000000000000000000000000000000000000000000000111,
  0x1000000000000000000000000000000000000000000000000000000000000000000000000000000000000000112,
  0x100000000000000000000000000000000000000000000000000000000000000000000000000000000000000000000000113,
  0x10000000000000000000000000000000000000000000000000000000000000000000000000000000000000000000000000000000114,
  0x1000000000000000000000000000000000000000000000000000000000000000000000000000000000000000000000000000000000000000115,
  0x100000000000000000000000000000000000000000000000000000000000000000000000000000000000000000000000000000000000000000000000116,
  0x10000000000000000000000000000000000000000000000000000000000000000000000000000000000000000000000000000000000000000000000000000000117,
  0x1000000000000000000000000000000000000000000000000000000000000000118,
  0x100000000000000000000000000000000000000000000000000000000000000000000000119,
  0x1000000000000000000000000000000000000000000000000000000000000000000000000000000011a,
  0x100000000000000000000000000000000000000000000000000000000000000000000000000000000000000011b,
  0x10000000000000000000000000000000000000000000000000000000000000000000000000000000000000000000000011c,
  0x1000000000000000000000000000000000000000000000000000000000000000000000000000000000000000000000000000000011d,
  0x100000000000000000000000000000000000000000000000000000000000000000000000000000000000000000000000000000000000000011e,
  0x10000000000000000000000000000000000000000000000000000000000000000000000000000000000000000000000000000000000000000000000011f,
  0x10000000000000000000000000000000000000000000000000000000000000000000000000000000000000000000000000000000000000000000000000000000120,
  0x100000000000000000000000000000000000000000000000000000000000000000000000000000000000000000000000000000000000000000000000122,
  0x1000000000000000000000000000000000000000000000000000000000000000123,
  0x1000000000000000000000000000000000000000000000000000000000000050124,
  0x1000000000000000000000000000000000000000000000000000000000000000124,
  0x100000000000000000000000000000000000000000000000000000000000000000000000125,
  0x10000000000000000000000000000000000000000000000000000000000000000000000000000000126,
  0x1000000000000000000000000000000000000000000000000000000000000000000000000000000000000000127,
  0x100000000000000000000000000000000000000000000000000000000000000000000000000000000000000000000000128,
  0x10000000000000000000000000000000000000000000000000000000000000000000000000000000000000000000000000000000129,
  0x100000000000000000000000000000000000000000000000000000000000000000000000000000000000000000000000000000000000000012a,
  0x10000000000000000000000000000000000000000000000000000000000000000000000000000000000000000000000000000000000000000000000012b,
  0x1000000000000000000000000000000000000000000000000000000000000000000000000000000000000000000000000000000000000000000000000000000012c,
  0x100000000000000000000000000000000000000000000000000000000000000000000000000000000000000000000000000000000000000000000000000000000000000012d]
  cond := ⟨[.x 565, .x 567, .x 569, .x 571, .x 573, .x 575, .x 577, .x 579, .x 581], [0x246, 0x248, 0x24a, 0x24c, 0x24e, 0x250, 0x252, 0x254, 0x256], 599,
    [0x1000000012e, 0x100000000000000012f, 0x100000000000000000000000130, 0x10000000000000000000000000000000131,
  0x1000000000000000000000000000000000000000132, 0x100000000000000000000000000000000000000000000000133,
  0x10000000000000000000000000000000000000000000000000000000134, 0x1000000000000000000000000000000000000000000000000000000000000000135,
  0x100000000000000000000000000000000000000000000000000000000000000000000000136],
    [0x1000000012e, 0x100000000000000012f, 0x100000000000000000000000130, 0x10000000000000000000000000000000131,
  0x1000000000000000000000000000000000000000132, 0x100000000000000000000000000000000000000000000000133,
  0x10000000000000000000000000000000000000000000000000000000134, 0x1000000000000000000000000000000000000000000000000000000000000000135,
  0x10000000137, 0x1000000000000000138, 0x100000000000000000000000139, 0x1000000000000000000000000000000013a,
  0x100000000000000000000000000000000000000013b, 0x10000000000000000000000000000000000000000000000013c,
  0x1000000000000000000000000000000000000000000000000000000013d, 0x100000000000000000000000000000000000000000000000000000000000000013e],
    [0x10000000137, 0x1000000000000000138, 0x100000000000000000000000139, 0x1000000000000000000000000000000013a,
  0x100000000000000000000000000000000000000013b, 0x10000000000000000000000000000000000000000000000013c,
  0x1000000000000000000000000000000000000000000000000000000013d, 0x100000000000000000000000000000000000000000000000000000000000000013e]⟩

theorem c2 : redChecks square full [] k2 (prodForm true W (argsA full.length) (argsA full.length)) R 4294967296 R p W W1 full full1 = true := by decide +kernel

def k3 : RedCert where
  zs := []
  zc := []
  qs := []
  main := [0x10000000000, 0x1000000000000000001, 0x100000000000000000000000002, 0x10000000000000000000000000000000003,
  0x1000000000000000000000000000000000000000004, 0x100000000000000000000000000000000000000000000000005,
  0x10000000000000000000000000000000000000000000000000000000006, 0x1000000000000000000000000000000000000000000000000000000000000000007]
  cond := ⟨[.x 1, .x 3, .x 5, .x 7, .x 9, .x 11, .x 13, .x 15, .x 16], [17, 19, 21, 23, 25, 27, 29, 31, 33], 34,
    [0x10000000008, 0x1000000000000000009, 0x10000000000000000000000000a, 0x1000000000000000000000000000000000b,
  0x100000000000000000000000000000000000000000c, 0x10000000000000000000000000000000000000000000000000d,
  0x1000000000000000000000000000000000000000000000000000000000e, 0x100000000000000000000000000000000000000000000000000000000000000000f,
  0x100000000000000000000000000000000000000000000000000000000000000000000000010],
    [0x10000000008, 0x1000000000000000009, 0x10000000000000000000000000a, 0x1000000000000000000000000000000000b,
  0x100000000000000000000000000000000000000000c, 0x10000000000000000000000000000000000000000000000000d,
  0x1000000000000000000000000000000000000000000000000000000000e, 0x100000000000000000000000000000000000000000000000000000000000000000f,
  0x10000000011, 0x1000000000000000012, 0x100000000000000000000000013, 0x10000000000000000000000000000000014,
  0x1000000000000000000000000000000000000000015, 0x100000000000000000000000000000000000000000000000016,
  0x10000000000000000000000000000000000000000000000000000000017, 0x1000000000000000000000000000000000000000000000000000000000000000018],
    [0x10000000011, 0x1000000000000000012, 0x100000000000000000000000013, 0x10000000000000000000000000000000014,
  0x1000000000000000000000000000000000000000015, 0x100000000000000000000000000000000000000000000000016,
  0x10000000000000000000000000000000000000000000000000000000017, 0x1000000000000000000000000000000000000000000000000000000000000000018]⟩

theorem c3 : redChecks add full full k3 (lin true 1 W (argsA full.length) ++ lin true 1 W (argsB full.length)) 1 4294967296 R p W W1 full full1 = true := by decide +kernel

def k4 : RedCert where
  zs := [8, 20, 32, 44, 56, 68, 90, 0x7e]
  zc := [[0x4310000000001, 0x10000000003, 0x10000000004],
    [0x4310000000006, 0x10000000008, 0x1000000000a],
    [0x431000000000c, 0x1000000000e, 0x10000000010],
    [0x4310000000012, 0x10000000014, 0x10000000016],
    [0x4310000000018, 0x1000000001a, 0x1000000001c],
    [0x431000000001e, 0x10000000020, 0x10000000022],
    [0x431000000002a, 0x1000000002c, 0x1000000002d],
    [0x431000000003c, 0x1000000003e, 0x1000000003f]]
  qs := [2, 12, 24, 36, 48, 60, 84, 0x78]
  main := [0x10000000000, 0x1000000000000000000000000000000000000000000000000000000000000000002, 0x10000000003, 0x10000050004, 0x10000000004,
  0x1000000000000000005, 0x100000000000000000000000000000000000000000000000000000000000000000000000007, 0x1000000000000000008,
  0x100000000000000000000000000000000000000000000000000000000000000000000000009, 0x100000000000005000a, 0x100000000000000000a,
  0x10000000000000000000000000b, 0x1000000000000000000000000000000000000000000000000000000000000000000000000000000000d,
  0x10000000000000000000000000e, 0x1000000000000000000000000000000000000000000000000000000000000000000000000000000000f,
  0x100000000000000000000050010, 0x100000000000000000000000010, 0x10000000000000000000000000000000011,
  0x1000000000000000000000000000000000000000000000000000000000000000000000000000000000000000013, 0x10000000000000000000000000000000014,
  0x1000000000000000000000000000000000000000000000000000000000000000000000000000000000000000015, 0x10000000000000000000000000000050016,
  0x10000000000000000000000000000000016, 0x1000000000000000000000000000000000000000017,
  0x100000000000000000000000000000000000000000000000000000000000000000000000000000000000000000000000019,
  0x100000000000000000000000000000000000000001a,
  0x10000000000000000000000000000000000000000000000000000000000000000000000000000000000000000000000001b,
  0x100000000000000000000000000000000000005001c, 0x100000000000000000000000000000000000000001c,
  0x10000000000000000000000000000000000000000000000001d,
  0x1000000000000000000000000000000000000000000000000000000000000000000000000000000000000000000000000000000001f,
  0x100000000000000000000000000000000000000000000000020,
  0x10000000000000000000000000000000000000000000000000000000000000000000000000000000000000000000000000000000021,
  0x100000000000000000000000000000000000000000000050022, 0x100000000000000000000000000000000000000000000000022,
  0x10000000000000000000000000000000000000000000000000000000023, 0x1000000000000000000000000000000000000000000000000000000000000000024,
  0x100000000000000000000000000000000000000000000000000000000000000000000000025,
  0x10000000000000000000000000000000000000000000000000000000000000000000000000000000026,
  0x1000000000000000000000000000000000000000000000000000000000000000000000000000000000000000027,
  0x100000000000000000000000000000000000000000000000000000000000000000000000000000000000000000000000028,
  0x10000000000000000000000000000000000000000000000000000000000000000000000000000000000000000000000000000000029,
  0x100000000000000000000000000000000000000000000000000000000000000000000000000000000000000000000000000000000000000002b,
  0x1000000000000000000000000000000000000000000000000000000002c, 0x1000000000000000000000000000000000000000000000000000005002d,
  0x1000000000000000000000000000000000000000000000000000000002d, 0x100000000000000000000000000000000000000000000000000000000000000002e,
  0x10000000000000000000000000000000000000000000000000000000000000000000000002f,
  0x10000000000000000000000000000000000000000000000000000000000000000000000000000000030,
  0x1000000000000000000000000000000000000000000000000000000000000000000000000000000000000000031,
  0x100000000000000000000000000000000000000000000000000000000000000000000000000000000000000000000000032,
  0x10000000000000000000000000000000000000000000000000000000000000000000000000000000000000000000000000000000033,
  0x1000000000000000000000000000000000000000000000000000000000000000000000000000000000000000000000000000000000000000034,
  0x1000000000000000000000000000000000000000000000000000000000000000035,
  0x100000000000000000000000000000000000000000000000000000000000000000000000036,
  0x10000000000000000000000000000000000000000000000000000000000000000000000000000000037,
  0x1000000000000000000000000000000000000000000000000000000000000000000000000000000000000000038,
  0x100000000000000000000000000000000000000000000000000000000000000000000000000000000000000000000000039,
  0x1000000000000000000000000000000000000000000000000000000000000000000000000000000000000000000000000000000003a,
  0x100000000000000000000000000000000000000000000000000000000000000000000000000000000000000000000000000000000000000003b,
  0x10000000000000000000000000000000000000000000000000000000000000000000000000000000000000000000000000000000000000000000000003d,
  0x100000000000000000000000000000000000000000000000000000000000000003e,
  0x100000000000000000000000000000000000000000000000000000000000005003f,
  0x100000000000000000000000000000000000000000000000000000000000000003f,
  0x100000000000000000000000000000000000000000000000000000000000000000000000040,
  0x10000000000000000000000000000000000000000000000000000000000000000000000000000000041,
  0x1000000000000000000000000000000000000000000000000000000000000000000000000000000000000000042,
  0x100000000000000000000000000000000000000000000000000000000000000000000000000000000000000000000000043,
  0x10000000000000000000000000000000000000000000000000000000000000000000000000000000000000000000000000000000044,
  0x1000000000000000000000000000000000000000000000000000000000000000000000000000000000000000000000000000000000000000045,
  0x100000000000000000000000000000000000000000000000000000000000000000000000000000000000000000000000000000000000000000000000046,
  0x10000000000000000000000000000000000000000000000000000000000000000000000000000000000000000000000000000000000000000000000000000000047]
  cond := ⟨[.x 128, .x 130, .x 132, .x 134, .x 136, .x 138, .x 140, .x 142, .c 0], [0x8f, 0x91, 0x93, 0x95, 0x97, 0x99, 0x9b, 0x9d, 0x9f], 160,
    [0x10000000048, 0x1000000000000000049, 0x10000000000000000000000004a, 0x1000000000000000000000000000000004b,
  0x100000000000000000000000000000000000000004c, 0x10000000000000000000000000000000000000000000000004d,
  0x1000000000000000000000000000000000000000000000000000000004e, 0x100000000000000000000000000000000000000000000000000000000000000004f,
  0x100000000000000000000000000000000000000000000000000000000000000000000000050],
    [0x10000000048, 0x1000000000000000049, 0x10000000000000000000000004a, 0x1000000000000000000000000000000004b,
  0x100000000000000000000000000000000000000004c, 0x10000000000000000000000000000000000000000000000004d,
  0x1000000000000000000000000000000000000000000000000000000004e, 0x100000000000000000000000000000000000000000000000000000000000000004f,
  0x10000000051, 0x1000000000000000052, 0x100000000000000000000000053, 0x10000000000000000000000000000000054,
  0x1000000000000000000000000000000000000000055, 0x100000000000000000000000000000000000000000000000056,
  0x10000000000000000000000000000000000000000000000000000000057, 0x1000000000000000000000000000000000000000000000000000000000000000058],
    [0x10000000051, 0x1000000000000000052, 0x100000000000000000000000053, 0x10000000000000000000000000000000054,
  0x1000000000000000000000000000000000000000055, 0x100000000000000000000000000000000000000000000000056,
  0x10000000000000000000000000000000000000000000000000000000057, 0x1000000000000000000000000000000000000000000000000000000000000000058]⟩

theorem c4 : redChecks from_montgomery full [] k4 (lin true 1 W (argsA full.length)) R 4294967296 R p W W1 full full1 = true := by decide +kernel

def k5 : RedCert where
  zs := [11, 25, 39, 53, 67, 81, 0x67, 0x8d]
  zc := [[0x4310000000001, 0x10000000003, 0x10000000005],
    [0x4310000000007, 0x10000000009, 0x1000000000c],
    [0x431000000000e, 0x10000000010, 0x10000000013],
    [0x4310000000015, 0x10000000017, 0x1000000001a],
    [0x431000000001c, 0x1000000001e, 0x10000000021],
    [0x4310000000023, 0x10000000025, 0x10000000028],
    [0x4310000000030, 0x10000000032, 0x10000000033],
    [0x4310000000043, 0x10000000045, 0x10000000046]]
  qs := [3, 15, 29, 43, 57, 71, 97, 0x87]
  main := [0x10000000000, 0x1000000000000000000000000000000000000000000000000000000000000000002, 0x10000000003, 0x1000000000000000004, 0x10000050005,
  0x10000000005, 0x1000000000000000006, 0x100000000000000000000000000000000000000000000000000000000000000000000000008, 0x1000000000000000009,
  0x10000000000000000000000000000000000000000000000000000000000000000000000000a, 0x10000000000000000000000000b, 0x100000000000005000c,
  0x100000000000000000c, 0x10000000000000000000000000d,
  0x1000000000000000000000000000000000000000000000000000000000000000000000000000000000f, 0x100000000000000000000000010,
  0x10000000000000000000000000000000000000000000000000000000000000000000000000000000011, 0x10000000000000000000000000000000012,
  0x100000000000000000000050013, 0x100000000000000000000000013, 0x10000000000000000000000000000000014,
  0x1000000000000000000000000000000000000000000000000000000000000000000000000000000000000000016, 0x10000000000000000000000000000000017,
  0x1000000000000000000000000000000000000000000000000000000000000000000000000000000000000000018,
  0x1000000000000000000000000000000000000000019, 0x1000000000000000000000000000005001a, 0x1000000000000000000000000000000001a,
  0x100000000000000000000000000000000000000001b,
  0x10000000000000000000000000000000000000000000000000000000000000000000000000000000000000000000000001d,
  0x100000000000000000000000000000000000000001e,
  0x10000000000000000000000000000000000000000000000000000000000000000000000000000000000000000000000001f,
  0x100000000000000000000000000000000000000000000000020, 0x1000000000000000000000000000000000000050021,
  0x1000000000000000000000000000000000000000021, 0x100000000000000000000000000000000000000000000000022,
  0x10000000000000000000000000000000000000000000000000000000000000000000000000000000000000000000000000000000024,
  0x100000000000000000000000000000000000000000000000025,
  0x10000000000000000000000000000000000000000000000000000000000000000000000000000000000000000000000000000000026,
  0x10000000000000000000000000000000000000000000000000000000027, 0x100000000000000000000000000000000000000000000050028,
  0x100000000000000000000000000000000000000000000000028, 0x10000000000000000000000000000000000000000000000000000000029,
  0x100000000000000000000000000000000000000000000000000000000000000002a,
  0x10000000000000000000000000000000000000000000000000000000000000000000000002b,
  0x1000000000000000000000000000000000000000000000000000000000000000000000000000000002c,
  0x100000000000000000000000000000000000000000000000000000000000000000000000000000000000000002d,
  0x10000000000000000000000000000000000000000000000000000000000000000000000000000000000000000000000002e,
  0x1000000000000000000000000000000000000000000000000000000000000000000000000000000000000000000000000000000002f,
  0x1000000000000000000000000000000000000000000000000000000000000000000000000000000000000000000000000000000000000000031,
  0x10000000000000000000000000000000000000000000000000000000032, 0x10000000000000000000000000000000000000000000000000000050033,
  0x10000000000000000000000000000000000000000000000000000000033, 0x1000000000000000000000000000000000000000000000000000000000000000034,
  0x100000000000000000000000000000000000000000000000000000000000000000000000035,
  0x10000000000000000000000000000000000000000000000000000000000000000000000000000000036,
  0x1000000000000000000000000000000000000000000000000000000000000000000000000000000000000000037,
  0x100000000000000000000000000000000000000000000000000000000000000000000000000000000000000000000000038,
  0x10000000000000000000000000000000000000000000000000000000000000000000000000000000000000000000000000000000039,
  0x100000000000000000000000000000000000000000000000000000000000000000000000000000000000000000000000000000000000000003a,
  0x100000000000000000000000000000000000000000000000000000000000000003b,
  0x100000000000000000000000000000000000000000000000000000000000000003c,
  0x10000000000000000000000000000000000000000000000000000000000000000000000003d,
  0x1000000000000000000000000000000000000000000000000000000000000000000000000000000003e,
  0x100000000000000000000000000000000000000000000000000000000000000000000000000000000000000003f,
  0x100000000000000000000000000000000000000000000000000000000000000000000000000000000000000000000000040,
  0x10000000000000000000000000000000000000000000000000000000000000000000000000000000000000000000000000000000041,
  0x1000000000000000000000000000000000000000000000000000000000000000000000000000000000000000000000000000000000000000042,
  0x100000000000000000000000000000000000000000000000000000000000000000000000000000000000000000000000000000000000000000000000044,
  0x1000000000000000000000000000000000000000000000000000000000000000045,
  0x1000000000000000000000000000000000000000000000000000000000000050046,
  0x1000000000000000000000000000000000000000000000000000000000000000046,
  0x100000000000000000000000000000000000000000000000000000000000000000000000047,
  0x10000000000000000000000000000000000000000000000000000000000000000000000000000000048,
  0x1000000000000000000000000000000000000000000000000000000000000000000000000000000000000000049,
  0x10000000000000000000000000000000000000000000000000000000000000000000000000000000000000000000000004a,
  0x1000000000000000000000000000000000000000000000000000000000000000000000000000000000000000000000000000000004b,
  0x100000000000000000000000000000000000000000000000000000000000000000000000000000000000000000000000000000000000000004c,
  0x10000000000000000000000000000000000000000000000000000000000000000000000000000000000000000000000000000000000000000000000004d,
  0x1000000000000000000000000000000000000000000000000000000000000000000000000000000000000000000000000000000000000000000000000000000004e]
  cond := ⟨[.x 143, .x 145, .x 147, .x 149, .x 151, .x 153, .x 155, .x 157, .c 0], [0x9e, 0xa0, 0xa2, 0xa4, 0xa6, 0xa8, 0xaa, 0xac, 0xae], 175,
    [0x1000000004f, 0x1000000000000000050, 0x100000000000000000000000051, 0x10000000000000000000000000000000052,
  0x1000000000000000000000000000000000000000053, 0x100000000000000000000000000000000000000000000000054,
  0x10000000000000000000000000000000000000000000000000000000055, 0x1000000000000000000000000000000000000000000000000000000000000000056,
  0x100000000000000000000000000000000000000000000000000000000000000000000000057],
    [0x1000000004f, 0x1000000000000000050, 0x100000000000000000000000051, 0x10000000000000000000000000000000052,
  0x1000000000000000000000000000000000000000053, 0x100000000000000000000000000000000000000000000000054,
  0x10000000000000000000000000000000000000000000000000000000055, 0x1000000000000000000000000000000000000000000000000000000000000000056,
  0x10000000058, 0x1000000000000000059, 0x10000000000000000000000005a, 0x1000000000000000000000000000000005b,
  0x100000000000000000000000000000000000000005c, 0x10000000000000000000000000000000000000000000000005d,
  0x1000000000000000000000000000000000000000000000000000000005e, 0x100000000000000000000000000000000000000000000000000000000000000005f],
    [0x10000000058, 0x1000000000000000059, 0x10000000000000000000000005a, 0x1000000000000000000000000000000005b,
  0x100000000000000000000000000000000000000005c, 0x10000000000000000000000000000000000000000000000005d,
  0x1000000000000000000000000000000000000000000000000000000005e, 0x100000000000000000000000000000000000000000000000000000000000000005f]⟩

theorem c5 : redChecks to_montgomery full [] k5 (lin true R2 W (argsA full.length)) R 4294967296 R p W W1 full full1 = true := by decide +kernel

def k6 : SubCert where
  ss := [1, 3, 5, 7, 9, 11, 13, 15]
  bf := 16
  chain := [0x10000000000, 0x1000000000000000001, 0x100000000000000000000000002, 0x10000000000000000000000000000000003,
  0x1000000000000000000000000000000000000000004, 0x100000000000000000000000000000000000000000000000005,
  0x10000000000000000000000000000000000000000000000000000000006, 0x1000000000000000000000000000000000000000000000000000000000000000007]
  c0 := [0x10000000000, 0x1000000000000000001, 0x100000000000000000000000002, 0x10000000000000000000000000000000003,
  0x1000000000000000000000000000000000000000004, 0x100000000000000000000000000000000000000000000000005,
  0x10000000000000000000000000000000000000000000000000000000006, 0x1000000000000000000000000000000000000000000000000000000000000000007,
  0x10000000009, 0x100000000000000000a, 0x10000000000000000000000000b, 0x1000000000000000000000000000000000c,
  0x100000000000000000000000000000000000000000d, 0x10000000000000000000000000000000000000000000000000e,
  0x1000000000000000000000000000000000000000000000000000000000f, 0x1000000000000000000000000000000000000000000000000000000000000000010]
  c1 := [0x10000000000, 0x1000000000000000001, 0x100000000000000000000000002, 0x10000000000000000000000000000000003,
  0x1000000000000000000000000000000000000000004, 0x100000000000000000000000000000000000000000000000005,
  0x10000000000000000000000000000000000000000000000000000000006, 0x1000000000000000000000000000000000000000000000000000000000000000007,
  0x10000000009, 0x100000000000000000a, 0x10000000000000000000000000b, 0x1000000000000000000000000000000000c,
  0x100000000000000000000000000000000000000000d, 0x10000000000000000000000000000000000000000000000000e,
  0x1000000000000000000000000000000000000000000000000000000000f, 0x1000000000000000000000000000000000000000000000000000000000000000010]

theorem c6 : subChecks sub full full k6 (lin true 1 W (argsA full.length) ++ lin false 1 W (argsB full.length)) R p W full = true := by decide +kernel

def k7 : SubCert where
  ss := [1, 3, 5, 7, 9, 11, 13, 15]
  bf := 16
  chain := [0x10000000000, 0x1000000000000000001, 0x100000000000000000000000002, 0x10000000000000000000000000000000003,
  0x1000000000000000000000000000000000000000004, 0x100000000000000000000000000000000000000000000000005,
  0x10000000000000000000000000000000000000000000000000000000006, 0x1000000000000000000000000000000000000000000000000000000000000000007]
  c0 := [0x10000000000, 0x1000000000000000001, 0x100000000000000000000000002, 0x10000000000000000000000000000000003,
  0x1000000000000000000000000000000000000000004, 0x100000000000000000000000000000000000000000000000005,
  0x10000000000000000000000000000000000000000000000000000000006, 0x1000000000000000000000000000000000000000000000000000000000000000007,
  0x10000000009, 0x100000000000000000a, 0x10000000000000000000000000b, 0x1000000000000000000000000000000000c,
  0x100000000000000000000000000000000000000000d, 0x10000000000000000000000000000000000000000000000000e,
  0x1000000000000000000000000000000000000000000000000000000000f, 0x1000000000000000000000000000000000000000000000000000000000000000010]
  c1 := [0x10000000000, 0x1000000000000000001, 0x100000000000000000000000002, 0x10000000000000000000000000000000003,
  0x1000000000000000000000000000000000000000004, 0x100000000000000000000000000000000000000000000000005,
  0x10000000000000000000000000000000000000000000000000000000006, 0x1000000000000000000000000000000000000000000000000000000000000000007,
  0x10000000009, 0x100000000000000000a, 0x10000000000000000000000000b, 0x1000000000000000000000000000000000c,
  0x100000000000000000000000000000000000000000d, 0x10000000000000000000000000000000000000000000000000e,
  0x1000000000000000000000000000000000000000000000000000000000f, 0x1000000000000000000000000000000000000000000000000000000000000000010]

theorem c7 : subChecks opp full [] k7 (lin false 1 W (argsA full.length)) R p W full = true := by decide +kernel

def k8 : List Nat :=
  [0x1000000000000000000000000000000000000000000000000000000000000000000, 0x1000000000000000000000000000000000000000000000000000000000000000001,
  0x1000000000000000000000000000000000000000000000000000000000000000002,
  0x1000000000000000000000000000000000000000000000000000000000000000003, 0x10000000000000000000000000000000000000000000000000000000004,
  0x10000000000000000000000000000000000000000000000000000000005, 0x10000000000000000000000000000000000000000000000000000000006,
  0x10000000000000000000000000000000000000000000000000000000007, 0x100000000000000000000000000000000000000000000000008,
  0x100000000000000000000000000000000000000000000000009, 0x10000000000000000000000000000000000000000000000000a,
  0x10000000000000000000000000000000000000000000000000b, 0x100000000000000000000000000000000000000000c,
  0x100000000000000000000000000000000000000000d, 0x100000000000000000000000000000000000000000e,
  0x100000000000000000000000000000000000000000f, 0x10000000000000000000000000000000010, 0x10000000000000000000000000000000011,
  0x10000000000000000000000000000000012, 0x10000000000000000000000000000000013, 0x100000000000000000000000014, 0x100000000000000000000000015,
  0x100000000000000000000000016, 0x100000000000000000000000017, 0x1000000000000000018, 0x1000000000000000019, 0x100000000000000001a,
  0x100000000000000001b, 0x1000000001c, 0x1000000001d, 0x1000000001e, 0x1000000001f, 0x10000000020, 0x10000000021, 0x10000000022,
  0x1000000000000000023, 0x1000000000000000024, 0x1000000000000000025, 0x100000000000000000000000026, 0x100000000000000000000000027,
  0x100000000000000000000000028, 0x10000000000000000000000000000000029, 0x1000000000000000000000000000000002a,
  0x1000000000000000000000000000000002b, 0x100000000000000000000000000000000000000002c, 0x100000000000000000000000000000000000000002d,
  0x100000000000000000000000000000000000000002e, 0x10000000000000000000000000000000000000000000000002f,
  0x100000000000000000000000000000000000000000000000030, 0x100000000000000000000000000000000000000000000000031,
  0x10000000000000000000000000000000000000000000000000000000032, 0x10000000000000000000000000000000000000000000000000000000033,
  0x10000000000000000000000000000000000000000000000000000000034, 0x1000000000000000000000000000000000000000000000000000000000000000035,
  0x1000000000000000000000000000000000000000000000000000000000000000036,
  0x1000000000000000000000000000000000000000000000000000000000000000037]

theorem c8 : check [] from_bytes (List.replicate 32 255) [] k8 (lin false 1 W (vars from_bytes.out) ++ lin true 1 (byteW 32) (argsA (List.replicate 32 255).length)) 0 from_bytes.out full = true := by decide +kernel

def k9 : List Nat :=
  [0x1000000000000000000000000000000000000000000000000000000000000000000, 0x10000000000000000000000000000000000000000000000000000000001,
  0x100000000000000000000000000000000000000000000000002, 0x1000000000000000000000000000000000000000003,
  0x10000000000000000000000000000000004, 0x100000000000000000000000005, 0x1000000000000000006, 0x10000000007, 0x10000000008, 0x1000000000009,
  0x100000000000a, 0x10000000000000b, 0x10000000000000c, 0x1000000000000000d, 0x100000000000000000e, 0x10000000000000000000f,
  0x100000000000000000010, 0x10000000000000000000011, 0x10000000000000000000012, 0x1000000000000000000000013, 0x100000000000000000000000014,
  0x10000000000000000000000000015, 0x10000000000000000000000000016, 0x1000000000000000000000000000017, 0x1000000000000000000000000000018,
  0x100000000000000000000000000000019, 0x1000000000000000000000000000000001a, 0x100000000000000000000000000000000001b,
  0x100000000000000000000000000000000001c, 0x10000000000000000000000000000000000001d, 0x10000000000000000000000000000000000001e,
  0x1000000000000000000000000000000000000001f, 0x1000000000000000000000000000000000000000020,
  0x100000000000000000000000000000000000000000021, 0x100000000000000000000000000000000000000000022,
  0x10000000000000000000000000000000000000000000023, 0x10000000000000000000000000000000000000000000024,
  0x1000000000000000000000000000000000000000000000025, 0x100000000000000000000000000000000000000000000000026,
  0x10000000000000000000000000000000000000000000000000027, 0x10000000000000000000000000000000000000000000000000028,
  0x1000000000000000000000000000000000000000000000000000029, 0x100000000000000000000000000000000000000000000000000002a,
  0x10000000000000000000000000000000000000000000000000000002b, 0x1000000000000000000000000000000000000000000000000000000002c,
  0x100000000000000000000000000000000000000000000000000000000002d, 0x100000000000000000000000000000000000000000000000000000000002e,
  0x10000000000000000000000000000000000000000000000000000000000002f, 0x100000000000000000000000000000000000000000000000000000000000030,
  0x10000000000000000000000000000000000000000000000000000000000000031, 0x1000000000000000000000000000000000000000000000000000000000000000032,
  0x100000000000000000000000000000000000000000000000000000000000000000033,
  0x100000000000000000000000000000000000000000000000000000000000000000034,
  0x10000000000000000000000000000000000000000000000000000000000000000000035,
  0x10000000000000000000000000000000000000000000000000000000000000000000036,
  0x1000000000000000000000000000000000000000000000000000000000000000000000037]

theorem c9 : check [] to_bytes full [] k9 (lin false 1 (byteW 32) (vars to_bytes.out) ++ lin true 1 W (argsA full.length)) 0 to_bytes.out (List.replicate 32 255) = true := by decide +kernel

/-- The field operations of the file, on words standing for numbers less than `p` in Montgomery form, are those modulo `p`. -/
theorem field_sound [Fact (Nat.Prime p)] : file.ops.Sound p 32 (montOk p W full) (montVal p R W) :=
  FiatMont.sound_of_checks (w := 4294967296) (R2 := R2) (W1 := W1) (full1 := full1) (K1 := k1) (K2 := k2) (K3 := k3) (K4 := k4) (K5 := k5) (J1 := k6) (J2 := k7)
    c1 c2 c3 c4 c5 c6 c7 c8 c9 (by decide +kernel) (by decide +kernel) (by decide +kernel) (by decide +kernel) (by decide +kernel) (by decide +kernel) (by decide +kernel) (by decide +kernel) (by decide +kernel) ⟨rfl, rfl, rfl, rfl, rfl, rfl, rfl⟩
    ⟨(by decide +kernel), (by decide +kernel), rfl, (by decide +kernel), (by decide +kernel)⟩ (by decide +kernel) (by decide +kernel) (by decide +kernel) (by decide +kernel)

end Gost.Ecp_Test_32
