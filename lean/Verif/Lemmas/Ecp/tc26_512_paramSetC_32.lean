import Verif.Model.Ecp.tc26_512_paramSetC_32
import Verif.Lemmas.FiatField
import Verif.Model.EcParams

/-!
# The field arithmetic of `/repo/ecp_id_tc26_gost_3410_2012_512_paramSetC.c`, 32 bit version

Certificates, generated by `tools/mkfiat.py`.
-/

namespace Gost.Ecp_tc26_512_paramSetC_32

open Fiat

set_option maxRecDepth 1000000

local notation "p" => ec_tc26_512_paramSetC.p

/-- The weights of the limbs. -/
def W : List Nat := [1, 0x800000, 0x200000000000, 0x80000000000000000, 0x40000000000000000000000, 0x10000000000000000000000000000, 0x4000000000000000000000000000000000, 0x1000000000000000000000000000000000000000, 0x800000000000000000000000000000000000000000000, 0x200000000000000000000000000000000000000000000000000, 0x80000000000000000000000000000000000000000000000000000000, 0x20000000000000000000000000000000000000000000000000000000000000, 0x10000000000000000000000000000000000000000000000000000000000000000000, 0x4000000000000000000000000000000000000000000000000000000000000000000000000, 0x1000000000000000000000000000000000000000000000000000000000000000000000000000000, 0x400000000000000000000000000000000000000000000000000000000000000000000000000000000000, 0x200000000000000000000000000000000000000000000000000000000000000000000000000000000000000000, 0x80000000000000000000000000000000000000000000000000000000000000000000000000000000000000000000000, 0x20000000000000000000000000000000000000000000000000000000000000000000000000000000000000000000000000000, 0x8000000000000000000000000000000000000000000000000000000000000000000000000000000000000000000000000000000000, 0x4000000000000000000000000000000000000000000000000000000000000000000000000000000000000000000000000000000000000000, 0x1000000000000000000000000000000000000000000000000000000000000000000000000000000000000000000000000000000000000000000000, 0x400000000000000000000000000000000000000000000000000000000000000000000000000000000000000000000000000000000000000000000000000]
/-- Bounds of the limbs of field elements. -/
def bal : List Nat := [0xfffb8e, 0x7ffffe, 0x7ffffe, 0xfffffe, 0x7ffffe, 0x7ffffe, 0x7ffffe, 0xfffffe, 0x7ffffe, 0x7ffffe, 0x7ffffe, 0xfffffe, 0x7ffffe, 0x7ffffe, 0x7ffffe, 0xfffffe, 0x7ffffe, 0x7ffffe, 0x7ffffe, 0xfffffe, 0x7ffffe, 0x7ffffe, 0x7ffffe]
/-- Bounds of the limbs of products, sums and differences. -/
def tight : List Nat := [0x800000, 0x400000, 0x400000, 0x800000, 0x400000, 0x400000, 0x400000, 0x800000, 0x400000, 0x400000, 0x400000, 0x800000, 0x400000, 0x400000, 0x400000, 0x800000, 0x400000, 0x400000, 0x400000, 0x800000, 0x400000, 0x400000, 0x400000]
/-- Bounds before the carries of sums and differences. -/
def wide : List Nat := [0x1fff71c, 0xfffffc, 0xfffffc, 0x1fffffc, 0xfffffc, 0xfffffc, 0xfffffc, 0x1fffffc, 0xfffffc, 0xfffffc, 0xfffffc, 0x1fffffc, 0xfffffc, 0xfffffc, 0xfffffc, 0x1fffffc, 0xfffffc, 0xfffffc, 0xfffffc, 0x1fffffc, 0xfffffc, 0xfffffc, 0xfffffc]
def sb : List Nat := [0x7fffff, 0x3fffff, 0x3fffff, 0x7fffff, 0x3fffff, 0x3fffff, 0x3fffff, 0x7fffff, 0x3fffff, 0x3fffff, 0x3fffff, 0x7fffff, 0x3fffff, 0x3fffff, 0x3fffff, 0x7fffff, 0x3fffff, 0x3fffff, 0x3fffff, 0x7fffff, 0x3fffff, 0x3fffff, 0x3fffff]

def k1 : List Nat :=
  [0x10000000000000000000000000000000000000000000000000000000000000000000000000000000000000000000000000000000000000000000000000000000,
  0x40000000000000000000000000000000000000000000000000000000000000000000000000000000000000000000000000000000000000000000000001,
  0x80000000000000000000000000000000000000000000000000000000000000000000000000000000000000000000000000000000000000000002,
  0x200000000000000000000000000000000000000000000000000000000000000000000000000000000000000000000000000000000000003,
  0x800000000000000000000000000000000000000000000000000000000000000000000000000000000000000000000000000000004,
  0x2000000000000000000000000000000000000000000000000000000000000000000000000000000000000000000000000005,
  0x4000000000000000000000000000000000000000000000000000000000000000000000000000000000000000000006,
  0x10000000000000000000000000000000000000000000000000000000000000000000000000000000000000007,
  0x40000000000000000000000000000000000000000000000000000000000000000000000000000000008,
  0x100000000000000000000000000000000000000000000000000000000000000000000000000009,
  0x20000000000000000000000000000000000000000000000000000000000000000000000a,
  0x80000000000000000000000000000000000000000000000000000000000000000b, 0x200000000000000000000000000000000000000000000000000000000000c,
  0x800000000000000000000000000000000000000000000000000000d, 0x1000000000000000000000000000000000000000000000000e,
  0x4000000000000000000000000000000000000000000f, 0x100000000000000000000000000000000000010, 0x400000000000000000000000000000011,
  0x800000000000000000000000012, 0x2000000000000000000013, 0x8000000000000014, 0x10000000015,
  0x40000000000000000000000000000000000000000000000000000000000000000000000000000000000000000000000000000000000000000000000016,
  0x80000000000000000000000000000000000000000000000000000000000000000000000000000000000000000000000000000000000000000017,
  0x200000000000000000000000000000000000000000000000000000000000000000000000000000000000000000000000000000000000018,
  0x800000000000000000000000000000000000000000000000000000000000000000000000000000000000000000000000000000019,
  0x200000000000000000000000000000000000000000000000000000000000000000000000000000000000000000000000001a,
  0x400000000000000000000000000000000000000000000000000000000000000000000000000000000000000000001b,
  0x1000000000000000000000000000000000000000000000000000000000000000000000000000000000000001c,
  0x4000000000000000000000000000000000000000000000000000000000000000000000000000000001d,
  0x10000000000000000000000000000000000000000000000000000000000000000000000000001e,
  0x20000000000000000000000000000000000000000000000000000000000000000000001f,
  0x800000000000000000000000000000000000000000000000000000000000000020, 0x2000000000000000000000000000000000000000000000000000000000021,
  0x8000000000000000000000000000000000000000000000000000022, 0x10000000000000000000000000000000000000000000000023,
  0x40000000000000000000000000000000000000000024, 0x100000000000000000000000000000000000025, 0x400000000000000000000000000000026,
  0x800000000000000000000000027, 0x2000000000000000000028, 0x8000000000000029, 0x1000000002a,
  0x8000000000000000000000000000000000000000000000000000000000000000000000000000000000000000000000000000000000000000002b,
  0x20000000000000000000000000000000000000000000000000000000000000000000000000000000000000000000000000000000000002c,
  0x80000000000000000000000000000000000000000000000000000000000000000000000000000000000000000000000000000002d,
  0x200000000000000000000000000000000000000000000000000000000000000000000000000000000000000000000000002e,
  0x400000000000000000000000000000000000000000000000000000000000000000000000000000000000000000002f,
  0x10000000000000000000000000000000000000000000000000000000000000000000000000000000000000030,
  0x40000000000000000000000000000000000000000000000000000000000000000000000000000000031,
  0x100000000000000000000000000000000000000000000000000000000000000000000000000032,
  0x200000000000000000000000000000000000000000000000000000000000000000000033,
  0x800000000000000000000000000000000000000000000000000000000000000034, 0x2000000000000000000000000000000000000000000000000000000000035,
  0x8000000000000000000000000000000000000000000000000000036, 0x10000000000000000000000000000000000000000000000037,
  0x40000000000000000000000000000000000000000038, 0x100000000000000000000000000000000000039, 0x40000000000000000000000000000003a,
  0x80000000000000000000000003b, 0x200000000000000000003c, 0x800000000000003d, 0x1000000003e,
  0x20000000000000000000000000000000000000000000000000000000000000000000000000000000000000000000000000000000000003f,
  0x800000000000000000000000000000000000000000000000000000000000000000000000000000000000000000000000000000040,
  0x2000000000000000000000000000000000000000000000000000000000000000000000000000000000000000000000000041,
  0x4000000000000000000000000000000000000000000000000000000000000000000000000000000000000000000042,
  0x10000000000000000000000000000000000000000000000000000000000000000000000000000000000000043,
  0x40000000000000000000000000000000000000000000000000000000000000000000000000000000044,
  0x100000000000000000000000000000000000000000000000000000000000000000000000000045,
  0x200000000000000000000000000000000000000000000000000000000000000000000046,
  0x800000000000000000000000000000000000000000000000000000000000000047, 0x2000000000000000000000000000000000000000000000000000000000048,
  0x8000000000000000000000000000000000000000000000000000049, 0x1000000000000000000000000000000000000000000000004a,
  0x4000000000000000000000000000000000000000004b, 0x10000000000000000000000000000000000004c, 0x40000000000000000000000000000004d,
  0x80000000000000000000000004e, 0x200000000000000000004f, 0x8000000000000050, 0x10000000051,
  0x800000000000000000000000000000000000000000000000000000000000000000000000000000000000000000000000000000052,
  0x2000000000000000000000000000000000000000000000000000000000000000000000000000000000000000000000000053,
  0x4000000000000000000000000000000000000000000000000000000000000000000000000000000000000000000054,
  0x10000000000000000000000000000000000000000000000000000000000000000000000000000000000000055,
  0x40000000000000000000000000000000000000000000000000000000000000000000000000000000056,
  0x100000000000000000000000000000000000000000000000000000000000000000000000000057,
  0x200000000000000000000000000000000000000000000000000000000000000000000058,
  0x800000000000000000000000000000000000000000000000000000000000000059, 0x200000000000000000000000000000000000000000000000000000000005a,
  0x800000000000000000000000000000000000000000000000000005b, 0x1000000000000000000000000000000000000000000000005c,
  0x4000000000000000000000000000000000000000005d, 0x10000000000000000000000000000000000005e, 0x40000000000000000000000000000005f,
  0x800000000000000000000000060, 0x2000000000000000000061, 0x8000000000000062, 0x10000000063,
  0x2000000000000000000000000000000000000000000000000000000000000000000000000000000000000000000000000064,
  0x4000000000000000000000000000000000000000000000000000000000000000000000000000000000000000000065,
  0x10000000000000000000000000000000000000000000000000000000000000000000000000000000000000066,
  0x40000000000000000000000000000000000000000000000000000000000000000000000000000000067,
  0x100000000000000000000000000000000000000000000000000000000000000000000000000068,
  0x200000000000000000000000000000000000000000000000000000000000000000000069,
  0x80000000000000000000000000000000000000000000000000000000000000006a, 0x200000000000000000000000000000000000000000000000000000000006b,
  0x800000000000000000000000000000000000000000000000000006c, 0x1000000000000000000000000000000000000000000000006d,
  0x4000000000000000000000000000000000000000006e, 0x10000000000000000000000000000000000006f, 0x400000000000000000000000000000070,
  0x800000000000000000000000071, 0x2000000000000000000072, 0x8000000000000073, 0x10000000074,
  0x4000000000000000000000000000000000000000000000000000000000000000000000000000000000000000000075,
  0x10000000000000000000000000000000000000000000000000000000000000000000000000000000000000076,
  0x40000000000000000000000000000000000000000000000000000000000000000000000000000000077,
  0x100000000000000000000000000000000000000000000000000000000000000000000000000078,
  0x200000000000000000000000000000000000000000000000000000000000000000000079,
  0x80000000000000000000000000000000000000000000000000000000000000007a, 0x200000000000000000000000000000000000000000000000000000000007b,
  0x800000000000000000000000000000000000000000000000000007c, 0x1000000000000000000000000000000000000000000000007d,
  0x4000000000000000000000000000000000000000007e, 0x10000000000000000000000000000000000007f, 0x400000000000000000000000000000080,
  0x800000000000000000000000081, 0x2000000000000000000082, 0x8000000000000083, 0x10000000084,
  0x10000000000000000000000000000000000000000000000000000000000000000000000000000000000000085,
  0x40000000000000000000000000000000000000000000000000000000000000000000000000000000086,
  0x100000000000000000000000000000000000000000000000000000000000000000000000000087,
  0x200000000000000000000000000000000000000000000000000000000000000000000088,
  0x800000000000000000000000000000000000000000000000000000000000000089, 0x200000000000000000000000000000000000000000000000000000000008a,
  0x800000000000000000000000000000000000000000000000000008b, 0x1000000000000000000000000000000000000000000000008c,
  0x4000000000000000000000000000000000000000008d, 0x10000000000000000000000000000000000008e, 0x40000000000000000000000000000008f,
  0x800000000000000000000000090, 0x2000000000000000000091, 0x8000000000000092, 0x10000000093,
  0x40000000000000000000000000000000000000000000000000000000000000000000000000000000094,
  0x100000000000000000000000000000000000000000000000000000000000000000000000000095,
  0x200000000000000000000000000000000000000000000000000000000000000000000096,
  0x800000000000000000000000000000000000000000000000000000000000000097, 0x2000000000000000000000000000000000000000000000000000000000098,
  0x8000000000000000000000000000000000000000000000000000099, 0x1000000000000000000000000000000000000000000000009a,
  0x4000000000000000000000000000000000000000009b, 0x10000000000000000000000000000000000009c, 0x40000000000000000000000000000009d,
  0x80000000000000000000000009e, 0x200000000000000000009f, 0x80000000000000a0, 0x100000000a1,
  0x1000000000000000000000000000000000000000000000000000000000000000000000000000a2,
  0x2000000000000000000000000000000000000000000000000000000000000000000000a3,
  0x8000000000000000000000000000000000000000000000000000000000000000a4, 0x20000000000000000000000000000000000000000000000000000000000a5,
  0x80000000000000000000000000000000000000000000000000000a6, 0x100000000000000000000000000000000000000000000000a7,
  0x400000000000000000000000000000000000000000a8, 0x1000000000000000000000000000000000000a9, 0x4000000000000000000000000000000aa,
  0x8000000000000000000000000ab, 0x20000000000000000000ac, 0x80000000000000ad, 0x100000000ae,
  0x2000000000000000000000000000000000000000000000000000000000000000000000af,
  0x8000000000000000000000000000000000000000000000000000000000000000b0, 0x20000000000000000000000000000000000000000000000000000000000b1,
  0x80000000000000000000000000000000000000000000000000000b2, 0x100000000000000000000000000000000000000000000000b3,
  0x400000000000000000000000000000000000000000b4, 0x1000000000000000000000000000000000000b5, 0x4000000000000000000000000000000b6,
  0x8000000000000000000000000b7, 0x20000000000000000000b8, 0x80000000000000b9, 0x100000000ba,
  0x8000000000000000000000000000000000000000000000000000000000000000bb, 0x20000000000000000000000000000000000000000000000000000000000bc,
  0x80000000000000000000000000000000000000000000000000000bd, 0x100000000000000000000000000000000000000000000000be,
  0x400000000000000000000000000000000000000000bf, 0x1000000000000000000000000000000000000c0, 0x4000000000000000000000000000000c1,
  0x8000000000000000000000000c2, 0x20000000000000000000c3, 0x80000000000000c4, 0x100000000c5,
  0x20000000000000000000000000000000000000000000000000000000000c6, 0x80000000000000000000000000000000000000000000000000000c7,
  0x100000000000000000000000000000000000000000000000c8, 0x400000000000000000000000000000000000000000c9,
  0x1000000000000000000000000000000000000ca, 0x4000000000000000000000000000000cb, 0x8000000000000000000000000cc, 0x20000000000000000000cd,
  0x80000000000000ce, 0x100000000cf, 0x80000000000000000000000000000000000000000000000000000d0,
  0x100000000000000000000000000000000000000000000000d1, 0x400000000000000000000000000000000000000000d2,
  0x1000000000000000000000000000000000000d3, 0x4000000000000000000000000000000d4, 0x8000000000000000000000000d5, 0x20000000000000000000d6,
  0x80000000000000d7, 0x100000000d8, 0x100000000000000000000000000000000000000000000000d9, 0x400000000000000000000000000000000000000000da,
  0x1000000000000000000000000000000000000db, 0x4000000000000000000000000000000dc, 0x8000000000000000000000000dd, 0x20000000000000000000de,
  0x80000000000000df, 0x100000000e0, 0x400000000000000000000000000000000000000000e1, 0x1000000000000000000000000000000000000e2,
  0x4000000000000000000000000000000e3, 0x8000000000000000000000000e4, 0x20000000000000000000e5, 0x80000000000000e6, 0x100000000e7,
  0x1000000000000000000000000000000000000e8, 0x4000000000000000000000000000000e9, 0x8000000000000000000000000ea, 0x20000000000000000000eb,
  0x80000000000000ec, 0x100000000ed, 0x4000000000000000000000000000000ee, 0x8000000000000000000000000ef, 0x20000000000000000000f0,
  0x80000000000000f1, 0x100000000f2, 0x8000000000000000000000000f3, 0x20000000000000000000f4, 0x80000000000000f5, 0x100000000f6,
  0x20000000000000000000f7, 0x80000000000000f8, 0x100000000f9, 0x80000000000000fa, 0x100000000fb, 0x100000000fc,
  0x40000000000000000000000000000000000000000000000000000000000000000000000000000000000000000000000000000000000000000000000000000000000fd,
  0x40000000000000000000000000000000000000000000000000000000000000000000000000000000000000000000000000000000000000000000000000000000000fe,
  0x100000000000000000000000000000000000000000000000000000000000000000000000000000000000000000000000000000000000000000000000000000ff,
  0x4000000000000000000000000000000000000000000000000000000000000000000000000000000000000000000000000000000000000000000000000000000000100,
  0x10000000000000000000000000000000000000000000000000000000000000000000000000000000000000000000000000000000000000000000000000000101,
  0x40000000000000000000000000000000000000000000000000000000000000000000000000000000000000000000000000000000000000000000000102,
  0x4000000000000000000000000000000000000000000000000000000000000000000000000000000000000000000000000000000000000000000000000000000000103,
  0x10000000000000000000000000000000000000000000000000000000000000000000000000000000000000000000000000000000000000000000000000000104,
  0x40000000000000000000000000000000000000000000000000000000000000000000000000000000000000000000000000000000000000000000000105,
  0x80000000000000000000000000000000000000000000000000000000000000000000000000000000000000000000000000000000000000000106,
  0x4000000000000000000000000000000000000000000000000000000000000000000000000000000000000000000000000000000000000000000000000000000000107,
  0x10000000000000000000000000000000000000000000000000000000000000000000000000000000000000000000000000000000000000000000000000000108,
  0x40000000000000000000000000000000000000000000000000000000000000000000000000000000000000000000000000000000000000000000000109,
  0x8000000000000000000000000000000000000000000000000000000000000000000000000000000000000000000000000000000000000000010a,
  0x20000000000000000000000000000000000000000000000000000000000000000000000000000000000000000000000000000000000010b,
  0x400000000000000000000000000000000000000000000000000000000000000000000000000000000000000000000000000000000000000000000000000000000010c,
  0x1000000000000000000000000000000000000000000000000000000000000000000000000000000000000000000000000000000000000000000000000000010d,
  0x4000000000000000000000000000000000000000000000000000000000000000000000000000000000000000000000000000000000000000000000010e,
  0x8000000000000000000000000000000000000000000000000000000000000000000000000000000000000000000000000000000000000000010f,
  0x200000000000000000000000000000000000000000000000000000000000000000000000000000000000000000000000000000000000110,
  0x800000000000000000000000000000000000000000000000000000000000000000000000000000000000000000000000000000111,
  0x4000000000000000000000000000000000000000000000000000000000000000000000000000000000000000000000000000000000000000000000000000000000112,
  0x10000000000000000000000000000000000000000000000000000000000000000000000000000000000000000000000000000000000000000000000000000113,
  0x40000000000000000000000000000000000000000000000000000000000000000000000000000000000000000000000000000000000000000000000114,
  0x80000000000000000000000000000000000000000000000000000000000000000000000000000000000000000000000000000000000000000115,
  0x200000000000000000000000000000000000000000000000000000000000000000000000000000000000000000000000000000000000116,
  0x800000000000000000000000000000000000000000000000000000000000000000000000000000000000000000000000000000117,
  0x2000000000000000000000000000000000000000000000000000000000000000000000000000000000000000000000000118,
  0x4000000000000000000000000000000000000000000000000000000000000000000000000000000000000000000000000000000000000000000000000000000000119,
  0x1000000000000000000000000000000000000000000000000000000000000000000000000000000000000000000000000000000000000000000000000000011a,
  0x4000000000000000000000000000000000000000000000000000000000000000000000000000000000000000000000000000000000000000000000011b,
  0x8000000000000000000000000000000000000000000000000000000000000000000000000000000000000000000000000000000000000000011c,
  0x20000000000000000000000000000000000000000000000000000000000000000000000000000000000000000000000000000000000011d,
  0x80000000000000000000000000000000000000000000000000000000000000000000000000000000000000000000000000000011e,
  0x200000000000000000000000000000000000000000000000000000000000000000000000000000000000000000000000011f,
  0x4000000000000000000000000000000000000000000000000000000000000000000000000000000000000000000120,
  0x4000000000000000000000000000000000000000000000000000000000000000000000000000000000000000000000000000000000000000000000000000000000121,
  0x10000000000000000000000000000000000000000000000000000000000000000000000000000000000000000000000000000000000000000000000000000122,
  0x40000000000000000000000000000000000000000000000000000000000000000000000000000000000000000000000000000000000000000000000123,
  0x80000000000000000000000000000000000000000000000000000000000000000000000000000000000000000000000000000000000000000124,
  0x200000000000000000000000000000000000000000000000000000000000000000000000000000000000000000000000000000000000125,
  0x800000000000000000000000000000000000000000000000000000000000000000000000000000000000000000000000000000126,
  0x2000000000000000000000000000000000000000000000000000000000000000000000000000000000000000000000000127,
  0x4000000000000000000000000000000000000000000000000000000000000000000000000000000000000000000128,
  0x10000000000000000000000000000000000000000000000000000000000000000000000000000000000000129,
  0x400000000000000000000000000000000000000000000000000000000000000000000000000000000000000000000000000000000000000000000000000000000012a,
  0x1000000000000000000000000000000000000000000000000000000000000000000000000000000000000000000000000000000000000000000000000000012b,
  0x4000000000000000000000000000000000000000000000000000000000000000000000000000000000000000000000000000000000000000000000012c,
  0x8000000000000000000000000000000000000000000000000000000000000000000000000000000000000000000000000000000000000000012d,
  0x20000000000000000000000000000000000000000000000000000000000000000000000000000000000000000000000000000000000012e,
  0x80000000000000000000000000000000000000000000000000000000000000000000000000000000000000000000000000000012f,
  0x2000000000000000000000000000000000000000000000000000000000000000000000000000000000000000000000000130,
  0x4000000000000000000000000000000000000000000000000000000000000000000000000000000000000000000131,
  0x10000000000000000000000000000000000000000000000000000000000000000000000000000000000000132,
  0x40000000000000000000000000000000000000000000000000000000000000000000000000000000133,
  0x4000000000000000000000000000000000000000000000000000000000000000000000000000000000000000000000000000000000000000000000000000000000134,
  0x10000000000000000000000000000000000000000000000000000000000000000000000000000000000000000000000000000000000000000000000000000135,
  0x40000000000000000000000000000000000000000000000000000000000000000000000000000000000000000000000000000000000000000000000136,
  0x80000000000000000000000000000000000000000000000000000000000000000000000000000000000000000000000000000000000000000137,
  0x200000000000000000000000000000000000000000000000000000000000000000000000000000000000000000000000000000000000138,
  0x800000000000000000000000000000000000000000000000000000000000000000000000000000000000000000000000000000139,
  0x200000000000000000000000000000000000000000000000000000000000000000000000000000000000000000000000013a,
  0x400000000000000000000000000000000000000000000000000000000000000000000000000000000000000000013b,
  0x1000000000000000000000000000000000000000000000000000000000000000000000000000000000000013c,
  0x4000000000000000000000000000000000000000000000000000000000000000000000000000000013d,
  0x10000000000000000000000000000000000000000000000000000000000000000000000000013e,
  0x400000000000000000000000000000000000000000000000000000000000000000000000000000000000000000000000000000000000000000000000000000000013f,
  0x10000000000000000000000000000000000000000000000000000000000000000000000000000000000000000000000000000000000000000000000000000140,
  0x40000000000000000000000000000000000000000000000000000000000000000000000000000000000000000000000000000000000000000000000141,
  0x80000000000000000000000000000000000000000000000000000000000000000000000000000000000000000000000000000000000000000142,
  0x200000000000000000000000000000000000000000000000000000000000000000000000000000000000000000000000000000000000143,
  0x800000000000000000000000000000000000000000000000000000000000000000000000000000000000000000000000000000144,
  0x2000000000000000000000000000000000000000000000000000000000000000000000000000000000000000000000000145,
  0x4000000000000000000000000000000000000000000000000000000000000000000000000000000000000000000146,
  0x10000000000000000000000000000000000000000000000000000000000000000000000000000000000000147,
  0x40000000000000000000000000000000000000000000000000000000000000000000000000000000148,
  0x100000000000000000000000000000000000000000000000000000000000000000000000000149,
  0x20000000000000000000000000000000000000000000000000000000000000000000014a,
  0x400000000000000000000000000000000000000000000000000000000000000000000000000000000000000000000000000000000000000000000000000000000014b,
  0x1000000000000000000000000000000000000000000000000000000000000000000000000000000000000000000000000000000000000000000000000000014c,
  0x4000000000000000000000000000000000000000000000000000000000000000000000000000000000000000000000000000000000000000000000014d,
  0x8000000000000000000000000000000000000000000000000000000000000000000000000000000000000000000000000000000000000000014e,
  0x20000000000000000000000000000000000000000000000000000000000000000000000000000000000000000000000000000000000014f,
  0x800000000000000000000000000000000000000000000000000000000000000000000000000000000000000000000000000000150,
  0x2000000000000000000000000000000000000000000000000000000000000000000000000000000000000000000000000151,
  0x4000000000000000000000000000000000000000000000000000000000000000000000000000000000000000000152,
  0x10000000000000000000000000000000000000000000000000000000000000000000000000000000000000153,
  0x40000000000000000000000000000000000000000000000000000000000000000000000000000000154,
  0x100000000000000000000000000000000000000000000000000000000000000000000000000155,
  0x200000000000000000000000000000000000000000000000000000000000000000000156,
  0x800000000000000000000000000000000000000000000000000000000000000157,
  0x4000000000000000000000000000000000000000000000000000000000000000000000000000000000000000000000000000000000000000000000000000000000158,
  0x10000000000000000000000000000000000000000000000000000000000000000000000000000000000000000000000000000000000000000000000000000159,
  0x4000000000000000000000000000000000000000000000000000000000000000000000000000000000000000000000000000000000000000000000015a,
  0x8000000000000000000000000000000000000000000000000000000000000000000000000000000000000000000000000000000000000000015b,
  0x20000000000000000000000000000000000000000000000000000000000000000000000000000000000000000000000000000000000015c,
  0x80000000000000000000000000000000000000000000000000000000000000000000000000000000000000000000000000000015d,
  0x200000000000000000000000000000000000000000000000000000000000000000000000000000000000000000000000015e,
  0x400000000000000000000000000000000000000000000000000000000000000000000000000000000000000000015f,
  0x10000000000000000000000000000000000000000000000000000000000000000000000000000000000000160,
  0x40000000000000000000000000000000000000000000000000000000000000000000000000000000161,
  0x100000000000000000000000000000000000000000000000000000000000000000000000000162,
  0x200000000000000000000000000000000000000000000000000000000000000000000163,
  0x800000000000000000000000000000000000000000000000000000000000000164, 0x2000000000000000000000000000000000000000000000000000000000165,
  0x4000000000000000000000000000000000000000000000000000000000000000000000000000000000000000000000000000000000000000000000000000000000166,
  0x10000000000000000000000000000000000000000000000000000000000000000000000000000000000000000000000000000000000000000000000000000167,
  0x40000000000000000000000000000000000000000000000000000000000000000000000000000000000000000000000000000000000000000000000168,
  0x80000000000000000000000000000000000000000000000000000000000000000000000000000000000000000000000000000000000000000169,
  0x20000000000000000000000000000000000000000000000000000000000000000000000000000000000000000000000000000000000016a,
  0x80000000000000000000000000000000000000000000000000000000000000000000000000000000000000000000000000000016b,
  0x200000000000000000000000000000000000000000000000000000000000000000000000000000000000000000000000016c,
  0x400000000000000000000000000000000000000000000000000000000000000000000000000000000000000000016d,
  0x1000000000000000000000000000000000000000000000000000000000000000000000000000000000000016e,
  0x4000000000000000000000000000000000000000000000000000000000000000000000000000000016f,
  0x100000000000000000000000000000000000000000000000000000000000000000000000000170,
  0x200000000000000000000000000000000000000000000000000000000000000000000171,
  0x800000000000000000000000000000000000000000000000000000000000000172, 0x2000000000000000000000000000000000000000000000000000000000173,
  0x8000000000000000000000000000000000000000000000000000174,
  0x4000000000000000000000000000000000000000000000000000000000000000000000000000000000000000000000000000000000000000000000000000000000175,
  0x10000000000000000000000000000000000000000000000000000000000000000000000000000000000000000000000000000000000000000000000000000176,
  0x40000000000000000000000000000000000000000000000000000000000000000000000000000000000000000000000000000000000000000000000177,
  0x80000000000000000000000000000000000000000000000000000000000000000000000000000000000000000000000000000000000000000178,
  0x200000000000000000000000000000000000000000000000000000000000000000000000000000000000000000000000000000000000179,
  0x80000000000000000000000000000000000000000000000000000000000000000000000000000000000000000000000000000017a,
  0x200000000000000000000000000000000000000000000000000000000000000000000000000000000000000000000000017b,
  0x400000000000000000000000000000000000000000000000000000000000000000000000000000000000000000017c,
  0x1000000000000000000000000000000000000000000000000000000000000000000000000000000000000017d,
  0x4000000000000000000000000000000000000000000000000000000000000000000000000000000017e,
  0x10000000000000000000000000000000000000000000000000000000000000000000000000017f,
  0x200000000000000000000000000000000000000000000000000000000000000000000180,
  0x800000000000000000000000000000000000000000000000000000000000000181, 0x2000000000000000000000000000000000000000000000000000000000182,
  0x8000000000000000000000000000000000000000000000000000183, 0x10000000000000000000000000000000000000000000000184,
  0x4000000000000000000000000000000000000000000000000000000000000000000000000000000000000000000000000000000000000000000000000000000000185,
  0x10000000000000000000000000000000000000000000000000000000000000000000000000000000000000000000000000000000000000000000000000000186,
  0x40000000000000000000000000000000000000000000000000000000000000000000000000000000000000000000000000000000000000000000000187,
  0x80000000000000000000000000000000000000000000000000000000000000000000000000000000000000000000000000000000000000000188,
  0x200000000000000000000000000000000000000000000000000000000000000000000000000000000000000000000000000000000000189,
  0x80000000000000000000000000000000000000000000000000000000000000000000000000000000000000000000000000000018a,
  0x200000000000000000000000000000000000000000000000000000000000000000000000000000000000000000000000018b,
  0x400000000000000000000000000000000000000000000000000000000000000000000000000000000000000000018c,
  0x1000000000000000000000000000000000000000000000000000000000000000000000000000000000000018d,
  0x4000000000000000000000000000000000000000000000000000000000000000000000000000000018e,
  0x10000000000000000000000000000000000000000000000000000000000000000000000000018f,
  0x200000000000000000000000000000000000000000000000000000000000000000000190,
  0x800000000000000000000000000000000000000000000000000000000000000191, 0x2000000000000000000000000000000000000000000000000000000000192,
  0x8000000000000000000000000000000000000000000000000000193, 0x10000000000000000000000000000000000000000000000194,
  0x40000000000000000000000000000000000000000195,
  0x4000000000000000000000000000000000000000000000000000000000000000000000000000000000000000000000000000000000000000000000000000000000196,
  0x10000000000000000000000000000000000000000000000000000000000000000000000000000000000000000000000000000000000000000000000000000197,
  0x40000000000000000000000000000000000000000000000000000000000000000000000000000000000000000000000000000000000000000000000198,
  0x80000000000000000000000000000000000000000000000000000000000000000000000000000000000000000000000000000000000000000199,
  0x20000000000000000000000000000000000000000000000000000000000000000000000000000000000000000000000000000000000019a,
  0x80000000000000000000000000000000000000000000000000000000000000000000000000000000000000000000000000000019b,
  0x200000000000000000000000000000000000000000000000000000000000000000000000000000000000000000000000019c,
  0x400000000000000000000000000000000000000000000000000000000000000000000000000000000000000000019d,
  0x1000000000000000000000000000000000000000000000000000000000000000000000000000000000000019e,
  0x4000000000000000000000000000000000000000000000000000000000000000000000000000000019f,
  0x1000000000000000000000000000000000000000000000000000000000000000000000000001a0,
  0x2000000000000000000000000000000000000000000000000000000000000000000001a1,
  0x8000000000000000000000000000000000000000000000000000000000000001a2, 0x20000000000000000000000000000000000000000000000000000000001a3,
  0x80000000000000000000000000000000000000000000000000001a4, 0x100000000000000000000000000000000000000000000001a5,
  0x400000000000000000000000000000000000000001a6, 0x1000000000000000000000000000000000001a7,
  0x40000000000000000000000000000000000000000000000000000000000000000000000000000000000000000000000000000000000000000000000000000000001a8,
  0x100000000000000000000000000000000000000000000000000000000000000000000000000000000000000000000000000000000000000000000000000001a9,
  0x400000000000000000000000000000000000000000000000000000000000000000000000000000000000000000000000000000000000000000000001aa,
  0x800000000000000000000000000000000000000000000000000000000000000000000000000000000000000000000000000000000000000001ab,
  0x2000000000000000000000000000000000000000000000000000000000000000000000000000000000000000000000000000000000001ac,
  0x8000000000000000000000000000000000000000000000000000000000000000000000000000000000000000000000000000001ad,
  0x20000000000000000000000000000000000000000000000000000000000000000000000000000000000000000000000001ae,
  0x40000000000000000000000000000000000000000000000000000000000000000000000000000000000000000001af,
  0x100000000000000000000000000000000000000000000000000000000000000000000000000000000000001b0,
  0x400000000000000000000000000000000000000000000000000000000000000000000000000000001b1,
  0x1000000000000000000000000000000000000000000000000000000000000000000000000001b2,
  0x2000000000000000000000000000000000000000000000000000000000000000000001b3,
  0x8000000000000000000000000000000000000000000000000000000000000001b4, 0x20000000000000000000000000000000000000000000000000000000001b5,
  0x80000000000000000000000000000000000000000000000000001b6, 0x100000000000000000000000000000000000000000000001b7,
  0x400000000000000000000000000000000000000001b8, 0x1000000000000000000000000000000000001b9, 0x4000000000000000000000000000001ba,
  0x40000000000000000000000000000000000000000000000000000000000000000000000000000000000000000000000000000000000000000000000000000000001bb,
  0x100000000000000000000000000000000000000000000000000000000000000000000000000000000000000000000000000000000000000000000000000001bc,
  0x400000000000000000000000000000000000000000000000000000000000000000000000000000000000000000000000000000000000000000000001bd,
  0x800000000000000000000000000000000000000000000000000000000000000000000000000000000000000000000000000000000000000001be,
  0x2000000000000000000000000000000000000000000000000000000000000000000000000000000000000000000000000000000000001bf,
  0x8000000000000000000000000000000000000000000000000000000000000000000000000000000000000000000000000000001c0,
  0x20000000000000000000000000000000000000000000000000000000000000000000000000000000000000000000000001c1,
  0x40000000000000000000000000000000000000000000000000000000000000000000000000000000000000000001c2,
  0x100000000000000000000000000000000000000000000000000000000000000000000000000000000000001c3,
  0x400000000000000000000000000000000000000000000000000000000000000000000000000000001c4,
  0x1000000000000000000000000000000000000000000000000000000000000000000000000001c5,
  0x2000000000000000000000000000000000000000000000000000000000000000000001c6,
  0x8000000000000000000000000000000000000000000000000000000000000001c7, 0x20000000000000000000000000000000000000000000000000000000001c8,
  0x80000000000000000000000000000000000000000000000000001c9, 0x100000000000000000000000000000000000000000000001ca,
  0x400000000000000000000000000000000000000001cb, 0x1000000000000000000000000000000000001cc, 0x4000000000000000000000000000001cd,
  0x8000000000000000000000001ce,
  0x40000000000000000000000000000000000000000000000000000000000000000000000000000000000000000000000000000000000000000000000000000000001cf,
  0x100000000000000000000000000000000000000000000000000000000000000000000000000000000000000000000000000000000000000000000000000001d0,
  0x400000000000000000000000000000000000000000000000000000000000000000000000000000000000000000000000000000000000000000000001d1,
  0x800000000000000000000000000000000000000000000000000000000000000000000000000000000000000000000000000000000000000001d2,
  0x2000000000000000000000000000000000000000000000000000000000000000000000000000000000000000000000000000000000001d3,
  0x8000000000000000000000000000000000000000000000000000000000000000000000000000000000000000000000000000001d4,
  0x20000000000000000000000000000000000000000000000000000000000000000000000000000000000000000000000001d5,
  0x40000000000000000000000000000000000000000000000000000000000000000000000000000000000000000001d6,
  0x100000000000000000000000000000000000000000000000000000000000000000000000000000000000001d7,
  0x400000000000000000000000000000000000000000000000000000000000000000000000000000001d8,
  0x1000000000000000000000000000000000000000000000000000000000000000000000000001d9,
  0x2000000000000000000000000000000000000000000000000000000000000000000001da,
  0x8000000000000000000000000000000000000000000000000000000000000001db, 0x20000000000000000000000000000000000000000000000000000000001dc,
  0x80000000000000000000000000000000000000000000000000001dd, 0x100000000000000000000000000000000000000000000001de,
  0x400000000000000000000000000000000000000001df, 0x1000000000000000000000000000000000001e0, 0x4000000000000000000000000000001e1,
  0x8000000000000000000000001e2, 0x20000000000000000001e3,
  0x40000000000000000000000000000000000000000000000000000000000000000000000000000000000000000000000000000000000000000000000000000000001e4,
  0x100000000000000000000000000000000000000000000000000000000000000000000000000000000000000000000000000000000000000000000000000001e5,
  0x400000000000000000000000000000000000000000000000000000000000000000000000000000000000000000000000000000000000000000000001e6,
  0x800000000000000000000000000000000000000000000000000000000000000000000000000000000000000000000000000000000000000001e7,
  0x2000000000000000000000000000000000000000000000000000000000000000000000000000000000000000000000000000000000001e8,
  0x8000000000000000000000000000000000000000000000000000000000000000000000000000000000000000000000000000001e9,
  0x20000000000000000000000000000000000000000000000000000000000000000000000000000000000000000000000001ea,
  0x40000000000000000000000000000000000000000000000000000000000000000000000000000000000000000001eb,
  0x100000000000000000000000000000000000000000000000000000000000000000000000000000000000001ec,
  0x400000000000000000000000000000000000000000000000000000000000000000000000000000001ed,
  0x1000000000000000000000000000000000000000000000000000000000000000000000000001ee,
  0x2000000000000000000000000000000000000000000000000000000000000000000001ef,
  0x8000000000000000000000000000000000000000000000000000000000000001f0, 0x20000000000000000000000000000000000000000000000000000000001f1,
  0x80000000000000000000000000000000000000000000000000001f2, 0x100000000000000000000000000000000000000000000001f3,
  0x400000000000000000000000000000000000000001f4, 0x1000000000000000000000000000000000001f5, 0x4000000000000000000000000000001f6,
  0x8000000000000000000000001f7, 0x20000000000000000001f8, 0x80000000000001f9,
  0x40000000000000000000000000000000000000000000000000000000000000000000000000000000000000000000000000000000000000000000000000000000001fa,
  0x100000000000000000000000000000000000000000000000000000000000000000000000000000000000000000000000000000000000000000000000000001fb,
  0x400000000000000000000000000000000000000000000000000000000000000000000000000000000000000000000000000000000000000000000001fc,
  0x800000000000000000000000000000000000000000000000000000000000000000000000000000000000000000000000000000000000000001fd,
  0x2000000000000000000000000000000000000000000000000000000000000000000000000000000000000000000000000000000000001fe,
  0x8000000000000000000000000000000000000000000000000000000000000000000000000000000000000000000000000000001ff,
  0x2000000000000000000000000000000000000000000000000000000000000000000000000000000000000000000000000200,
  0x4000000000000000000000000000000000000000000000000000000000000000000000000000000000000000000201,
  0x10000000000000000000000000000000000000000000000000000000000000000000000000000000000000202,
  0x40000000000000000000000000000000000000000000000000000000000000000000000000000000203,
  0x100000000000000000000000000000000000000000000000000000000000000000000000000204,
  0x200000000000000000000000000000000000000000000000000000000000000000000205,
  0x800000000000000000000000000000000000000000000000000000000000000206, 0x2000000000000000000000000000000000000000000000000000000000207,
  0x8000000000000000000000000000000000000000000000000000208, 0x10000000000000000000000000000000000000000000000209,
  0x4000000000000000000000000000000000000000020a, 0x10000000000000000000000000000000000020b, 0x40000000000000000000000000000020c,
  0x80000000000000000000000020d, 0x200000000000000000020e, 0x800000000000020f, 0x10000000210, 0x10000000211, 0x8000000000000212,
  0x10000000213,
  0x4000000000000000000000000000000000000000000000000000000000000000000000000000000000000000000000000000000000000000000000000000000000214,
  0x10000000000000000000000000000000000000000000000000000000000000000000000000000000000000000000000000000000000000000000000000000215,
  0x40000000000000000000000000000000000000000000000000000000000000000000000000000000000000000000000000000000000000000000000216,
  0x80000000000000000000000000000000000000000000000000000000000000000000000000000000000000000000000000000000000000000217,
  0x200000000000000000000000000000000000000000000000000000000000000000000000000000000000000000000000000000000000218,
  0x800000000000000000000000000000000000000000000000000000000000000000000000000000000000000000000000000000219,
  0x200000000000000000000000000000000000000000000000000000000000000000000000000000000000000000000000021a,
  0x400000000000000000000000000000000000000000000000000000000000000000000000000000000000000000021b,
  0x1000000000000000000000000000000000000000000000000000000000000000000000000000000000000021c,
  0x4000000000000000000000000000000000000000000000000000000000000000000000000000000021d,
  0x10000000000000000000000000000000000000000000000000000000000000000000000000021e,
  0x20000000000000000000000000000000000000000000000000000000000000000000021f,
  0x800000000000000000000000000000000000000000000000000000000000000220, 0x2000000000000000000000000000000000000000000000000000000000221,
  0x8000000000000000000000000000000000000000000000000000222, 0x10000000000000000000000000000000000000000000000223,
  0x40000000000000000000000000000000000000000224, 0x100000000000000000000000000000000000225, 0x400000000000000000000000000000226,
  0x800000000000000000000000227, 0x2000000000000000000228, 0x8000000000000229, 0x800000000000022a, 0x200000000000000000022b,
  0x800000000000022c, 0x200000000000000000022d, 0x80000000000000000000000022e, 0x200000000000000000022f, 0x800000000000000000000000230,
  0x400000000000000000000000000000231, 0x800000000000000000000000232, 0x400000000000000000000000000000233,
  0x100000000000000000000000000000000000234, 0x400000000000000000000000000000235, 0x100000000000000000000000000000000000236,
  0x40000000000000000000000000000000000000000237, 0x100000000000000000000000000000000000238, 0x40000000000000000000000000000000000000000239,
  0x1000000000000000000000000000000000000000000000023a, 0x4000000000000000000000000000000000000000023b,
  0x1000000000000000000000000000000000000000000000023c, 0x800000000000000000000000000000000000000000000000000023d,
  0x1000000000000000000000000000000000000000000000023e, 0x800000000000000000000000000000000000000000000000000023f,
  0x2000000000000000000000000000000000000000000000000000000000240, 0x8000000000000000000000000000000000000000000000000000241,
  0x2000000000000000000000000000000000000000000000000000000000242, 0x800000000000000000000000000000000000000000000000000000000000000243,
  0x2000000000000000000000000000000000000000000000000000000000244, 0x800000000000000000000000000000000000000000000000000000000000000245,
  0x200000000000000000000000000000000000000000000000000000000000000000000246,
  0x800000000000000000000000000000000000000000000000000000000000000247,
  0x200000000000000000000000000000000000000000000000000000000000000000000248,
  0x100000000000000000000000000000000000000000000000000000000000000000000000000249,
  0x20000000000000000000000000000000000000000000000000000000000000000000024a,
  0x10000000000000000000000000000000000000000000000000000000000000000000000000024b,
  0x4000000000000000000000000000000000000000000000000000000000000000000000000000000024c,
  0x10000000000000000000000000000000000000000000000000000000000000000000000000024d,
  0x4000000000000000000000000000000000000000000000000000000000000000000000000000000024e,
  0x1000000000000000000000000000000000000000000000000000000000000000000000000000000000000024f,
  0x40000000000000000000000000000000000000000000000000000000000000000000000000000000250,
  0x10000000000000000000000000000000000000000000000000000000000000000000000000000000000000251,
  0x4000000000000000000000000000000000000000000000000000000000000000000000000000000000000000000252,
  0x10000000000000000000000000000000000000000000000000000000000000000000000000000000000000253,
  0x4000000000000000000000000000000000000000000000000000000000000000000000000000000000000000000254,
  0x2000000000000000000000000000000000000000000000000000000000000000000000000000000000000000000000000255,
  0x4000000000000000000000000000000000000000000000000000000000000000000000000000000000000000000256,
  0x2000000000000000000000000000000000000000000000000000000000000000000000000000000000000000000000000257,
  0x800000000000000000000000000000000000000000000000000000000000000000000000000000000000000000000000000000258,
  0x2000000000000000000000000000000000000000000000000000000000000000000000000000000000000000000000000259,
  0x80000000000000000000000000000000000000000000000000000000000000000000000000000000000000000000000000000025a,
  0x20000000000000000000000000000000000000000000000000000000000000000000000000000000000000000000000000000000000025b,
  0x80000000000000000000000000000000000000000000000000000000000000000000000000000000000000000000000000000025c,
  0x20000000000000000000000000000000000000000000000000000000000000000000000000000000000000000000000000000000000025d,
  0x8000000000000000000000000000000000000000000000000000000000000000000000000000000000000000000000000000000000000000025e,
  0x20000000000000000000000000000000000000000000000000000000000000000000000000000000000000000000000000000000000025f,
  0x80000000000000000000000000000000000000000000000000000000000000000000000000000000000000000000000000000000000000000260,
  0x40000000000000000000000000000000000000000000000000000000000000000000000000000000000000000000000000000000000000000000000261,
  0x80000000000000000000000000000000000000000000000000000000000000000000000000000000000000000000000000000000000000000262,
  0x40000000000000000000000000000000000000000000000000000000000000000000000000000000000000000000000000000000000000000000000263,
  0x10000000000000000000000000000000000000000000000000000000000000000000000000000000000000000000000000000000000000000000000000000264,
  0x40000000000000000000000000000000000000000000000000000000000000000000000000000000000000000000000000000000000000000000000265,
  0x10000000000000000000000000000000000000000000000000000000000000000000000000000000000000000000000000000000000000000000000000000266,
  0x4000000000000000000000000000000000000000000000000000000000000000000000000000000000000000000000000000000000000000000000000000000000267,
  0x10000000000000000000000000000000000000000000000000000000000000000000000000000000000000000000000000000000000000000000000000000268,
  0x4000000000000000000000000000000000000000000000000000000000000000000000000000000000000000000000000000000000000000000000000000000000269,
  0x239000000026a,
  0x400000000000000000000000000000000000000000000000000000000000000000000000000000000000000000000000000000000000000000000000000000000026b,
  0x1000000026c, 0x1000000026d, 0x800000000000026e, 0x1000000026f, 0x8000000000000270, 0x2000000000000000000271, 0x8000000000000272,
  0x2000000000000000000273]

theorem c1 : check [] carry_mul bal bal k1 (lin false 1 W (vars carry_mul.out) ++ prodForm true W (argsA bal.length) (argsB bal.length)) p carry_mul.out tight = true := by decide +kernel

def k2 : List Nat :=
  [0x80000000000000000000000000000000000000000000000000000000000000000000000000000000000000000000000000000000000000000005500000,
  0x200000000000000000000000000000000000000000000000000000000000000000000000000000000000000000000000000000000000005100000,
  0x400000000000000000000000000000000000000000000000000000000000000000000000000000000000000000000000000000004d00000,
  0x1000000000000000000000000000000000000000000000000000000000000000000000000000000000000000000000000004900000,
  0x4000000000000000000000000000000000000000000000000000000000000000000000000000000000000000000004500000,
  0x10000000000000000000000000000000000000000000000000000000000000000000000000000000000000004100000,
  0x20000000000000000000000000000000000000000000000000000000000000000000000000000000003d00000,
  0x80000000000000000000000000000000000000000000000000000000000000000000000000003900000,
  0x200000000000000000000000000000000000000000000000000000000000000000000003500000,
  0x800000000000000000000000000000000000000000000000000000000000000003100000,
  0x1000000000000000000000000000000000000000000000000000000000002d00000, 0x4000000000000000000000000000000000000000000000000000002900000,
  0x10000000000000000000000000000000000000000000000002500000, 0x40000000000000000000000000000000000000000002100000,
  0x80000000000000000000000000000000000001d00000, 0x200000000000000000000000000000001900000, 0x800000000000000000000000001500000,
  0x2000000000000000000001100000, 0x4000000000000000d00000, 0x10000000000900000, 0x40000500000,
  0x10000000000000000000000000000000000000000000000000000000000000000000000000000000000000000000000000000000000000000000000005900000,
  0x40000000000000000000000000000000000000000000000000000000000000000000000000000000000000000000000000000000000000000005500001,
  0x100000000000000000000000000000000000000000000000000000000000000000000000000000000000000000000000000000000000005100001,
  0x200000000000000000000000000000000000000000000000000000000000000000000000000000000000000000000000000000004d00001,
  0x800000000000000000000000000000000000000000000000000000000000000000000000000000000000000000000000004900001,
  0x2000000000000000000000000000000000000000000000000000000000000000000000000000000000000000000004500001,
  0x8000000000000000000000000000000000000000000000000000000000000000000000000000000000000004100001,
  0x10000000000000000000000000000000000000000000000000000000000000000000000000000000003d00001,
  0x40000000000000000000000000000000000000000000000000000000000000000000000000003900001,
  0x100000000000000000000000000000000000000000000000000000000000000000000003500001,
  0x400000000000000000000000000000000000000000000000000000000000000003100001,
  0x800000000000000000000000000000000000000000000000000000000002d00001, 0x2000000000000000000000000000000000000000000000000000002900001,
  0x8000000000000000000000000000000000000000000000002500001, 0x20000000000000000000000000000000000000000002100001,
  0x40000000000000000000000000000000000001d00001, 0x100000000000000000000000000000001900001, 0x400000000000000000000000001500001,
  0x1000000000000000000001100001, 0x2000000000000000d00001, 0x8000000000900001, 0x20000500001,
  0x4000000000000000000000000000000000000000000000000000000000000000000000000000000000000000000000000000000000000000000000000000000100002,
  0x800000000000000000000000000000000000000000000000000000000000000000000000000000000000000000000000000000005100003,
  0x1000000000000000000000000000000000000000000000000000000000000000000000000000000000000000000000000004d00003,
  0x4000000000000000000000000000000000000000000000000000000000000000000000000000000000000000000004900003,
  0x10000000000000000000000000000000000000000000000000000000000000000000000000000000000000004500003,
  0x40000000000000000000000000000000000000000000000000000000000000000000000000000000004100003,
  0x80000000000000000000000000000000000000000000000000000000000000000000000000003d00003,
  0x200000000000000000000000000000000000000000000000000000000000000000000003900003,
  0x800000000000000000000000000000000000000000000000000000000000000003500003,
  0x2000000000000000000000000000000000000000000000000000000000003100003, 0x4000000000000000000000000000000000000000000000000000002d00003,
  0x10000000000000000000000000000000000000000000000002900003, 0x40000000000000000000000000000000000000000002500003,
  0x100000000000000000000000000000000000002100003, 0x200000000000000000000000000000001d00003, 0x800000000000000000000000001900003,
  0x2000000000000000000001500003, 0x8000000000000001100003, 0x10000000000d00003, 0x40000900003,
  0x100000000000000000000000000000000000000000000000000000000000000000000000000000000000000000000000000000000000005500003,
  0x400000000000000000000000000000000000000000000000000000000000000000000000000000000000000000000000000000005100004,
  0x800000000000000000000000000000000000000000000000000000000000000000000000000000000000000000000000004d00004,
  0x2000000000000000000000000000000000000000000000000000000000000000000000000000000000000000000004900004,
  0x8000000000000000000000000000000000000000000000000000000000000000000000000000000000000004500004,
  0x20000000000000000000000000000000000000000000000000000000000000000000000000000000004100004,
  0x40000000000000000000000000000000000000000000000000000000000000000000000000003d00004,
  0x100000000000000000000000000000000000000000000000000000000000000000000003900004,
  0x400000000000000000000000000000000000000000000000000000000000000003500004,
  0x1000000000000000000000000000000000000000000000000000000000003100004, 0x2000000000000000000000000000000000000000000000000000002d00004,
  0x8000000000000000000000000000000000000000000000002900004, 0x20000000000000000000000000000000000000000002500004,
  0x80000000000000000000000000000000000002100004, 0x100000000000000000000000000000001d00004, 0x400000000000000000000000001900004,
  0x1000000000000000000001500004, 0x4000000000000001100004, 0x8000000000d00004, 0x20000900004,
  0x8000000000000000000000000000000000000000000000000000000000000000000000000000000000000000000000000000000000000000000000000000000500005,
  0x10000000000000000000000000000000000000000000000000000000000000000000000000000000000000000000000000000000000000000000000000100005,
  0x4000000000000000000000000000000000000000000000000000000000000000000000000000000000000000000004d00006,
  0x10000000000000000000000000000000000000000000000000000000000000000000000000000000000000004900006,
  0x40000000000000000000000000000000000000000000000000000000000000000000000000000000004500006,
  0x100000000000000000000000000000000000000000000000000000000000000000000000000004100006,
  0x200000000000000000000000000000000000000000000000000000000000000000000003d00006,
  0x800000000000000000000000000000000000000000000000000000000000000003900006,
  0x2000000000000000000000000000000000000000000000000000000000003500006, 0x8000000000000000000000000000000000000000000000000000003100006,
  0x10000000000000000000000000000000000000000000000002d00006, 0x40000000000000000000000000000000000000000002900006,
  0x100000000000000000000000000000000000002500006, 0x400000000000000000000000000000002100006, 0x800000000000000000000000001d00006,
  0x2000000000000000000001900006, 0x8000000000000001500006, 0x20000000001100006, 0x40000d00006,
  0x1000000000000000000000000000000000000000000000000000000000000000000000000000000000000000000000000005100006,
  0x2000000000000000000000000000000000000000000000000000000000000000000000000000000000000000000004d00007,
  0x8000000000000000000000000000000000000000000000000000000000000000000000000000000000000004900007,
  0x20000000000000000000000000000000000000000000000000000000000000000000000000000000004500007,
  0x80000000000000000000000000000000000000000000000000000000000000000000000000004100007,
  0x100000000000000000000000000000000000000000000000000000000000000000000003d00007,
  0x400000000000000000000000000000000000000000000000000000000000000003900007,
  0x1000000000000000000000000000000000000000000000000000000000003500007, 0x4000000000000000000000000000000000000000000000000000003100007,
  0x8000000000000000000000000000000000000000000000002d00007, 0x20000000000000000000000000000000000000000002900007,
  0x80000000000000000000000000000000000002500007, 0x200000000000000000000000000000002100007, 0x400000000000000000000000001d00007,
  0x1000000000000000000001900007, 0x4000000000000001500007, 0x10000000001100007, 0x20000d00007,
  0x8000000000000000000000000000000000000000000000000000000000000000000000000000000000000000000000000000000000000000000000000000000900008,
  0x20000000000000000000000000000000000000000000000000000000000000000000000000000000000000000000000000000000000000000000000000500008,
  0x40000000000000000000000000000000000000000000000000000000000000000000000000000000000000000000000000000000000000000000100008,
  0x20000000000000000000000000000000000000000000000000000000000000000000000000000000004900009,
  0x80000000000000000000000000000000000000000000000000000000000000000000000000004500009,
  0x200000000000000000000000000000000000000000000000000000000000000000000004100009,
  0x400000000000000000000000000000000000000000000000000000000000000003d00009,
  0x1000000000000000000000000000000000000000000000000000000000003900009, 0x4000000000000000000000000000000000000000000000000000003500009,
  0x10000000000000000000000000000000000000000000000003100009, 0x20000000000000000000000000000000000000000002d00009,
  0x80000000000000000000000000000000000002900009, 0x200000000000000000000000000000002500009, 0x800000000000000000000000002100009,
  0x1000000000000000000001d00009, 0x4000000000000001900009, 0x10000000001500009, 0x40001100009,
  0x4000000000000000000000000000000000000000000000000000000000000000000000000000000000000004d00009,
  0x1000000000000000000000000000000000000000000000000000000000000000000000000000000000490000a,
  0x4000000000000000000000000000000000000000000000000000000000000000000000000000450000a,
  0x10000000000000000000000000000000000000000000000000000000000000000000000410000a,
  0x200000000000000000000000000000000000000000000000000000000000000003d0000a,
  0x80000000000000000000000000000000000000000000000000000000000390000a, 0x200000000000000000000000000000000000000000000000000000350000a,
  0x800000000000000000000000000000000000000000000000310000a, 0x10000000000000000000000000000000000000000002d0000a,
  0x4000000000000000000000000000000000000290000a, 0x10000000000000000000000000000000250000a, 0x40000000000000000000000000210000a,
  0x800000000000000000001d0000a, 0x200000000000000190000a, 0x800000000150000a, 0x2000110000a,
  0x4000000000000000000000000000000000000000000000000000000000000000000000000000000000000000000000000000000000000000000000000000000d0000b,
  0x1000000000000000000000000000000000000000000000000000000000000000000000000000000000000000000000000000000000000000000000000090000b,
  0x4000000000000000000000000000000000000000000000000000000000000000000000000000000000000000000000000000000000000000000050000b,
  0x8000000000000000000000000000000000000000000000000000000000000000000000000000000000000000000000000000000000000010000b,
  0x20000000000000000000000000000000000000000000000000000000000000000000000450000c,
  0x80000000000000000000000000000000000000000000000000000000000000000410000c,
  0x1000000000000000000000000000000000000000000000000000000000003d0000c, 0x400000000000000000000000000000000000000000000000000000390000c,
  0x1000000000000000000000000000000000000000000000000350000c, 0x4000000000000000000000000000000000000000000310000c,
  0x80000000000000000000000000000000000002d0000c, 0x20000000000000000000000000000000290000c, 0x80000000000000000000000000250000c,
  0x200000000000000000000210000c, 0x4000000000000001d0000c, 0x1000000000190000c, 0x4000150000c,
  0x4000000000000000000000000000000000000000000000000000000000000000000000000000490000c,
  0x10000000000000000000000000000000000000000000000000000000000000000000000450000d,
  0x40000000000000000000000000000000000000000000000000000000000000000410000d,
  0x800000000000000000000000000000000000000000000000000000000003d0000d, 0x200000000000000000000000000000000000000000000000000000390000d,
  0x800000000000000000000000000000000000000000000000350000d, 0x2000000000000000000000000000000000000000000310000d,
  0x40000000000000000000000000000000000002d0000d, 0x10000000000000000000000000000000290000d, 0x40000000000000000000000000250000d,
  0x100000000000000000000210000d, 0x2000000000000001d0000d, 0x800000000190000d, 0x2000150000d,
  0x800000000000000000000000000000000000000000000000000000000000000000000000000000000000000000000000000000000000000000000000000000110000e,
  0x10000000000000000000000000000000000000000000000000000000000000000000000000000000000000000000000000000000000000000000000000d0000e,
  0x4000000000000000000000000000000000000000000000000000000000000000000000000000000000000000000000000000000000000000000090000e,
  0x10000000000000000000000000000000000000000000000000000000000000000000000000000000000000000000000000000000000000050000e,
  0x20000000000000000000000000000000000000000000000000000000000000000000000000000000000000000000000000000000010000e,
  0x200000000000000000000000000000000000000000000000000000000000410000f, 0x4000000000000000000000000000000000000000000000000000003d0000f,
  0x1000000000000000000000000000000000000000000000000390000f, 0x4000000000000000000000000000000000000000000350000f,
  0x10000000000000000000000000000000000000310000f, 0x200000000000000000000000000000002d0000f, 0x80000000000000000000000000290000f,
  0x200000000000000000000250000f, 0x800000000000000210000f, 0x10000000001d0000f, 0x4000190000f,
  0x40000000000000000000000000000000000000000000000000000000000000000450000f,
  0x1000000000000000000000000000000000000000000000000000000000004100010, 0x2000000000000000000000000000000000000000000000000000003d00010,
  0x8000000000000000000000000000000000000000000000003900010, 0x20000000000000000000000000000000000000000003500010,
  0x80000000000000000000000000000000000003100010, 0x100000000000000000000000000000002d00010, 0x400000000000000000000000002900010,
  0x1000000000000000000002500010, 0x4000000000000002100010, 0x8000000001d00010, 0x20001900010,
  0x8000000000000000000000000000000000000000000000000000000000000000000000000000000000000000000000000000000000000000000000000000001500011,
  0x20000000000000000000000000000000000000000000000000000000000000000000000000000000000000000000000000000000000000000000000001100011,
  0x40000000000000000000000000000000000000000000000000000000000000000000000000000000000000000000000000000000000000000000d00011,
  0x100000000000000000000000000000000000000000000000000000000000000000000000000000000000000000000000000000000000000900011,
  0x400000000000000000000000000000000000000000000000000000000000000000000000000000000000000000000000000000000500011,
  0x800000000000000000000000000000000000000000000000000000000000000000000000000000000000000000000000000100011,
  0x10000000000000000000000000000000000000000000000003d00012, 0x40000000000000000000000000000000000000000003900012,
  0x100000000000000000000000000000000000003500012, 0x400000000000000000000000000000003100012, 0x800000000000000000000000002d00012,
  0x2000000000000000000002900012, 0x8000000000000002500012, 0x20000000002100012, 0x40001d00012,
  0x4000000000000000000000000000000000000000000000000000004100012, 0x8000000000000000000000000000000000000000000000003d00013,
  0x20000000000000000000000000000000000000000003900013, 0x80000000000000000000000000000000000003500013,
  0x200000000000000000000000000000003100013, 0x400000000000000000000000002d00013, 0x1000000000000000000002900013, 0x4000000000000002500013,
  0x10000000002100013, 0x20001d00013,
  0x8000000000000000000000000000000000000000000000000000000000000000000000000000000000000000000000000000000000000000000000000000001900014,
  0x20000000000000000000000000000000000000000000000000000000000000000000000000000000000000000000000000000000000000000000000001500014,
  0x80000000000000000000000000000000000000000000000000000000000000000000000000000000000000000000000000000000000000000001100014,
  0x100000000000000000000000000000000000000000000000000000000000000000000000000000000000000000000000000000000000000d00014,
  0x400000000000000000000000000000000000000000000000000000000000000000000000000000000000000000000000000000000900014,
  0x1000000000000000000000000000000000000000000000000000000000000000000000000000000000000000000000000000500014,
  0x2000000000000000000000000000000000000000000000000000000000000000000000000000000000000000000000100014,
  0x80000000000000000000000000000000000003900015, 0x200000000000000000000000000000003500015, 0x800000000000000000000000003100015,
  0x1000000000000000000002d00015, 0x4000000000000002900015, 0x10000000002500015, 0x40002100015,
  0x10000000000000000000000000000000000000000003d00015, 0x40000000000000000000000000000000000003900016,
  0x100000000000000000000000000000003500016, 0x400000000000000000000000003100016, 0x800000000000000000002d00016, 0x2000000000000002900016,
  0x8000000002500016, 0x20002100016,
  0x4000000000000000000000000000000000000000000000000000000000000000000000000000000000000000000000000000000000000000000000000000001d00017,
  0x10000000000000000000000000000000000000000000000000000000000000000000000000000000000000000000000000000000000000000000000001900017,
  0x40000000000000000000000000000000000000000000000000000000000000000000000000000000000000000000000000000000000000000001500017,
  0x100000000000000000000000000000000000000000000000000000000000000000000000000000000000000000000000000000000000001100017,
  0x200000000000000000000000000000000000000000000000000000000000000000000000000000000000000000000000000000000d00017,
  0x800000000000000000000000000000000000000000000000000000000000000000000000000000000000000000000000000900017,
  0x2000000000000000000000000000000000000000000000000000000000000000000000000000000000000000000000500017,
  0x4000000000000000000000000000000000000000000000000000000000000000000000000000000000000000100017, 0x800000000000000000000000003500018,
  0x2000000000000000000003100018, 0x4000000000000002d00018, 0x10000000002900018, 0x40002500018, 0x100000000000000000000000000000003900018,
  0x400000000000000000000000003500019, 0x1000000000000000000003100019, 0x2000000000000002d00019, 0x8000000002900019, 0x20002500019,
  0x800000000000000000000000000000000000000000000000000000000000000000000000000000000000000000000000000000000000000000000000000000210001a,
  0x10000000000000000000000000000000000000000000000000000000000000000000000000000000000000000000000000000000000000000000000001d0001a,
  0x4000000000000000000000000000000000000000000000000000000000000000000000000000000000000000000000000000000000000000000190001a,
  0x10000000000000000000000000000000000000000000000000000000000000000000000000000000000000000000000000000000000000150001a,
  0x40000000000000000000000000000000000000000000000000000000000000000000000000000000000000000000000000000000110001a,
  0x800000000000000000000000000000000000000000000000000000000000000000000000000000000000000000000000000d0001a,
  0x200000000000000000000000000000000000000000000000000000000000000000000000000000000000000000000090001a,
  0x800000000000000000000000000000000000000000000000000000000000000000000000000000000000000050001a,
  0x1000000000000000000000000000000000000000000000000000000000000000000000000000000000010001a, 0x800000000000000310001b, 0x10000000002d0001b,
  0x4000290001b, 0x100000000000000000000350001b, 0x400000000000000310001c, 0x8000000002d0001c, 0x2000290001c,
  0x800000000000000000000000000000000000000000000000000000000000000000000000000000000000000000000000000000000000000000000000000000250001d,
  0x2000000000000000000000000000000000000000000000000000000000000000000000000000000000000000000000000000000000000000000000000210001d,
  0x40000000000000000000000000000000000000000000000000000000000000000000000000000000000000000000000000000000000000000001d0001d,
  0x10000000000000000000000000000000000000000000000000000000000000000000000000000000000000000000000000000000000000190001d,
  0x40000000000000000000000000000000000000000000000000000000000000000000000000000000000000000000000000000000150001d,
  0x100000000000000000000000000000000000000000000000000000000000000000000000000000000000000000000000000110001d,
  0x2000000000000000000000000000000000000000000000000000000000000000000000000000000000000000000000d0001d,
  0x800000000000000000000000000000000000000000000000000000000000000000000000000000000000000090001d,
  0x2000000000000000000000000000000000000000000000000000000000000000000000000000000000050001d,
  0x4000000000000000000000000000000000000000000000000000000000000000000000000000010001d, 0x40002d0001e, 0x1000000000310001e, 0x20002d0001f,
  0x8000000000000000000000000000000000000000000000000000000000000000000000000000000000000000000000000000000000000000000000000000002900020,
  0x20000000000000000000000000000000000000000000000000000000000000000000000000000000000000000000000000000000000000000000000002500020,
  0x80000000000000000000000000000000000000000000000000000000000000000000000000000000000000000000000000000000000000000002100020,
  0x100000000000000000000000000000000000000000000000000000000000000000000000000000000000000000000000000000000000001d00020,
  0x400000000000000000000000000000000000000000000000000000000000000000000000000000000000000000000000000000001900020,
  0x1000000000000000000000000000000000000000000000000000000000000000000000000000000000000000000000000001500020,
  0x4000000000000000000000000000000000000000000000000000000000000000000000000000000000000000000001100020,
  0x8000000000000000000000000000000000000000000000000000000000000000000000000000000000000000d00020,
  0x20000000000000000000000000000000000000000000000000000000000000000000000000000000000900020,
  0x80000000000000000000000000000000000000000000000000000000000000000000000000000500020,
  0x100000000000000000000000000000000000000000000000000000000000000000000000100020,
  0x10000000000000000000000000000000000000000000000000000000000000000000000000000000000000000000000000000000000000000000000002900021,
  0x40000000000000000000000000000000000000000000000000000000000000000000000000000000000000000000000000000000000000000002500021,
  0x100000000000000000000000000000000000000000000000000000000000000000000000000000000000000000000000000000000000002100021,
  0x200000000000000000000000000000000000000000000000000000000000000000000000000000000000000000000000000000001d00021,
  0x800000000000000000000000000000000000000000000000000000000000000000000000000000000000000000000000001900021,
  0x2000000000000000000000000000000000000000000000000000000000000000000000000000000000000000000001500021,
  0x8000000000000000000000000000000000000000000000000000000000000000000000000000000000000001100021,
  0x10000000000000000000000000000000000000000000000000000000000000000000000000000000000d00021,
  0x40000000000000000000000000000000000000000000000000000000000000000000000000000900021,
  0x100000000000000000000000000000000000000000000000000000000000000000000000500021,
  0x200000000000000000000000000000000000000000000000000000000000000000100021,
  0x100000000000000000000000000000000000000000000000000000000000000000000000000000000000000000000000000000000000002500022,
  0x400000000000000000000000000000000000000000000000000000000000000000000000000000000000000000000000000000002100022,
  0x800000000000000000000000000000000000000000000000000000000000000000000000000000000000000000000000001d00022,
  0x2000000000000000000000000000000000000000000000000000000000000000000000000000000000000000000001900022,
  0x8000000000000000000000000000000000000000000000000000000000000000000000000000000000000001500022,
  0x20000000000000000000000000000000000000000000000000000000000000000000000000000000001100022,
  0x40000000000000000000000000000000000000000000000000000000000000000000000000000d00022,
  0x100000000000000000000000000000000000000000000000000000000000000000000000900022,
  0x400000000000000000000000000000000000000000000000000000000000000000500022,
  0x800000000000000000000000000000000000000000000000000000000000100022,
  0x1000000000000000000000000000000000000000000000000000000000000000000000000000000000000000000000000002100023,
  0x2000000000000000000000000000000000000000000000000000000000000000000000000000000000000000000001d00023,
  0x8000000000000000000000000000000000000000000000000000000000000000000000000000000000000001900023,
  0x20000000000000000000000000000000000000000000000000000000000000000000000000000000001500023,
  0x80000000000000000000000000000000000000000000000000000000000000000000000000001100023,
  0x100000000000000000000000000000000000000000000000000000000000000000000000d00023,
  0x400000000000000000000000000000000000000000000000000000000000000000900023,
  0x1000000000000000000000000000000000000000000000000000000000000500023, 0x2000000000000000000000000000000000000000000000000000000100023,
  0x8000000000000000000000000000000000000000000000000000000000000000000000000000000000000001d00024,
  0x20000000000000000000000000000000000000000000000000000000000000000000000000000000001900024,
  0x80000000000000000000000000000000000000000000000000000000000000000000000000001500024,
  0x200000000000000000000000000000000000000000000000000000000000000000000001100024,
  0x400000000000000000000000000000000000000000000000000000000000000000d00024,
  0x1000000000000000000000000000000000000000000000000000000000000900024, 0x4000000000000000000000000000000000000000000000000000000500024,
  0x8000000000000000000000000000000000000000000000000100024,
  0x40000000000000000000000000000000000000000000000000000000000000000000000000001900025,
  0x100000000000000000000000000000000000000000000000000000000000000000000001500025,
  0x400000000000000000000000000000000000000000000000000000000000000001100025,
  0x800000000000000000000000000000000000000000000000000000000000d00025, 0x2000000000000000000000000000000000000000000000000000000900025,
  0x8000000000000000000000000000000000000000000000000500025, 0x10000000000000000000000000000000000000000000100025,
  0x400000000000000000000000000000000000000000000000000000000000000001500026,
  0x1000000000000000000000000000000000000000000000000000000000001100026, 0x2000000000000000000000000000000000000000000000000000000d00026,
  0x8000000000000000000000000000000000000000000000000900026, 0x20000000000000000000000000000000000000000000500026,
  0x40000000000000000000000000000000000000100026, 0x4000000000000000000000000000000000000000000000000000001100027,
  0x8000000000000000000000000000000000000000000000000d00027, 0x20000000000000000000000000000000000000000000900027,
  0x80000000000000000000000000000000000000500027, 0x100000000000000000000000000000000100027,
  0x20000000000000000000000000000000000000000000d00028, 0x80000000000000000000000000000000000000900028,
  0x200000000000000000000000000000000500028, 0x400000000000000000000000000100028, 0x100000000000000000000000000000000900029,
  0x400000000000000000000000000500029, 0x800000000000000000000100029, 0x100000000000000000000050002a, 0x200000000000000010002a,
  0x800000000010002b,
  0x1000000000000000000000000000000000000000000000000000000000000000000000000000000000000000000000000000000000000000000000000000002c,
  0x4000000000000000000000000000000000000000000000000000000000000000000000000000000000000000000000000000000000000000000000002d,
  0x8000000000000000000000000000000000000000000000000000000000000000000000000000000000000000000000000000000000000000002e,
  0x8000000000000000000000000000000000000000000000000000000000000000000000000000000000000000000000000000000000000000002f,
  0x200000000000000000000000000000000000000000000000000000000000000000000000000000000000000000000000000000000000030,
  0x800000000000000000000000000000000000000000000000000000000000000000000000000000000000000000000000000000031,
  0x200000000000000000000000000000000000000000000000000000000000000000000000000000000000000000000000000000000000032,
  0x800000000000000000000000000000000000000000000000000000000000000000000000000000000000000000000000000000033,
  0x2000000000000000000000000000000000000000000000000000000000000000000000000000000000000000000000000034,
  0x4000000000000000000000000000000000000000000000000000000000000000000000000000000000000000000035,
  0x800000000000000000000000000000000000000000000000000000000000000000000000000000000000000000000000000000036,
  0x2000000000000000000000000000000000000000000000000000000000000000000000000000000000000000000000000037,
  0x4000000000000000000000000000000000000000000000000000000000000000000000000000000000000000000038,
  0x10000000000000000000000000000000000000000000000000000000000000000000000000000000000000039,
  0x4000000000000000000000000000000000000000000000000000000000000000000000000000000003a,
  0x200000000000000000000000000000000000000000000000000000000000000000000000000000000000000000000000003b,
  0x400000000000000000000000000000000000000000000000000000000000000000000000000000000000000000003c,
  0x1000000000000000000000000000000000000000000000000000000000000000000000000000000000000003d,
  0x4000000000000000000000000000000000000000000000000000000000000000000000000000000003e,
  0x10000000000000000000000000000000000000000000000000000000000000000000000000003f,
  0x200000000000000000000000000000000000000000000000000000000000000000000040,
  0x4000000000000000000000000000000000000000000000000000000000000000000000000000000000000000000041,
  0x10000000000000000000000000000000000000000000000000000000000000000000000000000000000000042,
  0x40000000000000000000000000000000000000000000000000000000000000000000000000000000043,
  0x100000000000000000000000000000000000000000000000000000000000000000000000000044,
  0x200000000000000000000000000000000000000000000000000000000000000000000045,
  0x800000000000000000000000000000000000000000000000000000000000000046, 0x2000000000000000000000000000000000000000000000000000000000047,
  0x10000000000000000000000000000000000000000000000000000000000000000000000000000000000000048,
  0x40000000000000000000000000000000000000000000000000000000000000000000000000000000049,
  0x10000000000000000000000000000000000000000000000000000000000000000000000000004a,
  0x20000000000000000000000000000000000000000000000000000000000000000000004b,
  0x80000000000000000000000000000000000000000000000000000000000000004c, 0x200000000000000000000000000000000000000000000000000000000004d,
  0x800000000000000000000000000000000000000000000000000004e, 0x1000000000000000000000000000000000000000000000004f,
  0x40000000000000000000000000000000000000000000000000000000000000000000000000000000050,
  0x100000000000000000000000000000000000000000000000000000000000000000000000000051,
  0x200000000000000000000000000000000000000000000000000000000000000000000052,
  0x800000000000000000000000000000000000000000000000000000000000000053, 0x2000000000000000000000000000000000000000000000000000000000054,
  0x8000000000000000000000000000000000000000000000000000055, 0x10000000000000000000000000000000000000000000000056,
  0x40000000000000000000000000000000000000000057, 0x100000000000000000000000000000000000058,
  0x100000000000000000000000000000000000000000000000000000000000000000000000000059,
  0x20000000000000000000000000000000000000000000000000000000000000000000005a,
  0x80000000000000000000000000000000000000000000000000000000000000005b, 0x200000000000000000000000000000000000000000000000000000000005c,
  0x800000000000000000000000000000000000000000000000000005d, 0x1000000000000000000000000000000000000000000000005e,
  0x4000000000000000000000000000000000000000005f, 0x100000000000000000000000000000000000060, 0x400000000000000000000000000000061,
  0x800000000000000000000000062, 0x200000000000000000000000000000000000000000000000000000000000000000000063,
  0x800000000000000000000000000000000000000000000000000000000000000064, 0x2000000000000000000000000000000000000000000000000000000000065,
  0x8000000000000000000000000000000000000000000000000000066, 0x10000000000000000000000000000000000000000000000067,
  0x40000000000000000000000000000000000000000068, 0x100000000000000000000000000000000000069, 0x40000000000000000000000000000006a,
  0x80000000000000000000000006b, 0x200000000000000000006c, 0x800000000000006d,
  0x80000000000000000000000000000000000000000000000000000000000000006e, 0x200000000000000000000000000000000000000000000000000000000006f,
  0x8000000000000000000000000000000000000000000000000000070, 0x10000000000000000000000000000000000000000000000071,
  0x40000000000000000000000000000000000000000072, 0x100000000000000000000000000000000000073, 0x400000000000000000000000000000074,
  0x800000000000000000000000075, 0x2000000000000000000076, 0x8000000000000077, 0x10000000078,
  0x4000000000000000000000000000000000000000000000000000000000000000000000000000000000000000000000000000000000000000000000000000000000079,
  0x200000000000000000000000000000000000000000000000000000000007a, 0x800000000000000000000000000000000000000000000000000007b,
  0x1000000000000000000000000000000000000000000000007c, 0x4000000000000000000000000000000000000000007d,
  0x10000000000000000000000000000000000007e, 0x40000000000000000000000000000007f, 0x800000000000000000000000080, 0x2000000000000000000081,
  0x8000000000000082, 0x10000000083,
  0x4000000000000000000000000000000000000000000000000000000000000000000000000000000000000000000000000000000000000000000000000000000000084,
  0x10000000000000000000000000000000000000000000000000000000000000000000000000000000000000000000000000000000000000000000000000000085,
  0x40000000000000000000000000000000000000000000000000000000000000000000000000000000000000000000000000000000000000000000000086,
  0x8000000000000000000000000000000000000000000000000000087, 0x10000000000000000000000000000000000000000000000088,
  0x40000000000000000000000000000000000000000089, 0x10000000000000000000000000000000000008a, 0x40000000000000000000000000000008b,
  0x80000000000000000000000008c, 0x200000000000000000008d, 0x800000000000008e, 0x1000000008f,
  0x4000000000000000000000000000000000000000000000000000000000000000000000000000000000000000000000000000000000000000000000000000000000090,
  0x10000000000000000000000000000000000000000000000000000000000000000000000000000000000000000000000000000000000000000000000000000091,
  0x40000000000000000000000000000000000000000000000000000000000000000000000000000000000000000000000000000000000000000000000092,
  0x80000000000000000000000000000000000000000000000000000000000000000000000000000000000000000000000000000000000000000093,
  0x200000000000000000000000000000000000000000000000000000000000000000000000000000000000000000000000000000000000094,
  0x10000000000000000000000000000000000000000000000095, 0x40000000000000000000000000000000000000000096,
  0x100000000000000000000000000000000000097, 0x400000000000000000000000000000098, 0x800000000000000000000000099, 0x200000000000000000009a,
  0x800000000000009b, 0x1000000009c,
  0x400000000000000000000000000000000000000000000000000000000000000000000000000000000000000000000000000000000000000000000000000000000009d,
  0x1000000000000000000000000000000000000000000000000000000000000000000000000000000000000000000000000000000000000000000000000000009e,
  0x4000000000000000000000000000000000000000000000000000000000000000000000000000000000000000000000000000000000000000000000009f,
  0x800000000000000000000000000000000000000000000000000000000000000000000000000000000000000000000000000000000000000000a0,
  0x2000000000000000000000000000000000000000000000000000000000000000000000000000000000000000000000000000000000000a1,
  0x8000000000000000000000000000000000000000000000000000000000000000000000000000000000000000000000000000000a2,
  0x20000000000000000000000000000000000000000000000000000000000000000000000000000000000000000000000000a3,
  0x400000000000000000000000000000000000000000a4, 0x1000000000000000000000000000000000000a5, 0x4000000000000000000000000000000a6,
  0x8000000000000000000000000a7, 0x20000000000000000000a8, 0x80000000000000a9, 0x100000000aa,
  0x40000000000000000000000000000000000000000000000000000000000000000000000000000000000000000000000000000000000000000000000000000000000ab,
  0x100000000000000000000000000000000000000000000000000000000000000000000000000000000000000000000000000000000000000000000000000000ac,
  0x400000000000000000000000000000000000000000000000000000000000000000000000000000000000000000000000000000000000000000000000ad,
  0x800000000000000000000000000000000000000000000000000000000000000000000000000000000000000000000000000000000000000000ae,
  0x2000000000000000000000000000000000000000000000000000000000000000000000000000000000000000000000000000000000000af,
  0x8000000000000000000000000000000000000000000000000000000000000000000000000000000000000000000000000000000b0,
  0x20000000000000000000000000000000000000000000000000000000000000000000000000000000000000000000000000b1,
  0x40000000000000000000000000000000000000000000000000000000000000000000000000000000000000000000b2,
  0x100000000000000000000000000000000000000000000000000000000000000000000000000000000000000b3, 0x1000000000000000000000000000000000000b4,
  0x4000000000000000000000000000000b5, 0x8000000000000000000000000b6, 0x20000000000000000000b7, 0x80000000000000b8, 0x100000000b9,
  0x40000000000000000000000000000000000000000000000000000000000000000000000000000000000000000000000000000000000000000000000000000000000ba,
  0x100000000000000000000000000000000000000000000000000000000000000000000000000000000000000000000000000000000000000000000000000000bb,
  0x400000000000000000000000000000000000000000000000000000000000000000000000000000000000000000000000000000000000000000000000bc,
  0x800000000000000000000000000000000000000000000000000000000000000000000000000000000000000000000000000000000000000000bd,
  0x2000000000000000000000000000000000000000000000000000000000000000000000000000000000000000000000000000000000000be,
  0x8000000000000000000000000000000000000000000000000000000000000000000000000000000000000000000000000000000bf,
  0x20000000000000000000000000000000000000000000000000000000000000000000000000000000000000000000000000c0,
  0x40000000000000000000000000000000000000000000000000000000000000000000000000000000000000000000c1,
  0x100000000000000000000000000000000000000000000000000000000000000000000000000000000000000c2,
  0x400000000000000000000000000000000000000000000000000000000000000000000000000000000c3,
  0x1000000000000000000000000000000000000000000000000000000000000000000000000000c4, 0x4000000000000000000000000000000c5,
  0x8000000000000000000000000c6, 0x20000000000000000000c7, 0x80000000000000c8, 0x100000000c9,
  0x40000000000000000000000000000000000000000000000000000000000000000000000000000000000000000000000000000000000000000000000000000000000ca,
  0x100000000000000000000000000000000000000000000000000000000000000000000000000000000000000000000000000000000000000000000000000000cb,
  0x400000000000000000000000000000000000000000000000000000000000000000000000000000000000000000000000000000000000000000000000cc,
  0x800000000000000000000000000000000000000000000000000000000000000000000000000000000000000000000000000000000000000000cd,
  0x2000000000000000000000000000000000000000000000000000000000000000000000000000000000000000000000000000000000000ce,
  0x8000000000000000000000000000000000000000000000000000000000000000000000000000000000000000000000000000000cf,
  0x20000000000000000000000000000000000000000000000000000000000000000000000000000000000000000000000000d0,
  0x40000000000000000000000000000000000000000000000000000000000000000000000000000000000000000000d1,
  0x100000000000000000000000000000000000000000000000000000000000000000000000000000000000000d2,
  0x400000000000000000000000000000000000000000000000000000000000000000000000000000000d3,
  0x1000000000000000000000000000000000000000000000000000000000000000000000000000d4,
  0x2000000000000000000000000000000000000000000000000000000000000000000000d5,
  0x8000000000000000000000000000000000000000000000000000000000000000d6, 0x8000000000000000000000000d7, 0x20000000000000000000d8,
  0x80000000000000d9, 0x100000000da,
  0x40000000000000000000000000000000000000000000000000000000000000000000000000000000000000000000000000000000000000000000000000000000000db,
  0x100000000000000000000000000000000000000000000000000000000000000000000000000000000000000000000000000000000000000000000000000000dc,
  0x400000000000000000000000000000000000000000000000000000000000000000000000000000000000000000000000000000000000000000000000dd,
  0x800000000000000000000000000000000000000000000000000000000000000000000000000000000000000000000000000000000000000000de,
  0x2000000000000000000000000000000000000000000000000000000000000000000000000000000000000000000000000000000000000df,
  0x8000000000000000000000000000000000000000000000000000000000000000000000000000000000000000000000000000000e0,
  0x20000000000000000000000000000000000000000000000000000000000000000000000000000000000000000000000000e1,
  0x40000000000000000000000000000000000000000000000000000000000000000000000000000000000000000000e2,
  0x100000000000000000000000000000000000000000000000000000000000000000000000000000000000000e3,
  0x400000000000000000000000000000000000000000000000000000000000000000000000000000000e4,
  0x1000000000000000000000000000000000000000000000000000000000000000000000000000e5,
  0x2000000000000000000000000000000000000000000000000000000000000000000000e6,
  0x8000000000000000000000000000000000000000000000000000000000000000e7, 0x20000000000000000000000000000000000000000000000000000000000e8,
  0x80000000000000000000000000000000000000000000000000000e9, 0x20000000000000000000ea, 0x80000000000000eb, 0x100000000ec,
  0x40000000000000000000000000000000000000000000000000000000000000000000000000000000000000000000000000000000000000000000000000000000000ed,
  0x100000000000000000000000000000000000000000000000000000000000000000000000000000000000000000000000000000000000000000000000000000ee,
  0x400000000000000000000000000000000000000000000000000000000000000000000000000000000000000000000000000000000000000000000000ef,
  0x800000000000000000000000000000000000000000000000000000000000000000000000000000000000000000000000000000000000000000f0,
  0x2000000000000000000000000000000000000000000000000000000000000000000000000000000000000000000000000000000000000f1,
  0x8000000000000000000000000000000000000000000000000000000000000000000000000000000000000000000000000000000f2,
  0x20000000000000000000000000000000000000000000000000000000000000000000000000000000000000000000000000f3,
  0x40000000000000000000000000000000000000000000000000000000000000000000000000000000000000000000f4,
  0x100000000000000000000000000000000000000000000000000000000000000000000000000000000000000f5,
  0x400000000000000000000000000000000000000000000000000000000000000000000000000000000f6,
  0x1000000000000000000000000000000000000000000000000000000000000000000000000000f7,
  0x2000000000000000000000000000000000000000000000000000000000000000000000f8,
  0x8000000000000000000000000000000000000000000000000000000000000000f9, 0x20000000000000000000000000000000000000000000000000000000000fa,
  0x80000000000000000000000000000000000000000000000000000fb, 0x100000000000000000000000000000000000000000000000fc,
  0x400000000000000000000000000000000000000000fd, 0x80000000000000fe, 0x100000000ff,
  0x4000000000000000000000000000000000000000000000000000000000000000000000000000000000000000000000000000000000000000000000000000000000100,
  0x10000000000000000000000000000000000000000000000000000000000000000000000000000000000000000000000000000000000000000000000000000101,
  0x40000000000000000000000000000000000000000000000000000000000000000000000000000000000000000000000000000000000000000000000102,
  0x80000000000000000000000000000000000000000000000000000000000000000000000000000000000000000000000000000000000000000103,
  0x200000000000000000000000000000000000000000000000000000000000000000000000000000000000000000000000000000000000104,
  0x800000000000000000000000000000000000000000000000000000000000000000000000000000000000000000000000000000105,
  0x2000000000000000000000000000000000000000000000000000000000000000000000000000000000000000000000000106,
  0x4000000000000000000000000000000000000000000000000000000000000000000000000000000000000000000107,
  0x10000000000000000000000000000000000000000000000000000000000000000000000000000000000000108,
  0x40000000000000000000000000000000000000000000000000000000000000000000000000000000109,
  0x10000000000000000000000000000000000000000000000000000000000000000000000000010a,
  0x20000000000000000000000000000000000000000000000000000000000000000000010b,
  0x80000000000000000000000000000000000000000000000000000000000000010c, 0x200000000000000000000000000000000000000000000000000000000010d,
  0x800000000000000000000000000000000000000000000000000010e, 0x1000000000000000000000000000000000000000000000010f,
  0x40000000000000000000000000000000000000000110, 0x100000000000000000000000000000000000111, 0x400000000000000000000000000000112,
  0x10000000113,
  0x4000000000000000000000000000000000000000000000000000000000000000000000000000000000000000000000000000000000000000000000000000000000114,
  0x10000000000000000000000000000000000000000000000000000000000000000000000000000000000000000000000000000000000000000000000000000115,
  0x40000000000000000000000000000000000000000000000000000000000000000000000000000000000000000000000000000000000000000000000116,
  0x80000000000000000000000000000000000000000000000000000000000000000000000000000000000000000000000000000000000000000117,
  0x200000000000000000000000000000000000000000000000000000000000000000000000000000000000000000000000000000000000118,
  0x800000000000000000000000000000000000000000000000000000000000000000000000000000000000000000000000000000119,
  0x200000000000000000000000000000000000000000000000000000000000000000000000000000000000000000000000011a,
  0x400000000000000000000000000000000000000000000000000000000000000000000000000000000000000000011b,
  0x1000000000000000000000000000000000000000000000000000000000000000000000000000000000000011c,
  0x4000000000000000000000000000000000000000000000000000000000000000000000000000000011d,
  0x10000000000000000000000000000000000000000000000000000000000000000000000000011e,
  0x20000000000000000000000000000000000000000000000000000000000000000000011f,
  0x800000000000000000000000000000000000000000000000000000000000000120, 0x2000000000000000000000000000000000000000000000000000000000121,
  0x8000000000000000000000000000000000000000000000000000122, 0x10000000000000000000000000000000000000000000000123,
  0x40000000000000000000000000000000000000000124, 0x100000000000000000000000000000000000125, 0x400000000000000000000000000000126,
  0x800000000000000000000000127, 0x2000000000000000000128,
  0x4000000000000000000000000000000000000000000000000000000000000000000000000000000000000000000000000000000000000000000000000000000000129,
  0x1000000000000000000000000000000000000000000000000000000000000000000000000000000000000000000000000000000000000000000000000000012a,
  0x4000000000000000000000000000000000000000000000000000000000000000000000000000000000000000000000000000000000000000000000012b,
  0x8000000000000000000000000000000000000000000000000000000000000000000000000000000000000000000000000000000000000000012c,
  0x20000000000000000000000000000000000000000000000000000000000000000000000000000000000000000000000000000000000012d,
  0x80000000000000000000000000000000000000000000000000000000000000000000000000000000000000000000000000000012e,
  0x200000000000000000000000000000000000000000000000000000000000000000000000000000000000000000000000012f,
  0x4000000000000000000000000000000000000000000000000000000000000000000000000000000000000000000130,
  0x10000000000000000000000000000000000000000000000000000000000000000000000000000000000000131,
  0x40000000000000000000000000000000000000000000000000000000000000000000000000000000132,
  0x100000000000000000000000000000000000000000000000000000000000000000000000000133,
  0x200000000000000000000000000000000000000000000000000000000000000000000134,
  0x800000000000000000000000000000000000000000000000000000000000000135, 0x2000000000000000000000000000000000000000000000000000000000136,
  0x8000000000000000000000000000000000000000000000000000137, 0x10000000000000000000000000000000000000000000000138,
  0x40000000000000000000000000000000000000000139, 0x10000000000000000000000000000000000013a, 0x40000000000000000000000000000013b,
  0x80000000000000000000000013c, 0x200000000000000000013d, 0x800000000000013e, 0x1000000013f, 0x10000000140, 0x8000000000000141,
  0x10000000142,
  0x4000000000000000000000000000000000000000000000000000000000000000000000000000000000000000000000000000000000000000000000000000000000143,
  0x10000000000000000000000000000000000000000000000000000000000000000000000000000000000000000000000000000000000000000000000000000144,
  0x40000000000000000000000000000000000000000000000000000000000000000000000000000000000000000000000000000000000000000000000145,
  0x80000000000000000000000000000000000000000000000000000000000000000000000000000000000000000000000000000000000000000146,
  0x200000000000000000000000000000000000000000000000000000000000000000000000000000000000000000000000000000000000147,
  0x800000000000000000000000000000000000000000000000000000000000000000000000000000000000000000000000000000148,
  0x2000000000000000000000000000000000000000000000000000000000000000000000000000000000000000000000000149,
  0x400000000000000000000000000000000000000000000000000000000000000000000000000000000000000000014a,
  0x1000000000000000000000000000000000000000000000000000000000000000000000000000000000000014b,
  0x4000000000000000000000000000000000000000000000000000000000000000000000000000000014c,
  0x10000000000000000000000000000000000000000000000000000000000000000000000000014d,
  0x20000000000000000000000000000000000000000000000000000000000000000000014e,
  0x80000000000000000000000000000000000000000000000000000000000000014f, 0x2000000000000000000000000000000000000000000000000000000000150,
  0x8000000000000000000000000000000000000000000000000000151, 0x10000000000000000000000000000000000000000000000152,
  0x40000000000000000000000000000000000000000153, 0x100000000000000000000000000000000000154, 0x400000000000000000000000000000155,
  0x800000000000000000000000156, 0x2000000000000000000157, 0x8000000000000158, 0x8000000000000159, 0x200000000000000000015a,
  0x800000000000015b, 0x200000000000000000015c, 0x80000000000000000000000015d, 0x200000000000000000015e, 0x80000000000000000000000015f,
  0x400000000000000000000000000000160, 0x800000000000000000000000161, 0x400000000000000000000000000000162,
  0x100000000000000000000000000000000000163, 0x400000000000000000000000000000164, 0x100000000000000000000000000000000000165,
  0x40000000000000000000000000000000000000000166, 0x100000000000000000000000000000000000167, 0x40000000000000000000000000000000000000000168,
  0x10000000000000000000000000000000000000000000000169, 0x4000000000000000000000000000000000000000016a,
  0x1000000000000000000000000000000000000000000000016b, 0x800000000000000000000000000000000000000000000000000016c,
  0x1000000000000000000000000000000000000000000000016d, 0x800000000000000000000000000000000000000000000000000016e,
  0x200000000000000000000000000000000000000000000000000000000016f, 0x8000000000000000000000000000000000000000000000000000170,
  0x2000000000000000000000000000000000000000000000000000000000171, 0x800000000000000000000000000000000000000000000000000000000000000172,
  0x2000000000000000000000000000000000000000000000000000000000173, 0x800000000000000000000000000000000000000000000000000000000000000174,
  0x200000000000000000000000000000000000000000000000000000000000000000000175,
  0x800000000000000000000000000000000000000000000000000000000000000176,
  0x200000000000000000000000000000000000000000000000000000000000000000000177,
  0x100000000000000000000000000000000000000000000000000000000000000000000000000178,
  0x200000000000000000000000000000000000000000000000000000000000000000000179,
  0x10000000000000000000000000000000000000000000000000000000000000000000000000017a,
  0x4000000000000000000000000000000000000000000000000000000000000000000000000000000017b,
  0x10000000000000000000000000000000000000000000000000000000000000000000000000017c,
  0x4000000000000000000000000000000000000000000000000000000000000000000000000000000017d,
  0x1000000000000000000000000000000000000000000000000000000000000000000000000000000000000017e,
  0x4000000000000000000000000000000000000000000000000000000000000000000000000000000017f,
  0x10000000000000000000000000000000000000000000000000000000000000000000000000000000000000180,
  0x4000000000000000000000000000000000000000000000000000000000000000000000000000000000000000000181,
  0x10000000000000000000000000000000000000000000000000000000000000000000000000000000000000182,
  0x4000000000000000000000000000000000000000000000000000000000000000000000000000000000000000000183,
  0x2000000000000000000000000000000000000000000000000000000000000000000000000000000000000000000000000184,
  0x4000000000000000000000000000000000000000000000000000000000000000000000000000000000000000000185,
  0x2000000000000000000000000000000000000000000000000000000000000000000000000000000000000000000000000186,
  0x800000000000000000000000000000000000000000000000000000000000000000000000000000000000000000000000000000187,
  0x2000000000000000000000000000000000000000000000000000000000000000000000000000000000000000000000000188,
  0x800000000000000000000000000000000000000000000000000000000000000000000000000000000000000000000000000000189,
  0x20000000000000000000000000000000000000000000000000000000000000000000000000000000000000000000000000000000000018a,
  0x80000000000000000000000000000000000000000000000000000000000000000000000000000000000000000000000000000018b,
  0x20000000000000000000000000000000000000000000000000000000000000000000000000000000000000000000000000000000000018c,
  0x8000000000000000000000000000000000000000000000000000000000000000000000000000000000000000000000000000000000000000018d,
  0x20000000000000000000000000000000000000000000000000000000000000000000000000000000000000000000000000000000000018e,
  0x8000000000000000000000000000000000000000000000000000000000000000000000000000000000000000000000000000000000000000018f,
  0x40000000000000000000000000000000000000000000000000000000000000000000000000000000000000000000000000000000000000000000000190,
  0x80000000000000000000000000000000000000000000000000000000000000000000000000000000000000000000000000000000000000000191,
  0x40000000000000000000000000000000000000000000000000000000000000000000000000000000000000000000000000000000000000000000000192,
  0x10000000000000000000000000000000000000000000000000000000000000000000000000000000000000000000000000000000000000000000000000000193,
  0x40000000000000000000000000000000000000000000000000000000000000000000000000000000000000000000000000000000000000000000000194,
  0x10000000000000000000000000000000000000000000000000000000000000000000000000000000000000000000000000000000000000000000000000000195,
  0x4000000000000000000000000000000000000000000000000000000000000000000000000000000000000000000000000000000000000000000000000000000000196,
  0x10000000000000000000000000000000000000000000000000000000000000000000000000000000000000000000000000000000000000000000000000000197,
  0x4000000000000000000000000000000000000000000000000000000000000000000000000000000000000000000000000000000000000000000000000000000000198,
  0x2390000000199,
  0x400000000000000000000000000000000000000000000000000000000000000000000000000000000000000000000000000000000000000000000000000000000019a,
  0x1000000019b, 0x1000000019c, 0x800000000000019d, 0x1000000019e, 0x800000000000019f, 0x20000000000000000001a0, 0x80000000000001a1,
  0x20000000000000000001a2]

theorem c2 : check [] carry_square bal [] k2 (lin false 1 W (vars carry_square.out) ++ prodForm true W (argsA bal.length) (argsA bal.length)) p carry_square.out tight = true := by decide +kernel

def k3 : List Nat :=
  [0x10000000000, 0x8000000000000001, 0x2000000000000000000002, 0x800000000000000000000000003, 0x400000000000000000000000000000004,
  0x100000000000000000000000000000000000005, 0x40000000000000000000000000000000000000000006,
  0x10000000000000000000000000000000000000000000000007, 0x8000000000000000000000000000000000000000000000000000008,
  0x2000000000000000000000000000000000000000000000000000000000009, 0x80000000000000000000000000000000000000000000000000000000000000000a,
  0x20000000000000000000000000000000000000000000000000000000000000000000000b,
  0x10000000000000000000000000000000000000000000000000000000000000000000000000000c,
  0x4000000000000000000000000000000000000000000000000000000000000000000000000000000000d,
  0x1000000000000000000000000000000000000000000000000000000000000000000000000000000000000000e,
  0x400000000000000000000000000000000000000000000000000000000000000000000000000000000000000000000f,
  0x2000000000000000000000000000000000000000000000000000000000000000000000000000000000000000000000000010,
  0x800000000000000000000000000000000000000000000000000000000000000000000000000000000000000000000000000000011,
  0x200000000000000000000000000000000000000000000000000000000000000000000000000000000000000000000000000000000000012,
  0x80000000000000000000000000000000000000000000000000000000000000000000000000000000000000000000000000000000000000000013,
  0x40000000000000000000000000000000000000000000000000000000000000000000000000000000000000000000000000000000000000000000000014,
  0x10000000000000000000000000000000000000000000000000000000000000000000000000000000000000000000000000000000000000000000000000000015,
  0x4000000000000000000000000000000000000000000000000000000000000000000000000000000000000000000000000000000000000000000000000000000000016,
  0x10000000017, 0x8000000000000018, 0x10000000019, 0x800000000000001a, 0x200000000000000000001b, 0x80000000000000000000000001c,
  0x40000000000000000000000000000001d, 0x10000000000000000000000000000000000001e, 0x4000000000000000000000000000000000000000001f,
  0x10000000000000000000000000000000000000000000000020, 0x8000000000000000000000000000000000000000000000000000021,
  0x2000000000000000000000000000000000000000000000000000000000022, 0x800000000000000000000000000000000000000000000000000000000000000023,
  0x200000000000000000000000000000000000000000000000000000000000000000000024,
  0x100000000000000000000000000000000000000000000000000000000000000000000000000025,
  0x40000000000000000000000000000000000000000000000000000000000000000000000000000000026,
  0x10000000000000000000000000000000000000000000000000000000000000000000000000000000000000027,
  0x4000000000000000000000000000000000000000000000000000000000000000000000000000000000000000000028,
  0x2000000000000000000000000000000000000000000000000000000000000000000000000000000000000000000000000029,
  0x80000000000000000000000000000000000000000000000000000000000000000000000000000000000000000000000000000002a,
  0x20000000000000000000000000000000000000000000000000000000000000000000000000000000000000000000000000000000000002b,
  0x8000000000000000000000000000000000000000000000000000000000000000000000000000000000000000000000000000000000000000002c,
  0x4000000000000000000000000000000000000000000000000000000000000000000000000000000000000000000000000000000000000000000000002d,
  0x1000000000000000000000000000000000000000000000000000000000000000000000000000000000000000000000000000000000000000000000000000002e,
  0x400000000000000000000000000000000000000000000000000000000000000000000000000000000000000000000000000000000000000000000000000000000002f]

theorem c3 : check [] carry wide [] k3 (lin false 1 W (vars carry.out) ++ lin true 1 W (argsA wide.length)) p carry.out tight = true := by decide +kernel

def k4 : List Nat :=
  [0x10000000000, 0x8000000000000001, 0x2000000000000000000002, 0x800000000000000000000000003, 0x400000000000000000000000000000004,
  0x100000000000000000000000000000000000005, 0x40000000000000000000000000000000000000000006,
  0x10000000000000000000000000000000000000000000000007, 0x8000000000000000000000000000000000000000000000000000008,
  0x2000000000000000000000000000000000000000000000000000000000009, 0x80000000000000000000000000000000000000000000000000000000000000000a,
  0x20000000000000000000000000000000000000000000000000000000000000000000000b,
  0x10000000000000000000000000000000000000000000000000000000000000000000000000000c,
  0x4000000000000000000000000000000000000000000000000000000000000000000000000000000000d,
  0x1000000000000000000000000000000000000000000000000000000000000000000000000000000000000000e,
  0x400000000000000000000000000000000000000000000000000000000000000000000000000000000000000000000f,
  0x2000000000000000000000000000000000000000000000000000000000000000000000000000000000000000000000000010,
  0x800000000000000000000000000000000000000000000000000000000000000000000000000000000000000000000000000000011,
  0x200000000000000000000000000000000000000000000000000000000000000000000000000000000000000000000000000000000000012,
  0x80000000000000000000000000000000000000000000000000000000000000000000000000000000000000000000000000000000000000000013,
  0x40000000000000000000000000000000000000000000000000000000000000000000000000000000000000000000000000000000000000000000000014,
  0x10000000000000000000000000000000000000000000000000000000000000000000000000000000000000000000000000000000000000000000000000000015,
  0x4000000000000000000000000000000000000000000000000000000000000000000000000000000000000000000000000000000000000000000000000000000000016]

theorem c4 : check [] add bal bal k4 (lin false 1 W (vars add.out) ++ (lin true 1 W (argsA bal.length) ++ lin true 1 W (argsB bal.length))) p add.out wide = true := by decide +kernel

def k5 : List Nat :=
  [0x10000000000, 0x8000000000000001, 0x2000000000000000000002, 0x800000000000000000000000003, 0x400000000000000000000000000000004,
  0x100000000000000000000000000000000000005, 0x40000000000000000000000000000000000000000006,
  0x10000000000000000000000000000000000000000000000007, 0x8000000000000000000000000000000000000000000000000000008,
  0x2000000000000000000000000000000000000000000000000000000000009, 0x80000000000000000000000000000000000000000000000000000000000000000a,
  0x20000000000000000000000000000000000000000000000000000000000000000000000b,
  0x10000000000000000000000000000000000000000000000000000000000000000000000000000c,
  0x4000000000000000000000000000000000000000000000000000000000000000000000000000000000d,
  0x1000000000000000000000000000000000000000000000000000000000000000000000000000000000000000e,
  0x400000000000000000000000000000000000000000000000000000000000000000000000000000000000000000000f,
  0x2000000000000000000000000000000000000000000000000000000000000000000000000000000000000000000000000010,
  0x800000000000000000000000000000000000000000000000000000000000000000000000000000000000000000000000000000011,
  0x200000000000000000000000000000000000000000000000000000000000000000000000000000000000000000000000000000000000012,
  0x80000000000000000000000000000000000000000000000000000000000000000000000000000000000000000000000000000000000000000013,
  0x40000000000000000000000000000000000000000000000000000000000000000000000000000000000000000000000000000000000000000000000014,
  0x10000000000000000000000000000000000000000000000000000000000000000000000000000000000000000000000000000000000000000000000000000015,
  0x4000000000000000000000000000000000000000000000000000000000000000000000000000000000000000000000000000000000000000000000000000000000016]

theorem c5 : check [] sub bal bal k5 (lin false 1 W (vars sub.out) ++ (lin true 1 W (argsA bal.length) ++ lin false 1 W (argsB bal.length))) p sub.out wide = true := by decide +kernel

def k6 : List Nat :=
  [0x10000000000, 0x8000000000000001, 0x2000000000000000000002, 0x800000000000000000000000003, 0x400000000000000000000000000000004,
  0x100000000000000000000000000000000000005, 0x40000000000000000000000000000000000000000006,
  0x10000000000000000000000000000000000000000000000007, 0x8000000000000000000000000000000000000000000000000000008,
  0x2000000000000000000000000000000000000000000000000000000000009, 0x80000000000000000000000000000000000000000000000000000000000000000a,
  0x20000000000000000000000000000000000000000000000000000000000000000000000b,
  0x10000000000000000000000000000000000000000000000000000000000000000000000000000c,
  0x4000000000000000000000000000000000000000000000000000000000000000000000000000000000d,
  0x1000000000000000000000000000000000000000000000000000000000000000000000000000000000000000e,
  0x400000000000000000000000000000000000000000000000000000000000000000000000000000000000000000000f,
  0x2000000000000000000000000000000000000000000000000000000000000000000000000000000000000000000000000010,
  0x800000000000000000000000000000000000000000000000000000000000000000000000000000000000000000000000000000011,
  0x200000000000000000000000000000000000000000000000000000000000000000000000000000000000000000000000000000000000012,
  0x80000000000000000000000000000000000000000000000000000000000000000000000000000000000000000000000000000000000000000013,
  0x40000000000000000000000000000000000000000000000000000000000000000000000000000000000000000000000000000000000000000000000014,
  0x10000000000000000000000000000000000000000000000000000000000000000000000000000000000000000000000000000000000000000000000000000015,
  0x4000000000000000000000000000000000000000000000000000000000000000000000000000000000000000000000000000000000000000000000000000000000016]

theorem c6 : check [] opp bal [] k6 (lin false 1 W (vars opp.out) ++ lin false 1 W (argsA bal.length)) p opp.out bal = true := by decide +kernel

def k7 : List Nat :=
  [0x4000000000000000000000000000000000000000000000000000000000000000000000000000000000000000000000000000000000000000000000000000000000000,
  0x4000000000000000000000000000000000000000000000000000000000000000000000000000000000000000000000000000000000000000000000000000000000001,
  0x10000000000000000000000000000000000000000000000000000000000000000000000000000000000000000000000000000000000000000000000000000002,
  0x10000000000000000000000000000000000000000000000000000000000000000000000000000000000000000000000000000000000000000000000000000003,
  0x10000000000000000000000000000000000000000000000000000000000000000000000000000000000000000000000000000000000000000000000000000004,
  0x40000000000000000000000000000000000000000000000000000000000000000000000000000000000000000000000000000000000000000000000005,
  0x40000000000000000000000000000000000000000000000000000000000000000000000000000000000000000000000000000000000000000000000006,
  0x40000000000000000000000000000000000000000000000000000000000000000000000000000000000000000000000000000000000000000000000007,
  0x80000000000000000000000000000000000000000000000000000000000000000000000000000000000000000000000000000000000000000008,
  0x80000000000000000000000000000000000000000000000000000000000000000000000000000000000000000000000000000000000000000009,
  0x8000000000000000000000000000000000000000000000000000000000000000000000000000000000000000000000000000000000000000000a,
  0x20000000000000000000000000000000000000000000000000000000000000000000000000000000000000000000000000000000000000b,
  0x20000000000000000000000000000000000000000000000000000000000000000000000000000000000000000000000000000000000000c,
  0x80000000000000000000000000000000000000000000000000000000000000000000000000000000000000000000000000000000d,
  0x80000000000000000000000000000000000000000000000000000000000000000000000000000000000000000000000000000000e,
  0x80000000000000000000000000000000000000000000000000000000000000000000000000000000000000000000000000000000f,
  0x2000000000000000000000000000000000000000000000000000000000000000000000000000000000000000000000000010,
  0x2000000000000000000000000000000000000000000000000000000000000000000000000000000000000000000000000011,
  0x2000000000000000000000000000000000000000000000000000000000000000000000000000000000000000000000000012,
  0x4000000000000000000000000000000000000000000000000000000000000000000000000000000000000000000013,
  0x4000000000000000000000000000000000000000000000000000000000000000000000000000000000000000000014,
  0x4000000000000000000000000000000000000000000000000000000000000000000000000000000000000000000015,
  0x10000000000000000000000000000000000000000000000000000000000000000000000000000000000000016,
  0x10000000000000000000000000000000000000000000000000000000000000000000000000000000000000017,
  0x10000000000000000000000000000000000000000000000000000000000000000000000000000000000000018,
  0x40000000000000000000000000000000000000000000000000000000000000000000000000000000019,
  0x4000000000000000000000000000000000000000000000000000000000000000000000000000000001a,
  0x10000000000000000000000000000000000000000000000000000000000000000000000000001b,
  0x10000000000000000000000000000000000000000000000000000000000000000000000000001c,
  0x10000000000000000000000000000000000000000000000000000000000000000000000000001d,
  0x20000000000000000000000000000000000000000000000000000000000000000000001e,
  0x20000000000000000000000000000000000000000000000000000000000000000000001f,
  0x200000000000000000000000000000000000000000000000000000000000000000000020,
  0x800000000000000000000000000000000000000000000000000000000000000021, 0x800000000000000000000000000000000000000000000000000000000000000022,
  0x800000000000000000000000000000000000000000000000000000000000000023, 0x2000000000000000000000000000000000000000000000000000000000024,
  0x2000000000000000000000000000000000000000000000000000000000025, 0x8000000000000000000000000000000000000000000000000000026,
  0x8000000000000000000000000000000000000000000000000000027, 0x8000000000000000000000000000000000000000000000000000028,
  0x10000000000000000000000000000000000000000000000029, 0x1000000000000000000000000000000000000000000000002a,
  0x1000000000000000000000000000000000000000000000002b, 0x4000000000000000000000000000000000000000002c,
  0x4000000000000000000000000000000000000000002d, 0x4000000000000000000000000000000000000000002e, 0x10000000000000000000000000000000000002f,
  0x100000000000000000000000000000000000030, 0x100000000000000000000000000000000000031, 0x400000000000000000000000000000032,
  0x400000000000000000000000000000033, 0x800000000000000000000000034, 0x800000000000000000000000035, 0x800000000000000000000000036,
  0x2000000000000000000037, 0x2000000000000000000038, 0x2000000000000000000039, 0x800000000000003a, 0x800000000000003b, 0x800000000000003c,
  0x1000000003d, 0x1000000003e, 0x1000000003f, 0x10000000040, 0x10000000041, 0x10000000042, 0x8000000000000043, 0x8000000000000044,
  0x8000000000000045, 0x8000000000000046, 0x8000000000000047, 0x2000000000000000000048, 0x2000000000000000000049, 0x200000000000000000004a,
  0x200000000000000000004b, 0x200000000000000000004c, 0x80000000000000000000000004d, 0x80000000000000000000000004e,
  0x80000000000000000000000004f, 0x800000000000000000000000050, 0x800000000000000000000000051, 0x400000000000000000000000000000052,
  0x400000000000000000000000000000053, 0x400000000000000000000000000000054, 0x100000000000000000000000000000000000055,
  0x100000000000000000000000000000000000056, 0x100000000000000000000000000000000000057, 0x40000000000000000000000000000000000000000058,
  0x40000000000000000000000000000000000000000059, 0x4000000000000000000000000000000000000000005a,
  0x4000000000000000000000000000000000000000005b, 0x4000000000000000000000000000000000000000005c,
  0x1000000000000000000000000000000000000000000000005d, 0x1000000000000000000000000000000000000000000000005e,
  0x1000000000000000000000000000000000000000000000005f, 0x10000000000000000000000000000000000000000000000060,
  0x10000000000000000000000000000000000000000000000061, 0x8000000000000000000000000000000000000000000000000000062,
  0x8000000000000000000000000000000000000000000000000000063, 0x8000000000000000000000000000000000000000000000000000064,
  0x8000000000000000000000000000000000000000000000000000065, 0x8000000000000000000000000000000000000000000000000000066,
  0x2000000000000000000000000000000000000000000000000000000000067, 0x2000000000000000000000000000000000000000000000000000000000068,
  0x2000000000000000000000000000000000000000000000000000000000069, 0x200000000000000000000000000000000000000000000000000000000006a,
  0x80000000000000000000000000000000000000000000000000000000000000006b, 0x80000000000000000000000000000000000000000000000000000000000000006c,
  0x80000000000000000000000000000000000000000000000000000000000000006d, 0x80000000000000000000000000000000000000000000000000000000000000006e,
  0x80000000000000000000000000000000000000000000000000000000000000006f,
  0x200000000000000000000000000000000000000000000000000000000000000000000070,
  0x200000000000000000000000000000000000000000000000000000000000000000000071,
  0x200000000000000000000000000000000000000000000000000000000000000000000072,
  0x200000000000000000000000000000000000000000000000000000000000000000000073,
  0x200000000000000000000000000000000000000000000000000000000000000000000074,
  0x100000000000000000000000000000000000000000000000000000000000000000000000000075,
  0x100000000000000000000000000000000000000000000000000000000000000000000000000076,
  0x100000000000000000000000000000000000000000000000000000000000000000000000000077,
  0x100000000000000000000000000000000000000000000000000000000000000000000000000078,
  0x100000000000000000000000000000000000000000000000000000000000000000000000000079,
  0x4000000000000000000000000000000000000000000000000000000000000000000000000000000007a,
  0x4000000000000000000000000000000000000000000000000000000000000000000000000000000007b,
  0x4000000000000000000000000000000000000000000000000000000000000000000000000000000007c,
  0x1000000000000000000000000000000000000000000000000000000000000000000000000000000000000007d,
  0x1000000000000000000000000000000000000000000000000000000000000000000000000000000000000007e,
  0x1000000000000000000000000000000000000000000000000000000000000000000000000000000000000007f,
  0x4000000000000000000000000000000000000000000000000000000000000000000000000000000000000000000080,
  0x4000000000000000000000000000000000000000000000000000000000000000000000000000000000000000000081,
  0x4000000000000000000000000000000000000000000000000000000000000000000000000000000000000000000082,
  0x4000000000000000000000000000000000000000000000000000000000000000000000000000000000000000000083,
  0x4000000000000000000000000000000000000000000000000000000000000000000000000000000000000000000084,
  0x2000000000000000000000000000000000000000000000000000000000000000000000000000000000000000000000000085,
  0x2000000000000000000000000000000000000000000000000000000000000000000000000000000000000000000000000086,
  0x2000000000000000000000000000000000000000000000000000000000000000000000000000000000000000000000000087,
  0x2000000000000000000000000000000000000000000000000000000000000000000000000000000000000000000000000088,
  0x2000000000000000000000000000000000000000000000000000000000000000000000000000000000000000000000000089,
  0x80000000000000000000000000000000000000000000000000000000000000000000000000000000000000000000000000000008a,
  0x80000000000000000000000000000000000000000000000000000000000000000000000000000000000000000000000000000008b,
  0x80000000000000000000000000000000000000000000000000000000000000000000000000000000000000000000000000000008c,
  0x80000000000000000000000000000000000000000000000000000000000000000000000000000000000000000000000000000008d,
  0x80000000000000000000000000000000000000000000000000000000000000000000000000000000000000000000000000000008e,
  0x20000000000000000000000000000000000000000000000000000000000000000000000000000000000000000000000000000000000008f,
  0x200000000000000000000000000000000000000000000000000000000000000000000000000000000000000000000000000000000000090,
  0x200000000000000000000000000000000000000000000000000000000000000000000000000000000000000000000000000000000000091,
  0x200000000000000000000000000000000000000000000000000000000000000000000000000000000000000000000000000000000000092,
  0x80000000000000000000000000000000000000000000000000000000000000000000000000000000000000000000000000000000000000000093,
  0x80000000000000000000000000000000000000000000000000000000000000000000000000000000000000000000000000000000000000000094,
  0x80000000000000000000000000000000000000000000000000000000000000000000000000000000000000000000000000000000000000000095,
  0x80000000000000000000000000000000000000000000000000000000000000000000000000000000000000000000000000000000000000000096,
  0x80000000000000000000000000000000000000000000000000000000000000000000000000000000000000000000000000000000000000000097,
  0x40000000000000000000000000000000000000000000000000000000000000000000000000000000000000000000000000000000000000000000000098,
  0x40000000000000000000000000000000000000000000000000000000000000000000000000000000000000000000000000000000000000000000000099,
  0x4000000000000000000000000000000000000000000000000000000000000000000000000000000000000000000000000000000000000000000000009a,
  0x4000000000000000000000000000000000000000000000000000000000000000000000000000000000000000000000000000000000000000000000009b,
  0x4000000000000000000000000000000000000000000000000000000000000000000000000000000000000000000000000000000000000000000000009c,
  0x1000000000000000000000000000000000000000000000000000000000000000000000000000000000000000000000000000000000000000000000000000009d,
  0x1000000000000000000000000000000000000000000000000000000000000000000000000000000000000000000000000000000000000000000000000000009e,
  0x1000000000000000000000000000000000000000000000000000000000000000000000000000000000000000000000000000000000000000000000000000009f,
  0x100000000000000000000000000000000000000000000000000000000000000000000000000000000000000000000000000000000000000000000000000000a0,
  0x100000000000000000000000000000000000000000000000000000000000000000000000000000000000000000000000000000000000000000000000000000a1,
  0x40000000000000000000000000000000000000000000000000000000000000000000000000000000000000000000000000000000000000000000000000000000000a2,
  0x40000000000000000000000000000000000000000000000000000000000000000000000000000000000000000000000000000000000000000000000000000000000a3,
  0x40000000000000000000000000000000000000000000000000000000000000000000000000000000000000000000000000000000000000000000000000000000000a4]

theorem c7 : check [] from_bytes (List.replicate 64 255) [] k7 (lin false 1 W (vars from_bytes.out) ++ lin true 1 (byteW 64) (argsA (List.replicate 64 255).length)) 0 from_bytes.out tight = true := by decide +kernel

def kb : CondCert where
  ts := argsA 23
  ss := [1, 3, 5, 7, 9, 11, 13, 15, 17, 19, 21, 23, 25, 27, 29, 31, 33, 35, 37, 39, 41, 43, 45]
  bf := 46
  chain := [0x10000000000, 0x8000000000000001, 0x2000000000000000000002, 0x800000000000000000000000003, 0x400000000000000000000000000000004,
  0x100000000000000000000000000000000000005, 0x40000000000000000000000000000000000000000006,
  0x10000000000000000000000000000000000000000000000007, 0x8000000000000000000000000000000000000000000000000000008,
  0x2000000000000000000000000000000000000000000000000000000000009, 0x80000000000000000000000000000000000000000000000000000000000000000a,
  0x20000000000000000000000000000000000000000000000000000000000000000000000b,
  0x10000000000000000000000000000000000000000000000000000000000000000000000000000c,
  0x4000000000000000000000000000000000000000000000000000000000000000000000000000000000d,
  0x1000000000000000000000000000000000000000000000000000000000000000000000000000000000000000e,
  0x400000000000000000000000000000000000000000000000000000000000000000000000000000000000000000000f,
  0x2000000000000000000000000000000000000000000000000000000000000000000000000000000000000000000000000010,
  0x800000000000000000000000000000000000000000000000000000000000000000000000000000000000000000000000000000011,
  0x200000000000000000000000000000000000000000000000000000000000000000000000000000000000000000000000000000000000012,
  0x80000000000000000000000000000000000000000000000000000000000000000000000000000000000000000000000000000000000000000013,
  0x40000000000000000000000000000000000000000000000000000000000000000000000000000000000000000000000000000000000000000000000014,
  0x10000000000000000000000000000000000000000000000000000000000000000000000000000000000000000000000000000000000000000000000000000015,
  0x4000000000000000000000000000000000000000000000000000000000000000000000000000000000000000000000000000000000000000000000000000000000016]
  c0 := [0x10000000000, 0x8000000000000001, 0x2000000000000000000002, 0x800000000000000000000000003, 0x400000000000000000000000000000004,
  0x100000000000000000000000000000000000005, 0x40000000000000000000000000000000000000000006,
  0x10000000000000000000000000000000000000000000000007, 0x8000000000000000000000000000000000000000000000000000008,
  0x2000000000000000000000000000000000000000000000000000000000009, 0x80000000000000000000000000000000000000000000000000000000000000000a,
  0x20000000000000000000000000000000000000000000000000000000000000000000000b,
  0x10000000000000000000000000000000000000000000000000000000000000000000000000000c,
  0x4000000000000000000000000000000000000000000000000000000000000000000000000000000000d,
  0x1000000000000000000000000000000000000000000000000000000000000000000000000000000000000000e,
  0x400000000000000000000000000000000000000000000000000000000000000000000000000000000000000000000f,
  0x2000000000000000000000000000000000000000000000000000000000000000000000000000000000000000000000000010,
  0x800000000000000000000000000000000000000000000000000000000000000000000000000000000000000000000000000000011,
  0x200000000000000000000000000000000000000000000000000000000000000000000000000000000000000000000000000000000000012,
  0x80000000000000000000000000000000000000000000000000000000000000000000000000000000000000000000000000000000000000000013,
  0x40000000000000000000000000000000000000000000000000000000000000000000000000000000000000000000000000000000000000000000000014,
  0x10000000000000000000000000000000000000000000000000000000000000000000000000000000000000000000000000000000000000000000000000000015,
  0x4000000000000000000000000000000000000000000000000000000000000000000000000000000000000000000000000000000000000000000000000000000000016,
  0x10000000018, 0x8000000000000019, 0x200000000000000000001a, 0x80000000000000000000000001b, 0x40000000000000000000000000000001c,
  0x10000000000000000000000000000000000001d, 0x4000000000000000000000000000000000000000001e,
  0x1000000000000000000000000000000000000000000000001f, 0x8000000000000000000000000000000000000000000000000000020,
  0x2000000000000000000000000000000000000000000000000000000000021, 0x800000000000000000000000000000000000000000000000000000000000000022,
  0x200000000000000000000000000000000000000000000000000000000000000000000023,
  0x100000000000000000000000000000000000000000000000000000000000000000000000000024,
  0x40000000000000000000000000000000000000000000000000000000000000000000000000000000025,
  0x10000000000000000000000000000000000000000000000000000000000000000000000000000000000000026,
  0x4000000000000000000000000000000000000000000000000000000000000000000000000000000000000000000027,
  0x2000000000000000000000000000000000000000000000000000000000000000000000000000000000000000000000000028,
  0x800000000000000000000000000000000000000000000000000000000000000000000000000000000000000000000000000000029,
  0x20000000000000000000000000000000000000000000000000000000000000000000000000000000000000000000000000000000000002a,
  0x8000000000000000000000000000000000000000000000000000000000000000000000000000000000000000000000000000000000000000002b,
  0x4000000000000000000000000000000000000000000000000000000000000000000000000000000000000000000000000000000000000000000000002c,
  0x1000000000000000000000000000000000000000000000000000000000000000000000000000000000000000000000000000000000000000000000000000002d,
  0x400000000000000000000000000000000000000000000000000000000000000000000000000000000000000000000000000000000000000000000000000000000002e,
  0x100000000000000000000000000000000000000000000000000000000000000000000000000000000000000000000000000000000000000000000000000000000002f,
  0x1000000000000000000000000000000000000000000000000000000000000000000000000000000000000000000000000000000000000000000000000000030,
  0x1000000000000000000000000000000000000000000000000000000000000000000000000000000000000000000000000000000000000000000000031,
  0x1000000000000000000000000000000000000000000000000000000000000000000000000000000000000000000000000000000000000000032,
  0x100000000000000000000000000000000000000000000000000000000000000000000000000000000000000000000000000000000000033,
  0x100000000000000000000000000000000000000000000000000000000000000000000000000000000000000000000000000000034,
  0x100000000000000000000000000000000000000000000000000000000000000000000000000000000000000000000000035,
  0x100000000000000000000000000000000000000000000000000000000000000000000000000000000000000000036,
  0x10000000000000000000000000000000000000000000000000000000000000000000000000000000037,
  0x10000000000000000000000000000000000000000000000000000000000000000000000000038,
  0x10000000000000000000000000000000000000000000000000000000000000000000039,
  0x1000000000000000000000000000000000000000000000000000000000000003a, 0x100000000000000000000000000000000000000000000000000000000003b,
  0x100000000000000000000000000000000000000000000000000003c, 0x100000000000000000000000000000000000000000000003d,
  0x100000000000000000000000000000000000000003e, 0x10000000000000000000000000000003f, 0x100000000000000000000000040, 0x100000000000000000041,
  0x100000000000042, 0x10000000043, 0x1000000000044, 0x1000000000045, 0x100000000000046, 0x100000000000047, 0x100000000000048,
  0x10000000000000049, 0x1000000000000004a, 0x100000000000000004b, 0x100000000000000004c, 0x10000000000000000004d, 0x10000000000000000004e,
  0x10000000000000000004f, 0x10000000000000000000050, 0x10000000000000000000051, 0x1000000000000000000000052, 0x1000000000000000000000053,
  0x100000000000000000000000054, 0x100000000000000000000000055, 0x100000000000000000000000056, 0x10000000000000000000000000057,
  0x10000000000000000000000000058, 0x1000000000000000000000000000059, 0x100000000000000000000000000005a, 0x10000000000000000000000000000005b,
  0x10000000000000000000000000000005c, 0x10000000000000000000000000000005d, 0x1000000000000000000000000000000005e,
  0x1000000000000000000000000000000005f, 0x1000000000000000000000000000000000060, 0x100000000000000000000000000000000000061,
  0x10000000000000000000000000000000000000062, 0x10000000000000000000000000000000000000063, 0x1000000000000000000000000000000000000000064,
  0x1000000000000000000000000000000000000000065, 0x1000000000000000000000000000000000000000066,
  0x100000000000000000000000000000000000000000067, 0x100000000000000000000000000000000000000000068,
  0x10000000000000000000000000000000000000000000069, 0x1000000000000000000000000000000000000000000006a,
  0x100000000000000000000000000000000000000000000006b, 0x100000000000000000000000000000000000000000000006c,
  0x100000000000000000000000000000000000000000000006d, 0x10000000000000000000000000000000000000000000000006e,
  0x10000000000000000000000000000000000000000000000006f, 0x10000000000000000000000000000000000000000000000000070,
  0x10000000000000000000000000000000000000000000000000071, 0x1000000000000000000000000000000000000000000000000000072,
  0x1000000000000000000000000000000000000000000000000000073, 0x1000000000000000000000000000000000000000000000000000074,
  0x100000000000000000000000000000000000000000000000000000075, 0x100000000000000000000000000000000000000000000000000000076,
  0x10000000000000000000000000000000000000000000000000000000077, 0x10000000000000000000000000000000000000000000000000000000078,
  0x1000000000000000000000000000000000000000000000000000000000079, 0x100000000000000000000000000000000000000000000000000000000007a,
  0x100000000000000000000000000000000000000000000000000000000007b, 0x10000000000000000000000000000000000000000000000000000000000007c,
  0x10000000000000000000000000000000000000000000000000000000000007d, 0x1000000000000000000000000000000000000000000000000000000000000007e,
  0x1000000000000000000000000000000000000000000000000000000000000007f, 0x10000000000000000000000000000000000000000000000000000000000000080,
  0x1000000000000000000000000000000000000000000000000000000000000000081,
  0x1000000000000000000000000000000000000000000000000000000000000000082,
  0x100000000000000000000000000000000000000000000000000000000000000000083,
  0x100000000000000000000000000000000000000000000000000000000000000000084,
  0x10000000000000000000000000000000000000000000000000000000000000000000085,
  0x10000000000000000000000000000000000000000000000000000000000000000000086,
  0x10000000000000000000000000000000000000000000000000000000000000000000087,
  0x1000000000000000000000000000000000000000000000000000000000000000000000088,
  0x1000000000000000000000000000000000000000000000000000000000000000000000089,
  0x10000000000000000000000000000000000000000000000000000000000000000000000008a,
  0x10000000000000000000000000000000000000000000000000000000000000000000000008b,
  0x1000000000000000000000000000000000000000000000000000000000000000000000000008c,
  0x1000000000000000000000000000000000000000000000000000000000000000000000000008d,
  0x1000000000000000000000000000000000000000000000000000000000000000000000000008e,
  0x100000000000000000000000000000000000000000000000000000000000000000000000000008f,
  0x1000000000000000000000000000000000000000000000000000000000000000000000000000090,
  0x100000000000000000000000000000000000000000000000000000000000000000000000000000091,
  0x100000000000000000000000000000000000000000000000000000000000000000000000000000092,
  0x10000000000000000000000000000000000000000000000000000000000000000000000000000000093,
  0x10000000000000000000000000000000000000000000000000000000000000000000000000000000094,
  0x10000000000000000000000000000000000000000000000000000000000000000000000000000000095,
  0x1000000000000000000000000000000000000000000000000000000000000000000000000000000000096,
  0x1000000000000000000000000000000000000000000000000000000000000000000000000000000000097,
  0x100000000000000000000000000000000000000000000000000000000000000000000000000000000000098,
  0x10000000000000000000000000000000000000000000000000000000000000000000000000000000000000099,
  0x100000000000000000000000000000000000000000000000000000000000000000000000000000000000000009a,
  0x100000000000000000000000000000000000000000000000000000000000000000000000000000000000000009b,
  0x10000000000000000000000000000000000000000000000000000000000000000000000000000000000000000009c,
  0x10000000000000000000000000000000000000000000000000000000000000000000000000000000000000000009d,
  0x10000000000000000000000000000000000000000000000000000000000000000000000000000000000000000009e,
  0x1000000000000000000000000000000000000000000000000000000000000000000000000000000000000000000009f,
  0x100000000000000000000000000000000000000000000000000000000000000000000000000000000000000000000a0,
  0x10000000000000000000000000000000000000000000000000000000000000000000000000000000000000000000000a1,
  0x10000000000000000000000000000000000000000000000000000000000000000000000000000000000000000000000a2,
  0x1000000000000000000000000000000000000000000000000000000000000000000000000000000000000000000000000a3,
  0x1000000000000000000000000000000000000000000000000000000000000000000000000000000000000000000000000a4,
  0x1000000000000000000000000000000000000000000000000000000000000000000000000000000000000000000000000a5,
  0x100000000000000000000000000000000000000000000000000000000000000000000000000000000000000000000000000a6,
  0x100000000000000000000000000000000000000000000000000000000000000000000000000000000000000000000000000a7,
  0x10000000000000000000000000000000000000000000000000000000000000000000000000000000000000000000000000000a8,
  0x10000000000000000000000000000000000000000000000000000000000000000000000000000000000000000000000000000a9,
  0x1000000000000000000000000000000000000000000000000000000000000000000000000000000000000000000000000000000aa,
  0x1000000000000000000000000000000000000000000000000000000000000000000000000000000000000000000000000000000ab,
  0x1000000000000000000000000000000000000000000000000000000000000000000000000000000000000000000000000000000ac,
  0x100000000000000000000000000000000000000000000000000000000000000000000000000000000000000000000000000000000ad,
  0x100000000000000000000000000000000000000000000000000000000000000000000000000000000000000000000000000000000ae,
  0x10000000000000000000000000000000000000000000000000000000000000000000000000000000000000000000000000000000000af,
  0x10000000000000000000000000000000000000000000000000000000000000000000000000000000000000000000000000000000000b0,
  0x1000000000000000000000000000000000000000000000000000000000000000000000000000000000000000000000000000000000000b1,
  0x1000000000000000000000000000000000000000000000000000000000000000000000000000000000000000000000000000000000000b2,
  0x1000000000000000000000000000000000000000000000000000000000000000000000000000000000000000000000000000000000000b3,
  0x100000000000000000000000000000000000000000000000000000000000000000000000000000000000000000000000000000000000000b4,
  0x100000000000000000000000000000000000000000000000000000000000000000000000000000000000000000000000000000000000000b5,
  0x10000000000000000000000000000000000000000000000000000000000000000000000000000000000000000000000000000000000000000b6,
  0x10000000000000000000000000000000000000000000000000000000000000000000000000000000000000000000000000000000000000000b7,
  0x10000000000000000000000000000000000000000000000000000000000000000000000000000000000000000000000000000000000000000b8,
  0x1000000000000000000000000000000000000000000000000000000000000000000000000000000000000000000000000000000000000000000b9,
  0x1000000000000000000000000000000000000000000000000000000000000000000000000000000000000000000000000000000000000000000ba,
  0x100000000000000000000000000000000000000000000000000000000000000000000000000000000000000000000000000000000000000000000bb,
  0x100000000000000000000000000000000000000000000000000000000000000000000000000000000000000000000000000000000000000000000bc,
  0x10000000000000000000000000000000000000000000000000000000000000000000000000000000000000000000000000000000000000000000000bd,
  0x10000000000000000000000000000000000000000000000000000000000000000000000000000000000000000000000000000000000000000000000be,
  0x10000000000000000000000000000000000000000000000000000000000000000000000000000000000000000000000000000000000000000000000bf,
  0x1000000000000000000000000000000000000000000000000000000000000000000000000000000000000000000000000000000000000000000000000c0,
  0x1000000000000000000000000000000000000000000000000000000000000000000000000000000000000000000000000000000000000000000000000c1,
  0x100000000000000000000000000000000000000000000000000000000000000000000000000000000000000000000000000000000000000000000000000c2,
  0x100000000000000000000000000000000000000000000000000000000000000000000000000000000000000000000000000000000000000000000000000c3,
  0x10000000000000000000000000000000000000000000000000000000000000000000000000000000000000000000000000000000000000000000000000000c4,
  0x10000000000000000000000000000000000000000000000000000000000000000000000000000000000000000000000000000000000000000000000000000c5,
  0x10000000000000000000000000000000000000000000000000000000000000000000000000000000000000000000000000000000000000000000000000000c6,
  0x1000000000000000000000000000000000000000000000000000000000000000000000000000000000000000000000000000000000000000000000000000000c7,
  0x1000000000000000000000000000000000000000000000000000000000000000000000000000000000000000000000000000000000000000000000000000000c8,
  0x100000000000000000000000000000000000000000000000000000000000000000000000000000000000000000000000000000000000000000000000000000000c9,
  0x100000000000000000000000000000000000000000000000000000000000000000000000000000000000000000000000000000000000000000000000000000000ca,
  0x10000000000000000000000000000000000000000000000000000000000000000000000000000000000000000000000000000000000000000000000000000000000cb,
  0x10000000000000000000000000000000000000000000000000000000000000000000000000000000000000000000000000000000000000000000000000000000000cc,
  0x10000000000000000000000000000000000000000000000000000000000000000000000000000000000000000000000000000000000000000000000000000000000cd,
  0x1000000000000000000000000000000000000000000000000000000000000000000000000000000000000000000000000000000000000000000000000000000000000ce,
  0x1000000000000000000000000000000000000000000000000000000000000000000000000000000000000000000000000000000000000000000000000000000000000cf,
  0x100000000000000000000000000000000000000000000000000000000000000000000000000000000000000000000000000000000000000000000000000000000000000d0]
  c1 := [0x10000000000, 0x8000000000000001, 0x2000000000000000000002, 0x800000000000000000000000003, 0x400000000000000000000000000000004,
  0x100000000000000000000000000000000000005, 0x40000000000000000000000000000000000000000006,
  0x10000000000000000000000000000000000000000000000007, 0x8000000000000000000000000000000000000000000000000000008,
  0x2000000000000000000000000000000000000000000000000000000000009, 0x80000000000000000000000000000000000000000000000000000000000000000a,
  0x20000000000000000000000000000000000000000000000000000000000000000000000b,
  0x10000000000000000000000000000000000000000000000000000000000000000000000000000c,
  0x4000000000000000000000000000000000000000000000000000000000000000000000000000000000d,
  0x1000000000000000000000000000000000000000000000000000000000000000000000000000000000000000e,
  0x400000000000000000000000000000000000000000000000000000000000000000000000000000000000000000000f,
  0x2000000000000000000000000000000000000000000000000000000000000000000000000000000000000000000000000010,
  0x800000000000000000000000000000000000000000000000000000000000000000000000000000000000000000000000000000011,
  0x200000000000000000000000000000000000000000000000000000000000000000000000000000000000000000000000000000000000012,
  0x80000000000000000000000000000000000000000000000000000000000000000000000000000000000000000000000000000000000000000013,
  0x40000000000000000000000000000000000000000000000000000000000000000000000000000000000000000000000000000000000000000000000014,
  0x10000000000000000000000000000000000000000000000000000000000000000000000000000000000000000000000000000000000000000000000000000015,
  0x4000000000000000000000000000000000000000000000000000000000000000000000000000000000000000000000000000000000000000000000000000000000016,
  0x10000000018, 0x8000000000000019, 0x200000000000000000001a, 0x80000000000000000000000001b, 0x40000000000000000000000000000001c,
  0x10000000000000000000000000000000000001d, 0x4000000000000000000000000000000000000000001e,
  0x1000000000000000000000000000000000000000000000001f, 0x8000000000000000000000000000000000000000000000000000020,
  0x2000000000000000000000000000000000000000000000000000000000021, 0x800000000000000000000000000000000000000000000000000000000000000022,
  0x200000000000000000000000000000000000000000000000000000000000000000000023,
  0x100000000000000000000000000000000000000000000000000000000000000000000000000024,
  0x40000000000000000000000000000000000000000000000000000000000000000000000000000000025,
  0x10000000000000000000000000000000000000000000000000000000000000000000000000000000000000026,
  0x4000000000000000000000000000000000000000000000000000000000000000000000000000000000000000000027,
  0x2000000000000000000000000000000000000000000000000000000000000000000000000000000000000000000000000028,
  0x800000000000000000000000000000000000000000000000000000000000000000000000000000000000000000000000000000029,
  0x20000000000000000000000000000000000000000000000000000000000000000000000000000000000000000000000000000000000002a,
  0x8000000000000000000000000000000000000000000000000000000000000000000000000000000000000000000000000000000000000000002b,
  0x4000000000000000000000000000000000000000000000000000000000000000000000000000000000000000000000000000000000000000000000002c,
  0x1000000000000000000000000000000000000000000000000000000000000000000000000000000000000000000000000000000000000000000000000000002d,
  0x400000000000000000000000000000000000000000000000000000000000000000000000000000000000000000000000000000000000000000000000000000000002e,
  0x100000000000000000000000000000000000000000000000000000000000000000000000000000000000000000000000000000000000000000000000000000000002f,
  0x1000000000000000000000000000000000000000000000000000000000000000000000000000000000000000000000000000000000000000000000000000030,
  0x1000000000000000000000000000000000000000000000000000000000000000000000000000000000000000000000000000000000000000000000031,
  0x1000000000000000000000000000000000000000000000000000000000000000000000000000000000000000000000000000000000000000032,
  0x100000000000000000000000000000000000000000000000000000000000000000000000000000000000000000000000000000000000033,
  0x100000000000000000000000000000000000000000000000000000000000000000000000000000000000000000000000000000034,
  0x100000000000000000000000000000000000000000000000000000000000000000000000000000000000000000000000035,
  0x100000000000000000000000000000000000000000000000000000000000000000000000000000000000000000036,
  0x10000000000000000000000000000000000000000000000000000000000000000000000000000000037,
  0x10000000000000000000000000000000000000000000000000000000000000000000000000038,
  0x10000000000000000000000000000000000000000000000000000000000000000000039,
  0x1000000000000000000000000000000000000000000000000000000000000003a, 0x100000000000000000000000000000000000000000000000000000000003b,
  0x100000000000000000000000000000000000000000000000000003c, 0x100000000000000000000000000000000000000000000003d,
  0x100000000000000000000000000000000000000003e, 0x10000000000000000000000000000003f, 0x100000000000000000000000040, 0x100000000000000000041,
  0x100000000000042, 0x10000000043, 0x1000000000044, 0x1000000000045, 0x100000000000046, 0x100000000000047, 0x100000000000048,
  0x10000000000000049, 0x1000000000000004a, 0x100000000000000004b, 0x100000000000000004c, 0x10000000000000000004d, 0x10000000000000000004e,
  0x10000000000000000004f, 0x10000000000000000000050, 0x10000000000000000000051, 0x1000000000000000000000052, 0x1000000000000000000000053,
  0x100000000000000000000000054, 0x100000000000000000000000055, 0x100000000000000000000000056, 0x10000000000000000000000000057,
  0x10000000000000000000000000058, 0x1000000000000000000000000000059, 0x100000000000000000000000000005a, 0x10000000000000000000000000000005b,
  0x10000000000000000000000000000005c, 0x10000000000000000000000000000005d, 0x1000000000000000000000000000000005e,
  0x1000000000000000000000000000000005f, 0x1000000000000000000000000000000000060, 0x100000000000000000000000000000000000061,
  0x10000000000000000000000000000000000000062, 0x10000000000000000000000000000000000000063, 0x1000000000000000000000000000000000000000064,
  0x1000000000000000000000000000000000000000065, 0x1000000000000000000000000000000000000000066,
  0x100000000000000000000000000000000000000000067, 0x100000000000000000000000000000000000000000068,
  0x10000000000000000000000000000000000000000000069, 0x1000000000000000000000000000000000000000000006a,
  0x100000000000000000000000000000000000000000000006b, 0x100000000000000000000000000000000000000000000006c,
  0x100000000000000000000000000000000000000000000006d, 0x10000000000000000000000000000000000000000000000006e,
  0x10000000000000000000000000000000000000000000000006f, 0x10000000000000000000000000000000000000000000000000070,
  0x10000000000000000000000000000000000000000000000000071, 0x1000000000000000000000000000000000000000000000000000072,
  0x1000000000000000000000000000000000000000000000000000073, 0x1000000000000000000000000000000000000000000000000000074,
  0x100000000000000000000000000000000000000000000000000000075, 0x100000000000000000000000000000000000000000000000000000076,
  0x10000000000000000000000000000000000000000000000000000000077, 0x10000000000000000000000000000000000000000000000000000000078,
  0x1000000000000000000000000000000000000000000000000000000000079, 0x100000000000000000000000000000000000000000000000000000000007a,
  0x100000000000000000000000000000000000000000000000000000000007b, 0x10000000000000000000000000000000000000000000000000000000000007c,
  0x10000000000000000000000000000000000000000000000000000000000007d, 0x1000000000000000000000000000000000000000000000000000000000000007e,
  0x1000000000000000000000000000000000000000000000000000000000000007f, 0x10000000000000000000000000000000000000000000000000000000000000080,
  0x1000000000000000000000000000000000000000000000000000000000000000081,
  0x1000000000000000000000000000000000000000000000000000000000000000082,
  0x100000000000000000000000000000000000000000000000000000000000000000083,
  0x100000000000000000000000000000000000000000000000000000000000000000084,
  0x10000000000000000000000000000000000000000000000000000000000000000000085,
  0x10000000000000000000000000000000000000000000000000000000000000000000086,
  0x10000000000000000000000000000000000000000000000000000000000000000000087,
  0x1000000000000000000000000000000000000000000000000000000000000000000000088,
  0x1000000000000000000000000000000000000000000000000000000000000000000000089,
  0x10000000000000000000000000000000000000000000000000000000000000000000000008a,
  0x10000000000000000000000000000000000000000000000000000000000000000000000008b,
  0x1000000000000000000000000000000000000000000000000000000000000000000000000008c,
  0x1000000000000000000000000000000000000000000000000000000000000000000000000008d,
  0x1000000000000000000000000000000000000000000000000000000000000000000000000008e,
  0x100000000000000000000000000000000000000000000000000000000000000000000000000008f,
  0x1000000000000000000000000000000000000000000000000000000000000000000000000000090,
  0x100000000000000000000000000000000000000000000000000000000000000000000000000000091,
  0x100000000000000000000000000000000000000000000000000000000000000000000000000000092,
  0x10000000000000000000000000000000000000000000000000000000000000000000000000000000093,
  0x10000000000000000000000000000000000000000000000000000000000000000000000000000000094,
  0x10000000000000000000000000000000000000000000000000000000000000000000000000000000095,
  0x1000000000000000000000000000000000000000000000000000000000000000000000000000000000096,
  0x1000000000000000000000000000000000000000000000000000000000000000000000000000000000097,
  0x100000000000000000000000000000000000000000000000000000000000000000000000000000000000098,
  0x10000000000000000000000000000000000000000000000000000000000000000000000000000000000000099,
  0x100000000000000000000000000000000000000000000000000000000000000000000000000000000000000009a,
  0x100000000000000000000000000000000000000000000000000000000000000000000000000000000000000009b,
  0x10000000000000000000000000000000000000000000000000000000000000000000000000000000000000000009c,
  0x10000000000000000000000000000000000000000000000000000000000000000000000000000000000000000009d,
  0x10000000000000000000000000000000000000000000000000000000000000000000000000000000000000000009e,
  0x1000000000000000000000000000000000000000000000000000000000000000000000000000000000000000000009f,
  0x100000000000000000000000000000000000000000000000000000000000000000000000000000000000000000000a0,
  0x10000000000000000000000000000000000000000000000000000000000000000000000000000000000000000000000a1,
  0x10000000000000000000000000000000000000000000000000000000000000000000000000000000000000000000000a2,
  0x1000000000000000000000000000000000000000000000000000000000000000000000000000000000000000000000000a3,
  0x1000000000000000000000000000000000000000000000000000000000000000000000000000000000000000000000000a4,
  0x1000000000000000000000000000000000000000000000000000000000000000000000000000000000000000000000000a5,
  0x100000000000000000000000000000000000000000000000000000000000000000000000000000000000000000000000000a6,
  0x100000000000000000000000000000000000000000000000000000000000000000000000000000000000000000000000000a7,
  0x10000000000000000000000000000000000000000000000000000000000000000000000000000000000000000000000000000a8,
  0x10000000000000000000000000000000000000000000000000000000000000000000000000000000000000000000000000000a9,
  0x1000000000000000000000000000000000000000000000000000000000000000000000000000000000000000000000000000000aa,
  0x1000000000000000000000000000000000000000000000000000000000000000000000000000000000000000000000000000000ab,
  0x1000000000000000000000000000000000000000000000000000000000000000000000000000000000000000000000000000000ac,
  0x100000000000000000000000000000000000000000000000000000000000000000000000000000000000000000000000000000000ad,
  0x100000000000000000000000000000000000000000000000000000000000000000000000000000000000000000000000000000000ae,
  0x10000000000000000000000000000000000000000000000000000000000000000000000000000000000000000000000000000000000af,
  0x10000000000000000000000000000000000000000000000000000000000000000000000000000000000000000000000000000000000b0,
  0x1000000000000000000000000000000000000000000000000000000000000000000000000000000000000000000000000000000000000b1,
  0x1000000000000000000000000000000000000000000000000000000000000000000000000000000000000000000000000000000000000b2,
  0x1000000000000000000000000000000000000000000000000000000000000000000000000000000000000000000000000000000000000b3,
  0x100000000000000000000000000000000000000000000000000000000000000000000000000000000000000000000000000000000000000b4,
  0x100000000000000000000000000000000000000000000000000000000000000000000000000000000000000000000000000000000000000b5,
  0x10000000000000000000000000000000000000000000000000000000000000000000000000000000000000000000000000000000000000000b6,
  0x10000000000000000000000000000000000000000000000000000000000000000000000000000000000000000000000000000000000000000b7,
  0x10000000000000000000000000000000000000000000000000000000000000000000000000000000000000000000000000000000000000000b8,
  0x1000000000000000000000000000000000000000000000000000000000000000000000000000000000000000000000000000000000000000000b9,
  0x1000000000000000000000000000000000000000000000000000000000000000000000000000000000000000000000000000000000000000000ba,
  0x100000000000000000000000000000000000000000000000000000000000000000000000000000000000000000000000000000000000000000000bb,
  0x100000000000000000000000000000000000000000000000000000000000000000000000000000000000000000000000000000000000000000000bc,
  0x10000000000000000000000000000000000000000000000000000000000000000000000000000000000000000000000000000000000000000000000bd,
  0x10000000000000000000000000000000000000000000000000000000000000000000000000000000000000000000000000000000000000000000000be,
  0x10000000000000000000000000000000000000000000000000000000000000000000000000000000000000000000000000000000000000000000000bf,
  0x1000000000000000000000000000000000000000000000000000000000000000000000000000000000000000000000000000000000000000000000000c0,
  0x1000000000000000000000000000000000000000000000000000000000000000000000000000000000000000000000000000000000000000000000000c1,
  0x100000000000000000000000000000000000000000000000000000000000000000000000000000000000000000000000000000000000000000000000000c2,
  0x100000000000000000000000000000000000000000000000000000000000000000000000000000000000000000000000000000000000000000000000000c3,
  0x10000000000000000000000000000000000000000000000000000000000000000000000000000000000000000000000000000000000000000000000000000c4,
  0x10000000000000000000000000000000000000000000000000000000000000000000000000000000000000000000000000000000000000000000000000000c5,
  0x10000000000000000000000000000000000000000000000000000000000000000000000000000000000000000000000000000000000000000000000000000c6,
  0x1000000000000000000000000000000000000000000000000000000000000000000000000000000000000000000000000000000000000000000000000000000c7,
  0x1000000000000000000000000000000000000000000000000000000000000000000000000000000000000000000000000000000000000000000000000000000c8,
  0x100000000000000000000000000000000000000000000000000000000000000000000000000000000000000000000000000000000000000000000000000000000c9,
  0x100000000000000000000000000000000000000000000000000000000000000000000000000000000000000000000000000000000000000000000000000000000ca,
  0x10000000000000000000000000000000000000000000000000000000000000000000000000000000000000000000000000000000000000000000000000000000000cb,
  0x10000000000000000000000000000000000000000000000000000000000000000000000000000000000000000000000000000000000000000000000000000000000cc,
  0x10000000000000000000000000000000000000000000000000000000000000000000000000000000000000000000000000000000000000000000000000000000000cd,
  0x1000000000000000000000000000000000000000000000000000000000000000000000000000000000000000000000000000000000000000000000000000000000000ce,
  0x1000000000000000000000000000000000000000000000000000000000000000000000000000000000000000000000000000000000000000000000000000000000000cf,
  0x100000000000000000000000000000000000000000000000000000000000000000000000000000000000000000000000000000000000000000000000000000000000000d0]

theorem c8 : condChecks [] to_bytes tight [] kb W sb (byteW 64) (List.replicate 64 255) p (256 ^ 64) (256 ^ 64) = true := by decide +kernel

theorem facts : SolFacts file p 64 W bal tight :=
  SolFacts.of_checks (wide := wide) (sb := sb) (K := kb) c1 c2 c3 c4 c5 c6 c7 c8 rfl rfl (by decide +kernel) (by decide +kernel) (by decide +kernel)
    (by decide +kernel) (by decide +kernel) (by decide +kernel) (by decide +kernel) (by decide +kernel) (by decide +kernel)

/-- The field operations of the file, on limbs within `bal`, are those modulo `p`. -/
theorem field_sound [Fact (Nat.Prime p)] : file.ops.Sound p 64 (fun x => Bounded x bal) (solVal p W) :=
  facts.sound (by decide +kernel) (by decide +kernel)

end Gost.Ecp_tc26_512_paramSetC_32
